import Verif.Proofs.Approx
import Verif.Props.Lab2
import Mathlib.Analysis.SpecialFunctions.Pow.Real
import Mathlib.Analysis.SpecialFunctions.Exp
import Mathlib.Analysis.Complex.ExponentialBounds
/-! Absolute error bounds for f32 computations whose ideal value is a real number, including powers computed by an accurate
libm. -/
namespace Imgproc
open FloatOps

/-- spec: the platform's `powf` is accurate to a relative error of 2^-21 (about four units in the last place) for bases
between 2^-20 and 2 and exponents between 0 and 4 -/
def PowAccurate [Libm f32] : Prop := ∀ (x y : F32) (a b : Rat), x.Is a → y.Is b → 1 / 2 ^ 20 ≤ a → a ≤ 2 → 0 < b → b ≤ 4 →
  ∃ c : Rat, (FloatOps.pow x y).Is c ∧ |(c : ℝ) - (a : ℝ) ^ (b : ℝ)| ≤ (a : ℝ) ^ (b : ℝ) / 2 ^ 21

/-- the float `x` is a number within `e` of the real number `r` -/
def Near (x : F32) (r e : ℝ) : Prop := ∃ a : Rat, x.Is a ∧ |(a : ℝ) - r| ≤ e

theorem Near.mono {x : F32} {r e e' : ℝ} (h : Near x r e) (he : e ≤ e') : Near x r e' := by
  obtain ⟨a, ha, hb⟩ := h; exact ⟨a, ha, hb.trans he⟩
theorem Near.exact {x : F32} {q : Rat} (h : x.Is q) : Near x (q : ℝ) 0 := ⟨q, h, by simp⟩
theorem Near.of_eq {x : F32} {r s e : ℝ} (h : Near x r e) (hs : r = s) : Near x s e := hs ▸ h

theorem rnd_real_err {q : Rat} {B : ℝ} (h : |(q : ℝ)| ≤ B) (hB : 1 / 1000000 ≤ B) : |((f32.rnd q : Rat) : ℝ) - q| ≤ B / 16777216 := by
  have he := rndQ_err (f := f32.toRFmt) q
  have h1 : pow2 (-(f32.p : Int)) = 1 / 16777216 := by norm_num [f32, pow2_eq]
  have h2 : pow2 (f32.emin - 1) ≤ 1 / 2 ^ 149 := by norm_num [f32, pow2_eq]
  rw [show (f32.toRFmt.p : Int) = (f32.p : Int) from rfl, h1] at he
  have he' : |((f32.rnd q : Rat) : ℝ) - q| ≤ ((max (|q| * (1 / 16777216)) (pow2 (f32.emin - 1)) : Rat) : ℝ) := by
    rw [← Rat.cast_sub, ← Rat.cast_abs]; exact_mod_cast he
  rw [Rat.cast_max] at he'
  refine he'.trans (max_le (by push_cast; linarith) ?_)
  have h3 : ((pow2 (f32.emin - 1) : Rat) : ℝ) ≤ ((1 / 2 ^ 149 : Rat) : ℝ) := by exact_mod_cast h2
  refine h3.trans ?_
  have : ((1 / 2 ^ 149 : Rat) : ℝ) ≤ 1 / 1000000 / 16777216 := by norm_num
  linarith

theorem ovf_real {q : Rat} (h : |(q : ℝ)| ≤ 10000) : |f32.rnd q| < pow2 f32.emax := by
  refine f32_ovf ?_
  have : |q| ≤ 10000 := by rw [← Rat.cast_abs] at h; exact_mod_cast h
  exact this.trans (by norm_num)

theorem abs_of_near {a r B e : ℝ} (ha : |a - r| ≤ e) (hr : |r| ≤ B) : |a| ≤ B + e := by
  have := abs_add_le (a - r) r
  rw [sub_add_cancel] at this; linarith

theorem Near.rnd {x : F32} {a : Rat} {r e B e' : ℝ} (hx : x.Is (f32.rnd a)) (ha : |(a : ℝ) - r| ≤ e) (hr : |r| ≤ B)
    (hB : 1 / 1000000 ≤ B) (he : e + (B + e) / 16777216 ≤ e') : Near x r e' := by
  have e0 : 0 ≤ e := le_trans (abs_nonneg _) ha
  have := rnd_real_err (abs_of_near ha hr) (by linarith)
  refine ⟨_, hx, ?_⟩
  have t := abs_add_le (((f32.rnd a : Rat) : ℝ) - a) ((a : ℝ) - r)
  rw [sub_add_sub_cancel] at t
  linarith

section
variable [Libm f32]

theorem Near.lit {q : Rat} {B : ℝ} (hB : 1 / 1000000 ≤ B) (h : |(q : ℝ)| ≤ B) (hB' : B ≤ 10000) :
    Near (lit q) (q : ℝ) (B / 16777216) := by
  refine Near.rnd (a := q) (e := 0) (lit_is (ovf_real (h.trans hB'))) (by simp) h hB (by simp)

theorem Near.byte (v : UInt8) : Near (ofU8 v) (v.toNat : ℝ) 0 := by
  have := Near.exact (ofU8_is v); simpa using this
theorem Near.num {n : Int} (h : |n| ≤ 16777216) : Near (num n) (n : ℝ) 0 := by
  have := Near.exact (num32 h); simpa using this

theorem Near.add {x y : F32} {p q e f B e' : ℝ} (hx : Near x p e) (hy : Near y q f) (hB : 1 / 1000000 ≤ B) (hb : |p + q| ≤ B)
    (hBe : B + e + f ≤ 10000) (he : e + f + (B + (e + f)) / 16777216 ≤ e') : Near (x +. y) (p + q) e' := by
  obtain ⟨a, ha, a1⟩ := hx
  obtain ⟨b, hb', b1⟩ := hy
  have hab : |((a + b : Rat) : ℝ) - (p + q)| ≤ e + f := by
    push_cast
    rw [show (a : ℝ) + b - (p + q) = (a - p) + (b - q) by ring]
    exact le_trans (abs_add_le _ _) (by linarith)
  exact Near.rnd (add_is ha hb' (ovf_real ((abs_of_near hab hb).trans (by linarith)))) hab hb hB he

theorem Near.sub {x y : F32} {p q e f B e' : ℝ} (hx : Near x p e) (hy : Near y q f) (hB : 1 / 1000000 ≤ B) (hb : |p - q| ≤ B)
    (hBe : B + e + f ≤ 10000) (he : e + f + (B + (e + f)) / 16777216 ≤ e') : Near (x -. y) (p - q) e' := by
  obtain ⟨a, ha, a1⟩ := hx
  obtain ⟨b, hb', b1⟩ := hy
  have hab : |((a - b : Rat) : ℝ) - (p - q)| ≤ e + f := by
    push_cast
    rw [show (a : ℝ) - b - (p - q) = (a - p) - (b - q) by ring]
    exact le_trans (abs_sub _ _) (by linarith)
  exact Near.rnd (sub_is ha hb' (ovf_real ((abs_of_near hab hb).trans (by linarith)))) hab hb hB he

theorem Near.mul {x y : F32} {p q e f B C e' : ℝ} (hx : Near x p e) (hy : Near y q f) (hB : |p| ≤ B) (hC : |q| ≤ C)
    (hBC : 1 / 1000000 ≤ B * C) (hBe : B * C + (B * f + C * e + e * f) ≤ 10000)
    (he : (B * f + C * e + e * f) + (B * C + (B * f + C * e + e * f)) / 16777216 ≤ e') : Near (x *. y) (p * q) e' := by
  obtain ⟨a, ha, a1⟩ := hx
  obtain ⟨b, hb', b1⟩ := hy
  have hab : |((a * b : Rat) : ℝ) - p * q| ≤ B * f + C * e + e * f := by
    push_cast
    rw [show (a : ℝ) * b - p * q = p * (b - q) + (a - p) * q + (a - p) * (b - q) by ring]
    have t1 : |p * (b - q)| ≤ B * f := by
      rw [abs_mul]; exact mul_le_mul hB b1 (abs_nonneg _) (le_trans (abs_nonneg _) hB)
    have t2 : |(a - p) * q| ≤ C * e := by
      rw [abs_mul, mul_comm]; exact mul_le_mul hC a1 (abs_nonneg _) (le_trans (abs_nonneg _) hC)
    have t3 : |(a - p) * (b - q)| ≤ e * f := by
      rw [abs_mul]; exact mul_le_mul a1 b1 (abs_nonneg _) (le_trans (abs_nonneg _) a1)
    exact le_trans (abs_add_le _ _) (by linarith [abs_add_le (p * (b - q)) ((a - p) * q)])
  have hpq : |p * q| ≤ B * C := by
    rw [abs_mul]; exact mul_le_mul hB hC (abs_nonneg _) (le_trans (abs_nonneg _) hB)
  exact Near.rnd (mul_is ha hb' (ovf_real ((abs_of_near hab hpq).trans (by linarith)))) hab hpq hBC he

/-- a quotient of absolute value at most `B` by a number of at least `L` -/
theorem Near.div {x y : F32} {p q e f L B e' : ℝ} (hx : Near x p e) (hy : Near y q f) (hL : L ≤ q) (hf : f < L)
    (hpq : |p / q| ≤ B) (hB : 1 / 1000000 ≤ B) (hBe : B + (e + B * f) / (L - f) ≤ 10000)
    (he : (e + B * f) / (L - f) + (B + (e + B * f) / (L - f)) / 16777216 ≤ e') : Near (x /. y) (p / q) e' := by
  obtain ⟨a, ha, a1⟩ := hx
  obtain ⟨b, hb', b1⟩ := hy
  have hbL : L - f ≤ b := by rw [abs_le] at b1; linarith [b1.1]
  have bpos : (0 : ℝ) < b := by linarith
  have f0 : 0 ≤ f := le_trans (abs_nonneg _) b1
  have e0 : 0 ≤ e := le_trans (abs_nonneg _) a1
  have qpos : 0 < q := by linarith
  have hab : |((a / b : Rat) : ℝ) - p / q| ≤ (e + B * f) / (L - f) := by
    push_cast
    have : (a : ℝ) / b - p / q = ((a - p) - p / q * (b - q)) / b := by field_simp; ring
    rw [this, abs_div, abs_of_pos bpos]
    have n : |((a : ℝ) - p) - p / q * (b - q)| ≤ e + B * f := by
      refine le_trans (abs_sub _ _) ?_
      rw [abs_mul]
      have := mul_le_mul hpq b1 (abs_nonneg _) (le_trans (abs_nonneg _) hpq)
      linarith
    exact div_le_div₀ (by positivity) n (by linarith) hbL
  exact Near.rnd (div_is ha hb' (by exact_mod_cast bpos.ne') (ovf_real ((abs_of_near hab hpq).trans (by linarith)))) hab hpq hB he

/-- powers depend continuously on base and exponent -/
theorem rpow_close {a r b s δ η Λ : ℝ} (hr : 0 < r) (ha : |a - r| ≤ δ * r) (hδ : δ ≤ 1 / 1000) (hb0 : 0 ≤ b)
    (hb : |b - s| ≤ η) (hl : |Real.log r| ≤ Λ) (ht : 1.002 * b * δ + η * Λ ≤ 1 / 1000) :
    |a ^ b - r ^ s| ≤ 1.001 * (1.002 * b * δ + η * Λ) * r ^ s := by
  have δ0 : 0 ≤ δ := by
    by_contra h
    have := abs_nonneg (a - r)
    nlinarith
  have η0 : 0 ≤ η := le_trans (abs_nonneg _) hb
  have Λ0 : 0 ≤ Λ := le_trans (abs_nonneg _) hl
  have ha' := abs_le.1 ha
  have hrd : δ * r ≤ r / 1000 := by nlinarith
  have apos : 0 < a := by nlinarith
  have hlog : |Real.log a - Real.log r| ≤ 1.002 * δ := by
    rw [← Real.log_div apos.ne' hr.ne', abs_le]
    have u := Real.log_le_sub_one_of_pos (div_pos apos hr)
    have l := Real.log_le_sub_one_of_pos (div_pos hr apos)
    have e : Real.log (r / a) = - Real.log (a / r) := by rw [← Real.log_inv, inv_div]
    rw [e] at l
    have u' : a / r - 1 ≤ δ := by rw [div_sub_one hr.ne', div_le_iff₀ hr]; linarith
    have l' : r / a - 1 ≤ 1.002 * δ := by
      rw [div_sub_one apos.ne', div_le_iff₀ apos]
      nlinarith
    constructor <;> linarith
  have ea : a ^ b = r ^ s * Real.exp (b * Real.log a - s * Real.log r) := by
    rw [Real.rpow_def_of_pos apos, Real.rpow_def_of_pos hr, ← Real.exp_add]
    congr 1; ring
  set t := b * Real.log a - s * Real.log r with ht'
  have tb : |t| ≤ 1.002 * b * δ + η * Λ := by
    have : t = b * (Real.log a - Real.log r) + (b - s) * Real.log r := by rw [ht']; ring
    rw [this]
    refine (abs_add_le _ _).trans ?_
    rw [abs_mul, abs_mul, abs_of_nonneg hb0]
    have := mul_le_mul_of_nonneg_left hlog hb0
    have := mul_le_mul hb hl (abs_nonneg _) η0
    linarith
  have hexp : |Real.exp t - 1| ≤ 1.001 * (1.002 * b * δ + η * Λ) := by
    have := Real.abs_exp_sub_one_sub_id_le (x := t) (by linarith)
    have t2 : t ^ 2 ≤ 1 / 1000 * (1.002 * b * δ + η * Λ) := by
      rw [← sq_abs, sq]
      exact mul_le_mul (tb.trans ht) tb (abs_nonneg _) (by norm_num)
    have := abs_add_le (Real.exp t - 1 - t) t
    rw [sub_add_cancel] at this
    linarith
  rw [ea, ← mul_sub_one, abs_mul, abs_of_pos (Real.rpow_pos_of_pos hr s), mul_comm]
  exact mul_le_mul_of_nonneg_right hexp (Real.rpow_pos_of_pos hr s).le

/-- a power computed by an accurate libm -/
theorem Near.pow (hp : PowAccurate) {x y : F32} {r s δ η Λ S κ : ℝ} (hx : Near x r (δ * r)) (hy : Near y s η)
    (hr0 : 1 / 2 ^ 19 ≤ r) (hr1 : r ≤ 1.9) (hδ : δ ≤ 1 / 1000) (hs0 : η < s) (hs1 : s + η ≤ S) (hS : S ≤ 4)
    (hl : |Real.log r| ≤ Λ) (hκ : 1.002 * S * δ + η * Λ ≤ κ) (hκ' : κ ≤ 1 / 1000) :
    Near (FloatOps.pow x y) (r ^ s) ((1.002 * κ + 1 / 2 ^ 21) * r ^ s) := by
  obtain ⟨a, ha, a1⟩ := hx
  obtain ⟨b, hb, b1⟩ := hy
  have rpos : 0 < r := by linarith [show (0 : ℝ) < 1 / 2 ^ 19 by positivity]
  have hrd : δ * r ≤ r / 1000 := by nlinarith
  have δ0 : 0 ≤ δ := by
    by_contra h
    have := abs_nonneg ((a : ℝ) - r)
    nlinarith
  have a2 := abs_le.1 a1
  have b2 := abs_le.1 b1
  have alo : (1 : Rat) / 2 ^ 20 ≤ a := by
    have : ((1 / 2 ^ 20 : Rat) : ℝ) ≤ a := by
      push_cast
      have : (1 : ℝ) / 2 ^ 20 = 1 / 2 ^ 19 / 2 := by norm_num
      linarith
    exact_mod_cast this
  have ahi : a ≤ 2 := by
    have : (a : ℝ) ≤ ((2 : Rat) : ℝ) := by push_cast; linarith
    exact_mod_cast this
  have blo : 0 < b := by
    have : ((0 : Rat) : ℝ) < b := by push_cast; linarith
    exact_mod_cast this
  have bhi : b ≤ 4 := by
    have : (b : ℝ) ≤ ((4 : Rat) : ℝ) := by push_cast; linarith
    exact_mod_cast this
  obtain ⟨c, hc, c1⟩ := hp x y a b ha hb alo ahi blo bhi
  have b0 : (0 : ℝ) ≤ b := by exact_mod_cast blo.le
  have bS : (b : ℝ) ≤ S := by linarith
  have hκb : 1.002 * (b : ℝ) * δ + η * Λ ≤ κ := by
    have := mul_le_mul_of_nonneg_right bS δ0
    linarith
  have close := rpow_close rpos a1 hδ b0 b1 hl (hκb.trans hκ')
  refine ⟨c, hc, ?_⟩
  have P0 := (Real.rpow_pos_of_pos rpos s).le
  have close' : |(a : ℝ) ^ (b : ℝ) - r ^ s| ≤ 1.001 * κ * r ^ s :=
    close.trans (mul_le_mul_of_nonneg_right (by linarith) P0)
  have κ0 : 0 ≤ κ := le_trans (by
    have : 0 ≤ η := le_trans (abs_nonneg _) b1
    have : 0 ≤ Λ := le_trans (abs_nonneg _) hl
    positivity) hκb
  have up := (abs_le.1 close').2
  have t := abs_add_le ((c : ℝ) - (a : ℝ) ^ (b : ℝ)) ((a : ℝ) ^ (b : ℝ) - r ^ s)
  rw [sub_add_sub_cancel] at t
  have : (a : ℝ) ^ (b : ℝ) / 2 ^ 21 ≤ (r ^ s + 1.001 * κ * r ^ s) / 2 ^ 21 := by gcongr; linarith
  have : (r ^ s + 1.001 * κ * r ^ s) / 2 ^ 21 ≤ r ^ s / 2 ^ 21 + 0.001 * κ * r ^ s := by
    have : 0 ≤ κ * r ^ s := by positivity
    rw [add_div]
    have : 1.001 * κ * r ^ s / 2 ^ 21 ≤ 0.001 * κ * r ^ s := by
      rw [div_le_iff₀ (by norm_num)]; nlinarith
    linarith
  linarith

/-- truncation of a number less than one away from the byte `n` gives `n` or `n - 1` -/
theorem Near.toU8 {x : F32} {n : Nat} {e : ℝ} (h : Near x n e) (he : e < 1) (hn : n ≤ 255) :
    (toU8 x).toNat ≤ n ∧ n ≤ (toU8 x).toNat + 1 := by
  obtain ⟨a, ha, h⟩ := h
  refine App.toU8 (x := x) (n := n) (e := |a - n|) ⟨a, ha, le_refl _⟩ ?_ hn
  have : ((|a - n| : Rat) : ℝ) < ((1 : Rat) : ℝ) := by push_cast; linarith
  exact_mod_cast this
end
end Imgproc

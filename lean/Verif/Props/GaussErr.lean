import Verif.Props.LanczosErr
import Verif.Props.Kernels
import Mathlib.Analysis.Complex.ExponentialBounds
/-! Property C116: what the Gaussian and Laplacian-of-Gaussian kernels hold in f32. -/
namespace Imgproc
open FloatOps

/-- the float `x` is a number within a relative error `k` of the real number `r` -/
def Rel (x : F32) (r k : ℝ) : Prop := ∃ a : Rat, x.Is a ∧ |(a : ℝ) - r| ≤ k * |r|

theorem Rel.exact {x : F32} {q : Rat} (h : x.Is q) : Rel x (q : ℝ) 0 := ⟨q, h, by simp⟩
theorem Rel.mono {x : F32} {r k l : ℝ} (h : Rel x r k) (hl : k ≤ l) : Rel x r l := by
  obtain ⟨a, ha, e⟩ := h
  exact ⟨a, ha, e.trans (mul_le_mul_of_nonneg_right hl (abs_nonneg _))⟩

theorem abs_le_of_rel {a r k : ℝ} (h : |a - r| ≤ k * |r|) : |a| ≤ (1 + k) * |r| := by
  have := abs_add_le (a - r) r
  rw [sub_add_cancel] at this; linarith
theorem le_abs_of_rel {a r k : ℝ} (h : |a - r| ≤ k * |r|) : (1 - k) * |r| ≤ |a| := by
  have := abs_sub_abs_le_abs_sub r a
  rw [abs_sub_comm] at this; linarith

theorem rel_ovf {q : Rat} {r k : ℝ} (h : |(q : ℝ) - r| ≤ k * |r|) (k1 : k ≤ 1 / 2) (hr : |r| ≤ 2 ^ 90) : |f32.rnd q| < pow2 f32.emax := by
  refine f32_ovf ?_
  have h1 := abs_le_of_rel h
  have : |(q : ℝ)| ≤ ((2 ^ 100 : Rat) : ℝ) := by
    push_cast
    have : (1 + k) * |r| ≤ (3 / 2) * 2 ^ 90 := mul_le_mul (by linarith) hr (abs_nonneg _) (by norm_num)
    norm_num at this ⊢
    linarith
  rw [← Rat.cast_abs] at this
  exact_mod_cast this

section
variable [Libm f32]

theorem Rel.mul {x y : F32} {r s k l K : ℝ} (hx : Rel x r k) (hy : Rel y s l) (k0 : 0 ≤ k) (l0 : 0 ≤ l) (hlo : 1 / 2 ^ 60 ≤ |r * s|)
    (hhi : |r * s| ≤ 2 ^ 90) (h1 : k + l + k * l ≤ 1 / 2) (hK : (k + l + k * l) + (1 + (k + l + k * l)) / 16777216 ≤ K) : Rel (x *. y) (r * s) K := by
  obtain ⟨a, ha, ea⟩ := hx
  obtain ⟨b, hb, eb⟩ := hy
  have e : |((a * b : Rat) : ℝ) - r * s| ≤ (k + l + k * l) * |r * s| := by
    push_cast
    rw [show (a : ℝ) * b - r * s = (a - r) * s + r * (b - s) + (a - r) * (b - s) by ring, abs_mul r s]
    refine (abs_add_three _ _ _).trans ?_
    rw [abs_mul, abs_mul, abs_mul]
    have t1 := mul_le_mul_of_nonneg_right ea (abs_nonneg s)
    have t2 := mul_le_mul_of_nonneg_left eb (abs_nonneg r)
    have t3 := mul_le_mul ea eb (abs_nonneg _) (by positivity)
    nlinarith
  exact ⟨_, mul_is ha hb (rel_ovf e h1 hhi), (rnd_rel_real e (by positivity) h1 hlo).trans (mul_le_mul_of_nonneg_right hK (abs_nonneg _))⟩

theorem Rel.div {x y : F32} {r s k l K : ℝ} (hx : Rel x r k) (hy : Rel y s l) (k0 : 0 ≤ k) (l0 : 0 ≤ l) (l1 : l ≤ 1 / 4) (hs : s ≠ 0) (hlo : 1 / 2 ^ 60 ≤ |r / s|)
    (hhi : |r / s| ≤ 2 ^ 90) (h1 : (k + l) / (1 - l) ≤ 1 / 2) (hK : (k + l) / (1 - l) + (1 + (k + l) / (1 - l)) / 16777216 ≤ K) : Rel (x /. y) (r / s) K := by
  obtain ⟨a, ha, ea⟩ := hx
  obtain ⟨b, hb, eb⟩ := hy
  have s0 : 0 < |s| := abs_pos.2 hs
  have b1 := le_abs_of_rel eb
  have b0 : 0 < |(b : ℝ)| := lt_of_lt_of_le (mul_pos (by linarith) s0) b1
  have bn : (b : ℝ) ≠ 0 := abs_pos.1 b0
  have e : |((a / b : Rat) : ℝ) - r / s| ≤ (k + l) / (1 - l) * |r / s| := by
    push_cast
    rw [show (a : ℝ) / b - r / s = ((a - r) - r / s * (b - s)) / b by field_simp; ring, abs_div, div_le_iff₀ b0]
    refine (abs_sub _ _).trans ?_
    rw [abs_mul]
    have t2 := mul_le_mul_of_nonneg_left eb (abs_nonneg (r / s))
    have e1 : |r| = |r / s| * |s| := by rw [← abs_mul, div_mul_cancel₀ _ hs]
    rw [e1] at ea
    have : (k + l) / (1 - l) * |r / s| * ((1 - l) * |s|) ≤ (k + l) / (1 - l) * |r / s| * |(b : ℝ)| :=
      mul_le_mul_of_nonneg_left b1 (mul_nonneg (div_nonneg (by linarith) (by linarith)) (abs_nonneg _))
    have e2 : (k + l) / (1 - l) * |r / s| * ((1 - l) * |s|) = (k + l) * (|r / s| * |s|) := by
      field_simp [show (1 - l) ≠ 0 by linarith]
    linarith
  have q0 : 0 ≤ (k + l) / (1 - l) := div_nonneg (by linarith) (by linarith)
  exact ⟨_, div_is ha hb (by exact_mod_cast bn) (rel_ovf e h1 hhi), (rnd_rel_real e q0 h1 hlo).trans (mul_le_mul_of_nonneg_right hK (abs_nonneg _))⟩

/-- spec: the platform's `powf` on a positive base: when the true power is at most 2^100 the result is a non-negative number
with a relative error of at most 2^-22 (about two units in the last place), or an absolute error of 2^-140 near underflow -/
def PowGood : Prop := ∀ (x y : F32) (a b : Rat), x.Is a → y.Is b → 0 < a → (a : ℝ) ^ (b : ℝ) ≤ 2 ^ 100 →
  ∃ c : Rat, (FloatOps.pow x y).Is c ∧ 0 ≤ c ∧ |(c : ℝ) - (a : ℝ) ^ (b : ℝ)| ≤ (a : ℝ) ^ (b : ℝ) / 2 ^ 22 + 1 / 2 ^ 140

omit [Libm f32] in
theorem log_e32 : |Real.log ((11401300 / 4194304 : Rat) : ℝ) - 1| ≤ 0.55 / 16777216 := by
  have g := Real.exp_one_gt_d9
  have l := Real.exp_one_lt_d9
  have e0 := Real.exp_pos 1
  set E : ℝ := ((11401300 / 4194304 : Rat) : ℝ) with hE
  have hE' : E = 11401300 / 4194304 := by rw [hE]; norm_num
  have e : Real.log E - 1 = Real.log (E / Real.exp 1) := by
    rw [Real.log_div (by rw [hE']; norm_num) e0.ne', Real.log_exp]
  rw [e, abs_le]
  constructor
  · have := Real.one_sub_inv_le_log_of_pos (x := E / Real.exp 1) (by rw [hE']; positivity)
    rw [inv_div] at this
    have : Real.exp 1 / E ≤ 1 + 0.55 / 16777216 := by
      rw [hE', div_le_iff₀ (by norm_num)]
      norm_num at l ⊢
      linarith
    linarith
  · refine le_trans (Real.log_nonpos (by rw [hE']; positivity) ?_) (by norm_num)
    rw [div_le_one e0, hE']
    norm_num at g ⊢
    linarith

omit [Libm f32] in
theorem exp_neg_small {z : ℝ} (h : 200 ≤ z) : Real.exp (-z) ≤ 1 / 2 ^ 200 := by
  have h1 : Real.exp (-z) ≤ Real.exp (-((200 : ℕ) : ℝ)) := Real.exp_le_exp.2 (by push_cast; linarith)
  refine h1.trans ?_
  rw [Real.exp_neg, ← mul_one ((200 : ℕ) : ℝ), Real.exp_nat_mul, ← one_div]
  have : (2 : ℝ) ≤ Real.exp 1 := by have := Real.exp_one_gt_d9; norm_num at this; linarith
  exact one_div_le_one_div_of_le (by positivity) (pow_le_pow_left₀ (by norm_num) this _)

/-- `E.powf(x)` for an exponent known up to a few roundings -/
theorem exp_err (hp : PowGood) {x : F32} {b : Rat} {z : ℝ} (hx : x.Is b) (z0 : 0 ≤ z) (h : |(b : ℝ) - -z| ≤ 4 / 16777216 * |-z|) :
    ∃ c : Rat, (FloatOps.pow FloatOps.e x).Is c ∧ 0 ≤ c ∧ |(c : ℝ) - Real.exp (-z)| ≤ 4.7 / 16777216 * ((1 + z) * Real.exp (-z)) + 1 / 2 ^ 139 := by
  have he : (FloatOps.e : F32).Is (11401300 / 4194304) := by
    have : f32.Exact (11401300 / 4194304 : Rat) := by
      have := f32_dy (m := 11401300) (k := 22) (by decide) (by decide)
      norm_num at this ⊢
      exact this
    exact lit_exact this
  rw [abs_neg, abs_of_nonneg z0] at h
  have h' := abs_le.1 h
  have b0 : (b : ℝ) ≤ 0 := by linarith
  have hL := log_e32
  set L := Real.log ((11401300 / 4194304 : Rat) : ℝ) with hLd
  have hL' := abs_le.1 hL
  have hpw : (((11401300 / 4194304 : Rat)) : ℝ) ^ (b : ℝ) = Real.exp (b * L) := by
    rw [Real.rpow_def_of_pos (by norm_num), mul_comm]
  have bL : (b : ℝ) * L ≤ 0 := mul_nonpos_of_nonpos_of_nonneg b0 (by linarith)
  obtain ⟨c, hc, c0, ec⟩ := hp _ _ _ _ he hx (by norm_num) (by
    rw [hpw]
    exact (Real.exp_le_one_iff.2 bL).trans (by norm_num))
  rw [hpw] at ec
  refine ⟨c, hc, c0, ?_⟩
  have t : |(b : ℝ) * L + z| ≤ 4.56 / 16777216 * z := by
    rw [show (b : ℝ) * L + z = (b - -z) * L - z * (L - 1) by ring]
    refine (abs_sub _ _).trans ?_
    rw [abs_mul, abs_mul, abs_of_nonneg z0]
    have t1 : |(b : ℝ) - -z| * |L| ≤ 4 / 16777216 * z * (1 + 0.55 / 16777216) := by
      refine mul_le_mul h ?_ (abs_nonneg _) (by positivity)
      rw [abs_of_nonneg (by linarith)]
      linarith
    have t2 := mul_le_mul_of_nonneg_left hL z0
    norm_num at t1 t2 ⊢
    linarith
  have E0 := Real.exp_pos (-z)
  set E := Real.exp (-z) with hE
  rcases le_or_gt z 65536 with hz | hz
  · set τ := (b : ℝ) * L + z with hτ
    have τ1 : |τ| ≤ 0.0179 := t.trans (by norm_num; linarith)
    have e1 : Real.exp (b * L) = E * Real.exp τ := by rw [hE, ← Real.exp_add]; congr 1; rw [hτ]; ring
    have e2 : |Real.exp τ - 1| ≤ 4.66 / 16777216 * z := by
      have := Real.abs_exp_sub_one_sub_id_le (x := τ) (by linarith)
      have e := abs_add_le (Real.exp τ - 1 - τ) τ
      rw [sub_add_cancel] at e
      have : τ ^ 2 ≤ 0.0179 * |τ| := by
        rw [← sq_abs, sq]; exact mul_le_mul_of_nonneg_right τ1 (abs_nonneg _)
      norm_num at t τ1 this e ⊢
      linarith
    have e3 : |Real.exp (b * L) - E| ≤ 4.66 / 16777216 * z * E := by
      rw [e1, show E * Real.exp τ - E = (Real.exp τ - 1) * E by ring, abs_mul, abs_of_pos E0]
      exact mul_le_mul_of_nonneg_right e2 E0.le
    have e4 : Real.exp (b * L) ≤ (1 + 4.66 / 16777216 * z) * E := by linarith [(abs_le.1 e3).2]
    have zE : 0 ≤ z * E := by positivity
    have := abs_sub_le (c : ℝ) (Real.exp (b * L)) E
    norm_num at ec e3 e4 this ⊢
    nlinarith
  · have s1 : Real.exp (b * L) ≤ 1 / 2 ^ 200 := by
      have := exp_neg_small (z := -(b * L)) (by linarith [(abs_le.1 t).2])
      rwa [neg_neg] at this
    have s2 : E ≤ 1 / 2 ^ 200 := exp_neg_small (by linarith)
    have := abs_le.1 ec
    have p1 := Real.exp_pos ((b : ℝ) * L)
    have zE : 0 ≤ (1 + z) * E := by positivity
    have c0' : (0 : ℝ) ≤ c := by exact_mod_cast c0
    rw [abs_le]
    norm_num at this s1 s2 ⊢
    constructor <;> linarith

theorem rel_pi : Rel (FloatOps.pi : F32) Real.pi (0.5 / 16777216) := by
  have hp : (FloatOps.pi : F32).Is (13176795 / 4194304) := by
    have : f32.Exact (13176795 / 4194304 : Rat) := by
      have := f32_dy (m := 13176795) (k := 22) (by decide) (by decide)
      norm_num at this ⊢
      exact this
    exact lit_exact this
  refine ⟨_, hp, ?_⟩
  have h := f32Pi_near
  have hpr : ((13176795 / 4194304 : Rat) : ℝ) = f32Pi := by unfold f32Pi; norm_num
  rw [hpr, abs_of_pos Real.pi_pos]
  have := Real.pi_gt_three
  norm_num at h ⊢
  linarith

theorem rel_num {n : Int} (h : |n| ≤ 16777216) : Rel (num n : F32) (n : ℝ) 0 := by
  have := Rel.exact (num32 h)
  simpa using this

/-- a product whose second factor is known up to an absolute error, rounded -/
theorem scaled_round {x y : F32} {A' c : Rat} {A E M k l t : ℝ} (hx : x.Is A') (hy : y.Is c) (hA : |(A' : ℝ) - A| ≤ k / 16777216 * |A|)
    (hc : |(c : ℝ) - E| ≤ l / 16777216 * M + t) (hE : |E| ≤ M) (k0 : 0 ≤ k) (k1 : k ≤ 100) (l0 : 0 ≤ l) (l1 : l ≤ 100) (t0 : 0 ≤ t) (t1 : t ≤ 1)
    (hM : |A| * M ≤ 2 ^ 80) (hA1 : |A| ≤ 2 ^ 80) :
    ∃ w : Rat, (x *. y).Is w ∧ (0 ≤ A' → 0 ≤ c → 0 ≤ w) ∧ (A' ≤ 0 → 0 ≤ c → w ≤ 0) ∧
      |(w : ℝ) - A * E| ≤ (k + l + 1.1) / 16777216 * (|A| * M) + 2 * |A| * t + 1 / 2 ^ 150 := by
  have M0 : 0 ≤ M := (abs_nonneg _).trans hE
  have A0 := abs_nonneg A
  have AM0 : 0 ≤ |A| * M := by positivity
  have At0 : 0 ≤ |A| * t := by positivity
  have c1 : |(c : ℝ)| ≤ (1 + l / 16777216) * M + t := by
    have := abs_add_le ((c : ℝ) - E) E
    rw [sub_add_cancel] at this; linarith
  have e : |((A' * c : Rat) : ℝ) - A * E| ≤ (k + l + 0.01) / 16777216 * (|A| * M) + 1.01 * (|A| * t) := by
    push_cast
    rw [show (A' : ℝ) * c - A * E = (A' - A) * c + A * (c - E) by ring]
    refine (abs_add_le _ _).trans ?_
    rw [abs_mul, abs_mul]
    have t1 := mul_le_mul hA c1 (abs_nonneg _) (by positivity)
    have t2 := mul_le_mul_of_nonneg_left hc A0
    have e1 : k / 16777216 * |A| * ((1 + l / 16777216) * M + t) =
        k / 16777216 * (|A| * M) + k / 16777216 * (l / 16777216) * (|A| * M) + k / 16777216 * (|A| * t) := by ring
    have e2 : |A| * (l / 16777216 * M + t) = l / 16777216 * (|A| * M) + |A| * t := by ring
    have e3 : k / 16777216 * (l / 16777216) * (|A| * M) ≤ 0.01 / 16777216 * (|A| * M) := by
      refine mul_le_mul_of_nonneg_right ?_ AM0
      have := mul_le_mul k1 l1 l0 (by norm_num)
      norm_num at this ⊢
      linarith
    have e4 : k / 16777216 * (|A| * t) ≤ 0.01 * (|A| * t) := mul_le_mul_of_nonneg_right (by norm_num; linarith) At0
    have e5 : (k + l + 0.01) / 16777216 * (|A| * M) = k / 16777216 * (|A| * M) + l / 16777216 * (|A| * M) + 0.01 / 16777216 * (|A| * M) := by ring
    linarith
  have kl : (k + l + 0.01) / 16777216 ≤ 0.001 := by norm_num; linarith
  have q : |((A' * c : Rat) : ℝ)| ≤ 1.001 * (|A| * M) + 1.01 * (|A| * t) := by
    have := abs_add_le (((A' * c : Rat) : ℝ) - A * E) (A * E)
    rw [sub_add_cancel, abs_mul] at this
    have h1 := mul_le_mul_of_nonneg_left hE A0
    have h2 := mul_le_mul_of_nonneg_right kl AM0
    linarith
  have ov : |f32.rnd (A' * c)| < pow2 f32.emax := by
    refine f32_ovf ?_
    have : |((A' * c : Rat) : ℝ)| ≤ ((2 ^ 100 : Rat) : ℝ) := by
      have : |A| * t ≤ 2 ^ 80 * 1 := mul_le_mul hA1 t1 t0 (by norm_num)
      push_cast at q ⊢
      norm_num at hM q this ⊢
      linarith
    rw [← Rat.cast_abs] at this
    exact_mod_cast this
  have z : f32.Exact 0 := by simpa using f32_int (n := 0) (by decide)
  refine ⟨_, mul_is hx hy ov, fun h1 h2 => ?_, fun h1 h2 => ?_, ?_⟩
  · exact le_rndQ z.1 (mul_nonneg h1 h2)
  · exact rndQ_le z.1 (mul_nonpos_of_nonpos_of_nonneg h1 h2)
  · have r := (Rat.cast_le (K := ℝ)).2 (rnd_err_add (A' * c))
    rw [Rat.cast_abs, Rat.cast_sub] at r
    push_cast at r
    have := abs_sub_le ((f32.rnd (A' * c) : Rat) : ℝ) ((A' * c : Rat) : ℝ) (A * E)
    push_cast at this e q
    have e5 : (k + l + 1.1) / 16777216 * (|A| * M) = (k + l + 0.01) / 16777216 * (|A| * M) + 1.09 / 16777216 * (|A| * M) := by ring
    rw [e5]
    norm_num at r q e this ⊢
    linarith

/-- spec: the two-dimensional Gaussian of standard deviation `σ` at squared distance `d` -/
noncomputable def gaussian2 (σ d : ℝ) : ℝ := 1 / (2 * Real.pi * σ ^ 2) * Real.exp (-(d / (2 * σ ^ 2)))

section
variable {sigma : F32} {s : Rat} (hs : sigma.Is s) (s0 : 1 / 16 ≤ s) (s1 : s ≤ 1000)
include hs s0 s1

omit [Libm f32] hs in
theorem sigma_real : (1 / 16 : ℝ) ≤ s ∧ (s : ℝ) ≤ 1000 := by
  constructor
  · have := (Rat.cast_le (K := ℝ)).2 s0; push_cast at this; exact this
  · have := (Rat.cast_le (K := ℝ)).2 s1; push_cast at this; exact this

/-- the exponent -(d / 2 s^2) -/
theorem exponent_rel {d : Int} (d0 : 0 ≤ d) (d1 : d ≤ 16777216) :
    Rel (FloatOps.neg (FloatOps.ofInt d) /. (num 2 *. sigma *. sigma)) (-((d : ℝ) / (2 * (s : ℝ) ^ 2))) (4 / 16777216) := by
  obtain ⟨r0, r1⟩ := sigma_real s0 s1
  have two := rel_num (n := 2) (by decide)
  have sg : Rel sigma (s : ℝ) 0 := Rel.exact hs
  have b1 : |((2 : Int) : ℝ) * s| = 2 * s := abs_of_pos (by push_cast; linarith)
  have m1 := Rel.mul (K := 1.001 / 16777216) two sg le_rfl le_rfl (by rw [b1]; norm_num; linarith) (by rw [b1]; norm_num; linarith) (by norm_num) (by norm_num)
  have q0 : (1 / 256 : ℝ) ≤ s ^ 2 := by nlinarith
  have q1 : (s : ℝ) ^ 2 ≤ 1000000 := by nlinarith
  have b2 : |((2 : Int) : ℝ) * s * s| = 2 * s ^ 2 := by rw [abs_of_nonneg (by push_cast; positivity)]; push_cast; ring
  have m2 := Rel.mul (K := 2.01 / 16777216) m1 sg (by norm_num) le_rfl (by rw [b2]; norm_num; linarith) (by rw [b2]; norm_num; linarith) (by norm_num) (by norm_num)
  have hd : Rel (FloatOps.neg (FloatOps.ofInt d : F32)) (-(d : ℝ)) 0 := by
    have h := num32 (n := d) (by rw [abs_of_nonneg d0]; exact d1)
    have h : (FloatOps.neg (FloatOps.ofInt d : F32)).Is (-(d : Rat)) := FP.neg_is h
    have := Rel.exact h
    push_cast at this
    exact this
  have e : -((d : ℝ) / (2 * (s : ℝ) ^ 2)) = -(d : ℝ) / (((2 : Int) : ℝ) * s * s) := by push_cast; ring
  rcases eq_or_lt_of_le d0 with rfl | d0
  · obtain ⟨a, ha, ea⟩ := hd
    obtain ⟨b, hb, eb⟩ := m2
    have a0 : a = 0 := by simpa using ea
    subst a0
    have bn : b ≠ 0 := by
      rintro rfl
      rw [Rat.cast_zero, zero_sub, abs_neg, b2] at eb
      norm_num at eb
      nlinarith
    refine ⟨_, div_is ha hb bn (by rw [zero_div]; exact f32_ovf (by norm_num)), ?_⟩
    rw [zero_div]
    have : f32.rnd 0 = 0 := by decide +kernel
    rw [this]; simp
  · have d0' : (1 : ℝ) ≤ d := by exact_mod_cast d0
    have d1' : (d : ℝ) ≤ 16777216 := by exact_mod_cast d1
    have b3 : |-(d : ℝ) / (((2 : Int) : ℝ) * s * s)| = d / (2 * s ^ 2) := by
      rw [abs_div, b2, abs_neg, abs_of_pos (by linarith)]
    rw [e]
    refine Rel.div hd m2 le_rfl (by norm_num) (by norm_num) (by push_cast; positivity) ?_ ?_ (by norm_num) (by norm_num)
    · rw [b3, le_div_iff₀ (by positivity)]; norm_num; linarith
    · rw [b3, div_le_iff₀ (by positivity)]; norm_num; linarith

/-- the factor 1 / (2 pi s^2) -/
theorem gauss_factor : Rel (num 1 /. (num 2 *. FloatOps.pi *. sigma *. sigma) : F32) (1 / (2 * Real.pi * (s : ℝ) ^ 2)) (5.6 / 16777216) := by
  obtain ⟨r0, r1⟩ := sigma_real s0 s1
  have p1 := Real.pi_gt_three
  have p2 := Real.pi_lt_four
  have two := rel_num (n := 2) (by decide)
  have one := rel_num (n := 1) (by decide)
  have sg : Rel sigma (s : ℝ) 0 := Rel.exact hs
  have q0 : (1 / 256 : ℝ) ≤ s ^ 2 := by nlinarith
  have q1 : (s : ℝ) ^ 2 ≤ 1000000 := by nlinarith
  have b1 : |((2 : Int) : ℝ) * Real.pi| = 2 * Real.pi := abs_of_pos (by push_cast; linarith)
  have m1 := Rel.mul (K := 1.51 / 16777216) two rel_pi le_rfl (by norm_num) (by rw [b1]; norm_num; linarith) (by rw [b1]; norm_num; linarith) (by norm_num) (by norm_num)
  have b2 : |((2 : Int) : ℝ) * Real.pi * s| = 2 * Real.pi * s := abs_of_pos (by push_cast; positivity)
  have m2 := Rel.mul (K := 2.52 / 16777216) m1 sg (by norm_num) le_rfl (by rw [b2]; norm_num; nlinarith) (by rw [b2]; norm_num; nlinarith) (by norm_num) (by norm_num)
  have b3 : |((2 : Int) : ℝ) * Real.pi * s * s| = 2 * Real.pi * s ^ 2 := by rw [abs_of_nonneg (by push_cast; positivity)]; push_cast; ring
  have m3 := Rel.mul (K := 3.53 / 16777216) m2 sg (by norm_num) le_rfl (by rw [b3]; norm_num; nlinarith) (by rw [b3]; norm_num; nlinarith) (by norm_num) (by norm_num)
  have b4 : |((1 : Int) : ℝ) / (((2 : Int) : ℝ) * Real.pi * s * s)| = 1 / (2 * Real.pi * s ^ 2) := by
    rw [abs_div, b3]; simp
  have e : 1 / (2 * Real.pi * (s : ℝ) ^ 2) = ((1 : Int) : ℝ) / (((2 : Int) : ℝ) * Real.pi * s * s) := by push_cast; ring
  rw [e]
  refine Rel.div one m3 le_rfl (by norm_num) (by norm_num) (by push_cast; positivity) ?_ ?_ (by norm_num) (by norm_num)
  · rw [b4, le_div_iff₀ (by positivity)]; norm_num; nlinarith
  · rw [b4, div_le_iff₀ (by positivity)]; norm_num; nlinarith

theorem gauss_entry (hp : PowGood) {d : Int} (d0 : 0 ≤ d) (d1 : d ≤ 16777216) :
    ∃ w : Rat, (gaussianEntry sigma d).Is w ∧ 0 ≤ w ∧
      |(w : ℝ) - gaussian2 s d| ≤ (1 + d / (2 * (s : ℝ) ^ 2)) * gaussian2 s d / 2 ^ 20 + 1 / 2 ^ 130 := by
  obtain ⟨r0, r1⟩ := sigma_real s0 s1
  have p1 := Real.pi_gt_three
  obtain ⟨b, hb, eb⟩ := exponent_rel hs s0 s1 d0 d1
  obtain ⟨A', hA', eA⟩ := gauss_factor hs s0 s1
  have d0' : (0 : ℝ) ≤ d := by exact_mod_cast d0
  have z0 : 0 ≤ (d : ℝ) / (2 * (s : ℝ) ^ 2) := by positivity
  set z := (d : ℝ) / (2 * (s : ℝ) ^ 2) with hz
  obtain ⟨c, hc, c0, ec⟩ := exp_err hp hb z0 eb
  have q0 : (1 / 256 : ℝ) ≤ s ^ 2 := by nlinarith
  have A0 : 0 < 1 / (2 * Real.pi * (s : ℝ) ^ 2) := by positivity
  have A1 : 1 / (2 * Real.pi * (s : ℝ) ^ 2) ≤ 43 := by
    rw [div_le_iff₀ (by positivity)]; nlinarith
  have hG : gaussian2 s d = 1 / (2 * Real.pi * (s : ℝ) ^ 2) * Real.exp (-z) := rfl
  rw [hG]
  set A := 1 / (2 * Real.pi * (s : ℝ) ^ 2) with hA
  have E0 := Real.exp_pos (-z)
  have M1 : (1 + z) * Real.exp (-z) ≤ 1 := by
    rw [Real.exp_neg, ← div_eq_mul_inv, div_le_one (Real.exp_pos z)]
    linarith [Real.add_one_le_exp z]
  have M2 : |Real.exp (-z)| ≤ (1 + z) * Real.exp (-z) := by
    rw [abs_of_pos E0]; exact le_mul_of_one_le_left E0.le (by linarith)
  have aA : |A| = A := abs_of_pos A0
  obtain ⟨w, hw, w0, -, ew⟩ := scaled_round hA' hc eA ec M2 (by norm_num) (by norm_num) (by norm_num) (by norm_num) (by norm_num) (by norm_num)
    (by rw [aA]; exact le_trans (mul_le_mul A1 M1 (by positivity) (by norm_num)) (by norm_num)) (by rw [aA]; exact le_trans A1 (by norm_num))
  refine ⟨w, hw, w0 ?_ c0, ew.trans ?_⟩
  · rw [aA] at eA
    have := (abs_le.1 eA).1
    have : (0 : ℝ) ≤ A' := by norm_num at this; linarith
    exact_mod_cast this
  · rw [aA]
    have : 0 ≤ A * ((1 + z) * Real.exp (-z)) := by positivity
    have e : (1 + z) * (A * Real.exp (-z)) = A * ((1 + z) * Real.exp (-z)) := by ring
    rw [e]
    norm_num at this ⊢
    linarith

/-- spec: the weight of `generate_log_kernel` at squared distance `d`, in exact arithmetic with the true constants: the code's
formula has `1 + d / 2σ²` where the Laplacian of a Gaussian has `1 - d / 2σ²` (see C99) -/
noncomputable def logWeightR (σ d : ℝ) : ℝ := -1 / (Real.pi * σ ^ 4) * (1 + d / (2 * σ ^ 2)) * Real.exp (-(d / (2 * σ ^ 2)))

theorem log_factor (hp : PowGood) : Rel (num (-1) /. (FloatOps.pi *. FloatOps.pow sigma (num 4)) : F32) (-1 / (Real.pi * (s : ℝ) ^ 4)) (6.7 / 16777216) := by
  obtain ⟨r0, r1⟩ := sigma_real s0 s1
  have p1 := Real.pi_gt_three
  have p2 := Real.pi_lt_four
  have four : (num 4 : F32).Is 4 := by simpa using num32 (n := 4) (by decide)
  have e4 : (s : ℝ) ^ ((4 : Rat) : ℝ) = (s : ℝ) ^ 4 := by
    rw [show (((4 : Rat)) : ℝ) = ((4 : ℕ) : ℝ) by norm_num, Real.rpow_natCast]
  have q0 : (1 / 65536 : ℝ) ≤ s ^ 4 := by
    have := pow_le_pow_left₀ (by norm_num) r0 4
    norm_num at this ⊢
    linarith
  have q1 : (s : ℝ) ^ 4 ≤ 1000000000000 := by
    have := pow_le_pow_left₀ (by linarith) r1 4
    norm_num at this ⊢
    linarith
  obtain ⟨c, hc, -, ec⟩ := hp sigma (num 4) s 4 hs four (by linarith) (by rw [e4]; norm_num; linarith)
  rw [e4] at ec
  have a4 : |(s : ℝ) ^ 4| = (s : ℝ) ^ 4 := abs_of_pos (by positivity)
  have pw : Rel (FloatOps.pow sigma (num 4)) ((s : ℝ) ^ 4) (4.01 / 16777216) := by
    refine ⟨c, hc, ec.trans ?_⟩
    rw [a4]
    norm_num at q0 ⊢
    linarith
  have b1 : |Real.pi * (s : ℝ) ^ 4| = Real.pi * (s : ℝ) ^ 4 := abs_of_pos (by positivity)
  have m1 := Rel.mul (K := 5.52 / 16777216) rel_pi pw (by norm_num) (by norm_num) (by rw [b1]; norm_num; nlinarith) (by rw [b1]; norm_num; nlinarith) (by norm_num) (by norm_num)
  have mone := rel_num (n := -1) (by decide)
  have b2 : |((-1 : Int) : ℝ) / (Real.pi * (s : ℝ) ^ 4)| = 1 / (Real.pi * (s : ℝ) ^ 4) := by rw [abs_div, b1]; simp
  have := Rel.div (K := 6.7 / 16777216) mone m1 le_rfl (by norm_num) (by norm_num) (by positivity)
    (by rw [b2, le_div_iff₀ (by positivity)]; norm_num; nlinarith) (by rw [b2, div_le_iff₀ (by positivity)]; norm_num; nlinarith) (by norm_num) (by norm_num)
  simpa using this

theorem log_entry (hp : PowGood) {d : Int} (d0 : 0 ≤ d) (d1 : d ≤ 16777216) :
    ∃ w : Rat, (logEntry sigma d).Is w ∧ w ≤ 0 ∧
      |(w : ℝ) - logWeightR s d| ≤ (1 + d / (2 * (s : ℝ) ^ 2)) * |logWeightR s d| / 2 ^ 19 + 1 / 2 ^ 80 := by
  obtain ⟨r0, r1⟩ := sigma_real s0 s1
  have p1 := Real.pi_gt_three
  obtain ⟨b, hb, eb⟩ := exponent_rel hs s0 s1 d0 d1
  have F := log_factor hs s0 s1 hp
  have d0' : (0 : ℝ) ≤ d := by exact_mod_cast d0
  have d1' : (d : ℝ) ≤ 16777216 := by exact_mod_cast d1
  have z0 : 0 ≤ (d : ℝ) / (2 * (s : ℝ) ^ 2) := by positivity
  have q0 : (1 / 256 : ℝ) ≤ s ^ 2 := by nlinarith
  have q4 : (1 / 65536 : ℝ) ≤ s ^ 4 := by
    have := pow_le_pow_left₀ (by norm_num) r0 4
    norm_num at this ⊢
    linarith
  have q5 : (s : ℝ) ^ 4 ≤ 1000000000000 := by
    have := pow_le_pow_left₀ (by linarith) r1 4
    norm_num at this ⊢
    linarith
  have z1 : (d : ℝ) / (2 * (s : ℝ) ^ 2) ≤ 2 ^ 31 := by
    rw [div_le_iff₀ (by positivity)]; norm_num; nlinarith
  have hW : logWeightR s d = -1 / (Real.pi * (s : ℝ) ^ 4) * (1 + d / (2 * (s : ℝ) ^ 2)) * Real.exp (-(d / (2 * (s : ℝ) ^ 2))) := rfl
  rw [hW]
  set z := (d : ℝ) / (2 * (s : ℝ) ^ 2) with hz
  obtain ⟨c, hc, c0, ec⟩ := exp_err hp hb z0 eb
  -- one minus the exponent
  have one : (num 1 : F32).Is 1 := by simpa using num32 (n := 1) (by decide)
  have a1 : |1 + z| = 1 + z := abs_of_nonneg (by linarith)
  have e1 : |((1 - b : Rat) : ℝ) - (1 + z)| ≤ 4 / 16777216 * |1 + z| := by
    rw [abs_neg, abs_of_nonneg z0] at eb
    push_cast
    rw [a1, show (1 : ℝ) - b - (1 + z) = -(b - -z) by ring, abs_neg]
    linarith
  have S : Rel (num 1 -. (FloatOps.neg (FloatOps.ofInt d) /. (num 2 *. sigma *. sigma)) : F32) (1 + z) (5.01 / 16777216) := by
    refine ⟨_, sub_is one hb (rel_ovf e1 (by norm_num) ?_), (rnd_rel_real e1 (by norm_num) (by norm_num) ?_).trans (mul_le_mul_of_nonneg_right (by norm_num) (abs_nonneg _))⟩
    · rw [a1]; norm_num at z1 ⊢; linarith
    · rw [a1]; norm_num; linarith
  have B0 : 0 < 1 / (Real.pi * (s : ℝ) ^ 4) := by positivity
  have B1 : 1 / (Real.pi * (s : ℝ) ^ 4) ≤ 65536 := by rw [div_le_iff₀ (by positivity)]; nlinarith
  have B2 : 1 / 2 ^ 44 ≤ 1 / (Real.pi * (s : ℝ) ^ 4) := by
    rw [div_le_div_iff₀ (by norm_num) (by positivity)]
    have := Real.pi_lt_four
    norm_num; nlinarith
  have e2 : -1 / (Real.pi * (s : ℝ) ^ 4) = -(1 / (Real.pi * (s : ℝ) ^ 4)) := by ring
  rw [e2] at F ⊢
  set B := 1 / (Real.pi * (s : ℝ) ^ 4) with hB
  have a2 : |-B * (1 + z)| = B * (1 + z) := by rw [abs_mul, abs_neg, abs_of_pos B0, a1]
  have Q := Rel.mul (K := 12.8 / 16777216) F S (by norm_num) (by norm_num)
    (by rw [a2]; exact le_trans (le_trans (by norm_num) B2) (le_mul_of_one_le_right B0.le (by linarith)))
    (by rw [a2]; exact le_trans (mul_le_mul B1 (show 1 + z ≤ 2 ^ 32 by norm_num at z1 ⊢; linarith) (by linarith) (by norm_num)) (by norm_num)) (by norm_num) (by norm_num)
  obtain ⟨A', hA', eA⟩ := Q
  have E0 := Real.exp_pos (-z)
  have M1 : (1 + z) * Real.exp (-z) ≤ 1 := by
    rw [Real.exp_neg, ← div_eq_mul_inv, div_le_one (Real.exp_pos z)]
    linarith [Real.add_one_le_exp z]
  have M2 : |Real.exp (-z)| ≤ (1 + z) * Real.exp (-z) := by
    rw [abs_of_pos E0]; exact le_mul_of_one_le_left E0.le (by linarith)
  have A1 : B * (1 + z) ≤ 65536 * 2 ^ 32 := mul_le_mul B1 (by norm_num at z1 ⊢; linarith) (by linarith) (by norm_num)
  obtain ⟨w, hw, -, w0, ew⟩ := scaled_round hA' hc eA ec M2 (by norm_num) (by norm_num) (by norm_num) (by norm_num) (by norm_num) (by norm_num)
    (by rw [a2]; exact le_trans (mul_le_mul A1 M1 (by positivity) (by norm_num)) (by norm_num)) (by rw [a2]; exact le_trans A1 (by norm_num))
  refine ⟨w, hw, w0 ?_ c0, ew.trans ?_⟩
  · rw [a2] at eA
    have := (abs_le.1 eA).2
    have B3 : 0 ≤ B * (1 + z) := by positivity
    rw [neg_mul] at this
    generalize B * (1 + z) = Y at this B3
    have : (A' : ℝ) ≤ 0 := by norm_num at this; linarith
    exact_mod_cast this
  rw [a2, abs_mul, a2, abs_of_pos E0]
  have : 0 ≤ B * (1 + z) * ((1 + z) * Real.exp (-z)) := by positivity
  have e : (1 + z) * (B * (1 + z) * Real.exp (-z)) = B * (1 + z) * ((1 + z) * Real.exp (-z)) := by ring
  rw [e]
  generalize B * (1 + z) * ((1 + z) * Real.exp (-z)) = X at this ⊢
  generalize B * (1 + z) = Y at A1 ⊢
  norm_num at A1 ⊢
  linarith

omit [Libm f32] hs s0 s1 in
theorem centreDist2_bounds {size i j : Nat} (h : size ≤ 4095) (hi : i < size) (hj : j < size) :
    0 ≤ centreDist2 size i j ∧ centreDist2 size i j ≤ 16777216 := by
  unfold centreDist2
  have h1 : |(i : Int) - (((size - 1) / 2 : Nat) : Int)| ≤ 2047 := by rw [abs_le]; omega
  have h2 : |(j : Int) - (((size - 1) / 2 : Nat) : Int)| ≤ 2047 := by rw [abs_le]; omega
  have h1 := sq_le_sq' (abs_le.1 h1).1 (abs_le.1 h1).2
  have h2 := sq_le_sq' (abs_le.1 h2).1 (abs_le.1 h2).2
  exact ⟨by positivity, by omega⟩

/-- **C116** `generate_gaussian_kernel(size, sigma)` in f32, for every odd size up to 4095 and every sigma from 1/16 to 1000: every
entry is a non-negative number; with `d` the squared distance of its position from the centre it differs from the Gaussian
`exp(-d / 2σ²) / 2πσ²` (true constants, real arithmetic) by at most `(1 + d / 2σ²) / 2^20` of it, plus 2^-130 for underflow. -/
theorem c116_gaussian_value (hp : PowGood) (P : Profile) (size : Nat) (hodd : size % 2 = 1) (hsz : size ≤ 4095) :
    ∃ out, generateGaussianKernel P size sigma = .ok out ∧ out.length = size * size ∧
      ∀ i j, i < size → j < size → ∃ x w, out[i * size + j]? = some x ∧ Flt.Is x w ∧ 0 ≤ w ∧
        |(w : ℝ) - gaussian2 s (centreDist2 size i j)| ≤
          (1 + centreDist2 size i j / (2 * (s : ℝ) ^ 2)) * gaussian2 s (centreDist2 size i j) / 2 ^ 20 + 1 / 2 ^ 130 := by
  obtain ⟨out, e, hl, h⟩ := c43_gaussian P size sigma hodd (lt_of_le_of_lt (Nat.mul_le_mul hsz hsz) (by decide))
  refine ⟨out, e, hl, fun i j hi hj => ?_⟩
  obtain ⟨d0, d1⟩ := centreDist2_bounds hsz hi hj
  obtain ⟨w, hw, w0, ew⟩ := gauss_entry hs s0 s1 hp d0 d1
  exact ⟨_, w, h i j hi hj, hw, w0, ew⟩

/-- **C116** `generate_log_kernel(size, sigma)` in f32: every entry is a number that is not positive and differs from
`-1/πσ⁴ (1 + d / 2σ²) exp(-d / 2σ²)` by at most `(1 + d / 2σ²) / 2^19` of it, plus 2^-80. -/
theorem c116_log_value (hp : PowGood) (P : Profile) (size : Nat) (hodd : size % 2 = 1) (hsz : size ≤ 4095) :
    ∃ out, generateLogKernel P size sigma = .ok out ∧ out.length = size * size ∧
      ∀ i j, i < size → j < size → ∃ x w, out[i * size + j]? = some x ∧ Flt.Is x w ∧ w ≤ 0 ∧
        |(w : ℝ) - logWeightR s (centreDist2 size i j)| ≤
          (1 + centreDist2 size i j / (2 * (s : ℝ) ^ 2)) * |logWeightR s (centreDist2 size i j)| / 2 ^ 19 + 1 / 2 ^ 80 := by
  obtain ⟨out, e, hl, h⟩ := c43_log P size sigma hodd (lt_of_le_of_lt (Nat.mul_le_mul hsz hsz) (by decide))
  refine ⟨out, e, hl, fun i j hi hj => ?_⟩
  obtain ⟨d0, d1⟩ := centreDist2_bounds hsz hi hj
  obtain ⟨w, hw, w0, ew⟩ := log_entry hs s0 s1 hp d0 d1
  exact ⟨_, w, h i j hi hj, hw, w0, ew⟩
end
end

theorem good_exists {r : ℝ} (r0 : 0 < r) (r1 : r ≤ 2 ^ 100) :
    ∃ (z : F32) (c : Rat), z.Is c ∧ 0 ≤ c ∧ |(c : ℝ) - r| ≤ r / 2 ^ 22 + 1 / 2 ^ 140 := by
  obtain ⟨q, q0, q1⟩ := exists_rat_btwn (show r < r + r / 2 ^ 30 by linarith [show 0 < r / 2 ^ 30 by positivity])
  have q0' : (0 : ℝ) < q := r0.trans q0
  have q2 : (0 : Rat) ≤ q := by exact_mod_cast q0'.le
  have z : f32.Exact 0 := by simpa using f32_int (n := 0) (by decide)
  have ov : |f32.rnd q| < pow2 f32.emax := by
    have h2 : f32.Exact (2 ^ 101 : Rat) := by
      refine ⟨⟨1, 101, by rw [pow2_eq]; norm_num, by norm_num [f32], by norm_num [f32]⟩, by rw [pow2_eq]; norm_num [f32]⟩
    have : q ≤ 2 ^ 101 := by
      have : (q : ℝ) ≤ ((2 ^ 101 : Rat) : ℝ) := by push_cast; norm_num at r1 q1 ⊢; linarith
      exact_mod_cast this
    rw [abs_of_nonneg (le_rndQ z.1 q2)]
    exact lt_of_le_of_lt (rndQ_le h2.1 this) (by rw [pow2_eq]; norm_num [f32])
  refine ⟨_, _, Flt.ofRat_is ov, le_rndQ z.1 q2, ?_⟩
  have e := (Rat.cast_le (K := ℝ)).2 (rnd_err_add q)
  rw [Rat.cast_abs, Rat.cast_sub, abs_of_nonneg q2] at e
  push_cast at e
  have t := abs_sub_le ((f32.rnd q : Rat) : ℝ) (q : ℝ) r
  have : |(q : ℝ) - r| ≤ r / 2 ^ 30 := by rw [abs_of_pos (by linarith)]; linarith
  norm_num at e t this q1 ⊢
  linarith

open Classical in
/-- a math library whose `powf` is as accurate as `PowGood` asks -/
noncomputable def goodLibm : Libm f32 where
  pow x y := if h : ∃ (z : F32) (a b c : Rat), x.Is a ∧ y.Is b ∧ z.Is c ∧ 0 ≤ c ∧
      |(c : ℝ) - (a : ℝ) ^ (b : ℝ)| ≤ (a : ℝ) ^ (b : ℝ) / 2 ^ 22 + 1 / 2 ^ 140 then h.choose else x
  sin := id
  cos := id

theorem goodLibm_spec : @PowGood goodLibm := by
  intro x y a b hx hy h1 h2
  obtain ⟨z, c, hz, c0, hc⟩ := good_exists (Real.rpow_pos_of_pos (show (0 : ℝ) < a by exact_mod_cast h1) (b : ℝ)) h2
  have h : ∃ (z : F32) (a b c : Rat), x.Is a ∧ y.Is b ∧ z.Is c ∧ 0 ≤ c ∧
      |(c : ℝ) - (a : ℝ) ^ (b : ℝ)| ≤ (a : ℝ) ^ (b : ℝ) / 2 ^ 22 + 1 / 2 ^ 140 := ⟨z, a, b, c, hx, hy, hz, c0, hc⟩
  obtain ⟨a', b', c', hx', hy', hc', c0', e⟩ := h.choose_spec
  rw [hx'.unique hx, hy'.unique hy] at e
  refine ⟨c', ?_, c0', e⟩
  show ((goodLibm.pow x y) : F32).Is c'
  unfold goodLibm
  simp only [dif_pos h]
  exact hc'

/-- the 5 x 5 Gaussian kernel with sigma 1: its centre entry is `1 / 2π`, its corners `exp(-4) / 2π`, to six digits -/
example (P : Profile) : letI := goodLibm
    ∃ (out : List F32) (x y : F32) (a b : Rat), generateGaussianKernel P 5 (num 1 : F32) = .ok out ∧ out[12]? = some x ∧ out[0]? = some y ∧
      x.Is a ∧ y.Is b ∧ |(a : ℝ) - 1 / (2 * Real.pi)| ≤ 1 / 10 ^ 6 ∧ |(b : ℝ) - 1 / (2 * Real.pi) * Real.exp (-4)| ≤ 1 / 10 ^ 6 := by
  let := goodLibm
  have one : (num 1 : F32).Is 1 := by simpa using num32 (n := 1) (by decide)
  obtain ⟨out, e, -, h⟩ := c116_gaussian_value one (by norm_num) (by norm_num) goodLibm_spec P 5 (by decide) (by decide)
  obtain ⟨x, a, hx, hxa, -, ea⟩ := h 2 2 (by decide) (by decide)
  obtain ⟨y, b, hy, hyb, -, eb⟩ := h 0 0 (by decide) (by decide)
  have p3 := Real.pi_gt_three
  have A1 : 1 / (2 * Real.pi) ≤ 1 / 6 := one_div_le_one_div_of_le (by norm_num) (by linarith)
  have A0 : 0 < 1 / (2 * Real.pi) := by positivity
  have E1 : Real.exp (-4) ≤ 1 / 16 := by
    rw [Real.exp_neg, ← one_div]
    refine one_div_le_one_div_of_le (by norm_num) ?_
    have : (2 : ℝ) ≤ Real.exp 1 := by have := Real.exp_one_gt_d9; norm_num at this; linarith
    have h4 := pow_le_pow_left₀ (by norm_num) this 4
    rw [← Real.exp_nat_mul] at h4
    norm_num at h4 ⊢
    exact h4
  have c1 : centreDist2 5 2 2 = 0 := by decide
  have c2 : centreDist2 5 0 0 = 8 := by decide
  refine ⟨out, x, y, a, b, e, hx, hy, hxa, hyb, ea.trans' ?_ |>.trans ?_, ?_⟩
  · rw [c1]; unfold gaussian2; norm_num
  · rw [c1]; unfold gaussian2; norm_num at A1 ⊢; linarith
  · rw [c2] at eb
    unfold gaussian2 at eb
    have E0 := Real.exp_pos (-4)
    have : 1 / (2 * Real.pi) * Real.exp (-4) ≤ 1 / 6 * (1 / 16) := mul_le_mul A1 E1 E0.le (by norm_num)
    norm_num at eb this ⊢
    generalize Real.pi⁻¹ * (1 / 2) * Real.exp (-4) = X at *
    linarith
end Imgproc

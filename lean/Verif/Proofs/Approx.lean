import Verif.Props.HsvF32
/-! Absolute error bounds for f32 computations on numbers of moderate size. -/
namespace Imgproc
open FloatOps
variable [Libm f32]

/-- the float `x` is a number within `e` of `q` -/
def App (x : F32) (q e : Rat) : Prop := ∃ a, x.Is a ∧ |a - q| ≤ e

omit [Libm f32] in
theorem App.exact {x : F32} {q : Rat} (h : x.Is q) : App x q 0 := ⟨q, h, by simp⟩
omit [Libm f32] in
theorem App.mono {x : F32} {q e e' : Rat} (h : App x q e) (he : e ≤ e') : App x q e' := by
  obtain ⟨a, ha, hb⟩ := h; exact ⟨a, ha, le_trans hb he⟩

omit [Libm f32] in
theorem rnd_abs_err {q B : Rat} (h : |q| ≤ B) (hB : 1 / 1000000 ≤ B) : |f32.rnd q - q| ≤ B / 16777216 := by
  have he := rndQ_err (f := f32.toRFmt) q
  have h1 : pow2 (-(f32.p : Int)) = 1 / 16777216 := by norm_num [f32, pow2_eq]
  have h2 : pow2 (f32.emin - 1) ≤ 1 / 2 ^ 149 := by norm_num [f32, pow2_eq]
  rw [show (f32.toRFmt.p : Int) = (f32.p : Int) from rfl, h1] at he
  refine le_trans he (max_le (by linarith) (le_trans h2 ?_))
  have : (1 : Rat) / 2 ^ 149 ≤ 1 / 1000000 / 16777216 := by norm_num
  linarith

omit [Libm f32] in
/-- rounding a number known up to `e` -/
theorem App.rnd {x : F32} {a q e B e' : Rat} (hx : x.Is (f32.rnd a)) (ha : |a - q| ≤ e) (hq : |q| ≤ B)
    (hB : 1 / 1000000 ≤ B) (he : e + (B + e) / 16777216 ≤ e') : App x q e' := by
  have hab : |a| ≤ B + e := by
    have := abs_add_le (a - q) q
    rw [sub_add_cancel] at this; linarith
  have e0 : 0 ≤ e := le_trans (abs_nonneg _) ha
  have := rnd_abs_err hab (by linarith)
  refine ⟨_, hx, ?_⟩
  have t := abs_add_le (f32.rnd a - a) (a - q)
  rw [sub_add_sub_cancel] at t
  linarith

theorem App.add {x y : F32} {p q e f B e' : Rat} (hx : App x p e) (hy : App y q f) (hB : 1 / 1000000 ≤ B) (hb : |p + q| ≤ B)
    (hBe : B + e + f ≤ 1000) (he : e + f + (B + (e + f)) / 16777216 ≤ e') : App (x +. y) (p + q) e' := by
  obtain ⟨a, ha, a1⟩ := hx
  obtain ⟨b, hb', b1⟩ := hy
  have hab : |a + b - (p + q)| ≤ e + f := by
    rw [show a + b - (p + q) = (a - p) + (b - q) by ring]
    exact le_trans (abs_add_le _ _) (by linarith)
  refine App.rnd (add_is ha hb' (f32_ovf ?_)) hab hb hB he
  have := abs_add_le (a + b - (p + q)) (p + q)
  rw [sub_add_cancel] at this
  have : (1000 : Rat) ≤ 2 ^ 100 := by norm_num
  linarith

theorem App.neg' {x : F32} {q e : Rat} (h : App x q e) : App (FloatOps.neg x) (-q) e := by
  obtain ⟨a, ha, h⟩ := h
  exact ⟨-a, FP.neg_is ha, by rw [← neg_sub_neg, neg_neg, neg_neg, abs_sub_comm] ; exact h⟩

theorem App.sub {x y : F32} {p q e f B e' : Rat} (hx : App x p e) (hy : App y q f) (hB : 1 / 1000000 ≤ B) (hb : |p - q| ≤ B)
    (hBe : B + e + f ≤ 1000) (he : e + f + (B + (e + f)) / 16777216 ≤ e') : App (x -. y) (p - q) e' := by
  obtain ⟨a, ha, a1⟩ := hx
  obtain ⟨b, hb', b1⟩ := hy
  have hab : |a - b - (p - q)| ≤ e + f := by
    rw [show a - b - (p - q) = (a - p) - (b - q) by ring]
    exact le_trans (abs_sub _ _) (by linarith)
  refine App.rnd (sub_is ha hb' (f32_ovf ?_)) hab hb hB he
  have := abs_add_le (a - b - (p - q)) (p - q)
  rw [sub_add_cancel] at this
  have : (1000 : Rat) ≤ 2 ^ 100 := by norm_num
  linarith

theorem App.mul {x y : F32} {p q e f B C e' : Rat} (hx : App x p e) (hy : App y q f) (hB : |p| ≤ B) (hC : |q| ≤ C)
    (hBC : 1 / 1000000 ≤ B * C) (hBe : B * C + (B * f + C * e + e * f) ≤ 1000)
    (he : (B * f + C * e + e * f) + (B * C + (B * f + C * e + e * f)) / 16777216 ≤ e') : App (x *. y) (p * q) e' := by
  obtain ⟨a, ha, a1⟩ := hx
  obtain ⟨b, hb', b1⟩ := hy
  have hab : |a * b - p * q| ≤ B * f + C * e + e * f := by
    rw [show a * b - p * q = p * (b - q) + (a - p) * q + (a - p) * (b - q) by ring]
    have t1 : |p * (b - q)| ≤ B * f := by
      rw [abs_mul]; exact mul_le_mul hB b1 (abs_nonneg _) (le_trans (abs_nonneg _) hB)
    have t2 : |(a - p) * q| ≤ C * e := by
      rw [abs_mul, mul_comm]; exact mul_le_mul hC a1 (abs_nonneg _) (le_trans (abs_nonneg _) hC)
    have t3 : |(a - p) * (b - q)| ≤ e * f := by
      rw [abs_mul]; exact mul_le_mul a1 b1 (abs_nonneg _) (le_trans (abs_nonneg _) a1)
    exact le_trans (abs_add_le _ _) (by linarith [abs_add_le (p * (b - q)) ((a - p) * q)])
  have hpq : |p * q| ≤ B * C := by
    rw [abs_mul]; exact mul_le_mul hB hC (abs_nonneg _) (le_trans (abs_nonneg _) hB)
  refine App.rnd (mul_is ha hb' (f32_ovf ?_)) hab hpq hBC he
  have := abs_add_le (a * b - p * q) (p * q)
  rw [sub_add_cancel] at this
  have : (1000 : Rat) ≤ 2 ^ 100 := by norm_num
  linarith

/-- a ratio at most 1 of numbers, the denominator at least `L` -/
theorem App.div {x y : F32} {p q e f L e' : Rat} (hx : App x p e) (hy : App y q f) (hpq : |p| ≤ q) (hL : L ≤ q)
    (hf : f < L) (he1 : (e + f) / (L - f) ≤ 1) (he : (e + f) / (L - f) + (1 + (e + f) / (L - f)) / 16777216 ≤ e') : App (x /. y) (p / q) e' := by
  obtain ⟨a, ha, a1⟩ := hx
  obtain ⟨b, hb', b1⟩ := hy
  have hbL : L - f ≤ b := by rw [abs_le] at b1; linarith [b1.1]
  have bpos : 0 < b := by linarith
  have f0 : 0 ≤ f := le_trans (abs_nonneg _) b1
  have e0 : 0 ≤ e := le_trans (abs_nonneg _) a1
  have qpos : 0 < q := by linarith
  have hr : |p / q| ≤ 1 := by rw [abs_div, abs_of_pos qpos, div_le_one qpos]; exact hpq
  have hab : |a / b - p / q| ≤ (e + f) / (L - f) := by
    have : a / b - p / q = ((a - p) - p / q * (b - q)) / b := by field_simp; ring
    rw [this, abs_div, abs_of_pos bpos]
    have n : |(a - p) - p / q * (b - q)| ≤ e + f := by
      refine le_trans (abs_sub _ _) ?_
      rw [abs_mul]
      have := mul_le_mul hr b1 (abs_nonneg _) zero_le_one
      linarith
    exact div_le_div₀ (by linarith) n (by linarith) hbL
  refine App.rnd (div_is ha hb' bpos.ne' (f32_ovf ?_)) hab hr (by norm_num) he
  have := abs_add_le (a / b - p / q) (p / q)
  rw [sub_add_cancel] at this
  have : (1000 : Rat) ≤ 2 ^ 100 := by norm_num
  linarith

/-- division by a number of at least one -/
theorem App.divN {x : F32} {p e B e' : Rat} (hx : App x p e) {n : Int} (hn : 0 < n) (hn' : n ≤ 1000) (hB : |p / n| ≤ B)
    (hB0 : 1 / 1000000 ≤ B) (hBe : B + e ≤ 1000) (he : e / n + (B + e / n) / 16777216 ≤ e') : App (x /. num n) (p / n) e' := by
  obtain ⟨a, ha, a1⟩ := hx
  have n1 : (1 : Rat) ≤ n := by exact_mod_cast hn
  have n0 : (0 : Rat) < n := by linarith
  have e0 : 0 ≤ e := le_trans (abs_nonneg _) a1
  have hab : |a / n - p / n| ≤ e / n := by
    rw [← sub_div, abs_div, abs_of_pos n0, div_le_div_iff_of_pos_right n0]; exact a1
  refine App.rnd (div_is ha (num32 (by rw [abs_of_pos hn]; omega)) n0.ne' (f32_ovf ?_)) hab hB hB0 he
  have h1 := abs_add_le (a / n - p / n) (p / n)
  rw [sub_add_cancel] at h1
  have : e / n ≤ e := div_le_self e0 n1
  have : (1000 : Rat) ≤ 2 ^ 100 := by norm_num
  linarith

theorem App.num {n : Int} (h : |n| ≤ 16777216) : App (num n) n 0 := App.exact (num32 h)

theorem App.byte (v : UInt8) : App (ofU8 v /. FloatOps.num 255 : F32) ((v.toNat : Rat) / 255) (1 / 16777216) :=
  ⟨_, byteDiv_is v, byteDiv_err (by have := v.toNat_lt; omega)⟩

/-- truncation of a number close to the byte `n` gives `n` or, if it lies below, `n - 1` -/
theorem App.toU8 {x : F32} {n : Nat} {e : Rat} (h : App x n e) (he : e < 1) (hn : n ≤ 255) :
    (toU8 x).toNat ≤ n ∧ n ≤ (toU8 x).toNat + 1 := by
  obtain ⟨a, ha, h⟩ := h
  rw [toU8_toNat ha]
  rw [abs_le] at h
  have key : FP.truncQ a ≤ n ∧ (n : Int) - 1 ≤ FP.truncQ a := by
    unfold FP.truncQ
    split
    · have f1 := rat_floor_le a
      constructor
      · have : ((a.floor : Int) : Rat) < ((n + 1 : Int) : Rat) := by push_cast; linarith [h.2]
        have : a.floor < (n : Int) + 1 := by exact_mod_cast this
        omega
      · exact rat_le_floor.2 (by push_cast; linarith [h.1])
    · rename_i h0
      have f0 : (0 : Int) ≤ (-a).floor := rat_le_floor.2 (by push_cast; linarith)
      have f1 := rat_floor_le (-a)
      have : (((-a).floor : Int) : Rat) < ((1 : Int) : Rat) := by
        have : (0 : Rat) ≤ n := by positivity
        push_cast; linarith [h.1]
      have : (-a).floor < 1 := by exact_mod_cast this
      have n0 : (n : Rat) < ((1 : Nat) : Rat) := by push_cast; linarith [h.1]
      have : n < 1 := by exact_mod_cast n0
      omega
  omega
end Imgproc

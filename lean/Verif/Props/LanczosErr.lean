import Verif.Props.CubicErr
import Verif.Props.Scale6
import Verif.Proofs.ApproxR
import Verif.Props.Dyadic
import Mathlib.Analysis.SpecialFunctions.Trigonometric.Sinc
/-! Property C115: what Lanczos scaling computes in f32, for every factor. -/
namespace Imgproc
open FloatOps
open Finset (range)

/-- the fractional part of a float is a multiple of a power of two that is not too small, and a float -/
theorem frac_grid {s : Rat} (h : f32.Exact s) (h0 : s = 0 ∨ 1 / 2 ^ 23 ≤ s) : ∃ (n : Int) (k : Nat), k ≤ 50 ∧ |n| ≤ 16777216 ∧ ratFrac s = (n : Rat) / 2 ^ k := by
  rcases h0 with rfl | h0
  · exact ⟨0, 0, by omega, by simp, by simp [ratFrac, show Rat.floor 0 = 0 by decide +kernel]⟩
  obtain ⟨⟨m, e, hs, hm, -⟩, -⟩ := h
  have hm : |m| ≤ 16777216 := by simpa [f32] using hm
  rcases le_or_gt 0 e with he | he
  · refine ⟨0, 0, by omega, by simp, ?_⟩
    have : s = ((m * 2 ^ e.toNat : Int) : Rat) := by
      rw [hs, pow2_eq]
      push_cast
      congr 1
      rw [← zpow_natCast, Int.toNat_of_nonneg he]
    unfold ratFrac
    rw [this, Rat.floor_intCast]; simp
  · obtain ⟨k, rfl⟩ : ∃ k : Nat, e = -(k : Int) := ⟨e.natAbs, by omega⟩
    have hs : s = (m : Rat) / 2 ^ k := by rw [hs, pow2_eq, zpow_neg, zpow_natCast, div_eq_mul_inv]
    have hk : k ≤ 50 := by
      by_contra hk
      have m' : (m : Rat) ≤ 16777216 := by exact_mod_cast (abs_le.1 hm).2
      have : (2 : Rat) ^ 51 ≤ 2 ^ k := pow_le_pow_right₀ (by norm_num) (by omega)
      have : s ≤ 16777216 / 2 ^ 51 := by
        rw [hs]
        exact div_le_div₀ (by norm_num) m' (by positivity) this
      norm_num at this h0
      linarith
    obtain ⟨b0, b1⟩ := ratFrac_bounds s
    have e : ratFrac s = ((m - s.floor * 2 ^ k : Int) : Rat) / 2 ^ k := by
      unfold ratFrac
      push_cast
      rw [sub_div, mul_div_assoc, div_self (by positivity), mul_one, ← hs]
    refine ⟨_, k, hk, ?_, e⟩
    have n0 : (0 : Rat) ≤ ((m - s.floor * 2 ^ k : Int) : Rat) := by
      rw [e] at b0
      have := mul_nonneg b0 (show (0 : Rat) ≤ 2 ^ k by positivity)
      rwa [div_mul_cancel₀ _ (by positivity)] at this
    have n0 : 0 ≤ m - s.floor * 2 ^ k := by exact_mod_cast n0
    have s0 : 0 ≤ s := le_trans (by positivity) h0
    have : 0 ≤ s.floor := rat_le_floor.2 (by simpa using s0)
    have : 0 ≤ s.floor * 2 ^ k := by positivity
    rw [abs_le] at hm ⊢
    constructor <;> linarith

/-- two numbers that differ by little, relatively, have nearly the same sinc -/
theorem sinc_rel {R y η : ℝ} (hR : R ≠ 0) (hy : y ≠ 0) (h : |y - R| ≤ η * |R|) (hη : η ≤ 1 / 2) :
    |Real.sin y / y - Real.sinc R| ≤ 2 * η / (1 - η) := by
  have R0 : 0 < |R| := abs_pos.2 hR
  have y0 : 0 < |y| := abs_pos.2 hy
  have hη0 : 0 ≤ η := by
    by_contra hc
    have := abs_nonneg (y - R)
    nlinarith
  have hyR : (1 - η) * |R| ≤ |y| := by
    have := abs_sub_abs_le_abs_sub R y
    rw [abs_sub_comm] at this
    linarith
  rw [Real.sinc_of_ne_zero hR]
  have e : Real.sin y / y - Real.sin R / R = ((Real.sin y - Real.sin R) - Real.sin R / R * (y - R)) / y := by field_simp; ring
  rw [e, abs_div]
  have n : |(Real.sin y - Real.sin R) - Real.sin R / R * (y - R)| ≤ 2 * η * |R| := by
    refine (abs_sub _ _).trans ?_
    rw [abs_mul]
    have l : |Real.sin y - Real.sin R| ≤ |y - R| := Real.abs_sin_sub_sin_le y R
    have m : |Real.sin R / R| ≤ 1 := by
      have := Real.abs_sinc_le_one R
      rwa [Real.sinc_of_ne_zero hR] at this
    have := mul_le_mul m (le_refl |y - R|) (abs_nonneg _) zero_le_one
    linarith
  rw [div_le_div_iff₀ y0 (by linarith)]
  calc _ ≤ 2 * η * |R| * (1 - η) := mul_le_mul_of_nonneg_right n (by linarith)
    _ = 2 * η * ((1 - η) * |R|) := by ring
    _ ≤ _ := mul_le_mul_of_nonneg_left hyR (by linarith)

section
variable [Libm f32]

/-- spec: the platform's `sin` is accurate to a relative error of 2^-22 (about two units in the last place) for arguments up to 1000 -/
def SinAccurate : Prop := ∀ (x : F32) (a : Rat), x.Is a → |a| ≤ 1000 →
  ∃ c : Rat, (FloatOps.sin x).Is c ∧ |(c : ℝ) - Real.sin a| ≤ |Real.sin a| / 2 ^ 22 + 1 / 2 ^ 140

omit [Libm f32] in
/-- rounding is a relative error -/
theorem rnd_rel_real {q : Rat} {r : ℝ} {k : ℝ} (h : |(q : ℝ) - r| ≤ k * |r|) (_k0 : 0 ≤ k) (k1 : k ≤ 1 / 2) (hr : 1 / 2 ^ 60 ≤ |r|) :
    |((f32.rnd q : Rat) : ℝ) - r| ≤ (k + (1 + k) / 16777216) * |r| := by
  have hq : |(q : ℝ)| ≤ (1 + k) * |r| := by
    have := abs_add_le ((q : ℝ) - r) r
    rw [sub_add_cancel] at this; linarith
  have hq' : 1 / 2 ^ 61 ≤ |(q : ℝ)| := by
    have := abs_sub_abs_le_abs_sub r (q : ℝ)
    rw [abs_sub_comm] at this
    have : (1 / 2 ^ 61 : ℝ) = 1 / 2 ^ 60 / 2 := by norm_num
    nlinarith
  have hq' : pow2 (-125) ≤ |q| := by
    have e : pow2 (-125) ≤ 1 / 2 ^ 61 := by rw [pow2_eq]; norm_num
    refine e.trans ?_
    have : (((1 / 2 ^ 61 : Rat)) : ℝ) ≤ ((|q| : Rat) : ℝ) := by rw [Rat.cast_abs]; push_cast; exact hq'
    exact_mod_cast this
  have e1 : |((f32.rnd q : Rat) : ℝ) - q| ≤ |(q : ℝ)| / 16777216 := by
    rcases rnd32_rel hq' with e | e
    · rw [e, sub_self, abs_zero]; positivity
    · have := (Rat.cast_le (K := ℝ)).2 e.le
      push_cast at this; exact this
  have t := abs_add_le (((f32.rnd q : Rat) : ℝ) - q) ((q : ℝ) - r)
  rw [sub_add_sub_cancel] at t
  calc _ ≤ |(q : ℝ)| / 16777216 + k * |r| := by linarith
    _ ≤ (1 + k) * |r| / 16777216 + k * |r| := by gcongr
    _ = _ := by ring

/-- `sinc_norm` of a nonzero number known up to three roundings -/
theorem sinc_err (hs : SinAccurate) {x : F32} {a : Rat} {r : ℝ} (hx : x.Is a) (h : |(a : ℝ) - r| ≤ 3 / 16777216 * |r|)
    (h0 : 1 / 2 ^ 58 ≤ |r|) (h1 : |r| ≤ 101) : Near (sincNorm x) (Real.sinc (Real.pi * r)) (15 / 16777216) := by
  have r0 : 0 < |r| := lt_of_lt_of_le (by positivity) h0
  have hr : r ≠ 0 := abs_pos.1 r0
  have ha : a ≠ 0 := by
    rintro rfl
    rw [Rat.cast_zero, zero_sub, abs_neg] at h
    linarith
  have z : (num 0 : F32).Is 0 := by simpa using num32 (n := 0) (by decide)
  have ne : ¬ ((x ==. num 0) = true) := by rw [eq_is hx z]; simpa using ha
  unfold sincNorm
  rw [if_neg ne]
  dsimp only
  -- the argument of the sine
  have pi1 := Real.pi_gt_three
  have pi2 := Real.pi_lt_four
  set R := Real.pi * r with hR
  have hRa : |R| = Real.pi * |r| := by rw [hR, abs_mul, abs_of_pos Real.pi_pos]
  have hp : (FloatOps.pi : F32).Is (13176795 / 4194304) := by
    have := f32_dy (m := 13176795) (k := 22) (by decide) (by decide)
    norm_num at this
    exact lit_exact this
  have hpr : ((13176795 / 4194304 : Rat) : ℝ) = f32Pi := by unfold f32Pi; norm_num
  have k1 : |((13176795 / 4194304 * a : Rat) : ℝ) - R| ≤ 3.5 / 16777216 * |R| := by
    rw [Rat.cast_mul, hpr, hR, show f32Pi * (a : ℝ) - Real.pi * r = (f32Pi - Real.pi) * a + Real.pi * (a - r) by ring]
    refine (abs_add_le _ _).trans ?_
    rw [abs_mul, abs_mul, abs_of_pos Real.pi_pos, ← hR, hRa]
    have a1 : |(a : ℝ)| ≤ 1.001 * |r| := by
      have := abs_add_le ((a : ℝ) - r) r
      rw [sub_add_cancel] at this
      linarith
    have t1 : |f32Pi - Real.pi| * |(a : ℝ)| ≤ 8.75e-8 * (1.001 * |r|) := mul_le_mul f32Pi_near a1 (abs_nonneg _) (by norm_num)
    have t2 : Real.pi * |(a : ℝ) - r| ≤ Real.pi * (3 / 16777216 * |r|) := mul_le_mul_of_nonneg_left h (by linarith)
    nlinarith
  have R0 : 1 / 2 ^ 57 ≤ |R| := by rw [hRa]; norm_num at h0 ⊢; nlinarith
  have R1 : |R| ≤ 404 := by rw [hRa]; nlinarith
  have k2 := rnd_rel_real k1 (by norm_num) (by norm_num) (le_trans (by norm_num) R0)
  have hy : (FloatOps.pi *. x).Is (f32.rnd (13176795 / 4194304 * a)) := by
    refine mul_is hp hx (f32_ovf ?_)
    have : |((13176795 / 4194304 * a : Rat) : ℝ)| ≤ ((2 ^ 100 : Rat) : ℝ) := by
      have := abs_add_le (((13176795 / 4194304 * a : Rat) : ℝ) - R) R
      rw [sub_add_cancel] at this
      refine this.trans ?_
      push_cast
      norm_num at k1 ⊢
      linarith
    rw [← Rat.cast_abs] at this
    exact_mod_cast this
  generalize f32.rnd (13176795 / 4194304 * a) = y at *
  have k2 : |(y : ℝ) - R| ≤ 4.51 / 16777216 * |R| := k2.trans (mul_le_mul_of_nonneg_right (by norm_num) (abs_nonneg _))
  have hy1 : |(y : ℝ)| ≤ 1.001 * |R| := by
    have := abs_add_le ((y : ℝ) - R) R
    rw [sub_add_cancel] at this
    linarith
  have hy2 : 0.999 * |R| ≤ |(y : ℝ)| := by
    have := abs_sub_abs_le_abs_sub R (y : ℝ)
    rw [abs_sub_comm] at this
    linarith
  have R0' : 0 < |R| := lt_of_lt_of_le (by positivity) R0
  have y0 : 0 < |(y : ℝ)| := by linarith
  have hyn : (y : ℝ) ≠ 0 := abs_pos.1 y0
  have hyq : y ≠ 0 := by exact_mod_cast hyn
  obtain ⟨c, hc, ec⟩ := hs _ y hy (by
    have : |(y : ℝ)| ≤ ((1000 : Rat) : ℝ) := by push_cast; linarith
    rw [← Rat.cast_abs] at this
    exact_mod_cast this)
  -- the quotient
  have s1 : |(c : ℝ) / y - Real.sin y / y| ≤ 4.01 / 16777216 := by
    rw [← sub_div, abs_div, div_le_iff₀ y0]
    have := abs_sin_le' (y : ℝ)
    have : (1 / 2 ^ 140 : ℝ) ≤ 1 / 2 ^ 80 * |(y : ℝ)| := by norm_num at R0 ⊢; linarith
    norm_num at ec this ⊢
    linarith
  have s2 := sinc_rel (abs_pos.1 R0') hyn k2 (by norm_num)
  have s3 : |((c / y : Rat) : ℝ) - Real.sinc R| ≤ 13.1 / 16777216 := by
    push_cast
    have := abs_sub_le ((c : ℝ) / y) (Real.sin y / y) (Real.sinc R)
    norm_num at s1 s2 ⊢
    linarith
  have b1 := Real.abs_sinc_le_one R
  refine Near.rnd (div_is hc hy hyq ?_) s3 b1 (by norm_num) (by norm_num)
  refine ovf_real ?_
  have := abs_add_le (((c / y : Rat) : ℝ) - Real.sinc R) (Real.sinc R)
  rw [sub_add_cancel] at this
  have : (13.1 : ℝ) / 16777216 ≤ 1 := by norm_num
  linarith

theorem sinc_zero {x : F32} (hx : x.Is 0) : (sincNorm x).Is 1 := by
  have z : (num 0 : F32).Is 0 := by simpa using num32 (n := 0) (by decide)
  unfold sincNorm
  rw [if_pos (by rw [eq_is hx z]; simp)]
  simpa using num32 (n := 1) (by decide)

/-- spec: the Lanczos window of size `A`: sinc(pi x) sinc(pi x / A) inside (-A, A), 0 outside -/
noncomputable def lanczosKer (A : Nat) (x : ℝ) : ℝ := if |x| < A then Real.sinc (Real.pi * x) * Real.sinc (Real.pi * (x / A)) else 0

omit [Libm f32] in
theorem abs_lanczosKer_le (A : Nat) (x : ℝ) : |lanczosKer A x| ≤ 1 := by
  unfold lanczosKer
  split
  · rw [abs_mul]
    exact mul_le_one₀ (Real.abs_sinc_le_one _) (abs_nonneg _) (Real.abs_sinc_le_one _)
  · simp

/-- `lanczos_kernel` of a rounded distance -/
theorem lanczos_err (hs : SinAccurate) {A : Nat} (A0 : 0 < A) (A1 : A ≤ 100) {x : F32} {d : Rat} (hx : x.Is (f32.rnd d)) (hd : d = 0 ∨ 1 / 2 ^ 50 ≤ |d|)
    (hA : |d| ≤ A) : Near (lanczosKernel x (ofNat A)) (lanczosKer A d) (32 / 16777216) := by
  have hAf : (ofNat A : F32).Is (A : Rat) := nat32 (by omega)
  have hAn : (FloatOps.neg (ofNat A) : F32).Is (-(A : Rat)) := FP.neg_is hAf
  have A0' : (0 : Rat) < A := by exact_mod_cast A0
  have A0r : (1 : ℝ) ≤ A := by exact_mod_cast A0
  have A1r : (A : ℝ) ≤ 100 := by exact_mod_cast A1
  rcases hd with rfl | hd
  · rw [show f32.rnd 0 = 0 from rndQ_zero _] at hx
    have hdiv : (x /. ofNat A).Is 0 := by
      have := div_exact hx hAf A0'.ne' (by rw [zero_div]; exact Fmt.Exact.zero)
      rwa [zero_div] at this
    have e : (x >. FloatOps.neg (ofNat A) && x <. ofNat A) = true := by
      rw [FloatOps.gt, lt_is hAn hx, lt_is hx hAf]; simp [A0']
    unfold lanczosKernel lanczosKer
    rw [if_pos e]
    have k : (sincNorm x *. sincNorm (x /. ofNat A)).Is 1 := by
      have := mul_exact (sinc_zero hx) (sinc_zero hdiv) (by
        have := f32_int (n := 1) (by decide)
        norm_num at this ⊢; exact this)
      rwa [mul_one] at this
    refine ⟨1, k, ?_⟩
    rw [if_pos (by simp; omega)]
    simp
    norm_num
  · have d0 : 0 < |d| := lt_of_lt_of_le (by positivity) hd
    have dr : 1 / 2 ^ 50 ≤ |(d : ℝ)| := by
      have := (Rat.cast_le (K := ℝ)).2 hd
      push_cast at this; exact this
    have dA : |(d : ℝ)| ≤ A := by
      have := (Rat.cast_le (K := ℝ)).2 hA
      push_cast at this; exact this
    have dr0 : 0 < |(d : ℝ)| := lt_of_lt_of_le (by positivity) dr
    have k1 : |((f32.rnd d : Rat) : ℝ) - d| ≤ 1 / 16777216 * |(d : ℝ)| := by
      have := rnd_rel_real (q := d) (r := d) (k := 0) (by simp) (le_refl _) (by norm_num) (le_trans (by norm_num) dr)
      simpa using this
    have ext : ∀ B : Int, |B| ≤ 100 → f32.rnd (B : Rat) = B := fun B hB => (f32_int (by omega)).rnd
    by_cases hin : -(A : Rat) < f32.rnd d ∧ f32.rnd d < A
    · have e : (x >. FloatOps.neg (ofNat A) && x <. ofNat A) = true := by
        rw [FloatOps.gt, lt_is hAn hx, lt_is hx hAf]; simp [hin]
      have dlt : |(d : ℝ)| < A := by
        refine lt_of_le_of_ne dA fun he => ?_
        have he : |d| = A := by
          have : ((|d| : Rat) : ℝ) = ((A : Rat) : ℝ) := by rw [Rat.cast_abs, he]; simp
          exact_mod_cast this
        rcases abs_choice d with h | h
        · rw [h] at he
          have := ext A (by rw [abs_le]; omega)
          rw [he] at hin
          rw [show ((A : Nat) : Rat) = (((A : Int)) : Rat) by simp, this] at hin
          exact absurd hin.2 (lt_irrefl _)
        · rw [h] at he
          have he : d = -(A : Rat) := by linarith
          have := ext (-(A : Int)) (by rw [abs_neg, abs_le]; omega)
          rw [he] at hin
          rw [show -((A : Nat) : Rat) = ((-(A : Int) : Int) : Rat) by push_cast; rfl, this] at hin
          exact absurd hin.1 (lt_irrefl _)
      unfold lanczosKernel lanczosKer
      rw [if_pos e, if_pos dlt]
      have s1 := sinc_err hs hx (k1.trans (mul_le_mul_of_nonneg_right (by norm_num) (abs_nonneg _))) (le_trans (by norm_num) dr) (by linarith)
      have a1 : |((f32.rnd d : Rat) : ℝ)| ≤ 101 := by
        have := abs_add_le (((f32.rnd d : Rat) : ℝ) - d) d
        rw [sub_add_cancel] at this
        linarith
      have dv : |(d : ℝ) / A| = |(d : ℝ)| / A := by rw [abs_div, abs_of_pos (by linarith : (0 : ℝ) < A)]
      have k2 : |((f32.rnd d / A : Rat) : ℝ) - d / A| ≤ 1 / 16777216 * |(d : ℝ) / A| := by
        push_cast
        rw [← sub_div, abs_div, abs_of_pos (by linarith : (0 : ℝ) < A), dv, ← mul_div_assoc]
        exact div_le_div_of_nonneg_right k1 (by linarith)
      have dvl : 1 / 2 ^ 58 ≤ |(d : ℝ) / A| := by
        rw [dv, le_div_iff₀ (by linarith)]
        norm_num at dr ⊢
        linarith
      have k3 := rnd_rel_real k2 (by norm_num) (by norm_num) (le_trans (by norm_num) dvl)
      have hdiv : (x /. ofNat A).Is (f32.rnd (f32.rnd d / A)) := by
        refine div_is hx hAf A0'.ne' (ovf_real ?_)
        push_cast
        rw [abs_div, abs_of_pos (by linarith : (0 : ℝ) < A)]
        exact (div_le_self (abs_nonneg _) A0r).trans (by linarith)
      have s2 := sinc_err hs hdiv (k3.trans (mul_le_mul_of_nonneg_right (by norm_num) (abs_nonneg _))) dvl (by
        rw [dv]; exact (div_le_self (abs_nonneg _) A0r).trans (by linarith))
      exact s1.mul s2 (B := 1) (C := 1) (Real.abs_sinc_le_one _) (Real.abs_sinc_le_one _) (by norm_num) (by norm_num) (by norm_num)
    · have e : ¬ ((x >. FloatOps.neg (ofNat A) && x <. ofNat A) = true) := by
        rw [FloatOps.gt, lt_is hAn hx, lt_is hx hAf]
        simpa using hin
      unfold lanczosKernel lanczosKer
      rw [if_neg e]
      refine ⟨0, by simpa using num32 (n := 0) (by decide), ?_⟩
      rw [Rat.cast_zero, zero_sub, abs_neg]
      split
      · rename_i hlt
        rw [abs_mul]
        have big : (A : ℝ) ≤ |((f32.rnd d : Rat) : ℝ)| := by
          have : (A : Rat) ≤ |f32.rnd d| := by
            by_contra hc
            exact hin (abs_lt.1 (not_le.1 hc))
          have := (Rat.cast_le (K := ℝ)).2 this
          push_cast at this; exact this
        have gap : (A : ℝ) - |(d : ℝ)| ≤ 1 / 16777216 * |(d : ℝ)| := by
          have := abs_sub_abs_le_abs_sub ((f32.rnd d : Rat) : ℝ) (d : ℝ)
          linarith
        have hsin : |Real.sin (Real.pi * d)| ≤ Real.pi * (A - |(d : ℝ)|) := by
          have : |Real.sin (Real.pi * d)| = |Real.sin (Real.pi * |(d : ℝ)|)| := by
            rcases abs_choice (d : ℝ) with h | h
            · rw [h]
            · rw [h, mul_neg, Real.sin_neg, abs_neg]
          rw [this]
          have e := Real.sin_sub_int_mul_pi (Real.pi * |(d : ℝ)|) (A : ℤ)
          have e2 : |Real.sin (Real.pi * |(d : ℝ)|)| = |Real.sin (Real.pi * |(d : ℝ)| - ((A : ℤ) : ℝ) * Real.pi)| := by
            rw [e, abs_mul, abs_zpow, abs_neg, abs_one, one_zpow, one_mul]
          rw [e2]
          refine (abs_sin_le' _).trans ?_
          rw [show Real.pi * |(d : ℝ)| - ((A : ℤ) : ℝ) * Real.pi = -(Real.pi * (A - |(d : ℝ)|)) by push_cast; ring, abs_neg,
            abs_of_nonneg (mul_nonneg Real.pi_pos.le (by linarith))]
        have hne : Real.pi * (d : ℝ) ≠ 0 := mul_ne_zero Real.pi_pos.ne' (abs_pos.1 dr0)
        have : |Real.sinc (Real.pi * d)| ≤ 32 / 16777216 := by
          rw [Real.sinc_of_ne_zero hne, abs_div, abs_mul, abs_of_pos Real.pi_pos, div_le_iff₀ (mul_pos Real.pi_pos dr0)]
          refine hsin.trans ?_
          have := mul_le_mul_of_nonneg_left gap Real.pi_pos.le
          have : 0 < Real.pi * |(d : ℝ)| := mul_pos Real.pi_pos dr0
          linarith
        calc _ ≤ 32 / 16777216 * 1 := mul_le_mul this (Real.abs_sinc_le_one _) (abs_nonneg _) (by norm_num)
          _ = _ := by ring
      · simp; norm_num

/-- the sum of the taps, with real weights of at most 1 -/
theorem lanczosTaps_err {A : Nat} (A1 : A ≤ 100) {M : Rat} (h0 : 1 / 2 ^ 100 ≤ M) (h1 : M ≤ 2 ^ 80) {v w : Nat → Nat → F32}
    {a : Nat → Nat → Rat} {W : Nat → Nat → ℝ}
    (hv : ∀ m n, m < 2 * A → n < 2 * A → (v m n).Is (a m n)) (ha : ∀ m n, m < 2 * A → n < 2 * A → |a m n| ≤ M)
    (hW : ∀ m n, m < 2 * A → n < 2 * A → |W m n| ≤ 1) (hw : ∀ m n, m < 2 * A → n < 2 * A → Near (w m n) (W m n) (66 / 16777216)) :
    ∃ b : Rat, (tapFold (2 * A) (2 * A) v w).Is b ∧ |(b : ℝ) - ∑ m ∈ range (2 * A), ∑ n ∈ range (2 * A), (a m n : ℝ) * W m n| ≤
      4 * A ^ 2 * (8 * A ^ 2 + 70) / 2 ^ 24 * M := by
  have M0 : 0 < M := lt_of_lt_of_le (by positivity) h0
  have M0r : (0 : ℝ) < M := by exact_mod_cast M0
  have hw' : ∀ m n, ∃ b : Rat, m < 2 * A → n < 2 * A → (w m n).Is b ∧ |(b : ℝ) - W m n| ≤ 66 / 16777216 := by
    intro m n
    by_cases h : m < 2 * A ∧ n < 2 * A
    · obtain ⟨b, hb⟩ := hw m n h.1 h.2
      exact ⟨b, fun _ _ => hb⟩
    · exact ⟨0, fun h1 h2 => absurd ⟨h1, h2⟩ h⟩
  choose b hb using hw'
  have hb1 : ∀ m n, m < 2 * A → n < 2 * A → |b m n| ≤ 1 + 66 / 16777216 := by
    intro m n hm hn
    have t := abs_add_le ((b m n : ℝ) - W m n) (W m n)
    rw [sub_add_cancel] at t
    have : ((|b m n| : Rat) : ℝ) ≤ ((1 + 66 / 16777216 : Rat) : ℝ) := by
      rw [Rat.cast_abs]
      push_cast
      linarith [(hb m n hm hn).2, hW m n hm hn]
    exact_mod_cast this
  have cst : ∀ c : Rat, ∑ m ∈ range (2 * A), ∑ n ∈ range (2 * A), c = 4 * A ^ 2 * c := by
    intro c; simp only [Finset.sum_const, Finset.card_range, nsmul_eq_mul]; push_cast; ring
  have A1' : (A : Rat) ≤ 100 := by exact_mod_cast A1
  have N0 : (0 : Rat) ≤ 4 * A ^ 2 := by positivity
  have N1 : 4 * (A : Rat) ^ 2 ≤ 40000 := by nlinarith [show (0 : Rat) ≤ A by positivity]
  have S : ∑ m ∈ range (2 * A), ∑ n ∈ range (2 * A), |a m n * b m n| ≤ 4 * A ^ 2 * (M * (1 + 66 / 16777216)) := by
    rw [← cst]
    refine Finset.sum_le_sum fun m hm => Finset.sum_le_sum fun n hn => ?_
    have hm := Finset.mem_range.1 hm
    have hn := Finset.mem_range.1 hn
    rw [abs_mul]
    exact mul_le_mul (ha m n hm hn) (hb1 m n hm hn) (abs_nonneg _) M0.le
  obtain ⟨r, hr, er⟩ := tapFold_err (K := 2 * A) (M := 2 * A) (by nlinarith) hv (fun m n hm hn => (hb m n hm hn).1) (by
    refine S.trans ?_
    have : (40000 : Rat) * (2 ^ 80 * 2) ≤ 2 ^ 97 := by norm_num
    have : M * (1 + 66 / 16777216) ≤ 2 ^ 80 * 2 := mul_le_mul h1 (by norm_num) (by norm_num) (by norm_num)
    have := mul_le_mul N1 this (by positivity) (by norm_num)
    linarith)
  refine ⟨r, hr, ?_⟩
  have er' : |r - ∑ m ∈ range (2 * A), ∑ n ∈ range (2 * A), a m n * b m n| ≤ 4 * A ^ 2 * (8 * A ^ 2 + 3) / 2 ^ 24 * M := by
    refine er.trans ?_
    have e : ((2 * A * (2 * A) : Nat) : Rat) = 4 * A ^ 2 := by push_cast; ring
    rw [e]
    rw [show (8 : Rat) * A ^ 2 = 2 * (4 * A ^ 2) by ring]
    generalize 4 * (A : Rat) ^ 2 = N at *
    generalize ∑ m ∈ range (2 * A), ∑ n ∈ range (2 * A), |a m n * b m n| = T at *
    have t1 : (N + 1) / 2 ^ 23 * T ≤ (N + 1) / 2 ^ 23 * (N * (M * (1 + 66 / 16777216))) := mul_le_mul_of_nonneg_left S (by positivity)
    have t3 : (1 : Rat) / 2 ^ 147 ≤ M / 2 ^ 40 := by
      have : (1 / 2 ^ 100 : Rat) / 2 ^ 40 ≤ M / 2 ^ 40 := div_le_div_of_nonneg_right h0 (by positivity)
      refine le_trans ?_ this
      norm_num
    have t4 : N / 2 ^ 147 ≤ N * M / 2 ^ 40 := by
      have := mul_le_mul_of_nonneg_left t3 N0
      calc N / 2 ^ 147 = N * (1 / 2 ^ 147) := by ring
        _ ≤ N * (M / 2 ^ 40) := this
        _ = _ := by ring
    have t5 : (2 * (N + 1) * (1 + 66 / 16777216) + 1 / 2 ^ 16) ≤ 2 * N + 3 := by norm_num; linarith
    have t6 := mul_le_mul_of_nonneg_left t5 (show 0 ≤ N * M / 2 ^ 24 by positivity)
    calc _ ≤ (N + 1) / 2 ^ 23 * (N * (M * (1 + 66 / 16777216))) + N * M / 2 ^ 40 := add_le_add t1 t4
      _ = N * M / 2 ^ 24 * (2 * (N + 1) * (1 + 66 / 16777216) + 1 / 2 ^ 16) := by ring
      _ ≤ _ := t6
      _ = _ := by ring
  have d : |((∑ m ∈ range (2 * A), ∑ n ∈ range (2 * A), a m n * b m n : Rat) : ℝ) - ∑ m ∈ range (2 * A), ∑ n ∈ range (2 * A), (a m n : ℝ) * W m n| ≤
      4 * A ^ 2 * (M * (66 / 16777216)) := by
    push_cast
    simp only [← Finset.sum_sub_distrib]
    calc _ ≤ ∑ m ∈ range (2 * A), ∑ n ∈ range (2 * A), ((M : ℝ) * (66 / 16777216)) := by
          refine (Finset.abs_sum_le_sum_abs _ _).trans (Finset.sum_le_sum fun m hm => (Finset.abs_sum_le_sum_abs _ _).trans (Finset.sum_le_sum fun n hn => ?_))
          have hm := Finset.mem_range.1 hm
          have hn := Finset.mem_range.1 hn
          rw [← mul_sub, abs_mul]
          refine mul_le_mul ?_ (hb m n hm hn).2 (abs_nonneg _) M0r.le
          have := (Rat.cast_le (K := ℝ)).2 (ha m n hm hn)
          push_cast at this; exact this
      _ = _ := by simp only [Finset.sum_const, Finset.card_range, nsmul_eq_mul]; push_cast; ring
  have er2 := (Rat.cast_le (K := ℝ)).2 er'
  push_cast at er2
  have t := abs_sub_le (r : ℝ) (((∑ m ∈ range (2 * A), ∑ n ∈ range (2 * A), a m n * b m n : Rat) : ℝ)) (∑ m ∈ range (2 * A), ∑ n ∈ range (2 * A), (a m n : ℝ) * W m n)
  push_cast at t d
  refine t.trans ((add_le_add er2 d).trans ?_)
  have : (0 : ℝ) ≤ 4 * A ^ 2 * M := by positivity
  have e : (4 * (A : ℝ) ^ 2 * (8 * A ^ 2 + 70) / 2 ^ 24 * M) = 4 * A ^ 2 * (8 * A ^ 2 + 3) / 2 ^ 24 * M + 4 * A ^ 2 * M * (67 / 2 ^ 24) := by ring
  rw [e]
  have : 4 * (A : ℝ) ^ 2 * (M * (66 / 16777216)) ≤ 4 * A ^ 2 * M * (67 / 2 ^ 24) := by
    rw [← mul_assoc]; exact mul_le_mul_of_nonneg_left (by norm_num) this
  linarith

/-- spec: the `2A x 2A` pixels around the position (s, t), weighted by the Lanczos window of their distances to it -/
noncomputable def lanczosSum (A : Nat) (v : Nat → Nat → Rat) (w h : Nat) (s t : Rat) : ℝ :=
  ∑ m ∈ range (2 * A), ∑ n ∈ range (2 * A), (v (f32Col w s ((m : Int) + 1 - A)) (f32Col h t ((n : Int) + 1 - A)) : ℝ) *
    (lanczosKer A ((ratFrac s : Rat) - ((m : ℝ) + 1 - A)) * lanczosKer A ((ratFrac t : Rat) - ((n : ℝ) + 1 - A)))

/-- the position is 0 or not tiny -/
theorem pos_grid {f : F32} {q : Rat} (hf : f.Is q) (hq : 0 < q) {w : Nat} (hw : 0 < w) (hw' : w ≤ 16777216)
    (hsmall : (w : Rat) * q ≤ 4194304) {x : Nat} (hx : x < scaleDim w f) : f32.Exact (f32Pos q x) ∧ (f32Pos q x = 0 ∨ 1 / 2 ^ 23 ≤ f32Pos q x) := by
  obtain ⟨-, x24, p0, pb⟩ := pos_lt hf hq hw hw' hsmall hx
  have hd : (ofNat x /. f : F32).Is (f32Pos q x) := div_is (nat32 x24) hf hq.ne' (f32_ovf pb)
  refine ⟨hd.exact, ?_⟩
  rcases Nat.eq_zero_or_pos x with rfl | hx0
  · left; unfold f32Pos; rw [Nat.cast_zero, zero_div]; exact rndQ_zero _
  · right
    have hw1 : (1 : Rat) ≤ w := by exact_mod_cast hw
    have hx1 : (1 : Rat) ≤ x := by exact_mod_cast hx0
    have hq22 : q ≤ 4194304 := le_trans (by nlinarith) hsmall
    have h1 : (1 / 2 ^ 23 : Rat) ≤ (x : Rat) / q := by
      rw [div_le_div_iff₀ (by norm_num) hq]; norm_num; linarith
    have e : f32.Exact (1 / 2 ^ 23 : Rat) := by
      have := f32_dy (m := 1) (k := 23) (by decide) (by decide)
      rwa [Int.cast_one] at this
    exact le_rndQ e.1 h1

/-- one weight -/
theorem lanczosTap_err (hs : SinAccurate) {A : Nat} (A0 : 0 < A) (A1 : A ≤ 100) {f : F32} {q : Rat} (hf : f.Is q) (hq : 0 < q) {w : Nat}
    (hw : 0 < w) (hw' : w ≤ 16777216) (hsmall : (w : Rat) * q ≤ 4194304) {x : Nat} (hx : x < scaleDim w f) {m : Nat} (hm : m < 2 * A) :
    Near (lanczosKernel (ofNat x /. f -. FloatOps.floor (ofNat x /. f) -. FloatOps.ofInt (1 - (A : Int) + (m : Int)) : F32) (ofNat A))
      (lanczosKer A ((ratFrac (f32Pos q x) : Rat) - ((m : ℝ) + 1 - A))) (32 / 16777216) := by
  obtain ⟨p1, x24, p0, pb⟩ := pos_lt hf hq hw hw' hsmall hx
  have hd : (ofNat x /. f : F32).Is (f32Pos q x) := div_is (nat32 x24) hf hq.ne' (f32_ovf pb)
  obtain ⟨ge, g0⟩ := pos_grid hf hq hw hw' hsmall hx
  generalize f32Pos q x = s at *
  have w24 : (w : Rat) ≤ 16777216 := by exact_mod_cast hw'
  obtain ⟨r0, r1⟩ := ratFrac_bounds s
  have fl0 : 0 ≤ s.floor := rat_le_floor.2 (by simpa using p0)
  have fl1 : s.floor < w := rat_floor_lt.2 (by simpa using p1)
  have hfl := floor_is hd (f32_int (by rw [abs_le]; omega))
  obtain ⟨n, k, hk, hn, e⟩ := frac_grid ge g0
  have hde : (ofNat x /. f -. FloatOps.floor (ofNat x /. f) : F32).Is (ratFrac s) := by
    refine sub_exact hd hfl ?_
    show f32.Exact (ratFrac s)
    rw [e]; exact f32_dy hn (by omega)
  have hi : (FloatOps.ofInt (1 - (A : Int) + (m : Int)) : F32).Is ((1 - (A : Int) + (m : Int) : Int) : Rat) :=
    num32 (by rw [abs_le]; omega)
  have m' : (m : Rat) + 1 ≤ 2 * A := by exact_mod_cast (by omega : m + 1 ≤ 2 * A)
  have m0 : (0 : Rat) ≤ m := by positivity
  have A0' : (1 : Rat) ≤ A := by exact_mod_cast A0
  have hA : |ratFrac s - ((1 - (A : Int) + (m : Int) : Int) : Rat)| ≤ A := by
    push_cast; rw [abs_le]; constructor <;> linarith
  have A1' : (A : Rat) ≤ 100 := by exact_mod_cast A1
  have := lanczos_err hs A0 A1 (sub_is hde hi (f32_ovf (hA.trans (A1'.trans (by norm_num))))) (by
    by_cases h0 : n - (1 - (A : Int) + (m : Int)) * 2 ^ k = 0
    · left
      have : ratFrac s - ((1 - (A : Int) + (m : Int) : Int) : Rat) = ((n - (1 - (A : Int) + (m : Int)) * 2 ^ k : Int) : Rat) / 2 ^ k := by
        rw [e]; push_cast; field_simp
      rw [this, h0]; simp
    · right
      have : ratFrac s - ((1 - (A : Int) + (m : Int) : Int) : Rat) = ((n - (1 - (A : Int) + (m : Int)) * 2 ^ k : Int) : Rat) / 2 ^ k := by
        rw [e]; push_cast; field_simp
      rw [this, abs_div, abs_of_pos (show (0 : Rat) < 2 ^ k by positivity)]
      have h1 : (1 : Rat) ≤ |((n - (1 - (A : Int) + (m : Int)) * 2 ^ k : Int) : Rat)| := by
        exact_mod_cast Int.one_le_abs h0
      exact div_le_div₀ (abs_nonneg _) h1 (by positivity) (pow_le_pow_right₀ (by norm_num) hk)) hA
  refine this.of_eq ?_
  congr 1
  push_cast; ring

/-- the interpolation, at every position -/
theorem lanczos_f32 (hs : SinAccurate) (P : Profile) {img : Image F32} (h : ScaleInput img) {xf yf : F32} {qx qy : Rat}
    (hx : xf.Is qx) (hy : yf.Is qy) (hqx : 0 < qx) (hqy : 0 < qy)
    (hw : (img.info.width : Rat) * qx ≤ 4194304) (hh : (img.info.height : Rat) * qy ≤ 4194304)
    {v : Nat → Nat → Nat → Rat} (hv : img.Numbers v) {M : Rat} (m0 : 1 / 2 ^ 100 ≤ M) (m1 : M ≤ 2 ^ 80)
    (hM : ∀ x y c, x < img.info.width → y < img.info.height → c < img.info.channels → |v x y c| ≤ M)
    {A : Nat} (A0 : 0 < A) (A1 : A ≤ 100) {x y : Nat} (h1 : x < scaleDim img.info.width xf) (h2 : y < scaleDim img.info.height yf) :
    ∃ p, interpolateLanczos P img xf yf A x y = .ok p ∧ p.length = img.info.channels ∧ ∀ c < img.info.channels,
      ∃ b : Rat, (p.getD c (num 0)).Is b ∧
        |(b : ℝ) - lanczosSum A (fun i j => v i j c) img.info.width img.info.height (f32Pos qx x) (f32Pos qy y)| ≤
          4 * A ^ 2 * (8 * A ^ 2 + 70) / 2 ^ 24 * M := by
  choose X hX1 hX2 using fun (i : Int) => scaleClampCoord (x := ofNat (F := F32) x /. xf +. FloatOps.ofInt i) h.width h.width'
  choose Y hY1 hY2 using fun (i : Int) => scaleClampCoord (x := ofNat (F := F32) y /. yf +. FloatOps.ofInt i) h.height h.height'
  unfold interpolateLanczos
  dsimp only
  rw [toI32_of_lt (by omega), i32Sub_ok (by omega) (by omega), ok_bind, i32Add_ok (by omega) (by omega), ok_bind]
  refine ⟨_, taps_ok P h.wf _ _ _ _ _ (fun i => toU32 (X i)) (fun i => toU32 (Y i)) hX2 hY2
    (fun i => ⟨X i, hX1 i, rfl⟩) (fun i => ⟨Y i, hY1 i, rfl⟩), by simp, fun c hc => ?_⟩
  rw [List.getD_eq_getElem?_getD, List.getElem?_map, List.getElem?_range hc]
  simp only [Option.map_some, Option.getD_some]
  rw [show (((A : ℤ) + 1 - (1 - (A : ℤ))).toNat) = 2 * A by omega]
  have cx := (cubic_pos hx hqx h.width h.width' hw h1).2
  have cy := (cubic_pos hy hqy h.height h.height' hh h2).2
  have colx : ∀ m : Nat, m < 2 * A → toU32 (X (1 - (A : Int) + (m : Int))) = f32Col img.info.width (f32Pos qx x) ((m : Int) + 1 - A) := by
    intro m hm
    rw [cx _ _ (by rw [abs_le]; omega) (hX1 _), show (1 : Int) - A + m = m + 1 - A by ring]
  have coly : ∀ m : Nat, m < 2 * A → toU32 (Y (1 - (A : Int) + (m : Int))) = f32Col img.info.height (f32Pos qy y) ((m : Int) + 1 - A) := by
    intro m hm
    rw [cy _ _ (by rw [abs_le]; omega) (hY1 _), show (1 : Int) - A + m = m + 1 - A by ring]
  have bx : ∀ s i, f32Col img.info.width s i < img.info.width := fun s i => clampCol_lt h.width _
  have by' : ∀ s i, f32Col img.info.height s i < img.info.height := fun s i => clampCol_lt h.height _
  exact lanczosTaps_err A1 m0 m1
    (a := fun m n => v (f32Col img.info.width (f32Pos qx x) ((m : Int) + 1 - A)) (f32Col img.info.height (f32Pos qy y) ((n : Int) + 1 - A)) c)
    (W := fun m n => lanczosKer A ((ratFrac (f32Pos qx x) : Rat) - ((m : ℝ) + 1 - A)) * lanczosKer A ((ratFrac (f32Pos qy y) : Rat) - ((n : ℝ) + 1 - A)))
    (fun m n hm hn => by rw [colx m hm, coly n hn]; exact hv _ _ _ (bx _ _) (by' _ _) hc)
    (fun m n hm hn => hM _ _ _ (bx _ _) (by' _ _) hc)
    (fun m n hm hn => by rw [abs_mul]; exact mul_le_one₀ (abs_lanczosKer_le _ _) (abs_nonneg _) (abs_lanczosKer_le _ _))
    (fun m n hm hn => (lanczosTap_err hs A0 A1 hx hqx h.width h.width' hw h1 hm).mul (lanczosTap_err hs A0 A1 hy hqy h.height h.height' hh h2 hn)
      (B := 1) (C := 1) (abs_lanczosKer_le _ _) (abs_lanczosKer_le _ _) (by norm_num) (by norm_num) (by norm_num))

/-- **C115** (f32) What scale_lanczos computes, for every factor and every size up to 100: the output pixel at (x, y) is the sum of the
`2A x 2A` pixels around the position (x / xf, y / yf) (each coordinate rounded to a float), weighted by the Lanczos window, with an error of at
most `4 A² (8 A² + 70) / 2^24` times the largest value. The only assumption about the platform is that `sin` is accurate. -/
theorem c115_lanczos_value (hs : SinAccurate) (P : Profile) {img : Image F32} (h : ScaleInput img) {xf yf : F32} {qx qy : Rat}
    (hx : xf.Is qx) (hy : yf.Is qy) (hqx : 0 < qx) (hqy : 0 < qy)
    (hw : (img.info.width : Rat) * qx ≤ 4194304) (hh : (img.info.height : Rat) * qy ≤ 4194304)
    (hout : OutFits img xf yf) {v : Nat → Nat → Nat → Rat} (hv : img.Numbers v) {M : Rat} (m0 : 1 / 2 ^ 100 ≤ M) (m1 : M ≤ 2 ^ 80)
    (hM : ∀ x y c, x < img.info.width → y < img.info.height → c < img.info.channels → |v x y c| ≤ M)
    {A : Nat} (A0 : 0 < A) (A1 : A ≤ 100) :
    ∃ out, scaleLanczos P img xf yf A = .ok out ∧ out.WF ∧
      out.info = ⟨scaleDim img.info.width xf, scaleDim img.info.height yf, img.info.channels, img.info.alpha⟩ ∧
      ∀ x y c, x < out.info.width → y < out.info.height → c < img.info.channels →
        ∃ b : Rat, ((out.px x y).getD c (num 0)).Is b ∧
          |(b : ℝ) - lanczosSum A (fun i j => v i j c) img.info.width img.info.height (f32Pos qx x) (f32Pos qy y)| ≤
            4 * A ^ 2 * (8 * A ^ 2 + 70) / 2 ^ 24 * M := by
  have hG : ∀ x y, ∃ p : List F32, x < scaleDim img.info.width xf → y < scaleDim img.info.height yf →
      interpolateLanczos P img xf yf A x y = .ok p ∧ p.length = img.info.channels ∧ ∀ c < img.info.channels,
      ∃ b : Rat, (p.getD c (num 0)).Is b ∧
        |(b : ℝ) - lanczosSum A (fun i j => v i j c) img.info.width img.info.height (f32Pos qx x) (f32Pos qy y)| ≤
          4 * A ^ 2 * (8 * A ^ 2 + 70) / 2 ^ 24 * M := by
    intro x y
    by_cases hxy : x < scaleDim img.info.width xf ∧ y < scaleDim img.info.height yf
    · obtain ⟨p, hp⟩ := lanczos_f32 hs P h hx hy hqx hqy hw hh hv m0 m1 hM A0 A1 hxy.1 hxy.2
      exact ⟨p, fun _ _ => hp⟩
    · exact ⟨[], fun h1 h2 => absurd ⟨h1, h2⟩ hxy⟩
  choose G hG using hG
  obtain ⟨out, e, ho⟩ := scaleLanczos_core P (checkNonNeg_is hx hqx.le) (checkNonNeg_is hy hqy.le) rfl rfl
    (hout.info h.wf.channels) (size := A) G (fun x y h1 h2 => (hG x y h1 h2).2.1) (fun x y h1 h2 => (hG x y h1 h2).1)
  refine ⟨out, e, ho.1, ho.2.1, fun x y c h1 h2 hc => ?_⟩
  rw [ho.2.1] at h1 h2
  rw [ho.px_eq h1 h2]
  exact (hG x y h1 h2).2.2 c hc

/-- **C115** (f32) scale with the Lanczos method is size 3, with an error of at most 2^-11 of the largest value. -/
theorem c115_lanczos_scale (hs : SinAccurate) (P : Profile) {img : Image F32} (h : ScaleInput img) {xf yf : F32} {qx qy : Rat}
    (hx : xf.Is qx) (hy : yf.Is qy) (hqx : 0 < qx) (hqy : 0 < qy)
    (hw : (img.info.width : Rat) * qx ≤ 4194304) (hh : (img.info.height : Rat) * qy ≤ 4194304)
    (hout : OutFits img xf yf) {v : Nat → Nat → Nat → Rat} (hv : img.Numbers v) {M : Rat} (m0 : 1 / 2 ^ 100 ≤ M) (m1 : M ≤ 2 ^ 80)
    (hM : ∀ x y c, x < img.info.width → y < img.info.height → c < img.info.channels → |v x y c| ≤ M) :
    ∃ out, scale P img xf yf .lanczos = .ok out ∧ out.WF ∧
      out.info = ⟨scaleDim img.info.width xf, scaleDim img.info.height yf, img.info.channels, img.info.alpha⟩ ∧
      ∀ x y c, x < out.info.width → y < out.info.height → c < img.info.channels →
        ∃ b : Rat, ((out.px x y).getD c (num 0)).Is b ∧
          |(b : ℝ) - lanczosSum 3 (fun i j => v i j c) img.info.width img.info.height (f32Pos qx x) (f32Pos qy y)| ≤ M / 2 ^ 11 := by
  obtain ⟨out, e, r⟩ := c115_lanczos_value hs P h hx hy hqx hqy hw hh hout hv m0 m1 hM (A := 3) (by decide) (by decide)
  refine ⟨out, ?_, r.1, r.2.1, fun x y c h1 h2 hc => ?_⟩
  · rw [← e]; rfl
  · obtain ⟨b, hb, eb⟩ := r.2.2 x y c h1 h2 hc
    refine ⟨b, hb, eb.trans ?_⟩
    have : (0 : ℝ) < M := by exact_mod_cast lt_of_lt_of_le (by positivity) m0
    norm_num
    linarith

omit [Libm f32] in
/-- at the whole numbers the window is 1 at 0 and 0 elsewhere -/
theorem lanczosKer_int {A : Nat} (A0 : 0 < A) (n : Int) : lanczosKer A (n : ℝ) = if n = 0 then 1 else 0 := by
  unfold lanczosKer
  by_cases h : n = 0
  · subst h; simp [A0]
  · rw [if_neg h]
    split
    · have hn : Real.pi * (n : ℝ) ≠ 0 := mul_ne_zero Real.pi_pos.ne' (by exact_mod_cast h)
      rw [Real.sinc_of_ne_zero hn, mul_comm Real.pi, Real.sin_int_mul_pi, zero_div, zero_mul]
    · rfl

omit [Libm f32] in
theorem f32Pos_one {x : Nat} (hx : x ≤ 16777216) : f32Pos 1 x = x := by
  unfold f32Pos
  rw [div_one]
  have := (f32_int (n := (x : Int)) (by rw [abs_le]; omega)).rnd
  simpa using this

omit [Libm f32] in
/-- with factors 1, all weights but one are 0 -/
theorem lanczosSum_one {A : Nat} (A0 : 0 < A) (v : Nat → Nat → Rat) {w h x y : Nat} (hx : x < w) (hy : y < h) (hw : w ≤ 16777216) (hh : h ≤ 16777216) :
    lanczosSum A v w h (f32Pos 1 x) (f32Pos 1 y) = v x y := by
  rw [f32Pos_one (by omega), f32Pos_one (by omega)]
  have fr : ∀ n : Nat, ratFrac (n : Rat) = 0 := by
    intro n
    unfold ratFrac
    have : ((n : Rat)).floor = (n : Int) := by have := Rat.floor_intCast (n : Int); simpa using this
    rw [this]; simp
  have k : ∀ m : Nat, lanczosKer A (((0 : Rat) : ℝ) - ((m : ℝ) + 1 - A)) = if m = A - 1 then 1 else 0 := by
    intro m
    have := lanczosKer_int A0 ((A : Int) - 1 - m)
    have e : (((A : Int) - 1 - m : Int) : ℝ) = ((0 : Rat) : ℝ) - ((m : ℝ) + 1 - A) := by push_cast; ring
    rw [e] at this
    rw [this]
    by_cases hm : m = A - 1
    · rw [if_pos hm, if_pos (by omega)]
    · rw [if_neg hm, if_neg (by omega)]
  have col : ∀ {w x : Nat}, x < w → w ≤ 16777216 → f32Col w (x : Rat) (((A - 1 : Nat) : Int) + 1 - A) = x := by
    intro w x hx hw
    unfold f32Col
    rw [show (((A - 1 : Nat) : Int) + 1 - A) = 0 by omega, Int.cast_zero, add_zero]
    have := (f32_int (n := (x : Int)) (by rw [abs_le]; omega)).rnd
    rw [show ((x : Nat) : Rat) = ((x : Int) : Rat) by simp, this, Rat.floor_intCast]
    unfold clampCol; omega
  unfold lanczosSum
  rw [fr, fr]
  simp only [k]
  rw [Finset.sum_eq_single (A - 1), Finset.sum_eq_single (A - 1)]
  · rw [if_pos rfl, mul_one, mul_one, col hx hw, col hy hh]
  · intro b _ hb; rw [if_neg hb]; simp
  · intro hb; exact absurd (Finset.mem_range.2 (by omega)) hb
  · intro b _ hb; rw [if_neg hb]; simp
  · intro hb; exact absurd (Finset.mem_range.2 (by omega)) hb

/-- **C115** (f32) scale_lanczos by the factors 1 returns the image, up to the rounding error. -/
theorem c115_lanczos_identity (hs : SinAccurate) (P : Profile) {img : Image F32} (h : ScaleInput img) {xf yf : F32}
    (hx : xf.Is 1) (hy : yf.Is 1) (hw : img.info.width ≤ 4194304) (hh : img.info.height ≤ 4194304)
    {v : Nat → Nat → Nat → Rat} (hv : img.Numbers v) {M : Rat} (m0 : 1 / 2 ^ 100 ≤ M) (m1 : M ≤ 2 ^ 80)
    (hM : ∀ x y c, x < img.info.width → y < img.info.height → c < img.info.channels → |v x y c| ≤ M)
    {A : Nat} (A0 : 0 < A) (A1 : A ≤ 100) (hout : OutFits img xf yf) :
    ∃ out, scaleLanczos P img xf yf A = .ok out ∧ out.info = img.info ∧
      ∀ x y c, x < img.info.width → y < img.info.height → c < img.info.channels →
        ∃ b : Rat, ((out.px x y).getD c (num 0)).Is b ∧ |(b : ℝ) - v x y c| ≤ 4 * A ^ 2 * (8 * A ^ 2 + 70) / 2 ^ 24 * M := by
  have hw' : (img.info.width : Rat) ≤ 4194304 := by exact_mod_cast hw
  have hh' : (img.info.height : Rat) ≤ 4194304 := by exact_mod_cast hh
  obtain ⟨out, e, -, hi, ho⟩ := c115_lanczos_value hs P h hx hy one_pos one_pos (by rw [mul_one]; exact hw') (by rw [mul_one]; exact hh') hout hv m0 m1 hM A0 A1
  have d1 : scaleDim img.info.width xf = img.info.width := by
    have := scaleDim_int (k := 1) (n := img.info.width) (by simpa using hx) (by omega) (by omega)
    simpa using this
  have d2 : scaleDim img.info.height yf = img.info.height := by
    have := scaleDim_int (k := 1) (n := img.info.height) (by simpa using hy) (by omega) (by omega)
    simpa using this
  rw [d1, d2] at hi
  refine ⟨out, e, hi, fun x y c h1 h2 hc => ?_⟩
  obtain ⟨b, hb, eb⟩ := ho x y c (by rw [hi]; exact h1) (by rw [hi]; exact h2) hc
  rw [lanczosSum_one A0 _ h1 h2 h.width' h.height'] at eb
  exact ⟨b, hb, eb⟩
end

/-! ### the hypotheses are met -/

theorem sin_exists (a : Rat) : ∃ (z : F32) (c : Rat), z.Is c ∧ |(c : ℝ) - Real.sin a| ≤ |Real.sin a| / 2 ^ 22 + 1 / 2 ^ 140 := by
  obtain ⟨q, hq⟩ := exists_rat_near (Real.sin a) (show (0 : ℝ) < 1 / 2 ^ 150 by positivity)
  have s1 := Real.abs_sin_le_one a
  have q1 : |(q : ℝ)| ≤ |Real.sin a| + 1 / 2 ^ 150 := by
    have := abs_sub_abs_le_abs_sub (q : ℝ) (Real.sin a)
    rw [abs_sub_comm] at this
    linarith
  refine ⟨Flt.ofRat f32 q, _, Flt.ofRat_is (ovf_real ?_), ?_⟩
  · have : (1 / 2 ^ 150 : ℝ) ≤ 1 := by norm_num
    linarith
  · have e := (Rat.cast_le (K := ℝ)).2 (rnd_err_add q)
    push_cast at e
    have t := abs_sub_le ((f32.rnd q : Rat) : ℝ) q (Real.sin a)
    rw [abs_sub_comm] at hq
    norm_num at e hq q1 t ⊢
    linarith [abs_nonneg (Real.sin a)]

open Classical in
/-- a platform whose `sin` is accurate -/
@[reducible] noncomputable def sinLibm : Libm f32 where
  pow x _ := x
  sin x := match x.val.toQ? with | some a => (sin_exists a).choose | none => x
  cos := id

theorem sinLibm_spec : @SinAccurate sinLibm := by
  intro x a hx _
  have hx' : x.val.toQ? = some a := hx
  have e : (@FloatOps.sin F32 (@instFloatOpsFlt f32 sinLibm) x) = (sin_exists a).choose := by
    show sinLibm.sin x = _
    unfold sinLibm
    simp only [hx']
  rw [e]
  exact (sin_exists a).choose_spec

example (P : Profile) : letI := sinLibm
    ∃ out, scale P (gray6 (num 7) (num 7) (num 7) (num 7) (num 7) (num 7)) (num 2) (num 2) .lanczos = .ok out ∧
    ∀ x y c, x < out.info.width → y < out.info.height → c < 1 → ∃ b, ((out.px x y).getD c (num 0 : F32)).Is b ∧
      |(b : ℝ) - lanczosSum 3 (fun _ _ => 7) 3 2 (f32Pos 2 x) (f32Pos 2 y)| ≤ ((7 : Rat) : ℝ) / 2 ^ 11 := by
  let := sinLibm
  have h2 : (num 2 : F32).Is 2 := by simpa using num32 (n := 2) (by decide)
  have h7 : (num 7 : F32).Is 7 := by simpa using num32 (n := 7) (by decide)
  obtain ⟨out, e, -, -, ho⟩ := c115_lanczos_scale sinLibm_spec P (gray6_scaleInput ..) h2 h2 (by norm_num) (by norm_num)
    (by show ((3 : Nat) : Rat) * 2 ≤ _; norm_num) (by show ((2 : Nat) : Rat) * 2 ≤ _; norm_num) (gray6_outFits ..) (v := fun _ _ _ => 7) (M := 7)
    (by
      intro x y c hx hy hc
      have hx : x < 3 := hx
      have hy : y < 2 := hy
      have hc : c = 0 := Nat.lt_one_iff.1 hc
      subst hc
      interval_cases x <;> interval_cases y <;> exact h7) (by norm_num) (by norm_num) (by intros; norm_num)
  exact ⟨out, e, ho⟩
end Imgproc

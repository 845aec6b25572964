import Mathlib.Tactic.IntervalCases
import Verif.Spec.Demo
import Verif.Props.Median
import Mathlib.Analysis.SpecialFunctions.Pow.NNReal
/-! C56: where `median_filter` is right, how far off it can be, and where it is wrong. -/
namespace Imgproc
open FloatOps

theorem median_rank_unique {l : List Nat} (hl : 0 < l.length) {m : Nat} (h1 : l.countP (· < m) ≤ l.length / 2)
    (h2 : l.length / 2 < l.countP (· ≤ m)) : m = median l := by
  obtain ⟨h3, h4⟩ := median_spec hl
  have mono : ∀ a b, a < b → l.countP (· ≤ a) ≤ l.countP (· < b) := by
    intro a b hab
    apply List.countP_mono_left
    intro x _ hx
    simp only [decide_eq_true_eq] at *
    omega
  rcases Nat.lt_trichotomy m (median l) with h | h | h
  · have := mono _ _ h; omega
  · exact h
  · have := mono _ _ h; omega

/-- rank of the value computed by the code: more than half of the window is not above it, and at most one value too many is
below it -/
theorem slidingMedian_rank (img : Image UInt8) (r c x y : Nat) :
    (2 * r + 1) * (2 * r + 1) / 2 < (img.window r c x y).countP (· ≤ slidingMedian img r c x y) ∧
    (img.window r c x y).countP (· < slidingMedian img r c x y) ≤ (2 * r + 1) * (2 * r + 1) / 2 + 1 := by
  have hl : 0 < (img.window r c x y).length := by rw [window_length]; exact Nat.mul_pos (by omega) (by omega)
  obtain ⟨h1, h2⟩ := median_spec hl
  rw [window_length] at h1 h2
  cases y with
  | zero => exact ⟨h2, by have := h1; unfold slidingMedian; omega⟩
  | succ y =>
    by_cases h : (img.window r c x (y + 1)).countP (· < slidingMedian img r c x y) = (2 * r + 1) * (2 * r + 1) / 2 + 1
    · have e : slidingMedian img r c x (y + 1) = slidingMedian img r c x y := by rw [slidingMedian, if_pos h]
      rw [e]
      refine ⟨?_, h.le⟩
      have : (img.window r c x (y + 1)).countP (· < slidingMedian img r c x y) ≤ (img.window r c x (y + 1)).countP (· ≤ slidingMedian img r c x y) := by
        apply List.countP_mono_left
        intro v _ hv
        simp only [decide_eq_true_eq] at *
        omega
      omega
    · have e : slidingMedian img r c x (y + 1) = median (img.window r c x (y + 1)) := by rw [slidingMedian, if_neg h]
      rw [e]
      exact ⟨h2, by omega⟩

/-- the value is right exactly when it has at most half of the window below it -/
theorem slidingMedian_right {img : Image UInt8} {r c x y : Nat}
    (h : (img.window r c x y).countP (· < slidingMedian img r c x y) ≠ (2 * r + 1) * (2 * r + 1) / 2 + 1) :
    slidingMedian img r c x y = median (img.window r c x y) := by
  have hl : 0 < (img.window r c x y).length := by rw [window_length]; exact Nat.mul_pos (by omega) (by omega)
  obtain ⟨h1, h2⟩ := slidingMedian_rank img r c x y
  refine median_rank_unique hl ?_ ?_ <;> rw [window_length]
  · omega
  · exact h1

/-- **C56** (row 0): the first row of the result is the window median, at every column but the last; and at the last one
too if the block size divides the width. -/
theorem c56_first_row_partial (F : Type) [FloatOps F] (P : Profile) {img : Image UInt8} {r : Nat} (I : MedianInput F img r)
    {x : Nat} (hx : x < img.info.width) (hx2 : x + 1 < img.info.width ∨ medianNCols F r ∣ img.info.width) :
    ∃ out, medianFilter F P img r = .ok out ∧
      out.getPixel P x 0 = .ok ((List.range img.info.channels).map fun c => UInt8.ofNat (median (img.window r c x 0))) := by
  obtain ⟨out, e, hs⟩ := c56_exact F P I
  refine ⟨out, e, ?_⟩
  rw [hs.2.2 P x 0 hx I.height]
  have hn : 0 < medianNCols F r := by have := medianNCols_odd F r; omega
  have : medianColumn img.info.width (medianNCols F r) x = x := by
    unfold medianColumn
    split
    · rename_i hxw
      rcases hx2 with h | ⟨k, h⟩
      · omega
      · generalize medianNCols F r = n at *
        cases k with
        | zero => rw [h] at hx; simp at hx
        | succ k =>
          rw [Nat.mul_succ] at h
          have e1 : img.info.width - 1 = (n - 1) + n * k := by omega
          rw [e1, Nat.add_mul_div_left _ _ hn, Nat.div_eq_of_lt (by omega), Nat.zero_add, Nat.mul_comm]
          omega
    · rfl
  dsimp only
  rw [this]
  rfl

/-- **C56** (columns along which the median never decreases): there the result is the window median in every row -/
theorem c56_monotone_partial (F : Type) [FloatOps F] (P : Profile) {img : Image UInt8} {r : Nat} (I : MedianInput F img r)
    {x : Nat} (hx : x + 1 < img.info.width) {y : Nat} (hy : y < img.info.height)
    (hmono : ∀ c y', c < img.info.channels → y' < y → median (img.window r c x y') ≤ median (img.window r c x (y' + 1))) :
    ∃ out, medianFilter F P img r = .ok out ∧
      out.getPixel P x y = .ok ((List.range img.info.channels).map fun c => UInt8.ofNat (median (img.window r c x y))) := by
  obtain ⟨out, e, hs⟩ := c56_exact F P I
  refine ⟨out, e, ?_⟩
  rw [hs.2.2 P x y (by omega) hy]
  have : medianColumn img.info.width (medianNCols F r) x = x := by unfold medianColumn; rw [if_neg (by omega)]
  dsimp only
  rw [this]
  congr 1
  apply List.map_congr_left
  intro c hc
  congr 1
  have hc := List.mem_range.1 hc
  have key : ∀ y', y' ≤ y → slidingMedian img r c x y' = median (img.window r c x y') := by
    intro y'
    induction y' with
    | zero => intro _; rfl
    | succ y' ih =>
      intro hy'
      rw [slidingMedian, ih (by omega)]
      split
      · rename_i h
        exfalso
        have hl : 0 < (img.window r c x (y' + 1)).length := by rw [window_length]; exact Nat.mul_pos (by omega) (by omega)
        have h1 := (median_spec hl).1
        rw [window_length] at h1
        have h2 := hmono c y' hc (by omega)
        have : (img.window r c x (y' + 1)).countP (· < median (img.window r c x y')) ≤ (img.window r c x (y' + 1)).countP (· < median (img.window r c x (y' + 1))) := by
          apply List.countP_mono_left
          intro v _ hv
          simp only [decide_eq_true_eq] at *
          omega
        omega
      · rfl
  exact key y le_rfl

/-- **C56** (how far off it can be): at every pixel but the last column, the value returned is at least the window median,
and at most one rank too high: at most `(2 r + 1)^2 / 2 + 1` values of the window lie below it. -/
theorem c56_rank_partial (F : Type) [FloatOps F] (P : Profile) {img : Image UInt8} {r : Nat} (I : MedianInput F img r) :
    ∃ out, medianFilter F P img r = .ok out ∧ ∀ x y, x + 1 < img.info.width → y < img.info.height →
      ∃ p, out.getPixel P x y = .ok p ∧ p.length = img.info.channels ∧ ∀ c (hc : c < p.length),
        median (img.window r c x y) ≤ p[c].toNat ∧
        (img.window r c x y).countP (· < p[c].toNat) ≤ (img.window r c x y).length / 2 + 1 := by
  obtain ⟨out, e, hs⟩ := c56_exact F P I
  refine ⟨out, e, fun x y hx hy => ⟨_, hs.2.2 P x y (by omega) hy, by simp, fun c hc => ?_⟩⟩
  have : medianColumn img.info.width (medianNCols F r) x = x := by unfold medianColumn; rw [if_neg (by omega)]
  simp only [List.getElem_map, List.getElem_range, this]
  have hl : 0 < (img.window r c x y).length := by rw [window_length]; exact Nat.mul_pos (by omega) (by omega)
  have hlt : slidingMedian img r c x y < 256 := by
    have hm : ∀ y, median (img.window r c x y) < 256 := fun y => window_lt (median_mem (by rw [window_length]; exact Nat.mul_pos (by omega) (by omega)))
    have : ∀ y, slidingMedian img r c x y < 256 := by
      intro y
      induction y with
      | zero => exact hm 0
      | succ y ih => rw [slidingMedian]; split; exacts [ih, hm _]
    exact this y
  rw [UInt8.toNat_ofNat', Nat.mod_eq_of_lt hlt, window_length]
  obtain ⟨h1, h2⟩ := slidingMedian_rank img r c x y
  refine ⟨?_, h2⟩
  by_contra hcon
  have h3 := (median_spec hl).1
  rw [window_length] at h3
  have : (img.window r c x y).countP (· ≤ slidingMedian img r c x y) ≤ (img.window r c x y).countP (· < median (img.window r c x y)) := by
    apply List.countP_mono_left
    intro v _ hv
    simp only [decide_eq_true_eq] at *
    omega
  omega

/-- **C56** (constant images come back unchanged) -/
theorem c56_constant_partial (F : Type) [FloatOps F] (P : Profile) {img : Image UInt8} {r : Nat} (I : MedianInput F img r)
    (hconst : ∀ x y, x < img.info.width → y < img.info.height → img.px x y = img.px 0 0) : medianFilter F P img r = .ok img := by
  obtain ⟨out, e, hs⟩ := c56_exact F P I
  rw [e]
  congr 1
  refine Image.Shows.ext hs (Image.Shows.congr I.wf.shows fun x y hx hy => ?_)
  rw [hconst x y hx hy]
  have hlen := Image.px_length I.wf I.width I.height
  apply List.ext_getElem
  · rw [hlen]; simp
  · intro c h1 h2
    rw [List.getElem_map, List.getElem_range]
    have hw : ∀ x y, ∀ v ∈ img.window r c x y, v = (img.px 0 0)[c].toNat := by
      intro x y v hv
      unfold Image.window at hv
      rw [List.mem_flatMap] at hv
      obtain ⟨j, _, hv⟩ := hv
      rw [List.mem_map] at hv
      obtain ⟨i, _, rfl⟩ := hv
      unfold Image.value
      rw [hconst _ _ (clampCoord_lt I.width _) (clampCoord_lt I.height _), List.getElem?_eq_getElem h1]
      rfl
    have hm : ∀ x y, median (img.window r c x y) = (img.px 0 0)[c].toNat := fun x y =>
      hw x y _ (median_mem (by rw [window_length]; exact Nat.mul_pos (by omega) (by omega)))
    have : ∀ x y, slidingMedian img r c x y = (img.px 0 0)[c].toNat := by
      intro x y
      induction y with
      | zero => exact hm _ _
      | succ y ih => rw [slidingMedian]; split; exacts [ih, hm _ _]
    rw [this]
    simp

/-- block size in exact arithmetic: at most `4 r + 1` -/
theorem medianNCols_real_le (r : Nat) : medianNCols ℝ r ≤ 4 * r + 1 := by
  have key : (toUsize (FloatOps.floor ((num 4 : ℝ) *. FloatOps.pow (ofNat (F := ℝ) r) (num 2 /. num 3))) : Nat) ≤ 4 * r := by
    unfold toUsize
    rw [Ideal.toInt_eq]
    simp only [Ideal.mul_eq, Ideal.pow_eq, Ideal.ofNat_eq, Ideal.num_eq, Ideal.div_eq, Ideal.floor_eq]
    have h1 : ((r : ℝ)) ^ (((2 : ℤ) : ℝ) / ((3 : ℤ) : ℝ)) ≤ r := by
      rcases Nat.eq_zero_or_pos r with rfl | hr
      · rw [Nat.cast_zero, Real.zero_rpow (by norm_num)]
      · have : (1 : ℝ) ≤ r := by exact_mod_cast hr
        calc (r : ℝ) ^ (((2 : ℤ) : ℝ) / ((3 : ℤ) : ℝ)) ≤ (r : ℝ) ^ (1 : ℝ) := Real.rpow_le_rpow_of_exponent_le this (by norm_num)
          _ = r := Real.rpow_one _
    have h2 : ⌊((4 : ℤ) : ℝ) * (r : ℝ) ^ (((2 : ℤ) : ℝ) / ((3 : ℤ) : ℝ))⌋ ≤ 4 * r := by
      have : ((4 : ℤ) : ℝ) * (r : ℝ) ^ (((2 : ℤ) : ℝ) / ((3 : ℤ) : ℝ)) ≤ ((4 * r : ℤ) : ℝ) := by push_cast; linarith
      exact (Int.floor_le_floor this).trans (by rw [Int.floor_intCast])
    have h0 : 0 ≤ ⌊((4 : ℤ) : ℝ) * (r : ℝ) ^ (((2 : ℤ) : ℝ) / ((3 : ℤ) : ℝ))⌋ := by
      rw [Int.floor_nonneg]
      exact mul_nonneg (by norm_num) (Real.rpow_nonneg (Nat.cast_nonneg _) _)
    have e : realTrunc ((⌊((4 : ℤ) : ℝ) * (r : ℝ) ^ (((2 : ℤ) : ℝ) / ((3 : ℤ) : ℝ))⌋ : ℤ) : ℝ) = ⌊((4 : ℤ) : ℝ) * (r : ℝ) ^ (((2 : ℤ) : ℝ) / ((3 : ℤ) : ℝ))⌋ := by
      unfold realTrunc
      simp
    rw [e]
    omega
  unfold medianNCols
  dsimp only
  split <;> omega

/-- exact arithmetic: sufficient sizes in terms of the image and the radius only -/
theorem medianInput_real {img : Image UInt8} {r : Nat} (wf : img.WF) (hw : 0 < img.info.width) (hh : 0 < img.info.height)
    (fitW : img.info.width + 5 * r + 1 < 2147483648) (fitH : img.info.height + r < 2147483648) (hr : r < 16000) : MedianInput ℝ img r := by
  have h := medianNCols_real_le r
  refine ⟨wf, hw, hh, by omega, fitH, ?_⟩
  have : (2 * r + 1) * (2 * r + 1) ≤ 32000 * 32000 := Nat.mul_le_mul (by omega) (by omega)
  omega

/-- one column, two rows: 5 above 3 -/
def fiveThree : Image UInt8 := ⟨⟨1, 2, 1, false⟩, [5, 3]⟩

theorem fiveThree_input : MedianInput ℝ fiveThree 0 :=
  medianInput_real ⟨by decide, by decide, by decide, by decide, by decide, rfl⟩ (by decide) (by decide) (by decide) (by decide) (by decide)

/-- **C56 is violated**: with radius 0 the window of a pixel is the pixel itself, yet the column 5, 3 becomes 5, 5. -/
theorem c56_violated : MedianInput ℝ fiveThree 0 ∧ median (fiveThree.window 0 0 0 1) = 3 ∧
    ∀ P, ∃ out, medianFilter ℝ P fiveThree 0 = .ok out ∧ out.getPixel P 0 1 = .ok [5] := by
  have m0 : median (fiveThree.window 0 0 0 0) = 5 := (median_rank_unique (by decide) (by decide) (by decide)).symm
  have m1 : median (fiveThree.window 0 0 0 1) = 3 := (median_rank_unique (by decide) (by decide) (by decide)).symm
  refine ⟨fiveThree_input, m1, fun P => ?_⟩
  obtain ⟨out, e, hs⟩ := c56_exact ℝ P fiveThree_input
  refine ⟨out, e, ?_⟩
  rw [hs.2.2 P 0 1 (by decide) (by decide)]
  have hX : ∀ X y, y < 2 → fiveThree.window 0 0 X y = fiveThree.window 0 0 0 y := by
    intro X y _
    unfold Image.window
    simp only [show fiveThree.info.width = 1 from rfl]
    have : ∀ o : Int, clampCoord 1 o = 0 := by intro o; unfold clampCoord; omega
    simp only [this]
  have : ∀ X, slidingMedian fiveThree 0 0 X 1 = 5 := by
    intro X
    unfold slidingMedian slidingMedian
    rw [hX X 0 (by omega), hX X 1 (by omega), m0, m1]
    decide
  show Except.ok [UInt8.ofNat _] = _
  rw [this]
  rfl

/-! ### the hypotheses are met -/

/-- 4 x 3 image with two channels -/
def medDemo : Image UInt8 := ⟨⟨4, 3, 2, false⟩, [1, 9, 2, 8, 3, 7, 4, 6, 5, 5, 6, 4, 7, 3, 8, 2, 9, 1, 10, 0, 11, 0, 12, 1]⟩

example (P : Profile) (v : UInt8) : medianFilter ℝ P (gray6 v v v v v v) 1 = .ok (gray6 v v v v v v) := by
  refine c56_constant_partial ℝ P (medianInput_real (gray6_WF ..) (by dims) (by dims) (by dims) (by dims) (by dims)) ?_
  intro x y hx hy
  have hx : x < 3 := hx
  have hy : y < 2 := hy
  interval_cases x <;> interval_cases y <;> rfl

theorem medDemo_input : MedianInput ℝ medDemo 1 :=
  medianInput_real ⟨by decide, by decide, by decide, by decide, by decide, rfl⟩ (by decide) (by decide) (by decide) (by decide) (by decide)

example : ∃ out, medianFilter ℝ .debug medDemo 1 = .ok out ∧ out.getPixel .debug 1 0 = .ok [3, 7] := by
  obtain ⟨out, e, h⟩ := c56_first_row_partial ℝ .debug medDemo_input (x := 1) (by decide) (.inl (by decide))
  refine ⟨out, e, h.trans ?_⟩
  have m0 : median (medDemo.window 1 0 1 0) = 3 := (median_rank_unique (by decide) (by decide) (by decide)).symm
  have m1 : median (medDemo.window 1 1 1 0) = 7 := (median_rank_unique (by decide) (by decide) (by decide)).symm
  show Except.ok [UInt8.ofNat (median (medDemo.window 1 0 1 0)), UInt8.ofNat (median (medDemo.window 1 1 1 0))] = _
  rw [m0, m1]
  rfl
end Imgproc

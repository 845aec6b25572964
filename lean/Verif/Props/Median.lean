import Verif.Proofs.MedianBlock
import Verif.Core.Ideal
import Mathlib.Analysis.SpecialFunctions.Pow.Real
/-! C56: what `median_filter` computes. -/
namespace Imgproc
open FloatOps

/-- **Specification**: the values of channel `c` in the `(2 r + 1) x (2 r + 1)` window around `(x, y)`, coordinates clamped to
the image -/
def Image.window (img : Image UInt8) (r c x y : Nat) : List Nat :=
  (List.range (2 * r + 1)).flatMap fun (j : Nat) => (List.range (2 * r + 1)).map fun (i : Nat) =>
    img.value c (clampCoord img.info.width ((x : Int) + i - r)) (clampCoord img.info.height ((y : Int) + j - r))

/-- **Specification**: the middle element of the sorted list -/
def median (l : List Nat) : Nat := (l.mergeSort (fun a b => decide (a ≤ b))).getD (l.length / 2) 0

theorem sorted_middle {s : List Nat} (hs : s.Pairwise (· ≤ ·)) {t : Nat} (ht : t < s.length) :
    s.countP (· < s[t]) ≤ t ∧ t < s.countP (· ≤ s[t]) := by
  have hle : ∀ i j (hi : i < s.length) (hj : j < s.length), i ≤ j → s[i] ≤ s[j] := by
    intro i j hi hj hij
    rcases Nat.lt_or_ge i j with h | h
    · exact List.pairwise_iff_getElem.1 hs i j hi hj h
    · have : i = j := by omega
      subst this; exact le_refl _
  constructor
  · have hsplit := List.countP_append (p := (· < s[t])) (l₁ := s.take t) (l₂ := s.drop t)
    rw [List.take_append_drop] at hsplit
    rw [hsplit]
    have h0 : (s.drop t).countP (· < s[t]) = 0 := by
      rw [List.countP_eq_zero]
      intro a ha
      obtain ⟨i, hi, rfl⟩ := List.mem_iff_getElem.1 ha
      rw [List.getElem_drop]
      have := hle t (t + i) ht (by rw [List.length_drop] at hi; omega) (by omega)
      simpa using this
    rw [h0, Nat.add_zero]
    exact List.countP_le_length.trans (List.length_take_le _ _)
  · have h1 : ((s.take (t + 1)).countP (· ≤ s[t])) = t + 1 := by
      rw [List.countP_eq_length.2, List.length_take_of_le (by omega)]
      intro a ha
      obtain ⟨i, hi, rfl⟩ := List.mem_iff_getElem.1 ha
      rw [List.getElem_take]
      have := hle i t (by rw [List.length_take] at hi; omega) ht (by rw [List.length_take] at hi; omega)
      simpa using this
    have h2 : (s.take (t + 1)).countP (· ≤ s[t]) ≤ s.countP (· ≤ s[t]) := (List.take_sublist _ _).countP_le
    omega

/-- the median has at most half of the elements below it and more than half not above it -/
theorem median_spec {l : List Nat} (hl : 0 < l.length) :
    l.countP (· < median l) ≤ l.length / 2 ∧ l.length / 2 < l.countP (· ≤ median l) := by
  have hp : (l.mergeSort (fun a b => decide (a ≤ b))).Perm l := List.mergeSort_perm _ _
  have hlen := hp.length_eq
  have ht : l.length / 2 < (l.mergeSort (fun a b => decide (a ≤ b))).length := by omega
  have hs : (l.mergeSort (fun a b => decide (a ≤ b))).Pairwise (· ≤ ·) := by
    have := List.pairwise_mergeSort (le := fun a b : Nat => decide (a ≤ b)) (by intro a b c; simp; omega) (by intro a b; simp; omega) l
    simpa using this
  have := sorted_middle hs ht
  rw [hp.countP_eq, hp.countP_eq] at this
  unfold median
  rw [List.getD_eq_getElem?_getD, List.getElem?_eq_getElem ht, Option.getD_some]
  exact this

theorem median_mem {l : List Nat} (hl : 0 < l.length) : median l ∈ l := by
  have hp : (l.mergeSort (fun a b => decide (a ≤ b))).Perm l := List.mergeSort_perm _ _
  have hlen := hp.length_eq
  have ht : l.length / 2 < (l.mergeSort (fun a b => decide (a ≤ b))).length := by omega
  unfold median
  rw [List.getD_eq_getElem?_getD, List.getElem?_eq_getElem ht, Option.getD_some]
  exact hp.mem_iff.1 (List.getElem_mem ht)

theorem window_length (img : Image UInt8) (r c x y : Nat) : (img.window r c x y).length = (2 * r + 1) * (2 * r + 1) := by
  unfold Image.window
  rw [List.length_flatMap]
  simp [List.map_const', List.sum_replicate]

theorem window_lt {img : Image UInt8} {r c x y v : Nat} (h : v ∈ img.window r c x y) : v < 256 := by
  unfold Image.window at h
  rw [List.mem_flatMap] at h
  obtain ⟨j, _, h⟩ := h
  rw [List.mem_map] at h
  obtain ⟨i, _, rfl⟩ := h
  exact Image.value_lt _ _ _ _

theorem countP_flatMap_range {α : Type} (p : α → Bool) (f : Nat → List α) (n : Nat) :
    (((List.range n).flatMap f).countP p : Int) = ∑ t ∈ Finset.range n, ((f t).countP p : Int) := by
  induction n with
  | zero => rfl
  | succ n ih => rw [List.range_succ, List.flatMap_append, List.countP_append, Finset.sum_range_succ, Nat.cast_add, ih]; simp

/-- the histogram seen by the filter is that of the window -/
theorem below_winCount_eq (img : Image UInt8) (r x0 c y k m : Nat) :
    below (winCount img r x0 c y k) m = ((img.window r c (x0 + k) y).countP (· < m) : Nat) := by
  unfold winCount Image.window
  rw [below_sum, countP_flatMap_range]
  apply Finset.sum_congr rfl
  intro t _
  rw [rowBelow_eq]
  unfold rowBelow
  rw [Finset.sum_Ico_eq_sum_range]
  rw [Nat.add_sub_cancel_left]
  have : ∀ n, ∑ i ∈ Finset.range n, ind (rowG img r x0 c (clampCoord img.info.height ((y : Int) + t - r)) (k + i) < m) =
      ((((List.range n).map fun (i : Nat) => img.value c (clampCoord img.info.width (((x0 + k : Nat) : Int) + i - r))
        (clampCoord img.info.height ((y : Int) + t - r))).countP (fun v => decide (v < m)) : Nat) : Int) := by
    intro n
    induction n with
    | zero => rfl
    | succ n ih =>
      rw [Finset.sum_range_succ, ih, List.range_succ, List.map_append, List.countP_append, Nat.cast_add]
      congr 1
      unfold rowG ind
      rw [List.map_singleton, List.countP_singleton, show (x0 : Int) + ((k + n : Nat) : Int) - r = ((x0 + k : Nat) : Int) + n - r by push_cast; ring]
      split <;> simp_all
  exact this _

/-- **Specification** of what the code computes along column `x`: the window median, except that the previous row's value `p`
is kept when exactly `(2 r + 1)^2 / 2 + 1` values of the window are below `p` -/
def slidingMedian (img : Image UInt8) (r c x : Nat) : Nat → Nat
  | 0 => median (img.window r c x 0)
  | y + 1 =>
    if (img.window r c x (y + 1)).countP (· < slidingMedian img r c x y) = (2 * r + 1) * (2 * r + 1) / 2 + 1 then slidingMedian img r c x y
    else median (img.window r c x (y + 1))

/-- the column whose window ends up at output column `x` when `n` columns are processed at a time: the last output
column receives the last column of the last block, which may lie beyond the image -/
def medianColumn (w n x : Nat) : Nat := if x = w - 1 then (w - 1) / n * n + (n - 1) else x

theorem trace_eq (img : Image UInt8) (r x0 c k y : Nat) :
    trace img r x0 (((2 * r + 1) * (2 * r + 1) / 2 + 1 : Nat) : Int) (fun c k y => median (img.window r c (x0 + k) y)) c k y =
      slidingMedian img r c (x0 + k) y := by
  induction y with
  | zero => rfl
  | succ y ih =>
    unfold trace slidingMedian nextPivot
    rw [ih, below_winCount_eq]
    simp only [Nat.cast_inj]

theorem medianNCols_odd (F : Type) [FloatOps F] (r : Nat) : medianNCols F r % 2 = 1 := by
  unfold medianNCols
  dsimp only
  split <;> omega

/-- sizes the 32-bit arithmetic of the filter can handle -/
structure MedianInput (F : Type) [FloatOps F] (img : Image UInt8) (r : Nat) : Prop where
  wf : img.WF
  width : 0 < img.info.width
  height : 0 < img.info.height
  fitW : img.info.width + medianNCols F r + r < 2147483648
  fitH : img.info.height + r < 2147483648
  fitN : 2 * ((2 * r + 1) * (2 * r + 1)) + medianNCols F r + 6 * r + 10 < 2147483648

/-- **C56** (exact behaviour): for every image, radius and column block size `median_filter` returns, at `(x, y)`, in every
channel, the value `slidingMedian` of the column `medianColumn`. -/
theorem c56_exact (F : Type) [FloatOps F] (P : Profile) {img : Image UInt8} {r : Nat} (I : MedianInput F img r) :
    ∃ out, medianFilter F P img r = .ok out ∧ out.Shows img.info fun x y =>
      (List.range img.info.channels).map fun c => UInt8.ofNat (slidingMedian img r c (medianColumn img.info.width (medianNCols F r) x) y) := by
  obtain ⟨h, hn⟩ : ∃ h, medianNCols F r = 2 * h + 1 := ⟨medianNCols F r / 2, by have := medianNCols_odd F r; omega⟩
  have hW := I.fitW
  have hN := I.fitN
  have hw0 := I.width
  rw [hn] at hW hN ⊢
  have Fi : MedianFits img r h := ⟨I.wf, I.width, I.height, by omega, I.fitH, by omega⟩
  unfold medianFilter
  dsimp only
  rw [hn]
  obtain ⟨out0, e0, hs0⟩ : ∃ out, Image.blank P u8Num img.info = .ok out ∧ out.Shows img.info out.px := by
    obtain ⟨o, e, hs⟩ := Image.blank_eq P u8Num (info := img.info) I.wf.infoWF
    refine ⟨o, e, ?_⟩
    have := hs.WF.shows
    rw [hs.info_eq] at this
    exact this
  rw [e0, ok_bind]
  unfold forStep
  rw [if_neg (by omega), hs0.info_eq, Nat.sub_zero]
  obtain ⟨out, e, hs⟩ := forRange_rule (a := 0) (b := (img.info.width + (2 * h + 1) - 1) / (2 * h + 1)) (s := out0)
    (f := fun k output => processColsMed P img output r (2 * h + 1) (0 + k * (2 * h + 1)))
    (fun m s => s.Shows img.info fun x y => if x < m * (2 * h + 1) then
      (List.range img.info.channels).map fun c => UInt8.ofNat (slidingMedian img r c (medianColumn img.info.width (2 * h + 1) x) y) else out0.px x y)
    (Nat.zero_le _)
    (hs0.congr fun x y _ _ => by rw [if_neg (by omega)])
    (by
      intro m s _ hm hs
      have hx0 : m * (2 * h + 1) < img.info.width := by
        have := (Nat.lt_div_iff_mul_lt (by omega)).1 hm
        omega
      rw [Nat.zero_add]
      have hlen : ∀ c k y, 0 < (img.window r c (m * (2 * h + 1) + k) y).length := by
        intro c k y; rw [window_length]; exact Nat.mul_pos (by omega) (by omega)
      obtain ⟨out', e, D⟩ := processCols_ok P Fi hx0 (μ := fun c k y => median (img.window r c (m * (2 * h + 1) + k) y))
        (fun c k y => window_lt (median_mem (hlen c k y))) rfl
        (fun c k y _ _ => by
          have := (median_spec (hlen c k y)).1
          rw [window_length] at this
          rw [below_winCount_eq]
          exact_mod_cast Nat.lt_succ_of_le this)
        (fun c k y _ _ => by
          have := (median_spec (hlen c k y)).2
          rw [window_length] at this
          rw [below_winCount_eq]
          simp only [Nat.lt_succ_iff]
          exact_mod_cast this) hs
      refine ⟨out', e, D.congr fun x y hx hy => ?_⟩
      rw [show (m + 1) * (2 * h + 1) = m * (2 * h + 1) + (2 * h + 1) from Nat.succ_mul _ _]
      by_cases h1 : m * (2 * h + 1) ≤ x ∧ x < m * (2 * h + 1) + (2 * h + 1)
      · rw [if_pos h1, if_pos h1.2]
        apply List.map_congr_left
        intro c _
        rw [trace_eq]
        congr 2
        unfold medianColumn
        by_cases hxw : x = img.info.width - 1
        · rw [if_pos hxw, if_pos hxw, Nat.add_sub_cancel]
          congr 2
          rw [← hxw]
          exact (Nat.div_eq_of_lt_le h1.1 (by rw [Nat.succ_mul]; exact h1.2)).symm
        · rw [if_neg hxw, if_neg hxw]; omega
      · rw [if_neg h1]
        by_cases h2 : x < m * (2 * h + 1)
        · rw [if_pos h2, if_pos (by omega)]
        · rw [if_neg h2, if_neg (by omega)])
  refine ⟨out, e, hs.congr fun x y hx hy => ?_⟩
  rw [if_pos]
  refine Nat.lt_of_lt_of_le hx ?_
  have h1 := Nat.lt_div_mul_add (a := img.info.width + (2 * h + 1) - 1) (b := 2 * h + 1) (by omega)
  omega
end Imgproc

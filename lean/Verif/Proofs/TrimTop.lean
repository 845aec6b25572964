import Verif.Proofs.TrimBlock
/-! When the values trimmed at the upper end are the right ones. -/
namespace Imgproc

theorem sorted_get_le {s : List Nat} (hs : s.Pairwise (· ≤ ·)) {i j : Nat} (hij : i ≤ j) (hj : j < s.length) : s[i]'(by omega) ≤ s[j] := by
  rcases Nat.lt_or_ge i j with h | h
  · exact List.pairwise_iff_getElem.1 hs i j (by omega) hj h
  · have : i = j := by omega
    subst this; exact le_refl _

/-- few elements are `≤ v` if `v` is below the element at index `m` -/
theorem countP_le_of_lt {s : List Nat} (hs : s.Pairwise (· ≤ ·)) {m v : Nat} (hm : m < s.length) (h : v < s[m]) : s.countP (· ≤ v) ≤ m := by
  have e : s.countP (· ≤ v) = (s.take m).countP (· ≤ v) + (s.drop m).countP (· ≤ v) := by rw [← List.countP_append, List.take_append_drop]
  have h0 : (s.drop m).countP (· ≤ v) = 0 := by
    rw [List.countP_eq_zero]
    intro a ha
    obtain ⟨i, hi, rfl⟩ := List.mem_iff_getElem.1 ha
    rw [List.length_drop] at hi
    rw [List.getElem_drop]
    have := sorted_get_le hs (i := m) (j := m + i) (by omega) (by omega)
    simp; omega
  rw [e, h0, Nat.add_zero]
  exact List.countP_le_length.trans (List.length_take_le _ _)

/-- many are `≤ v` if `v` is not below the element at index `m` -/
theorem lt_countP_of_le {s : List Nat} (hs : s.Pairwise (· ≤ ·)) {m v : Nat} (hm : m < s.length) (h : s[m] ≤ v) : m < s.countP (· ≤ v) := by
  have e : s.countP (· ≤ v) = (s.take (m + 1)).countP (· ≤ v) + (s.drop (m + 1)).countP (· ≤ v) := by
    rw [← List.countP_append, List.take_append_drop]
  have h0 : (s.take (m + 1)).countP (· ≤ v) = m + 1 := by
    rw [List.countP_eq_length.2, List.length_take, Nat.min_eq_left (by omega)]
    intro a ha
    obtain ⟨i, hi, rfl⟩ := List.mem_iff_getElem.1 ha
    rw [List.length_take] at hi
    rw [List.getElem_take]
    have := sorted_get_le hs (i := i) (j := m) (by omega) hm
    simp; omega
  omega

/-- **Specification**: the code's way of finding the `t` highest values of a sorted list finds the right ones -/
def CleanTop (s : List Nat) (t : Nat) : Prop :=
  t = 0 ∨ s.getD (s.length - t - 1) 0 < s.getD (s.length - t) 0 ∨ s.getD (s.length - t) 0 = s.getD (s.length - 1) 0

theorem codeUpper_sum {s : List Nat} (hs : s.Pairwise (· ≤ ·)) {t : Nat} (ht : 2 * t < s.length) (hc : CleanTop s t) :
    (codeUpper s t fun v => decide (s.length - t < s.countP (· ≤ v))).sum = (s.drop (s.length - t)).sum := by
  rcases Nat.eq_zero_or_pos t with rfl | h0
  · unfold codeUpper; simp
  have hlow : ∀ v, v < s[s.length - t]'(by omega) → ¬ (s.length - t < s.countP (· ≤ v)) := by
    intro v hv
    have := countP_le_of_lt hs (by omega) hv
    omega
  have hhigh : ∀ v, s[s.length - t]'(by omega) ≤ v → s.length - t < s.countP (· ≤ v) := fun v hv => lt_countP_of_le hs (by omega) hv
  unfold codeUpper
  have hsplit : s.drop t = (s.drop t).take (s.length - 2 * t) ++ s.drop (s.length - t) := by
    conv_lhs => rw [← List.take_append_drop (s.length - 2 * t) (s.drop t)]
    rw [List.drop_drop, show t + (s.length - 2 * t) = s.length - t by omega]
  have hf2 : (s.drop (s.length - t)).filter (fun v => decide (s.length - t < s.countP (· ≤ v))) = s.drop (s.length - t) := by
    rw [List.filter_eq_self]
    intro a ha
    obtain ⟨i, hi, rfl⟩ := List.mem_iff_getElem.1 ha
    rw [List.length_drop] at hi
    rw [List.getElem_drop, decide_eq_true_iff]
    exact hhigh _ (sorted_get_le hs (by omega) (by omega))
  rw [hsplit, List.filter_append, hf2]
  have hl2 : (s.drop (s.length - t)).length = t := by rw [List.length_drop]; omega
  rcases hc with hc | hc | hc
  · omega
  · have hf1 : ((s.drop t).take (s.length - 2 * t)).filter (fun v => decide (s.length - t < s.countP (· ≤ v))) = [] := by
      rw [List.filter_eq_nil_iff]
      intro a ha
      obtain ⟨i, hi, rfl⟩ := List.mem_iff_getElem.1 ha
      rw [List.length_take, List.length_drop] at hi
      rw [List.getElem_take, List.getElem_drop, decide_eq_true_iff]
      apply hlow
      have h1 := sorted_get_le hs (i := t + i) (j := s.length - t - 1) (by omega) (by omega)
      rw [List.getD_eq_getElem?_getD, List.getD_eq_getElem?_getD, List.getElem?_eq_getElem (by omega), List.getElem?_eq_getElem (by omega)] at hc
      simp only [Option.getD_some] at hc
      omega
    rw [hf1, List.nil_append, List.take_of_length_le (by omega)]
  · rw [List.getD_eq_getElem?_getD, List.getD_eq_getElem?_getD, List.getElem?_eq_getElem (by omega), List.getElem?_eq_getElem (by omega)] at hc
    simp only [Option.getD_some] at hc
    have hall : ∀ v ∈ s, s.length - t < s.countP (· ≤ v) → v = s[s.length - 1]'(by omega) := by
      intro v hv hq
      obtain ⟨i, hi, rfl⟩ := List.mem_iff_getElem.1 hv
      have h1 := sorted_get_le hs (i := i) (j := s.length - 1) (by omega) (by omega)
      have h2 : ¬ s[i] < s[s.length - t]'(by omega) := fun h => hlow _ h hq
      omega
    have hrep : ∀ l : List Nat, (∀ v ∈ l, v = s[s.length - 1]'(by omega)) → l.sum = l.length * s[s.length - 1]'(by omega) := by
      intro l hl
      rw [List.eq_replicate_of_mem hl]
      simp
    rw [hrep, hrep]
    · congr 1
      rw [List.length_take, List.length_append]
      omega
    · intro v hv
      rw [← hf2] at hv
      have := List.mem_filter.1 hv
      exact hall v (List.mem_of_mem_drop this.1) (by simpa using this.2)
    · intro v hv
      have hv := List.mem_of_mem_take hv
      rw [← hf2, ← List.filter_append, ← hsplit] at hv
      have := List.mem_filter.1 hv
      exact hall v (List.mem_of_mem_drop this.1) (by simpa using this.2)

theorem codeSum_clean {l : List Nat} {t : Nat} (ht : 2 * t < l.length) (hc : CleanTop (sortedList l) t) :
    codeSum l t = ((((sortedList l).drop t).take (l.length - 2 * t)).sum : Nat) := by
  have hlen := (sortedList_perm l).length_eq
  have hq : (fun v => decide (l.length - t < l.countP (· ≤ v))) = fun v => decide ((sortedList l).length - t < (sortedList l).countP (· ≤ v)) := by
    funext v
    rw [hlen, (sortedList_perm l).countP_eq]
  unfold codeSum
  rw [hq, codeUpper_sum (sortedList_sorted l) (by omega) hc]
  have e1 : (sortedList l).sum = ((sortedList l).take t).sum + ((sortedList l).drop t).sum := by rw [← List.sum_append, List.take_append_drop]
  have e2 : ((sortedList l).drop t).sum = (((sortedList l).drop t).take (l.length - 2 * t)).sum + ((sortedList l).drop ((sortedList l).length - t)).sum := by
    conv_lhs => rw [← List.take_append_drop (l.length - 2 * t) ((sortedList l).drop t)]
    rw [List.sum_append, List.drop_drop, show t + (l.length - 2 * t) = (sortedList l).length - t by omega]
  rw [e1, e2]
  push_cast
  ring
end Imgproc

import Verif.Proofs.MedianRows
import Mathlib.Algebra.Group.Action.Defs
/-! First row of the alpha-trimmed mean filter: the scan that trims a histogram. -/
namespace Imgproc

theorem takeLower_spec (P : Profile) {trim key : Nat} (fuel : Nat) : ∀ (lower : List UInt8) (sum : Int) (add : Nat),
    min (trim - lower.length) add ≤ fuel → (add : Int) * key ≤ sum → sum < 2147483648 → (add : Int) < 2147483648 →
    takeLower P trim key fuel (lower, sum, (add : Int)) =
      .ok (lower ++ List.replicate (min (trim - lower.length) add) (UInt8.ofNat key),
        sum - (min (trim - lower.length) add : Nat) * key, (add : Int) - (min (trim - lower.length) add : Nat)) := by
  induction fuel with
  | zero =>
    intro lower sum add hf _ _ _
    have h0 : min (trim - lower.length) add = 0 := by omega
    rw [takeLower, h0]; simp
  | succ fuel ih =>
    intro lower sum add hf h1 h2 h3
    rw [takeLower]
    by_cases hc : lower.length < trim ∧ (add : Int) > 0
    · rw [if_pos hc]
      obtain ⟨a, rfl⟩ : ∃ a, add = a + 1 := ⟨add - 1, by omega⟩
      have e1 : ((a + 1 : Nat) : Int) * key = a * key + key := by push_cast; ring
      have h4 : (0 : Int) ≤ (a : Int) * key := mul_nonneg (Int.natCast_nonneg _) (Int.natCast_nonneg _)
      rw [e1] at h1
      have e2 : ((a + 1 : Nat) : Int) - 1 = a := by push_cast; omega
      rw [i32Sub_ok (by omega) (by omega), ok_bind, i32Sub_ok (by omega) (by omega), ok_bind, e2,
        ih (lower ++ [UInt8.ofNat key]) (sum - key) a (by simp; omega) (by omega) (by omega) (by omega)]
      have e3 : min (trim - lower.length) (a + 1) = min (trim - (lower ++ [UInt8.ofNat key]).length) a + 1 := by
        simp only [List.length_append, List.length_singleton]; omega
      rw [e3]
      generalize min (trim - (lower ++ [UInt8.ofNat key]).length) a = d
      rw [List.replicate_succ, List.append_assoc]
      congr 2
      congr 1
      · push_cast; ring
      · push_cast; ring
    · rw [if_neg hc]
      have h0 : min (trim - lower.length) add = 0 := by omega
      rw [h0]; simp

theorem takeUpper_spec (P : Profile) {trim upperTrim key : Nat} {count : Int} (hc : 0 ≤ count ∧ count < 2147483648) (fuel : Nat) :
    ∀ (upper : List UInt8) (sum : Int) (add : Nat),
    min (trim - upper.length) add ≤ fuel → (add : Int) * key ≤ sum → sum < 2147483648 → (add : Int) < 2147483648 →
    ∃ d, d = (if count > upperTrim then min (trim - upper.length) add else 0) ∧
    takeUpper P trim upperTrim key count fuel (upper, sum, (add : Int)) =
      .ok (List.replicate d (UInt8.ofNat key) ++ upper, sum - (d : Nat) * key, (add : Int) - (d : Nat)) := by
  have hcast : ((count % 18446744073709551616).toNat > upperTrim) ↔ count > upperTrim := by
    rw [Int.emod_eq_of_lt hc.1 (by omega)]; omega
  induction fuel with
  | zero =>
    intro upper sum add hf _ _ _
    have h0 : min (trim - upper.length) add = 0 := by omega
    refine ⟨0, by rw [h0]; simp, ?_⟩
    rw [takeUpper]; simp
  | succ fuel ih =>
    intro upper sum add hf h1 h2 h3
    rw [takeUpper]
    by_cases hcc : (count % 18446744073709551616).toNat > upperTrim ∧ upper.length < trim ∧ (add : Int) > 0
    · rw [if_pos hcc]
      have hq := hcast.1 hcc.1
      obtain ⟨a, rfl⟩ : ∃ a, add = a + 1 := ⟨add - 1, by omega⟩
      have e1 : ((a + 1 : Nat) : Int) * key = a * key + key := by push_cast; ring
      have h4 : (0 : Int) ≤ (a : Int) * key := mul_nonneg (Int.natCast_nonneg _) (Int.natCast_nonneg _)
      rw [e1] at h1
      have e2 : ((a + 1 : Nat) : Int) - 1 = a := by push_cast; omega
      obtain ⟨d, hd, e⟩ := ih (UInt8.ofNat key :: upper) (sum - key) a (by simp; omega) (by omega) (by omega) (by omega)
      rw [if_pos hq, List.length_cons] at hd
      refine ⟨d + 1, by rw [if_pos hq]; omega, ?_⟩
      rw [i32Sub_ok (by omega) (by omega), ok_bind, i32Sub_ok (by omega) (by omega), ok_bind, e2, e]
      congr 2
      · rw [List.replicate_succ', List.append_assoc]; rfl
      · congr 1
        · push_cast; ring
        · push_cast; ring
    · rw [if_neg hcc]
      refine ⟨0, ?_, by simp⟩
      split
      · rename_i hq
        have := hcast.2 hq
        omega
      · rfl

/-- the values below `m`, in ascending order -/
def sortedOf (f : Nat → Nat) (m : Nat) : List Nat := (List.range m).flatMap fun v => List.replicate (f v) v

theorem sortedOf_succ (f : Nat → Nat) (m : Nat) : sortedOf f (m + 1) = sortedOf f m ++ List.replicate (f m) m := by
  unfold sortedOf
  rw [List.range_succ, List.flatMap_append]; simp

/-- values removed from the top by the code: the first `trim` of the remaining values `v` with more than `upperTrim` values `≤ v` -/
def codeUpper (s : List Nat) (trim : Nat) (q : Nat → Bool) : List Nat := ((s.drop trim).filter q).take trim

theorem take_append_replicate {α} (s : List α) (a : α) (n k : Nat) :
    (s ++ List.replicate n a).take k = s.take k ++ List.replicate (min (k - (s.take k).length) n) a := by
  rw [List.take_append, List.take_replicate, List.length_take]
  congr 2
  omega

theorem drop_append_replicate {α} (s : List α) (a : α) (n k : Nat) :
    (s ++ List.replicate n a).drop k = s.drop k ++ List.replicate (n - min (k - (s.take k).length) n) a := by
  rw [List.drop_append, List.drop_replicate, List.length_take]
  congr 2
  omega

theorem codeUpper_append {s : List Nat} {a n trim : Nat} {q : Nat → Bool} :
    codeUpper (s ++ List.replicate n a) trim q = codeUpper s trim q ++
      List.replicate (if q a then min (trim - (codeUpper s trim q).length) (n - min (trim - (s.take trim).length) n) else 0) a := by
  unfold codeUpper
  rw [drop_append_replicate, List.filter_append]
  by_cases hq : q a = true
  · rw [if_pos hq, List.filter_replicate_of_pos hq, take_append_replicate]
  · rw [if_neg hq, List.filter_replicate_of_neg hq]; simp

/-- result of `initTrim` -/
theorem initTrim_spec (P : Profile) {h : PartialHistograms} {trim upperTrim i : Nat} {f : Nat → Nat} {N : Nat}
    (hc : ∀ v, v < 256 → h.getCount P v i = .ok ((f v : Nat) : Int)) (hN : (sortedOf f 256).length = N) (hfit : N * 255 < 2147483648)
    {q : Nat → Bool} (hq : ∀ v, v < 256 → (q v = true ↔ upperTrim < (sortedOf f (v + 1)).length)) :
    initTrim P h trim upperTrim i = .ok ((N : Int),
      ((sortedOf f 256).sum : Int) - ((sortedOf f 256).take trim).sum - (codeUpper (sortedOf f 256) trim q).sum,
      ((sortedOf f 256).take trim).map UInt8.ofNat, ((codeUpper (sortedOf f 256) trim q).map UInt8.ofNat).reverse) := by
  have hsub : ∀ m, m ≤ 256 → sortedOf f m <+: sortedOf f 256 := by
    intro m hm
    unfold sortedOf
    obtain ⟨d, hd⟩ : ∃ d, 256 = m + d := ⟨256 - m, by omega⟩
    rw [hd, List.range_add, List.flatMap_append]
    exact List.prefix_append _ _
  have hlen : ∀ m, m ≤ 256 → (sortedOf f m).length ≤ N := fun m hm => hN ▸ (hsub m hm).length_le
  have hval : ∀ m, ∀ v ∈ sortedOf f m, v < m := by
    intro m v hv
    unfold sortedOf at hv
    rw [List.mem_flatMap] at hv
    obtain ⟨w, hw, hv⟩ := hv
    rw [List.mem_replicate] at hv
    rw [hv.2]; exact List.mem_range.1 hw
  have hsum : ∀ m, m ≤ 256 → (sortedOf f m).sum ≤ N * 255 := by
    intro m hm
    have h1 : (sortedOf f m).sum ≤ (sortedOf f m).length * 255 := by
      have : ∀ l : List Nat, (∀ v ∈ l, v ≤ 255) → l.sum ≤ l.length * 255 := by
        intro l
        induction l with
        | nil => intro _; simp
        | cons a l ih => intro hl; have := ih fun v hv => hl v (by simp [hv]); have := hl a (by simp); simp; omega
      exact this _ fun v hv => by have := hval m v hv; omega
    exact h1.trans (Nat.mul_le_mul_right _ (hlen m hm))
  have hparts : ∀ l : List Nat, ∀ t q, (l.take t).sum + (codeUpper l t q).sum ≤ l.sum := by
    intro l t q
    have h1 : (codeUpper l t q).Sublist (l.drop t) := (List.take_sublist _ _).trans List.filter_sublist
    have h2 : (codeUpper l t q).sum ≤ (l.drop t).sum := by
      have : ∀ a b : List Nat, a.Sublist b → a.sum ≤ b.sum := by
        intro a b hab
        induction hab with
        | slnil => exact le_refl _
        | cons a _ ih => simp; omega
        | cons_cons a _ ih => simp; omega
      exact this _ _ h1
    have h3 : (l.take t).sum + (l.drop t).sum = l.sum := by rw [← List.sum_append, List.take_append_drop]
    omega
  unfold initTrim
  obtain ⟨s, e, hs⟩ := forRange_rule (a := 0) (b := 256) (s := (((0 : Int), (0 : Int), ([] : List UInt8), ([] : List UInt8))))
    (f := fun key s => do
      let add ← h.getCount P key i
      let count ← i32Add P s.1 add
      let prod ← i32Mul P add key
      let sum ← i32Add P s.2.1 prod
      let (lower, sum, add) ← takeLower P trim key (trim + 1) (s.2.2.1, sum, add)
      let (upper, sum, _) ← takeUpper P trim upperTrim key count (trim + 1) (s.2.2.2, sum, add)
      .ok (count, sum, lower, upper))
    (fun m s => s = (((sortedOf f m).length : Int), ((sortedOf f m).sum : Int) - ((sortedOf f m).take trim).sum - (codeUpper (sortedOf f m) trim q).sum,
      ((sortedOf f m).take trim).map UInt8.ofNat, ((codeUpper (sortedOf f m) trim q).map UInt8.ofNat).reverse)) (Nat.zero_le _)
    (by simp [sortedOf, codeUpper])
    (by
      rintro m s _ hm rfl
      have hm' : m ≤ 256 := by omega
      have l1 := hlen (m + 1) (by omega)
      have s1 := hsum (m + 1) (by omega)
      have p0 := hparts (sortedOf f m) trim q
      rw [sortedOf_succ, List.length_append, List.length_replicate] at l1
      rw [sortedOf_succ, List.sum_append, List.sum_replicate, smul_eq_mul] at s1
      have hq' := hq m hm
      rw [sortedOf_succ, List.length_append, List.length_replicate] at hq'
      have hprod : ((f m * m : Nat) : Int) = (f m : Int) * m := by push_cast; rfl
      refine ⟨_, ?_, rfl⟩
      dsimp only
      rw [hc m hm, ok_bind, i32Add_ok (by omega) (by omega), ok_bind, i32Mul_ok (by rw [← hprod]; omega) (by rw [← hprod]; omega), ok_bind,
        i32Add_ok (by rw [← hprod]; omega) (by rw [← hprod]; omega), ok_bind]
      rw [takeLower_spec P (trim + 1) _ _ (f m) (by omega) (by omega) (by rw [← hprod]; omega) (by omega), ok_bind]
      dsimp only
      rw [List.length_map]
      generalize hd1 : min (trim - ((sortedOf f m).take trim).length) (f m) = d1
      have hd1' : d1 ≤ f m := by omega
      have hcastd : (f m : Int) - (d1 : Nat) = ((f m - d1 : Nat) : Int) := by omega
      have e5 : ((f m - d1 : Nat) : Int) * m = (f m : Int) * m - d1 * m := by rw [← hcastd]; ring
      have e6 : (0 : Int) ≤ (d1 : Int) * m := mul_nonneg (Int.natCast_nonneg _) (Int.natCast_nonneg _)
      rw [hcastd]
      obtain ⟨d2, hd2, e2⟩ := takeUpper_spec P (trim := trim) (upperTrim := upperTrim) (key := m) (count := ((sortedOf f m).length : Int) + (f m : Int)) (by omega) (trim + 1)
        ((codeUpper (sortedOf f m) trim q).map UInt8.ofNat).reverse
        (((sortedOf f m).sum : Int) - ((sortedOf f m).take trim).sum - (codeUpper (sortedOf f m) trim q).sum + (f m : Int) * m - (d1 : Nat) * m) (f m - d1)
        (by omega) (by rw [e5]; omega) (by rw [← hprod]; omega) (by omega)
      rw [e2, ok_bind]
      rw [List.length_reverse, List.length_map] at hd2
      have hqi : (((sortedOf f m).length : Int) + (f m : Int) > upperTrim) ↔ q m = true := by rw [hq']; omega
      have hd2' : d2 = if q m = true then min (trim - (codeUpper (sortedOf f m) trim q).length) (f m - d1) else 0 := by
        rw [hd2]
        by_cases hh : q m = true
        · rw [if_pos hh, if_pos (hqi.2 hh)]
        · rw [if_neg hh, if_neg (fun h => hh (hqi.1 h))]
      have eU : codeUpper (sortedOf f (m + 1)) trim q = codeUpper (sortedOf f m) trim q ++ List.replicate d2 m := by
        rw [sortedOf_succ, codeUpper_append, hd1, ← hd2']
      have eL : (sortedOf f (m + 1)).take trim = (sortedOf f m).take trim ++ List.replicate d1 m := by
        rw [sortedOf_succ, take_append_replicate, hd1]
      rw [eU, eL, sortedOf_succ]
      simp only [List.length_append, List.length_replicate, List.sum_append, List.sum_replicate, List.map_append, List.map_replicate,
        List.reverse_append, List.reverse_replicate, smul_eq_mul]
      congr 2
      congr 1
      push_cast; ring)
  rw [e, hs, hN]
end Imgproc

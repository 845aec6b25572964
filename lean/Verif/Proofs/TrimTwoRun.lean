import Verif.Proofs.TrimTwo
/-! The alpha-trimmed mean filter with one value trimmed at each end: whole rows, blocks. -/
namespace Imgproc
open FloatOps

/-- the histogram describes the windows `W` -/
def TState {F : Type} (H : MeanHist F) (r h : Nat) (len : F) (W : Nat → List Nat) : Prop :=
  ∃ S a b, Two H r h len (fun k v => ((W k).count v : Nat)) S a b ∧ ∀ k, k ≤ 2 * h → Tri (W k) (a k) (b k) (S k)

/-- the values of a row that fall into column `k` of a block -/
def rowList (r : Nat) (g : Nat → UInt8) (k : Nat) : List UInt8 := (List.range (2 * r + 1)).map fun i => g (k + i)

theorem rowList_length (r : Nat) (g : Nat → UInt8) (k : Nat) : (rowList r g k).length = 2 * r + 1 := by unfold rowList; simp

theorem rowCount_rowList (r : Nat) (g : Nat → UInt8) (k v : Nat) :
    rowCount (fun i => (g i).toNat) (2 * r + 1) k v = (((rowList r g k).map UInt8.toNat).count v : Nat) := by
  rw [rowCount_eq_count]
  unfold rowList
  rw [List.map_map]
  rfl

theorem rowList_take_succ {r : Nat} (g : Nat → UInt8) {k i : Nat} (h1 : k ≤ i) (h2 : i < k + (2 * r + 1)) :
    (rowList r g k).take (i + 1 - k) = (rowList r g k).take (i - k) ++ [g i] := by
  rw [show i + 1 - k = (i - k) + 1 by omega, List.take_succ]
  congr 1
  unfold rowList
  rw [List.getElem?_map, List.getElem?_range (by omega)]
  simp only [Option.map_some, Option.toList_some]
  rw [show k + (i - k) = i by omega]

theorem rowList_drop {r : Nat} (g : Nat → UInt8) {k i : Nat} (h1 : k ≤ i) (h2 : i < k + (2 * r + 1)) :
    (rowList r g k).drop (i - k) = g i :: (rowList r g k).drop (i + 1 - k) := by
  rw [show i + 1 - k = (i - k) + 1 by omega, List.drop_eq_getElem_cons (by rw [rowList_length]; omega)]
  congr 1
  unfold rowList
  rw [List.getElem_map, List.getElem_range, show k + (i - k) = i by omega]

section
variable {F : Type} [FloatOps F] (bs : BinSearch) (P : Profile) {H : MeanHist F} {r h : Nat} {len : F} {W : Nat → List Nat}

theorem TState.data (T : TState H r h len W) : Holds H.data r h fun k v => ((W k).count v : Nat) := by
  obtain ⟨S, a, b, A, _⟩ := T
  exact A.data

/-- a row is added -/
theorem TState.update_add (B : bs.Spec) (T : TState H r h len W) {q : Nat} (hq : ∀ k, (W k).length ≤ q)
    (hfit : (q + (2 * r + 1) + 1) * 255 < 2147483648) (hfit2 : 2 * (q : Int) + h + (2 * r + 1) + 4 < 2147483648)
    {pIn : List (List UInt8)} {ch : Nat} {g : Nat → UInt8} (hv : ∀ i, i < 2 * h + (2 * r + 1) → MeanHist.rowByte pIn i ch = .ok (g i)) :
    ∃ H', H.update bs P pIn ch true = .ok H' ∧ TState H' r h len fun k => W k ++ (rowList r g k).map UInt8.toNat := by
  obtain ⟨S, a, b, A, T⟩ := T
  unfold MeanHist.update
  rw [if_pos (by rw [A.sums]; simp), if_pos rfl, A.data.nCols]
  obtain ⟨H1, e1, S1, a1, b1, A1, T1⟩ := forRange_rule (a := 0) (b := 2 * h + 1) (s := H) (f := fun n H =>
        forRange n (n + H.data.size) H fun i H => do
          let val ← MeanHist.rowByte pIn i ch
          H.addValue bs P n val)
    (fun n H => ∃ S a b, Two H r h len (fun k v => ((W k).count v : Nat)) S a b ∧
      ∀ k, k ≤ 2 * h → Tri (if k < n then W k ++ (rowList r g k).map UInt8.toNat else W k) (a k) (b k) (S k)) (Nat.zero_le _)
    ⟨S, a, b, A, fun k hk => by rw [if_neg (by omega)]; exact T k hk⟩
    (by
      rintro n H _ hn ⟨S, a, b, A, T⟩
      rw [A.data.size]
      obtain ⟨H1, e1, S1, a1, b1, A1, T1⟩ := forRange_rule (a := n) (b := n + (2 * r + 1)) (s := H) (f := fun i H => do
          let val ← MeanHist.rowByte pIn i ch
          H.addValue bs P n val)
        (fun i H => ∃ S a b, Two H r h len (fun k v => ((W k).count v : Nat)) S a b ∧
          ∀ k, k ≤ 2 * h → Tri (if k < n then W k ++ (rowList r g k).map UInt8.toNat else
            if k = n then W k ++ ((rowList r g k).take (i - n)).map UInt8.toNat else W k) (a k) (b k) (S k))
        (by omega)
        ⟨S, a, b, A, fun k hk => by
          have := T k hk
          by_cases h1 : k < n
          · rw [if_pos h1] at this ⊢; exact this
          · rw [if_neg h1] at this ⊢
            split
            · simpa using this
            · exact this⟩
        (by
          rintro i H hi1 hi2 ⟨S, a, b, A, T⟩
          rw [hv i (by omega), ok_bind]
          have Tn := T n (by omega)
          rw [if_neg (by omega), if_pos rfl] at Tn
          obtain ⟨H', S', a', b', e, A', T', hne⟩ := A.addValue bs P B (by omega) Tn (g i) (by
            have h1 := hq n
            have h2 : ((rowList r g n).take (i - n)).length ≤ 2 * r + 1 := (List.length_take_le _ _).trans (by omega)
            rw [List.length_append, List.length_map]
            exact Nat.lt_of_le_of_lt (Nat.mul_le_mul_right 255 (by omega)) hfit)
          refine ⟨H', e, S', a', b', A', fun k hk => ?_⟩
          by_cases hkn : k = n
          · subst hkn
            rw [if_neg (by omega), if_pos rfl, rowList_take_succ g hi1 hi2, List.map_append, ← List.append_assoc]
            exact T'
          · obtain ⟨h1, h2, h3⟩ := hne k hkn
            have := T k hk
            rw [← h1, ← h2, ← h3] at this
            rw [if_neg hkn] at this ⊢
            exact this)
      refine ⟨H1, e1, S1, a1, b1, A1, fun k hk => ?_⟩
      have := T1 k hk
      by_cases h1 : k < n
      · rw [if_pos h1] at this; rw [if_pos (by omega)]; exact this
      · rw [if_neg h1] at this
        by_cases h2 : k = n
        · rw [if_pos h2] at this
          rw [if_pos (by omega)]
          rw [Nat.add_sub_cancel_left, List.take_of_length_le (by rw [rowList_length])] at this
          exact this
        · rw [if_neg h2] at this
          rw [if_neg (by omega)]; exact this)
  rw [e1, ok_bind]
  obtain ⟨d, e2, hd⟩ := A1.data.update' P (M := q) (g := fun i => (g i).toNat) (ch := ch) (pIn := pIn) (fun k v _ _ => by
      have h1 : (W k).count v ≤ (W k).length := List.count_le_length
      have h2 := hq k
      rw [abs_of_nonneg (Int.natCast_nonneg _)]
      omega) hfit2
    (fun i hi => ⟨rowVal_of_rowByte (hv i hi), (g i).toNat_lt⟩) true
  rw [e2, ok_bind]
  refine ⟨_, rfl, S1, a1, b1, ⟨hd.congr fun k v _ _ => ?_, A1.sums, A1.lower, A1.upper, A1.trim, A1.len⟩, fun k hk => ?_⟩
  · unfold sign
    rw [if_pos rfl, one_mul, rowCount_rowList, List.count_append, Nat.cast_add]
  · have := T1 k hk
    rw [if_pos (by omega)] at this
    exact this

/-- a row is removed -/
theorem TState.update_remove (B : bs.Spec) (T : TState H r h len W) {q : Nat} {W' : Nat → List Nat} {g : Nat → UInt8}
    (hp : ∀ k, (W k).Perm (W' k ++ (rowList r g k).map UInt8.toNat)) (hq : ∀ k, (W k).length ≤ q) (hW' : ∀ k, 2 ≤ (W' k).length)
    (hfit : (q + (2 * r + 1) + 1) * 255 < 2147483648) (hfit2 : 2 * (q : Int) + h + (2 * r + 1) + 4 < 2147483648)
    {pIn : List (List UInt8)} {ch : Nat} (hv : ∀ i, i < 2 * h + (2 * r + 1) → MeanHist.rowByte pIn i ch = .ok (g i)) :
    ∃ H', H.update bs P pIn ch false = .ok H' ∧ TState H' r h len W' := by
  obtain ⟨S, a, b, A, T⟩ := T
  have hlen : ∀ k, (W k).length = (W' k).length + (2 * r + 1) := fun k => by
    rw [(hp k).length_eq, List.length_append, List.length_map, rowList_length]
  unfold MeanHist.update
  rw [if_pos (by rw [A.sums]; simp), if_neg (by simp)]
  obtain ⟨d, e2, hd⟩ := A.data.update' P (M := q) (g := fun i => (g i).toNat) (ch := ch) (pIn := pIn) (fun k v _ _ => by
      have h1 : (W k).count v ≤ (W k).length := List.count_le_length
      have h2 := hq k
      rw [abs_of_nonneg (Int.natCast_nonneg _)]
      omega) hfit2
    (fun i hi => ⟨rowVal_of_rowByte (hv i hi), (g i).toNat_lt⟩) false
  rw [e2, ok_bind]
  have A2 : Two ({ H with data := d } : MeanHist F) r h len (fun k v => ((W' k).count v : Nat)) S a b := by
    refine ⟨hd.congr fun k v _ _ => ?_, A.sums, A.lower, A.upper, A.trim, A.len⟩
    unfold sign
    rw [if_neg (by simp), rowCount_rowList, (hp k).count_eq, List.count_append]
    push_cast; ring
  dsimp only
  generalize hHd : ({ H with data := d } : MeanHist F) = Hd at A2
  have hdd : d = Hd.data := by rw [← hHd]
  rw [hdd, A2.data.nCols]
  obtain ⟨H1, e1, S1, a1, b1, A1, T1⟩ := forRange_rule (a := 0) (b := 2 * h + 1) (s := Hd) (f := fun n H =>
        forRange n (n + H.data.size) H fun i H => do
          let val ← MeanHist.rowByte pIn i ch
          let rest ← forRange i (n + H.data.size) [] fun j acc => do
            let v ← MeanHist.rowByte pIn j ch
            .ok (acc ++ [v])
          H.removeValue bs P n val rest)
    (fun n H => ∃ S a b, Two H r h len (fun k v => ((W' k).count v : Nat)) S a b ∧
      ∀ k, k ≤ 2 * h → Mid (W' k) (if k < n then [] else (rowList r g k).map UInt8.toNat) (a k) (b k) (S k)) (Nat.zero_le _)
    ⟨S, a, b, A2, fun k hk => by rw [if_neg (by omega)]; exact Mid.of_tri (T k hk) (hp k)⟩
    (by
      rintro n H _ hn ⟨S, a, b, A, T⟩
      rw [A.data.size]
      obtain ⟨H1, e1, S1, a1, b1, A1, T1⟩ := forRange_rule (a := n) (b := n + (2 * r + 1)) (s := H) (f := fun i H => do
          let val ← MeanHist.rowByte pIn i ch
          let rest ← forRange i (n + H.data.size) [] fun j acc => do
            let v ← MeanHist.rowByte pIn j ch
            .ok (acc ++ [v])
          H.removeValue bs P n val rest)
        (fun i H => ∃ S a b, Two H r h len (fun k v => ((W' k).count v : Nat)) S a b ∧
          ∀ k, k ≤ 2 * h → Mid (W' k) (if k < n then [] else
            if k = n then ((rowList r g k).drop (i - n)).map UInt8.toNat else (rowList r g k).map UInt8.toNat) (a k) (b k) (S k))
        (by omega)
        ⟨S, a, b, A, fun k hk => by
          have := T k hk
          by_cases h1 : k < n
          · rw [if_pos h1] at this ⊢; exact this
          · rw [if_neg h1] at this ⊢
            split
            · simpa using this
            · exact this⟩
        (by
          rintro i H hi1 hi2 ⟨S, a, b, A, T⟩
          rw [hv i (by omega), ok_bind, A.data.size]
          have hrest : (forRange i (n + (2 * r + 1)) [] fun j acc => do
              let v ← MeanHist.rowByte pIn j ch
              .ok (acc ++ [v])) = .ok ((rowList r g n).drop (i - n)) := by
            rw [forRange_collect [] _ (fun j => [g j]) (by
              intro j acc _ hj
              rw [hv j (by omega), ok_bind]) (by omega)]
            congr 1
            rw [List.nil_append]
            unfold rowList
            rw [← List.map_drop]
            apply List.ext_getElem
            · simp; omega
            · intro m h1 h2
              have : ∀ (l : List Nat) (f : Nat → UInt8), l.flatMap (fun x => [f x]) = l.map f := fun l f => by
                induction l with
                | nil => rfl
                | cons x l ih => rw [List.flatMap_cons, ih]; rfl
              simp only [this, List.getElem_map, List.getElem_range, List.getElem_drop]
              congr 1; omega
          rw [hrest, ok_bind, rowList_drop g hi1 hi2]
          have Tn := T n (by omega)
          rw [if_neg (by omega), if_pos rfl, rowList_drop g hi1 hi2] at Tn
          obtain ⟨H', S', a', b', e, A', T', hne⟩ := A.removeValue bs P B (by omega) (fun _ _ => rfl) rfl (hW' n) Tn (by
            have h1 := hq n
            have h2 := hlen n
            rw [List.length_map, ← rowList_drop g hi1 hi2, List.length_drop, rowList_length]
            exact Nat.lt_of_le_of_lt (Nat.mul_le_mul_right 255 (by omega)) hfit)
          refine ⟨H', e, S', a', b', A', fun k hk => ?_⟩
          by_cases hkn : k = n
          · subst hkn
            rw [if_neg (by omega), if_pos rfl]
            exact T'
          · obtain ⟨h1, h2, h3⟩ := hne k hkn
            have := T k hk
            rw [← h1, ← h2, ← h3] at this
            rw [if_neg hkn] at this ⊢
            exact this)
      refine ⟨H1, e1, S1, a1, b1, A1, fun k hk => ?_⟩
      have := T1 k hk
      by_cases h1 : k < n
      · rw [if_pos h1] at this; rw [if_pos (by omega)]; exact this
      · rw [if_neg h1] at this
        by_cases h2 : k = n
        · rw [if_pos h2] at this
          rw [if_pos (by omega)]
          rw [Nat.add_sub_cancel_left, List.drop_of_length_le (by rw [rowList_length])] at this
          exact this
        · rw [if_neg h2] at this
          rw [if_neg (by omega)]; exact this)
  rw [e1]
  refine ⟨H1, rfl, S1, a1, b1, A1, fun k hk => ?_⟩
  have := T1 k hk
  rw [if_pos (by omega)] at this
  exact this.tri

/-- the mean stored for column `i` -/
theorem TState.getMean (T : TState H r h len W) {i : Nat} (hi : i ≤ 2 * h) :
    ∃ a b s, Tri (W i) a b s ∧ H.getMean i = .ok (meanByte s len) := by
  obtain ⟨S, a, b, A, T⟩ := T
  refine ⟨_, _, _, T i hi, ?_⟩
  unfold MeanHist.getMean
  rw [A.sums, idx_map_range _ (by omega), ok_bind, A.len]
  rfl
end
end Imgproc

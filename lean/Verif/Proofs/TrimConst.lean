import Verif.Proofs.TrimBlock
/-! The alpha-trimmed mean filter on constant images, and with nothing to trim. -/
namespace Imgproc
open FloatOps

/-- a histogram that has only seen the byte `b`, `N` times per column -/
def CHolds {F : Type} (H : MeanHist F) (r h trim : Nat) (len : F) (b : UInt8) (N : Int) (S : Nat → Int) : Prop :=
  THolds H r h trim len (fun _ v => if v = b.toNat then N else 0) S (fun _ => List.replicate trim b) (fun _ => List.replicate trim b)

section
variable {F : Type} [FloatOps F] (bs : BinSearch) (P : Profile) {H : MeanHist F} {r h trim : Nat} {len : F} {b : UInt8} {N : Int} {S : Nat → Int}

theorem CHolds.lowerAt (A : CHolds H r h trim len b N S) (ht : 0 < trim) {k : Nat} (hk : k ≤ 2 * h) : H.lowerAt P k = .ok b := by
  unfold MeanHist.lowerAt
  rw [A.lower, idx_map_range _ (by omega), ok_bind, A.trim, usizeSub_ok (by omega), ok_bind, idx_ok (by simp; omega), List.getElem_replicate]

theorem CHolds.upperAt (A : CHolds H r h trim len b N S) (ht : 0 < trim) {k : Nat} (hk : k ≤ 2 * h) : H.upperAt P k = .ok b := by
  unfold MeanHist.upperAt
  rw [A.upper, idx_map_range _ (by omega), ok_bind, A.trim, usizeSub_ok (by omega), ok_bind, idx_ok (by simp; omega), List.getElem_replicate]

theorem CHolds.addSum (A : CHolds H r h trim len b N S) {k : Nat} (hk : k ≤ 2 * h) {d : Int} (h1 : -2147483648 ≤ S k + d) (h2 : S k + d < 2147483648) :
    ∃ H', H.addSum P k d = .ok H' ∧ CHolds H' r h trim len b N (fun j => if j = k then S k + d else S j) := by
  unfold MeanHist.addSum
  rw [A.sums, idx_map_range _ (by omega), ok_bind, i32Add_ok (by omega) (by omega), ok_bind, setIdx_ok (by simp; omega), ok_bind, set_map_range]
  exact ⟨_, rfl, A.data, rfl, A.lower, A.upper, A.trim, A.len⟩

theorem CHolds.subSum (A : CHolds H r h trim len b N S) {k : Nat} (hk : k ≤ 2 * h) {d : Int} (h1 : -2147483648 ≤ S k - d) (h2 : S k - d < 2147483648) :
    ∃ H', H.subSum P k d = .ok H' ∧ CHolds H' r h trim len b N (fun j => if j = k then S k - d else S j) := by
  unfold MeanHist.subSum
  rw [A.sums, idx_map_range _ (by omega), ok_bind, i32Sub_ok (by omega) (by omega), ok_bind, setIdx_ok (by simp; omega), ok_bind, set_map_range]
  exact ⟨_, rfl, A.data, rfl, A.lower, A.upper, A.trim, A.len⟩

theorem CHolds.congrS (A : CHolds H r h trim len b N S) {S' : Nat → Int} (e : ∀ k, k ≤ 2 * h → S k = S' k) : CHolds H r h trim len b N S' := by
  refine ⟨A.data, A.sums.trans ?_, A.lower, A.upper, A.trim, A.len⟩
  apply List.map_congr_left
  intro k hk
  exact e k (by have := List.mem_range.1 hk; omega)

theorem CHolds.addValue (A : CHolds H r h trim len b N S) (ht : 0 < trim) {k : Nat} (hk : k ≤ 2 * h) (h1 : 0 ≤ S k) (h2 : S k + b.toNat < 2147483648) :
    ∃ H', H.addValue bs P k b = .ok H' ∧ CHolds H' r h trim len b N (fun j => if j = k then S k + b.toNat else S j) := by
  unfold MeanHist.addValue
  rw [A.lowerAt P ht hk, ok_bind, A.upperAt P ht hk, ok_bind, if_neg (UInt8.lt_irrefl b), if_neg (UInt8.lt_irrefl b)]
  exact A.addSum P hk (by omega) h2

theorem trailing_replicate (n : Nat) (b : UInt8) : MeanHist.trailing (List.replicate n b) b = n := by
  unfold MeanHist.trailing
  rw [List.reverse_replicate, List.takeWhile_replicate]
  simp

theorem forList_count (P : Profile) (b : UInt8) (uc : Int) : ∀ (n : Nat) (lc : Int), 0 ≤ lc → lc + n < 2147483648 →
    forList (List.replicate n b) (lc, uc) (fun v s =>
      if v == b then do
        let a ← i32Add P s.1 1
        .ok (a, s.2)
      else if v == b then do
        let a ← i32Add P s.2 1
        .ok (s.1, a)
      else .ok s) = .ok (lc + n, uc) := by
  intro n
  induction n with
  | zero => intro lc _ _; simp [forList]
  | succ n ih =>
    intro lc h1 h2
    rw [List.replicate_succ, forList]
    dsimp only
    rw [beq_self_eq_true, if_pos rfl, i32Add_ok (by omega) (by push_cast at h2; omega), ok_bind, ok_bind, ih (lc + 1) (by omega) (by push_cast at h2; omega)]
    congr 2
    push_cast; ring

theorem CHolds.removeValue (A : CHolds H r h trim len b N S) (ht : 0 < trim) {k : Nat} (hk : k ≤ 2 * h)
    (hN : (trim : Int) < N) {m : Nat} (hfit : N + m < 2147483648) (h1 : (b.toNat : Int) ≤ S k) (h2 : S k < 2147483648) :
    ∃ H', H.removeValue bs P k b (List.replicate m b) = .ok H' ∧ CHolds H' r h trim len b N (fun j => if j = k then S k - b.toNat else S j) := by
  have hb := b.toNat_lt
  have hcount : H.data.getCount P b.toNat k = .ok N := by
    rw [A.data.getCount P hk hb (by rw [if_pos rfl, abs_lt]; omega), if_pos rfl]
  unfold MeanHist.removeValue
  rw [A.lowerAt P ht hk, ok_bind, A.upperAt P ht hk, ok_bind, hcount, ok_bind, ok_bind, forList_count P b N m N (by omega) (by omega), ok_bind]
  dsimp only
  rw [A.lower, idx_map_range _ (by omega), ok_bind, trailing_replicate, i32Sub_ok (by omega) (by omega), ok_bind,
    A.upper, idx_map_range _ (by omega), ok_bind, trailing_replicate, i32Sub_ok (by omega) (by omega), ok_bind]
  have n1 : (N + m - trim == 0) = false := by simp; omega
  have n2 : (N - (trim : Int) == 0) = false := by simp; omega
  rw [n1, n2, Bool.and_false, if_neg (by simp), if_neg (UInt8.lt_irrefl b), if_neg (by simp), if_neg (UInt8.lt_irrefl b)]
  exact A.subSum P hk (by omega) (by omega)

theorem rowVal_of_rowByte {pIn : List (List UInt8)} {i ch : Nat} (h : MeanHist.rowByte pIn i ch = .ok b) : rowVal pIn i ch = .ok b.toNat := by
  unfold MeanHist.rowByte at h
  unfold rowVal
  cases e : idx pIn i with
  | error f => rw [e] at h; cases h
  | ok p =>
    rw [e, ok_bind] at h
    rw [ok_bind, h, ok_bind]

theorem rowCount_const {g : Nat → Nat} {v0 : Nat} (hg : ∀ i, g i = v0) (size k v : Nat) : rowCount g size k v = if v = v0 then (size : Int) else 0 := by
  unfold rowCount ind
  simp only [hg]
  by_cases h : v = v0
  · subst h; simp
  · rw [if_neg h]
    have : ¬ v0 = v := fun e => h e.symm
    simp [this]

/-- the data part of an update with a row of the byte -/
theorem CHolds.updateData (A : CHolds H r h trim len b N S) {M : Int} (hN0 : |N| ≤ M) (hNf : 2 * M + h + (2 * r + 1) + 4 < 2147483648)
    {pIn : List (List UInt8)} {ch : Nat} (hv : ∀ i, i < 2 * h + (2 * r + 1) → MeanHist.rowByte pIn i ch = .ok b) (add : Bool) :
    ∃ d, H.data.update P pIn ch add = .ok d ∧ CHolds { H with data := d } r h trim len b (N + sign add * (2 * r + 1)) S := by
  obtain ⟨d, e, hd⟩ := A.data.update' P (M := M) (g := fun _ => b.toNat) (ch := ch) (pIn := pIn) (fun a v _ _ => by
      split
      · exact hN0
      · rw [abs_zero]; exact (abs_nonneg _).trans hN0) hNf
    (fun i hi => ⟨rowVal_of_rowByte (hv i hi), b.toNat_lt⟩) add
  refine ⟨d, e, hd.congr fun a v _ _ => ?_, A.sums, A.lower, A.upper, A.trim, A.len⟩
  rw [rowCount_const fun _ => rfl]
  split
  · push_cast; rfl
  · simp

/-- adding a row of the byte -/
theorem CHolds.update_add {s : Int} (A : CHolds H r h trim len b N fun _ => s) (ht : 0 < trim) (hN0 : 0 ≤ N) (hNf : 2 * N + h + (2 * r + 1) + 4 < 2147483648)
    (hs0 : 0 ≤ s) (hsf : s + (2 * r + 1 : Nat) * b.toNat < 2147483648)
    {pIn : List (List UInt8)} {ch : Nat} (hv : ∀ i, i < 2 * h + (2 * r + 1) → MeanHist.rowByte pIn i ch = .ok b) :
    ∃ H', H.update bs P pIn ch true = .ok H' ∧ CHolds H' r h trim len b (N + (2 * r + 1)) fun _ => s + (2 * r + 1 : Nat) * b.toNat := by
  have hbn : (0 : Int) ≤ b.toNat := Int.natCast_nonneg _
  have hmul : ∀ a : Nat, a ≤ 2 * r + 1 → (0 : Int) ≤ (a : Int) * b.toNat ∧ (a : Int) * b.toNat ≤ (2 * r + 1 : Nat) * b.toNat := fun a ha =>
    ⟨mul_nonneg (Int.natCast_nonneg _) hbn, mul_le_mul_of_nonneg_right (by exact_mod_cast ha) hbn⟩
  unfold MeanHist.update
  rw [if_pos (by rw [A.sums]; simp), if_pos rfl, A.data.nCols]
  obtain ⟨H1, e1, A1⟩ := forRange_rule (a := 0) (b := 2 * h + 1) (s := H) (f := fun n H =>
        forRange n (n + H.data.size) H fun i H => do
          let val ← MeanHist.rowByte pIn i ch
          H.addValue bs P n val)
    (fun n H => CHolds H r h trim len b N fun k => if k < n then s + (2 * r + 1 : Nat) * b.toNat else s) (Nat.zero_le _)
    (by simpa using A)
    (by
      intro n H _ hn A
      rw [A.data.size]
      obtain ⟨H1, e1, A1⟩ := forRange_rule (a := n) (b := n + (2 * r + 1)) (s := H) (f := fun i H => do
          let val ← MeanHist.rowByte pIn i ch
          H.addValue bs P n val)
        (fun i H => CHolds H r h trim len b N fun k => if k < n then s + (2 * r + 1 : Nat) * b.toNat else if k = n then s + (i - n : Nat) * b.toNat else s)
        (by omega)
        (A.congrS fun k _ => by split_ifs <;> simp)
        (by
          intro i H hi1 hi2 A
          rw [hv i (by omega), ok_bind]
          have hm := hmul (i - n) (by omega)
          have hm1 := hmul (i + 1 - n) (by omega)
          have hsucc : ((i + 1 - n : Nat) : Int) * b.toNat = (i - n : Nat) * b.toNat + b.toNat := by
            rw [show i + 1 - n = (i - n) + 1 by omega]; push_cast; ring
          obtain ⟨H', e, A'⟩ := A.addValue bs P ht (k := n) (by omega) (by rw [if_neg (by omega), if_pos rfl]; omega)
            (by rw [if_neg (by omega), if_pos rfl]; omega)
          refine ⟨H', e, A'.congrS fun k _ => ?_⟩
          rw [if_neg (Nat.lt_irrefl n), if_pos rfl, hsucc]
          split_ifs <;> first | (exfalso; omega) | ring)
      refine ⟨H1, e1, A1.congrS fun k _ => ?_⟩
      rw [Nat.add_sub_cancel_left]
      split_ifs <;> first | (exfalso; omega) | rfl)
  rw [e1, ok_bind]
  obtain ⟨d, e2, A2⟩ := A1.updateData P (M := N) (le_of_eq (abs_of_nonneg hN0)) hNf hv true
  rw [e2, ok_bind]
  refine ⟨_, rfl, ?_⟩
  have := A2.congrS (S' := fun _ => s + (2 * r + 1 : Nat) * b.toNat) fun k hk => by rw [if_pos (by omega)]
  unfold sign at this
  rw [if_pos rfl, one_mul] at this
  exact this

/-- removing a row of the byte -/
theorem CHolds.update_remove {s : Int} (A : CHolds H r h trim len b N fun _ => s) (ht : 0 < trim) (hN0 : (trim : Int) + (2 * r + 1) < N)
    (hNf : 2 * N + h + (2 * r + 1) + 4 < 2147483648) (hs0 : (2 * r + 1 : Nat) * b.toNat ≤ s) (hsf : s < 2147483648)
    {pIn : List (List UInt8)} {ch : Nat} (hv : ∀ i, i < 2 * h + (2 * r + 1) → MeanHist.rowByte pIn i ch = .ok b) :
    ∃ H', H.update bs P pIn ch false = .ok H' ∧ CHolds H' r h trim len b (N - (2 * r + 1)) fun _ => s - (2 * r + 1 : Nat) * b.toNat := by
  have hbn : (0 : Int) ≤ b.toNat := Int.natCast_nonneg _
  have hmul : ∀ a : Nat, a ≤ 2 * r + 1 → (0 : Int) ≤ (a : Int) * b.toNat ∧ (a : Int) * b.toNat ≤ (2 * r + 1 : Nat) * b.toNat := fun a ha =>
    ⟨mul_nonneg (Int.natCast_nonneg _) hbn, mul_le_mul_of_nonneg_right (by exact_mod_cast ha) hbn⟩
  unfold MeanHist.update
  rw [if_pos (by rw [A.sums]; simp), if_neg (by simp)]
  obtain ⟨d, e2, A2⟩ := A.updateData P (M := N) (le_of_eq (abs_of_nonneg (by omega))) hNf hv false
  rw [e2, ok_bind]
  unfold sign at A2
  rw [if_neg (by simp)] at A2
  dsimp only
  generalize hHd : ({ H with data := d } : MeanHist F) = Hd at A2
  have hdd : d = Hd.data := by rw [← hHd]
  rw [hdd, A2.data.nCols]
  obtain ⟨H1, e1, A1⟩ := forRange_rule (a := 0) (b := 2 * h + 1) (s := Hd) (f := fun n H =>
        forRange n (n + H.data.size) H fun i H => do
          let val ← MeanHist.rowByte pIn i ch
          let rest ← forRange i (n + H.data.size) [] fun j acc => do
            let v ← MeanHist.rowByte pIn j ch
            .ok (acc ++ [v])
          H.removeValue bs P n val rest)
    (fun n H => CHolds H r h trim len b (N + -1 * (2 * r + 1)) fun k => if k < n then s - (2 * r + 1 : Nat) * b.toNat else s) (Nat.zero_le _)
    (by simpa using A2)
    (by
      intro n H _ hn A
      rw [A.data.size]
      obtain ⟨H1, e1, A1⟩ := forRange_rule (a := n) (b := n + (2 * r + 1)) (s := H) (f := fun i H => do
          let val ← MeanHist.rowByte pIn i ch
          let rest ← forRange i (n + H.data.size) [] fun j acc => do
            let v ← MeanHist.rowByte pIn j ch
            .ok (acc ++ [v])
          H.removeValue bs P n val rest)
        (fun i H => CHolds H r h trim len b (N + -1 * (2 * r + 1)) fun k => if k < n then s - (2 * r + 1 : Nat) * b.toNat else if k = n then s - (i - n : Nat) * b.toNat else s)
        (by omega)
        (A.congrS fun k _ => by split_ifs <;> simp)
        (by
          intro i H hi1 hi2 A
          rw [hv i (by omega), ok_bind, A.data.size]
          have hrest : (forRange i (n + (2 * r + 1)) [] fun j acc => do
              let v ← MeanHist.rowByte pIn j ch
              .ok (acc ++ [v])) = .ok (List.replicate (n + (2 * r + 1) - i) b) := by
            rw [forRange_collect [] _ (fun _ => [b]) (by
              intro j acc _ hj
              rw [hv j (by omega), ok_bind]) (by omega)]
            congr 1
            rw [List.nil_append]
            generalize n + (2 * r + 1) - i = m
            induction m with
            | zero => rfl
            | succ m ih => rw [List.range_succ, List.flatMap_append, ih, List.replicate_succ']; rfl
          rw [hrest, ok_bind]
          have hm := hmul (i - n) (by omega)
          have hm1 := hmul (i + 1 - n) (by omega)
          have hsucc : ((i + 1 - n : Nat) : Int) * b.toNat = (i - n : Nat) * b.toNat + b.toNat := by
            rw [show i + 1 - n = (i - n) + 1 by omega]; push_cast; ring
          obtain ⟨H', e, A'⟩ := A.removeValue bs P ht (k := n) (by omega) (m := n + (2 * r + 1) - i) (by omega) (by omega)
            (by rw [if_neg (by omega), if_pos rfl]; omega) (by rw [if_neg (by omega), if_pos rfl]; omega)
          refine ⟨H', e, A'.congrS fun k _ => ?_⟩
          rw [if_neg (Nat.lt_irrefl n), if_pos rfl, hsucc]
          split_ifs <;> first | (exfalso; omega) | ring)
      refine ⟨H1, e1, A1.congrS fun k _ => ?_⟩
      rw [Nat.add_sub_cancel_left]
      split_ifs <;> first | (exfalso; omega) | rfl)
  rw [e1]
  refine ⟨H1, rfl, ?_⟩
  have := A1.congrS (S' := fun _ => s - (2 * r + 1 : Nat) * b.toNat) fun k hk => by rw [if_pos (by omega)]
  rw [show N + -1 * (2 * r + 1) = N - (2 * r + 1) by ring] at this
  exact this
end

theorem sortedList_replicate (n v : Nat) : sortedList (List.replicate n v) = List.replicate n v :=
  List.eq_replicate_iff.2 ⟨by rw [(sortedList_perm _).length_eq, List.length_replicate], fun a ha =>
    (List.mem_replicate.1 ((sortedList_perm _).mem_iff.1 ha)).2⟩

theorem codeUpper_replicate {n v t : Nat} (h0 : 0 < t) (ht : 2 * t < n) :
    (codeUpper (List.replicate n v) t fun w => decide (n - t < (List.replicate n v).countP (· ≤ w))) = List.replicate t v := by
  unfold codeUpper
  rw [List.drop_replicate, List.filter_replicate_of_pos, List.take_replicate, Nat.min_eq_left (by omega)]
  rw [List.countP_replicate]
  simp; omega

theorem codeSum_replicate {n v t : Nat} (h0 : 0 < t) (ht : 2 * t < n) : codeSum (List.replicate n v) t = ((n - 2 * t : Nat) : Int) * v := by
  unfold codeSum
  rw [sortedList_replicate, List.length_replicate, codeUpper_replicate h0 ht, List.take_replicate, Nat.min_eq_left (by omega)]
  simp only [List.sum_replicate, smul_eq_mul]
  rw [Nat.cast_sub (by omega)]
  push_cast; ring

theorem lowerBytes_replicate {n v t : Nat} (ht : 2 * t < n) : lowerBytes (List.replicate n v) t = List.replicate t (UInt8.ofNat v) := by
  unfold lowerBytes
  rw [sortedList_replicate, List.take_replicate, Nat.min_eq_left (by omega), List.map_replicate]

theorem upperBytes_replicate {n v t : Nat} (h0 : 0 < t) (ht : 2 * t < n) : upperBytes (List.replicate n v) t = List.replicate t (UInt8.ofNat v) := by
  unfold upperBytes
  rw [sortedList_replicate, List.length_replicate, codeUpper_replicate h0 ht, List.map_replicate, List.reverse_replicate]

/-- `process_row_mean` when every column of a channel has the same mean -/
theorem processRowMean_const {F : Type} [FloatOps F] (P : Profile) {n h x0 y : Nat} {hists : List (MeanHist F)} (hl : hists.length = n) (o : Nat → UInt8)
    (hm : ∀ (c : Nat) (H : MeanHist F), hists[c]? = some H → ∀ i, i ≤ 2 * h → H.getMean i = .ok (o c))
    {out : Image UInt8} {info : ImageInfo} {f : Nat → Nat → List UInt8} (hs : out.Shows info f)
    (hn : n = info.channels) (hx0 : x0 < info.width) (hfit : x0 + 2 * h + 1 < 4294967296) (hy : y < info.height) :
    ∃ out', processRowMean P out hists (2 * h + 1) x0 y = .ok out' ∧
      out'.Shows info (fun x' y' => if y' = y ∧ x0 ≤ x' ∧ x' < x0 + (2 * h + 1) then (List.range n).map o else f x' y') := by
  unfold processRowMean
  refine forRange_rule (a := 0) (b := 2 * h + 1) (s := out)
    (fun m (out : Image UInt8) => out.Shows info (fun x' y' => if y' = y ∧ x0 ≤ x' ∧ x' < x0 + m then (List.range n).map o else f x' y')) (Nat.zero_le _)
    (hs.congr fun x' y' _ _ => by rw [if_neg (by omega)]) ?_
  intro m out _ hm' hs
  obtain ⟨l1, e1, _, _⟩ := forHists_rule (hists := hists) (f := fun _ h pOut => do
      let m ← MeanHist.getMean h m
      .ok (h, pOut ++ [m])) o (fun _ _ => True)
    (by
      intro c a pOut hc
      exact ⟨a, by rw [hm c a hc m (by omega), ok_bind], trivial⟩)
  rw [e1, ok_bind, hl]
  obtain ⟨out', e2, hs'⟩ := writeClamped_shows P hs (x := x0) (i := m) (y := y) (p := (List.range n).map o) (by omega) (by omega) hy (by simp [hn])
  refine ⟨out', e2, hs'.congr fun x' y' hx' hy' => ?_⟩
  by_cases hyy : y' = y
  · by_cases hxx : x' = min (x0 + m) (info.width - 1)
    · rw [if_pos ⟨hxx, hyy⟩, if_pos (by omega)]
    · rw [if_neg (by tauto)]
      by_cases hr : x0 ≤ x' ∧ x' < x0 + m
      · rw [if_pos ⟨hyy, hr⟩, if_pos (show y' = y ∧ x0 ≤ x' ∧ x' < x0 + (m + 1) by omega)]
      · rw [if_neg (show ¬ (y' = y ∧ x0 ≤ x' ∧ x' < x0 + m) by tauto),
          if_neg (show ¬ (y' = y ∧ x0 ≤ x' ∧ x' < x0 + (m + 1)) by omega)]
  · rw [if_neg (by tauto), if_neg (by tauto), if_neg (by tauto)]

section
variable {F : Type} [FloatOps F] (bs : BinSearch) (P : Profile) {img : Image UInt8} {r h x0 : Nat} (M : MedianFits img r h)
  (hx0 : x0 < img.info.width) (h255 : (2 * r + 2) * (2 * r + 2) * 255 < 2147483648)
  (hconst : ∀ x y, x < img.info.width → y < img.info.height → img.px x y = img.px 0 0)
include M hconst

omit M in
theorem value_const {x y : Nat} (hx : x < img.info.width) (hy : y < img.info.height) (c : Nat) : img.value c x y = img.value c 0 0 := by
  unfold Image.value
  rw [hconst x y hx hy]

theorem topWindow_const (c x : Nat) : img.topWindow r c x = List.replicate ((2 * r + 1) * (2 * r + 1)) (img.value c 0 0) := by
  rw [List.eq_replicate_iff]
  refine ⟨topWindow_length _ _ _ _, fun v hv => ?_⟩
  unfold Image.topWindow at hv
  rw [List.mem_flatMap] at hv
  obtain ⟨j, _, hv⟩ := hv
  rw [List.mem_map] at hv
  obtain ⟨i, _, rfl⟩ := hv
  exact value_const hconst (clampCoord_lt M.width _) M.height c

theorem rowByte_const {c y : Nat} (hc : c < img.info.channels) (hy : y < img.info.height) {len i : Nat} (hi : i < len) :
    MeanHist.rowByte (rowAt img r x0 len y) i c = .ok (UInt8.ofNat (img.value c 0 0)) := by
  unfold MeanHist.rowByte rowAt
  have hl := Image.px_length M.wf M.width M.height
  rw [idx_map_range _ hi, ok_bind, hconst _ _ (clampCoord_lt M.width _) hy, idx_ok (by rw [hl]; exact hc)]
  unfold Image.value
  rw [List.getElem?_eq_getElem (by rw [hl]; exact hc)]
  simp

include hx0 h255

/-- one block of a constant image -/
theorem processColsMean_const {alpha : Nat} (ha2 : 2 ≤ alpha) (hev : alpha % 2 = 0) (ha : alpha < (2 * r + 1) * (2 * r + 1))
    {out : Image UInt8} {f : Nat → Nat → List UInt8} (hs : out.Shows img.info f) {H0 : MeanHist F} (hnew : MeanHist.new P r (2 * h + 1) alpha = .ok H0) :
    ∃ out', processColsMean bs P F img out r alpha (2 * h + 1) x0 = .ok out' ∧
      out'.Shows img.info fun x' y' => if x0 ≤ x' ∧ x' < x0 + (2 * h + 1) then
        (List.range img.info.channels).map (fun c => meanByte ((((2 * r + 1) * (2 * r + 1) - alpha : Nat) : Int) * img.value c 0 0) H0.len) else f x' y' := by
  have hN := M.fitN
  have hW := M.fitW
  have hH := M.fitH
  have hH0 := M.height
  have hv255 : ∀ c, img.value c 0 0 ≤ 255 := fun c => by have := Image.value_lt img c 0 0; omega
  have hbyte : ∀ c, (UInt8.ofNat (img.value c 0 0)).toNat = img.value c 0 0 := fun c => by
    rw [UInt8.toNat_ofNat', Nat.mod_eq_of_lt (Image.value_lt img c 0 0)]
  have hq2 : (2 * r + 2) * (2 * r + 2) = (2 * r + 1) * (2 * r + 1) + (2 * r + 1) + (2 * r + 2) := by ring
  have htw := topWindow_const (r := r) M hconst
  obtain ⟨s0, e0, l0, A0, D0⟩ := initColsMean_ok bs P M hx0
    (Nat.lt_of_le_of_lt (Nat.mul_le_mul_right 255 (Nat.mul_le_mul (by omega) (by omega))) h255) ha hs hnew
  rw [hq2] at h255
  generalize hqq : (2 * r + 1) * (2 * r + 1) = q at *
  have hsum : ∀ c, ((q - 2 * (alpha / 2) : Nat) : Int) * img.value c 0 0 ≤ (q : Int) * 255 := fun c =>
    mul_le_mul (by exact_mod_cast Nat.sub_le _ _) (by exact_mod_cast hv255 c) (Int.natCast_nonneg _) (Int.natCast_nonneg _)
  have hrow : ∀ c, ((2 * r + 1 : Nat) : Int) * img.value c 0 0 ≤ (2 * r + 1 : Nat) * 255 := fun c =>
    mul_le_mul_of_nonneg_left (by exact_mod_cast hv255 c) (Int.natCast_nonneg _)
  have halpha : q - 2 * (alpha / 2) = q - alpha := by omega
  obtain ⟨s1, e1, l1, A1, D1⟩ := forRange_rule (a := 1) (b := img.info.height) (s := s0) (f := fun j s => do
      let (jIn, jOut) ← rowInOut P img.info.height r j
      let rowIn ← inputRow P img r (2 * h + 1) x0 jIn
      let rowOut ← inputRow P img r (2 * h + 1) x0 jOut
      let hists ← rowMean bs P s.2 rowIn true
      let hists ← rowMean bs P hists rowOut false
      let output ← processRowMean P s.1 hists (2 * h + 1) x0 j
      .ok (output, hists))
    (fun j s => s.2.length = img.info.channels ∧
      (∀ c H, s.2[c]? = some H → CHolds H r h (alpha / 2) H0.len (UInt8.ofNat (img.value c 0 0)) q
        fun _ => ((q - alpha : Nat) : Int) * img.value c 0 0) ∧
      s.1.Shows img.info fun x' y' => if y' < j ∧ x0 ≤ x' ∧ x' < x0 + (2 * h + 1) then
        (List.range img.info.channels).map (fun c => meanByte (((q - alpha : Nat) : Int) * img.value c 0 0) H0.len) else f x' y')
    (by omega)
    ⟨l0, fun c H hc => by
      have A := A0 c H hc
      simp only [htw] at A
      refine ⟨A.data.congr fun a v _ _ => ?_, A.sums.trans ?_, A.lower.trans ?_, A.upper.trans ?_, A.trim, A.len⟩
      · rw [List.count_replicate, hbyte]
        by_cases h : v = img.value c 0 0
        · subst h; simp
        · rw [if_neg h, if_neg (by simpa using fun e => h e.symm)]; rfl
      · apply List.map_congr_left
        intro k _
        rw [codeSum_replicate (by omega) (by omega), halpha]
      · apply List.map_congr_left
        intro k _
        rw [lowerBytes_replicate (by omega)]
      · apply List.map_congr_left
        intro k _
        rw [upperBytes_replicate (by omega) (by omega)], D0.congr fun x' y' _ _ => by
      simp only [htw]
      by_cases hy : y' = 0
      · subst hy
        by_cases hx : x0 ≤ x' ∧ x' < x0 + (2 * h + 1)
        · rw [if_pos ⟨rfl, hx⟩, if_pos ⟨by omega, hx⟩]
          apply List.map_congr_left
          intro c _
          rw [codeSum_replicate (by omega) (by omega), halpha]
        · rw [if_neg fun h => hx h.2, if_neg fun h => hx h.2]
      · rw [if_neg (by omega), if_neg (by omega)]⟩
    (by
      rintro j ⟨out, hists⟩ hj1 hj2 ⟨l, A, D⟩
      dsimp only at l A D ⊢
      rw [rowInOut_eq P hj2 hH, ok_bind]
      dsimp only
      rw [inputRow_eq P M hx0 (clampCoord_lt hH0 _), ok_bind, inputRow_eq P M hx0 (clampCoord_lt hH0 _), ok_bind]
      have hcl1 := clampCoord_lt hH0 ((j : Int) + r)
      have hcl2 := clampCoord_lt hH0 ((j : Int) - r - 1)
      have hch : ∀ {l : List (MeanHist F)} {c H}, l.length = img.info.channels → l[c]? = some H → c < img.info.channels := by
        intro l c H hl hc
        rcases Nat.lt_or_ge c img.info.channels with h | h
        · exact h
        · rw [List.getElem?_eq_none (by omega)] at hc; cases hc
      obtain ⟨h1, e1, l1, A1⟩ := forEnum_map_rule (l := hists)
        (f := fun c H => H.update bs P (rowAt img r x0 (2 * h + (2 * r + 1)) (clampCoord img.info.height ((j : Int) + r))) c true)
        (fun c H => CHolds H r h (alpha / 2) H0.len (UInt8.ofNat (img.value c 0 0)) (q + (2 * r + 1))
          fun _ => ((q - alpha : Nat) : Int) * img.value c 0 0 + (2 * r + 1 : Nat) * (UInt8.ofNat (img.value c 0 0)).toNat)
        (by
          intro c H hc
          have h3 := hsum c
          have h4 := hrow c
          rw [halpha] at h3
          refine (A c H hc).update_add bs P (by omega) (by omega) (by omega) (mul_nonneg (Int.natCast_nonneg _) (Int.natCast_nonneg _))
            (by rw [hbyte]; omega) fun i hi => rowByte_const M hconst (hch l hc) hcl1 hi)
      obtain ⟨h2, e2, l2, A2⟩ := forEnum_map_rule (l := h1)
        (f := fun c H => H.update bs P (rowAt img r x0 (2 * h + (2 * r + 1)) (clampCoord img.info.height ((j : Int) - r - 1))) c false)
        (fun c H => CHolds H r h (alpha / 2) H0.len (UInt8.ofNat (img.value c 0 0)) q
          fun _ => ((q - alpha : Nat) : Int) * img.value c 0 0)
        (by
          intro c H hc
          have h3 := hsum c
          have h4 := hrow c
          rw [halpha] at h3
          have h5 : (0 : Int) ≤ ((q - alpha : Nat) : Int) * img.value c 0 0 := mul_nonneg (Int.natCast_nonneg _) (Int.natCast_nonneg _)
          obtain ⟨H', e, A'⟩ := (A1 c H hc).update_remove bs P (by omega) (by omega) (by omega) (by rw [hbyte]; omega)
            (by rw [hbyte]; omega) (fun i hi => rowByte_const M hconst (hch (l1.trans l) hc) hcl2 hi)
          refine ⟨H', e, ?_⟩
          rw [show (q : Int) + (2 * r + 1) - (2 * r + 1) = q by ring] at A'
          exact A'.congrS fun k _ => by ring)
      obtain ⟨o3, e3, D3⟩ := processRowMean_const P (h := h) (x0 := x0) (y := j) (l2.trans (l1.trans l))
        (fun c => meanByte (((q - alpha : Nat) : Int) * img.value c 0 0) H0.len) (fun c H hc i hi => by
          have A := A2 c H hc
          unfold MeanHist.getMean
          rw [A.sums, idx_map_range _ (by omega), ok_bind, A.len]
          rfl) D rfl hx0 (by omega) hj2
      refine ⟨(o3, h2), ?_, l2.trans (l1.trans l), A2, D3.congr fun x' y' _ _ => ?_⟩
      · unfold rowMean
        rw [e1, ok_bind, e2, ok_bind, e3, ok_bind]
      · by_cases hx : x0 ≤ x' ∧ x' < x0 + (2 * h + 1)
        · by_cases hy : y' = j
          · rw [if_pos ⟨hy, hx⟩, if_pos ⟨by omega, hx⟩]
          · rw [if_neg fun h => hy h.1]
            by_cases hy2 : y' < j
            · rw [if_pos ⟨hy2, hx⟩, if_pos ⟨by omega, hx⟩]
            · rw [if_neg fun h => hy2 h.1, if_neg (by omega)]
        · rw [if_neg fun h => hx h.2, if_neg fun h => hx h.2, if_neg fun h => hx h.2])
  refine ⟨s1.1, ?_, D1.congr fun x' y' _ hy => ?_⟩
  · unfold processColsMean
    rw [hnew, ok_bind]
    dsimp only
    rw [e0, ok_bind, e1, ok_bind]
  · by_cases hx : x0 ≤ x' ∧ x' < x0 + (2 * h + 1)
    · rw [if_pos ⟨hy, hx⟩, if_pos hx]
    · rw [if_neg fun h => hx h.2, if_neg hx]
end
end Imgproc

import Verif.Proofs.MedianScan
/-! The state of one median histogram, and what the updates and scans do to it. -/
namespace Imgproc
open Finset (Ico sum_Ico_succ_top)

/-- histogram state: counts `C`, running sums `S` and pivots `piv` per column -/
structure MHolds (H : MedianHist) (r h : Nat) (C : Nat → Nat → Int) (S : Nat → Int) (piv : Nat → Nat) : Prop where
  data : Holds H.data r h C
  sums : H.sums = (List.range (2 * h + 1)).map S
  pivots : H.pivots = (List.range (2 * h + 1)).map fun k => UInt8.ofNat (piv k)
  lt : ∀ k, piv k < 256

/-- Update every entry of a vector in index order, each from its own initial value. -/
theorem forRange_update' {S} (n : Nat) (g : Nat → S) (step : Nat → List S → Res (List S)) (u : Nat → S)
    (hs : ∀ j T, j < n → T j = g j → step j ((List.range n).map T) =
      .ok ((List.range n).map fun k => if k = j then u j else T k)) :
    forRange 0 n ((List.range n).map g) step = .ok ((List.range n).map u) := by
  obtain ⟨s, e, h⟩ := forRange_rule (a := 0) (b := n) (s := (List.range n).map g) (f := step)
    (fun j s => s = (List.range n).map (fun k => if k < j then u k else g k)) (Nat.zero_le _)
    (by simp)
    (by
      rintro j s _ hj rfl
      refine ⟨_, hs j _ hj (by simp), ?_⟩
      apply List.map_congr_left
      intro k _
      by_cases h1 : k = j
      · subst h1; simp
      · simp only [if_neg h1]
        have : (k < j + 1) ↔ k < j := by omega
        simp only [this])
  rw [e, h]
  congr 1
  apply List.map_congr_left
  intro k hk
  rw [if_pos (List.mem_range.1 hk)]

/-- the loops of src/filter/median.rs:198-209 -/
theorem sums_loop (P : Profile) {pIn : List (List UInt8)} {ch h sz : Nat} {g : Nat → Nat} (hg : RowVals pIn ch (2 * h + sz) g)
    {S : Nat → Int} {piv : Nat → Nat} (hp : ∀ k, piv k < 256) {M : Int} (hS : ∀ k, k ≤ 2 * h → |S k| ≤ M) (hM : M + sz + 2 < 2147483648) (add : Bool) :
    (forRange 0 (2 * h + 1) ((List.range (2 * h + 1)).map S) fun n sums =>
        forRange n (n + sz) sums fun i sums => do
          let v ← rowVal pIn i ch
          let p ← idx ((List.range (2 * h + 1)).map fun k => UInt8.ofNat (piv k)) n
          if v < p.toNat then
            let s ← idx sums n
            let s' ← i32Add P s (sign add)
            setIdx sums n s'
          else .ok sums) =
      .ok ((List.range (2 * h + 1)).map fun k => S k + sign add * rowBelow g sz k (piv k)) := by
  refine forRange_update' (2 * h + 1) S _ (fun k => S k + sign add * rowBelow g sz k (piv k)) ?_
  intro n T hn hT
  obtain ⟨s, e, hs⟩ := forRange_rule (a := n) (b := n + sz) (s := (List.range (2 * h + 1)).map T)
    (f := fun i sums => do
          let v ← rowVal pIn i ch
          let p ← idx ((List.range (2 * h + 1)).map fun k => UInt8.ofNat (piv k)) n
          if v < p.toNat then
            let s ← idx sums n
            let s' ← i32Add P s (sign add)
            setIdx sums n s'
          else .ok sums)
    (fun m s => s = (List.range (2 * h + 1)).map fun k => if k = n then S n + sign add * ∑ i ∈ Ico n m, ind (g i < piv n) else T k)
    (by omega)
    (by
      apply List.map_congr_left
      intro k _
      split
      · subst k; simp [hT]
      · rfl)
    (by
      rintro m s hm1 hm2 rfl
      have g1 := hg m (by omega)
      refine ⟨_, ?_, rfl⟩
      rw [g1.1, ok_bind, idx_map_range _ hn, ok_bind, UInt8.toNat_ofNat', Nat.mod_eq_of_lt (hp n)]
      by_cases hlt : g m < piv n
      · have hb : |∑ i ∈ Ico n m, ind (g i < piv n)| ≤ sz := by
          refine (abs_sum_Ico_le (fun i => ?_) _ _).trans (by omega)
          have := ind_bounds (g i < piv n); rw [abs_le]; omega
        rw [← abs_sign_mul add] at hb
        have h1 := hS n (by omega)
        have h2 : |S n + sign add * ∑ i ∈ Ico n m, ind (g i < piv n) + sign add| ≤ M + sz + 1 := by
          refine (abs_add_le _ _).trans ?_
          rw [abs_sign]
          have := abs_add_le (S n) (sign add * ∑ i ∈ Ico n m, ind (g i < piv n))
          omega
        rw [abs_le] at h2
        rw [if_pos hlt, idx_map_range _ hn, ok_bind, if_pos rfl, i32Add_ok (by omega) (by omega), ok_bind,
          setIdx_ok (by simpa using hn), set_map_range]
        congr 1
        apply List.map_congr_left
        intro k _
        by_cases hk : k = n
        · subst hk
          rw [if_pos rfl, if_pos rfl, sum_Ico_succ_top hm1]
          unfold ind
          rw [if_pos hlt]; ring
        · rw [if_neg hk, if_neg hk, if_neg hk]
      · rw [if_neg hlt]
        congr 1
        apply List.map_congr_left
        intro k _
        by_cases hk : k = n
        · subst hk
          rw [if_pos rfl, if_pos rfl, sum_Ico_succ_top hm1]
          have : ind (g m < piv k) = 0 := by unfold ind; rw [if_neg hlt]
          rw [this, add_zero]
        · rw [if_neg hk, if_neg hk])
  rw [e, hs]
  congr 1

theorem MHolds.update (P : Profile) {H : MedianHist} {r h : Nat} {C : Nat → Nat → Int} {S : Nat → Int} {piv : Nat → Nat}
    (A : MHolds H r h C S piv) {M : Int} (hC : ∀ a b, a ≤ 2 * h → b < 256 → |C a b| ≤ M) (hS : ∀ k, k ≤ 2 * h → |S k| ≤ M)
    (hM : 2 * M + h + (2 * r + 1) + 4 < 2147483648)
    {pIn : List (List UInt8)} {ch : Nat} {g : Nat → Nat} (hg : RowVals pIn ch (2 * h + (2 * r + 1)) g) (add : Bool) :
    ∃ H', H.update P pIn ch add = .ok H' ∧
      MHolds H' r h (fun a b => C a b + sign add * rowCount g (2 * r + 1) a b)
        (fun k => S k + sign add * rowBelow g (2 * r + 1) k (piv k)) piv := by
  have hM0 : 0 ≤ M := (abs_nonneg _).trans (hS 0 (by omega))
  obtain ⟨d, e, hd⟩ := A.data.update' P hC hM hg add
  have hne : H.pivots ≠ [] := by
    rw [A.pivots]
    intro h0
    have := congrArg List.length h0
    simp at this
  have L := sums_loop P hg A.lt hS (by push_cast; omega) add
  refine ⟨{ H with data := d, sums := (List.range (2 * h + 1)).map fun k => S k + sign add * rowBelow g (2 * r + 1) k (piv k) }, ?_,
    ⟨hd, rfl, A.pivots, A.lt⟩⟩
  unfold MedianHist.update
  rw [e, ok_bind]
  dsimp only
  rw [if_pos hne, hd.nCols, hd.size, A.sums, A.pivots]
  have L' := L
  unfold sign at L'
  rw [L', ok_bind]
  rfl

/-- before the pivots exist only the counts change -/
theorem MedianHist.update_init (P : Profile) {H : MedianHist} {r h : Nat} {C : Nat → Nat → Int} (hd : Holds H.data r h C) (hp : H.pivots = [])
    {M : Int} (hC : ∀ a b, a ≤ 2 * h → b < 256 → |C a b| ≤ M) (hM : 2 * M + h + (2 * r + 1) + 4 < 2147483648)
    {pIn : List (List UInt8)} {ch : Nat} {g : Nat → Nat} (hg : RowVals pIn ch (2 * h + (2 * r + 1)) g) (add : Bool) :
    ∃ H', H.update P pIn ch add = .ok H' ∧ H'.sums = H.sums ∧ H'.pivots = [] ∧
      Holds H'.data r h (fun a b => C a b + sign add * rowCount g (2 * r + 1) a b) := by
  obtain ⟨d, e, hd⟩ := hd.update' P hC hM hg add
  refine ⟨{ H with data := d }, ?_, rfl, hp, hd⟩
  unfold MedianHist.update
  rw [e, ok_bind]
  dsimp only
  rw [if_neg (by simpa using hp), ok_bind]

/-- storing a new sum and pivot for column `i` -/
theorem MHolds.setSum {H : MedianHist} {r h : Nat} {C : Nat → Nat → Int} {S : Nat → Int} {piv : Nat → Nat}
    (A : MHolds H r h C S piv) {i : Nat} (hi : i ≤ 2 * h) (s : Int) :
    ∃ H', H.setSum s i = .ok H' ∧ MHolds H' r h C (fun k => if k = i then s else S k) piv := by
  refine ⟨{ H with sums := (List.range (2 * h + 1)).map fun k => if k = i then s else S k }, ?_, ⟨A.data, rfl, A.pivots, A.lt⟩⟩
  unfold MedianHist.setSum
  rw [A.sums, setIdx_ok (by simp; omega), ok_bind, set_map_range]

theorem MHolds.setPivot {H : MedianHist} {r h : Nat} {C : Nat → Nat → Int} {S : Nat → Int} {piv : Nat → Nat}
    (A : MHolds H r h C S piv) {i : Nat} (hi : i ≤ 2 * h) {q : Nat} (hq : q < 256) :
    ∃ H', H.setPivot (UInt8.ofNat q) i = .ok H' ∧ MHolds H' r h C S (fun k => if k = i then q else piv k) := by
  refine ⟨{ H with pivots := (List.range (2 * h + 1)).map fun k => UInt8.ofNat (if k = i then q else piv k) }, ?_,
    ⟨A.data, A.sums, rfl, fun k => by split; exacts [hq, A.lt k]⟩⟩
  unfold MedianHist.setPivot
  rw [A.pivots, setIdx_ok (by simp; omega), ok_bind, set_map_range]
  congr 2
  apply List.map_congr_left
  intro k _
  split <;> rfl

/-- new pivot of a column: the old one if exactly `center` values are below it, else the value `μ` -/
def nextPivot (f : Nat → Int) (center : Int) (p μ : Nat) : Nat := if below f p = center then p else μ

/-- the scan of one column in `process_row_med` -/
theorem rowScan (P : Profile) {H : MedianHist} {r h : Nat} {C : Nat → Nat → Int} {S : Nat → Int} {piv : Nat → Nat}
    (A : MHolds H r h C S piv) {i : Nat} (hi : i ≤ 2 * h) (hC : ∀ v, 0 ≤ C i v) {center : Int} (hcen : 0 < center)
    (htot : center ≤ below (C i) 256) (hM : below (C i) 256 < 2147483648) (hS : S i = below (C i) (piv i)) {μ : Nat}
    (hμ1 : below (C i) μ < center) (hμ2 : center ≤ below (C i) (μ + 1)) (pOut : List UInt8) :
    ∃ H', (do
      let pivot ← idx H.pivots i
      let sum ← idx H.sums i
      if sum = center then .ok (H, pOut ++ [pivot])
      else
        let r ← if sum < center then scanUp P H.data center i (keysFrom pivot.toNat) sum
          else scanDown P H.data center i (List.range pivot.toNat).reverse sum
        match r with
        | none => .ok (H, pOut)
        | some (key, sum) => do
          let h' ← H.setSum sum i
          .ok (h', pOut ++ [UInt8.ofNat key])) = (.ok (H', pOut ++ [UInt8.ofNat (nextPivot (C i) center (piv i) μ)]) : Res (MedianHist × List UInt8)) ∧
      MHolds H' r h C (fun k => if k = i then below (C i) (nextPivot (C i) center (piv i) μ) else S k) piv := by
  have hpi := A.lt i
  have hget : ∀ v, v < 256 → H.data.getCount P v i = .ok (C i v) := by
    intro v hv
    refine A.data.getCount P hi hv ?_
    have h1 := below_mono hC (show v + 1 ≤ 256 by omega)
    rw [below_succ] at h1
    have := below_nonneg hC v
    rw [abs_of_nonneg (hC v)]; omega
  rw [A.pivots, idx_map_range _ (by omega), ok_bind, A.sums, idx_map_range _ (by omega), ok_bind, hS, UInt8.toNat_ofNat',
    Nat.mod_eq_of_lt hpi]
  unfold nextPivot
  by_cases h1 : below (C i) (piv i) = center
  · rw [if_pos h1, if_pos h1]
    refine ⟨H, rfl, ⟨A.data, ?_, A.pivots, A.lt⟩⟩
    rw [A.sums]
    apply List.map_congr_left
    intro k _
    split
    · subst k; exact hS
    · rfl
  · rw [if_neg h1, if_neg h1]
    by_cases h2 : below (C i) (piv i) < center
    · obtain ⟨m, _, a2, a3, a4, a5⟩ := scanUp_spec P hC hget hM htot hpi.le h2
      obtain ⟨H', e, hH'⟩ := A.setSum hi (below (C i) m)
      have : m = μ := middle_unique hC a4 a5 hμ1 hμ2
      subst this
      refine ⟨H', ?_, hH'⟩
      rw [if_pos h2, a3, ok_bind]
      dsimp only
      rw [e, ok_bind]
    · obtain ⟨m, _, a3, a4, a5⟩ := scanDown_spec P hC hget hM hcen hpi.le (by omega)
      obtain ⟨H', e, hH'⟩ := A.setSum hi (below (C i) m)
      have : m = μ := middle_unique hC a4 a5 hμ1 hμ2
      subst this
      refine ⟨H', ?_, hH'⟩
      rw [if_neg h2, a3, ok_bind]
      dsimp only
      rw [e, ok_bind]

/-- the scan of one column in `init_cols_med` -/
theorem initScan (P : Profile) {H : MedianHist} {r h : Nat} {C : Nat → Nat → Int} {S : Nat → Int} {piv : Nat → Nat}
    (A : MHolds H r h C S piv) {i : Nat} (hi : i ≤ 2 * h) (hC : ∀ v, 0 ≤ C i v) {center : Int} (hcen : 0 < center)
    (htot : center ≤ below (C i) 256) (hM : below (C i) 256 < 2147483648) {μ : Nat}
    (hμ1 : below (C i) μ < center) (hμ2 : center ≤ below (C i) (μ + 1)) (pOut : List UInt8) :
    ∃ H', (do
      let r ← scanUp P H.data center i (keysFrom 0) 0
      match r with
      | none => .ok (H, pOut)
      | some (key, sum) => do
        let h' ← H.setSum sum i
        .ok (h', pOut ++ [UInt8.ofNat key])) = (.ok (H', pOut ++ [UInt8.ofNat μ]) : Res (MedianHist × List UInt8)) ∧
      MHolds H' r h C (fun k => if k = i then below (C i) μ else S k) piv := by
  have hget : ∀ v, v < 256 → H.data.getCount P v i = .ok (C i v) := by
    intro v hv
    refine A.data.getCount P hi hv ?_
    have h1 := below_mono hC (show v + 1 ≤ 256 by omega)
    rw [below_succ] at h1
    have := below_nonneg hC v
    rw [abs_of_nonneg (hC v)]; omega
  obtain ⟨m, _, a2, a3, a4, a5⟩ := scanUp_spec P hC hget hM htot (lo := 0) (by omega) (by simpa using hcen)
  obtain ⟨H', e, hH'⟩ := A.setSum hi (below (C i) m)
  have : m = μ := middle_unique hC a4 a5 hμ1 hμ2
  subst this
  refine ⟨H', ?_, hH'⟩
  rw [below_zero] at a3
  rw [a3, ok_bind]
  dsimp only
  rw [e, ok_bind]
end Imgproc

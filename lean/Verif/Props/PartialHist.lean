import Verif.Proofs.PartialHist
import Mathlib.Algebra.BigOperators.Group.List.Basic
/-! C57: the partial histograms always sum to the true window histograms. -/
namespace Imgproc
open Finset (Ico sum_Ico_succ_top)

/-- a row of pixels put into (`add`) or taken out of the histograms -/
structure RowOp where
  row : List (List UInt8)
  add : Bool

/-- **Specification**: how often value `v` occurs in channel `ch` of the `2 r + 1` pixels of the row that start at
position `k`, i.e. in the part of the row covered by the window of the block's column `k` -/
def RowOp.occurs (o : RowOp) (ch r k v : Nat) : Nat :=
  ((o.row.drop k).take (2 * r + 1)).countP fun p => (p[ch]?.map UInt8.toNat) = some v

/-- **Specification**: rows added minus rows removed -/
def netCount (ops : List RowOp) (ch r k v : Nat) : Int :=
  (ops.map fun o => (if o.add then (o.occurs ch r k v : Int) else -(o.occurs ch r k v : Int))).sum

/-- the histogram of one channel after a sequence of row updates -/
def runOps (P : Profile) (ch : Nat) (h : PartialHistograms) : List RowOp → Res PartialHistograms
  | [] => .ok h
  | o :: ops => do
    let h' ← h.update P o.row ch o.add
    runOps P ch h' ops

theorem runOps_snoc (P : Profile) (ch : Nat) (ops : List RowOp) (o : RowOp) : ∀ h : PartialHistograms,
    runOps P ch h (ops ++ [o]) = (do let h' ← runOps P ch h ops; h'.update P o.row ch o.add) := by
  induction ops with
  | nil =>
    intro h
    show (do let h' ← h.update P o.row ch o.add; .ok h') = _
    rw [runOps, ok_bind]
    cases h.update P o.row ch o.add <;> rfl
  | cons a ops ih =>
    intro h
    show (do let h' ← h.update P a.row ch a.add; runOps P ch h' (ops ++ [o])) = _
    rw [runOps]
    cases h.update P a.row ch a.add with
    | error e => rfl
    | ok h' => rw [ok_bind, ok_bind, ih]

theorem netCount_snoc (ops : List RowOp) (o : RowOp) (ch r k v : Nat) :
    netCount (ops ++ [o]) ch r k v = netCount ops ch r k v + sign o.add * o.occurs ch r k v := by
  unfold netCount sign
  rw [List.map_append, List.sum_append]
  by_cases h : o.add = true <;> simp [h]

/-- value of channel `ch` at position `i` -/
def chanAt (row : List (List UInt8)) (ch i : Nat) : Nat := (((row[i]?.getD [])[ch]?).getD 0).toNat

theorem rowVals_chanAt {row : List (List UInt8)} {ch len : Nat} (hl : len ≤ row.length) (hp : ∀ p ∈ row, ch < p.length) :
    RowVals row ch len (chanAt row ch) := by
  intro i hi
  have hi' : i < row.length := by omega
  have hc := hp _ (List.getElem_mem hi')
  constructor
  · unfold rowVal
    rw [idx_ok hi', ok_bind, idx_ok hc, ok_bind]
    unfold chanAt
    simp [hi', hc]
  · unfold chanAt; exact UInt8.toNat_lt _

/-- the count over a part of the row, as a sum over positions -/
theorem occurs_eq {o : RowOp} {ch r k v : Nat} (hl : k + (2 * r + 1) ≤ o.row.length) (hp : ∀ p ∈ o.row, ch < p.length) :
    (o.occurs ch r k v : Int) = rowCount (chanAt o.row ch) (2 * r + 1) k v := by
  have key : ∀ n, k + n ≤ o.row.length →
      ((((o.row.drop k).take n).countP fun p => (p[ch]?.map UInt8.toNat) = some v : Nat) : Int) =
        ∑ i ∈ Ico k (k + n), ind (chanAt o.row ch i = v) := by
    intro n
    induction n with
    | zero => intro _; simp
    | succ n ih =>
      intro hn
      have hd : n < (o.row.drop k).length := by rw [List.length_drop]; omega
      have hk : k + n < o.row.length := by omega
      have hc := hp _ (List.getElem_mem hk)
      rw [← List.take_concat_get' _ _ hd, List.countP_append, ← Nat.add_assoc, sum_Ico_succ_top (by omega), Nat.cast_add,
        ih (by omega)]
      congr 1
      rw [List.getElem_drop, List.countP_singleton]
      unfold ind chanAt
      simp [hk, hc]
  exact key _ hl

/-- **C57**: start a block of `2 h + 1` columns for radius `r`, then add and remove any rows, in any order, any number of
times (each row long enough for the block and its margins). If no net count along the way exceeds `M`, with `M` small
enough for 32-bit counters, no update fails, and afterwards the count read off for every column `k` and every value `v`
is exactly the number of occurrences of `v` in the added rows minus the removed rows, within the window of column `k`. -/
theorem c57_counts (P : Profile) (ch r h : Nat) (ops : List RowOp) (M : Nat)
    (hrows : ∀ o ∈ ops, 2 * h + 1 + 2 * r ≤ o.row.length ∧ ∀ p ∈ o.row, ch < p.length)
    (hbound : ∀ pre, pre <+: ops → ∀ k v, k ≤ 2 * h → v < 256 → |netCount pre ch r k v| ≤ M)
    (hM : 2 * M + h + 2 * r + 5 < 2147483648) :
    ∃ p, runOps P ch (PartialHistograms.new r (2 * h + 1)) ops = .ok p ∧
      ∀ k v, k ≤ 2 * h → v < 256 → p.getCount P v k = .ok (netCount ops ch r k v) := by
  suffices H : ∃ p, runOps P ch (PartialHistograms.new r (2 * h + 1)) ops = .ok p ∧ Holds p r h (netCount ops ch r) by
    obtain ⟨p, e, hp⟩ := H
    refine ⟨p, e, fun k v hk hv => hp.getCount P hk hv ?_⟩
    have := hbound ops (List.prefix_refl _) k v hk hv
    omega
  induction ops using List.reverseRecOn with
  | nil => exact ⟨_, rfl, Holds.new r h⟩
  | append_singleton ops o ih =>
    obtain ⟨p, e, hp⟩ := ih (fun o ho => hrows o (by simp [ho])) (fun pre hpre => hbound pre (hpre.trans (List.prefix_append _ _)))
    obtain ⟨hl, hc⟩ := hrows o (by simp)
    obtain ⟨p', e', hp'⟩ := hp.update' P (M := M) (fun a b ha hb => hbound ops (List.prefix_append _ _) a b ha hb) (by omega)
      (rowVals_chanAt (len := 2 * h + (2 * r + 1)) (by omega) hc) o.add
    refine ⟨p', by rw [runOps_snoc, e, ok_bind, e'], hp'.congr fun a b ha hb => ?_⟩
    rw [netCount_snoc, occurs_eq (by omega) hc]

/-- **C57**, the use made of it: rows only ever removed after they were added give non-negative counts, at most the
number of pixels of the window rows present -/
theorem c57_bound (ops : List RowOp) (ch r k v : Nat) : |netCount ops ch r k v| ≤ ops.length * (2 * r + 1) := by
  induction ops using List.reverseRecOn with
  | nil => simp [netCount]
  | append_singleton ops o ih =>
    rw [netCount_snoc]
    have h1 : o.occurs ch r k v ≤ 2 * r + 1 := by
      unfold RowOp.occurs
      exact List.countP_le_length.trans (List.length_take_le _ _)
    refine (abs_add_le _ _).trans ?_
    rw [abs_sign_mul, abs_of_nonneg (Int.natCast_nonneg (o.occurs ch r k v)), List.length_append, List.length_singleton]
    push_cast
    have : (o.occurs ch r k v : Int) ≤ 2 * r + 1 := by exact_mod_cast h1
    rw [add_mul, one_mul]
    omega

/-- the hypotheses are met: radius 1, three columns, two rows added and the first one removed again -/
def c57_ops : List RowOp :=
  [⟨[[1], [2], [2], [3], [9]], true⟩, ⟨[[2], [2], [7], [3], [3]], true⟩, ⟨[[1], [2], [2], [3], [9]], false⟩]

example : ∃ p, runOps Profile.debug 0 (PartialHistograms.new 1 3) c57_ops = .ok p ∧
    ∀ k v, k ≤ 2 → v < 256 → p.getCount Profile.debug v k = .ok (netCount c57_ops 0 1 k v) :=
  c57_counts Profile.debug 0 1 1 c57_ops 9 (by decide)
    (fun pre hpre k v _ _ => (c57_bound pre 0 1 k v).trans (by
      have := hpre.length_le
      have h3 : c57_ops.length = 3 := rfl
      push_cast
      rw [h3] at this
      omega)) (by omega)

example : netCount c57_ops 0 1 1 2 = 1 := by decide
end Imgproc

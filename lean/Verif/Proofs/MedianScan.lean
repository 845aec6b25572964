import Verif.Proofs.PartialHist
import Mathlib.Algebra.BigOperators.Ring.Finset
/-! The upward and downward scans of the median filter find the middle element of a histogram. -/
namespace Imgproc
open Finset (sum_range_succ)

/-- **Specification**: how many values are below `m`, given the histogram `f` -/
def below (f : Nat → Int) (m : Nat) : Int := ∑ v ∈ Finset.range m, f v

@[simp] theorem below_zero (f : Nat → Int) : below f 0 = 0 := rfl
theorem below_succ (f : Nat → Int) (m : Nat) : below f (m + 1) = below f m + f m := sum_range_succ _ _

theorem below_mono {f : Nat → Int} (hf : ∀ v, 0 ≤ f v) {a b : Nat} (h : a ≤ b) : below f a ≤ below f b := by
  obtain ⟨d, rfl⟩ := Nat.exists_eq_add_of_le h
  induction d with
  | zero => exact le_refl _
  | succ d ih => rw [← Nat.add_assoc, below_succ]; have := ih (by omega); have := hf (a + d); omega

theorem below_nonneg {f : Nat → Int} (hf : ∀ v, 0 ≤ f v) (a : Nat) : 0 ≤ below f a := by
  have := below_mono hf (Nat.zero_le a); simpa using this

/-- at most one value separates the first `c - 1` elements from the rest -/
theorem middle_unique {f : Nat → Int} (hf : ∀ v, 0 ≤ f v) {c : Int} {m n : Nat} (h1 : below f m < c) (h2 : c ≤ below f (m + 1))
    (h3 : below f n < c) (h4 : c ≤ below f (n + 1)) : m = n := by
  rcases Nat.lt_trichotomy m n with h | h | h
  · have := below_mono hf (show m + 1 ≤ n by omega); omega
  · exact h
  · have := below_mono hf (show n + 1 ≤ m by omega); omega

theorem keysFrom_cons {lo : Nat} (h : lo < 256) : keysFrom lo = lo :: keysFrom (lo + 1) := by
  unfold keysFrom
  rw [show 256 - lo = (256 - (lo + 1)) + 1 by omega, List.range_succ_eq_map, List.map_cons, List.map_map]
  congr 1
  apply List.map_congr_left
  intro a _
  show lo + (a + 1) = lo + 1 + a
  omega

theorem scanUp_spec (P : Profile) {h : PartialHistograms} {i : Nat} {f : Nat → Int} (hf : ∀ v, 0 ≤ f v)
    (hc : ∀ v, v < 256 → h.getCount P v i = .ok (f v)) (hM : below f 256 < 2147483648) {center : Int} (htot : center ≤ below f 256)
    {lo : Nat} (hlo : lo ≤ 256) (hs : below f lo < center) :
    ∃ m, lo ≤ m ∧ m < 256 ∧ scanUp P h center i (keysFrom lo) (below f lo) = .ok (some (m, below f m)) ∧
      below f m < center ∧ center ≤ below f (m + 1) := by
  obtain ⟨d, hd⟩ : ∃ d, d = 256 - lo := ⟨_, rfl⟩
  induction d generalizing lo with
  | zero =>
    exfalso
    have : lo = 256 := by omega
    subst this; omega
  | succ d ih =>
    have hl : lo < 256 := by omega
    have e := below_succ f lo
    have h0 := below_nonneg hf lo
    have h1 := below_mono hf (show lo + 1 ≤ 256 by omega)
    have h2 := hf lo
    have hadd : i32Add P (below f lo) (f lo) = .ok (below f (lo + 1)) := by
      rw [i32Add_ok (by omega) (by omega), ← e]
    rw [keysFrom_cons hl, scanUp, hc lo hl, ok_bind, hadd, ok_bind]
    by_cases hh : below f (lo + 1) ≥ center
    · rw [if_pos hh]
      exact ⟨lo, le_refl _, hl, rfl, hs, hh⟩
    · rw [if_neg hh, ok_bind]
      obtain ⟨m, a1, a2, a3, a4⟩ := ih (lo := lo + 1) (by omega) (by omega) (by omega)
      exact ⟨m, by omega, a2, a3, a4⟩

theorem scanDown_spec (P : Profile) {h : PartialHistograms} {i : Nat} {f : Nat → Int} (hf : ∀ v, 0 ≤ f v)
    (hc : ∀ v, v < 256 → h.getCount P v i = .ok (f v)) (hM : below f 256 < 2147483648) {center : Int} (hcen : 0 < center)
    {p : Nat} (hp : p ≤ 256) (hs : center ≤ below f p) :
    ∃ m, m < p ∧ scanDown P h center i (List.range p).reverse (below f p) = .ok (some (m, below f m)) ∧
      below f m < center ∧ center ≤ below f (m + 1) := by
  induction p with
  | zero => simp at hs; omega
  | succ p ih =>
    have e := below_succ f p
    have h0 := below_nonneg hf p
    have h1 := below_mono hf hp
    have h2 := hf p
    have hsub : i32Sub P (below f (p + 1)) (f p) = .ok (below f p) := by
      rw [i32Sub_ok (by omega) (by omega), e]; congr 1; omega
    rw [List.range_succ, List.reverse_append, List.reverse_singleton, List.singleton_append, scanDown, hc p (by omega), ok_bind, hsub, ok_bind]
    by_cases hh : below f p < center
    · rw [if_pos hh]
      exact ⟨p, by omega, rfl, hh, hs⟩
    · rw [if_neg hh]
      obtain ⟨m, a1, a2, a3⟩ := ih (by omega) (by omega)
      exact ⟨m, by omega, a2, a3⟩

/-- values of a row below `p` -/
def rowBelow (g : Nat → Nat) (size k p : Nat) : Int := ∑ i ∈ Finset.Ico k (k + size), ind (g i < p)

theorem rowBelow_eq (g : Nat → Nat) (size k p : Nat) : below (rowCount g size k) p = rowBelow g size k p := by
  unfold below rowCount rowBelow
  rw [Finset.sum_comm]
  apply Finset.sum_congr rfl
  intro i _
  unfold ind
  rw [Finset.sum_ite_eq]
  simp [Finset.mem_range]

theorem below_add (f f' : Nat → Int) (s : Int) (m : Nat) : below (fun v => f v + s * f' v) m = below f m + s * below f' m := by
  unfold below
  rw [Finset.sum_add_distrib, Finset.mul_sum]
end Imgproc

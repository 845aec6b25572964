import Verif.Model.Median
import Verif.Proofs.Loops
import Mathlib.Algebra.BigOperators.Intervals
import Mathlib.Algebra.Order.BigOperators.Group.Finset
import Mathlib.Tactic.Ring
import Mathlib.Tactic.Linarith
/-! Partial histograms: what `update` adds to every complete histogram. -/
namespace Imgproc
open Finset (Ico sum_Ico_succ_top sum_le_sum)

/-- indicator -/
def ind (p : Prop) [Decidable p] : Int := if p then 1 else 0

/-- **Specification**: number of the positions `k, .., k + size - 1` of a row with value `b` -/
def rowCount (g : Nat → Nat) (size k b : Nat) : Int := ∑ i ∈ Ico k (k + size), ind (g i = b)

/-- a table of histograms -/
def grid (n : Nat) (D : Nat → Nat → Int) : List (List Int) :=
  (List.range n).map fun a => (List.range 256).map fun b => D a b

def upd (D : Nat → Nat → Int) (a v : Nat) (d : Int) : Nat → Nat → Int :=
  fun x y => if x = a ∧ y = v then D x y + d else D x y

theorem idx_map_range {S} (g : Nat → S) {n k : Nat} (hk : k < n) : idx ((List.range n).map g) k = .ok (g k) := by
  rw [idx_ok (by simpa using hk)]; simp

theorem histAdd_grid (P : Profile) {n : Nat} {D : Nat → Nat → Int} {a v : Nat} {d : Int} (ha : a < n) (hv : v < 256)
    (h : |D a v + d| < 2147483648) : histAdd P (grid n D) a v d = .ok (grid n (upd D a v d)) := by
  rw [abs_lt] at h
  unfold histAdd grid
  rw [idx_map_range _ ha, ok_bind, idx_map_range _ hv, ok_bind, i32Add_ok (by omega) (by omega), ok_bind,
    setIdx_ok (by simpa using hv), ok_bind, setIdx_ok (by simpa using ha), set_map_range, set_map_range]
  congr 1
  apply List.map_congr_left
  intro x _
  unfold upd
  by_cases hx : x = a
  · subst hx
    rw [if_pos rfl]
    apply List.map_congr_left
    intro y _
    by_cases hy : y = v
    · subst hy; simp
    · simp [hy]
  · simp [hx]

/-- all entries bounded -/
def Bd (D : Nat → Nat → Int) (M : Int) : Prop := ∀ a b, |D a b| ≤ M

theorem Bd.upd {D : Nat → Nat → Int} {M : Int} (h : Bd D M) (a v : Nat) {d : Int} (hd : |d| ≤ 1) : Bd (Imgproc.upd D a v d) (M + 1) := by
  intro x y
  unfold Imgproc.upd
  have := h x y
  split
  · rw [abs_le] at *; omega
  · omega

theorem Bd.lt {D : Nat → Nat → Int} {M : Int} (h : Bd D M) (a v : Nat) {d : Int} (hd : |d| ≤ 1) (hM : M + 1 < 2147483648) :
    |D a v + d| < 2147483648 := by
  have := h a v
  rw [abs_le] at *
  rw [abs_lt]; omega

theorem histAdd_bd (P : Profile) {n : Nat} {D : Nat → Nat → Int} {M : Int} (h : Bd D M) {a v : Nat} {d : Int} (ha : a < n) (hv : v < 256)
    (hd : |d| ≤ 1) (hM : M + 1 < 2147483648) : histAdd P (grid n D) a v d = .ok (grid n (upd D a v d)) :=
  histAdd_grid P (D := D) (a := a) (v := v) (d := d) ha hv (h.lt a v hd hM)

/-- accumulated change of a left column `a` and a right column -/
def dLo (g : Nat → Nat) (size a b lim : Nat) : Int := ∑ i ∈ Ico a lim, (ind (g i = b) - ind (g (i + size) = b))
def dHi (g : Nat → Nat) (nCols size a b lim : Nat) : Int :=
  ∑ i ∈ Ico a lim, (ind (g (nCols - 2 - i + size) = b) - ind (g (nCols - 2 - i) = b))

theorem ind_bounds (p : Prop) [Decidable p] : 0 ≤ ind p ∧ ind p ≤ 1 := by unfold ind; split <;> simp

theorem abs_sum_Ico_le {f : Nat → Int} (hf : ∀ i, |f i| ≤ 1) (a lim : Nat) : |∑ i ∈ Ico a lim, f i| ≤ (lim - a : Nat) := by
  refine (Finset.abs_sum_le_sum_abs _ _).trans ?_
  refine (sum_le_sum fun i _ => hf i).trans ?_
  simp

/-- the change made so far, when column pair `a` has been processed up to `lim a` -/
def delta (g : Nat → Nat) (h size : Nat) (lim : Nat → Nat) (a b : Nat) : Int :=
  if a < h then dLo g size a b (lim a)
  else if h < a then dHi g (2 * h + 1) size (2 * h - a) b (lim (2 * h - a))
  else 0

def limAt (h n i a : Nat) : Nat := if a < n then h else if a = n then i else a

theorem abs_delta_le (g : Nat → Nat) {h size n i : Nat} (hi : i ≤ h) (a b : Nat) : |delta g h size (limAt h n i) a b| ≤ h := by
  have t1 : ∀ p q : Prop, ∀ [Decidable p] [Decidable q], |ind p - ind q| ≤ 1 := by
    intro p q _ _
    have := ind_bounds p
    have := ind_bounds q
    rw [abs_le]; omega
  have l : ∀ a, limAt h n i a - a ≤ h := by intro a; unfold limAt; split_ifs <;> omega
  unfold delta dLo dHi
  split_ifs
  · exact (abs_sum_Ico_le (fun i => t1 _ _) _ _).trans (by have := l a; omega)
  · exact (abs_sum_Ico_le (fun i => t1 _ _) _ _).trans (by have := l (2 * h - a); omega)
  · simp

theorem delta_step (g : Nat → Nat) {h size n i : Nat} (hn : n < h) (hi : n ≤ i) (hih : i < h) {a : Nat} (ha : a ≤ 2 * h) (b : Nat) :
    delta g h size (limAt h n (i + 1)) a b = delta g h size (limAt h n i) a b
      + (if a = n then ind (g i = b) - ind (g (i + size) = b) else 0)
      + (if a = 2 * h - n then ind (g (2 * h + 1 - 2 - i + size) = b) - ind (g (2 * h + 1 - 2 - i) = b) else 0) := by
  unfold delta
  by_cases h1 : a < h
  · rw [if_pos h1, if_pos h1, if_neg (by omega : ¬ a = 2 * h - n)]
    by_cases h2 : a = n
    · subst h2
      rw [if_pos rfl]
      unfold dLo limAt
      simp only [lt_irrefl, if_false, if_true]
      rw [sum_Ico_succ_top hi]; ring
    · rw [if_neg h2]
      unfold limAt
      simp [h2]
  · rw [if_neg h1, if_neg h1, if_neg (by omega : ¬ a = n)]
    by_cases h3 : h < a
    · rw [if_pos h3, if_pos h3]
      by_cases h2 : a = 2 * h - n
      · subst h2
        rw [if_pos rfl, show 2 * h - (2 * h - n) = n by omega]
        unfold dHi limAt
        simp only [lt_irrefl, if_false, if_true]
        rw [sum_Ico_succ_top hi]; ring
      · rw [if_neg h2]
        have : ¬ 2 * h - a = n := by omega
        unfold limAt
        simp [this]
    · rw [if_neg h3, if_neg h3, if_neg (by omega)]; simp

theorem grid_congr {n : Nat} {D D' : Nat → Nat → Int} (h : ∀ a b, a < n → D a b = D' a b) : grid n D = grid n D' := by
  unfold grid
  apply List.map_congr_left
  intro a ha
  apply List.map_congr_left
  intro b _
  exact h a b (List.mem_range.1 ha)

/-- the left columns and the right columns together: complete change after the first loop -/
theorem delta_end (g : Nat → Nat) {h size : Nat} {a : Nat} (ha : a ≤ 2 * h) (b : Nat) :
    delta g h size (limAt h h h) a b = if a = h then 0 else rowCount g size a b - rowCount g size h b := by
  have lo : ∀ m, m ≤ h → dLo g size (h - m) b h = rowCount g size (h - m) b - rowCount g size h b := by
    intro m
    induction m with
    | zero => intro _; simp [dLo]
    | succ m ih =>
      intro hm
      have e1 : dLo g size (h - (m + 1)) b h = (ind (g (h - (m + 1)) = b) - ind (g (h - (m + 1) + size) = b)) + dLo g size (h - m) b h := by
        unfold dLo
        rw [Finset.sum_eq_sum_Ico_succ_bot (by omega), show h - (m + 1) + 1 = h - m by omega]
      have e2 : rowCount g size (h - (m + 1)) b = ind (g (h - (m + 1)) = b) - ind (g (h - (m + 1) + size) = b) + rowCount g size (h - m) b := by
        unfold rowCount
        rcases Nat.eq_zero_or_pos size with rfl | hs
        · simp
        · rw [Finset.sum_eq_sum_Ico_succ_bot (by omega), show h - m = h - (m + 1) + 1 by omega,
            show h - (m + 1) + 1 + size = (h - (m + 1) + size) + 1 by omega, sum_Ico_succ_top (by omega)]
          ring
      rw [e1, ih (by omega), e2]; ring
  have hi : ∀ m, m ≤ h → dHi g (2 * h + 1) size (h - m) b h = rowCount g size (h + m) b - rowCount g size h b := by
    intro m
    induction m with
    | zero => intro _; simp [dHi]
    | succ m ih =>
      intro hm
      have e1 : dHi g (2 * h + 1) size (h - (m + 1)) b h =
          (ind (g (h + m + size) = b) - ind (g (h + m) = b)) + dHi g (2 * h + 1) size (h - m) b h := by
        unfold dHi
        rw [Finset.sum_eq_sum_Ico_succ_bot (by omega), show h - (m + 1) + 1 = h - m by omega,
          show 2 * h + 1 - 2 - (h - (m + 1)) = h + m by omega]
      have e2 : rowCount g size (h + (m + 1)) b = ind (g (h + m + size) = b) - ind (g (h + m) = b) + rowCount g size (h + m) b := by
        unfold rowCount
        rcases Nat.eq_zero_or_pos size with rfl | hs
        · simp
        · rw [show h + (m + 1) + size = (h + m + size) + 1 by omega, sum_Ico_succ_top (by omega),
            Finset.sum_eq_sum_Ico_succ_bot (by omega : h + m < h + m + size)]
          rw [show h + (m + 1) = h + m + 1 by omega]
          ring
      rw [e1, ih (by omega), e2]; ring
  unfold delta
  by_cases h1 : a < h
  · rw [if_pos h1, if_neg (by omega)]
    have := lo (h - a) (by omega)
    rw [show h - (h - a) = a by omega] at this
    unfold limAt
    rw [if_pos h1, this]
  · rw [if_neg h1]
    by_cases h2 : h < a
    · rw [if_pos h2, if_neg (by omega)]
      have := hi (a - h) (by omega)
      rw [show h - (a - h) = 2 * h - a by omega, show h + (a - h) = a by omega] at this
      unfold limAt
      rw [if_pos (by omega), this]
    · rw [if_neg h2, if_pos (by omega)]

/-- `h` holds, for an odd number `2 h + 1` of columns, the complete histograms `C` (centre) and their differences to the
central one -/
structure Holds (p : PartialHistograms) (r h : Nat) (C : Nat → Nat → Int) : Prop where
  nCols : p.nCols = 2 * h + 1
  nHalf : p.nHalf = h
  radius : p.radius = r
  size : p.size = 2 * r + 1
  data : p.data = grid (2 * h + 1) fun a b => if a = h then C h b else C a b - C h b

/-- the row values read by the histogram of channel `ch` -/
def RowVals (pIn : List (List UInt8)) (ch len : Nat) (g : Nat → Nat) : Prop :=
  ∀ i, i < len → rowVal pIn i ch = .ok (g i) ∧ g i < 256

def sign (add : Bool) : Int := if add then 1 else -1

theorem abs_sign (add : Bool) : |sign add| = 1 := by cases add <;> rfl

theorem rowCount_bounds (g : Nat → Nat) (size k b : Nat) : 0 ≤ rowCount g size k b ∧ rowCount g size k b ≤ size := by
  unfold rowCount
  constructor
  · exact Finset.sum_nonneg fun i _ => (ind_bounds _).1
  · refine (sum_le_sum fun i _ => (ind_bounds (g i = b)).2).trans ?_
    simp

theorem abs_sign_mul (add : Bool) (x : Int) : |sign add * x| = |x| := by
  cases add <;> simp [sign]

/-- body of the inner loop of src/filter/median.rs:105-120, with its parameters named -/
def innerBody (P : Profile) (pIn : List (List UInt8)) (ch w sz n nUpper : Nat) (inc : Int) (i : Nat)
    (data : List (List Int)) : Res (List (List Int)) := do
  let v ← rowVal pIn i ch
  let data ← histAdd P data n v inc
  let v ← rowVal pIn (i + sz) ch
  let data ← histAdd P data n v (-inc)
  let t ← usizeSub P w i
  let iUpper ← usizeSub P t 1
  let iLower ← usizeSub P iUpper sz
  let v ← rowVal pIn iLower ch
  let data ← histAdd P data nUpper v (-inc)
  let v ← rowVal pIn iUpper ch
  histAdd P data nUpper v inc

theorem update_eq (P : Profile) (h : PartialHistograms) (pIn : List (List UInt8)) (ch : Nat) (add : Bool) :
    h.update P pIn ch add = (do
      let data ← forRange 0 h.nHalf h.data fun n data => do
        let t ← usizeSub P h.nCols n
        let nUpper ← usizeSub P t 1
        forRange n h.nHalf data (innerBody P pIn ch (h.nCols + 2 * h.radius) h.size n nUpper (sign add))
      let data ← forRange h.nHalf (h.nHalf + h.size) data fun i data => do
        let v ← rowVal pIn i ch
        histAdd P data h.nHalf v (sign add)
      .ok { h with data := data }) := rfl

section loops
variable (P : Profile) {h sz : Nat} {D0 : Nat → Nat → Int} {B : Int} {pIn : List (List UInt8)} {ch : Nat} {g : Nat → Nat}

theorem bd_delta (bD0 : Bd D0 B) (g : Nat → Nat) (add : Bool) {n i : Nat} (hi : i ≤ h) :
    Bd (fun a b => D0 a b + sign add * delta g h sz (limAt h n i) a b) (B + h) := by
  intro a b
  have h1 := bD0 a b
  have h2 := abs_delta_le g (size := sz) (n := n) hi a b
  rw [← abs_sign_mul add] at h2
  exact (abs_add_le _ _).trans (by omega)

theorem inner_step (bD0 : Bd D0 B) (hB : B + h + 4 < 2147483648) (hg : RowVals pIn ch (2 * h + sz) g) (hs : 0 < sz) (add : Bool)
    {n i : Nat} (hn : n < h) (hi1 : n ≤ i) (hi2 : i < h) :
    innerBody P pIn ch (2 * h + sz) sz n (2 * h - n) (sign add) i
      (grid (2 * h + 1) fun a b => D0 a b + sign add * delta g h sz (limAt h n i) a b) =
    .ok (grid (2 * h + 1) fun a b => D0 a b + sign add * delta g h sz (limAt h n (i + 1)) a b) := by
  have s1 := abs_sign add
  have s2 : |-(sign add)| ≤ 1 := by rw [abs_neg, s1]
  have b0 := bd_delta (sz := sz) bD0 g add (n := n) (i := i) hi2.le
  have g1 := hg i (by omega)
  have g2 := hg (i + sz) (by omega)
  have g3 := hg (2 * h + 1 - 2 - i) (by omega)
  have g4 := hg (2 * h + 1 - 2 - i + sz) (by omega)
  have b1 := b0.upd n (g i) s1.le
  have b2 := b1.upd n (g (i + sz)) s2
  have b3 := b2.upd (2 * h - n) (g (2 * h + 1 - 2 - i)) s2
  unfold innerBody
  rw [g1.1, ok_bind, histAdd_bd P b0 (by omega) g1.2 s1.le (by omega), ok_bind, g2.1, ok_bind,
    histAdd_bd P b1 (by omega) g2.2 s2 (by omega), ok_bind, usizeSub_ok (by omega), ok_bind,
    usizeSub_ok (by omega), ok_bind, usizeSub_ok (by omega), ok_bind,
    show 2 * h + sz - i - 1 - sz = 2 * h + 1 - 2 - i by omega, g3.1, ok_bind,
    histAdd_bd P b2 (by omega) g3.2 s2 (by omega), ok_bind,
    show 2 * h + sz - i - 1 = 2 * h + 1 - 2 - i + sz by omega, g4.1, ok_bind,
    histAdd_bd P b3 (by omega) g4.2 s1.le (by omega)]
  congr 1
  apply grid_congr
  intro a b ha
  rw [delta_step g hn hi1 hi2 (by omega)]
  unfold upd ind
  by_cases e1 : a = n
  · subst e1
    have : ¬ a = 2 * h - a := by omega
    simp only [this, if_true, if_false, true_and, false_and, add_zero, eq_comm (a := b)]
    split_ifs <;> ring
  · by_cases e2 : a = 2 * h - n
    · simp only [e1, e2.symm, if_true, if_false, true_and, false_and, add_zero, eq_comm (a := b)]
      split_ifs <;> ring
    · simp only [e1, e2, if_false, false_and, add_zero]

theorem inner_loop (bD0 : Bd D0 B) (hB : B + h + 4 < 2147483648) (hg : RowVals pIn ch (2 * h + sz) g) (hs : 0 < sz) (add : Bool)
    {n : Nat} (hn : n < h) :
    forRange n h (grid (2 * h + 1) fun a b => D0 a b + sign add * delta g h sz (limAt h n n) a b)
      (innerBody P pIn ch (2 * h + sz) sz n (2 * h - n) (sign add)) =
    .ok (grid (2 * h + 1) fun a b => D0 a b + sign add * delta g h sz (limAt h (n + 1) (n + 1)) a b) := by
  obtain ⟨s, e, hs⟩ := forRange_rule (a := n) (b := h)
    (s := grid (2 * h + 1) fun a b => D0 a b + sign add * delta g h sz (limAt h n n) a b)
    (f := innerBody P pIn ch (2 * h + sz) sz n (2 * h - n) (sign add))
    (fun i s => s = grid (2 * h + 1) fun a b => D0 a b + sign add * delta g h sz (limAt h n i) a b) hn.le rfl
    (by
      rintro i s hi1 hi2 rfl
      exact ⟨_, inner_step P bD0 hB hg hs add hn hi1 hi2, rfl⟩)
  rw [e, hs]
  congr 1
  apply grid_congr
  intro a b _
  have : ∀ a, limAt h n h a = limAt h (n + 1) (n + 1) a := by intro a; unfold limAt; split_ifs <;> omega
  unfold delta
  simp only [this]

theorem outer_loop (bD0 : Bd D0 B) (hB : B + h + 4 < 2147483648) (hg : RowVals pIn ch (2 * h + sz) g) (hs : 0 < sz) (add : Bool) :
    (forRange 0 h (grid (2 * h + 1) D0) fun n data => do
        let t ← usizeSub P (2 * h + 1) n
        let nUpper ← usizeSub P t 1
        forRange n h data (innerBody P pIn ch (2 * h + sz) sz n nUpper (sign add))) =
    .ok (grid (2 * h + 1) fun a b => D0 a b + sign add * delta g h sz (limAt h h h) a b) := by
  obtain ⟨s, e, hs⟩ := forRange_rule (a := 0) (b := h) (s := grid (2 * h + 1) D0)
    (f := fun n data => do
        let t ← usizeSub P (2 * h + 1) n
        let nUpper ← usizeSub P t 1
        forRange n h data (innerBody P pIn ch (2 * h + sz) sz n nUpper (sign add)))
    (fun n s => s = grid (2 * h + 1) fun a b => D0 a b + sign add * delta g h sz (limAt h n n) a b) (Nat.zero_le _)
    (by
      apply grid_congr
      intro a b _
      have : delta g h sz (limAt h 0 0) a b = 0 := by
        have : ∀ a, limAt h 0 0 a = a := by intro a; unfold limAt; split_ifs <;> omega
        unfold delta dLo dHi
        simp only [this]
        split_ifs <;> simp
      rw [this]; ring)
    (by
      rintro n s _ hn rfl
      refine ⟨_, ?_, rfl⟩
      rw [usizeSub_ok (by omega), ok_bind, usizeSub_ok (by omega), ok_bind, show 2 * h + 1 - n - 1 = 2 * h - n by omega]
      exact inner_loop P bD0 hB hg hs add hn)
  rw [e, hs]

theorem centre_loop (bD0 : Bd D0 B) (hB : B + sz + 4 < 2147483648) (hg : RowVals pIn ch (2 * h + sz) g) (add : Bool) :
    (forRange h (h + sz) (grid (2 * h + 1) D0) fun i data => do
      let v ← rowVal pIn i ch
      histAdd P data h v (sign add)) =
      .ok (grid (2 * h + 1) fun a b => D0 a b + sign add * (if a = h then rowCount g sz h b else 0)) := by
  have s1 := abs_sign add
  obtain ⟨s, e, hs⟩ := forRange_rule (a := h) (b := h + sz) (s := grid (2 * h + 1) D0) (f := fun i data => do
    let v ← rowVal pIn i ch
    histAdd P data h v (sign add))
    (fun k s => s = grid (2 * h + 1) fun a b => D0 a b + sign add * (if a = h then ∑ i ∈ Ico h k, ind (g i = b) else 0)) (by omega)
    (by apply grid_congr; intro a b _; simp)
    (by
      rintro k s hk1 hk2 rfl
      have g1 := hg k (by omega)
      refine ⟨_, ?_, rfl⟩
      have hb : Bd (fun a b => D0 a b + sign add * (if a = h then ∑ i ∈ Ico h k, ind (g i = b) else 0)) (B + sz) := by
        intro a b
        have h1 := bD0 a b
        have h2 : |sign add * (if a = h then ∑ i ∈ Ico h k, ind (g i = b) else 0)| ≤ sz := by
          rw [abs_sign_mul]
          split
          · refine (abs_sum_Ico_le (fun i => ?_) _ _).trans (by omega)
            have := ind_bounds (g i = b); rw [abs_le]; omega
          · simp
        exact (abs_add_le _ _).trans (by omega)
      rw [g1.1, ok_bind, histAdd_bd P hb (by omega) g1.2 s1.le (by omega)]
      congr 1
      apply grid_congr
      intro a b _
      rw [sum_Ico_succ_top hk1]
      unfold upd
      by_cases e1 : a = h
      · subst e1
        simp only [if_true, true_and, eq_comm (a := b), ind]
        split_ifs <;> ring
      · simp only [e1, if_false, false_and, add_zero])
  rw [e, hs]; rfl
end loops

/-- **one row added or removed**: every complete histogram changes by the row's count in that column's window -/
theorem Holds.update (P : Profile) {p : PartialHistograms} {r h : Nat} {C : Nat → Nat → Int} (H : Holds p r h C)
    {M : Int} (hC : ∀ a b, |C a b| ≤ M) (hM : 2 * M + h + (2 * r + 1) + 4 < 2147483648)
    {pIn : List (List UInt8)} {ch : Nat} {g : Nat → Nat} (hg : RowVals pIn ch (2 * h + (2 * r + 1)) g) (add : Bool) :
    ∃ p', p.update P pIn ch add = .ok p' ∧
      Holds p' r h (fun a b => C a b + sign add * rowCount g (2 * r + 1) a b) := by
  have hM0 : 0 ≤ M := (abs_nonneg _).trans (hC 0 0)
  have bD0 : Bd (fun a b => if a = h then C h b else C a b - C h b) (2 * M) := by
    intro a b
    have h1 := hC a b
    have h2 := hC h b
    rw [abs_le] at h1 h2
    dsimp only
    split <;> rw [abs_le] <;> omega
  have L1 := outer_loop P bD0 (by omega) hg (by omega) add
  have L2 := centre_loop P (bd_delta (sz := 2 * r + 1) bD0 g add (n := h) le_rfl) (by push_cast; omega) hg add
  have E : (grid (2 * h + 1) fun a b => (if a = h then C h b else C a b - C h b)
        + sign add * delta g h (2 * r + 1) (limAt h h h) a b + sign add * (if a = h then rowCount g (2 * r + 1) h b else 0)) =
      grid (2 * h + 1) fun a b => if a = h then C h b + sign add * rowCount g (2 * r + 1) h b
        else (C a b + sign add * rowCount g (2 * r + 1) a b) - (C h b + sign add * rowCount g (2 * r + 1) h b) := by
    apply grid_congr
    intro a b ha
    rw [delta_end g (by omega)]
    by_cases e1 : a = h
    · subst e1; simp
    · simp only [e1, if_false]; ring
  rw [E] at L2
  refine ⟨{ p with data := grid (2 * h + 1) fun a b => if a = h then C h b + sign add * rowCount g (2 * r + 1) h b
        else (C a b + sign add * rowCount g (2 * r + 1) a b) - (C h b + sign add * rowCount g (2 * r + 1) h b) }, ?_,
      ⟨H.nCols, H.nHalf, H.radius, H.size, rfl⟩⟩
  rw [update_eq, H.nCols, H.nHalf, H.radius, H.size, H.data,
      show 2 * h + 1 + 2 * r = 2 * h + (2 * r + 1) by omega, L1, ok_bind, L2, ok_bind]

theorem grid_congr' {n : Nat} {D D' : Nat → Nat → Int} (h : ∀ a b, a < n → b < 256 → D a b = D' a b) : grid n D = grid n D' := by
  unfold grid
  apply List.map_congr_left
  intro a ha
  apply List.map_congr_left
  intro b hb
  exact h a b (List.mem_range.1 ha) (List.mem_range.1 hb)

theorem Holds.congr {p : PartialHistograms} {r h : Nat} {C C' : Nat → Nat → Int} (H : Holds p r h C)
    (e : ∀ a b, a ≤ 2 * h → b < 256 → C a b = C' a b) : Holds p r h C' := by
  refine ⟨H.nCols, H.nHalf, H.radius, H.size, H.data.trans (grid_congr' fun a b ha hb => ?_)⟩
  rw [e a b (by omega) hb, e h b (by omega) hb]

/-- `Holds.update` with the bound only inside the table -/
theorem Holds.update' (P : Profile) {p : PartialHistograms} {r h : Nat} {C : Nat → Nat → Int} (H : Holds p r h C)
    {M : Int} (hC : ∀ a b, a ≤ 2 * h → b < 256 → |C a b| ≤ M) (hM : 2 * M + h + (2 * r + 1) + 4 < 2147483648)
    {pIn : List (List UInt8)} {ch : Nat} {g : Nat → Nat} (hg : RowVals pIn ch (2 * h + (2 * r + 1)) g) (add : Bool) :
    ∃ p', p.update P pIn ch add = .ok p' ∧
      Holds p' r h (fun a b => C a b + sign add * rowCount g (2 * r + 1) a b) := by
  have hM0 : 0 ≤ M := (abs_nonneg _).trans (hC 0 0 (by omega) (by omega))
  have H' : Holds p r h (fun a b => if a ≤ 2 * h ∧ b < 256 then C a b else 0) :=
    H.congr fun a b ha hb => by rw [if_pos ⟨ha, hb⟩]
  obtain ⟨p', e, hp⟩ := H'.update P (M := M) (fun a b => by
    split
    · rename_i hh; exact hC a b hh.1 hh.2
    · simpa using hM0) hM hg add
  exact ⟨p', e, hp.congr fun a b ha hb => by rw [if_pos ⟨ha, hb⟩]⟩

theorem Holds.new (r h : Nat) : Holds (PartialHistograms.new r (2 * h + 1)) r h fun _ _ => 0 := by
  refine ⟨rfl, by show (2 * h + 1) / 2 = h; omega, rfl, rfl, ?_⟩
  show List.replicate (2 * h + 1) (List.replicate 256 0) = _
  unfold grid
  rw [show (fun a : Nat => (List.range 256).map fun b : Nat => if a = h then (0 : Int) else 0 - 0) =
    fun _ => List.replicate 256 0 from ?_, List.map_const', List.length_range]
  funext a
  rw [show (fun b : Nat => if a = h then (0 : Int) else 0 - 0) = fun _ => 0 from ?_, List.map_const', List.length_range]
  funext b
  split <;> rfl

theorem Holds.getCount (P : Profile) {p : PartialHistograms} {r h : Nat} {C : Nat → Nat → Int} (H : Holds p r h C)
    {k b : Nat} (hk : k ≤ 2 * h) (hb : b < 256) (hC : |C k b| < 2147483648) : p.getCount P b k = .ok (C k b) := by
  rw [abs_lt] at hC
  unfold PartialHistograms.getCount
  rw [H.nHalf, H.data]
  unfold grid
  rw [idx_map_range _ (by omega), ok_bind, idx_map_range _ hb, ok_bind]
  dsimp only
  rw [if_pos rfl]
  by_cases e : k = h
  · subst e; rw [if_neg (by simp)]
  · rw [if_pos e, idx_map_range _ (by omega), ok_bind, idx_map_range _ hb, ok_bind, if_neg e,
      i32Add_ok (by omega) (by omega)]
    congr 1; omega
end Imgproc

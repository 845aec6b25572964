import Verif.Proofs.MedianRun
import Verif.Props.SubImage
/-! The row loop of the median filter. -/
namespace Imgproc

/-- **Specification**: channel `c` of the pixel at `(x, y)` -/
def Image.value (img : Image UInt8) (c x y : Nat) : Nat := ((img.px x y)[c]?.getD 0).toNat

theorem Image.value_lt (img : Image UInt8) (c x y : Nat) : img.value c x y < 256 := UInt8.toNat_lt _

theorem clampCoord_lt {n : Nat} (hn : 0 < n) (o : Int) : clampCoord n o < n := by unfold clampCoord; omega
theorem clampCoord_nat {n o : Nat} (h : o < n) : clampCoord n o = o := by unfold clampCoord; omega

/-- the row of pixels handed to the histograms of the block starting at column `x0` -/
def rowAt (img : Image UInt8) (r x0 len y : Nat) : List (List UInt8) :=
  (List.range len).map fun (i : Nat) => img.px (clampCoord img.info.width ((x0 : Int) + i - r)) y

/-- its channel values -/
def rowG (img : Image UInt8) (r x0 c y i : Nat) : Nat := img.value c (clampCoord img.info.width ((x0 : Int) + i - r)) y

theorem rowVals_rowAt {img : Image UInt8} (wf : img.WF) (hW : 0 < img.info.width) {y : Nat} (hy : y < img.info.height) {r x0 len c : Nat}
    (hc : c < img.info.channels) : RowVals (rowAt img r x0 len y) c len (rowG img r x0 c y) := by
  intro i hi
  refine ⟨?_, Image.value_lt _ _ _ _⟩
  unfold rowVal rowAt
  have hl := Image.px_length wf (clampCoord_lt hW ((x0 : Int) + i - r)) hy
  rw [idx_map_range _ hi, ok_bind, idx_ok (by rw [hl]; exact hc), ok_bind]
  unfold rowG Image.value
  rw [List.getElem?_eq_getElem (by rw [hl]; exact hc)]
  rfl

theorem Image.getPixelUnchecked_eq (P : Profile) {img : Image UInt8} (h : img.WF) {x y : Nat} (hx : x < img.info.width)
    (hy : y < img.info.height) : img.getPixelUnchecked P x y = .ok (img.px x y) := by
  have h0 := row_lt hx hy
  have hs := h.size
  unfold Image.getPixelUnchecked
  rw [u32Mul_ok (by omega), ok_bind, u32Add_ok (by omega), ok_bind, Image.at_eq P h h0]
  rfl

theorem intClamp_coord {n : Nat} (hn : 0 < n) (o : Int) : intClamp o 0 ((n : Int) - 1) = .ok (clampCoord n o) := by
  unfold intClamp clampCoord
  rw [if_pos (by omega)]
  congr 1
  split_ifs <;> omega

/-- sizes for which the 32-bit arithmetic of the filter does not overflow -/
structure MedianFits (img : Image UInt8) (r h : Nat) : Prop where
  wf : img.WF
  width : 0 < img.info.width
  height : 0 < img.info.height
  fitW : img.info.width + 2 * h + 1 + r < 2147483648
  fitH : img.info.height + r < 2147483648
  fitN : 2 * ((2 * r + 1) * (2 * r + 1) + (2 * r + 1)) + h + (2 * r + 1) + 4 < 2147483648

/-- one collected row, whatever the (already clamped) row index is read from -/
theorem collectRow (P : Profile) {img : Image UInt8} {r h : Nat} (F : MedianFits img r h) {x0 : Nat} (hx0 : x0 < img.info.width)
    {y : Nat} (hy : y < img.info.height) (init : List (List UInt8)) (Y : Res Nat) (hY : Y = .ok y) :
    (do
      let lo ← i32Sub P (toI32 x0) (toI32 r)
      let a ← u32Add P x0 (usizeToU32 (2 * h + 1))
      let b ← u32Add P a r
      forRangeI lo (toI32 b) init fun i row => do
        let wm ← i32Sub P (toI32 img.info.width) 1
        let ic ← intClamp i 0 wm
        let y' ← Y
        let p ← img.getPixelUnchecked P (i32ToU32 ic) y'
        .ok (row ++ [p])) = .ok (init ++ rowAt img r x0 (2 * h + (2 * r + 1)) y) := by
  have h1 := F.fitW
  have h2 := F.width
  rw [toI32_of_lt (x := x0) (by omega), toI32_of_lt (x := r) (by omega), i32Sub_ok (by omega) (by omega), ok_bind]
  unfold usizeToU32
  rw [Nat.mod_eq_of_lt (by omega), u32Add_ok (by omega), ok_bind, u32Add_ok (by omega), ok_bind, toI32_of_lt (by omega)]
  unfold forRangeI
  rw [show (((x0 + (2 * h + 1) + r : Nat) : Int) - ((x0 : Int) - r)).toNat = 2 * h + (2 * r + 1) by omega]
  rw [forRange_collect init _ (fun k => [img.px (clampCoord img.info.width ((x0 : Int) + k - r)) y]) (by
    intro i acc _ hi
    dsimp only
    rw [toI32_of_lt (by omega), i32Sub_ok (by omega) (by omega), ok_bind, intClamp_coord h2, ok_bind, hY, ok_bind]
    have hlt := clampCoord_lt h2 ((x0 : Int) - r + i)
    rw [i32ToU32_natCast (by omega), Image.getPixelUnchecked_eq P F.wf hlt hy, ok_bind,
      show (x0 : Int) - r + i = x0 + i - r by omega]) (Nat.zero_le _)]
  congr 2
  unfold rowAt
  rw [Nat.sub_zero]
  simp only [Nat.zero_add]
  induction (List.range (2 * h + (2 * r + 1))) with
  | nil => rfl
  | cons a l ih => rw [List.flatMap_cons, ih]; rfl

theorem inputRow_eq (P : Profile) {img : Image UInt8} {r h : Nat} (F : MedianFits img r h) {x0 : Nat} (hx0 : x0 < img.info.width)
    {y : Nat} (hy : y < img.info.height) :
    inputRow P img r (2 * h + 1) x0 y = .ok (rowAt img r x0 (2 * h + (2 * r + 1)) y) :=
  collectRow P F hx0 hy [] (.ok y) rfl

/-- rows entering and leaving the window -/
theorem rowInOut_eq (P : Profile) {H r j : Nat} (hj : j < H) (hfit : H + r < 2147483648) :
    rowInOut P H r j = .ok (clampCoord H ((j : Int) + r), clampCoord H ((j : Int) - r - 1)) := by
  unfold rowInOut
  rw [u32Add_ok (by omega), ok_bind, u32Sub_ok (by omega), ok_bind]
  unfold natClamp
  rw [if_pos (Nat.zero_le _), ok_bind, toI32_of_lt (x := j) (by omega), toI32_of_lt (x := r) (by omega), i32Sub_ok (by omega) (by omega), ok_bind,
    i32Sub_ok (by omega) (by omega), ok_bind, toI32_of_lt (x := H) (by omega), i32Sub_ok (by omega) (by omega), ok_bind,
    intClamp_coord (by omega), ok_bind]
  have := clampCoord_lt (n := H) (by omega) ((j : Int) - r - 1)
  rw [i32ToU32_natCast (by omega)]
  congr 2
  unfold clampCoord
  split_ifs <;> omega

/-- **Specification** (histogram form): occurrences of `v` in channel `c` of the window around column `x0 + k`, row `y` -/
def winCount (img : Image UInt8) (r x0 c y k v : Nat) : Int :=
  ∑ t ∈ Finset.range (2 * r + 1), rowCount (rowG img r x0 c (clampCoord img.info.height ((y : Int) + t - r))) (2 * r + 1) k v

theorem winCount_succ (img : Image UInt8) (r x0 c y k v : Nat) : winCount img r x0 c (y + 1) k v =
    winCount img r x0 c y k v + rowCount (rowG img r x0 c (clampCoord img.info.height (((y + 1 : Nat) : Int) + r))) (2 * r + 1) k v
      - rowCount (rowG img r x0 c (clampCoord img.info.height (((y + 1 : Nat) : Int) - r - 1))) (2 * r + 1) k v := by
  unfold winCount
  rw [Finset.sum_range_succ, Finset.sum_range_succ' (fun t : Nat => rowCount (rowG img r x0 c (clampCoord img.info.height ((y : Int) + t - r))) (2 * r + 1) k v)]
  have e1 : ((y + 1 : Nat) : Int) + (2 * r : Nat) - r = ((y + 1 : Nat) : Int) + r := by push_cast; ring
  have e2 : ((y : Nat) : Int) + (0 : Nat) - r = ((y + 1 : Nat) : Int) - r - 1 := by push_cast; ring
  rw [e1, e2]
  have e3 : ∀ t : Nat, ((y + 1 : Nat) : Int) + t - r = (y : Int) + (t + 1 : Nat) - r := by intro t; push_cast; ring
  simp only [e3]
  ring

theorem winCount_nonneg (img : Image UInt8) (r x0 c y k v : Nat) : 0 ≤ winCount img r x0 c y k v :=
  Finset.sum_nonneg fun _ _ => (rowCount_bounds _ _ _ _).1

/-- every row of the window contributes `2 r + 1` values -/
theorem below_rowCount {g : Nat → Nat} (hg : ∀ i, g i < 256) (size k : Nat) : below (rowCount g size k) 256 = size := by
  rw [rowBelow_eq]
  unfold rowBelow ind
  simp [hg]

theorem below_sum {n : Nat} (f : Nat → Nat → Int) (m : Nat) : below (fun v => ∑ t ∈ Finset.range n, f t v) m = ∑ t ∈ Finset.range n, below (f t) m := by
  unfold below
  rw [Finset.sum_comm]

theorem below_winCount (img : Image UInt8) (r x0 c y k : Nat) :
    below (winCount img r x0 c y k) 256 = (2 * r + 1 : Nat) * (2 * r + 1 : Nat) := by
  unfold winCount
  rw [below_sum, Finset.sum_congr rfl fun (t : Nat) _ => below_rowCount (g := rowG img r x0 c (clampCoord img.info.height ((y : Int) + t - r)))
    (fun i => Image.value_lt _ _ _ _) (2 * r + 1) k]
  simp

theorem le_below {f : Nat → Int} (hf : ∀ v, 0 ≤ f v) {v : Nat} (hv : v < 256) : f v ≤ below f 256 := by
  have h1 := below_mono hf (show v + 1 ≤ 256 by omega)
  rw [below_succ] at h1
  have := below_nonneg hf v
  omega

theorem MHolds.congr {H : MedianHist} {r h : Nat} {C C' : Nat → Nat → Int} {S S' : Nat → Int} {piv piv' : Nat → Nat} (A : MHolds H r h C S piv)
    (hC : ∀ a b, a ≤ 2 * h → b < 256 → C a b = C' a b) (hS : ∀ k, k ≤ 2 * h → S k = S' k) (hp : ∀ k, k ≤ 2 * h → piv k = piv' k)
    (hlt : ∀ k, piv' k < 256) : MHolds H r h C' S' piv' := by
  refine ⟨A.data.congr hC, A.sums.trans ?_, A.pivots.trans ?_, hlt⟩
  · apply List.map_congr_left
    intro k hk
    exact hS k (by have := List.mem_range.1 hk; omega)
  · apply List.map_congr_left
    intro k hk
    rw [hp k (by have := List.mem_range.1 hk; omega)]

theorem AllHold.congr {hists : List MedianHist} {n r h : Nat} {C C' : Nat → Nat → Nat → Int} {S S' : Nat → Nat → Int} {piv piv' : Nat → Nat → Nat}
    (A : AllHold hists n r h C S piv)
    (hC : ∀ c a b, c < n → a ≤ 2 * h → b < 256 → C c a b = C' c a b) (hS : ∀ c k, c < n → k ≤ 2 * h → S c k = S' c k)
    (hp : ∀ c k, c < n → k ≤ 2 * h → piv c k = piv' c k)
    (hlt : ∀ c k, piv' c k < 256) : AllHold hists n r h C' S' piv' := by
  refine ⟨A.1, fun c H hc => ?_⟩
  have hcn : c < n := by
    rcases Nat.lt_or_ge c n with h | h
    · exact h
    · rw [List.getElem?_eq_none (by rw [A.1]; exact h)] at hc; cases hc
  exact (A.2 c H hc).congr (fun a b => hC c a b hcn) (fun k => hS c k hcn) (fun k => hp c k hcn) (hlt c)

/-- adding or removing one row in every channel -/
theorem rowMed_rule (P : Profile) {hists : List MedianHist} {n r h : Nat} {C : Nat → Nat → Nat → Int} {S : Nat → Nat → Int} {piv : Nat → Nat → Nat}
    (A : AllHold hists n r h C S piv) {M : Int} (hC : ∀ c a b, a ≤ 2 * h → b < 256 → |C c a b| ≤ M) (hS : ∀ c k, k ≤ 2 * h → |S c k| ≤ M)
    (hM : 2 * M + h + (2 * r + 1) + 4 < 2147483648)
    {pIn : List (List UInt8)} {g : Nat → Nat → Nat} (hg : ∀ c, c < n → RowVals pIn c (2 * h + (2 * r + 1)) (g c)) (add : Bool) :
    ∃ hs, rowMed P hists pIn add = .ok hs ∧ AllHold hs n r h (fun c a b => C c a b + sign add * rowCount (g c) (2 * r + 1) a b)
        (fun c k => S c k + sign add * rowBelow (g c) (2 * r + 1) k (piv c k)) piv := by
  obtain ⟨l, e, h1, h2⟩ := forEnum_map_rule (l := hists) (f := fun c h => h.update P pIn c add)
    (fun c H => MHolds H r h (fun a b => C c a b + sign add * rowCount (g c) (2 * r + 1) a b)
        (fun k => S c k + sign add * rowBelow (g c) (2 * r + 1) k (piv c k)) (piv c))
    (by
      intro c H hc
      have hcn : c < n := by
        rcases Nat.lt_or_ge c n with h | h
        · exact h
        · rw [List.getElem?_eq_none (by rw [A.1]; exact h)] at hc; cases hc
      exact (A.2 c H hc).update P (hC c) (hS c) hM (hg c hcn) add)
  exact ⟨l, e, h1.trans A.1, h2⟩

/-- the pivots along a column: the median `μ` of the window, except that an old pivot with exactly `center` values below
it is kept -/
def trace (img : Image UInt8) (r x0 : Nat) (center : Int) (μ : Nat → Nat → Nat → Nat) (c k : Nat) : Nat → Nat
  | 0 => μ c k 0
  | y + 1 => nextPivot (winCount img r x0 c (y + 1) k) center (trace img r x0 center μ c k y) (μ c k (y + 1))

theorem trace_lt {img : Image UInt8} {r x0 : Nat} {center : Int} {μ : Nat → Nat → Nat → Nat} (hμ : ∀ c k y, μ c k y < 256) (c k y : Nat) :
    trace img r x0 center μ c k y < 256 := by
  induction y with
  | zero => exact hμ c k 0
  | succ y ih => unfold trace nextPivot; split; exacts [ih, hμ _ _ _]
end Imgproc

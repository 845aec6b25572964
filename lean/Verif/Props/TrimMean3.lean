import Verif.Proofs.TrimTwoRun
import Verif.Props.TrimMean2
/-! C58: with `alpha = 2` the sliding update of `alpha_trimmed_mean_filter` is right in every row. -/
namespace Imgproc
open FloatOps

/-! ### the trimmed mean of a window, from its least and greatest value -/

theorem ends_of_sorted {l : List Nat} (hl : 2 ≤ l.length) : ∃ x m y, sortedList l = x :: (m ++ [y]) ∧ trimmed l 1 = m := by
  have hlen := (sortedList_perm l).length_eq
  cases hs : sortedList l with
  | nil => rw [hs] at hlen; simp at hlen; omega
  | cons x t =>
    rw [hs, List.length_cons] at hlen
    have ht : t ≠ [] := by intro e; rw [e] at hlen; simp at hlen; omega
    refine ⟨x, t.dropLast, t.getLast ht, by rw [List.dropLast_append_getLast], ?_⟩
    unfold trimmed
    rw [hs, List.drop_succ_cons, List.drop_zero, List.dropLast_eq_take]
    congr 1
    omega

theorem Tri.sum_trimmed {W : List Nat} {a b : UInt8} {s : Int} (T : Tri W a b s) (hl : 2 ≤ W.length) :
    s = ((trimmed W 1).sum : Nat) ∧ ∃ m, sortedList W = a.toNat :: (m ++ [b.toNat]) := by
  obtain ⟨t1, t2, t3, t4⟩ := T
  obtain ⟨x, m, y, hs, ht⟩ := ends_of_sorted hl
  have hsort := sortedList_sorted W
  have hmem : ∀ v, v ∈ W ↔ v ∈ x :: (m ++ [y]) := fun v => by rw [← hs]; exact (sortedList_perm W).mem_iff.symm
  rw [hs] at hsort
  obtain ⟨p1, p2⟩ := List.pairwise_cons.1 hsort
  obtain ⟨p3, p4, p5⟩ := List.pairwise_append.1 p2
  have hx : x = a.toNat := by
    have h1 := (t3 x ((hmem x).2 (by simp))).1
    have h2 : x ≤ a.toNat := by
      rcases List.mem_cons.1 ((hmem _).1 t1) with h | h
      · omega
      · exact p1 _ h
    omega
  have hy : y = b.toNat := by
    have h1 := (t3 y ((hmem y).2 (by simp))).2
    have h2 : b.toNat ≤ y := by
      rcases List.mem_cons.1 ((hmem _).1 t2) with h | h
      · rw [h]; exact p1 y (by simp)
      · rcases List.mem_append.1 h with h | h
        · exact p5 _ h y (by simp)
        · rw [List.mem_singleton.1 h]
    omega
  refine ⟨?_, m, by rw [hs, hx, hy]⟩
  rw [ht, t4, ← (sortedList_perm W).sum_eq, hs, hx, hy, List.sum_cons, List.sum_append, List.sum_singleton, Nat.cast_add, Nat.cast_add]
  ring

theorem tri_exists {W : List Nat} (hl : 2 ≤ W.length) (h : ∀ v ∈ W, v < 256) : ∃ a b s, Tri W a b s := by
  obtain ⟨x, m, y, hs, _⟩ := ends_of_sorted hl
  have hmem : ∀ v, v ∈ W ↔ v ∈ x :: (m ++ [y]) := fun v => by rw [← hs]; exact (sortedList_perm W).mem_iff.symm
  have hsort := sortedList_sorted W
  rw [hs] at hsort
  obtain ⟨p1, p2⟩ := List.pairwise_cons.1 hsort
  obtain ⟨p3, p4, p5⟩ := List.pairwise_append.1 p2
  have hxW := (hmem x).2 (by simp)
  have hyW := (hmem y).2 (by simp)
  have hx : (UInt8.ofNat x).toNat = x := by rw [UInt8.toNat_ofNat', Nat.mod_eq_of_lt (h x hxW)]
  have hy : (UInt8.ofNat y).toNat = y := by rw [UInt8.toNat_ofNat', Nat.mod_eq_of_lt (h y hyW)]
  refine ⟨UInt8.ofNat x, UInt8.ofNat y, _, by rw [hx]; exact hxW, by rw [hy]; exact hyW, fun v hv => ?_, rfl⟩
  rw [hx, hy]
  rcases List.mem_cons.1 ((hmem v).1 hv) with h' | h'
  · rw [h']; exact ⟨le_refl _, p1 y (by simp)⟩
  · refine ⟨p1 v h', ?_⟩
    rcases List.mem_append.1 h' with h' | h'
    · exact p5 _ h' y (by simp)
    · rw [List.mem_singleton.1 h']

/-- the first row's bookkeeping, one value trimmed at each end -/
theorem Tri.first_row {W : List Nat} {a b : UInt8} {s : Int} (T : Tri W a b s) (hl : 3 ≤ W.length) :
    codeSum W 1 = s ∧ lowerBytes W 1 = [a] ∧ upperBytes W 1 = [b] := by
  obtain ⟨e1, m, hs⟩ := T.sum_trimmed (by omega)
  have hlen := (sortedList_perm W).length_eq
  have hclean : CleanTop (sortedList W) 1 := .inr (.inr rfl)
  refine ⟨?_, ?_, ?_⟩
  · rw [e1, codeSum_clean (by omega) hclean]
    rfl
  · unfold lowerBytes
    rw [hs]
    simp
  · unfold upperBytes
    have hq : (fun v => decide (W.length - 1 < W.countP (· ≤ v))) = fun v => decide ((sortedList W).length - 1 < (sortedList W).countP (· ≤ v)) := by
      funext v
      rw [hlen, (sortedList_perm W).countP_eq]
    rw [hq]
    have hsum := codeUpper_sum (sortedList_sorted W) (t := 1) (by omega) hclean
    have hdrop : ((sortedList W).drop ((sortedList W).length - 1)).sum = b.toNat := by
      rw [hs, List.length_cons, List.length_append, List.length_singleton, Nat.add_sub_cancel, List.drop_succ_cons, List.drop_left]
      simp
    rw [hdrop] at hsum
    have hne : b.toNat ∈ ((sortedList W).drop 1).filter (fun v => decide ((sortedList W).length - 1 < (sortedList W).countP (· ≤ v))) := by
      rw [List.mem_filter, decide_eq_true_iff]
      refine ⟨by rw [hs]; simp, ?_⟩
      rw [List.countP_eq_length.2 (fun v hv => by simpa using (T.2.2.1 v ((sortedList_perm W).mem_iff.1 hv)).2)]
      omega
    have hc : ∃ z, (codeUpper (sortedList W) 1 fun v => decide ((sortedList W).length - 1 < (sortedList W).countP (· ≤ v))) = [z] := by
      unfold codeUpper
      revert hne
      generalize (((sortedList W).drop 1).filter (fun v => decide ((sortedList W).length - 1 < (sortedList W).countP (· ≤ v)))) = fl
      intro hne
      cases fl with
      | nil => cases hne
      | cons z fl => exact ⟨z, rfl⟩
    obtain ⟨z, hz⟩ := hc
    rw [hz, List.sum_singleton] at hsum
    rw [hz, hsum]
    simp

/-! ### one row of output -/

/-- `process_row_mean`, every column of every channel with its own mean -/
theorem processRowMean_ok {F : Type} [FloatOps F] (P : Profile) {n h x0 y : Nat} {hists : List (MeanHist F)} (hl : hists.length = n) (o : Nat → Nat → UInt8)
    (hm : ∀ (c : Nat) (H : MeanHist F), hists[c]? = some H → ∀ i, i ≤ 2 * h → H.getMean i = .ok (o c i))
    {out : Image UInt8} {info : ImageInfo} {f : Nat → Nat → List UInt8} (hs : out.Shows info f)
    (hn : n = info.channels) (hx0 : x0 < info.width) (hfit : x0 + 2 * h + 1 < 4294967296) (hy : y < info.height) :
    ∃ out', processRowMean P out hists (2 * h + 1) x0 y = .ok out' ∧
      out'.Shows info (fun x' y' => if y' = y ∧ x0 ≤ x' ∧ x' < x0 + (2 * h + 1) then
        (List.range n).map (fun c => o c (if x' = info.width - 1 then 2 * h else x' - x0)) else f x' y') := by
  unfold processRowMean
  obtain ⟨out1, e, hs1⟩ := forRange_rule (a := 0) (b := 2 * h + 1) (s := out) (f := fun i output => do
      let (_, pOut) ← forHists hists fun _ h pOut => do
        let m ← h.getMean i
        .ok (h, pOut ++ [m])
      writeClamped P output x0 i y pOut)
    (fun m (out : Image UInt8) => out.Shows info (fun x' y' => if y' = y ∧ x0 ≤ x' ∧ x' < x0 + m then
        (List.range n).map (fun c => o c (if x' = info.width - 1 then m - 1 else x' - x0)) else f x' y')) (Nat.zero_le _)
    (hs.congr fun x' y' _ _ => by rw [if_neg (by omega)])
    (by
      intro m out _ hm' hs
      obtain ⟨l1, e1, _, _⟩ := forHists_rule (hists := hists) (f := fun _ h pOut => do
          let m ← MeanHist.getMean h m
          .ok (h, pOut ++ [m])) (fun c => o c m) (fun _ _ => True)
        (by
          intro c a pOut hc
          exact ⟨a, by rw [hm c a hc m (by omega), ok_bind], trivial⟩)
      rw [e1, ok_bind, hl]
      obtain ⟨out', e2, hs'⟩ := writeClamped_shows P hs (x := x0) (i := m) (y := y) (p := (List.range n).map fun c => o c m) (by omega) (by omega) hy (by simp [hn])
      refine ⟨out', e2, hs'.congr fun x' y' hx' hy' => ?_⟩
      rw [Nat.add_sub_cancel]
      by_cases hyy : y' = y
      · by_cases hxx : x' = min (x0 + m) (info.width - 1)
        · rw [if_pos ⟨hxx, hyy⟩, if_pos (by omega)]
          by_cases hw : x' = info.width - 1
          · rw [if_pos hw]
          · rw [if_neg hw, show x' - x0 = m by omega]
        · rw [if_neg (by tauto)]
          by_cases hr : x0 ≤ x' ∧ x' < x0 + m
          · rw [if_pos ⟨hyy, hr⟩, if_pos (show y' = y ∧ x0 ≤ x' ∧ x' < x0 + (m + 1) by omega)]
            have hw : ¬ x' = info.width - 1 := by omega
            rw [if_neg hw, if_neg hw]
          · rw [if_neg (show ¬ (y' = y ∧ x0 ≤ x' ∧ x' < x0 + m) by tauto),
              if_neg (show ¬ (y' = y ∧ x0 ≤ x' ∧ x' < x0 + (m + 1)) by omega)]
      · rw [if_neg (by tauto), if_neg (by tauto), if_neg (by tauto)])
  exact ⟨out1, e, hs1⟩

/-! ### the window slides -/

theorem count_window (img : Image UInt8) (r x0 c y k v : Nat) :
    winCount img r x0 c y k v = ((img.window r c (x0 + k) y).count v : Nat) := by
  have h1 := below_winCount_eq img r x0 c y k (v + 1)
  have h2 := below_winCount_eq img r x0 c y k v
  rw [below_succ, h2] at h1
  have h3 : (img.window r c (x0 + k) y).countP (· < v + 1) = (img.window r c (x0 + k) y).countP (· < v) + (img.window r c (x0 + k) y).count v := by
    generalize img.window r c (x0 + k) y = l
    induction l with
    | nil => rfl
    | cons w l ih =>
      rw [List.countP_cons, List.countP_cons, List.count_cons, ih]
      simp only [decide_eq_true_eq, beq_iff_eq]
      split_ifs <;> omega
  omega

/-- byte `i` of the row handed to the block -/
def rowB (img : Image UInt8) (r x0 c y i : Nat) : UInt8 := (img.px (clampCoord img.info.width ((x0 : Int) + i - r)) y)[c]?.getD 0

theorem rowByte_rowAt {img : Image UInt8} (wf : img.WF) (hW : 0 < img.info.width) {y : Nat} (hy : y < img.info.height) {r x0 len c i : Nat}
    (hc : c < img.info.channels) (hi : i < len) : MeanHist.rowByte (rowAt img r x0 len y) i c = .ok (rowB img r x0 c y i) := by
  have hl := Image.px_length wf (clampCoord_lt hW ((x0 : Int) + i - r)) hy
  unfold MeanHist.rowByte rowAt
  rw [idx_map_range _ hi, ok_bind, idx_ok (by rw [hl]; exact hc)]
  unfold rowB
  rw [List.getElem?_eq_getElem (by rw [hl]; exact hc)]
  rfl

theorem window_slides (img : Image UInt8) (r x0 c y k : Nat) :
    (img.window r c (x0 + k) y ++ (rowList r (rowB img r x0 c (clampCoord img.info.height (((y + 1 : Nat) : Int) + r))) k).map UInt8.toNat).Perm
    (img.window r c (x0 + k) (y + 1) ++ (rowList r (rowB img r x0 c (clampCoord img.info.height (((y + 1 : Nat) : Int) - r - 1))) k).map UInt8.toNat) := by
  rw [List.perm_iff_count]
  intro v
  have h1 := winCount_succ img r x0 c y k v
  have h2 := rowCount_rowList r (rowB img r x0 c (clampCoord img.info.height (((y + 1 : Nat) : Int) + r))) k v
  have h3 := rowCount_rowList r (rowB img r x0 c (clampCoord img.info.height (((y + 1 : Nat) : Int) - r - 1))) k v
  have e : ∀ Y, (fun i => (rowB img r x0 c Y i).toNat) = rowG img r x0 c Y := fun Y => rfl
  rw [e] at h2 h3
  rw [count_window, count_window, h2, h3] at h1
  rw [List.count_append, List.count_append]
  omega

section
variable {F : Type} [FloatOps F] (bs : BinSearch) (P : Profile) {img : Image UInt8} {r h x0 : Nat} (M : MedianFits img r h)
  (hx0 : x0 < img.info.width) (h255 : (2 * r + 2) * (2 * r + 2) * 255 < 2147483648)
  (hrows : ∀ i y, i < img.info.width → y ≤ r → y < img.info.height → img.px i y = img.px i 0)
include M hx0 h255 hrows

/-- one block, `alpha = 2` -/
theorem processColsMean_two (B : bs.Spec) (hr : 0 < r)
    {out : Image UInt8} {f : Nat → Nat → List UInt8} (hs : out.Shows img.info f) {H0 : MeanHist F} (hnew : MeanHist.new P r (2 * h + 1) 2 = .ok H0) :
    ∃ out', processColsMean bs P F img out r 2 (2 * h + 1) x0 = .ok out' ∧
      out'.Shows img.info fun x' y' => if x0 ≤ x' ∧ x' < x0 + (2 * h + 1) then
        (List.range img.info.channels).map (fun c => meanByte ((trimmed (img.window r c (x0 + (if x' = img.info.width - 1 then 2 * h else x' - x0)) y') 1).sum : Nat) H0.len)
        else f x' y' := by
  have hN := M.fitN
  have hW := M.fitW
  have hH := M.fitH
  have hH0 := M.height
  have hq2 : (2 * r + 2) * (2 * r + 2) = (2 * r + 1) * (2 * r + 1) + (2 * r + 1) + (2 * r + 2) := by ring
  have hq9 : 9 ≤ (2 * r + 1) * (2 * r + 1) := by
    have : 3 * 3 ≤ (2 * r + 1) * (2 * r + 1) := Nat.mul_le_mul (by omega) (by omega)
    omega
  obtain ⟨s0, e0, l0, A0, D0⟩ := initColsMean_ok bs P M hx0
    (Nat.lt_of_le_of_lt (Nat.mul_le_mul_right 255 (Nat.mul_le_mul (by omega) (by omega))) h255) (by omega) hs hnew
  have hwl : ∀ c x y, (img.window r c x y).length = (2 * r + 1) * (2 * r + 1) := fun c x y => window_length img r c x y
  have htop : ∀ c x, img.topWindow r c x = img.window r c x 0 := fun c x => topWindow_eq_window_of hrows M.width M.height
  rw [hq2] at h255
  generalize hqq : (2 * r + 1) * (2 * r + 1) = q at *
  have hch : ∀ {l : List (MeanHist F)} {c H}, l.length = img.info.channels → l[c]? = some H → c < img.info.channels := by
    intro l c H hl hc
    rcases Nat.lt_or_ge c img.info.channels with h | h
    · exact h
    · rw [List.getElem?_eq_none (by omega)] at hc; cases hc
  have htri : ∀ c x y, ∃ a b s, Tri (img.window r c x y) a b s := fun c x y => tri_exists (by rw [hwl]; omega) (fun v hv => window_lt hv)
  obtain ⟨s1, e1, l1, A1, D1⟩ := forRange_rule (a := 1) (b := img.info.height) (s := s0) (f := fun j s => do
      let (jIn, jOut) ← rowInOut P img.info.height r j
      let rowIn ← inputRow P img r (2 * h + 1) x0 jIn
      let rowOut ← inputRow P img r (2 * h + 1) x0 jOut
      let hists ← rowMean bs P s.2 rowIn true
      let hists ← rowMean bs P hists rowOut false
      let output ← processRowMean P s.1 hists (2 * h + 1) x0 j
      .ok (output, hists))
    (fun j s => s.2.length = img.info.channels ∧
      (∀ c H, s.2[c]? = some H → TState H r h H0.len fun k => img.window r c (x0 + k) (j - 1)) ∧
      s.1.Shows img.info fun x' y' => if y' < j ∧ x0 ≤ x' ∧ x' < x0 + (2 * h + 1) then
        (List.range img.info.channels).map (fun c => meanByte ((trimmed (img.window r c (x0 + (if x' = img.info.width - 1 then 2 * h else x' - x0)) y') 1).sum : Nat) H0.len)
        else f x' y')
    (by omega)
    ⟨l0, fun c H hc => by
      have A := A0 c H hc
      simp only [htop] at A
      choose a b s hT using fun k => htri c (x0 + k) 0
      refine ⟨s, a, b, ⟨A.data, A.sums.trans ?_, A.lower.trans ?_, A.upper.trans ?_, A.trim, A.len⟩, fun k _ => hT k⟩
      · exact List.map_congr_left fun k _ => ((hT k).first_row (by rw [hwl]; omega)).1
      · exact List.map_congr_left fun k _ => ((hT k).first_row (by rw [hwl]; omega)).2.1
      · exact List.map_congr_left fun k _ => ((hT k).first_row (by rw [hwl]; omega)).2.2, D0.congr fun x' y' _ _ => by
      simp only [htop]
      by_cases hy : y' = 0
      · subst hy
        by_cases hx : x0 ≤ x' ∧ x' < x0 + (2 * h + 1)
        · rw [if_pos (show 0 = 0 ∧ x0 ≤ x' ∧ x' < x0 + (2 * h + 1) from ⟨rfl, hx⟩), if_pos (show 0 < 1 ∧ x0 ≤ x' ∧ x' < x0 + (2 * h + 1) from ⟨by omega, hx⟩)]
          apply List.map_congr_left
          intro c _
          obtain ⟨a, b, s, hT⟩ := htri c (x0 + (if x' = img.info.width - 1 then 2 * h else x' - x0)) 0
          rw [(hT.first_row (by rw [hwl]; omega)).1, (hT.sum_trimmed (by rw [hwl]; omega)).1]
        · rw [if_neg fun h => hx h.2, if_neg fun h => hx h.2]
      · rw [if_neg (by omega), if_neg (by omega)]⟩
    (by
      rintro j ⟨out, hists⟩ hj1 hj2 ⟨l, A, D⟩
      dsimp only at l A D ⊢
      obtain ⟨y, rfl⟩ : ∃ y, j = y + 1 := ⟨j - 1, by omega⟩
      rw [Nat.add_sub_cancel] at A
      rw [rowInOut_eq P hj2 hH, ok_bind]
      dsimp only
      rw [inputRow_eq P M hx0 (clampCoord_lt hH0 _), ok_bind, inputRow_eq P M hx0 (clampCoord_lt hH0 _), ok_bind]
      have hcl1 := clampCoord_lt hH0 (((y + 1 : Nat) : Int) + r)
      have hcl2 := clampCoord_lt hH0 (((y + 1 : Nat) : Int) - r - 1)
      obtain ⟨h1, e1, l1, A1⟩ := forEnum_map_rule (l := hists)
        (f := fun c H => H.update bs P (rowAt img r x0 (2 * h + (2 * r + 1)) (clampCoord img.info.height (((y + 1 : Nat) : Int) + r))) c true)
        (fun c H => TState H r h H0.len fun k => img.window r c (x0 + k) y ++
          (rowList r (rowB img r x0 c (clampCoord img.info.height (((y + 1 : Nat) : Int) + r))) k).map UInt8.toNat)
        (by
          intro c H hc
          exact (A c H hc).update_add bs P B (q := q) (fun k => (hwl _ _ _).le) (Nat.lt_of_le_of_lt (Nat.mul_le_mul_right 255 (by omega)) h255) (by omega)
            fun i hi => rowByte_rowAt M.wf M.width hcl1 (hch l hc) hi)
      obtain ⟨h2, e2, l2, A2⟩ := forEnum_map_rule (l := h1)
        (f := fun c H => H.update bs P (rowAt img r x0 (2 * h + (2 * r + 1)) (clampCoord img.info.height (((y + 1 : Nat) : Int) - r - 1))) c false)
        (fun c H => TState H r h H0.len fun k => img.window r c (x0 + k) (y + 1))
        (by
          intro c H hc
          exact (A1 c H hc).update_remove bs P B (q := q + (2 * r + 1)) (fun k => window_slides img r x0 c y k)
            (fun k => by rw [List.length_append, List.length_map, rowList_length, hwl]) (fun k => by rw [hwl]; omega)
            (Nat.lt_of_le_of_lt (Nat.mul_le_mul_right 255 (by omega)) h255) (by omega)
            fun i hi => rowByte_rowAt M.wf M.width hcl2 (hch (l1.trans l) hc) hi)
      obtain ⟨o3, e3, D3⟩ := processRowMean_ok P (h := h) (x0 := x0) (y := y + 1) (l2.trans (l1.trans l))
        (fun c i => meanByte ((trimmed (img.window r c (x0 + i) (y + 1)) 1).sum : Nat) H0.len) (fun c H hc i hi => by
          obtain ⟨a, b, s, T, e⟩ := (A2 c H hc).getMean hi
          rw [e, (T.sum_trimmed (by rw [hwl]; omega)).1]) D rfl hx0 (by omega) hj2
      refine ⟨(o3, h2), ?_, l2.trans (l1.trans l), A2, D3.congr fun x' y' _ _ => ?_⟩
      · unfold rowMean
        rw [e1, ok_bind, e2, ok_bind, e3, ok_bind]
      · by_cases hx : x0 ≤ x' ∧ x' < x0 + (2 * h + 1)
        · by_cases hy : y' = y + 1
          · rw [if_pos (show y' = y + 1 ∧ x0 ≤ x' ∧ x' < x0 + (2 * h + 1) from ⟨hy, hx⟩),
              if_pos (show y' < y + 1 + 1 ∧ x0 ≤ x' ∧ x' < x0 + (2 * h + 1) from ⟨by omega, hx⟩), hy]
          · rw [if_neg fun h => hy h.1]
            by_cases hy2 : y' < y + 1
            · rw [if_pos (show y' < y + 1 ∧ x0 ≤ x' ∧ x' < x0 + (2 * h + 1) from ⟨hy2, hx⟩),
                if_pos (show y' < y + 1 + 1 ∧ x0 ≤ x' ∧ x' < x0 + (2 * h + 1) from ⟨by omega, hx⟩)]
            · rw [if_neg fun h => hy2 h.1, if_neg (by omega)]
        · rw [if_neg fun h => hx h.2, if_neg fun h => hx h.2, if_neg fun h => hx h.2])
  refine ⟨s1.1, ?_, D1.congr fun x' y' _ hy => ?_⟩
  · unfold processColsMean
    rw [hnew, ok_bind]
    dsimp only
    rw [e0, ok_bind, e1, ok_bind]
  · by_cases hx : x0 ≤ x' ∧ x' < x0 + (2 * h + 1)
    · rw [if_pos (show y' < img.info.height ∧ x0 ≤ x' ∧ x' < x0 + (2 * h + 1) from ⟨hy, hx⟩), if_pos hx]
    · rw [if_neg fun h => hx h.2, if_neg hx]
end

/-- **C58** (`alpha = 2`, images of every height): if rows `1 .. r` of the image equal row 0, so that the window of the first row is
right, the filter returns, and at every pixel (but the last of each row, if the block size does not divide the width) it stores the
rounded mean of the window without its least and its greatest value. -/
theorem c58_alpha_two_partial (F : Type) [FloatOps F] {bs : BinSearch} (B : bs.Spec) (P : Profile) {img : Image UInt8} {r : Nat} (I : TrimInput F img r)
    (hr : 0 < r) (hrows : ∀ i y, i < img.info.width → y ≤ r → y < img.info.height → img.px i y = img.px i 0) :
    ∃ out, alphaTrimmedMeanFilter F bs P img r 2 = .ok out ∧ out.info = img.info ∧
      ∀ x y, x < img.info.width → y < img.info.height → (x + 1 < img.info.width ∨ medianNCols F r ∣ img.info.width) →
        out.getPixel P x y = .ok ((List.range img.info.channels).map fun c => roundedMean F (trimmed (img.window r c x y) 1)) := by
  obtain ⟨h, hn, M, h255⟩ := I.fits
  have hq9 : 9 ≤ (2 * r + 1) * (2 * r + 1) := by
    have : 3 * 3 ≤ (2 * r + 1) * (2 * r + 1) := Nat.mul_le_mul (by omega) (by omega)
    omega
  obtain ⟨H0, e0, hlen⟩ := MeanHist.new_ok F P (r := r) (n := 2 * h + 1) (alpha := 2) (by omega)
  obtain ⟨out, e, hs⟩ := trim_blocks F bs P hn I.med.wf I.med.width (by omega) (by decide) (by omega)
      (fun X y => (List.range img.info.channels).map fun c => meanByte ((trimmed (img.window r c X y) 1).sum : Nat) H0.len)
      (fun x0 out f hx0 hs => processColsMean_two bs P M hx0 I.fitSum hrows B hr hs e0)
  refine ⟨out, e, hs.info_eq, fun x y hx hy hx2 => ?_⟩
  rw [hs.2.2 P x y hx hy]
  dsimp only
  rw [medianColumn_eq (by omega) hx hx2]
  congr 1
  apply List.map_congr_left
  intro c _
  unfold roundedMean meanByte
  rw [hlen]
  congr 4
  obtain ⟨_, m, _, hsrt, ht⟩ := ends_of_sorted (l := img.window r c x y) (by rw [window_length]; omega)
  have hl := (sortedList_perm (img.window r c x y)).length_eq
  rw [hsrt, window_length, List.length_cons, List.length_append, List.length_singleton] at hl
  rw [ht]
  omega

/-! ### std's binary search meets its contract -/

/-- the search, for a comparison that is first `lt`, then `eq`, then `gt` along the list -/
theorem stdSearch_spec (l : List UInt8) (f : UInt8 → Ordering)
    (hmono : ∀ (i j : Nat) (x y : UInt8), i ≤ j → l[i]? = some x → l[j]? = some y → (f x = .gt → f y = .gt) ∧ (f y = .lt → f x = .lt)) :
    (∀ i, stdSearch l f = .ok i → ∃ x, l[i]? = some x ∧ f x = .eq) ∧
    (∀ i, stdSearch l f = .error i → i ≤ l.length ∧ ∀ j x, l[j]? = some x → f x = if j < i then .lt else .gt) := by
  unfold stdSearch
  by_cases h0 : l.length = 0
  · rw [if_pos h0]
    refine ⟨(by intro i h; cases h), fun i h => ?_⟩
    injection h with h
    refine ⟨by omega, fun j x hj => ?_⟩
    rw [List.getElem?_eq_none (by omega)] at hj
    cases hj
  · rw [if_neg h0]
    dsimp only
    have hg : ∀ j, j < l.length → ∃ x, l[j]? = some x ∧ l.getD j 0 = x := fun j hj =>
      ⟨l[j], List.getElem?_eq_getElem hj, by rw [List.getD_eq_getElem?_getD, List.getElem?_eq_getElem hj]; rfl⟩
    obtain ⟨g1, g2, g3⟩ := stdSearchGo_spec (f := fun i => f (l.getD i 0)) (n := l.length) (by
        intro i j h2 h3 h1
        obtain ⟨x, ex, ex'⟩ := hg i (by omega)
        obtain ⟨y, ey, ey'⟩ := hg j h3
        rw [ex'] at h1
        rw [ey']
        exact (hmono i j x y h2 ex ey).1 h1) l.length 0 l.length (by omega) (by omega) (by omega) (.inl rfl) (by omega)
    generalize stdSearchGo (fun i => f (l.getD i 0)) l.length 0 l.length = b at *
    obtain ⟨x, ex, ex'⟩ := hg b g1
    rw [ex'] at g2 ⊢
    have gafter : ∀ j y, b < j → l[j]? = some y → f y = .gt := by
      intro j y hj hy
      have hjl : j < l.length := by
        rcases Nat.lt_or_ge j l.length with h | h
        · exact h
        · rw [List.getElem?_eq_none h] at hy; cases hy
      obtain ⟨z, ez, ez'⟩ := hg j hjl
      have := g3 j hj hjl
      rw [ez'] at this
      rw [hy] at ez
      injection ez with ez
      rw [ez]; exact this
    cases hx : f x with
    | eq =>
      refine ⟨fun i h => ?_, fun i h => by cases h⟩
      injection h with h
      exact ⟨x, by rw [← h]; exact ex, hx⟩
    | lt =>
      refine ⟨(by intro i h; cases h), fun i h => ?_⟩
      injection h with h
      subst h
      refine ⟨by omega, fun j y hy => ?_⟩
      by_cases hj : j < b + 1
      · rw [if_pos hj]
        exact (hmono j b y x (by omega) hy ex).2 hx
      · rw [if_neg hj]
        exact gafter j y (by omega) hy
    | gt =>
      refine ⟨(by intro i h; cases h), fun i h => ?_⟩
      injection h with h
      subst h
      refine ⟨by omega, fun j y hy => ?_⟩
      have hb0 : b = 0 := g2.resolve_right (fun h => h hx)
      rw [if_neg (by omega)]
      exact (hmono b j x y (by omega) ex hy).1 hx

/-- std's search, as written in its source, meets the contract -/
theorem stdBin_spec : stdBin.Spec := by
  have cmp : ∀ x y : UInt8, (compare x y = .lt ↔ x < y) ∧ (compare x y = .eq ↔ x = y) ∧ (compare x y = .gt ↔ y < x) := fun x y =>
    ⟨Std.LawfulLTCmp.eq_lt_iff_lt, Std.LawfulEqCmp.compare_eq_iff_eq, Std.OrientedCmp.gt_iff_lt.trans Std.LawfulLTCmp.eq_lt_iff_lt⟩
  have hle : ∀ {l : List UInt8}, l.Pairwise (· ≤ ·) → ∀ (i j : Nat) (x y : UInt8), i ≤ j → l[i]? = some x → l[j]? = some y → x ≤ y := by
    intro l hl i j x y hij hx hy
    obtain ⟨h1, rfl⟩ := List.getElem?_eq_some_iff.1 hx
    obtain ⟨h2, rfl⟩ := List.getElem?_eq_some_iff.1 hy
    rcases Nat.lt_or_ge i j with h | h
    · exact List.pairwise_iff_getElem.1 hl i j h1 h2 h
    · have : i = j := by omega
      subst this; exact UInt8.le_refl _
  have hge : ∀ {l : List UInt8}, l.Pairwise (· ≥ ·) → ∀ (i j : Nat) (x y : UInt8), i ≤ j → l[i]? = some x → l[j]? = some y → y ≤ x := by
    intro l hl i j x y hij hx hy
    obtain ⟨h1, rfl⟩ := List.getElem?_eq_some_iff.1 hx
    obtain ⟨h2, rfl⟩ := List.getElem?_eq_some_iff.1 hy
    rcases Nat.lt_or_ge i j with h | h
    · exact List.pairwise_iff_getElem.1 hl i j h1 h2 h
    · have : i = j := by omega
      subst this; exact UInt8.le_refl _
  have A : ∀ (l : List UInt8) v, l.Pairwise (· ≤ ·) → _ := fun l v hl => stdSearch_spec l (fun x => compare x v) (by
    intro i j x y hij hx hy
    have h := hle hl i j x y hij hx hy
    rw [(cmp x v).2.2, (cmp y v).2.2, (cmp x v).1, (cmp y v).1]
    exact ⟨fun h' => UInt8.lt_of_lt_of_le h' h, fun h' => UInt8.lt_of_le_of_lt h h'⟩)
  have D : ∀ (l : List UInt8) v, l.Pairwise (· ≥ ·) → _ := fun l v hl => stdSearch_spec l (fun x => compare v x) (by
    intro i j x y hij hx hy
    have h := hge hl i j x y hij hx hy
    rw [(cmp v x).2.2, (cmp v y).2.2, (cmp v x).1, (cmp v y).1]
    exact ⟨fun h' => UInt8.lt_of_le_of_lt h h', fun h' => UInt8.lt_of_lt_of_le h' h⟩)
  refine ⟨fun l v i hl e => ?_, fun l v i hl e => ?_, fun l v i hl e => ?_, fun l v i hl e => ?_⟩
  · obtain ⟨x, h1, h2⟩ := (A l v hl).1 i e
    rw [(cmp x v).2.1] at h2
    rw [h1, h2]
  · obtain ⟨h1, h2⟩ := (A l v hl).2 i e
    refine ⟨h1, fun j x hx => ?_⟩
    have := h2 j x hx
    by_cases hj : j < i
    · rw [if_pos hj, (cmp x v).1] at this
      exact ⟨UInt8.ne_of_lt this, fun _ => this, fun _ => hj⟩
    · rw [if_neg hj, (cmp x v).2.2] at this
      exact ⟨(UInt8.ne_of_lt this).symm, fun h => absurd h hj, fun h => absurd h (UInt8.lt_asymm this)⟩
  · obtain ⟨x, h1, h2⟩ := (D l v hl).1 i e
    rw [(cmp v x).2.1] at h2
    rw [h1, h2]
  · obtain ⟨h1, h2⟩ := (D l v hl).2 i e
    refine ⟨h1, fun j x hx => ?_⟩
    have := h2 j x hx
    by_cases hj : j < i
    · rw [if_pos hj, (cmp v x).1] at this
      exact ⟨(UInt8.ne_of_lt this).symm, fun _ => this, fun _ => hj⟩
    · rw [if_neg hj, (cmp v x).2.2] at this
      exact ⟨UInt8.ne_of_lt this, fun h => absurd h hj, fun h => absurd h (UInt8.lt_asymm this)⟩

/-! ### the hypotheses are met -/

/-- 3 x 4 image whose first two rows are equal -/
def twoDemo : Image UInt8 := ⟨⟨3, 4, 1, false⟩, [10, 20, 30, 10, 20, 30, 200, 0, 90, 7, 255, 40]⟩

example (P : Profile) : ∃ out, alphaTrimmedMeanFilter ℝ stdBin P twoDemo 1 2 = .ok out ∧ out.info = twoDemo.info ∧
    ∀ x y, x < 3 → y < 4 → (x + 1 < 3 ∨ medianNCols ℝ 1 ∣ 3) →
      out.getPixel P x y = .ok ((List.range 1).map fun c => roundedMean ℝ (trimmed (twoDemo.window 1 c x y) 1)) :=
  c58_alpha_two_partial ℝ stdBin_spec P (trimInput_real ⟨by decide, by decide, by decide, by decide, by decide, rfl⟩ (by decide) (by decide) (by decide) (by decide) (by decide))
    (by decide) (by
      intro i y hi hy _
      have hi : i < 3 := hi
      have key : ∀ i : Fin 3, ∀ y : Fin 2, twoDemo.px i y = twoDemo.px i 0 := by decide
      exact key ⟨i, hi⟩ ⟨y, by omega⟩)
end Imgproc

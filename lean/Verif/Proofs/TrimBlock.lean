import Verif.Proofs.TrimMean
import Verif.Props.Median
/-! First row of one block of columns of the alpha-trimmed mean filter. -/
namespace Imgproc
open FloatOps

/-- sorted copy of a list -/
def sortedList (l : List Nat) : List Nat := l.mergeSort (fun a b => decide (a ≤ b))

theorem sortedList_perm (l : List Nat) : (sortedList l).Perm l := List.mergeSort_perm _ _

theorem sortedList_sorted (l : List Nat) : (sortedList l).Pairwise (· ≤ ·) := by
  have := List.pairwise_mergeSort (le := fun a b : Nat => decide (a ≤ b)) (by intro a b c; simp; omega) (by intro a b; simp; omega) l
  unfold sortedList
  simpa using this

theorem sortedOf_sorted (f : Nat → Nat) (m : Nat) : (sortedOf f m).Pairwise (· ≤ ·) ∧ ∀ v ∈ sortedOf f m, v < m := by
  induction m with
  | zero => exact ⟨List.Pairwise.nil, by intro v hv; cases hv⟩
  | succ m ih =>
    rw [sortedOf_succ]
    refine ⟨List.pairwise_append.2 ⟨ih.1, ?_, ?_⟩, ?_⟩
    · rw [List.pairwise_replicate]; right; exact le_refl _
    · intro a ha b hb
      rw [(List.mem_replicate.1 hb).2]
      exact (ih.2 a ha).le
    · intro v hv
      rcases List.mem_append.1 hv with h | h
      · have := ih.2 v h; omega
      · rw [(List.mem_replicate.1 h).2]; omega

theorem count_sortedOf (f : Nat → Nat) (m v : Nat) : (sortedOf f m).count v = if v < m then f v else 0 := by
  induction m with
  | zero => simp [sortedOf]
  | succ m ih =>
    rw [sortedOf_succ, List.count_append, ih, List.count_replicate]
    by_cases h : m = v
    · subst h; simp
    · have : (m == v) = false := by simpa using h
      rw [this]
      simp only [Bool.false_eq_true, if_false, Nat.add_zero]
      have : v < m ↔ v < m + 1 := by omega
      simp only [this]

theorem sortedOf_count {l : List Nat} (hl : ∀ v ∈ l, v < 256) : sortedOf (fun v => l.count v) 256 = sortedList l := by
  have hp : (sortedOf (fun v => l.count v) 256).Perm (sortedList l) := by
    refine List.Perm.trans ?_ (sortedList_perm l).symm
    rw [List.perm_iff_count]
    intro v
    rw [count_sortedOf]
    split
    · rfl
    · rename_i h
      exact (List.count_eq_zero.2 fun hv => h (hl v hv)).symm
  exact List.Perm.eq_of_pairwise (le := (· ≤ ·)) (fun a b _ _ h1 h2 => Nat.le_antisymm h1 h2) (sortedOf_sorted _ _).1 (sortedList_sorted l) hp

theorem length_sortedOf (f : Nat → Nat) (m : Nat) : (sortedOf f m).length = ((List.range m).map f).sum := by
  unfold sortedOf
  rw [List.length_flatMap]; simp

theorem length_sortedOf_count (l : List Nat) (m : Nat) : (sortedOf (fun v => l.count v) m).length = l.countP (· < m) := by
  have h1 : (sortedOf (fun v => l.count v) m).Perm (l.filter (· < m)) := by
    rw [List.perm_iff_count]
    intro v
    rw [count_sortedOf]
    split
    · rename_i h
      rw [List.count_filter]; simpa using h
    · rename_i h
      exact (List.count_eq_zero.2 fun hv => h (by simpa using (List.mem_filter.1 hv).2)).symm
  rw [h1.length_eq, List.countP_eq_length_filter]

/-- what the code takes for the sum of the values that are left after trimming `trim` at each end -/
def codeSum (l : List Nat) (trim : Nat) : Int :=
  ((sortedList l).sum : Int) - ((sortedList l).take trim).sum -
    (codeUpper (sortedList l) trim fun v => decide (l.length - trim < l.countP (· ≤ v))).sum

/-- the values trimmed at the lower end, ascending -/
def lowerBytes (l : List Nat) (trim : Nat) : List UInt8 := ((sortedList l).take trim).map UInt8.ofNat

/-- the values trimmed by the code at the upper end, descending -/
def upperBytes (l : List Nat) (trim : Nat) : List UInt8 :=
  ((codeUpper (sortedList l) trim fun v => decide (l.length - trim < l.countP (· ≤ v))).map UInt8.ofNat).reverse

theorem initTrim_count (P : Profile) {h : PartialHistograms} {trim i : Nat} {l : List Nat} (hl : ∀ v ∈ l, v < 256)
    (hc : ∀ v, v < 256 → h.getCount P v i = .ok ((l.count v : Nat) : Int)) (hfit : l.length * 255 < 2147483648) :
    ∃ n, initTrim P h trim (l.length - trim) i = .ok (n, codeSum l trim, lowerBytes l trim, upperBytes l trim) := by
  have e := sortedOf_count hl
  refine ⟨((sortedList l).length : Int), ?_⟩
  have := initTrim_spec P (h := h) (trim := trim) (upperTrim := l.length - trim) (i := i) (f := fun v => l.count v) (N := (sortedList l).length)
    hc (by rw [e]) (by rw [(sortedList_perm l).length_eq]; exact hfit)
    (q := fun v => decide (l.length - trim < l.countP (· ≤ v))) (by
      intro v _
      rw [length_sortedOf_count, decide_eq_true_iff]
      simp only [Nat.lt_succ_iff])
  rw [e] at this
  exact this

/-- the values of row 0 in the window around column `x`, each taken `2 r + 1` times -/
def Image.topWindow (img : Image UInt8) (r c x : Nat) : List Nat :=
  (List.range (2 * r + 1)).flatMap fun (_ : Nat) => (List.range (2 * r + 1)).map fun (i : Nat) =>
    img.value c (clampCoord img.info.width ((x : Int) + i - r)) 0

theorem topWindow_lt {img : Image UInt8} {r c x v : Nat} (h : v ∈ img.topWindow r c x) : v < 256 := by
  unfold Image.topWindow at h
  rw [List.mem_flatMap] at h
  obtain ⟨j, _, h⟩ := h
  rw [List.mem_map] at h
  obtain ⟨i, _, rfl⟩ := h
  exact Image.value_lt _ _ _ _

theorem topWindow_length (img : Image UInt8) (r c x : Nat) : (img.topWindow r c x).length = (2 * r + 1) * (2 * r + 1) := by
  unfold Image.topWindow
  rw [List.length_flatMap]
  simp [List.map_const', List.sum_replicate]

theorem rowCount_eq_count (g : Nat → Nat) (size k v : Nat) :
    rowCount g size k v = (((List.range size).map fun (i : Nat) => g (k + i)).count v : Nat) := by
  unfold rowCount
  rw [Finset.sum_Ico_eq_sum_range, Nat.add_sub_cancel_left]
  induction size with
  | zero => rfl
  | succ n ih =>
    rw [Finset.sum_range_succ, ih, List.range_succ, List.map_append, List.count_append, Nat.cast_add]
    congr 1
    unfold ind
    rw [List.map_singleton, List.count_singleton]
    simp only [beq_iff_eq]
    split <;> rfl

theorem count_topWindow (img : Image UInt8) (r x0 c k v : Nat) :
    ((2 * r + 1 : Nat) : Int) * rowCount (rowG img r x0 c 0) (2 * r + 1) k v = ((img.topWindow r c (x0 + k)).count v : Nat) := by
  unfold Image.topWindow
  rw [List.count, countP_flatMap_range]
  rw [rowCount_eq_count]
  rw [Finset.sum_const, Finset.card_range, nsmul_eq_mul]
  congr 2
  rw [List.count]
  congr 1
  apply List.map_congr_left
  intro i _
  unfold rowG
  congr 2
  push_cast; ring

/-- state of one histogram of the alpha-trimmed mean filter -/
structure THolds {F : Type} (H : MeanHist F) (r h trim : Nat) (len : F) (C : Nat → Nat → Int) (S : Nat → Int) (L U : Nat → List UInt8) : Prop where
  data : Holds H.data r h C
  sums : H.sums = (List.range (2 * h + 1)).map S
  lower : H.lower = (List.range (2 * h + 1)).map L
  upper : H.upper = (List.range (2 * h + 1)).map U
  trim : H.trim = trim
  len : H.len = len

/-- a loop over the columns of a block that writes one pixel per column -/
theorem pixel_loop (P : Profile) {α : Type} {n h x0 y : Nat} {body : Nat → Nat → α → List UInt8 → Res (α × List UInt8)}
    (Q : Nat → Nat → α → Prop) (o : Nat → Nat → UInt8)
    (hbody : ∀ i c H, i ≤ 2 * h → c < n → Q i c H → ∀ pOut, ∃ H', body i c H pOut = .ok (H', pOut ++ [o c i]) ∧ Q (i + 1) c H')
    {hists : List α} (hl : hists.length = n) (hQ : ∀ c H, hists[c]? = some H → Q 0 c H)
    {out : Image UInt8} {info : ImageInfo} {f : Nat → Nat → List UInt8} (hs : out.Shows info f)
    (hn : n = info.channels) (hx0 : x0 < info.width) (hfit : x0 + 2 * h + 1 < 4294967296) (hy : y < info.height) :
    ∃ s, (forRange 0 (2 * h + 1) (out, hists) fun i s => do
      let (hists, pOut) ← forHists s.2 (body i)
      let output ← writeClamped P s.1 x0 i y pOut
      .ok (output, hists)) = .ok s ∧
      s.2.length = n ∧ (∀ c H, s.2[c]? = some H → Q (2 * h + 1) c H) ∧
      s.1.Shows info (fun x' y' => if y' = y ∧ x0 ≤ x' ∧ x' < x0 + (2 * h + 1) then
        (List.range n).map (fun c => o c (if x' = info.width - 1 then 2 * h else x' - x0)) else f x' y') := by
  obtain ⟨s, e, h1, h2, h3⟩ := forRange_rule (a := 0) (b := 2 * h + 1) (s := (out, hists)) (f := fun i s => do
      let (hists, pOut) ← forHists s.2 (body i)
      let output ← writeClamped P s.1 x0 i y pOut
      .ok (output, hists))
    (fun m s => s.2.length = n ∧ (∀ c H, s.2[c]? = some H → Q m c H) ∧
      s.1.Shows info (fun x' y' => if y' = y ∧ x0 ≤ x' ∧ x' < x0 + m then
        (List.range n).map (fun c => o c (if x' = info.width - 1 then m - 1 else x' - x0)) else f x' y'))
    (Nat.zero_le _)
    ⟨hl, hQ, by
      refine hs.congr fun x' y' _ _ => ?_
      rw [if_neg (by omega)]⟩
    (by
      rintro m ⟨out, hists⟩ _ hm ⟨hl, B, hs⟩
      dsimp only at hl B hs ⊢
      obtain ⟨l1, e1, hl1, B1⟩ := forHists_rule (hists := hists) (f := body m) (fun c => o c m)
        (fun c H => Q (m + 1) c H)
        (by
          intro c a pOut hc
          have hcn : c < n := by
            rcases Nat.lt_or_ge c n with h | h
            · exact h
            · rw [List.getElem?_eq_none (by omega)] at hc; cases hc
          exact hbody m c a (by omega) hcn (B c a hc) pOut)
      rw [hl] at e1 hl1
      obtain ⟨out', e2, hs'⟩ := writeClamped_shows P hs (x := x0) (i := m) (y := y) (p := (List.range n).map fun c => o c m)
        (by omega) (by omega) hy (by simp [hn])
      refine ⟨(out', l1), ?_, hl1, B1, ?_⟩
      · rw [e1, ok_bind]
        dsimp only
        rw [e2, ok_bind]
      · refine hs'.congr fun x' y' hx' hy' => ?_
        rw [Nat.add_sub_cancel]
        by_cases hyy : y' = y
        · by_cases hxx : x' = min (x0 + m) (info.width - 1)
          · rw [if_pos ⟨hxx, hyy⟩, if_pos (by omega)]
            by_cases hw : x' = info.width - 1
            · rw [if_pos hw]
            · rw [if_neg hw, show x' - x0 = m by omega]
          · rw [if_neg (by tauto)]
            by_cases hr : x0 ≤ x' ∧ x' < x0 + m
            · rw [if_pos ⟨hyy, hr⟩, if_pos (show y' = y ∧ x0 ≤ x' ∧ x' < x0 + (m + 1) by omega)]
              have hw : ¬ x' = info.width - 1 := by omega
              rw [if_neg hw, if_neg hw]
            · rw [if_neg (show ¬ (y' = y ∧ x0 ≤ x' ∧ x' < x0 + m) by tauto),
                if_neg (show ¬ (y' = y ∧ x0 ≤ x' ∧ x' < x0 + (m + 1)) by omega)]
        · rw [if_neg (by tauto), if_neg (by tauto), if_neg (by tauto)])
  exact ⟨s, e, h1, h2, h3⟩

theorem ite_step {α : Type} (g : Nat → α) (z : α) (k i : Nat) :
    (if k = i then g i else if k < i then g k else z) = if k < i + 1 then g k else z := by
  by_cases h : k = i
  · subst h; rw [if_pos rfl, if_pos (by omega)]
  · rw [if_neg h]
    have : k < i ↔ k < i + 1 := by omega
    simp only [this]

/-- byte stored for the sum `s` of `len` values -/
def meanByte {F : Type} [FloatOps F] (s : Int) (len : F) : UInt8 := toU8 (FloatOps.round ((FloatOps.ofInt s : F) /. len))

section
variable {F : Type} [FloatOps F] (bs : BinSearch) (P : Profile) {img : Image UInt8} {r h x0 : Nat} (M : MedianFits img r h)
  (hx0 : x0 < img.info.width) (h255 : (2 * r + 1) * (2 * r + 1) * 255 < 2147483648)
include M hx0 h255

/-- `init_cols_mean`: the histograms hold row 0 of the image `2 r + 1` times; the first row of the block is written -/
theorem initColsMean_ok {alpha : Nat} (ha : alpha < (2 * r + 1) * (2 * r + 1)) {out : Image UInt8} {f : Nat → Nat → List UInt8} (hs : out.Shows img.info f)
    {H0 : MeanHist F} (hnew : MeanHist.new P r (2 * h + 1) alpha = .ok H0) :
    ∃ s, initColsMean bs P img out (List.replicate img.info.channels H0) r alpha (2 * h + 1) x0 = .ok s ∧
      s.2.length = img.info.channels ∧
      (∀ c H, s.2[c]? = some H → THolds H r h (alpha / 2) H0.len
        (fun k v => ((img.topWindow r c (x0 + k)).count v : Nat)) (fun k => codeSum (img.topWindow r c (x0 + k)) (alpha / 2))
        (fun k => lowerBytes (img.topWindow r c (x0 + k)) (alpha / 2))
        (fun k => upperBytes (img.topWindow r c (x0 + k)) (alpha / 2))) ∧
      s.1.Shows img.info (fun x' y' => if y' = 0 ∧ x0 ≤ x' ∧ x' < x0 + (2 * h + 1) then
        (List.range img.info.channels).map (fun c =>
          meanByte (codeSum (img.topWindow r c (x0 + (if x' = img.info.width - 1 then 2 * h else x' - x0))) (alpha / 2)) H0.len) else f x' y') := by
  have hN := M.fitN
  have hW := M.fitW
  have hH := M.fitH
  have hH0 := M.height
  have hq : (2 * r + 1) * (2 * r + 1) = (2 * r + 1) * (2 * r + 1) := rfl
  have hrq : 2 * r + 1 ≤ (2 * r + 1) * (2 * r + 1) := Nat.le_mul_of_pos_left _ (by omega)
  generalize hqq : (2 * r + 1) * (2 * r + 1) = q at *
  have hH0data : Holds H0.data r h (fun _ _ => 0) ∧ H0.sums = [] ∧ H0.trim = alpha / 2 := by
    unfold MeanHist.new at hnew
    dsimp only at hnew
    rw [hqq, usizeSub_ok (by omega), ok_bind] at hnew
    injection hnew with hnew
    subst hnew
    exact ⟨Holds.new r h, rfl, rfl⟩
  unfold initColsMean
  rw [u32Mul_ok (by omega), ok_bind, u32Add_ok (by omega), ok_bind, toI32_of_lt (x := r) (by omega), i32Add_ok (by omega) (by omega), ok_bind,
    wrapInt_ok (by omega) (by omega), ok_bind]
  unfold forRangeI
  rw [show ((r : Int) + 1 - -(r : Int)).toNat = 2 * r + 1 by omega]
  obtain ⟨sh, e, _, _, hl, B⟩ := forRange_rule (a := 0) (b := 2 * r + 1) (s := (([] : List (List UInt8)), List.replicate img.info.channels H0))
    (f := fun k s => do
      let hm ← i32Sub P (toI32 img.info.height) 1
      let lo ← i32Sub P (toI32 x0) (r : Int)
      let a ← u32Add P x0 (usizeToU32 (2 * h + 1))
      let b ← u32Add P a r
      let row ← forRange 0 (toI32 b - lo).toNat s.1 fun k' row => do
          let wm ← i32Sub P (toI32 img.info.width) 1
          let ic ← intClamp (lo + (k' : Int)) 0 wm
          let jc ← intClamp (-(r : Int) + (k : Int)) 0 hm
          let p ← img.getPixelUnchecked P (i32ToU32 ic) (i32ToU32 jc)
          .ok (row ++ [p])
      let hists ← rowMean bs P s.2 row true
      .ok (row, hists))
    (fun m s => (m = 0 → s.1 = []) ∧ (0 < m → ∃ rest, s.1 = rowAt img r x0 (2 * h + (2 * r + 1)) 0 ++ rest) ∧ s.2.length = img.info.channels ∧
      ∀ c H, s.2[c]? = some H → H.sums = [] ∧ H.trim = alpha / 2 ∧ H.len = H0.len ∧
      Holds H.data r h fun a b => (m : Int) * rowCount (rowG img r x0 c 0) (2 * r + 1) a b)
    (Nat.zero_le _)
    ⟨fun _ => rfl, fun h => absurd h (by omega), by simp, fun c H hc => by
      have hH := List.mem_of_getElem? hc
      rw [List.mem_replicate] at hH
      rw [hH.2]
      refine ⟨hH0data.2.1, hH0data.2.2, rfl, hH0data.1.congr fun a b _ _ => ?_⟩
      simp⟩
    (by
      rintro m ⟨row0, s⟩ _ hm ⟨hinit, hrow0, hl, B⟩
      dsimp only at hinit hrow0 hl B ⊢
      rw [toI32_of_lt (x := img.info.height) (by omega), i32Sub_ok (by omega) (by omega), ok_bind, intClamp_coord hH0]
      have hlt := clampCoord_lt hH0 (-(r : Int) + (m : Int))
      have hrow := collectRow P M hx0 (y := i32ToU32 (clampCoord img.info.height (-(r : Int) + (m : Int)))) (by rw [i32ToU32_natCast (by omega)]; exact hlt) row0
        (.ok _) rfl
      rw [toI32_of_lt (x := r) (by omega)] at hrow
      unfold forRangeI at hrow
      simp only [ok_bind] at hrow ⊢
      rw [i32ToU32_natCast (by omega)] at hrow ⊢
      have hpre : ∃ rest, row0 ++ rowAt img r x0 (2 * h + (2 * r + 1)) (clampCoord img.info.height (-(r : Int) + (m : Int))) =
          rowAt img r x0 (2 * h + (2 * r + 1)) 0 ++ rest := by
        rcases Nat.eq_zero_or_pos m with rfl | hm0
        · have h0 : clampCoord img.info.height (-(r : Int) + ((0 : Nat) : Int)) = 0 := by unfold clampCoord; omega
          have hr0 : row0 = [] := hinit rfl
          exact ⟨[], by rw [h0, hr0]; simp⟩
        · obtain ⟨rest, e⟩ := hrow0 hm0
          exact ⟨rest ++ _, by rw [e, List.append_assoc]⟩
      generalize row0 ++ rowAt img r x0 (2 * h + (2 * r + 1)) (clampCoord img.info.height (-(r : Int) + (m : Int))) = row at *
      obtain ⟨l, e, h1, h2⟩ := forEnum_map_rule (l := s) (f := fun c H => H.update bs P row c true)
        (fun c H => H.sums = [] ∧ H.trim = alpha / 2 ∧ H.len = H0.len ∧
          Holds H.data r h fun a b => ((m + 1 : Nat) : Int) * rowCount (rowG img r x0 c 0) (2 * r + 1) a b)
        (by
          intro c H hc
          have hcn : c < img.info.channels := by
            rcases Nat.lt_or_ge c img.info.channels with h | h
            · exact h
            · rw [List.getElem?_eq_none (by omega)] at hc; cases hc
          obtain ⟨b1, b2, b3, b4⟩ := B c H hc
          obtain ⟨rest, hrest⟩ := hpre
          have hv : RowVals row c (2 * h + (2 * r + 1)) (rowG img r x0 c 0) := by
            intro i hi
            have := rowVals_rowAt (r := r) (x0 := x0) (len := 2 * h + (2 * r + 1)) M.wf M.width hH0 hcn i hi
            refine ⟨?_, this.2⟩
            rw [← this.1, hrest]
            unfold rowVal idx
            rw [List.getElem?_append_left (by unfold rowAt; simpa using hi)]
          obtain ⟨d, e, hd⟩ := b4.update' P (M := q) (fun a b _ _ => by
              have h1 := rowCount_bounds (rowG img r x0 c 0) (2 * r + 1) a b
              rw [abs_of_nonneg (mul_nonneg (Int.natCast_nonneg _) h1.1), ← hqq]
              push_cast
              refine mul_le_mul (by exact_mod_cast hm.le) (by exact_mod_cast h1.2) h1.1 (by positivity))
            (by omega) hv true
          refine ⟨{ H with data := d }, ?_, b1, b2, b3, hd.congr fun a b _ _ => ?_⟩
          · unfold MeanHist.update
            rw [if_neg (by simpa using b1), e, ok_bind]
          · unfold sign
            rw [if_pos rfl]
            push_cast; ring)
      refine ⟨(row, l), ?_, fun h => absurd h (by omega), fun _ => hpre, h1.trans hl, h2⟩
      unfold usizeToU32 at hrow ⊢
      rw [toI32_of_lt (x := x0) (by omega), i32Sub_ok (by omega) (by omega), ok_bind, Nat.mod_eq_of_lt (by omega), u32Add_ok (by omega), ok_bind,
        u32Add_ok (by omega), ok_bind] at hrow ⊢
      rw [hrow, ok_bind]
      unfold rowMean
      rw [e, ok_bind])
  rw [e, ok_bind]
  dsimp only
  rw [u32Mul_ok (by rw [hqq]; omega), ok_bind, hqq, usizeSub_ok (by omega), ok_bind]
  obtain ⟨s, e, h1, h2, h3⟩ := pixel_loop P (x0 := x0) (y := 0) (hists := sh.2.map MeanHist.init)
    (body := fun i _ h pOut => do
      let r ← initTrim P h.data (alpha / 2) (q - alpha / 2) i
      let sums ← setIdx h.sums i r.2.1
      let upper ← setIdx h.upper i r.2.2.2
      let lower ← setIdx h.lower i r.2.2.1
      let h : MeanHist F := { h with sums := sums, upper := upper, lower := lower }
      let m ← h.getMean i
      .ok (h, pOut ++ [m]))
    (fun i c H => THolds H r h (alpha / 2) H0.len (fun k v => ((img.topWindow r c (x0 + k)).count v : Nat))
        (fun k => if k < i then codeSum (img.topWindow r c (x0 + k)) (alpha / 2) else 0)
        (fun k => if k < i then lowerBytes (img.topWindow r c (x0 + k)) (alpha / 2) else [])
        (fun k => if k < i then upperBytes (img.topWindow r c (x0 + k)) (alpha / 2) else []))
    (fun c k => meanByte (codeSum (img.topWindow r c (x0 + k)) (alpha / 2)) H0.len)
    (by
      intro i c H hi hc A pOut
      have hlen : (img.topWindow r c (x0 + i)).length = q := by rw [topWindow_length, hqq]
      have hcnt : ∀ v, ((img.topWindow r c (x0 + i)).count v : Int) ≤ q := fun v => by
        rw [← hlen]; exact_mod_cast List.count_le_length
      obtain ⟨n, e⟩ := initTrim_count P (h := H.data) (trim := alpha / 2) (i := i) (l := img.topWindow r c (x0 + i)) (fun v hv => topWindow_lt hv)
        (fun v hv => A.data.getCount P hi hv (by
          rw [abs_of_nonneg (Int.natCast_nonneg _)]
          have := hcnt v
          omega)) (by rw [hlen]; exact h255)
      rw [hlen] at e
      dsimp only
      rw [e, ok_bind]
      dsimp only
      rw [A.sums, A.lower, A.upper, setIdx_ok (by simp; omega), ok_bind, setIdx_ok (by simp; omega), ok_bind, setIdx_ok (by simp; omega), ok_bind,
        set_map_range, set_map_range, set_map_range]
      unfold MeanHist.getMean
      dsimp only
      rw [idx_map_range _ (by omega), ok_bind]
      rw [if_pos rfl, A.len, ok_bind]
      refine ⟨_, rfl, ?_⟩
      refine ⟨A.data, ?_, ?_, ?_, A.trim, rfl⟩
      · apply List.map_congr_left
        intro k _
        exact ite_step (fun k => codeSum (img.topWindow r c (x0 + k)) (alpha / 2)) _ _ _
      · apply List.map_congr_left
        intro k _
        exact ite_step (fun k => lowerBytes (img.topWindow r c (x0 + k)) (alpha / 2)) _ _ _
      · apply List.map_congr_left
        intro k _
        exact ite_step (fun k => upperBytes (img.topWindow r c (x0 + k)) (alpha / 2)) _ _ _)
    (by simpa using hl)
    (by
      intro c H hc
      rw [List.getElem?_map] at hc
      cases hcc : sh.2[c]? with
      | none => rw [hcc] at hc; cases hc
      | some H1 =>
        rw [hcc] at hc
        injection hc with hc
        subst hc
        obtain ⟨b1, b2, b3, b4⟩ := B c H1 hcc
        refine ⟨b4.congr fun a b _ _ => count_topWindow _ _ _ _ _ _, ?_, ?_, ?_, b2, b3⟩
        all_goals
          unfold MeanHist.init
          dsimp only
          rw [b4.nCols]
          simp)
    hs rfl hx0 (by omega) hH0
  refine ⟨s, e, h1, fun c H hc => ?_, h3⟩
  have A := h2 c H hc
  refine ⟨A.data, A.sums.trans ?_, A.lower.trans ?_, A.upper.trans ?_, A.trim, A.len⟩
  all_goals
    apply List.map_congr_left
    intro k hk
    rw [if_pos (List.mem_range.1 hk)]
end
end Imgproc

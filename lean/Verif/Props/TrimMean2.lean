import Verif.Props.TrimMean
import Verif.Proofs.Par
/-! C58: the first row of `alpha_trimmed_mean_filter` on images of any height, and inputs on which the filter panics. -/
namespace Imgproc
open FloatOps

/-! ### the first row -/

/-- the image has this header and these pixels in row 0 -/
def TopRow (info : ImageInfo) (V : Nat → List UInt8) (out : Image UInt8) : Prop :=
  out.WF ∧ out.info = info ∧ ∀ x, x < info.width → 0 < info.height → out.px x 0 = V x

theorem writeClamped_top (P : Profile) {info : ImageInfo} {V : Nat → List UInt8} {out out' : Image UInt8} (h : TopRow info V out)
    {x i y : Nat} {p : List UInt8} (hy : y ≠ 0) (e : writeClamped P out x i y p = .ok out') : TopRow info V out' := by
  obtain ⟨wf, rfl, hV⟩ := h
  unfold writeClamped at e
  obtain ⟨_, _, e⟩ := bind_eq_ok e
  obtain ⟨_, _, e⟩ := bind_eq_ok e
  obtain ⟨xc, _, e⟩ := bind_eq_ok e
  obtain ⟨hx, hyy, hp⟩ := (c02_set_pixel P out wf xc y p).1.1 ⟨_, e⟩
  rw [Image.setPixel_eq P wf hx hyy hp] at e
  injection e with e
  subst e
  refine ⟨Image.write_WF wf (row_lt hx hyy) hp, rfl, fun x' hx' h0 => ?_⟩
  rw [Image.px_write wf hx hyy hx' h0 hp, if_neg (by omega)]
  exact hV x' hx' h0

theorem processRowMean_top {F : Type} [FloatOps F] (P : Profile) {info : ImageInfo} {V : Nat → List UInt8} {out out' : Image UInt8}
    (h : TopRow info V out) {hists : List (MeanHist F)} {n x y : Nat} (hy : y ≠ 0)
    (e : processRowMean P out hists n x y = .ok out') : TopRow info V out' := by
  unfold processRowMean at e
  refine forRange_preserves (TopRow info V) (fun k s s' hs es => ?_) h e
  obtain ⟨_, _, es⟩ := bind_eq_ok es
  exact writeClamped_top P hs hy es

/-- **C58** (first row, images of every height): whenever the filter returns, the first row is computed from a window that
holds the first row of the image `2 r + 1` times, instead of the rows around it. -/
theorem c58_first_row_exact (F : Type) [FloatOps F] (bs : BinSearch) (P : Profile) {img out : Image UInt8} {r alpha : Nat} (I : TrimInput F img r)
    (ha2 : alpha % 2 = 0) (ha : alpha < (2 * r + 1) * (2 * r + 1)) (hout : alphaTrimmedMeanFilter F bs P img r alpha = .ok out)
    {x : Nat} (hx : x < img.info.width) :
    out.getPixel P x 0 = .ok ((List.range img.info.channels).map fun c => meanByte
        (codeSum (img.topWindow r c (medianColumn img.info.width (medianNCols F r) x)) (alpha / 2))
        (ofNat ((2 * r + 1) * (2 * r + 1) - alpha) : F)) := by
  obtain ⟨h, hn, M, h255⟩ := I.fits
  obtain ⟨H0, e0, hlen⟩ := MeanHist.new_ok F P (r := r) (n := 2 * h + 1) ha
  have h2r : 2 * r + 1 ≤ (2 * r + 1) * (2 * r + 1) := Nat.le_mul_of_pos_left _ (by omega)
  rw [hn, ← hlen]
  have hH := M.height
  generalize hV : (fun X => (List.range img.info.channels).map fun c => meanByte (codeSum (img.topWindow r c X) (alpha / 2)) H0.len) = V
  have hblock : ∀ x0 o o', x0 < img.info.width → o.WF → o.info = img.info → processColsMean bs P F img o r alpha (2 * h + 1) x0 = .ok o' →
      TopRow img.info (fun x' => if x0 ≤ x' ∧ x' < x0 + (2 * h + 1) then V (x0 + (if x' = img.info.width - 1 then 2 * h else x' - x0)) else o.px x' 0) o' := by
    intro x0 o o' hx0 wo io e
    have hs : o.Shows img.info o.px := by have := wo.shows; rw [io] at this; exact this
    obtain ⟨s, es, _, _, hs'⟩ := initColsMean_ok bs P M hx0 h255 ha hs e0
    unfold processColsMean at e
    rw [e0, ok_bind] at e
    dsimp only at e
    rw [es, ok_bind] at e
    obtain ⟨s', e1, e2⟩ := bind_eq_ok e
    injection e2 with e2
    subst e2
    refine forRange_inv (fun _ (s : Image UInt8 × List (MeanHist F)) => TopRow img.info _ s.1) (by omega) ?_ ?_ e1
    · intro k t t' hk _ ht et
      obtain ⟨_, _, et⟩ := bind_eq_ok et
      obtain ⟨_, _, et⟩ := bind_eq_ok et
      obtain ⟨_, _, et⟩ := bind_eq_ok et
      obtain ⟨_, _, et⟩ := bind_eq_ok et
      obtain ⟨_, _, et⟩ := bind_eq_ok et
      obtain ⟨o2, eo, et⟩ := bind_eq_ok et
      injection et with et
      subst et
      exact processRowMean_top P ht (by omega) eo
    · refine ⟨hs'.WF, hs'.info_eq, fun x' hx' _ => ?_⟩
      rw [hs'.px_eq hx' hH]
      subst hV
      dsimp only
      by_cases hc : x0 ≤ x' ∧ x' < x0 + (2 * h + 1)
      · rw [if_pos ⟨rfl, hc⟩, if_pos hc]
      · rw [if_neg (by tauto), if_neg hc]
  unfold alphaTrimmedMeanFilter at hout
  rw [u32Mul_ok (by omega), ok_bind, u32Add_ok (by omega), ok_bind, checkEven_u32_ok ha2, ok_bind, u32Mul_ok (by omega), ok_bind, if_neg (by omega)] at hout
  dsimp only at hout
  rw [hn] at hout
  obtain ⟨out0, eb, hs0⟩ := Image.blank_eq P u8Num (info := img.info) I.med.wf.infoWF
  rw [eb, ok_bind] at hout
  unfold forStep at hout
  rw [if_neg (by omega), hs0.info_eq, Nat.sub_zero] at hout
  have key := forRange_inv (fun m (s : Image UInt8) => s.WF ∧ s.info = img.info ∧ ∀ x, x < img.info.width → x < m * (2 * h + 1) →
      s.px x 0 = V (medianColumn img.info.width (2 * h + 1) x)) (Nat.zero_le _) (by
      rintro m s s' _ hm ⟨w1, w2, w3⟩ es
      have hx0 : m * (2 * h + 1) < img.info.width := by
        have := (Nat.lt_div_iff_mul_lt (by omega)).1 hm
        omega
      rw [Nat.zero_add] at es
      obtain ⟨v1, v2, v3⟩ := hblock _ s s' hx0 w1 w2 es
      refine ⟨v1, v2, fun x hx hxm => ?_⟩
      rw [v3 x hx hH]
      dsimp only
      rw [show (m + 1) * (2 * h + 1) = m * (2 * h + 1) + (2 * h + 1) from Nat.succ_mul _ _] at hxm
      by_cases h1 : m * (2 * h + 1) ≤ x ∧ x < m * (2 * h + 1) + (2 * h + 1)
      · rw [if_pos h1]
        congr 1
        unfold medianColumn
        by_cases hxw : x = img.info.width - 1
        · rw [if_pos hxw, if_pos hxw, Nat.add_sub_cancel]
          congr 2
          rw [← hxw]
          exact (Nat.div_eq_of_lt_le h1.1 (by rw [Nat.succ_mul]; exact h1.2)).symm
        · rw [if_neg hxw, if_neg hxw]; omega
      · rw [if_neg h1]
        exact w3 x hx (by omega))
    ⟨hs0.WF, hs0.info_eq, fun x _ h => absurd h (by omega)⟩ hout
  obtain ⟨w1, w2, w3⟩ := key
  rw [Image.getPixel_eq P w1 (by rw [w2]; exact hx) (by rw [w2]; exact hH), w3 x hx ?_, ← hV]
  have h1 := Nat.lt_div_mul_add (a := img.info.width + (2 * h + 1) - 1) (b := 2 * h + 1) (by omega)
  omega

theorem topWindow_eq_window_of {img : Image UInt8} {r c x : Nat}
    (h : ∀ i y, i < img.info.width → y ≤ r → y < img.info.height → img.px i y = img.px i 0) (hw : 0 < img.info.width) (hh : 0 < img.info.height) :
    img.topWindow r c x = img.window r c x 0 := by
  unfold Image.topWindow Image.window
  apply List.flatMap_congr
  intro j hj
  apply List.map_congr_left
  intro i _
  unfold Image.value
  rw [h _ _ (clampCoord_lt hw _) ?_ (clampCoord_lt hh _)]
  have := List.mem_range.1 hj
  unfold clampCoord
  omega

/-- **C58** (first row, partly): if the rows up to row `r` equal the first one, the first row of the result is the rounded trimmed mean at
every pixel (but the last of the row, if the block size does not divide the width) whose window is `CleanTop`. -/
theorem c58_first_row_partial (F : Type) [FloatOps F] (bs : BinSearch) (P : Profile) {img out : Image UInt8} {r alpha : Nat} (I : TrimInput F img r)
    (ha2 : alpha % 2 = 0) (ha : alpha < (2 * r + 1) * (2 * r + 1)) (hout : alphaTrimmedMeanFilter F bs P img r alpha = .ok out)
    (hrows : ∀ i y, i < img.info.width → y ≤ r → y < img.info.height → img.px i y = img.px i 0)
    {x : Nat} (hx : x < img.info.width) (hx2 : x + 1 < img.info.width ∨ medianNCols F r ∣ img.info.width)
    (hc : ∀ c, c < img.info.channels → CleanTop (sortedList (img.window r c x 0)) (alpha / 2)) :
    out.getPixel P x 0 = .ok ((List.range img.info.channels).map fun c => roundedMean F (trimmed (img.window r c x 0) (alpha / 2))) := by
  rw [c58_first_row_exact F bs P I ha2 ha hout hx]
  have hn : 0 < medianNCols F r := by have := medianNCols_odd F r; omega
  rw [medianColumn_eq hn hx hx2]
  congr 1
  apply List.map_congr_left
  intro c hc'
  rw [topWindow_eq_window_of hrows I.med.width I.med.height]
  have := roundedMean_trimmed F (l := img.window r c x 0) ha2 (by rw [window_length]; exact ha) (hc c (List.mem_range.1 hc'))
  rw [window_length] at this
  exact this

/-! ### a concrete binary search and inputs on which the filter fails -/

/-- the loop of `core::slice::binary_search_by` (`size` is the length of the part still to be searched, from `base` on) -/
def stdSearchGo (f : Nat → Ordering) : Nat → Nat → Nat → Nat
  | 0, base, _ => base
  | fuel + 1, base, size =>
    if 1 < size then stdSearchGo f fuel (if f (base + size / 2) = .gt then base else base + size / 2) (size - size / 2) else base

/-- `core::slice::binary_search_by` -/
def stdSearch (l : List UInt8) (f : UInt8 → Ordering) : Except Nat Nat :=
  if l.length = 0 then .error 0
  else
    let g := fun i => f (l.getD i 0)
    let b := stdSearchGo g l.length 0 l.length
    match g b with
    | .eq => .ok b
    | .lt => .error (b + 1)
    | .gt => .error b

theorem stdSearchGo_spec {f : Nat → Ordering} {n : Nat} (hgt : ∀ i j, i ≤ j → j < n → f i = .gt → f j = .gt) :
    ∀ (fuel base size : Nat), size ≤ fuel + 1 → 0 < size → base + size ≤ n → (base = 0 ∨ f base ≠ .gt) →
      (∀ j, base + size ≤ j → j < n → f j = .gt) →
      stdSearchGo f fuel base size < n ∧ (stdSearchGo f fuel base size = 0 ∨ f (stdSearchGo f fuel base size) ≠ .gt) ∧
        ∀ j, stdSearchGo f fuel base size < j → j < n → f j = .gt := by
  intro fuel
  induction fuel with
  | zero =>
    intro base size h1 h2 h3 h4 h5
    unfold stdSearchGo
    exact ⟨by omega, h4, fun j hj hn => h5 j (by omega) hn⟩
  | succ fuel ih =>
    intro base size h1 h2 h3 h4 h5
    unfold stdSearchGo
    by_cases hs : 1 < size
    · rw [if_pos hs]
      by_cases hc : f (base + size / 2) = .gt
      · rw [if_pos hc]
        refine ih base (size - size / 2) (by omega) (by omega) (by omega) h4 fun j hj hn => ?_
        exact hgt _ j (by omega) hn hc
      · rw [if_neg hc]
        exact ih (base + size / 2) (size - size / 2) (by omega) (by omega) (by omega) (.inr hc) fun j hj hn => h5 j (by omega) hn
    · rw [if_neg hs]
      exact ⟨by omega, h4, fun j hj hn => h5 j (by omega) hn⟩

/-- the search is right on sorted input: `Ok p` is a position holding the key, `Err p` the insertion point -/
theorem stdSearch_lawful (l : List UInt8) (f : UInt8 → Ordering)
    (hgt : ∀ i j, i ≤ j → j < l.length → f (l.getD i 0) = .gt → f (l.getD j 0) = .gt)
    (hlt : ∀ i j, i ≤ j → j < l.length → f (l.getD j 0) = .lt → f (l.getD i 0) = .lt) :
    match stdSearch l f with
    | .ok p => p < l.length ∧ f (l.getD p 0) = .eq
    | .error p => p ≤ l.length ∧ (∀ i < p, f (l.getD i 0) = .lt) ∧ ∀ i, p ≤ i → i < l.length → f (l.getD i 0) = .gt := by
  unfold stdSearch
  by_cases h0 : l.length = 0
  · rw [if_pos h0]
    exact ⟨by omega, fun i hi => by omega, fun i _ hi => by omega⟩
  · rw [if_neg h0]
    dsimp only
    obtain ⟨h1, h2, h3⟩ := stdSearchGo_spec (f := fun i => f (l.getD i 0)) (n := l.length) hgt l.length 0 l.length (by omega) (by omega)
      (by omega) (.inl rfl) (fun j hj hn => by omega)
    generalize stdSearchGo (fun i => f (l.getD i 0)) l.length 0 l.length = b at *
    cases hb : f (l.getD b 0) with
    | eq => exact ⟨h1, hb⟩
    | lt => exact ⟨h1, fun i hi => hlt i b (by omega) h1 hb, fun i hi hn => h3 i (by omega) hn⟩
    | gt =>
      rcases h2 with rfl | h2
      · exact ⟨by omega, fun i hi => by omega, fun i _ hn => hgt 0 i (by omega) hn hb⟩
      · exact absurd hb h2

/-- the searches of src/filter/median.rs:421, 428, 474, 491 with the standard library's algorithm -/
def stdBin : BinSearch where
  asc l v := stdSearch l fun x => compare x v
  desc l v := stdSearch l fun x => compare v x

/-- does the computation end in a panic? -/
def isPanic {α} : Res α → Bool
  | .error (.panic _) => true
  | _ => false

theorem panics_of_isPanic {α} {r : Res α} (h : isPanic r = true) : Res.Panics r := by
  match r, h with
  | .error (.panic k), _ => exact ⟨k, rfl⟩

/-- does the computation return? -/
def isOk {α} : Res α → Bool
  | .ok _ => true
  | _ => false

theorem returns_of_isOk {α} {r : Res α} (h : isOk r = true) : Res.Returns r := by
  match r, h with
  | .ok a, _ => exact ⟨a, rfl⟩

/-- one column of eight rows -/
def panicCol : Image UInt8 := ⟨⟨1, 8, 1, false⟩, [0, 0, 2, 1, 2, 2, 2, 3]⟩

open Lean Elab Tactic in
/-- let the kernel evaluate both sides of a Boolean equation `.. = true` (free variables allowed) -/
elab "kernel_eval" : tactic => do
  (← getMainGoal).assign (mkApp2 (mkConst ``Eq.refl [1]) (mkConst ``Bool) (mkConst ``true))

set_option maxRecDepth 100000 in
/-- **C58 is violated** (panic): a valid even `alpha` on a valid image makes the filter panic, in every profile and floating-point type (that puts
five columns into a block, as 4 * 1^(2/3) rounded up to odd does). -/
theorem c58_panics (F : Type) [FloatOps F] (P : Profile) (hn : medianNCols F 1 = 5) :
    panicCol.WF ∧ 8 % 2 = 0 ∧ 8 < (2 * 1 + 1) * (2 * 1 + 1) ∧ Res.Panics (alphaTrimmedMeanFilter F stdBin P panicCol 1 8) := by
  refine ⟨⟨by decide, by decide, by decide, by decide, by decide, rfl⟩, rfl, by decide, panics_of_isPanic ?_⟩
  unfold alphaTrimmedMeanFilter
  dsimp only
  rw [hn]
  kernel_eval

theorem medianNCols_real_one : medianNCols ℝ 1 = 5 := by
  unfold medianNCols
  simp only [Ideal.ofNat_eq, Ideal.pow_eq, Nat.cast_one, Real.one_rpow, Ideal.mul_eq, Ideal.num_eq, mul_one, Ideal.floor_eq, Int.floor_intCast]
  unfold toUsize
  rw [Ideal.toInt_eq, realTrunc_int]
  decide

/-- two rows: 0 above 90 -/
def zeroNinety : Image UInt8 := ⟨⟨1, 2, 1, false⟩, [0, 90]⟩

theorem zeroNinety_input : TrimInput ℝ zeroNinety 1 :=
  trimInput_real ⟨by decide, by decide, by decide, by decide, by decide, rfl⟩ (by decide) (by decide) (by decide) (by decide) (by decide)

theorem zeroNinety_top : sortedList (zeroNinety.topWindow 1 0 4) = [0, 0, 0, 0, 0, 0, 0, 0, 0] := by
  refine List.Perm.eq_of_pairwise (le := (· ≤ ·)) (fun a b _ _ h1 h2 => Nat.le_antisymm h1 h2) (sortedList_sorted _) (by decide) ?_
  exact (sortedList_perm _).trans (by decide)

theorem zeroNinety_sorted : sortedList (zeroNinety.window 1 0 0 0) = [0, 0, 0, 0, 0, 0, 90, 90, 90] := by
  refine List.Perm.eq_of_pairwise (le := (· ≤ ·)) (fun a b _ _ h1 h2 => Nat.le_antisymm h1 h2) (sortedList_sorted _) (by decide) ?_
  exact (sortedList_perm _).trans (by decide)

set_option maxRecDepth 100000 in
/-- **C58 is violated** (two rows, the smallest `alpha`): the window of the upper pixel of 0, 90 holds six zeros and three times 90, its trimmed mean
is 180 / 7, rounded 26, but the code returns 0. -/
theorem c58_violated_first_row (P : Profile) : TrimInput ℝ zeroNinety 1 ∧ trimmed (zeroNinety.window 1 0 0 0) 1 = [0, 0, 0, 0, 0, 90, 90] ∧
    roundedMean ℝ [0, 0, 0, 0, 0, 90, 90] = 26 ∧
    ∃ out, alphaTrimmedMeanFilter ℝ stdBin P zeroNinety 1 2 = .ok out ∧ out.getPixel P 0 0 = .ok [0] := by
  have hret : Res.Returns (alphaTrimmedMeanFilter ℝ stdBin P zeroNinety 1 2) := by
    apply returns_of_isOk
    unfold alphaTrimmedMeanFilter
    dsimp only
    rw [medianNCols_real_one]
    kernel_eval
  refine ⟨zeroNinety_input, ?_, ?_, ?_⟩
  · unfold trimmed
    rw [zeroNinety_sorted]
    decide
  · unfold roundedMean
    have : realRound ((((180 : Nat) : Int) : ℝ) / ((7 : Nat) : ℝ)) = 26 := by
      unfold realRound
      rw [if_pos (by positivity), Int.floor_eq_iff]
      constructor <;> (push_cast; norm_num)
    simp only [Ideal.div_eq, Ideal.ofInt_eq, Ideal.ofNat_eq, Ideal.round_eq]
    rw [show ([0, 0, 0, 0, 0, 90, 90] : List Nat).sum = 180 from rfl, show ([0, 0, 0, 0, 0, 90, 90] : List Nat).length = 7 from rfl, this]
    unfold toU8
    rw [Ideal.toInt_eq, realTrunc_int]
    decide
  · obtain ⟨out, e⟩ := hret
    refine ⟨out, e, ?_⟩
    rw [c58_first_row_exact ℝ stdBin P zeroNinety_input (by decide) (by decide) e (x := 0) (by decide), medianNCols_real_one,
      show medianColumn zeroNinety.info.width 5 0 = 4 from rfl]
    have hs : codeSum (zeroNinety.topWindow 1 0 4) (2 / 2) = 0 := by
      unfold codeSum
      rw [zeroNinety_top]
      decide
    show Except.ok [meanByte (codeSum (zeroNinety.topWindow 1 0 4) (2 / 2)) _] = _
    rw [hs]
    have : meanByte 0 (ofNat ((2 * 1 + 1) * (2 * 1 + 1) - 2) : ℝ) = 0 := by
      unfold meanByte
      simp only [Ideal.div_eq, Ideal.ofInt_eq, Ideal.round_eq, Int.cast_zero, zero_div]
      have : realRound 0 = 0 := by unfold realRound; rw [if_pos le_rfl, Int.floor_eq_iff]; constructor <;> (push_cast; norm_num)
      rw [this]
      unfold toU8
      rw [Ideal.toInt_eq, realTrunc_int]
      decide
    rw [this]

end Imgproc

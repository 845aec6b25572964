import Verif.Proofs.TrimTop
import Verif.Proofs.TrimConst
import Verif.Props.Median2
import Verif.Props.Scale4
import Verif.Proofs.IEEE
/-! C58: what `alpha_trimmed_mean_filter` computes. -/
namespace Imgproc
open FloatOps

/-- **Specification**: the values left when the `t` lowest and the `t` highest of the list are discarded -/
def trimmed (l : List Nat) (t : Nat) : List Nat := ((sortedList l).drop t).take (l.length - 2 * t)

/-- **Specification**: rounded mean of a list of values, as a byte -/
def roundedMean (F : Type) [FloatOps F] (l : List Nat) : UInt8 :=
  toU8 (FloatOps.round ((FloatOps.ofInt ((l.sum : Nat) : Int) : F) /. ofNat l.length))

/-- sizes the 32-bit arithmetic of the filter can handle -/
structure TrimInput (F : Type) [FloatOps F] (img : Image UInt8) (r : Nat) : Prop where
  med : MedianInput F img r
  fitSum : (2 * r + 2) * (2 * r + 2) * 255 < 2147483648

/-- **C58** (bad arguments): an odd `alpha` is refused, whatever the image. -/
theorem c58_odd_alpha (F : Type) [FloatOps F] (bs : BinSearch) (P : Profile) (img : Image UInt8) {r alpha : Nat}
    (hr : 2 * r + 1 < 4294967296) (ha : alpha % 2 = 1) : (alphaTrimmedMeanFilter F bs P img r alpha).InvalidArg := by
  unfold alphaTrimmedMeanFilter
  rw [u32Mul_ok (by omega), ok_bind, u32Add_ok (by omega), ok_bind]
  have : checkEven u32Num alpha = invalidArg := by
    unfold checkEven
    have : u32Num.rem alpha (u32Num.ofU8 2) = .ok (alpha % 2) := by rfl
    rw [this, ok_bind, ha]; rfl
  rw [this]; rfl

/-- **C58** (bad arguments): `alpha ≥ (2 r + 1)^2` is refused. -/
theorem c58_large_alpha (F : Type) [FloatOps F] (bs : BinSearch) (P : Profile) (img : Image UInt8) {r alpha : Nat}
    (hr : (2 * r + 1) * (2 * r + 1) < 4294967296) (ha : (2 * r + 1) * (2 * r + 1) ≤ alpha) :
    (alphaTrimmedMeanFilter F bs P img r alpha).InvalidArg := by
  have h2r : 2 * r + 1 ≤ (2 * r + 1) * (2 * r + 1) := Nat.le_mul_of_pos_left _ (by omega)
  unfold alphaTrimmedMeanFilter
  rw [u32Mul_ok (by omega), ok_bind, u32Add_ok (by omega), ok_bind]
  rcases Nat.mod_two_eq_zero_or_one alpha with h | h
  · have : checkEven u32Num alpha = .ok () := by
      unfold checkEven
      have : u32Num.rem alpha (u32Num.ofU8 2) = .ok (alpha % 2) := by rfl
      rw [this, ok_bind, h]; rfl
    rw [this, ok_bind, u32Mul_ok hr, ok_bind, if_pos ha]; rfl
  · have : checkEven u32Num alpha = invalidArg := by
      unfold checkEven
      have : u32Num.rem alpha (u32Num.ofU8 2) = .ok (alpha % 2) := by rfl
      rw [this, ok_bind, h]; rfl
    rw [this]; rfl

theorem checkEven_u32_ok {n : Nat} (h : n % 2 = 0) : checkEven u32Num n = .ok () := by
  unfold checkEven
  have : u32Num.rem n (u32Num.ofU8 2) = .ok (n % 2) := by rfl
  rw [this, ok_bind, h]; rfl

theorem MeanHist.new_ok (F : Type) [FloatOps F] (P : Profile) {r n alpha : Nat} (ha : alpha < (2 * r + 1) * (2 * r + 1)) :
    ∃ H : MeanHist F, MeanHist.new P r n alpha = .ok H ∧ H.len = ofNat ((2 * r + 1) * (2 * r + 1) - alpha) := by
  unfold MeanHist.new
  dsimp only
  rw [usizeSub_ok (by omega), ok_bind]
  exact ⟨_, rfl, rfl⟩

/-- the block loop: every block writes its columns -/
theorem trim_blocks (F : Type) [FloatOps F] (bs : BinSearch) (P : Profile) {img : Image UInt8} {r alpha h : Nat} (hn : medianNCols F r = 2 * h + 1)
    (wf : img.WF) (hw : 0 < img.info.width) (hfit : (2 * r + 1) * (2 * r + 1) < 4294967296)
    (ha2 : alpha % 2 = 0) (ha : alpha < (2 * r + 1) * (2 * r + 1)) (V : Nat → Nat → List UInt8)
    (hblock : ∀ x0 out f, x0 < img.info.width → Image.Shows out img.info f → ∃ out', processColsMean bs P F img out r alpha (2 * h + 1) x0 = .ok out' ∧
      out'.Shows img.info fun x' y' => if x0 ≤ x' ∧ x' < x0 + (2 * h + 1) then
        V (x0 + (if x' = img.info.width - 1 then 2 * h else x' - x0)) y' else f x' y') :
    ∃ out, alphaTrimmedMeanFilter F bs P img r alpha = .ok out ∧
      out.Shows img.info fun x y => V (medianColumn img.info.width (medianNCols F r) x) y := by
  have h2r : 2 * r + 1 ≤ (2 * r + 1) * (2 * r + 1) := Nat.le_mul_of_pos_left _ (by omega)
  rw [hn]
  unfold alphaTrimmedMeanFilter
  rw [u32Mul_ok (by omega), ok_bind, u32Add_ok (by omega), ok_bind, checkEven_u32_ok ha2, ok_bind, u32Mul_ok hfit, ok_bind, if_neg (by omega)]
  dsimp only
  rw [hn]
  obtain ⟨out0, e0, hs0⟩ : ∃ out, Image.blank P u8Num img.info = .ok out ∧ out.Shows img.info out.px := by
    obtain ⟨o, e, hs⟩ := Image.blank_eq P u8Num (info := img.info) wf.infoWF
    refine ⟨o, e, ?_⟩
    have := hs.WF.shows
    rw [hs.info_eq] at this
    exact this
  rw [e0, ok_bind]
  unfold forStep
  rw [if_neg (by omega), hs0.info_eq, Nat.sub_zero]
  obtain ⟨out, e, hs⟩ := forRange_rule (a := 0) (b := (img.info.width + (2 * h + 1) - 1) / (2 * h + 1)) (s := out0)
    (f := fun k output => processColsMean bs P F img output r alpha (2 * h + 1) (0 + k * (2 * h + 1)))
    (fun m s => s.Shows img.info fun x y => if x < m * (2 * h + 1) then V (medianColumn img.info.width (2 * h + 1) x) y else out0.px x y)
    (Nat.zero_le _)
    (hs0.congr fun x y _ _ => by rw [if_neg (by omega)])
    (by
      intro m s _ hm hs
      have hx0 : m * (2 * h + 1) < img.info.width := by
        have := (Nat.lt_div_iff_mul_lt (by omega)).1 hm
        omega
      rw [Nat.zero_add]
      obtain ⟨out', e, D⟩ := hblock _ s _ hx0 hs
      refine ⟨out', e, D.congr fun x y hx hy => ?_⟩
      rw [show (m + 1) * (2 * h + 1) = m * (2 * h + 1) + (2 * h + 1) from Nat.succ_mul _ _]
      by_cases h1 : m * (2 * h + 1) ≤ x ∧ x < m * (2 * h + 1) + (2 * h + 1)
      · rw [if_pos h1, if_pos h1.2]
        congr 1
        unfold medianColumn
        by_cases hxw : x = img.info.width - 1
        · rw [if_pos hxw, if_pos hxw, Nat.add_sub_cancel]
          congr 2
          rw [← hxw]
          exact (Nat.div_eq_of_lt_le h1.1 (by rw [Nat.succ_mul]; exact h1.2)).symm
        · rw [if_neg hxw, if_neg hxw]; omega
      · rw [if_neg h1]
        by_cases h2 : x < m * (2 * h + 1)
        · rw [if_pos h2, if_pos (by omega)]
        · rw [if_neg h2, if_neg (by omega)])
  refine ⟨out, e, hs.congr fun x y hx hy => ?_⟩
  rw [if_pos]
  refine Nat.lt_of_lt_of_le hx ?_
  have h1 := Nat.lt_div_mul_add (a := img.info.width + (2 * h + 1) - 1) (b := 2 * h + 1) (by omega)
  omega

theorem topWindow_eq_window {img : Image UInt8} (h1 : img.info.height = 1) (r c x : Nat) : img.topWindow r c x = img.window r c x 0 := by
  unfold Image.topWindow Image.window
  have : ∀ o : Int, clampCoord img.info.height o = 0 := by intro o; rw [h1]; unfold clampCoord; omega
  simp only [this]

theorem TrimInput.fits {F : Type} [FloatOps F] {img : Image UInt8} {r : Nat} (I : TrimInput F img r) :
    ∃ h, medianNCols F r = 2 * h + 1 ∧ MedianFits img r h ∧ (2 * r + 1) * (2 * r + 1) * 255 < 2147483648 := by
  obtain ⟨h, hn⟩ : ∃ h, medianNCols F r = 2 * h + 1 := ⟨medianNCols F r / 2, by have := medianNCols_odd F r; omega⟩
  have hW := I.med.fitW
  have hN := I.med.fitN
  rw [hn] at hW hN
  refine ⟨h, hn, ⟨I.med.wf, I.med.width, I.med.height, by omega, I.med.fitH, by omega⟩, ?_⟩
  have h1 : (2 * r + 1) * (2 * r + 1) ≤ (2 * r + 2) * (2 * r + 2) := Nat.mul_le_mul (by omega) (by omega)
  exact Nat.lt_of_le_of_lt (Nat.mul_le_mul_right 255 h1) I.fitSum

/-- **C58** (exact behaviour on one-row images): the byte stored is the mean computed from `codeSum`: from the sum of the window
the `alpha / 2` lowest values are taken away, and then the first `alpha / 2` among the remaining values (in ascending
order) that have more than `(2 r + 1)^2 - alpha / 2` window values not above them. -/
theorem c58_one_row_exact (F : Type) [FloatOps F] (bs : BinSearch) (P : Profile) {img : Image UInt8} {r alpha : Nat} (I : TrimInput F img r)
    (h1 : img.info.height = 1) (ha2 : alpha % 2 = 0) (ha : alpha < (2 * r + 1) * (2 * r + 1)) :
    ∃ out, alphaTrimmedMeanFilter F bs P img r alpha = .ok out ∧ out.Shows img.info fun x y =>
      (List.range img.info.channels).map fun c => meanByte
        (codeSum (img.window r c (medianColumn img.info.width (medianNCols F r) x) y) (alpha / 2))
        (ofNat ((2 * r + 1) * (2 * r + 1) - alpha) : F) := by
  obtain ⟨h, hn, M, h255⟩ := I.fits
  obtain ⟨H0, e0, hlen⟩ := MeanHist.new_ok F P (r := r) (n := 2 * h + 1) ha
  have hc0 : ∀ y, y < img.info.height → y = 0 := by intro y hy; omega
  have key : ∃ out, alphaTrimmedMeanFilter F bs P img r alpha = .ok out ∧ out.Shows img.info fun x _ =>
      (List.range img.info.channels).map fun c => meanByte
        (codeSum (img.topWindow r c (medianColumn img.info.width (medianNCols F r) x)) (alpha / 2)) H0.len := by
    refine trim_blocks F bs P hn I.med.wf I.med.width (by omega) ha2 ha
      (fun X _ => (List.range img.info.channels).map fun c => meanByte (codeSum (img.topWindow r c X) (alpha / 2)) H0.len) ?_
    intro x0 out f hx0 hs
    obtain ⟨s, e, _, _, hs'⟩ := initColsMean_ok bs P M hx0 h255 ha hs e0
    refine ⟨s.1, ?_, hs'.congr fun x' y' _ hy => ?_⟩
    · unfold processColsMean
      rw [e0, ok_bind]
      dsimp only
      rw [e, ok_bind, h1, forRange_empty (le_refl _), ok_bind]
    · have := hc0 y' hy
      subst this
      simp
  obtain ⟨out, e, hs⟩ := key
  refine ⟨out, e, hs.congr fun x y _ hy => ?_⟩
  rw [hc0 y hy]
  simp only [topWindow_eq_window h1, hlen]

theorem medianColumn_eq {w n x : Nat} (hn : 0 < n) (hx : x < w) (h : x + 1 < w ∨ n ∣ w) : medianColumn w n x = x := by
  unfold medianColumn
  split
  · rename_i hxw
    rcases h with h | ⟨k, h⟩
    · omega
    · cases k with
      | zero => rw [h] at hx; simp at hx
      | succ k =>
        rw [Nat.mul_succ] at h
        have e1 : w - 1 = (n - 1) + n * k := by omega
        rw [e1, Nat.add_mul_div_left _ _ hn, Nat.div_eq_of_lt (by omega), Nat.zero_add, Nat.mul_comm]
        omega
  · rfl

theorem roundedMean_trimmed (F : Type) [FloatOps F] {l : List Nat} {alpha : Nat} (hev : alpha % 2 = 0) (ha : alpha < l.length)
    (hc : CleanTop (sortedList l) (alpha / 2)) :
    meanByte (codeSum l (alpha / 2)) (ofNat (l.length - alpha) : F) = roundedMean F (trimmed l (alpha / 2)) := by
  unfold roundedMean meanByte
  rw [codeSum_clean (by omega) hc]
  have : (trimmed l (alpha / 2)).length = l.length - alpha := by
    unfold trimmed
    rw [List.length_take, List.length_drop, (sortedList_perm l).length_eq]
    omega
  rw [this]
  rfl

/-- **C58** (one-row images, partly): the result is the rounded trimmed mean of the window at every pixel (but the last of the row, if the
block size does not divide the width) whose window is `CleanTop`: the values just above and just below the upper trimming
boundary differ, or all values above the boundary are equal. -/
theorem c58_one_row_partial (F : Type) [FloatOps F] (bs : BinSearch) (P : Profile) {img : Image UInt8} {r alpha : Nat} (I : TrimInput F img r)
    (h1 : img.info.height = 1) (ha2 : alpha % 2 = 0) (ha : alpha < (2 * r + 1) * (2 * r + 1)) {x : Nat} (hx : x < img.info.width)
    (hx2 : x + 1 < img.info.width ∨ medianNCols F r ∣ img.info.width)
    (hc : ∀ c, c < img.info.channels → CleanTop (sortedList (img.window r c x 0)) (alpha / 2)) :
    ∃ out, alphaTrimmedMeanFilter F bs P img r alpha = .ok out ∧
      out.getPixel P x 0 = .ok ((List.range img.info.channels).map fun c => roundedMean F (trimmed (img.window r c x 0) (alpha / 2))) := by
  obtain ⟨out, e, hs⟩ := c58_one_row_exact F bs P I h1 ha2 ha
  refine ⟨out, e, ?_⟩
  rw [hs.2.2 P x 0 hx (by omega)]
  have hn : 0 < medianNCols F r := by have := medianNCols_odd F r; omega
  dsimp only
  rw [medianColumn_eq hn hx hx2]
  congr 1
  apply List.map_congr_left
  intro c hc'
  have := roundedMean_trimmed F (l := img.window r c x 0) ha2 (by rw [window_length]; exact ha) (hc c (List.mem_range.1 hc'))
  rw [window_length] at this
  exact this

/-- **C58** (one-row images, `alpha ≤ 2`): the rounded trimmed mean, without any condition on the values. -/
theorem c58_one_row_small_alpha_partial (F : Type) [FloatOps F] (bs : BinSearch) (P : Profile) {img : Image UInt8} {r alpha : Nat} (I : TrimInput F img r)
    (h1 : img.info.height = 1) (ha2 : alpha = 0 ∨ alpha = 2) (ha : alpha < (2 * r + 1) * (2 * r + 1)) {x : Nat} (hx : x < img.info.width)
    (hx2 : x + 1 < img.info.width ∨ medianNCols F r ∣ img.info.width) :
    ∃ out, alphaTrimmedMeanFilter F bs P img r alpha = .ok out ∧
      out.getPixel P x 0 = .ok ((List.range img.info.channels).map fun c => roundedMean F (trimmed (img.window r c x 0) (alpha / 2))) := by
  refine c58_one_row_partial F bs P I h1 (by omega) ha hx hx2 fun c _ => ?_
  rcases ha2 with rfl | rfl
  · exact .inl rfl
  · exact .inr (.inr rfl)

/-- **C58** (constant images): for every image size and even `alpha` between 2 and `(2 r + 1)^2`, a constant image comes back
unchanged, provided the mean of equal bytes is exact in the floating-point type. -/
theorem c58_constant_partial (F : Type) [FloatOps F] (bs : BinSearch) (P : Profile) {img : Image UInt8} {r alpha : Nat} (I : TrimInput F img r)
    (ha2 : alpha % 2 = 0) (ha0 : 2 ≤ alpha) (ha : alpha < (2 * r + 1) * (2 * r + 1))
    (hexact : ∀ v : UInt8, roundedMean F (List.replicate ((2 * r + 1) * (2 * r + 1) - alpha) v.toNat) = v)
    (hconst : ∀ x y, x < img.info.width → y < img.info.height → img.px x y = img.px 0 0) :
    alphaTrimmedMeanFilter F bs P img r alpha = .ok img := by
  obtain ⟨h, hn, M, h255⟩ := I.fits
  obtain ⟨H0, e0, hlen⟩ := MeanHist.new_ok F P (r := r) (n := 2 * h + 1) ha
  obtain ⟨out, e, hs⟩ := trim_blocks F bs P hn I.med.wf I.med.width (by omega) ha2 ha
      (fun _ _ => (List.range img.info.channels).map fun c => meanByte ((((2 * r + 1) * (2 * r + 1) - alpha : Nat) : Int) * img.value c 0 0) H0.len)
      (fun x0 out f hx0 hs => processColsMean_const bs P M hx0 I.fitSum hconst ha0 ha2 ha hs e0)
  rw [e]
  congr 1
  refine Image.Shows.ext hs (Image.Shows.congr I.med.wf.shows fun x y hx hy => ?_)
  rw [hconst x y hx hy]
  have hl := Image.px_length I.med.wf I.med.width I.med.height
  apply List.ext_getElem
  · rw [hl]; simp
  · intro c h1 h2
    rw [List.getElem_map, List.getElem_range]
    have := hexact (img.px 0 0)[c]
    unfold roundedMean at this
    rw [List.length_replicate, List.sum_replicate, smul_eq_mul] at this
    unfold meanByte Image.value
    rw [List.getElem?_eq_getElem h1, hlen, Option.getD_some]
    rw [Nat.cast_mul] at this
    exact this.symm

/-- the exactness hypothesis holds in exact arithmetic -/
theorem roundedMean_replicate_real {n : Nat} (hn : 0 < n) (v : UInt8) : roundedMean ℝ (List.replicate n v.toNat) = v := by
  unfold roundedMean
  rw [List.length_replicate, List.sum_replicate, smul_eq_mul]
  have e : ((FloatOps.ofInt ((n * v.toNat : Nat) : Int) : ℝ) /. ofNat n) = ((v.toNat : Int) : ℝ) := by
    simp only [Ideal.div_eq, Ideal.ofInt_eq, Ideal.ofNat_eq]
    have : (n : ℝ) ≠ 0 := by exact_mod_cast hn.ne'
    push_cast
    field_simp
  rw [e]
  have e2 : realRound ((v.toNat : Int) : ℝ) = v.toNat := by
    unfold realRound
    rw [if_pos (by exact_mod_cast Int.natCast_nonneg _)]
    rw [Int.floor_eq_iff]
    constructor <;> push_cast <;> linarith
  rw [Ideal.round_eq, e2]
  unfold toU8
  rw [Ideal.toInt_eq, realTrunc_int]
  have := v.toNat_lt
  rw [show (max 0 (min 255 ((v.toNat : Int)))) = (v.toNat : Int) by omega]
  simp

/-- and in f32 for windows of up to 65793 values (radius up to 127) -/
theorem roundedMean_replicate_f32 [Libm f32] {n : Nat} (hn : 0 < n) (hn2 : n * 255 ≤ 16777216) (v : UInt8) :
    roundedMean F32 (List.replicate n v.toNat) = v := by
  unfold roundedMean
  rw [List.length_replicate, List.sum_replicate, smul_eq_mul]
  have hv := v.toNat_lt
  have hnv : n * v.toNat ≤ n * 255 := Nat.mul_le_mul_left _ (by omega)
  have h1 : (FloatOps.ofInt ((n * v.toNat : Nat) : Int) : F32).Is (((n * v.toNat : Nat) : Int) : Rat) :=
    ofInt_exact (f32_int (by rw [abs_of_nonneg (Int.natCast_nonneg _)]; exact_mod_cast hnv.trans hn2))
  have h2 : (FloatOps.ofNat n : F32).Is (n : Rat) := ofNat_exact (f32_nat (by omega))
  have hn0 : (n : Rat) ≠ 0 := by exact_mod_cast hn.ne'
  have e : (((n * v.toNat : Nat) : Int) : Rat) / n = (v.toNat : Rat) := by push_cast; field_simp
  have h3 := div_exact h1 h2 hn0 (by rw [e]; exact f32_nat (by omega))
  rw [e] at h3
  have hk : FP.roundAwayQ (v.toNat : Rat) = v.toNat := by exact_mod_cast roundAwayQ_int (v.toNat : Int)
  have h4 := round_is h3 (by rw [hk]; exact_mod_cast f32_nat (by omega))
  rw [hk] at h4
  rw [toU8_of_is (n := v.toNat) (by exact_mod_cast h4) hv, UInt8.ofNat_toNat]

theorem addValue_panics {F : Type} [FloatOps F] (bs : BinSearch) (P : Profile) {H : MeanHist F} {n : Nat} {v : UInt8} {L : Nat → List UInt8} {m : Nat}
    (hn : n < m) (hl : H.lower = (List.range m).map L) (hL : L n = []) (ht : H.trim = 0) :
    ∃ k, H.addValue bs P n v = .error (.panic k) := by
  unfold MeanHist.addValue MeanHist.lowerAt
  rw [hl, idx_map_range _ hn, ok_bind, hL, ht]
  cases P with
  | debug => exact ⟨_, rfl⟩
  | release => exact ⟨_, rfl⟩

/-- **C58 is violated** (nothing to trim): with `alpha = 0`, every image of two or more rows makes the filter panic, in every profile. -/
theorem c58_alpha_zero_panics (F : Type) [FloatOps F] (bs : BinSearch) (P : Profile) {img : Image UInt8} {r : Nat} (I : TrimInput F img r)
    (h2 : 2 ≤ img.info.height) (hch : 0 < img.info.channels) : Res.Panics (alphaTrimmedMeanFilter F bs P img r 0) := by
  obtain ⟨h, hn, M, h255⟩ := I.fits
  have hsq : 0 < (2 * r + 1) * (2 * r + 1) := Nat.mul_pos (by omega) (by omega)
  have h2r : 2 * r + 1 ≤ (2 * r + 1) * (2 * r + 1) := Nat.le_mul_of_pos_left _ (by omega)
  obtain ⟨H0, e0, hlen⟩ := MeanHist.new_ok F P (r := r) (n := 2 * h + 1) hsq
  obtain ⟨out0, eb, hs0⟩ := Image.blank_eq P u8Num (info := img.info) I.med.wf.infoWF
  obtain ⟨s, e, l, A, _⟩ := initColsMean_ok bs P M I.med.width h255 hsq hs0 e0
  obtain ⟨H, hH⟩ : ∃ H, s.2[0]? = some H := ⟨_, List.getElem?_eq_getElem (by omega)⟩
  have A := A 0 H hH
  obtain ⟨t, ht⟩ : ∃ t, s.2 = H :: t := by
    cases hs : s.2 with
    | nil => rw [hs] at hH; cases hH
    | cons a t => rw [hs] at hH; injection hH with hH; exact ⟨t, by rw [hH]⟩
  have hcl := clampCoord_lt M.height ((1 : Nat) + r : Int)
  obtain ⟨v, hv⟩ : ∃ v, MeanHist.rowByte (rowAt img r 0 (2 * h + (2 * r + 1)) (clampCoord img.info.height ((1 : Nat) + r : Int))) 0 0 = .ok v := by
    unfold MeanHist.rowByte rowAt
    rw [idx_map_range _ (by omega), ok_bind]
    exact ⟨_, idx_ok (by rw [Image.px_length M.wf (clampCoord_lt M.width _) hcl]; exact hch)⟩
  obtain ⟨k, hk⟩ := addValue_panics bs P (H := H) (n := 0) (v := v) (m := 2 * h + 1) (by omega) A.lower
    (by show lowerBytes _ (0 / 2) = []; unfold lowerBytes; simp) A.trim
  refine ⟨k, ?_⟩
  have hupd : H.update bs P (rowAt img r 0 (2 * h + (2 * r + 1)) (clampCoord img.info.height ((1 : Nat) + r : Int))) 0 true = .error (.panic k) := by
    unfold MeanHist.update
    rw [if_pos (by rw [A.sums]; simp), if_pos rfl, A.data.nCols, forRange_cons (by omega), A.data.size, forRange_cons (by omega), hv, ok_bind, hk]
    rfl
  have hproc : processColsMean bs P F img out0 r 0 (2 * h + 1) 0 = .error (.panic k) := by
    unfold processColsMean
    rw [e0, ok_bind]
    dsimp only
    rw [e, ok_bind, forRange_cons (by omega), rowInOut_eq P (by omega) M.fitH, ok_bind]
    dsimp only
    rw [inputRow_eq P M I.med.width (clampCoord_lt M.height _), ok_bind, inputRow_eq P M I.med.width (clampCoord_lt M.height _), ok_bind]
    unfold rowMean
    rw [ht, forEnum, hupd]
    rfl
  unfold alphaTrimmedMeanFilter
  rw [u32Mul_ok (by omega), ok_bind, u32Add_ok (by omega), ok_bind, checkEven_u32_ok rfl, ok_bind, u32Mul_ok (by omega), ok_bind, if_neg (by omega)]
  dsimp only
  rw [hn, eb, ok_bind]
  unfold forStep
  have hw := I.med.width
  have hpos : 0 < (img.info.width + (2 * h + 1) - 1) / (2 * h + 1) := Nat.div_pos (by omega) (by omega)
  rw [if_neg (by omega), hs0.info_eq, Nat.sub_zero, forRange_cons hpos]
  dsimp only
  rw [Nat.zero_mul, Nat.add_zero, hproc]
  rfl

/-! ### the hypotheses are met; the code is wrong on a one-row image -/

/-- one row: 10, 20, 30 -/
def tenRow : Image UInt8 := ⟨⟨3, 1, 1, false⟩, [10, 20, 30]⟩

theorem trimInput_real {img : Image UInt8} {r : Nat} (wf : img.WF) (hw : 0 < img.info.width) (hh : 0 < img.info.height)
    (fitW : img.info.width + 5 * r + 1 < 2147483648) (fitH : img.info.height + r < 2147483648) (hr : r < 1000) : TrimInput ℝ img r := by
  refine ⟨medianInput_real wf hw hh fitW fitH (by omega), ?_⟩
  have : (2 * r + 2) * (2 * r + 2) ≤ 2000 * 2000 := Nat.mul_le_mul (by omega) (by omega)
  omega

theorem tenRow_input : TrimInput ℝ tenRow 1 :=
  trimInput_real ⟨by decide, by decide, by decide, by decide, by decide, rfl⟩ (by decide) (by decide) (by decide) (by decide) (by decide)

theorem tenRow_sorted : sortedList (tenRow.window 1 0 1 0) = [10, 10, 10, 20, 20, 20, 30, 30, 30] := by
  refine List.Perm.eq_of_pairwise (le := (· ≤ ·)) (fun a b _ _ h1 h2 => Nat.le_antisymm h1 h2) (sortedList_sorted _) (by decide) ?_
  exact (sortedList_perm _).trans (by decide)

/-- **C58 is violated** (one-row image): the window of the middle pixel of 10, 20, 30 holds each value three times; discarding
the 4 lowest and the 4 highest leaves 20, but the code returns 30. -/
theorem c58_violated (bs : BinSearch) (P : Profile) : TrimInput ℝ tenRow 1 ∧ trimmed (tenRow.window 1 0 1 0) 4 = [20] ∧
    roundedMean ℝ [20] = 20 ∧
    ∃ out, alphaTrimmedMeanFilter ℝ bs P tenRow 1 8 = .ok out ∧ out.getPixel P 1 0 = .ok [30] := by
  refine ⟨tenRow_input, ?_, roundedMean_replicate_real (n := 1) (by decide) 20, ?_⟩
  · unfold trimmed
    rw [tenRow_sorted]
    decide
  · obtain ⟨out, e, hs⟩ := c58_one_row_exact ℝ bs P tenRow_input (alpha := 8) rfl (by decide) (by decide)
    refine ⟨out, e, ?_⟩
    rw [hs.2.2 P 1 0 (by decide) (by decide)]
    dsimp only
    rw [medianColumn_eq (by have := medianNCols_odd ℝ 1; omega) (by decide) (.inl (by decide))]
    have : codeSum (tenRow.window 1 0 1 0) (8 / 2) = 30 := by
      unfold codeSum
      rw [tenRow_sorted]
      decide
    show Except.ok [meanByte (codeSum (tenRow.window 1 0 1 0) (8 / 2)) _] = _
    rw [this]
    have := roundedMean_replicate_real (n := 1) (by decide) 30
    congr 2

example (bs : BinSearch) : ∃ out, alphaTrimmedMeanFilter ℝ bs .debug tenRow 1 6 = .ok out ∧
    out.getPixel .debug 1 0 = .ok [roundedMean ℝ (trimmed (tenRow.window 1 0 1 0) 3)] :=
  c58_one_row_partial ℝ bs .debug tenRow_input (alpha := 6) rfl (by decide) (by decide) (x := 1) (by decide) (.inl (by decide))
    (fun c hc => by
      have : c = 0 := by have : c < 1 := hc; omega
      subst this
      rw [tenRow_sorted]
      exact .inr (.inl (by decide)))

example (bs : BinSearch) (P : Profile) : Res.Panics (alphaTrimmedMeanFilter ℝ bs P medDemo 1 0) :=
  c58_alpha_zero_panics ℝ bs P (trimInput_real ⟨by decide, by decide, by decide, by decide, by decide, rfl⟩ (by decide) (by decide) (by decide) (by decide) (by decide))
    (by decide) (by decide)

/-- 4 x 3 constant image with two channels -/
def flatDemo : Image UInt8 := ⟨⟨4, 3, 2, false⟩, (List.range 24).map fun i => if i % 2 = 0 then 7 else 200⟩

example (bs : BinSearch) (P : Profile) : alphaTrimmedMeanFilter ℝ bs P flatDemo 1 4 = .ok flatDemo :=
  c58_constant_partial ℝ bs P (trimInput_real ⟨by decide, by decide, by decide, by decide, by decide, rfl⟩ (by decide) (by decide) (by decide) (by decide) (by decide))
    (by decide) (by decide) (by decide) (roundedMean_replicate_real (by decide))
    (by
      intro x y hx hy
      have hx : x < 4 := hx
      have hy : y < 3 := hy
      have key : ∀ x : Fin 4, ∀ y : Fin 3, flatDemo.px x y = flatDemo.px 0 0 := by decide
      exact key ⟨x, hx⟩ ⟨y, hy⟩)

example (bs : BinSearch) (P : Profile) (img : Image UInt8) : (alphaTrimmedMeanFilter ℝ bs P img 1 3).InvalidArg :=
  c58_odd_alpha ℝ bs P img (by decide) (by decide)
example (bs : BinSearch) (P : Profile) (img : Image UInt8) : (alphaTrimmedMeanFilter ℝ bs P img 1 10).InvalidArg :=
  c58_large_alpha ℝ bs P img (by decide) (by decide)
end Imgproc

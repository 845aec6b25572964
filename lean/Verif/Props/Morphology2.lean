import Verif.Props.Morphology
/-! Properties C73 to C76, continued: violations, majority, order, gradient, panics. -/
namespace Imgproc
open FloatOps

/-! ### concrete images -/

/-- 4 x 4, white corner -/
def cornerImg : Image UInt8 := Image.fromVec 4 4 1 false [255, 0, 0, 0, 0, 0, 0, 0, 0, 0, 0, 0, 0, 0, 0, 0]
/-- 3 x 3, white centre -/
def dotImg : Image UInt8 := Image.fromVec 3 3 1 false [0, 0, 0, 0, 255, 0, 0, 0, 0]
/-- 3 x 3, all white -/
def whiteImg : Image UInt8 := Image.fromVec 3 3 1 false (List.replicate 9 255)

theorem binary_of {img : Image UInt8} (h : img.WF) (hc : img.info.channels = 1) (ha : img.info.alpha = false)
    (hv : ∀ v ∈ img.data, v = 0 ∨ v = 255) : Binary img := by
  refine ⟨h, hc, ha, fun P x y hx hy => ?_⟩
  have hl := Image.px_length h hx hy
  rw [hc] at hl
  obtain ⟨a, e⟩ := List.length_eq_one_iff.1 hl
  rw [Image.getPixel_eq P h hx hy, e]
  rcases hv a (Image.px_subset (x := x) (y := y) (by rw [e]; simp)) with rfl | rfl
  · exact Or.inl rfl
  · exact Or.inr rfl

theorem cornerImg_binary : Binary cornerImg := binary_of ⟨by decide, by decide, by decide, by decide, by decide, rfl⟩
  rfl rfl (by decide)
theorem dotImg_binary : Binary dotImg := binary_of ⟨by decide, by decide, by decide, by decide, by decide, rfl⟩
  rfl rfl (by decide)
theorem whiteImg_binary : Binary whiteImg := binary_of ⟨by decide, by decide, by decide, by decide, by decide, rfl⟩
  rfl rfl (by decide)

theorem isWhite_iff {img : Image UInt8} (h : img.WF) {x y : Nat} (hx : x < img.info.width) (hy : y < img.info.height) :
    IsWhite img x y ↔ img.px x y = [255] := by
  unfold IsWhite
  simp only [Image.getPixel_eq _ h hx hy]
  constructor
  · intro e; have := e .debug; injection this
  · intro e P; rw [e]

instance (img : Image UInt8) (x y : Nat) : Decidable (img.px x y = [255]) := inferInstance

section
variable [Libm f32]

/-- **C73 is violated**: with radius 2 the white corner of a 4 x 4 image is not found from (1, 1) -/
theorem c73_violated : ∃ (img : Image UInt8) (r : Nat), Binary img ∧ r ≤ img.info.width ∧ r ≤ img.info.height ∧
    img.info.width * img.info.height * 255 ≤ 8388608 ∧
    ∀ P : Profile, ∃ out, dilate F32 P img r = .ok out ∧ Dilated img r 1 1 ∧ out.getPixel P 1 1 = .ok [0] := by
  refine ⟨cornerImg, 2, cornerImg_binary, by decide, by decide, by decide, fun P => ?_⟩
  obtain ⟨out, e, ho⟩ := c73_exact_window P cornerImg_binary (r := 2) (by decide) (by decide) (by decide)
  refine ⟨out, e, ⟨0, 0, by decide, by decide, (isWhite_iff cornerImg_binary.wf (by decide) (by decide)).2 rfl⟩, ?_⟩
  rw [ho.2.2 P 1 1 (by decide) (by decide)]
  dsimp only
  rw [if_neg]
  rintro ⟨a, b, h1, h2, h3, h4, hw⟩
  have ha : 1 ≤ a := h1
  have ha' : a ≤ 3 := h2
  have hb : 1 ≤ b := h3
  have hb' : b ≤ 3 := h4
  rw [isWhite_iff cornerImg_binary.wf (show a < 4 by omega) (show b < 4 by omega)] at hw
  revert hw
  interval_cases a <;> interval_cases b <;> decide

/-- the hypotheses of the C72 and C73 theorems are met by this image, and the erosion and dilation are not trivial -/
example : Binary dotImg ∧ 1 ≤ dotImg.info.width ∧ dotImg.info.width * dotImg.info.height * 255 ≤ 8388608 ∧
    Dilated dotImg 1 0 0 ∧ Eroded whiteImg 1 1 1 ∧ ¬ Eroded whiteImg 1 0 0 := by
  refine ⟨dotImg_binary, by decide, by decide,
    ⟨1, 1, by decide, by decide, (isWhite_iff dotImg_binary.wf (by decide) (by decide)).2 rfl⟩, ?_, ?_⟩
  · intro i j hi hj
    rw [abs_le] at hi hj
    push_cast at hi hj
    refine ⟨i.toNat, j.toNat, by omega, by omega, (isWhite_iff whiteImg_binary.wf (show _ < 3 by omega) (show _ < 3 by omega)).2 ?_⟩
    have h1 : i.toNat < 3 := by omega
    have h2 : j.toNat < 3 := by omega
    revert h1 h2
    generalize i.toNat = a
    generalize j.toNat = b
    intro h1 h2
    interval_cases a <;> interval_cases b <;> rfl
  · intro h
    obtain ⟨a, b, e, _⟩ := h (-1) 0 (by decide) (by decide)
    omega

/-! ### rounding for large images -/

/-- **C72/C73, why the size bound**: on an all-white 21932 x 2 image, radius 0, both erode and dilate give a black pixel
at (21931, 1), in IEEE f32. -/
theorem c72_rounding_counterexample (P : Profile) : ∃ e d : Image UInt8, erode F32 P whiteWide 0 = .ok e ∧
    dilate F32 P whiteWide 0 = .ok d ∧ e.getPixel P 21931 1 = .ok [0] ∧ d.getPixel P 21931 1 = .ok [0] := by
  obtain ⟨f, ef, hf⟩ := imageU8ToFloat_shows (F := F32) P whiteWide_WF
  have hch : whiteWide.info.channels = 1 := rfl
  have hfi : ∀ x y, x < 21932 → y < 2 → (f.chan 0 x y).Is 255 := by
    intro x y hx hy
    rw [chan_ofU8 whiteWide_WF hch hf hx hy, whiteWide_px hx hy]
    have := ofU8_is (255 : UInt8)
    have e : (((255 : UInt8).toNat : Nat) : Rat) = 255 := by decide +kernel
    simpa [e] using this
  have hs : (winExpr (f.chan 0) 21931 1 21931 1).Is 254 := by
    unfold winExpr
    have i0 := whiteSat_last hfi
    have i1 := whiteSat_row0 (fun x hx => hfi x 0 hx (by decide)) 21932 (by omega)
    have i2 := whiteSat_row1 hfi 21931 (by omega)
    have i3 := whiteSat_row0 (fun x hx => hfi x 0 hx (by decide)) 21931 (by omega)
    have s1 := sub_exact i0 i1 (by
      rw [show (11185319 : Rat) - (((255 * 21932 : Nat) : Int) : Rat) = ((5592659 : Int) : Rat) by norm_num]; exact f32_int (by decide))
    have s2 := sub_exact s1 i2 (by
      rw [show (11185319 : Rat) - (((255 * 21932 : Nat) : Int) : Rat) - (((510 * 21931 : Nat) : Int) : Rat) = ((-5592151 : Int) : Rat) by norm_num]
      exact f32_int (by decide))
    have s3 := add_exact s2 i3 (by
      rw [show (11185319 : Rat) - (((255 * 21932 : Nat) : Int) : Rat) - (((510 * 21931 : Nat) : Int) : Rat) + (((255 * 21931 : Nat) : Int) : Rat) = ((254 : Int) : Rat) by norm_num]
      exact f32_int (by decide))
    rw [show (11185319 : Rat) - (((255 * 21932 : Nat) : Int) : Rat) - (((510 * 21931 : Nat) : Int) : Rat) + (((255 * 21931 : Nat) : Int) : Rat) = 254 by norm_num] at s3
    exact s3
  obtain ⟨te, e, e1, e2, e3⟩ := morphScan_eq P whiteWide_WF hch (r := 0) (by decide) (by decide) f hf.WF hf.info_eq
    (isFull (ofNat 255))
  obtain ⟨td, d, d1, d2, d3⟩ := morphScan_eq P whiteWide_WF hch (r := 0) (by decide) (by decide) f hf.WF hf.info_eq
    (fun s => s >=. num 255)
  refine ⟨e, d, ?_, ?_, ?_, ?_⟩
  · unfold erode
    rw [checkGrayscale_ok (Or.inl ⟨rfl, hch⟩), ok_bind, morphMaxSum_ok (r := 0) (by decide), ok_bind, ef, ok_bind, e1, ok_bind]
    exact e2
  · unfold dilate
    rw [checkGrayscale_ok (Or.inl ⟨rfl, hch⟩), ok_bind, ef, ok_bind, d1, ok_bind, d2]
  · rw [e3.2.2 P 21931 1 (by decide) (by decide)]
    dsimp only
    rw [if_neg]
    show ¬ isFull _ (winExpr (f.chan 0) 21931 1 21931 1) = true
    unfold isFull
    have s := sub_exact hs (nat32 (n := 255) (by decide)) (by
      rw [show (254 : Rat) - ((255 : Nat) : Rat) = ((-1 : Int) : Rat) by norm_num]; exact f32_int (by decide))
    have heps : (FloatOps.epsilon : F32).Is (f32.rnd (1 / 8388608)) := lit_is (f32_ovf (by norm_num [abs_of_pos]))
    rw [lt_is (abs_is s) heps]
    decide +kernel
  · rw [d3.2.2 P 21931 1 (by decide) (by decide)]
    dsimp only
    rw [if_neg]
    show ¬ (num 255 <=. winExpr (f.chan 0) 21931 1 21931 1) = true
    rw [le_is (num32 (by decide)) hs]
    decide +kernel

/-! ### C74: majority -/

open Classical in
/-- spec: more than half of the image pixels in the window are white -/
def Majority (img : Image UInt8) (r x y : Nat) : Prop :=
  let window := (Finset.range img.info.width ×ˢ Finset.range img.info.height).filter fun p =>
    |(p.1 : Int) - x| ≤ r ∧ |(p.2 : Int) - y| ≤ r
  window.card < 2 * (window.filter fun p => IsWhite img p.1 p.2).card

omit [Libm f32] in
/-- **C74, what the code computes**: majority is dilate, for every image, radius, arithmetic and profile -/
theorem c74_is_dilate {F : Type} [FloatOps F] (P : Profile) (img : Image UInt8) (r : Nat) :
    majority F P img r = dilate F P img r := rfl

open Classical in
/-- **C74, the half that holds** (radius at most 1, or at least `r` away from the border): where white pixels are in
the majority the output is white, and where the window has no white pixel the output is black. -/
theorem c74_majority_partial (P : Profile) {img : Image UInt8} (h : Binary img) {r : Nat}
    (hrw : r ≤ img.info.width) (hrh : r ≤ img.info.height)
    (hsmall : img.info.width * img.info.height * 255 ≤ 8388608) :
    ∃ out, majority F32 P img r = .ok out ∧ Binary out ∧ out.info = img.info ∧
      ∀ x y, x < img.info.width → y < img.info.height →
        (r ≤ 1 ∨ (r ≤ x ∧ x + r < img.info.width ∧ r ≤ y ∧ y + r < img.info.height)) →
        (Majority img r x y → IsWhite out x y) ∧ (¬ Dilated img r x y → ¬ IsWhite out x y) := by
  obtain ⟨out, e, ho⟩ := c73_exact_window P h hrw hrh hsmall
  refine ⟨out, e, ho.binary h.channels h.alpha, ho.2.1, fun x y hx hy hin => ?_⟩
  rw [ho.white hx hy]
  have hiff := codeDilated_iff (img := img) (r := r) (x := x) (y := y) (by omega) (by omega)
  change (_ → CodeDilated img r x y) ∧ (_ → ¬ CodeDilated img r x y)
  rw [hiff]
  refine ⟨fun hm => ?_, id⟩
  unfold Majority at hm
  dsimp only at hm
  have hpos : 0 < (Finset.filter (fun p : Nat × Nat => IsWhite img p.1 p.2) ((Finset.range img.info.width ×ˢ Finset.range img.info.height).filter fun p =>
    |(p.1 : Int) - x| ≤ r ∧ |(p.2 : Int) - y| ≤ r)).card := by omega
  obtain ⟨⟨a, b⟩, hab⟩ := Finset.card_pos.1 hpos
  simp only [Finset.mem_filter] at hab
  exact ⟨a, b, hab.1.2.1, hab.1.2.2, hab.2⟩

open Classical in
/-- **C74 is violated**: one white pixel out of nine is enough -/
theorem c74_violated : ∃ (img : Image UInt8), Binary img ∧ 1 ≤ img.info.width ∧ 1 ≤ img.info.height ∧
    ∀ P : Profile, ∃ out, majority F32 P img 1 = .ok out ∧ ¬ Majority img 1 1 1 ∧ out.getPixel P 1 1 = .ok [255] := by
  refine ⟨dotImg, dotImg_binary, by decide, by decide, fun P => ?_⟩
  obtain ⟨out, e, ho⟩ := c73_radius_one_partial P dotImg_binary (r := 1) (by decide) (by decide) (by decide) (by decide)
  refine ⟨out, e, ?_, ?_⟩
  · unfold Majority
    dsimp only
    have hw : ∀ p ∈ (Finset.range dotImg.info.width ×ˢ Finset.range dotImg.info.height).filter (fun p : Nat × Nat =>
        |(p.1 : Int) - (1 : Nat)| ≤ (1 : Nat) ∧ |(p.2 : Int) - (1 : Nat)| ≤ (1 : Nat)), (IsWhite dotImg p.1 p.2 ↔ p = (1, 1)) := by
      rintro ⟨a, b⟩ hp
      simp only [Finset.mem_filter, Finset.mem_product, Finset.mem_range] at hp
      have ha : a < 3 := hp.1.1
      have hb : b < 3 := hp.1.2
      rw [isWhite_iff dotImg_binary.wf ha hb]
      clear hp
      interval_cases a <;> interval_cases b <;> decide
    rw [Finset.filter_congr hw]
    decide
  · have hD : Dilated dotImg 1 1 1 :=
      ⟨1, 1, by decide, by decide, (isWhite_iff dotImg_binary.wf (by decide) (by decide)).2 rfl⟩
    rw [ho.2.2 P 1 1 (by decide) (by decide)]
    dsimp only
    rw [if_pos hD]
end
end Imgproc

import Verif.Proofs.Shapes3
import Verif.Spec.Histories
import Verif.Spec.Demo
import Verif.Props.Convert
import Verif.Props.Filter6
import Verif.Props.Bilateral
import Verif.Props.Par
/-!
C131: whatever calls a user makes, every image in the user's hands is consistent.
-/
namespace Imgproc
open FloatOps

theorem consistent_of {T : Type} {img : Image T} (h : img.WF) : img.Consistent :=
  ⟨h, fun Q _ _ hx hy => ⟨_, Image.getPixel_eq Q h hx hy, Image.px_length h hx hy⟩⟩

theorem recolour_fits {T : Type} {a : Image T} {c : Nat} (hc : c < 255) (hs : a.info.width * a.info.height * (c + 1) < U32SIZE) :
    (a.info.recolour c).channels < 256 ∧ a.info.width * a.info.height * (a.info.recolour c).channels < U32SIZE := by
  unfold ImageInfo.recolour
  dsimp only
  split
  · exact ⟨by omega, hs⟩
  · exact ⟨by omega, (Nat.mul_le_mul_left _ (Nat.le_succ c)).trans_lt hs⟩
theorem recolour_three {i : ImageInfo} (h : i.channels = if i.alpha then 4 else 3) : i = i.recolour 3 := by
  obtain ⟨w, k, c, al⟩ := i
  unfold ImageInfo.recolour
  cases al <;> simp_all

section
variable [Libm f32] {P : Profile} {svd : Svd F32} {bs : BinSearch}

theorem gives_scalePar_info {order : List Nat} {a : Image F32} {u v : F32} {m : Scale} :
    Gives (fun o => o.info = ⟨scaleDim a.info.width u, scaleDim a.info.height v, a.info.channels, a.info.alpha⟩) (scalePar order P a u v m) :=
  .bindAny fun _ => .bindAny fun _ => .bindAny fun _ => .bindAny fun _ => .bindAny fun _ => .bindAny fun _ => .bindAny fun _ => .ok rfl
theorem gives_scaleLanczosPar_info {order : List Nat} {a : Image F32} {u v : F32} {n : Nat} :
    Gives (fun o => o.info = ⟨scaleDim a.info.width u, scaleDim a.info.height v, a.info.channels, a.info.alpha⟩)
      (scaleLanczosPar order P a u v n) :=
  .bindAny fun _ => .bindAny fun _ => .bindAny fun _ => .bindAny fun _ => .bindAny fun _ => .bindAny fun _ => .bindAny fun _ =>
    .bindAny fun _ => .ok rfl

/-- C131: one call that returns normally turns a consistent image into a consistent image. -/
theorem c131_call {a b : AnyImage} (h : a.Consistent) (e : Call P svd bs a b) : b.Consistent := by
  cases a with
  | bytes a =>
    have w : a.WF := h.1
    have h := w.shaped
    cases e with
    | setPixel8 e => exact consistent_of (gives_setPixel h _ e).1
    | setPixelIndexed8 e => exact consistent_of (gives_setPixelIndexed h _ e).1
    | pixelMut8 e hq => exact consistent_of (gives_getPixelMut h _ e _ hq).1
    | mapChannels8 e => exact consistent_of (gives_mapChannels h _ e).1
    | mapChannels8f e => exact consistent_of (gives_mapChannels h _ e).1
    | mapChannelsIfAlpha8 e => exact consistent_of (gives_mapChannelsIfAlpha h _ e).1
    | mapChannelsIfAlpha8f e => exact consistent_of (gives_mapChannelsIfAlpha h _ e).1
    | mapPixels8 hf hc hs e => exact consistent_of (gives_mapPixels (B := True) w (fun p _ q eq => ⟨hf p q eq, trivial⟩) (fun _ => ⟨hc, hs⟩) _ e).1
    | mapPixelsIfAlpha8 hf hc hs e => exact consistent_of (gives_mapPixelsIfAlpha (B := True) w (fun p _ q eq => ⟨hf p q eq, trivial⟩) (fun _ _ => recolour_fits hc hs) _ e).1
    | applyPixels8 e => exact consistent_of (gives_applyPixels h _ e).1
    | applyPixelsIfAlpha8 e => exact consistent_of (gives_applyPixelsIfAlpha h _ e).1
    | applyChannels8 e => exact consistent_of (gives_applyChannels h _ e).1
    | applyChannelsIfAlpha8 e => exact consistent_of (gives_applyChannelsIfAlpha h _ e).1
    | editChannel8 e => exact consistent_of (gives_editChannel h _ e).1
    | u8ToF32Scale e => exact consistent_of (gives_u8ToF32Scale h _ e).1
    | fromBytes e => exact consistent_of (gives_imageU8ToFloat h _ e).1
    | grayscale h3 e => exact consistent_of (gives_rgbToGrayscale h (fun ha => recolour_three (h3 ha)) _ e).1
    | linearize e => exact consistent_of (gives_linearizeSrgb h _ e).1
    | rgbToHsv e => exact consistent_of (gives_rgbToHsv h _ e).1
    | hsvToRgb e => exact consistent_of (gives_hsvToRgb h _ e).1
    | rgbToHsvF32 e => exact consistent_of (gives_rgbToHsvF32 h _ e).1
    | srgbToXyz e => exact consistent_of (gives_srgbToXyz h _ e).1
    | srgbToLab e => exact consistent_of (gives_srgbToLab h _ e).1
    | brightness e => exact consistent_of (gives_brightness_any h _ e).1
    | brightnessLab e => exact consistent_of (gives_brightnessLab h _ e).1
    | contrast e => exact consistent_of (gives_contrast h _ e).1
    | contrastLab e => exact consistent_of (gives_contrastLab h _ e).1
    | saturation e => exact consistent_of (gives_saturation_any h _ e).1
    | gamma e => exact consistent_of (gives_gammaOp h _ e).1
    | equalize e => exact consistent_of (gives_histogramEqualization h _ e).1
    | residual8 e => exact consistent_of (gives_residual h _ e).1
    | bilateral e => exact consistent_of (gives_bilateralFilter h _ e).1
    | median e => exact consistent_of (gives_medianFilter h _ e).1
    | alphaTrimmed e => exact consistent_of (gives_alphaTrimmedMeanFilter h _ e).1
    | erode e => exact consistent_of (gives_erode h _ e).1
    | dilate e => exact consistent_of (gives_dilate h _ e).1
    | majority e => exact consistent_of (gives_majority h _ e).1
    | morphOpen e => exact consistent_of (gives_morphOpen h _ e).1
    | morphClose e => exact consistent_of (gives_morphClose h _ e).1
    | gradient e => exact consistent_of (gives_gradient h _ e).1
    | crop8 h0 hw hk e => exact consistent_of (gives_crop w h0 hw hk _ e).1
    | overlay8 e => exact consistent_of (gives_overlay h _ e).1
    | translate8 e => exact consistent_of (gives_translate h _ e).1
    | reflect8 e => exact consistent_of (gives_reflect h _ e).1
    | bilateralPar hc ho e => exact consistent_of (gives_bilateralFilter h _ (((c48_bilateral P a w hc _ _ _ ho).1 _).2 e)).1
    | cropPar8 ho hx hy h0 e =>
      exact consistent_of (gives_crop (N := u8Num) w h0 (by omega) (by omega) _ (((c48_crop_partial P _ a w _ _ _ _ hx hy _ ho).1 _).2 e)).1
  | floats a =>
    have w : a.WF := h.1
    have h := w.shaped
    cases e with
    | setPixel e => exact consistent_of (gives_setPixel h _ e).1
    | setPixelIndexed e => exact consistent_of (gives_setPixelIndexed h _ e).1
    | pixelMut e hq => exact consistent_of (gives_getPixelMut h _ e _ hq).1
    | mapChannels e => exact consistent_of (gives_mapChannels h _ e).1
    | mapChannelsf8 e => exact consistent_of (gives_mapChannels h _ e).1
    | mapChannelsIfAlpha e => exact consistent_of (gives_mapChannelsIfAlpha h _ e).1
    | mapChannelsIfAlphaf8 e => exact consistent_of (gives_mapChannelsIfAlpha h _ e).1
    | mapPixels hf hc hs e => exact consistent_of (gives_mapPixels (B := True) w (fun p _ q eq => ⟨hf p q eq, trivial⟩) (fun _ => ⟨hc, hs⟩) _ e).1
    | mapPixelsIfAlpha hf hc hs e => exact consistent_of (gives_mapPixelsIfAlpha (B := True) w (fun p _ q eq => ⟨hf p q eq, trivial⟩) (fun _ _ => recolour_fits hc hs) _ e).1
    | applyPixels e => exact consistent_of (gives_applyPixels h _ e).1
    | applyPixelsIfAlpha e => exact consistent_of (gives_applyPixelsIfAlpha h _ e).1
    | applyChannels e => exact consistent_of (gives_applyChannels h _ e).1
    | applyChannelsIfAlpha e => exact consistent_of (gives_applyChannelsIfAlpha h _ e).1
    | editChannel e => exact consistent_of (gives_editChannel h _ e).1
    | scaleChannels e => exact consistent_of (gives_scaleChannels h _ e).1
    | f32ToU8Scale e => exact consistent_of (gives_f32ToU8Scale h _ e).1
    | fromFloats e => exact consistent_of (gives_imageFloatToU8 h _ e).1
    | grayscaleF32 h2 e => exact consistent_of (gives_rgbToGrayscaleF32 h h2 _ e).1
    | unlinearize e => exact consistent_of (gives_unlinearizeSrgb h _ e).1
    | linToXyz e => exact consistent_of (gives_srgbLinToXyz h _ e).1
    | xyzToLin e => exact consistent_of (gives_xyzToSrgbLin h _ e).1
    | xyzToLab e => exact consistent_of (gives_xyzToLab h _ e).1
    | labToXyz e => exact consistent_of (gives_labToXyz h _ e).1
    | hsvToRgbF32 e => exact consistent_of (gives_hsvToRgbF32 h _ e).1
    | xyzToSrgb e => exact consistent_of (gives_xyzToSrgb h _ e).1
    | labToSrgb e => exact consistent_of (gives_labToSrgb h _ e).1
    | filter1d e => exact consistent_of (gives_filter1d h _ e).1
    | separable e => exact consistent_of (gives_separableFilter h _ e).1
    | unseparable e => exact consistent_of (gives_unseparableFilter h _ e).1
    | linear e => exact consistent_of (gives_linearFilter h _ e).1
    | box e => exact consistent_of (gives_boxFilter h _ e).1
    | weightedAvg e => exact consistent_of (gives_weightedAvgFilter h _ e).1
    | gaussian e => exact consistent_of (gives_gaussianBlur h _ e).1
    | sharpen e => exact consistent_of (gives_sharpen h _ e).1
    | unsharp e => exact consistent_of (gives_unsharpMasking h _ e).1
    | threshold e => exact consistent_of (gives_threshold h _ e).1
    | residual e => exact consistent_of (gives_residual h _ e).1
    | derivative e => exact consistent_of (gives_derivativeMask h _ e).1
    | prewitt e => exact consistent_of (gives_prewitt h _ e).1
    | sobel e => exact consistent_of (gives_sobel h _ e).1
    | sobelWeighted e => exact consistent_of (gives_sobelWeighted h _ e).1
    | laplacian e => exact consistent_of (gives_laplacian h _ e).1
    | log e => exact consistent_of (gives_laplacianOfGaussian h _ e).1
    | normalizeLaplacian e => exact consistent_of (gives_normalizeLaplacian h _ e).1
    | summedArea e => exact consistent_of (gives_generateSummedAreaTable h _ e).1
    | crop h0 hw hk e => exact consistent_of (gives_crop w h0 hw hk _ e).1
    | overlay e => exact consistent_of (gives_overlay h _ e).1
    | superimpose e => exact consistent_of (gives_superimpose h _ e).1
    | translate e => exact consistent_of (gives_translate h _ e).1
    | reflect e => exact consistent_of (gives_reflect h _ e).1
    | scale h0 e => exact consistent_of (gives_scale w h0 _ e).1
    | scaleLanczos h0 e => exact consistent_of (gives_scaleLanczos w h0 _ e).1
    | shear hd e => exact consistent_of (gives_shear w _ e hd)
    | rotate hd e => exact consistent_of (gives_rotate w _ e hd)
    | filter1dPar ho hk e => exact consistent_of (gives_filter1d h _ (((c48_filter_1d P a w _ hk _ _ ho).1 _).2 e)).1
    | separablePar ho1 ho2 hk hl e => exact consistent_of (gives_separableFilter h _ (((c48_separable P a w _ _ hk hl _ _ ho1 ho2).1 _).2 e)).1
    | unseparablePar ho hk e => exact consistent_of (gives_unseparableFilter h _ (((c48_unseparable P a w _ hk _ ho).1 _).2 e)).1
    | cropPar ho hx hy h0 e =>
      exact consistent_of (gives_crop (N := FloatOps.rnum) w h0 (by omega) (by omega) _ (((c48_crop_partial P _ a w _ _ _ _ hx hy _ ho).1 _).2 e)).1
    | scalePar ho h0 hd e =>
      refine consistent_of (gives_scale w h0 _ (((c48_scale_partial P a w _ _ _ (hd.imp_right fun hw => ?_) _ ho).1 _).2 e)).1
      have hi := gives_scalePar_info _ e
      rw [hi] at hw
      exact ⟨hw.size, hw.full⟩
    | scaleLanczosPar ho h0 hd e =>
      refine consistent_of (gives_scaleLanczos w h0 _ (((c48_scale_lanczos_partial P a w _ _ _ (hd.imp_right fun hw => ?_) _ ho).1 _).2 e)).1
      have hi := gives_scaleLanczosPar_info _ e
      rw [hi] at hw
      exact ⟨hw.size, hw.full⟩

/-- C131: after any history of calls, of any length and in any order, every image the user holds is consistent: its buffer has
exactly `width * height * channels` elements and every pixel inside it can be read in both build profiles. -/
theorem c131_history {a : AnyImage} (h : Held P svd bs a) : a.Consistent := by
  induction h with
  | fromVec8 hi hl => exact consistent_of (shaped_of hi rfl hl).1
  | fromVec hi hl => exact consistent_of (shaped_of hi rfl hl).1
  | blank8 hi e => exact consistent_of (gives_blank hi _ e).1
  | blank hi e => exact consistent_of (gives_blank hi _ e).1
  | call _ e ih => exact c131_call ih e

/-- C131: the calls that keep the header of the image they are given. -/
theorem c131_same_header {img : Image F32} (h : img.WF) {img8 : Image UInt8} (h8 : img8.WF) :
    (∀ k v, Gives (Shaped img.info) (filter1d P img k v)) ∧
    (∀ k l, Gives (Shaped img.info) (separableFilter P img k l)) ∧
    (∀ k, Gives (Shaped img.info) (unseparableFilter P img k)) ∧
    (∀ k, Gives (Shaped img.info) (linearFilter svd P img k)) ∧
    (∀ n s, Gives (Shaped img.info) (gaussianBlur svd P img n s)) ∧
    (∀ t m k, Gives (Shaped img.info) (threshold P img t m k)) ∧
    (∀ b, Gives (Shaped img.info) (residual P FloatOps.rnum img b)) ∧
    (∀ k l, Gives (Shaped img.info) (derivativeMask P img k l)) ∧
    Gives (Shaped img.info) (normalizeLaplacian P img) ∧
    (∀ r, Gives (Shaped img8.info) (medianFilter F32 P img8 r)) ∧
    (∀ r al, Gives (Shaped img8.info) (alphaTrimmedMeanFilter F32 bs P img8 r al)) ∧
    (∀ r, Gives (Shaped img8.info) (erode F32 P img8 r)) ∧
    (∀ r, Gives (Shaped img8.info) (dilate F32 P img8 r)) ∧
    (∀ r, Gives (Shaped img8.info) (majority F32 P img8 r)) ∧
    (∀ r, Gives (Shaped img8.info) (gradient F32 P img8 r)) ∧
    Gives (Shaped img.info) (generateSummedAreaTable P img) ∧
    (∀ b x y, Gives (Shaped img.info) (overlay P img b x y)) ∧
    (∀ x y, Gives (Shaped img.info) (translate P FloatOps.rnum img x y)) ∧
    (∀ r, Gives (Shaped img.info) (reflect P FloatOps.rnum img r)) ∧
    (∀ avx2 b, Gives (Shaped img8.info) (brightness avx2 P img8 b)) ∧
    (∀ g : F32, Gives (Shaped img8.info) (contrast P img8 g)) ∧
    (∀ (g : F32) m, Gives (Shaped img8.info) (gammaOp P img8 g m)) ∧
    Gives (Shaped img8.info) (linearizeSrgb (F := F32) P img8) ∧
    Gives (Shaped img.info) (unlinearizeSrgb P img) :=
  have s := h.shaped
  have s8 := h8.shaped
  ⟨fun _ _ => gives_filter1d s, fun _ _ => gives_separableFilter s, fun _ => gives_unseparableFilter s, fun _ => gives_linearFilter s,
   fun _ _ => gives_gaussianBlur s, fun _ _ _ => gives_threshold s, fun _ => gives_residual s, fun _ _ => gives_derivativeMask s,
   gives_normalizeLaplacian s, fun _ => gives_medianFilter s8, fun _ _ => gives_alphaTrimmedMeanFilter s8, fun _ => gives_erode s8,
   fun _ => gives_dilate s8, fun _ => gives_majority s8, fun _ => gives_gradient s8, gives_generateSummedAreaTable s,
   fun _ _ _ => gives_overlay s, fun _ _ => gives_translate s, fun _ => gives_reflect s, fun _ _ => gives_brightness_any s8,
   fun _ => gives_contrast s8, fun _ _ => gives_gammaOp s8, gives_linearizeSrgb s8, gives_unlinearizeSrgb s⟩

/-- C131: the colour conversions return three colours, plus the alpha channel if the image has one. -/
theorem c131_three_colours {img : Image F32} (h : img.WF) {img8 : Image UInt8} (h8 : img8.WF) :
    let three : ImageInfo → ImageInfo := fun i => ⟨i.width, i.height, if i.alpha then 4 else 3, i.alpha⟩
    Gives (Shaped (three img8.info)) (rgbToHsv P img8) ∧
    Gives (Shaped (three img8.info)) (hsvToRgb P img8) ∧
    Gives (Shaped (three img8.info)) (rgbToHsvF32 (F := F32) P img8) ∧
    Gives (Shaped (three img.info)) (hsvToRgbF32 P img) ∧
    Gives (Shaped (three img.info)) (srgbLinToXyz P img) ∧
    Gives (Shaped (three img.info)) (xyzToSrgbLin P img) ∧
    (∀ w, Gives (Shaped (three img.info)) (xyzToLab P img w)) ∧
    (∀ w, Gives (Shaped (three img.info)) (labToXyz P img w)) ∧
    (∀ w, Gives (Shaped (three img8.info)) (srgbToLab (F := F32) P img8 w)) ∧
    (∀ w, Gives (Shaped (three img.info)) (labToSrgb P img w)) ∧
    (∀ avx2 b, Gives (Shaped (three img8.info)) (saturation avx2 P img8 b)) ∧
    (∀ b, Gives (Shaped (three img8.info)) (brightnessLab F32 P img8 b)) ∧
    (∀ (a p : F32) w, Gives (Shaped (three img8.info)) (histogramEqualization P img8 a w p)) ∧
    (∀ r s : F32, Gives (Shaped (three img8.info)) (bilateralFilter P img8 r s)) :=
  have s := h.shaped
  have s8 := h8.shaped
  ⟨gives_rgbToHsv s8, gives_hsvToRgb s8, gives_rgbToHsvF32 s8, gives_hsvToRgbF32 s, gives_srgbLinToXyz s, gives_xyzToSrgbLin s,
   fun _ => gives_xyzToLab s, fun _ => gives_labToXyz s, fun _ => gives_srgbToLab s8, fun _ => gives_labToSrgb s,
   fun _ _ => gives_saturation_any s8, fun _ => gives_brightnessLab s8, fun _ _ _ => gives_histogramEqualization s8,
   fun _ _ => gives_bilateralFilter s8⟩

/-- C131: a call to `crop` or `scale` that returns gives an image of exactly the size asked for, also when the size does not fit
the machine integers of a build without overflow checks (such calls do not return). -/
theorem c131_sizes {img : Image F32} (h : img.WF) (h0 : 0 < img.info.channels) :
    (∀ x y w k, w < U32SIZE → k < U32SIZE →
      Gives (Shaped ⟨w, k, img.info.channels, img.info.alpha⟩) (crop P FloatOps.rnum img x y w k)) ∧
    (∀ u v m, Gives (Shaped ⟨scaleDim img.info.width u, scaleDim img.info.height v, img.info.channels, img.info.alpha⟩)
      (scale P img u v m)) ∧
    (∀ u v n, Gives (Shaped ⟨scaleDim img.info.width u, scaleDim img.info.height v, img.info.channels, img.info.alpha⟩)
      (scaleLanczos P img u v n)) :=
  ⟨fun _ _ _ _ hw hk => gives_crop h h0 hw hk, fun _ _ _ => gives_scale h h0, fun _ _ _ => gives_scaleLanczos h h0⟩
end

/-- C131 fails for `shear` without overflow checks: shearing an image of one pixel by (-2147483648, -1) returns an image whose
header says 2147483649 × 2 and whose buffer has two elements. (`rotate` has the same computation.) -/
theorem c131_violated : letI := trivialLibm f32
    ∃ (img o : Image F32) (u v : F32), img.WF ∧ shear .release img u v = .ok o ∧
      o.info = ⟨2147483649, 2, 1, false⟩ ∧ o.data.length = 2 ∧ ¬ o.Consistent := by
  let := trivialLibm f32
  have e : (shear (F := F32) .release ⟨⟨1, 1, 1, false⟩, [num 0]⟩ (num (-2147483648)) (num (-1))).map
      (fun o => (o.info, o.data.length)) = .ok (⟨2147483649, 2, 1, false⟩, 2) := by decide +kernel
  cases hs : shear (F := F32) .release ⟨⟨1, 1, 1, false⟩, [num 0]⟩ (num (-2147483648)) (num (-1)) with
  | error r => rw [hs] at e; cases e
  | ok o =>
    rw [hs] at e
    have e : (o.info, o.data.length) = ((⟨2147483649, 2, 1, false⟩ : ImageInfo), 2) := Except.ok.inj e
    have e1 : o.info = ⟨2147483649, 2, 1, false⟩ := congrArg Prod.fst e
    have e2 : o.data.length = 2 := congrArg Prod.snd e
    refine ⟨_, o, _, _, ⟨by decide, by decide, by decide, by decide, by decide, rfl⟩, hs, e1, e2, fun h => ?_⟩
    have := h.1.size
    rw [e1] at this
    exact absurd this (by decide)

/-- C131 fails for the rayon `crop` without overflow checks when the corner plus the size wraps: the image returned has the header
2147483648 × 2 and an empty buffer. (The sequential version does not return, see `c131_sizes`.) -/
theorem c131_crop_violated :
    ∃ (img o : Image UInt8) (x y w h : Nat), img.WF ∧ cropPar [] .release img x y w h = .ok o ∧
      o.info = ⟨2147483648, 2, 1, false⟩ ∧ o.data = [] ∧ ¬ o.Consistent := by
  refine ⟨Image.fromVec 2 3 1 false [0, 0, 0, 0, 0, 0], ⟨⟨2147483648, 2, 1, false⟩, []⟩, 2147483649, 0, 2147483648, 2,
    ⟨by decide, by decide, by decide, by decide, by decide, rfl⟩, by decide +kernel, rfl, rfl, fun h => ?_⟩
  exact absurd h.1.size (by decide)

/-- the hypotheses are met by a history of four calls: build, brighten, mirror, convert to grayscale -/
example : letI := trivialLibm f32
    ∃ o : Image UInt8, Held .release (fun _ _ => none) ⟨fun _ _ => .ok 0, fun _ _ => .ok 0⟩ (.bytes o) ∧
      o.info = ⟨2, 1, 1, false⟩ ∧ o.data = [60, 30] := by
  let := trivialLibm f32
  refine ⟨⟨⟨2, 1, 1, false⟩, [60, 30]⟩, ?_, rfl, rfl⟩
  have h0 : Held .release (fun _ _ => none) ⟨fun _ _ => .ok 0, fun _ _ => .ok 0⟩ (.bytes (Image.fromVec 2 1 3 false [10, 20, 30, 40, 50, 60])) :=
    .fromVec8 ⟨by decide, by decide, by decide, by decide, by decide⟩ rfl
  have h1 := h0.call (.brightness (avx2 := false) (b := 10) (o := Image.fromVec 2 1 3 false [20, 30, 40, 50, 60, 70]) (by decide +kernel))
  have h2 := h1.call (.reflect8 (r := .vertical) (o := Image.fromVec 2 1 3 false [50, 60, 70, 20, 30, 40]) (by decide +kernel))
  exact h2.call (.grayscale (avx2 := false) (by simp) (by decide +kernel))
end Imgproc

import Verif.Proofs.Builds3
/-!
C128: a debug build and a release build of the library do the same thing unless the debug build stops at an arithmetic overflow.
For every public function: `BuildsAgree (call in debug) (call in release)`, for every argument.
-/
namespace Imgproc
open FloatOps
set_option linter.unusedVariables false
variable {T S F : Type} [FloatOps F]

/-- what the relation says: a debug run that does not stop at an overflow is also what the release build does -/
theorem buildsAgree_iff {α : Type} (d r : Res α) : BuildsAgree d r ↔ (d ≠ .error (.panic .overflow) → r = d) := by
  constructor
  · rintro (h | h) hne
    · exact absurd h hne
    · exact h.symm
  · intro h
    by_cases hd : d = .error (.panic .overflow)
    · exact .stopped hd
    · exact .same (h hd).symm

/-- the hypothesis on channel types below holds for every supported one -/
theorem c128_channels : u8Num.Agrees ∧ u32Num.Agrees ∧ usizeNum.Agrees ∧ (intNum I16HALF).Agrees ∧ (intNum I32HALF).Agrees ∧
    (FloatOps.rnum (F := F)).Agrees :=
  ⟨u8Num_agrees, u32Num_agrees, usizeNum_agrees, intNum_agrees _, intNum_agrees _, rnum_agrees⟩

/-- the image type: construction, pixel access, neighbourhoods, map/apply/edit families (with closures that agree themselves) and the pixel iterator -/
theorem c128_image :
    (∀ (i : ImageInfo), BuildsAgree (ImageInfo.channelsNonAlpha .debug i) (ImageInfo.channelsNonAlpha .release i)) ∧
    (∀ (i : ImageInfo), BuildsAgree (ImageInfo.size .debug i) (ImageInfo.size .release i)) ∧
    (∀ (i : ImageInfo), BuildsAgree (ImageInfo.fullSize .debug i) (ImageInfo.fullSize .release i)) ∧
    (∀ (p : List T), BuildsAgree (Pixel.alpha .debug p) (Pixel.alpha .release p)) ∧
    (∀ (p : List T), BuildsAgree (Pixel.channelsWithoutAlpha .debug p) (Pixel.channelsWithoutAlpha .release p)) ∧
        (∀ (p : List T) (f f' g g' : T → Res S) (hf : ∀ a0, BuildsAgree (f a0) (f' a0)) (hg : ∀ a0, BuildsAgree (g a0) (g' a0)), BuildsAgree
      (Pixel.mapAlpha .debug p f g) (Pixel.mapAlpha .release p f' g')) ∧
        (∀ (p : List T) (f f' g g' : T → Res T) (hf : ∀ a0, BuildsAgree (f a0) (f' a0)) (hg : ∀ a0, BuildsAgree (g a0) (g' a0)), BuildsAgree
      (Pixel.applyAlpha .debug p f g) (Pixel.applyAlpha .release p f' g')) ∧
    (∀ (N : RNum T) (p : List T) (hN : N.Agrees), BuildsAgree (Pixel.isBlackAlpha .debug N p) (Pixel.isBlackAlpha .release N p)) ∧
    (∀ (s : SubImage T), BuildsAgree (SubImage.toVec .debug s) (SubImage.toVec .release s)) ∧
    (∀ (s : SubImage T) (x y : Nat), BuildsAgree (SubImage.getPixel .debug s x y) (SubImage.getPixel .release s x y)) ∧
        (∀ (width height channels : Nat) (alpha : Bool) (data : List (List T)), BuildsAgree (Image.fromVecOfVec .debug width height
      channels alpha data) (Image.fromVecOfVec .release width height channels alpha data)) ∧
        (∀ (width height channels : Nat) (alpha : Bool) (data : List (List T)), BuildsAgree (Image.fromVecOfSlice .debug width height
      channels alpha data) (Image.fromVecOfSlice .release width height channels alpha data)) ∧
    (∀ (N : RNum T) (info : ImageInfo) (hN : N.Agrees), BuildsAgree (Image.blank .debug N info) (Image.blank .release N info)) ∧
    (∀ (info : ImageInfo), BuildsAgree (Image.empty (T := T) .debug info) (Image.empty (T := T) .release info)) ∧
    (∀ (img : Image T) (x y : Nat), BuildsAgree (Image.index .debug img x y) (Image.index .release img x y)) ∧
    (∀ (img : Image T) (i : Nat), BuildsAgree (Image.at' .debug img i) (Image.at' .release img i)) ∧
    (∀ (img : Image T) (x y : Nat), BuildsAgree (Image.getPixel .debug img x y) (Image.getPixel .release img x y)) ∧
    (∀ (img : Image T) (x y : Nat), BuildsAgree (Image.getPixelUnchecked .debug img x y) (Image.getPixelUnchecked .release img x y)) ∧
    (∀ (img : Image T) (x y : Nat), BuildsAgree (Image.getPixelMut .debug img x y) (Image.getPixelMut .release img x y)) ∧
        (∀ (img : Image T) (x y : Nat), BuildsAgree (Image.getPixelMutUnchecked .debug img x y) (Image.getPixelMutUnchecked .release img
      x y)) ∧
        (∀ (img : Image T) (x y width height : Nat), BuildsAgree (Image.getSubimage .debug img x y width height) (Image.getSubimage
      .release img x y width height)) ∧
        (∀ (img : Image T) (x y size : Nat) (isVert : Bool), BuildsAgree (Image.getNeighborhood1d .debug img x y size isVert)
      (Image.getNeighborhood1d .release img x y size isVert)) ∧
        (∀ (img : Image T) (x y size : Nat), BuildsAgree (Image.getNeighborhood2d .debug img x y size) (Image.getNeighborhood2d .release
      img x y size)) ∧
        (∀ (img : Image T) (x y : Nat) (pixel : List T), BuildsAgree (Image.setPixel .debug img x y pixel) (Image.setPixel .release img x
      y pixel)) ∧
        (∀ (img : Image T) (index : Nat) (pixel : List T), BuildsAgree (Image.setPixelIndexed .debug img index pixel)
      (Image.setPixelIndexed .release img index pixel)) ∧
        (∀ (img : Image T) (f f' : List T → List S → Res (List S)) (hf : ∀ a0 a1, BuildsAgree (f a0 a1) (f' a0 a1)), BuildsAgree (Image.mapPixels
      .debug img f) (Image.mapPixels .release img f')) ∧
        (∀ (img : Image T) (f f' : List T → List S → Res (List S)) (g g' : T → Res S) (hf : ∀ a0 a1, BuildsAgree (f a0 a1) (f' a0 a1))
      (hg : ∀ a0, BuildsAgree (g a0) (g' a0)), BuildsAgree (Image.mapPixelsIfAlpha .debug img f g) (Image.mapPixelsIfAlpha .release img f' g')) ∧
        (∀ (img : Image T) (f f' : T → Res S) (hf : ∀ a0, BuildsAgree (f a0) (f' a0)), BuildsAgree (Image.mapChannels .debug img f)
      (Image.mapChannels .release img f')) ∧
        (∀ (img : Image T) (f f' g g' : T → Res S) (hf : ∀ a0, BuildsAgree (f a0) (f' a0)) (hg : ∀ a0, BuildsAgree (g a0) (g' a0)), BuildsAgree
      (Image.mapChannelsIfAlpha .debug img f g) (Image.mapChannelsIfAlpha .release img f' g')) ∧
        (∀ (img : Image T) (f f' : List T → List T → Res (List T)) (hf : ∀ a0 a1, BuildsAgree (f a0 a1) (f' a0 a1)), BuildsAgree
      (Image.applyPixels .debug img f) (Image.applyPixels .release img f')) ∧
        (∀ (img : Image T) (f f' : List T → List T → Res (List T)) (g g' : T → Res T) (hf : ∀ a0 a1, BuildsAgree (f a0 a1) (f' a0 a1))
      (hg : ∀ a0, BuildsAgree (g a0) (g' a0)), BuildsAgree (Image.applyPixelsIfAlpha .debug img f g) (Image.applyPixelsIfAlpha .release img f'
      g')) ∧
        (∀ (img : Image T) (f f' : T → Res T) (hf : ∀ a0, BuildsAgree (f a0) (f' a0)), BuildsAgree (Image.applyChannels .debug img f)
      (Image.applyChannels .release img f')) ∧
        (∀ (img : Image T) (f f' g g' : T → Res T) (hf : ∀ a0, BuildsAgree (f a0) (f' a0)) (hg : ∀ a0, BuildsAgree (g a0) (g' a0)), BuildsAgree
      (Image.applyChannelsIfAlpha .debug img f g) (Image.applyChannelsIfAlpha .release img f' g')) ∧
        (∀ (img : Image T) (f f' : T → Res T) (index : Nat) (hf : ∀ a0, BuildsAgree (f a0) (f' a0)), BuildsAgree (Image.editChannel .debug img f
      index) (Image.editChannel .release img f' index)) ∧
    (∀ (img : Image T), BuildsAgree (PixelIter.new .debug img) (PixelIter.new .release img)) ∧
    (∀ (img : Image T) (it : PixelIter), BuildsAgree (PixelIter.next .debug img it) (PixelIter.next .release img it)) ∧
    (∀ (it : PixelIter), BuildsAgree (PixelIter.sizeHint .debug it) (PixelIter.sizeHint .release it)) := by
  refine ⟨?_, ?_, ?_, ?_, ?_, ?_, ?_, ?_, ?_, ?_, ?_, ?_, ?_, ?_, ?_, ?_, ?_, ?_, ?_, ?_, ?_, ?_, ?_, ?_, ?_, ?_, ?_, ?_, ?_, ?_, ?_, ?_, ?_, ?_, ?_, ?_, ?_⟩
  · intros; apply ba_ImageInfo_channelsNonAlpha <;> assumption
  · intros; apply ba_ImageInfo_size <;> assumption
  · intros; apply ba_ImageInfo_fullSize <;> assumption
  · intros; apply ba_Pixel_alpha <;> assumption
  · intros; apply ba_Pixel_channelsWithoutAlpha <;> assumption
  · intros; apply ba_Pixel_mapAlpha <;> assumption
  · intros; apply ba_Pixel_applyAlpha <;> assumption
  · intros; apply ba_Pixel_isBlackAlpha <;> assumption
  · intros; apply ba_SubImage_toVec <;> assumption
  · intros; apply ba_SubImage_getPixel <;> assumption
  · intros; apply ba_Image_fromVecOfVec <;> assumption
  · intros; apply ba_Image_fromVecOfSlice <;> assumption
  · intros; apply ba_Image_blank <;> assumption
  · intros; apply ba_Image_empty <;> assumption
  · intros; apply ba_Image_index <;> assumption
  · intros; apply ba_Image_at' <;> assumption
  · intros; apply ba_Image_getPixel <;> assumption
  · intros; apply ba_Image_getPixelUnchecked <;> assumption
  · intros; apply ba_Image_getPixelMut <;> assumption
  · intros; apply ba_Image_getPixelMutUnchecked <;> assumption
  · intros; apply ba_Image_getSubimage <;> assumption
  · intros; apply ba_Image_getNeighborhood1d <;> assumption
  · intros; apply ba_Image_getNeighborhood2d <;> assumption
  · intros; apply ba_Image_setPixel <;> assumption
  · intros; apply ba_Image_setPixelIndexed <;> assumption
  · intros; apply ba_Image_mapPixels <;> assumption
  · intros; apply ba_Image_mapPixelsIfAlpha <;> assumption
  · intros; apply ba_Image_mapChannels <;> assumption
  · intros; apply ba_Image_mapChannelsIfAlpha <;> assumption
  · intros; apply ba_Image_applyPixels <;> assumption
  · intros; apply ba_Image_applyPixelsIfAlpha <;> assumption
  · intros; apply ba_Image_applyChannels <;> assumption
  · intros; apply ba_Image_applyChannelsIfAlpha <;> assumption
  · intros; apply ba_Image_editChannel <;> assumption
  · intros; apply ba_PixelIter_new <;> assumption
  · intros; apply ba_PixelIter_next <;> assumption
  · intros; apply ba_PixelIter_sizeHint <;> assumption

/-- kernel application, histograms, kernel generators, summed-area tables -/
theorem c128_util :
    (∀ (N : RNum T) (mat input : List T) (hN : N.Agrees), BuildsAgree (vectorMul .debug N mat input) (vectorMul .release N mat input)) ∧
        (∀ (N : RNum T) (mat input output : List T) (hN : N.Agrees), BuildsAgree (vectorMulMut .debug N mat input output) (vectorMulMut
      .release N mat input output)) ∧
    (∀ (input : SubImage F) (kernel : List F), BuildsAgree (apply1dKernel .debug input kernel) (apply1dKernel .release input kernel)) ∧
    (∀ (input : SubImage F) (kernel : List F), BuildsAgree (apply2dKernel .debug input kernel) (apply2dKernel .release input kernel)) ∧
        (∀ (input : Image F) (percentiles : List (Int × F)) (precision : F), BuildsAgree (generateHistogramPercentiles .debug input
      percentiles precision) (generateHistogramPercentiles .release input percentiles precision)) ∧
    (∀ (size : Nat) (sigma : F), BuildsAgree (generateGaussianKernel .debug size sigma) (generateGaussianKernel .release size sigma)) ∧
    (∀ (size : Nat) (sigma : F), BuildsAgree (generateLogKernel .debug size sigma) (generateLogKernel .release size sigma)) ∧
    (∀ (size : Nat) (spatial : F), BuildsAgree (generateSpatialMat .debug size spatial) (generateSpatialMat .release size spatial)) ∧
    (∀ (input : Image F), BuildsAgree (generateSummedAreaTable .debug input) (generateSummedAreaTable .release input)) ∧
        (∀ (table : Image F) (x0 y0 x1 y1 : Nat), BuildsAgree (rectangularIntensitySum .debug table x0 y0 x1 y1) (rectangularIntensitySum
      .release table x0 y0 x1 y1)) := by
  refine ⟨?_, ?_, ?_, ?_, ?_, ?_, ?_, ?_, ?_, ?_⟩
  · intros; apply ba_vectorMul <;> assumption
  · intros; apply ba_vectorMulMut <;> assumption
  · intros; apply ba_apply1dKernel <;> assumption
  · intros; apply ba_apply2dKernel <;> assumption
  · intros; apply ba_generateHistogramPercentiles <;> assumption
  · intros; apply ba_generateGaussianKernel <;> assumption
  · intros; apply ba_generateLogKernel <;> assumption
  · intros; apply ba_generateSpatialMat <;> assumption
  · intros; apply ba_generateSummedAreaTable <;> assumption
  · intros; apply ba_rectangularIntensitySum <;> assumption

/-- image type and range conversion -/
theorem c128_convert :
        (∀ (input : Image F) (curMin scMin curMax scMax : F), BuildsAgree (scaleChannels .debug input curMin scMin curMax scMax)
      (scaleChannels .release input curMin scMin curMax scMax)) ∧
    (∀ (input : Image F) (scale : Nat), BuildsAgree (f32ToU8Scale .debug input scale) (f32ToU8Scale .release input scale)) ∧
        (∀ (input : Image UInt8) (scale : Nat), BuildsAgree (u8ToF32Scale (F := F) .debug input scale) (u8ToF32Scale (F := F) .release
      input scale)) ∧
    (∀ (img : Image Nat), BuildsAgree (imageNatToFloat (F := F) .debug img) (imageNatToFloat (F := F) .release img)) ∧
    (∀ (img : Image F), BuildsAgree (imageFloatToU8 .debug img) (imageFloatToU8 .release img)) := by
  refine ⟨?_, ?_, ?_, ?_, ?_⟩
  · intros; apply ba_scaleChannels <;> assumption
  · intros; apply ba_f32ToU8Scale <;> assumption
  · intros; apply ba_u8ToF32Scale <;> assumption
  · intros; apply ba_imageNatToFloat <;> assumption
  · intros; apply ba_imageFloatToU8 <;> assumption

/-- colour space conversions, scalar and SIMD grayscale -/
theorem c128_colorspace :
    (∀ (avx2 : Bool) (input : Image UInt8), BuildsAgree (rgbToGrayscale F avx2 .debug input) (rgbToGrayscale F avx2 .release input)) ∧
    (∀ (input : Image F), BuildsAgree (rgbToGrayscaleF32 .debug input) (rgbToGrayscaleF32 .release input)) ∧
    (∀ (input : Image UInt8), BuildsAgree (rgbToHsv .debug input) (rgbToHsv .release input)) ∧
    (∀ (input : Image UInt8), BuildsAgree (hsvToRgb .debug input) (hsvToRgb .release input)) ∧
    (∀ (input : Image UInt8), BuildsAgree (rgbToHsvF32 (F := F) .debug input) (rgbToHsvF32 (F := F) .release input)) ∧
    (∀ (input : Image F), BuildsAgree (hsvToRgbF32 .debug input) (hsvToRgbF32 .release input)) ∧
    (∀ (input : Image UInt8), BuildsAgree (linearizeSrgb (F := F) .debug input) (linearizeSrgb (F := F) .release input)) ∧
    (∀ (input : Image F), BuildsAgree (unlinearizeSrgb .debug input) (unlinearizeSrgb .release input)) ∧
    (∀ (input : Image F), BuildsAgree (srgbLinToXyz .debug input) (srgbLinToXyz .release input)) ∧
    (∀ (input : Image F), BuildsAgree (xyzToSrgbLin .debug input) (xyzToSrgbLin .release input)) ∧
    (∀ (input : Image F) (white : White), BuildsAgree (xyzToLab .debug input white) (xyzToLab .release input white)) ∧
    (∀ (input : Image F) (white : White), BuildsAgree (labToXyz .debug input white) (labToXyz .release input white)) ∧
    (∀ (input : Image UInt8), BuildsAgree (srgbToXyz (F := F) .debug input) (srgbToXyz (F := F) .release input)) ∧
    (∀ (input : Image F), BuildsAgree (xyzToSrgb .debug input) (xyzToSrgb .release input)) ∧
        (∀ (input : Image UInt8) (white : White), BuildsAgree (srgbToLab (F := F) .debug input white) (srgbToLab (F := F) .release input
      white)) ∧
    (∀ (input : Image F) (white : White), BuildsAgree (labToSrgb .debug input white) (labToSrgb .release input white)) := by
  refine ⟨?_, ?_, ?_, ?_, ?_, ?_, ?_, ?_, ?_, ?_, ?_, ?_, ?_, ?_, ?_, ?_⟩
  · intros; apply ba_rgbToGrayscale <;> assumption
  · intros; apply ba_rgbToGrayscaleF32 <;> assumption
  · intros; apply ba_rgbToHsv <;> assumption
  · intros; apply ba_hsvToRgb <;> assumption
  · intros; apply ba_rgbToHsvF32 <;> assumption
  · intros; apply ba_hsvToRgbF32 <;> assumption
  · intros; apply ba_linearizeSrgb <;> assumption
  · intros; apply ba_unlinearizeSrgb <;> assumption
  · intros; apply ba_srgbLinToXyz <;> assumption
  · intros; apply ba_xyzToSrgbLin <;> assumption
  · intros; apply ba_xyzToLab <;> assumption
  · intros; apply ba_labToXyz <;> assumption
  · intros; apply ba_srgbToXyz <;> assumption
  · intros; apply ba_xyzToSrgb <;> assumption
  · intros; apply ba_srgbToLab <;> assumption
  · intros; apply ba_labToSrgb <;> assumption

/-- tone operations -/
theorem c128_tone :
        (∀ (avx2 : Bool) (input : Image UInt8) (bias : Int), BuildsAgree (brightness avx2 .debug input bias) (brightness avx2 .release
      input bias)) ∧
        (∀ (avx2 : Bool) (input : Image UInt8) (sat : Int), BuildsAgree (saturation avx2 .debug input sat) (saturation avx2 .release
      input sat)) ∧
    (∀ (input : Image UInt8) (bias : Int), BuildsAgree (brightnessLab F .debug input bias) (brightnessLab F .release input bias)) ∧
    (∀ (input : Image UInt8) (gain : F), BuildsAgree (contrast .debug input gain) (contrast .release input gain)) ∧
    (∀ (input : Image UInt8) (gain : F), BuildsAgree (contrastLab .debug input gain) (contrastLab .release input gain)) ∧
    (∀ (input : Image UInt8) (gamma : F) (max : UInt8), BuildsAgree (gammaOp .debug input gamma max) (gammaOp .release input gamma max)) ∧
        (∀ (input : Image UInt8) (alpha : F) (white : White) (precision : F), BuildsAgree (histogramEqualization .debug input alpha white
      precision) (histogramEqualization .release input alpha white precision)) := by
  refine ⟨?_, ?_, ?_, ?_, ?_, ?_, ?_⟩
  · intros; apply ba_brightness <;> assumption
  · intros; apply ba_saturation <;> assumption
  · intros; apply ba_brightnessLab <;> assumption
  · intros; apply ba_contrast <;> assumption
  · intros; apply ba_contrastLab <;> assumption
  · intros; apply ba_gammaOp <;> assumption
  · intros; apply ba_histogramEqualization <;> assumption

/-- geometric transforms; a parallel one under the same task order in both builds -/
theorem c128_transform :
        (∀ (N : RNum T) (input : Image T) (x y width height : Nat) (hN : N.Agrees), BuildsAgree (crop .debug N input x y width height)
      (crop .release N input x y width height)) ∧
        (∀ (order : List Nat) (input : Image T) (x y width height : Nat), BuildsAgree (cropPar order .debug input x y width height)
      (cropPar order .release input x y width height)) ∧
    (∀ (back front : Image T) (x y : Nat), BuildsAgree (overlay .debug back front x y) (overlay .release back front x y)) ∧
        (∀ (N : RNum T) (input : Image T) (x y : Nat) (hN : N.Agrees), BuildsAgree (translate .debug N input x y) (translate .release N
      input x y)) ∧
        (∀ (N : RNum T) (input : Image T) (axis : Refl) (hN : N.Agrees), BuildsAgree (reflect .debug N input axis) (reflect .release N
      input axis)) ∧
        (∀ (back front : Image F) (x y : Nat) (alpha : F), BuildsAgree (superimpose .debug back front x y alpha) (superimpose .release
      back front x y alpha)) ∧
        (∀ (input : Image F) (xf yf : F) (method : Scale), BuildsAgree (scale .debug input xf yf method) (scale .release input xf yf
      method)) ∧
        (∀ (order : List Nat) (input : Image F) (xf yf : F) (method : Scale), BuildsAgree (scalePar order .debug input xf yf method)
      (scalePar order .release input xf yf method)) ∧
        (∀ (input : Image F) (xf yf : F) (size : Nat), BuildsAgree (scaleLanczos .debug input xf yf size) (scaleLanczos .release input xf
      yf size)) ∧
        (∀ (order : List Nat) (input : Image F) (xf yf : F) (size : Nat), BuildsAgree (scaleLanczosPar order .debug input xf yf size)
      (scaleLanczosPar order .release input xf yf size)) ∧
    (∀ (input : Image F) (degrees : F), BuildsAgree (rotate .debug input degrees) (rotate .release input degrees)) ∧
    (∀ (input : Image F) (shearX shearY : F), BuildsAgree (shear .debug input shearX shearY) (shear .release input shearX shearY)) := by
  refine ⟨?_, ?_, ?_, ?_, ?_, ?_, ?_, ?_, ?_, ?_, ?_, ?_⟩
  · intros; apply ba_crop <;> assumption
  · intros; apply ba_cropPar <;> assumption
  · intros; apply ba_overlay <;> assumption
  · intros; apply ba_translate <;> assumption
  · intros; apply ba_reflect <;> assumption
  · intros; apply ba_superimpose <;> assumption
  · intros; apply ba_scale <;> assumption
  · intros; apply ba_scalePar <;> assumption
  · intros; apply ba_scaleLanczos <;> assumption
  · intros; apply ba_scaleLanczosPar <;> assumption
  · intros; apply ba_rotate <;> assumption
  · intros; apply ba_shear <;> assumption

/-- linear, edge, threshold and bilateral filters; the SVD is the same external function in both builds -/
theorem c128_filter :
        (∀ (input : Image F) (kernel : List F) (isVert : Bool), BuildsAgree (filter1d .debug input kernel isVert) (filter1d .release
      input kernel isVert)) ∧
        (∀ (order : List Nat) (input : Image F) (kernel : List F) (isVert : Bool), BuildsAgree (filter1dPar order .debug input kernel
      isVert) (filter1dPar order .release input kernel isVert)) ∧
        (∀ (input : Image F) (vert horz : List F), BuildsAgree (separableFilter .debug input vert horz) (separableFilter .release input
      vert horz)) ∧
        (∀ (o1 o2 : List Nat) (input : Image F) (vert horz : List F), BuildsAgree (separableFilterPar o1 o2 .debug input vert horz)
      (separableFilterPar o1 o2 .release input vert horz)) ∧
        (∀ (input : Image F) (kernel : List F), BuildsAgree (unseparableFilter .debug input kernel) (unseparableFilter .release input
      kernel)) ∧
        (∀ (order : List Nat) (input : Image F) (kernel : List F), BuildsAgree (unseparableFilterPar order .debug input kernel)
      (unseparableFilterPar order .release input kernel)) ∧
        (∀ (svd : Svd F) (input : Image F) (kernel : List F), BuildsAgree (linearFilter svd .debug input kernel) (linearFilter svd
      .release input kernel)) ∧
    (∀ (input : Image F) (size : Nat), BuildsAgree (boxFilter .debug input size) (boxFilter .release input size)) ∧
        (∀ (input : Image F) (size weight : Nat), BuildsAgree (weightedAvgFilter .debug input size weight) (weightedAvgFilter .release
      input size weight)) ∧
        (∀ (svd : Svd F) (input : Image F) (size : Nat) (sigma : F), BuildsAgree (gaussianBlur svd .debug input size sigma) (gaussianBlur
      svd .release input size sigma)) ∧
    (∀ (input : Image F), BuildsAgree (sharpen .debug input) (sharpen .release input)) ∧
    (∀ (input : Image F), BuildsAgree (unsharpMasking .debug input) (unsharpMasking .release input)) ∧
        (∀ (input : Image F) (thr max : F) (method : Thresh), BuildsAgree (threshold .debug input thr max method) (threshold .release
      input thr max method)) ∧
        (∀ (N : RNum T) (original filtered : Image T) (hN : N.Agrees), BuildsAgree (residual (T := T) .debug N original filtered)
      (residual (T := T) .release N original filtered)) ∧
        (∀ (input : Image F) (vert horz : List F), BuildsAgree (derivativeMask .debug input vert horz) (derivativeMask .release input
      vert horz)) ∧
    (∀ (input : Image F), BuildsAgree (prewitt .debug input) (prewitt .release input)) ∧
    (∀ (input : Image F), BuildsAgree (sobel .debug input) (sobel .release input)) ∧
    (∀ (input : Image F) (weight : Nat), BuildsAgree (sobelWeighted .debug input weight) (sobelWeighted .release input weight)) ∧
    (∀ (input : Image F), BuildsAgree (laplacian .debug input) (laplacian .release input)) ∧
        (∀ (input : Image F) (size : Nat) (sigma : F), BuildsAgree (laplacianOfGaussian .debug input size sigma) (laplacianOfGaussian
      .release input size sigma)) ∧
    (∀ (input : Image F), BuildsAgree (normalizeLaplacian .debug input) (normalizeLaplacian .release input)) ∧
        (∀ (input : Image UInt8) (range spatial : F), BuildsAgree (bilateralFilter .debug input range spatial) (bilateralFilter .release
      input range spatial)) ∧
        (∀ (order : List Nat) (input : Image UInt8) (range spatial : F), BuildsAgree (bilateralFilterPar order .debug input range
      spatial) (bilateralFilterPar order .release input range spatial)) := by
  refine ⟨?_, ?_, ?_, ?_, ?_, ?_, ?_, ?_, ?_, ?_, ?_, ?_, ?_, ?_, ?_, ?_, ?_, ?_, ?_, ?_, ?_, ?_, ?_⟩
  · intros; apply ba_filter1d <;> assumption
  · intros; apply ba_filter1dPar <;> assumption
  · intros; apply ba_separableFilter <;> assumption
  · intros; apply ba_separableFilterPar <;> assumption
  · intros; apply ba_unseparableFilter <;> assumption
  · intros; apply ba_unseparableFilterPar <;> assumption
  · intros; apply ba_linearFilter <;> assumption
  · intros; apply ba_boxFilter <;> assumption
  · intros; apply ba_weightedAvgFilter <;> assumption
  · intros; apply ba_gaussianBlur <;> assumption
  · intros; apply ba_sharpen <;> assumption
  · intros; apply ba_unsharpMasking <;> assumption
  · intros; apply ba_threshold <;> assumption
  · intros; apply ba_residual <;> assumption
  · intros; apply ba_derivativeMask <;> assumption
  · intros; apply ba_prewitt <;> assumption
  · intros; apply ba_sobel <;> assumption
  · intros; apply ba_sobelWeighted <;> assumption
  · intros; apply ba_laplacian <;> assumption
  · intros; apply ba_laplacianOfGaussian <;> assumption
  · intros; apply ba_normalizeLaplacian <;> assumption
  · intros; apply ba_bilateralFilter <;> assumption
  · intros; apply ba_bilateralFilterPar <;> assumption

/-- order-statistic filters (the standard library's binary search, `bs`, is the same in both builds) -/
theorem c128_order :
    (∀ (input : Image UInt8) (radius : Nat), BuildsAgree (medianFilter F .debug input radius) (medianFilter F .release input radius)) ∧
        (∀ (bs : BinSearch) (input : Image UInt8) (radius alpha : Nat), BuildsAgree (alphaTrimmedMeanFilter F bs .debug input radius
      alpha) (alphaTrimmedMeanFilter F bs .release input radius alpha)) := by
  refine ⟨?_, ?_⟩
  · intros; apply ba_medianFilter <;> assumption
  · intros; apply ba_alphaTrimmedMeanFilter <;> assumption

/-- morphology -/
theorem c128_morphology :
    (∀ (input : Image UInt8) (radius : Nat), BuildsAgree (erode F .debug input radius) (erode F .release input radius)) ∧
    (∀ (input : Image UInt8) (radius : Nat), BuildsAgree (dilate F .debug input radius) (dilate F .release input radius)) ∧
    (∀ (input : Image UInt8) (radius : Nat), BuildsAgree (majority F .debug input radius) (majority F .release input radius)) ∧
    (∀ (input : Image UInt8) (radius : Nat), BuildsAgree (morphOpen F .debug input radius) (morphOpen F .release input radius)) ∧
    (∀ (input : Image UInt8) (radius : Nat), BuildsAgree (morphClose F .debug input radius) (morphClose F .release input radius)) ∧
    (∀ (input : Image UInt8) (radius : Nat), BuildsAgree (gradient F .debug input radius) (gradient F .release input radius)) := by
  refine ⟨?_, ?_, ?_, ?_, ?_, ?_⟩
  · intros; apply ba_erode <;> assumption
  · intros; apply ba_dilate <;> assumption
  · intros; apply ba_majority <;> assumption
  · intros; apply ba_morphOpen <;> assumption
  · intros; apply ba_morphClose <;> assumption
  · intros; apply ba_gradient <;> assumption

/-- The two builds really differ once the debug build overflows: a 65536 × 65536 one-channel image has 2^32 pixels, so `blank`
panics in debug and builds an empty buffer in release; a smaller one is the same in both -/
example : Image.blank .debug usizeNum ⟨65536, 65536, 1, false⟩ = .error (.panic .overflow) ∧
    Image.blank .release usizeNum ⟨65536, 65536, 1, false⟩ = .ok ⟨⟨65536, 65536, 1, false⟩, []⟩ ∧
    Image.blank .debug usizeNum ⟨2, 1, 2, true⟩ = .ok ⟨⟨2, 1, 2, true⟩, [0, 0, 0, 0]⟩ := by decide

end Imgproc

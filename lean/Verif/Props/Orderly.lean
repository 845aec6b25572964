import Verif.Proofs.Orderly2
import Verif.Model.Io
import Verif.Props.Simd
/-!
C129: how calls of the library can end. Without AVX2 every public function, on every argument and in both builds, returns a value,
panics or returns `Err(InvalidArgError)`: no other error kind and no undefined behaviour.
-/
namespace Imgproc
open FloatOps
set_option linter.unusedVariables false
variable {T S F : Type} [FloatOps F]

/-- the hypothesis on channel types below holds for every supported one -/
theorem c129_channels : u8Num.Orderly ∧ u32Num.Orderly ∧ usizeNum.Orderly ∧ (intNum I16HALF).Orderly ∧ (intNum I32HALF).Orderly ∧
    (FloatOps.rnum (F := F)).Orderly :=
  ⟨u8Num_orderly, u32Num_orderly, usizeNum_orderly, intNum_orderly _, intNum_orderly _, rnum_orderly⟩

/-- the image type: construction, pixel access, neighbourhoods, map/apply/edit families (with closures that end in order themselves) and the pixel iterator -/
theorem c129_image :
    (∀ (P : Profile) (i : ImageInfo), Orderly (ImageInfo.channelsNonAlpha P i)) ∧
    (∀ (P : Profile) (i : ImageInfo), Orderly (ImageInfo.size P i)) ∧
    (∀ (P : Profile) (i : ImageInfo), Orderly (ImageInfo.fullSize P i)) ∧
    (∀ (P : Profile) (p : List T), Orderly (Pixel.alpha P p)) ∧
    (∀ (P : Profile) (p : List T), Orderly (Pixel.channelsWithoutAlpha P p)) ∧
        (∀ (P : Profile) (p : List T) (f g : T → Res S) (hf : ∀ a0, Orderly (f a0)) (hg : ∀ a0, Orderly (g a0)), Orderly
      (Pixel.mapAlpha P p f g)) ∧
        (∀ (P : Profile) (p : List T) (f g : T → Res T) (hf : ∀ a0, Orderly (f a0)) (hg : ∀ a0, Orderly (g a0)), Orderly
      (Pixel.applyAlpha P p f g)) ∧
    (∀ (P : Profile) (N : RNum T) (p : List T) (hN : N.Orderly), Orderly (Pixel.isBlackAlpha P N p)) ∧
    (∀ (P : Profile) (s : SubImage T), Orderly (SubImage.toVec P s)) ∧
    (∀ (P : Profile) (s : SubImage T) (x y : Nat), Orderly (SubImage.getPixel P s x y)) ∧
        (∀ (P : Profile) (width height channels : Nat) (alpha : Bool) (data : List (List T)), Orderly (Image.fromVecOfVec P
      width height channels alpha data)) ∧
        (∀ (P : Profile) (width height channels : Nat) (alpha : Bool) (data : List (List T)), Orderly (Image.fromVecOfSlice P
      width height channels alpha data)) ∧
    (∀ (P : Profile) (N : RNum T) (info : ImageInfo) (hN : N.Orderly), Orderly (Image.blank P N info)) ∧
    (∀ (P : Profile) (info : ImageInfo), Orderly (Image.empty (T := T) P info)) ∧
    (∀ (P : Profile) (img : Image T) (x y : Nat), Orderly (Image.index P img x y)) ∧
    (∀ (P : Profile) (img : Image T) (i : Nat), Orderly (Image.at' P img i)) ∧
    (∀ (P : Profile) (img : Image T) (x y : Nat), Orderly (Image.getPixel P img x y)) ∧
    (∀ (P : Profile) (img : Image T) (x y : Nat), Orderly (Image.getPixelUnchecked P img x y)) ∧
    (∀ (P : Profile) (img : Image T) (x y : Nat), Orderly (Image.getPixelMut P img x y)) ∧
    (∀ (P : Profile) (img : Image T) (x y : Nat), Orderly (Image.getPixelMutUnchecked P img x y)) ∧
    (∀ (P : Profile) (img : Image T) (x y width height : Nat), Orderly (Image.getSubimage P img x y width height)) ∧
    (∀ (P : Profile) (img : Image T) (x y size : Nat) (isVert : Bool), Orderly (Image.getNeighborhood1d P img x y size isVert)) ∧
    (∀ (P : Profile) (img : Image T) (x y size : Nat), Orderly (Image.getNeighborhood2d P img x y size)) ∧
    (∀ (P : Profile) (img : Image T) (x y : Nat) (pixel : List T), Orderly (Image.setPixel P img x y pixel)) ∧
    (∀ (P : Profile) (img : Image T) (index : Nat) (pixel : List T), Orderly (Image.setPixelIndexed P img index pixel)) ∧
        (∀ (P : Profile) (img : Image T) (f : List T → List S → Res (List S)) (hf : ∀ a0 a1, Orderly (f a0 a1)), Orderly
      (Image.mapPixels P img f)) ∧
        (∀ (P : Profile) (img : Image T) (f : List T → List S → Res (List S)) (g : T → Res S) (hf : ∀ a0 a1, Orderly (f a0 a1))
      (hg : ∀ a0, Orderly (g a0)), Orderly (Image.mapPixelsIfAlpha P img f g)) ∧
    (∀ (P : Profile) (img : Image T) (f : T → Res S) (hf : ∀ a0, Orderly (f a0)), Orderly (Image.mapChannels P img f)) ∧
        (∀ (P : Profile) (img : Image T) (f g : T → Res S) (hf : ∀ a0, Orderly (f a0)) (hg : ∀ a0, Orderly (g a0)), Orderly
      (Image.mapChannelsIfAlpha P img f g)) ∧
        (∀ (P : Profile) (img : Image T) (f : List T → List T → Res (List T)) (hf : ∀ a0 a1, Orderly (f a0 a1)), Orderly
      (Image.applyPixels P img f)) ∧
        (∀ (P : Profile) (img : Image T) (f : List T → List T → Res (List T)) (g : T → Res T) (hf : ∀ a0 a1, Orderly (f a0 a1))
      (hg : ∀ a0, Orderly (g a0)), Orderly (Image.applyPixelsIfAlpha P img f g)) ∧
    (∀ (P : Profile) (img : Image T) (f : T → Res T) (hf : ∀ a0, Orderly (f a0)), Orderly (Image.applyChannels P img f)) ∧
        (∀ (P : Profile) (img : Image T) (f g : T → Res T) (hf : ∀ a0, Orderly (f a0)) (hg : ∀ a0, Orderly (g a0)), Orderly
      (Image.applyChannelsIfAlpha P img f g)) ∧
        (∀ (P : Profile) (img : Image T) (f : T → Res T) (index : Nat) (hf : ∀ a0, Orderly (f a0)), Orderly (Image.editChannel P
      img f index)) ∧
    (∀ (P : Profile) (img : Image T), Orderly (PixelIter.new P img)) ∧
    (∀ (P : Profile) (img : Image T) (it : PixelIter), Orderly (PixelIter.next P img it)) ∧
    (∀ (P : Profile) (it : PixelIter), Orderly (PixelIter.sizeHint P it)) := by
  refine ⟨?_, ?_, ?_, ?_, ?_, ?_, ?_, ?_, ?_, ?_, ?_, ?_, ?_, ?_, ?_, ?_, ?_, ?_, ?_, ?_, ?_, ?_, ?_, ?_, ?_, ?_, ?_, ?_, ?_, ?_, ?_, ?_, ?_, ?_, ?_, ?_, ?_⟩
  · intros; apply od_ImageInfo_channelsNonAlpha <;> assumption
  · intros; apply od_ImageInfo_size <;> assumption
  · intros; apply od_ImageInfo_fullSize <;> assumption
  · intros; apply od_Pixel_alpha <;> assumption
  · intros; apply od_Pixel_channelsWithoutAlpha <;> assumption
  · intros; apply od_Pixel_mapAlpha <;> assumption
  · intros; apply od_Pixel_applyAlpha <;> assumption
  · intros; apply od_Pixel_isBlackAlpha <;> assumption
  · intros; apply od_SubImage_toVec <;> assumption
  · intros; apply od_SubImage_getPixel <;> assumption
  · intros; apply od_Image_fromVecOfVec <;> assumption
  · intros; apply od_Image_fromVecOfSlice <;> assumption
  · intros; apply od_Image_blank <;> assumption
  · intros; apply od_Image_empty <;> assumption
  · intros; apply od_Image_index <;> assumption
  · intros; apply od_Image_at' <;> assumption
  · intros; apply od_Image_getPixel <;> assumption
  · intros; apply od_Image_getPixelUnchecked <;> assumption
  · intros; apply od_Image_getPixelMut <;> assumption
  · intros; apply od_Image_getPixelMutUnchecked <;> assumption
  · intros; apply od_Image_getSubimage <;> assumption
  · intros; apply od_Image_getNeighborhood1d <;> assumption
  · intros; apply od_Image_getNeighborhood2d <;> assumption
  · intros; apply od_Image_setPixel <;> assumption
  · intros; apply od_Image_setPixelIndexed <;> assumption
  · intros; apply od_Image_mapPixels <;> assumption
  · intros; apply od_Image_mapPixelsIfAlpha <;> assumption
  · intros; apply od_Image_mapChannels <;> assumption
  · intros; apply od_Image_mapChannelsIfAlpha <;> assumption
  · intros; apply od_Image_applyPixels <;> assumption
  · intros; apply od_Image_applyPixelsIfAlpha <;> assumption
  · intros; apply od_Image_applyChannels <;> assumption
  · intros; apply od_Image_applyChannelsIfAlpha <;> assumption
  · intros; apply od_Image_editChannel <;> assumption
  · intros; apply od_PixelIter_new <;> assumption
  · intros; apply od_PixelIter_next <;> assumption
  · intros; apply od_PixelIter_sizeHint <;> assumption

/-- kernel application, histograms, kernel generators, summed-area tables -/
theorem c129_util :
    (∀ (P : Profile) (N : RNum T) (mat input : List T) (hN : N.Orderly), Orderly (vectorMul P N mat input)) ∧
    (∀ (P : Profile) (N : RNum T) (mat input output : List T) (hN : N.Orderly), Orderly (vectorMulMut P N mat input output)) ∧
    (∀ (P : Profile) (input : SubImage F) (kernel : List F), Orderly (apply1dKernel P input kernel)) ∧
    (∀ (P : Profile) (input : SubImage F) (kernel : List F), Orderly (apply2dKernel P input kernel)) ∧
        (∀ (P : Profile) (input : Image F) (percentiles : List (Int × F)) (precision : F), Orderly (generateHistogramPercentiles
      P input percentiles precision)) ∧
    (∀ (P : Profile) (size : Nat) (sigma : F), Orderly (generateGaussianKernel P size sigma)) ∧
    (∀ (P : Profile) (size : Nat) (sigma : F), Orderly (generateLogKernel P size sigma)) ∧
    (∀ (P : Profile) (size : Nat) (spatial : F), Orderly (generateSpatialMat P size spatial)) ∧
    (∀ (P : Profile) (input : Image F), Orderly (generateSummedAreaTable P input)) ∧
    (∀ (P : Profile) (table : Image F) (x0 y0 x1 y1 : Nat), Orderly (rectangularIntensitySum P table x0 y0 x1 y1)) := by
  refine ⟨?_, ?_, ?_, ?_, ?_, ?_, ?_, ?_, ?_, ?_⟩
  · intros; apply od_vectorMul <;> assumption
  · intros; apply od_vectorMulMut <;> assumption
  · intros; apply od_apply1dKernel <;> assumption
  · intros; apply od_apply2dKernel <;> assumption
  · intros; apply od_generateHistogramPercentiles <;> assumption
  · intros; apply od_generateGaussianKernel <;> assumption
  · intros; apply od_generateLogKernel <;> assumption
  · intros; apply od_generateSpatialMat <;> assumption
  · intros; apply od_generateSummedAreaTable <;> assumption
  · intros; apply od_rectangularIntensitySum <;> assumption

/-- image type and range conversion -/
theorem c129_convert :
        (∀ (P : Profile) (input : Image F) (curMin scMin curMax scMax : F), Orderly (scaleChannels P input curMin scMin curMax
      scMax)) ∧
    (∀ (P : Profile) (input : Image F) (scale : Nat), Orderly (f32ToU8Scale P input scale)) ∧
    (∀ (P : Profile) (input : Image UInt8) (scale : Nat), Orderly (u8ToF32Scale (F := F) P input scale)) ∧
    (∀ (P : Profile) (img : Image Nat), Orderly (imageNatToFloat (F := F) P img)) ∧
    (∀ (P : Profile) (img : Image F), Orderly (imageFloatToU8 P img)) := by
  refine ⟨?_, ?_, ?_, ?_, ?_⟩
  · intros; apply od_scaleChannels <;> assumption
  · intros; apply od_f32ToU8Scale <;> assumption
  · intros; apply od_u8ToF32Scale <;> assumption
  · intros; apply od_imageNatToFloat <;> assumption
  · intros; apply od_imageFloatToU8 <;> assumption

/-- colour space conversions, scalar grayscale -/
theorem c129_colorspace :
    (∀ (P : Profile) (input : Image UInt8), Orderly (rgbToGrayscale F false P input)) ∧
    (∀ (P : Profile) (input : Image F), Orderly (rgbToGrayscaleF32 P input)) ∧
    (∀ (P : Profile) (input : Image UInt8), Orderly (rgbToHsv P input)) ∧
    (∀ (P : Profile) (input : Image UInt8), Orderly (hsvToRgb P input)) ∧
    (∀ (P : Profile) (input : Image UInt8), Orderly (rgbToHsvF32 (F := F) P input)) ∧
    (∀ (P : Profile) (input : Image F), Orderly (hsvToRgbF32 P input)) ∧
    (∀ (P : Profile) (input : Image UInt8), Orderly (linearizeSrgb (F := F) P input)) ∧
    (∀ (P : Profile) (input : Image F), Orderly (unlinearizeSrgb P input)) ∧
    (∀ (P : Profile) (input : Image F), Orderly (srgbLinToXyz P input)) ∧
    (∀ (P : Profile) (input : Image F), Orderly (xyzToSrgbLin P input)) ∧
    (∀ (P : Profile) (input : Image F) (white : White), Orderly (xyzToLab P input white)) ∧
    (∀ (P : Profile) (input : Image F) (white : White), Orderly (labToXyz P input white)) ∧
    (∀ (P : Profile) (input : Image UInt8), Orderly (srgbToXyz (F := F) P input)) ∧
    (∀ (P : Profile) (input : Image F), Orderly (xyzToSrgb P input)) ∧
    (∀ (P : Profile) (input : Image UInt8) (white : White), Orderly (srgbToLab (F := F) P input white)) ∧
    (∀ (P : Profile) (input : Image F) (white : White), Orderly (labToSrgb P input white)) := by
  refine ⟨?_, ?_, ?_, ?_, ?_, ?_, ?_, ?_, ?_, ?_, ?_, ?_, ?_, ?_, ?_, ?_⟩
  · intros; apply od_rgbToGrayscale <;> assumption
  · intros; apply od_rgbToGrayscaleF32 <;> assumption
  · intros; apply od_rgbToHsv <;> assumption
  · intros; apply od_hsvToRgb <;> assumption
  · intros; apply od_rgbToHsvF32 <;> assumption
  · intros; apply od_hsvToRgbF32 <;> assumption
  · intros; apply od_linearizeSrgb <;> assumption
  · intros; apply od_unlinearizeSrgb <;> assumption
  · intros; apply od_srgbLinToXyz <;> assumption
  · intros; apply od_xyzToSrgbLin <;> assumption
  · intros; apply od_xyzToLab <;> assumption
  · intros; apply od_labToXyz <;> assumption
  · intros; apply od_srgbToXyz <;> assumption
  · intros; apply od_xyzToSrgb <;> assumption
  · intros; apply od_srgbToLab <;> assumption
  · intros; apply od_labToSrgb <;> assumption

/-- tone operations -/
theorem c129_tone :
    (∀ (P : Profile) (input : Image UInt8) (bias : Int), Orderly (brightness false P input bias)) ∧
    (∀ (P : Profile) (input : Image UInt8) (sat : Int), Orderly (saturation false P input sat)) ∧
    (∀ (P : Profile) (input : Image UInt8) (bias : Int), Orderly (brightnessLab F P input bias)) ∧
    (∀ (P : Profile) (input : Image UInt8) (gain : F), Orderly (contrast P input gain)) ∧
    (∀ (P : Profile) (input : Image UInt8) (gain : F), Orderly (contrastLab P input gain)) ∧
    (∀ (P : Profile) (input : Image UInt8) (gamma : F) (max : UInt8), Orderly (gammaOp P input gamma max)) ∧
        (∀ (P : Profile) (input : Image UInt8) (alpha : F) (white : White) (precision : F), Orderly (histogramEqualization P
      input alpha white precision)) := by
  refine ⟨?_, ?_, ?_, ?_, ?_, ?_, ?_⟩
  · intros; apply od_brightness <;> assumption
  · intros; apply od_saturation <;> assumption
  · intros; apply od_brightnessLab <;> assumption
  · intros; apply od_contrast <;> assumption
  · intros; apply od_contrastLab <;> assumption
  · intros; apply od_gammaOp <;> assumption
  · intros; apply od_histogramEqualization <;> assumption

/-- geometric transforms, parallel ones under every task order -/
theorem c129_transform :
        (∀ (P : Profile) (N : RNum T) (input : Image T) (x y width height : Nat) (hN : N.Orderly), Orderly (crop P N input x y
      width height)) ∧
        (∀ (order : List Nat) (P : Profile) (input : Image T) (x y width height : Nat), Orderly (cropPar order P input x y width
      height)) ∧
    (∀ (P : Profile) (back front : Image T) (x y : Nat), Orderly (overlay P back front x y)) ∧
    (∀ (P : Profile) (N : RNum T) (input : Image T) (x y : Nat) (hN : N.Orderly), Orderly (translate P N input x y)) ∧
    (∀ (P : Profile) (N : RNum T) (input : Image T) (axis : Refl) (hN : N.Orderly), Orderly (reflect P N input axis)) ∧
    (∀ (P : Profile) (back front : Image F) (x y : Nat) (alpha : F), Orderly (superimpose P back front x y alpha)) ∧
    (∀ (P : Profile) (input : Image F) (xf yf : F) (method : Scale), Orderly (scale P input xf yf method)) ∧
        (∀ (order : List Nat) (P : Profile) (input : Image F) (xf yf : F) (method : Scale), Orderly (scalePar order P input xf
      yf method)) ∧
    (∀ (P : Profile) (input : Image F) (xf yf : F) (size : Nat), Orderly (scaleLanczos P input xf yf size)) ∧
        (∀ (order : List Nat) (P : Profile) (input : Image F) (xf yf : F) (size : Nat), Orderly (scaleLanczosPar order P input
      xf yf size)) ∧
    (∀ (P : Profile) (input : Image F) (degrees : F), Orderly (rotate P input degrees)) ∧
    (∀ (P : Profile) (input : Image F) (shearX shearY : F), Orderly (shear P input shearX shearY)) := by
  refine ⟨?_, ?_, ?_, ?_, ?_, ?_, ?_, ?_, ?_, ?_, ?_, ?_⟩
  · intros; apply od_crop <;> assumption
  · intros; apply od_cropPar <;> assumption
  · intros; apply od_overlay <;> assumption
  · intros; apply od_translate <;> assumption
  · intros; apply od_reflect <;> assumption
  · intros; apply od_superimpose <;> assumption
  · intros; apply od_scale <;> assumption
  · intros; apply od_scalePar <;> assumption
  · intros; apply od_scaleLanczos <;> assumption
  · intros; apply od_scaleLanczosPar <;> assumption
  · intros; apply od_rotate <;> assumption
  · intros; apply od_shear <;> assumption

/-- linear, edge, threshold and bilateral filters; the SVD is any external function -/
theorem c129_filter :
    (∀ (P : Profile) (input : Image F) (kernel : List F) (isVert : Bool), Orderly (filter1d P input kernel isVert)) ∧
        (∀ (order : List Nat) (P : Profile) (input : Image F) (kernel : List F) (isVert : Bool), Orderly (filter1dPar order P
      input kernel isVert)) ∧
    (∀ (P : Profile) (input : Image F) (vert horz : List F), Orderly (separableFilter P input vert horz)) ∧
        (∀ (o1 o2 : List Nat) (P : Profile) (input : Image F) (vert horz : List F), Orderly (separableFilterPar o1 o2 P input
      vert horz)) ∧
    (∀ (P : Profile) (input : Image F) (kernel : List F), Orderly (unseparableFilter P input kernel)) ∧
        (∀ (order : List Nat) (P : Profile) (input : Image F) (kernel : List F), Orderly (unseparableFilterPar order P input
      kernel)) ∧
    (∀ (svd : Svd F) (P : Profile) (input : Image F) (kernel : List F), Orderly (linearFilter svd P input kernel)) ∧
    (∀ (P : Profile) (input : Image F) (size : Nat), Orderly (boxFilter P input size)) ∧
    (∀ (P : Profile) (input : Image F) (size weight : Nat), Orderly (weightedAvgFilter P input size weight)) ∧
    (∀ (svd : Svd F) (P : Profile) (input : Image F) (size : Nat) (sigma : F), Orderly (gaussianBlur svd P input size sigma)) ∧
    (∀ (P : Profile) (input : Image F), Orderly (sharpen P input)) ∧
    (∀ (P : Profile) (input : Image F), Orderly (unsharpMasking P input)) ∧
    (∀ (P : Profile) (input : Image F) (thr max : F) (method : Thresh), Orderly (threshold P input thr max method)) ∧
        (∀ (P : Profile) (N : RNum T) (original filtered : Image T) (hN : N.Orderly), Orderly (residual (T := T) P N original
      filtered)) ∧
    (∀ (P : Profile) (input : Image F) (vert horz : List F), Orderly (derivativeMask P input vert horz)) ∧
    (∀ (P : Profile) (input : Image F), Orderly (prewitt P input)) ∧
    (∀ (P : Profile) (input : Image F), Orderly (sobel P input)) ∧
    (∀ (P : Profile) (input : Image F) (weight : Nat), Orderly (sobelWeighted P input weight)) ∧
    (∀ (P : Profile) (input : Image F), Orderly (laplacian P input)) ∧
    (∀ (P : Profile) (input : Image F) (size : Nat) (sigma : F), Orderly (laplacianOfGaussian P input size sigma)) ∧
    (∀ (P : Profile) (input : Image F), Orderly (normalizeLaplacian P input)) ∧
    (∀ (P : Profile) (input : Image UInt8) (range spatial : F), Orderly (bilateralFilter P input range spatial)) ∧
        (∀ (order : List Nat) (P : Profile) (input : Image UInt8) (range spatial : F), Orderly (bilateralFilterPar order P input
      range spatial)) := by
  refine ⟨?_, ?_, ?_, ?_, ?_, ?_, ?_, ?_, ?_, ?_, ?_, ?_, ?_, ?_, ?_, ?_, ?_, ?_, ?_, ?_, ?_, ?_, ?_⟩
  · intros; apply od_filter1d <;> assumption
  · intros; apply od_filter1dPar <;> assumption
  · intros; apply od_separableFilter <;> assumption
  · intros; apply od_separableFilterPar <;> assumption
  · intros; apply od_unseparableFilter <;> assumption
  · intros; apply od_unseparableFilterPar <;> assumption
  · intros; apply od_linearFilter <;> assumption
  · intros; apply od_boxFilter <;> assumption
  · intros; apply od_weightedAvgFilter <;> assumption
  · intros; apply od_gaussianBlur <;> assumption
  · intros; apply od_sharpen <;> assumption
  · intros; apply od_unsharpMasking <;> assumption
  · intros; apply od_threshold <;> assumption
  · intros; apply od_residual <;> assumption
  · intros; apply od_derivativeMask <;> assumption
  · intros; apply od_prewitt <;> assumption
  · intros; apply od_sobel <;> assumption
  · intros; apply od_sobelWeighted <;> assumption
  · intros; apply od_laplacian <;> assumption
  · intros; apply od_laplacianOfGaussian <;> assumption
  · intros; apply od_normalizeLaplacian <;> assumption
  · intros; apply od_bilateralFilter <;> assumption
  · intros; apply od_bilateralFilterPar <;> assumption

/-- order-statistic filters (the standard library's binary search, `bs`, is any function) -/
theorem c129_order :
    (∀ (P : Profile) (input : Image UInt8) (radius : Nat), Orderly (medianFilter F P input radius)) ∧
        (∀ (bs : BinSearch) (P : Profile) (input : Image UInt8) (radius alpha : Nat), Orderly (alphaTrimmedMeanFilter F bs P
      input radius alpha)) := by
  refine ⟨?_, ?_⟩
  · intros; apply od_medianFilter <;> assumption
  · intros; apply od_alphaTrimmedMeanFilter <;> assumption

/-- morphology -/
theorem c129_morphology :
    (∀ (P : Profile) (input : Image UInt8) (radius : Nat), Orderly (erode F P input radius)) ∧
    (∀ (P : Profile) (input : Image UInt8) (radius : Nat), Orderly (dilate F P input radius)) ∧
    (∀ (P : Profile) (input : Image UInt8) (radius : Nat), Orderly (majority F P input radius)) ∧
    (∀ (P : Profile) (input : Image UInt8) (radius : Nat), Orderly (morphOpen F P input radius)) ∧
    (∀ (P : Profile) (input : Image UInt8) (radius : Nat), Orderly (morphClose F P input radius)) ∧
    (∀ (P : Profile) (input : Image UInt8) (radius : Nat), Orderly (gradient F P input radius)) := by
  refine ⟨?_, ?_, ?_, ?_, ?_, ?_⟩
  · intros; apply od_erode <;> assumption
  · intros; apply od_dilate <;> assumption
  · intros; apply od_majority <;> assumption
  · intros; apply od_morphOpen <;> assumption
  · intros; apply od_morphClose <;> assumption
  · intros; apply od_gradient <;> assumption

/-- reading and writing files never panics: `read` returns an image, an io error or the unsupported-colour error; `write` returns
`Ok`, one of these errors or the image-write error -/
theorem c129_io {File : Type} (codec : Codec File) (fs : FileSys File) (path : String) (img : Image UInt8) :
    ((∃ out, ioRead codec fs path = .ok out) ∨ ioRead codec fs path = .error (.err .io) ∨
      ioRead codec fs path = .error (.err .unsupportedColorType)) ∧
    ((ioWrite codec fs img path).1 = .ok () ∨ (ioWrite codec fs img path).1 = .error (.err .io) ∨
      (ioWrite codec fs img path).1 = .error (.err .imageWrite) ∨
      (ioWrite codec fs img path).1 = .error (.err .unsupportedColorType)) := by
  constructor
  · unfold ioRead
    cases fs path with
    | none => exact .inr (.inl rfl)
    | some file =>
      dsimp only
      cases codec.decode path file with
      | none => exact .inr (.inl rfl)
      | some d =>
        dsimp only
        cases d.color <;> first | exact .inl ⟨_, rfl⟩ | exact .inr (.inr rfl)
  · have sv : ∀ c s w h d, (saveBuffer codec fs path c s w h d).1 = .ok () ∨
        (saveBuffer codec fs path c s w h d).1 = .error (.err .io) ∨
        (saveBuffer codec fs path c s w h d).1 = .error (.err .imageWrite) ∨
        (saveBuffer codec fs path c s w h d).1 = .error (.err .unsupportedColorType) := by
      intro c s w h d
      unfold saveBuffer
      split
      · exact .inr (.inr (.inl rfl))
      · dsimp only
        split
        · exact .inl rfl
        · exact .inr (.inl rfl)
    unfold ioWrite
    split <;> split <;> first | exact sv _ _ _ _ _ | exact .inr (.inr (.inr rfl))

/-- The three ways to end all occur: `crop` of a 3 × 2 image at (1, 0) to 1 × 1 returns, to 5 × 1 is an `Err`, and reading a pixel
outside panics. With AVX2, undefined behaviour is possible (`c25_violated_ub`) -/
example : (∃ out, crop .release u8Num (Image.fromVec 3 2 1 false [1, 2, 3, 4, 5, 6]) 1 0 1 1 = .ok out) ∧
    crop .release u8Num (Image.fromVec 3 2 1 false [1, 2, 3, 4, 5, 6]) 1 0 5 1 = .error (.err .invalidArg) ∧
    (∃ k, Image.getPixel .release (Image.fromVec 3 2 1 false [1, 2, 3, 4, 5, 6] : Image UInt8) 3 0 = .error (.panic k)) :=
  ⟨⟨_, rfl⟩, rfl, ⟨_, rfl⟩⟩

end Imgproc

import Verif.Proofs.Orderly
/-!
Which errors the library returns (C129): the remaining modules.
-/
namespace Imgproc
open FloatOps
set_option linter.unusedVariables false
set_option linter.unusedSectionVars false
variable {T S F : Type} [FloatOps F]

/-! ### Morphology -/
theorem od_checkGrayscale {T : Type} (input : Image T) : Orderly (checkGrayscale (T := T) input) := by unfold checkGrayscale; od
macro_rules | `(tactic| od_step) => `(tactic| with_reducible apply od_checkGrayscale)

theorem od_imageU8ToFloat {F : Type} [FloatOps F] (P : Profile) (img : Image UInt8) : Orderly (imageU8ToFloat (F := F) P img) := by unfold imageU8ToFloat; od
macro_rules | `(tactic| od_step) => `(tactic| with_reducible apply od_imageU8ToFloat)

theorem od_morphSpan (P : Profile) (c n radius : Nat) : Orderly (morphSpan P c n radius) := by unfold morphSpan; od
macro_rules | `(tactic| od_step) => `(tactic| with_reducible apply od_morphSpan)

theorem od_morphScan {F : Type} [FloatOps F] (P : Profile) (input : Image UInt8) (radius : Nat) (table : Image F) (test : F → Bool) : Orderly (morphScan (F := F) P input radius table test) := by unfold morphScan; od
macro_rules | `(tactic| od_step) => `(tactic| with_reducible apply od_morphScan)

theorem od_morphMaxSum {F : Type} [FloatOps F] (P : Profile) (radius : Nat) : Orderly (morphMaxSum (F := F) P radius) := by unfold morphMaxSum; od
macro_rules | `(tactic| od_step) => `(tactic| with_reducible apply od_morphMaxSum)

theorem od_erode (F : Type) [FloatOps F] (P : Profile) (input : Image UInt8) (radius : Nat) : Orderly (erode F P input radius) := by unfold erode; od
macro_rules | `(tactic| od_step) => `(tactic| with_reducible apply od_erode)

theorem od_dilate (F : Type) [FloatOps F] (P : Profile) (input : Image UInt8) (radius : Nat) : Orderly (dilate F P input radius) := by unfold dilate; od
macro_rules | `(tactic| od_step) => `(tactic| with_reducible apply od_dilate)

theorem od_majority (F : Type) [FloatOps F] (P : Profile) (input : Image UInt8) (radius : Nat) : Orderly (majority F P input radius) := by unfold majority; od
macro_rules | `(tactic| od_step) => `(tactic| with_reducible apply od_majority)

theorem od_morphOpen (F : Type) [FloatOps F] (P : Profile) (input : Image UInt8) (radius : Nat) : Orderly (morphOpen F P input radius) := by unfold morphOpen; od
macro_rules | `(tactic| od_step) => `(tactic| with_reducible apply od_morphOpen)

theorem od_morphClose (F : Type) [FloatOps F] (P : Profile) (input : Image UInt8) (radius : Nat) : Orderly (morphClose F P input radius) := by unfold morphClose; od
macro_rules | `(tactic| od_step) => `(tactic| with_reducible apply od_morphClose)

theorem od_gradient (F : Type) [FloatOps F] (P : Profile) (input : Image UInt8) (radius : Nat) : Orderly (gradient F P input radius) := by unfold gradient; od
macro_rules | `(tactic| od_step) => `(tactic| with_reducible apply od_gradient)
/-! ### Convert -/
theorem od_scaleChannels (P : Profile) (input : Image F) (curMin scMin curMax scMax : F) : Orderly (scaleChannels P input curMin scMin curMax scMax) := by unfold scaleChannels; od
macro_rules | `(tactic| od_step) => `(tactic| with_reducible apply od_scaleChannels)

theorem od_f32ToU8Scale (P : Profile) (input : Image F) (scale : Nat) : Orderly (f32ToU8Scale P input scale) := by unfold f32ToU8Scale; od
macro_rules | `(tactic| od_step) => `(tactic| with_reducible apply od_f32ToU8Scale)

theorem od_u8ToF32Scale (P : Profile) (input : Image UInt8) (scale : Nat) : Orderly (u8ToF32Scale (F := F) P input scale) := by unfold u8ToF32Scale; od
macro_rules | `(tactic| od_step) => `(tactic| with_reducible apply od_u8ToF32Scale)

theorem od_imageNatToFloat (P : Profile) (img : Image Nat) : Orderly (imageNatToFloat (F := F) P img) := by unfold imageNatToFloat; od
macro_rules | `(tactic| od_step) => `(tactic| with_reducible apply od_imageNatToFloat)

theorem od_imageFloatToU8 (P : Profile) (img : Image F) : Orderly (imageFloatToU8 P img) := by unfold imageFloatToU8; od
macro_rules | `(tactic| od_step) => `(tactic| with_reducible apply od_imageFloatToU8)
/-! ### Colorspace -/
theorem od_rgbToGrayscaleNorm (P : Profile) (input : Image UInt8) : Orderly (rgbToGrayscaleNorm P input) := by unfold rgbToGrayscaleNorm; od
macro_rules | `(tactic| od_step) => `(tactic| with_reducible apply od_rgbToGrayscaleNorm)

theorem od_rgbToHsvPixel (P : Profile) (channels : List UInt8) : Orderly (rgbToHsvPixel P channels) := by unfold rgbToHsvPixel; od
macro_rules | `(tactic| od_step) => `(tactic| with_reducible apply od_rgbToHsvPixel)

theorem od_rgbToHsv (P : Profile) (input : Image UInt8) : Orderly (rgbToHsv P input) := by unfold rgbToHsv; od
macro_rules | `(tactic| od_step) => `(tactic| with_reducible apply od_rgbToHsv)

theorem od_hsvToRgbPixel (P : Profile) (channels : List UInt8) : Orderly (hsvToRgbPixel P channels) := by unfold hsvToRgbPixel; od
macro_rules | `(tactic| od_step) => `(tactic| with_reducible apply od_hsvToRgbPixel)

theorem od_hsvToRgb (P : Profile) (input : Image UInt8) : Orderly (hsvToRgb P input) := by unfold hsvToRgb; od
macro_rules | `(tactic| od_step) => `(tactic| with_reducible apply od_hsvToRgb)

theorem od_rgbToGrayscaleF32 (P : Profile) (input : Image F) : Orderly (rgbToGrayscaleF32 P input) := by unfold rgbToGrayscaleF32; od
macro_rules | `(tactic| od_step) => `(tactic| with_reducible apply od_rgbToGrayscaleF32)

theorem od_linearizeSrgb (P : Profile) (input : Image UInt8) : Orderly (linearizeSrgb (F := F) P input) := by unfold linearizeSrgb; od
macro_rules | `(tactic| od_step) => `(tactic| with_reducible apply od_linearizeSrgb)

theorem od_unlinearizeSrgb (P : Profile) (input : Image F) : Orderly (unlinearizeSrgb P input) := by unfold unlinearizeSrgb; od
macro_rules | `(tactic| od_step) => `(tactic| with_reducible apply od_unlinearizeSrgb)

theorem od_srgbLinToXyz (P : Profile) (input : Image F) : Orderly (srgbLinToXyz P input) := by unfold srgbLinToXyz; od
macro_rules | `(tactic| od_step) => `(tactic| with_reducible apply od_srgbLinToXyz)

theorem od_xyzToSrgbLin (P : Profile) (input : Image F) : Orderly (xyzToSrgbLin P input) := by unfold xyzToSrgbLin; od
macro_rules | `(tactic| od_step) => `(tactic| with_reducible apply od_xyzToSrgbLin)

theorem od_xyzToLabPixel (white : White) (channels : List F) : Orderly (xyzToLabPixel white channels) := by unfold xyzToLabPixel; od
macro_rules | `(tactic| od_step) => `(tactic| with_reducible apply od_xyzToLabPixel)

theorem od_xyzToLab (P : Profile) (input : Image F) (white : White) : Orderly (xyzToLab P input white) := by unfold xyzToLab; od
macro_rules | `(tactic| od_step) => `(tactic| with_reducible apply od_xyzToLab)

theorem od_labToXyzPixel (white : White) (channels : List F) : Orderly (labToXyzPixel white channels) := by unfold labToXyzPixel; od
macro_rules | `(tactic| od_step) => `(tactic| with_reducible apply od_labToXyzPixel)

theorem od_labToXyz (P : Profile) (input : Image F) (white : White) : Orderly (labToXyz P input white) := by unfold labToXyz; od
macro_rules | `(tactic| od_step) => `(tactic| with_reducible apply od_labToXyz)

theorem od_rgbToHsvF32Pixel (channels : List UInt8) : Orderly (rgbToHsvF32Pixel (F := F) channels) := by unfold rgbToHsvF32Pixel; od
macro_rules | `(tactic| od_step) => `(tactic| with_reducible apply od_rgbToHsvF32Pixel)

theorem od_rgbToHsvF32 (P : Profile) (input : Image UInt8) : Orderly (rgbToHsvF32 (F := F) P input) := by unfold rgbToHsvF32; od
macro_rules | `(tactic| od_step) => `(tactic| with_reducible apply od_rgbToHsvF32)

theorem od_hsvToRgbF32Pixel (channels : List F) : Orderly (hsvToRgbF32Pixel channels) := by unfold hsvToRgbF32Pixel; od
macro_rules | `(tactic| od_step) => `(tactic| with_reducible apply od_hsvToRgbF32Pixel)

theorem od_hsvToRgbF32 (P : Profile) (input : Image F) : Orderly (hsvToRgbF32 P input) := by unfold hsvToRgbF32; od
macro_rules | `(tactic| od_step) => `(tactic| with_reducible apply od_hsvToRgbF32)

theorem od_srgbToXyz (P : Profile) (input : Image UInt8) : Orderly (srgbToXyz (F := F) P input) := by unfold srgbToXyz; od
macro_rules | `(tactic| od_step) => `(tactic| with_reducible apply od_srgbToXyz)

theorem od_xyzToSrgb (P : Profile) (input : Image F) : Orderly (xyzToSrgb P input) := by unfold xyzToSrgb; od
macro_rules | `(tactic| od_step) => `(tactic| with_reducible apply od_xyzToSrgb)

theorem od_srgbToLab (P : Profile) (input : Image UInt8) (white : White) : Orderly (srgbToLab (F := F) P input white) := by unfold srgbToLab; od
macro_rules | `(tactic| od_step) => `(tactic| with_reducible apply od_srgbToLab)

theorem od_labToSrgb (P : Profile) (input : Image F) (white : White) : Orderly (labToSrgb P input white) := by unfold labToSrgb; od
macro_rules | `(tactic| od_step) => `(tactic| with_reducible apply od_labToSrgb)
/-! ### Simd -/
theorem od_whileStep {σ : Type} (add : Nat → Nat → Res Nat) (step n : Nat) (f : Nat → σ → Res σ) (fuel i : Nat) (s : σ) (hg : ∀ a b, Orderly (add a b)) (hf : ∀ i s, Orderly (f i s)) : Orderly (whileStep add step n f fuel i s) := by
  induction fuel generalizing i s with
  | zero => exact .panicked _
  | succ k ih => unfold whileStep; od <;> apply ih
macro_rules | `(tactic| od_step) => `(tactic| with_reducible apply od_whileStep)

theorem od_addClampU8 (P : Profile) (c : UInt8) (val : Int) : Orderly (addClampU8 P c val) := by unfold addClampU8; od
macro_rules | `(tactic| od_step) => `(tactic| with_reducible apply od_addClampU8)

theorem od_gatherChannels (P : Profile) (input : Image UInt8) (offset count : Nat) : Orderly (gatherChannels P input offset count) := by unfold gatherChannels; od
macro_rules | `(tactic| od_step) => `(tactic| with_reducible apply od_gatherChannels)

theorem od_tailSum (P : Profile) (input : Image UInt8) (i : Nat) : Orderly (tailSum P input i) := by unfold tailSum; od
macro_rules | `(tactic| od_step) => `(tactic| with_reducible apply od_tailSum)

theorem od_rgbToGrayscale (F : Type) [FloatOps F] (P : Profile) (input : Image UInt8) : Orderly (rgbToGrayscale F false P input) := by unfold rgbToGrayscale; od
macro_rules | `(tactic| od_step) => `(tactic| with_reducible apply od_rgbToGrayscale)
/-! ### Tone -/
theorem od_brightnessRgbNorm (P : Profile) (input : Image UInt8) (bias : Int) : Orderly (brightnessRgbNorm P input bias) := by unfold brightnessRgbNorm; od
macro_rules | `(tactic| od_step) => `(tactic| with_reducible apply od_brightnessRgbNorm)

theorem od_brightness (P : Profile) (input : Image UInt8) (bias : Int) : Orderly (brightness false P input bias) := by unfold brightness; od
macro_rules | `(tactic| od_step) => `(tactic| with_reducible apply od_brightness)

theorem od_saturationNorm (P : Profile) (hsv : Image UInt8) (sat : Int) : Orderly (saturationNorm P hsv sat) := by unfold saturationNorm; od
macro_rules | `(tactic| od_step) => `(tactic| with_reducible apply od_saturationNorm)

theorem od_saturation (P : Profile) (input : Image UInt8) (sat : Int) : Orderly (saturation false P input sat) := by unfold saturation; od
macro_rules | `(tactic| od_step) => `(tactic| with_reducible apply od_saturation)

theorem od_brightnessLab (F : Type) [FloatOps F] (P : Profile) (input : Image UInt8) (bias : Int) : Orderly (brightnessLab F P input bias) := by unfold brightnessLab; od
macro_rules | `(tactic| od_step) => `(tactic| with_reducible apply od_brightnessLab)

theorem od_contrast (P : Profile) (input : Image UInt8) (gain : F) : Orderly (contrast P input gain) := by unfold contrast; od
macro_rules | `(tactic| od_step) => `(tactic| with_reducible apply od_contrast)

theorem od_contrastLab (P : Profile) (input : Image UInt8) (gain : F) : Orderly (contrastLab P input gain) := by unfold contrastLab; od
macro_rules | `(tactic| od_step) => `(tactic| with_reducible apply od_contrastLab)

theorem od_gammaOp (P : Profile) (input : Image UInt8) (gamma : F) (max : UInt8) : Orderly (gammaOp P input gamma max) := by unfold gammaOp; od
macro_rules | `(tactic| od_step) => `(tactic| with_reducible apply od_gammaOp)

theorem od_equalizeValue (percentiles : List (Int × F)) (alpha precision n : F) : Orderly (equalizeValue percentiles alpha precision n) := by unfold equalizeValue; od
macro_rules | `(tactic| od_step) => `(tactic| with_reducible apply od_equalizeValue)

theorem od_histogramEqualization (P : Profile) (input : Image UInt8) (alpha : F) (white : White) (precision : F) : Orderly (histogramEqualization P input alpha white precision) := by unfold histogramEqualization; od
macro_rules | `(tactic| od_step) => `(tactic| with_reducible apply od_histogramEqualization)
/-! ### Transform -/
theorem od_cropCheck (P : Profile) (input : Image T) (x y width height : Nat) : Orderly (cropCheck P input x y width height) := by unfold cropCheck; od
macro_rules | `(tactic| od_step) => `(tactic| with_reducible apply od_cropCheck)

theorem od_crop (P : Profile) (N : RNum T) (input : Image T) (x y width height : Nat) (hN : N.Orderly) : Orderly (crop P N input x y width height) := by unfold crop; od
macro_rules | `(tactic| od_step) => `(tactic| with_reducible apply od_crop)

theorem od_cropPar (order : List Nat) (P : Profile) (input : Image T) (x y width height : Nat) : Orderly (cropPar order P input x y width height) := by unfold cropPar; od
macro_rules | `(tactic| od_step) => `(tactic| with_reducible apply od_cropPar)

theorem od_overlay (P : Profile) (back front : Image T) (x y : Nat) : Orderly (overlay P back front x y) := by unfold overlay; od
macro_rules | `(tactic| od_step) => `(tactic| with_reducible apply od_overlay)

theorem od_translate (P : Profile) (N : RNum T) (input : Image T) (x y : Nat) (hN : N.Orderly) : Orderly (translate P N input x y) := by unfold translate; od
macro_rules | `(tactic| od_step) => `(tactic| with_reducible apply od_translate)

theorem od_reflect (P : Profile) (N : RNum T) (input : Image T) (axis : Refl) (hN : N.Orderly) : Orderly (reflect P N input axis) := by unfold reflect; od
macro_rules | `(tactic| od_step) => `(tactic| with_reducible apply od_reflect)

theorem od_superimpose (P : Profile) (back front : Image F) (x y : Nat) (alpha : F) : Orderly (superimpose P back front x y alpha) := by unfold superimpose; od
macro_rules | `(tactic| od_step) => `(tactic| with_reducible apply od_superimpose)

theorem od_interpolateNearestNeighbor (P : Profile) (input : Image F) (xf yf : F) (x y : Nat) : Orderly (interpolateNearestNeighbor P input xf yf x y) := by unfold interpolateNearestNeighbor; od
macro_rules | `(tactic| od_step) => `(tactic| with_reducible apply od_interpolateNearestNeighbor)

theorem od_interpolateBilinear (P : Profile) (input : Image F) (xf yf : F) (x y : Nat) : Orderly (interpolateBilinear P input xf yf x y) := by unfold interpolateBilinear; od
macro_rules | `(tactic| od_step) => `(tactic| with_reducible apply od_interpolateBilinear)

theorem od_accumPixel (channels : Nat) (pIn : List F) (r : F) (pOut : List F) : Orderly (accumPixel channels pIn r pOut) := by unfold accumPixel; od
macro_rules | `(tactic| od_step) => `(tactic| with_reducible apply od_accumPixel)

theorem od_interpolateBicubic (P : Profile) (input : Image F) (xf yf : F) (x y : Nat) : Orderly (interpolateBicubic P input xf yf x y) := by unfold interpolateBicubic; od
macro_rules | `(tactic| od_step) => `(tactic| with_reducible apply od_interpolateBicubic)

theorem od_interpolateLanczos (P : Profile) (input : Image F) (xf yf : F) (size x y : Nat) : Orderly (interpolateLanczos P input xf yf size x y) := by unfold interpolateLanczos; od
macro_rules | `(tactic| od_step) => `(tactic| with_reducible apply od_interpolateLanczos)

theorem od_interpolate (P : Profile) (input : Image F) (xf yf : F) (method : Scale) (x y : Nat) : Orderly (interpolate P input xf yf method x y) := by unfold interpolate; od
macro_rules | `(tactic| od_step) => `(tactic| with_reducible apply od_interpolate)

theorem od_scaleLoop (P : Profile) (output : Image F) (interp : Nat → Nat → Res (List F)) (hinterp : ∀ a0 a1, Orderly (interp a0 a1)) : Orderly (scaleLoop P output interp) := by unfold scaleLoop; od
macro_rules | `(tactic| od_step) => `(tactic| with_reducible apply od_scaleLoop)

theorem od_scaleLoopPar (order : List Nat) (P : Profile) (info : ImageInfo) (interp : Nat → Nat → Res (List F)) (hinterp : ∀ a0 a1, Orderly (interp a0 a1)) : Orderly (scaleLoopPar order P info interp) := by unfold scaleLoopPar; od
macro_rules | `(tactic| od_step) => `(tactic| with_reducible apply od_scaleLoopPar)

theorem od_scale (P : Profile) (input : Image F) (xf yf : F) (method : Scale) : Orderly (scale P input xf yf method) := by unfold scale; od
macro_rules | `(tactic| od_step) => `(tactic| with_reducible apply od_scale)

theorem od_scalePar (order : List Nat) (P : Profile) (input : Image F) (xf yf : F) (method : Scale) : Orderly (scalePar order P input xf yf method) := by unfold scalePar; od
macro_rules | `(tactic| od_step) => `(tactic| with_reducible apply od_scalePar)

theorem od_scaleLanczos (P : Profile) (input : Image F) (xf yf : F) (size : Nat) : Orderly (scaleLanczos P input xf yf size) := by unfold scaleLanczos; od
macro_rules | `(tactic| od_step) => `(tactic| with_reducible apply od_scaleLanczos)

theorem od_scaleLanczosPar (order : List Nat) (P : Profile) (input : Image F) (xf yf : F) (size : Nat) : Orderly (scaleLanczosPar order P input xf yf size) := by unfold scaleLanczosPar; od
macro_rules | `(tactic| od_step) => `(tactic| with_reducible apply od_scaleLanczosPar)

theorem od_rotate (P : Profile) (input : Image F) (degrees : F) : Orderly (rotate P input degrees) := by unfold rotate; od
macro_rules | `(tactic| od_step) => `(tactic| with_reducible apply od_rotate)

theorem od_shear (P : Profile) (input : Image F) (shearX shearY : F) : Orderly (shear P input shearX shearY) := by unfold shear; od
macro_rules | `(tactic| od_step) => `(tactic| with_reducible apply od_shear)
/-! ### Filter -/
theorem od_filter1d (P : Profile) (input : Image F) (kernel : List F) (isVert : Bool) : Orderly (filter1d P input kernel isVert) := by unfold filter1d; od
macro_rules | `(tactic| od_step) => `(tactic| with_reducible apply od_filter1d)

theorem od_filter1dPar (order : List Nat) (P : Profile) (input : Image F) (kernel : List F) (isVert : Bool) : Orderly (filter1dPar order P input kernel isVert) := by unfold filter1dPar; od
macro_rules | `(tactic| od_step) => `(tactic| with_reducible apply od_filter1dPar)

theorem od_separableFilter (P : Profile) (input : Image F) (vert horz : List F) : Orderly (separableFilter P input vert horz) := by unfold separableFilter; od
macro_rules | `(tactic| od_step) => `(tactic| with_reducible apply od_separableFilter)

theorem od_separableFilterPar (o1 o2 : List Nat) (P : Profile) (input : Image F) (vert horz : List F) : Orderly (separableFilterPar o1 o2 P input vert horz) := by unfold separableFilterPar; od
macro_rules | `(tactic| od_step) => `(tactic| with_reducible apply od_separableFilterPar)

theorem od_unseparableFilter (P : Profile) (input : Image F) (kernel : List F) : Orderly (unseparableFilter P input kernel) := by unfold unseparableFilter; od
macro_rules | `(tactic| od_step) => `(tactic| with_reducible apply od_unseparableFilter)

theorem od_unseparableFilterPar (order : List Nat) (P : Profile) (input : Image F) (kernel : List F) : Orderly (unseparableFilterPar order P input kernel) := by unfold unseparableFilterPar; od
macro_rules | `(tactic| od_step) => `(tactic| with_reducible apply od_unseparableFilterPar)

theorem od_linearFilter (svd : Svd F) (P : Profile) (input : Image F) (kernel : List F) : Orderly (linearFilter svd P input kernel) := by unfold linearFilter; od
macro_rules | `(tactic| od_step) => `(tactic| with_reducible apply od_linearFilter)

theorem od_boxFilter (P : Profile) (input : Image F) (size : Nat) : Orderly (boxFilter P input size) := by unfold boxFilter; od
macro_rules | `(tactic| od_step) => `(tactic| with_reducible apply od_boxFilter)

theorem od_weightedAvgKernel (P : Profile) (size weight : Nat) : Orderly (weightedAvgKernel (F := F) P size weight) := by unfold weightedAvgKernel; od
macro_rules | `(tactic| od_step) => `(tactic| with_reducible apply od_weightedAvgKernel)

theorem od_weightedAvgFilter (P : Profile) (input : Image F) (size weight : Nat) : Orderly (weightedAvgFilter P input size weight) := by unfold weightedAvgFilter; od
macro_rules | `(tactic| od_step) => `(tactic| with_reducible apply od_weightedAvgFilter)

theorem od_gaussianBlur (svd : Svd F) (P : Profile) (input : Image F) (size : Nat) (sigma : F) : Orderly (gaussianBlur svd P input size sigma) := by unfold gaussianBlur; od
macro_rules | `(tactic| od_step) => `(tactic| with_reducible apply od_gaussianBlur)

theorem od_sharpen (P : Profile) (input : Image F) : Orderly (sharpen P input) := by unfold sharpen; od
macro_rules | `(tactic| od_step) => `(tactic| with_reducible apply od_sharpen)

theorem od_unsharpMasking (P : Profile) (input : Image F) : Orderly (unsharpMasking P input) := by unfold unsharpMasking; od
macro_rules | `(tactic| od_step) => `(tactic| with_reducible apply od_unsharpMasking)

theorem od_threshold (P : Profile) (input : Image F) (thr max : F) (method : Thresh) : Orderly (threshold P input thr max method) := by unfold threshold; od
macro_rules | `(tactic| od_step) => `(tactic| with_reducible apply od_threshold)

theorem od_residual {T : Type} (P : Profile) (N : RNum T) (original filtered : Image T) (hN : N.Orderly) : Orderly (residual (T := T) P N original filtered) := by unfold residual; od
macro_rules | `(tactic| od_step) => `(tactic| with_reducible apply od_residual)

theorem od_derivativeMask (P : Profile) (input : Image F) (vert horz : List F) : Orderly (derivativeMask P input vert horz) := by unfold derivativeMask; od
macro_rules | `(tactic| od_step) => `(tactic| with_reducible apply od_derivativeMask)

theorem od_prewitt (P : Profile) (input : Image F) : Orderly (prewitt P input) := by unfold prewitt; od
macro_rules | `(tactic| od_step) => `(tactic| with_reducible apply od_prewitt)

theorem od_sobel (P : Profile) (input : Image F) : Orderly (sobel P input) := by unfold sobel; od
macro_rules | `(tactic| od_step) => `(tactic| with_reducible apply od_sobel)

theorem od_sobelWeighted (P : Profile) (input : Image F) (weight : Nat) : Orderly (sobelWeighted P input weight) := by unfold sobelWeighted; od
macro_rules | `(tactic| od_step) => `(tactic| with_reducible apply od_sobelWeighted)

theorem od_laplacian (P : Profile) (input : Image F) : Orderly (laplacian P input) := by unfold laplacian; od
macro_rules | `(tactic| od_step) => `(tactic| with_reducible apply od_laplacian)

theorem od_laplacianOfGaussian (P : Profile) (input : Image F) (size : Nat) (sigma : F) : Orderly (laplacianOfGaussian P input size sigma) := by unfold laplacianOfGaussian; od
macro_rules | `(tactic| od_step) => `(tactic| with_reducible apply od_laplacianOfGaussian)

theorem od_partialCmpUnwrap (x y : F) : Orderly (partialCmpUnwrap x y) := by unfold partialCmpUnwrap; od
macro_rules | `(tactic| od_step) => `(tactic| with_reducible apply od_partialCmpUnwrap)

theorem od_minByUnwrap (l : List F) : Orderly (minByUnwrap l) := by
  cases l <;> simp only [minByUnwrap] <;> od
macro_rules | `(tactic| od_step) => `(tactic| with_reducible apply od_minByUnwrap)

theorem od_maxByUnwrap (l : List F) : Orderly (maxByUnwrap l) := by
  cases l <;> simp only [maxByUnwrap] <;> od
macro_rules | `(tactic| od_step) => `(tactic| with_reducible apply od_maxByUnwrap)

theorem od_normalizeLaplacian (P : Profile) (input : Image F) : Orderly (normalizeLaplacian P input) := by unfold normalizeLaplacian; od
macro_rules | `(tactic| od_step) => `(tactic| with_reducible apply od_normalizeLaplacian)

theorem od_bilateralDirectPixel (P : Profile) (input : Image F) (range : F) (spatialMat : List F) (size x y : Nat) : Orderly (bilateralDirectPixel P input range spatialMat size x y) := by unfold bilateralDirectPixel; od
macro_rules | `(tactic| od_step) => `(tactic| with_reducible apply od_bilateralDirectPixel)

theorem od_bilateralFilter (P : Profile) (input : Image UInt8) (range spatial : F) : Orderly (bilateralFilter P input range spatial) := by unfold bilateralFilter; od
macro_rules | `(tactic| od_step) => `(tactic| with_reducible apply od_bilateralFilter)

theorem od_bilateralFilterPar (order : List Nat) (P : Profile) (input : Image UInt8) (range spatial : F) : Orderly (bilateralFilterPar order P input range spatial) := by unfold bilateralFilterPar; od
macro_rules | `(tactic| od_step) => `(tactic| with_reducible apply od_bilateralFilterPar)
/-! ### Median -/
theorem od_histAdd (P : Profile) (data : List (List Int)) (n v : Nat) (d : Int) : Orderly (histAdd P data n v d) := by unfold histAdd; od
macro_rules | `(tactic| od_step) => `(tactic| with_reducible apply od_histAdd)

theorem od_rowVal (pIn : List (List UInt8)) (i ch : Nat) : Orderly (rowVal pIn i ch) := by unfold rowVal; od
macro_rules | `(tactic| od_step) => `(tactic| with_reducible apply od_rowVal)

theorem od_PartialHistograms_update (P : Profile) (h : PartialHistograms) (pIn : List (List UInt8)) (ch : Nat) (add : Bool) : Orderly (PartialHistograms.update P h pIn ch add) := by unfold PartialHistograms.update; od
macro_rules | `(tactic| od_step) => `(tactic| with_reducible apply od_PartialHistograms_update)

theorem od_PartialHistograms_getCount (P : Profile) (h : PartialHistograms) (key index : Nat) : Orderly (PartialHistograms.getCount P h key index) := by unfold PartialHistograms.getCount; od
macro_rules | `(tactic| od_step) => `(tactic| with_reducible apply od_PartialHistograms_getCount)

theorem od_MedianHist_setPivot (h : MedianHist) (pivot : UInt8) (index : Nat) : Orderly (MedianHist.setPivot h pivot index) := by unfold MedianHist.setPivot; od
macro_rules | `(tactic| od_step) => `(tactic| with_reducible apply od_MedianHist_setPivot)

theorem od_MedianHist_setSum (h : MedianHist) (sum : Int) (index : Nat) : Orderly (MedianHist.setSum h sum index) := by unfold MedianHist.setSum; od
macro_rules | `(tactic| od_step) => `(tactic| with_reducible apply od_MedianHist_setSum)

theorem od_MedianHist_update (P : Profile) (h : MedianHist) (pIn : List (List UInt8)) (ch : Nat) (add : Bool) : Orderly (MedianHist.update P h pIn ch add) := by unfold MedianHist.update; od
macro_rules | `(tactic| od_step) => `(tactic| with_reducible apply od_MedianHist_update)

theorem od_scanUp (P : Profile) (h : PartialHistograms) (center : Int) (i : Nat) (l : List Nat) (sum : Int) : Orderly (scanUp P h center i l sum) := by
  induction l generalizing sum with
  | nil => simp only [scanUp]; od
  | cons a l ih => simp only [scanUp]; od <;> apply ih
macro_rules | `(tactic| od_step) => `(tactic| with_reducible apply od_scanUp)

theorem od_scanDown (P : Profile) (h : PartialHistograms) (center : Int) (i : Nat) (l : List Nat) (sum : Int) : Orderly (scanDown P h center i l sum) := by
  induction l generalizing sum with
  | nil => simp only [scanDown]; od
  | cons a l ih => simp only [scanDown]; od <;> apply ih
macro_rules | `(tactic| od_step) => `(tactic| with_reducible apply od_scanDown)

theorem od_forHists {H : Type} (hists : List H) (f : Nat → H → List UInt8 → Res (H × List UInt8)) (hf : ∀ a0 a1 a2, Orderly (f a0 a1 a2)) : Orderly (forHists (H := H) hists f) := by unfold forHists; od
macro_rules | `(tactic| od_step) => `(tactic| with_reducible apply od_forHists)

theorem od_rowMed (P : Profile) (hists : List MedianHist) (pIn : List (List UInt8)) (add : Bool) : Orderly (rowMed P hists pIn add) := by unfold rowMed; od
macro_rules | `(tactic| od_step) => `(tactic| with_reducible apply od_rowMed)

theorem od_setPivotsMed (hists : List MedianHist) (pivots : List UInt8) (index : Nat) : Orderly (setPivotsMed hists pivots index) := by unfold setPivotsMed; od
macro_rules | `(tactic| od_step) => `(tactic| with_reducible apply od_setPivotsMed)

theorem od_inputRow (P : Profile) (input : Image UInt8) (radius nCols x : Nat) (y : Nat) : Orderly (inputRow P input radius nCols x y) := by unfold inputRow; od
macro_rules | `(tactic| od_step) => `(tactic| with_reducible apply od_inputRow)

theorem od_writeClamped (P : Profile) (output : Image UInt8) (x i y : Nat) (p : List UInt8) : Orderly (writeClamped P output x i y p) := by unfold writeClamped; od
macro_rules | `(tactic| od_step) => `(tactic| with_reducible apply od_writeClamped)

theorem od_initColsMed (P : Profile) (input output : Image UInt8) (hists : List MedianHist) (radius : Nat) (center : Int) (nCols x : Nat) : Orderly (initColsMed P input output hists radius center nCols x) := by unfold initColsMed; od
macro_rules | `(tactic| od_step) => `(tactic| with_reducible apply od_initColsMed)

theorem od_processRowMed (P : Profile) (output : Image UInt8) (hists : List MedianHist) (center : Int) (nCols x y : Nat) : Orderly (processRowMed P output hists center nCols x y) := by unfold processRowMed; od
macro_rules | `(tactic| od_step) => `(tactic| with_reducible apply od_processRowMed)

theorem od_rowInOut (P : Profile) (height radius j : Nat) : Orderly (rowInOut P height radius j) := by unfold rowInOut; od
macro_rules | `(tactic| od_step) => `(tactic| with_reducible apply od_rowInOut)

theorem od_processColsMed (P : Profile) (input output : Image UInt8) (radius nCols x : Nat) : Orderly (processColsMed P input output radius nCols x) := by unfold processColsMed; od
macro_rules | `(tactic| od_step) => `(tactic| with_reducible apply od_processColsMed)

theorem od_medianFilter (F : Type) [FloatOps F] (P : Profile) (input : Image UInt8) (radius : Nat) : Orderly (medianFilter F P input radius) := by unfold medianFilter; od
macro_rules | `(tactic| od_step) => `(tactic| with_reducible apply od_medianFilter)

theorem od_vecRemove {α : Type} (l : List α) (i : Nat) : Orderly (vecRemove (α := α) l i) := by unfold vecRemove; od
macro_rules | `(tactic| od_step) => `(tactic| with_reducible apply od_vecRemove)

theorem od_vecInsert {α : Type} (l : List α) (i : Nat) (v : α) : Orderly (vecInsert (α := α) l i v) := by unfold vecInsert; od
macro_rules | `(tactic| od_step) => `(tactic| with_reducible apply od_vecInsert)

theorem od_MeanHist_new (P : Profile) (radius nCols alpha : Nat) : Orderly (MeanHist.new (F := F) P radius nCols alpha) := by unfold MeanHist.new; od
macro_rules | `(tactic| od_step) => `(tactic| with_reducible apply od_MeanHist_new)

theorem od_MeanHist_lowerAt (P : Profile) (h : MeanHist F) (index : Nat) : Orderly (MeanHist.lowerAt P h index) := by unfold MeanHist.lowerAt; od
macro_rules | `(tactic| od_step) => `(tactic| with_reducible apply od_MeanHist_lowerAt)

theorem od_MeanHist_upperAt (P : Profile) (h : MeanHist F) (index : Nat) : Orderly (MeanHist.upperAt P h index) := by unfold MeanHist.upperAt; od
macro_rules | `(tactic| od_step) => `(tactic| with_reducible apply od_MeanHist_upperAt)

theorem od_MeanHist_addSum (P : Profile) (h : MeanHist F) (n : Nat) (v : Int) : Orderly (MeanHist.addSum P h n v) := by unfold MeanHist.addSum; od
macro_rules | `(tactic| od_step) => `(tactic| with_reducible apply od_MeanHist_addSum)

theorem od_MeanHist_subSum (P : Profile) (h : MeanHist F) (n : Nat) (v : Int) : Orderly (MeanHist.subSum P h n v) := by unfold MeanHist.subSum; od
macro_rules | `(tactic| od_step) => `(tactic| with_reducible apply od_MeanHist_subSum)

theorem od_MeanHist_editLower (h : MeanHist F) (n : Nat) (f : List UInt8 → Res (List UInt8)) (hf : ∀ a0, Orderly (f a0)) : Orderly (MeanHist.editLower h n f) := by unfold MeanHist.editLower; od
macro_rules | `(tactic| od_step) => `(tactic| with_reducible apply od_MeanHist_editLower)

theorem od_MeanHist_editUpper (h : MeanHist F) (n : Nat) (f : List UInt8 → Res (List UInt8)) (hf : ∀ a0, Orderly (f a0)) : Orderly (MeanHist.editUpper h n f) := by unfold MeanHist.editUpper; od
macro_rules | `(tactic| od_step) => `(tactic| with_reducible apply od_MeanHist_editUpper)

theorem od_MeanHist_firstKey (P : Profile) (h : PartialHistograms) (n : Nat) (l : List Nat) : Orderly (MeanHist.firstKey P h n l) := by
  induction l with
  | nil => simp only [MeanHist.firstKey]; od
  | cons a l ih => simp only [MeanHist.firstKey]; od <;> apply ih
macro_rules | `(tactic| od_step) => `(tactic| with_reducible apply od_MeanHist_firstKey)

theorem od_MeanHist_getNextLower (P : Profile) (h : MeanHist F) (n : Nat) (lowerCount : Int) (lower : UInt8) : Orderly (MeanHist.getNextLower P h n lowerCount lower) := by unfold MeanHist.getNextLower; od
macro_rules | `(tactic| od_step) => `(tactic| with_reducible apply od_MeanHist_getNextLower)

theorem od_MeanHist_getNextUpper (P : Profile) (h : MeanHist F) (n : Nat) (upperCount : Int) (upper : UInt8) : Orderly (MeanHist.getNextUpper P h n upperCount upper) := by unfold MeanHist.getNextUpper; od
macro_rules | `(tactic| od_step) => `(tactic| with_reducible apply od_MeanHist_getNextUpper)

theorem od_MeanHist_addValue (bs : BinSearch) (P : Profile) (h : MeanHist F) (n : Nat) (val : UInt8) : Orderly (MeanHist.addValue bs P h n val) := by unfold MeanHist.addValue; od
macro_rules | `(tactic| od_step) => `(tactic| with_reducible apply od_MeanHist_addValue)

theorem od_MeanHist_removeValue (bs : BinSearch) (P : Profile) (h : MeanHist F) (n : Nat) (val : UInt8) (rest : List UInt8) : Orderly (MeanHist.removeValue bs P h n val rest) := by unfold MeanHist.removeValue; od
macro_rules | `(tactic| od_step) => `(tactic| with_reducible apply od_MeanHist_removeValue)

theorem od_MeanHist_rowByte (pIn : List (List UInt8)) (i ch : Nat) : Orderly (MeanHist.rowByte pIn i ch) := by unfold MeanHist.rowByte; od
macro_rules | `(tactic| od_step) => `(tactic| with_reducible apply od_MeanHist_rowByte)

theorem od_MeanHist_update (bs : BinSearch) (P : Profile) (h : MeanHist F) (pIn : List (List UInt8)) (ch : Nat) (add : Bool) : Orderly (MeanHist.update bs P h pIn ch add) := by unfold MeanHist.update; od
macro_rules | `(tactic| od_step) => `(tactic| with_reducible apply od_MeanHist_update)

theorem od_MeanHist_getMean (h : MeanHist F) (index : Nat) : Orderly (MeanHist.getMean h index) := by unfold MeanHist.getMean; od
macro_rules | `(tactic| od_step) => `(tactic| with_reducible apply od_MeanHist_getMean)

theorem od_rowMean (bs : BinSearch) (P : Profile) (hists : List (MeanHist F)) (pIn : List (List UInt8)) (add : Bool) : Orderly (rowMean bs P hists pIn add) := by unfold rowMean; od
macro_rules | `(tactic| od_step) => `(tactic| with_reducible apply od_rowMean)

theorem od_takeLower (P : Profile) (trim key fuel : Nat) (s : List UInt8 × Int × Int) : Orderly (takeLower P trim key fuel s) := by
  induction fuel generalizing s with
  | zero => simp only [takeLower]; od
  | succ n ih => obtain ⟨a, b, c⟩ := s; simp only [takeLower]; od <;> apply ih
macro_rules | `(tactic| od_step) => `(tactic| with_reducible apply od_takeLower)

theorem od_takeUpper (P : Profile) (trim upperTrim key : Nat) (count : Int) (fuel : Nat) (s : List UInt8 × Int × Int) : Orderly (takeUpper P trim upperTrim key count fuel s) := by
  induction fuel generalizing s with
  | zero => simp only [takeUpper]; od
  | succ n ih => obtain ⟨a, b, c⟩ := s; simp only [takeUpper]; od <;> apply ih
macro_rules | `(tactic| od_step) => `(tactic| with_reducible apply od_takeUpper)

theorem od_initTrim (P : Profile) (h : PartialHistograms) (trim upperTrim i : Nat) : Orderly (initTrim P h trim upperTrim i) := by unfold initTrim; od
macro_rules | `(tactic| od_step) => `(tactic| with_reducible apply od_initTrim)

theorem od_initColsMean (bs : BinSearch) (P : Profile) (input output : Image UInt8) (hists : List (MeanHist F)) (radius alpha nCols x : Nat) : Orderly (initColsMean bs P input output hists radius alpha nCols x) := by unfold initColsMean; od
macro_rules | `(tactic| od_step) => `(tactic| with_reducible apply od_initColsMean)

theorem od_processRowMean (P : Profile) (output : Image UInt8) (hists : List (MeanHist F)) (nCols x y : Nat) : Orderly (processRowMean P output hists nCols x y) := by unfold processRowMean; od
macro_rules | `(tactic| od_step) => `(tactic| with_reducible apply od_processRowMean)

theorem od_processColsMean (bs : BinSearch) (P : Profile) (F : Type) [FloatOps F] (input output : Image UInt8) (radius alpha nCols x : Nat) : Orderly (processColsMean bs P F input output radius alpha nCols x) := by unfold processColsMean; od
macro_rules | `(tactic| od_step) => `(tactic| with_reducible apply od_processColsMean)

theorem od_alphaTrimmedMeanFilter (F : Type) [FloatOps F] (bs : BinSearch) (P : Profile) (input : Image UInt8) (radius alpha : Nat) : Orderly (alphaTrimmedMeanFilter F bs P input radius alpha) := by unfold alphaTrimmedMeanFilter; od
macro_rules | `(tactic| od_step) => `(tactic| with_reducible apply od_alphaTrimmedMeanFilter)
end Imgproc

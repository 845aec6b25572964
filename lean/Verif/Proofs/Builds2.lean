import Verif.Proofs.Builds
import Verif.Model.Filter
import Verif.Model.Util
import Verif.Model.Tone
import Verif.Model.Convert
import Verif.Model.Colorspace
/-!
Debug and release builds (C128): helpers, colour spaces, SIMD and tone functions.
-/
namespace Imgproc
open FloatOps
set_option linter.unusedVariables false
variable {T S F : Type} [FloatOps F]
macro_rules | `(tactic| ba_step) => `(tactic| with_reducible exact rnum_agrees)

theorem ba_generateLookupTable {f f' : UInt8 → Res T} (t : List T) (hf : ∀ a, BuildsAgree (f a) (f' a)) :
    BuildsAgree (generateLookupTable t f) (generateLookupTable t f') := by unfold generateLookupTable; ba
macro_rules | `(tactic| ba_step) => `(tactic| with_reducible apply ba_generateLookupTable)
theorem ba_parCollect {f f' : Nat → Res T} (order : List Nat) (n : Nat) (hf : ∀ a, BuildsAgree (f a) (f' a)) :
    BuildsAgree (parCollect order n f) (parCollect order n f') := by unfold parCollect runTasks; ba
macro_rules | `(tactic| ba_step) => `(tactic| with_reducible apply ba_parCollect)

theorem ba_whileStep {σ : Type} {add add' : Nat → Nat → Res Nat} {f f' : Nat → σ → Res σ} (step n fuel i : Nat) (s : σ)
    (hg : ∀ a b, BuildsAgree (add a b) (add' a b)) (hf : ∀ i s, BuildsAgree (f i s) (f' i s)) :
    BuildsAgree (whileStep add step n f fuel i s) (whileStep add' step n f' fuel i s) := by
  induction fuel generalizing i s with
  | zero => exact .refl _
  | succ k ih => unfold whileStep; ba <;> exact ih _ _
macro_rules | `(tactic| ba_step) => `(tactic| with_reducible apply ba_whileStep)

/-! ### Math -/
theorem ba_vectorMulLoops (N : RNum T) (mat input output : List T) (rows : Nat) (hN : N.Agrees) : BuildsAgree (vectorMulLoops .debug N mat input output rows) (vectorMulLoops .release N mat input output rows) := by unfold vectorMulLoops; ba
macro_rules | `(tactic| ba_step) => `(tactic| with_reducible apply ba_vectorMulLoops)

theorem ba_vectorMul (N : RNum T) (mat input : List T) (hN : N.Agrees) : BuildsAgree (vectorMul .debug N mat input) (vectorMul .release N mat input) := by unfold vectorMul; ba
macro_rules | `(tactic| ba_step) => `(tactic| with_reducible apply ba_vectorMul)

theorem ba_vectorMulMut (N : RNum T) (mat input output : List T) (hN : N.Agrees) : BuildsAgree (vectorMulMut .debug N mat input output) (vectorMulMut .release N mat input output) := by unfold vectorMulMut; ba
macro_rules | `(tactic| ba_step) => `(tactic| with_reducible apply ba_vectorMulMut)

theorem ba_apply1dKernel (input : SubImage F) (kernel : List F) : BuildsAgree (apply1dKernel .debug input kernel) (apply1dKernel .release input kernel) := by unfold apply1dKernel; ba
macro_rules | `(tactic| ba_step) => `(tactic| with_reducible apply ba_apply1dKernel)

theorem ba_apply2dKernel (input : SubImage F) (kernel : List F) : BuildsAgree (apply2dKernel .debug input kernel) (apply2dKernel .release input kernel) := by unfold apply2dKernel; ba
macro_rules | `(tactic| ba_step) => `(tactic| with_reducible apply ba_apply2dKernel)

theorem ba_apply1dKernelInto (input : SubImage F) (output kernel : List F) : BuildsAgree (apply1dKernelInto .debug input output kernel) (apply1dKernelInto .release input output kernel) := by unfold apply1dKernelInto; ba
macro_rules | `(tactic| ba_step) => `(tactic| with_reducible apply ba_apply1dKernelInto)

theorem ba_apply2dKernelInto (input : SubImage F) (output kernel : List F) : BuildsAgree (apply2dKernelInto .debug input output kernel) (apply2dKernelInto .release input output kernel) := by unfold apply2dKernelInto; ba
macro_rules | `(tactic| ba_step) => `(tactic| with_reducible apply ba_apply2dKernelInto)

/-! ### Util -/
theorem ba_get2dCoords (i width : Nat) : BuildsAgree (get2dCoords .debug i width) (get2dCoords .release i width) := by unfold get2dCoords; ba
macro_rules | `(tactic| ba_step) => `(tactic| with_reducible apply ba_get2dCoords)

theorem ba_histBump (key : Int) (l : List (Int × Int)) : BuildsAgree (histBump .debug key l) (histBump .release key l) := by
  induction l with
  | nil => simp only [histBump]; ba
  | cons a l ih => obtain ⟨k, c⟩ := a; simp only [histBump]; ba <;> exact ih
macro_rules | `(tactic| ba_step) => `(tactic| with_reducible apply ba_histBump)

theorem ba_generateHistogramPercentiles (input : Image F) (percentiles : List (Int × F)) (precision : F) : BuildsAgree (generateHistogramPercentiles .debug input percentiles precision) (generateHistogramPercentiles .release input percentiles precision) := by unfold generateHistogramPercentiles; ba
macro_rules | `(tactic| ba_step) => `(tactic| with_reducible apply ba_generateHistogramPercentiles)

theorem ba_kernelSet (filter : List F) (i j : Int) (size : Nat) (v : F) : BuildsAgree (kernelSet .debug filter i j size v) (kernelSet .release filter i j size v) := by unfold kernelSet; ba
macro_rules | `(tactic| ba_step) => `(tactic| with_reducible apply ba_kernelSet)

theorem ba_kernelDist2 (i j k : Int) : BuildsAgree (kernelDist2 .debug i j k) (kernelDist2 .release i j k) := by unfold kernelDist2; ba
macro_rules | `(tactic| ba_step) => `(tactic| with_reducible apply ba_kernelDist2)

theorem ba_kernelFill (size : Nat) (entry : Int → F) : BuildsAgree (kernelFill .debug size entry) (kernelFill .release size entry) := by unfold kernelFill; ba
macro_rules | `(tactic| ba_step) => `(tactic| with_reducible apply ba_kernelFill)

theorem ba_generateGaussianKernel (size : Nat) (sigma : F) : BuildsAgree (generateGaussianKernel .debug size sigma) (generateGaussianKernel .release size sigma) := by unfold generateGaussianKernel; ba
macro_rules | `(tactic| ba_step) => `(tactic| with_reducible apply ba_generateGaussianKernel)

theorem ba_generateLogKernel (size : Nat) (sigma : F) : BuildsAgree (generateLogKernel .debug size sigma) (generateLogKernel .release size sigma) := by unfold generateLogKernel; ba
macro_rules | `(tactic| ba_step) => `(tactic| with_reducible apply ba_generateLogKernel)

theorem ba_matSet (size : Nat) (mat : List F) (a b : Nat) (g : F) : BuildsAgree (matSet .debug size mat a b g) (matSet .release size mat a b g) := by unfold matSet; ba
macro_rules | `(tactic| ba_step) => `(tactic| with_reducible apply ba_matSet)

theorem ba_generateSpatialMat (size : Nat) (spatial : F) : BuildsAgree (generateSpatialMat .debug size spatial) (generateSpatialMat .release size spatial) := by unfold generateSpatialMat; ba
macro_rules | `(tactic| ba_step) => `(tactic| with_reducible apply ba_generateSpatialMat)

theorem ba_pixelOr (img : Image F) (cond : Bool) (x y : Nat) (zeroes : List F) : BuildsAgree (pixelOr .debug img cond x y zeroes) (pixelOr .release img cond x y zeroes) := by unfold pixelOr; ba
macro_rules | `(tactic| ba_step) => `(tactic| with_reducible apply ba_pixelOr)

theorem ba_generateSummedAreaTable (input : Image F) : BuildsAgree (generateSummedAreaTable .debug input) (generateSummedAreaTable .release input) := by unfold generateSummedAreaTable; ba
macro_rules | `(tactic| ba_step) => `(tactic| with_reducible apply ba_generateSummedAreaTable)

theorem ba_rectangularIntensitySum (table : Image F) (x0 y0 x1 y1 : Nat) : BuildsAgree (rectangularIntensitySum .debug table x0 y0 x1 y1) (rectangularIntensitySum .release table x0 y0 x1 y1) := by unfold rectangularIntensitySum; ba
macro_rules | `(tactic| ba_step) => `(tactic| with_reducible apply ba_rectangularIntensitySum)

/-! ### Morphology -/
theorem ba_imageU8ToFloat {F : Type} [FloatOps F] (img : Image UInt8) : BuildsAgree (imageU8ToFloat (F := F) .debug img) (imageU8ToFloat (F := F) .release img) := by unfold imageU8ToFloat; ba
macro_rules | `(tactic| ba_step) => `(tactic| with_reducible apply ba_imageU8ToFloat)

theorem ba_morphSpan (c n radius : Nat) : BuildsAgree (morphSpan .debug c n radius) (morphSpan .release c n radius) := by unfold morphSpan; ba
macro_rules | `(tactic| ba_step) => `(tactic| with_reducible apply ba_morphSpan)

theorem ba_morphScan {F : Type} [FloatOps F] (input : Image UInt8) (radius : Nat) (table : Image F) (test : F → Bool) : BuildsAgree (morphScan (F := F) .debug input radius table test) (morphScan (F := F) .release input radius table test) := by unfold morphScan; ba
macro_rules | `(tactic| ba_step) => `(tactic| with_reducible apply ba_morphScan)

theorem ba_morphMaxSum {F : Type} [FloatOps F] (radius : Nat) : BuildsAgree (morphMaxSum (F := F) .debug radius) (morphMaxSum (F := F) .release radius) := by unfold morphMaxSum; ba
macro_rules | `(tactic| ba_step) => `(tactic| with_reducible apply ba_morphMaxSum)

theorem ba_erode (F : Type) [FloatOps F] (input : Image UInt8) (radius : Nat) : BuildsAgree (erode F .debug input radius) (erode F .release input radius) := by unfold erode; ba
macro_rules | `(tactic| ba_step) => `(tactic| with_reducible apply ba_erode)

theorem ba_dilate (F : Type) [FloatOps F] (input : Image UInt8) (radius : Nat) : BuildsAgree (dilate F .debug input radius) (dilate F .release input radius) := by unfold dilate; ba
macro_rules | `(tactic| ba_step) => `(tactic| with_reducible apply ba_dilate)

theorem ba_majority (F : Type) [FloatOps F] (input : Image UInt8) (radius : Nat) : BuildsAgree (majority F .debug input radius) (majority F .release input radius) := by unfold majority; ba
macro_rules | `(tactic| ba_step) => `(tactic| with_reducible apply ba_majority)

theorem ba_morphOpen (F : Type) [FloatOps F] (input : Image UInt8) (radius : Nat) : BuildsAgree (morphOpen F .debug input radius) (morphOpen F .release input radius) := by unfold morphOpen; ba
macro_rules | `(tactic| ba_step) => `(tactic| with_reducible apply ba_morphOpen)

theorem ba_morphClose (F : Type) [FloatOps F] (input : Image UInt8) (radius : Nat) : BuildsAgree (morphClose F .debug input radius) (morphClose F .release input radius) := by unfold morphClose; ba
macro_rules | `(tactic| ba_step) => `(tactic| with_reducible apply ba_morphClose)

theorem ba_gradient (F : Type) [FloatOps F] (input : Image UInt8) (radius : Nat) : BuildsAgree (gradient F .debug input radius) (gradient F .release input radius) := by unfold gradient; ba
macro_rules | `(tactic| ba_step) => `(tactic| with_reducible apply ba_gradient)

/-! ### Convert -/
theorem ba_scaleChannels (input : Image F) (curMin scMin curMax scMax : F) : BuildsAgree (scaleChannels .debug input curMin scMin curMax scMax) (scaleChannels .release input curMin scMin curMax scMax) := by unfold scaleChannels; ba
macro_rules | `(tactic| ba_step) => `(tactic| with_reducible apply ba_scaleChannels)

theorem ba_f32ToU8Scale (input : Image F) (scale : Nat) : BuildsAgree (f32ToU8Scale .debug input scale) (f32ToU8Scale .release input scale) := by unfold f32ToU8Scale; ba
macro_rules | `(tactic| ba_step) => `(tactic| with_reducible apply ba_f32ToU8Scale)

theorem ba_u8ToF32Scale (input : Image UInt8) (scale : Nat) : BuildsAgree (u8ToF32Scale (F := F) .debug input scale) (u8ToF32Scale (F := F) .release input scale) := by unfold u8ToF32Scale; ba
macro_rules | `(tactic| ba_step) => `(tactic| with_reducible apply ba_u8ToF32Scale)

theorem ba_imageNatToFloat (img : Image Nat) : BuildsAgree (imageNatToFloat (F := F) .debug img) (imageNatToFloat (F := F) .release img) := by unfold imageNatToFloat; ba
macro_rules | `(tactic| ba_step) => `(tactic| with_reducible apply ba_imageNatToFloat)

theorem ba_imageFloatToU8 (img : Image F) : BuildsAgree (imageFloatToU8 .debug img) (imageFloatToU8 .release img) := by unfold imageFloatToU8; ba
macro_rules | `(tactic| ba_step) => `(tactic| with_reducible apply ba_imageFloatToU8)

/-! ### Colorspace -/
theorem ba_rgbToGrayscaleNorm (input : Image UInt8) : BuildsAgree (rgbToGrayscaleNorm .debug input) (rgbToGrayscaleNorm .release input) := by unfold rgbToGrayscaleNorm; ba
macro_rules | `(tactic| ba_step) => `(tactic| with_reducible apply ba_rgbToGrayscaleNorm)

theorem ba_rgbToHsvPixel (channels : List UInt8) : BuildsAgree (rgbToHsvPixel .debug channels) (rgbToHsvPixel .release channels) := by unfold rgbToHsvPixel; ba
macro_rules | `(tactic| ba_step) => `(tactic| with_reducible apply ba_rgbToHsvPixel)

theorem ba_rgbToHsv (input : Image UInt8) : BuildsAgree (rgbToHsv .debug input) (rgbToHsv .release input) := by unfold rgbToHsv; ba
macro_rules | `(tactic| ba_step) => `(tactic| with_reducible apply ba_rgbToHsv)

theorem ba_hsvToRgbPixel (channels : List UInt8) : BuildsAgree (hsvToRgbPixel .debug channels) (hsvToRgbPixel .release channels) := by unfold hsvToRgbPixel; ba
macro_rules | `(tactic| ba_step) => `(tactic| with_reducible apply ba_hsvToRgbPixel)

theorem ba_hsvToRgb (input : Image UInt8) : BuildsAgree (hsvToRgb .debug input) (hsvToRgb .release input) := by unfold hsvToRgb; ba
macro_rules | `(tactic| ba_step) => `(tactic| with_reducible apply ba_hsvToRgb)

theorem ba_rgbToGrayscaleF32 (input : Image F) : BuildsAgree (rgbToGrayscaleF32 .debug input) (rgbToGrayscaleF32 .release input) := by unfold rgbToGrayscaleF32; ba
macro_rules | `(tactic| ba_step) => `(tactic| with_reducible apply ba_rgbToGrayscaleF32)

theorem ba_linearizeSrgb (input : Image UInt8) : BuildsAgree (linearizeSrgb (F := F) .debug input) (linearizeSrgb (F := F) .release input) := by unfold linearizeSrgb; ba
macro_rules | `(tactic| ba_step) => `(tactic| with_reducible apply ba_linearizeSrgb)

theorem ba_unlinearizeSrgb (input : Image F) : BuildsAgree (unlinearizeSrgb .debug input) (unlinearizeSrgb .release input) := by unfold unlinearizeSrgb; ba
macro_rules | `(tactic| ba_step) => `(tactic| with_reducible apply ba_unlinearizeSrgb)

theorem ba_srgbLinToXyz (input : Image F) : BuildsAgree (srgbLinToXyz .debug input) (srgbLinToXyz .release input) := by unfold srgbLinToXyz; ba
macro_rules | `(tactic| ba_step) => `(tactic| with_reducible apply ba_srgbLinToXyz)

theorem ba_xyzToSrgbLin (input : Image F) : BuildsAgree (xyzToSrgbLin .debug input) (xyzToSrgbLin .release input) := by unfold xyzToSrgbLin; ba
macro_rules | `(tactic| ba_step) => `(tactic| with_reducible apply ba_xyzToSrgbLin)

theorem ba_xyzToLab (input : Image F) (white : White) : BuildsAgree (xyzToLab .debug input white) (xyzToLab .release input white) := by unfold xyzToLab; ba
macro_rules | `(tactic| ba_step) => `(tactic| with_reducible apply ba_xyzToLab)

theorem ba_labToXyz (input : Image F) (white : White) : BuildsAgree (labToXyz .debug input white) (labToXyz .release input white) := by unfold labToXyz; ba
macro_rules | `(tactic| ba_step) => `(tactic| with_reducible apply ba_labToXyz)

theorem ba_rgbToHsvF32 (input : Image UInt8) : BuildsAgree (rgbToHsvF32 (F := F) .debug input) (rgbToHsvF32 (F := F) .release input) := by unfold rgbToHsvF32; ba
macro_rules | `(tactic| ba_step) => `(tactic| with_reducible apply ba_rgbToHsvF32)

theorem ba_hsvToRgbF32 (input : Image F) : BuildsAgree (hsvToRgbF32 .debug input) (hsvToRgbF32 .release input) := by unfold hsvToRgbF32; ba
macro_rules | `(tactic| ba_step) => `(tactic| with_reducible apply ba_hsvToRgbF32)

theorem ba_srgbToXyz (input : Image UInt8) : BuildsAgree (srgbToXyz (F := F) .debug input) (srgbToXyz (F := F) .release input) := by unfold srgbToXyz; ba
macro_rules | `(tactic| ba_step) => `(tactic| with_reducible apply ba_srgbToXyz)

theorem ba_xyzToSrgb (input : Image F) : BuildsAgree (xyzToSrgb .debug input) (xyzToSrgb .release input) := by unfold xyzToSrgb; ba
macro_rules | `(tactic| ba_step) => `(tactic| with_reducible apply ba_xyzToSrgb)

theorem ba_srgbToLab (input : Image UInt8) (white : White) : BuildsAgree (srgbToLab (F := F) .debug input white) (srgbToLab (F := F) .release input white) := by unfold srgbToLab; ba
macro_rules | `(tactic| ba_step) => `(tactic| with_reducible apply ba_srgbToLab)

theorem ba_labToSrgb (input : Image F) (white : White) : BuildsAgree (labToSrgb .debug input white) (labToSrgb .release input white) := by unfold labToSrgb; ba
macro_rules | `(tactic| ba_step) => `(tactic| with_reducible apply ba_labToSrgb)

/-! ### Simd -/
theorem ba_addClampU8 (c : UInt8) (val : Int) : BuildsAgree (addClampU8 .debug c val) (addClampU8 .release c val) := by unfold addClampU8; ba
macro_rules | `(tactic| ba_step) => `(tactic| with_reducible apply ba_addClampU8)

theorem ba_adds256U8 (input : Image UInt8) (val : Int) : BuildsAgree (adds256U8 .debug input val) (adds256U8 .release input val) := by unfold adds256U8; ba
macro_rules | `(tactic| ba_step) => `(tactic| with_reducible apply ba_adds256U8)

theorem ba_addsN256U8 (input : Image UInt8) (val : Int) (n : Nat) : BuildsAgree (addsN256U8 .debug input val n) (addsN256U8 .release input val n) := by unfold addsN256U8; ba
macro_rules | `(tactic| ba_step) => `(tactic| with_reducible apply ba_addsN256U8)

theorem ba_gatherChannels (input : Image UInt8) (offset count : Nat) : BuildsAgree (gatherChannels .debug input offset count) (gatherChannels .release input offset count) := by unfold gatherChannels; ba
macro_rules | `(tactic| ba_step) => `(tactic| with_reducible apply ba_gatherChannels)

theorem ba_deinterleave3 (input : Image UInt8) (offset : Nat) : BuildsAgree (deinterleave3 .debug input offset) (deinterleave3 .release input offset) := by unfold deinterleave3; ba
macro_rules | `(tactic| ba_step) => `(tactic| with_reducible apply ba_deinterleave3)

theorem ba_deinterleave4 (input : Image UInt8) (offset : Nat) : BuildsAgree (deinterleave4 .debug input offset) (deinterleave4 .release input offset) := by unfold deinterleave4; ba
macro_rules | `(tactic| ba_step) => `(tactic| with_reducible apply ba_deinterleave4)

theorem ba_tailSum (input : Image UInt8) (i : Nat) : BuildsAgree (tailSum .debug input i) (tailSum .release input i) := by unfold tailSum; ba
macro_rules | `(tactic| ba_step) => `(tactic| with_reducible apply ba_tailSum)

theorem ba_avg256U8 (F : Type) [FloatOps F] (input : Image UInt8) : BuildsAgree (avg256U8 F .debug input) (avg256U8 F .release input) := by unfold avg256U8; ba
macro_rules | `(tactic| ba_step) => `(tactic| with_reducible apply ba_avg256U8)

theorem ba_avgAlpha256U8 (F : Type) [FloatOps F] (input : Image UInt8) : BuildsAgree (avgAlpha256U8 F .debug input) (avgAlpha256U8 F .release input) := by unfold avgAlpha256U8; ba
macro_rules | `(tactic| ba_step) => `(tactic| with_reducible apply ba_avgAlpha256U8)

theorem ba_avgChecked256U8 (F : Type) [FloatOps F] (input : Image UInt8) : BuildsAgree (avgChecked256U8 F .debug input) (avgChecked256U8 F .release input) := by unfold avgChecked256U8; ba
macro_rules | `(tactic| ba_step) => `(tactic| with_reducible apply ba_avgChecked256U8)

theorem ba_rgbToGrayscale (F : Type) [FloatOps F] (avx2 : Bool) (input : Image UInt8) : BuildsAgree (rgbToGrayscale F avx2 .debug input) (rgbToGrayscale F avx2 .release input) := by unfold rgbToGrayscale; ba
macro_rules | `(tactic| ba_step) => `(tactic| with_reducible apply ba_rgbToGrayscale)

/-! ### Tone -/
theorem ba_brightnessRgbNorm (input : Image UInt8) (bias : Int) : BuildsAgree (brightnessRgbNorm .debug input bias) (brightnessRgbNorm .release input bias) := by unfold brightnessRgbNorm; ba
macro_rules | `(tactic| ba_step) => `(tactic| with_reducible apply ba_brightnessRgbNorm)

theorem ba_brightness (avx2 : Bool) (input : Image UInt8) (bias : Int) : BuildsAgree (brightness avx2 .debug input bias) (brightness avx2 .release input bias) := by unfold brightness; ba
macro_rules | `(tactic| ba_step) => `(tactic| with_reducible apply ba_brightness)

theorem ba_saturationNorm (hsv : Image UInt8) (sat : Int) : BuildsAgree (saturationNorm .debug hsv sat) (saturationNorm .release hsv sat) := by unfold saturationNorm; ba
macro_rules | `(tactic| ba_step) => `(tactic| with_reducible apply ba_saturationNorm)

theorem ba_saturation (avx2 : Bool) (input : Image UInt8) (sat : Int) : BuildsAgree (saturation avx2 .debug input sat) (saturation avx2 .release input sat) := by unfold saturation; ba
macro_rules | `(tactic| ba_step) => `(tactic| with_reducible apply ba_saturation)

theorem ba_brightnessLab (F : Type) [FloatOps F] (input : Image UInt8) (bias : Int) : BuildsAgree (brightnessLab F .debug input bias) (brightnessLab F .release input bias) := by unfold brightnessLab; ba
macro_rules | `(tactic| ba_step) => `(tactic| with_reducible apply ba_brightnessLab)

theorem ba_contrast (input : Image UInt8) (gain : F) : BuildsAgree (contrast .debug input gain) (contrast .release input gain) := by unfold contrast; ba
macro_rules | `(tactic| ba_step) => `(tactic| with_reducible apply ba_contrast)

theorem ba_contrastLab (input : Image UInt8) (gain : F) : BuildsAgree (contrastLab .debug input gain) (contrastLab .release input gain) := by unfold contrastLab; ba
macro_rules | `(tactic| ba_step) => `(tactic| with_reducible apply ba_contrastLab)

theorem ba_gammaOp (input : Image UInt8) (gamma : F) (max : UInt8) : BuildsAgree (gammaOp .debug input gamma max) (gammaOp .release input gamma max) := by unfold gammaOp; ba
macro_rules | `(tactic| ba_step) => `(tactic| with_reducible apply ba_gammaOp)

theorem ba_histogramEqualization (input : Image UInt8) (alpha : F) (white : White) (precision : F) : BuildsAgree (histogramEqualization .debug input alpha white precision) (histogramEqualization .release input alpha white precision) := by unfold histogramEqualization; ba
macro_rules | `(tactic| ba_step) => `(tactic| with_reducible apply ba_histogramEqualization)

end Imgproc

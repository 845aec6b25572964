import Verif.Proofs.Builds2
import Verif.Model.Filter
import Verif.Model.Median
/-!
Debug and release builds (C128): transforms, filters, median and trimmed mean.
-/
set_option linter.unusedSectionVars false
namespace Imgproc
open FloatOps
set_option linter.unusedVariables false
variable {T S F : Type} [FloatOps F]

theorem ba_forHists {H : Type} {f f' : Nat → H → List UInt8 → Res (H × List UInt8)} (hists : List H)
    (hf : ∀ a b c, BuildsAgree (f a b c) (f' a b c)) : BuildsAgree (forHists hists f) (forHists hists f') := by unfold forHists; ba
macro_rules | `(tactic| ba_step) => `(tactic| with_reducible apply ba_forHists)

/-! ### Transform -/
theorem ba_cropCheck (input : Image T) (x y width height : Nat) : BuildsAgree (cropCheck .debug input x y width height) (cropCheck .release input x y width height) := by unfold cropCheck; ba
macro_rules | `(tactic| ba_step) => `(tactic| with_reducible apply ba_cropCheck)

theorem ba_crop (N : RNum T) (input : Image T) (x y width height : Nat) (hN : N.Agrees) : BuildsAgree (crop .debug N input x y width height) (crop .release N input x y width height) := by unfold crop; ba
macro_rules | `(tactic| ba_step) => `(tactic| with_reducible apply ba_crop)

theorem ba_cropPar (order : List Nat) (input : Image T) (x y width height : Nat) : BuildsAgree (cropPar order .debug input x y width height) (cropPar order .release input x y width height) := by unfold cropPar; ba
macro_rules | `(tactic| ba_step) => `(tactic| with_reducible apply ba_cropPar)

theorem ba_overlay (back front : Image T) (x y : Nat) : BuildsAgree (overlay .debug back front x y) (overlay .release back front x y) := by unfold overlay; ba
macro_rules | `(tactic| ba_step) => `(tactic| with_reducible apply ba_overlay)

theorem ba_translate (N : RNum T) (input : Image T) (x y : Nat) (hN : N.Agrees) : BuildsAgree (translate .debug N input x y) (translate .release N input x y) := by unfold translate; ba
macro_rules | `(tactic| ba_step) => `(tactic| with_reducible apply ba_translate)

theorem ba_reflect (N : RNum T) (input : Image T) (axis : Refl) (hN : N.Agrees) : BuildsAgree (reflect .debug N input axis) (reflect .release N input axis) := by unfold reflect; ba
macro_rules | `(tactic| ba_step) => `(tactic| with_reducible apply ba_reflect)

theorem ba_superimpose (back front : Image F) (x y : Nat) (alpha : F) : BuildsAgree (superimpose .debug back front x y alpha) (superimpose .release back front x y alpha) := by unfold superimpose; ba
macro_rules | `(tactic| ba_step) => `(tactic| with_reducible apply ba_superimpose)

theorem ba_interpolateNearestNeighbor (input : Image F) (xf yf : F) (x y : Nat) : BuildsAgree (interpolateNearestNeighbor .debug input xf yf x y) (interpolateNearestNeighbor .release input xf yf x y) := by unfold interpolateNearestNeighbor; ba
macro_rules | `(tactic| ba_step) => `(tactic| with_reducible apply ba_interpolateNearestNeighbor)

theorem ba_interpolateBilinear (input : Image F) (xf yf : F) (x y : Nat) : BuildsAgree (interpolateBilinear .debug input xf yf x y) (interpolateBilinear .release input xf yf x y) := by unfold interpolateBilinear; ba
macro_rules | `(tactic| ba_step) => `(tactic| with_reducible apply ba_interpolateBilinear)

theorem ba_interpolateBicubic (input : Image F) (xf yf : F) (x y : Nat) : BuildsAgree (interpolateBicubic .debug input xf yf x y) (interpolateBicubic .release input xf yf x y) := by unfold interpolateBicubic; ba
macro_rules | `(tactic| ba_step) => `(tactic| with_reducible apply ba_interpolateBicubic)

theorem ba_interpolateLanczos (input : Image F) (xf yf : F) (size x y : Nat) : BuildsAgree (interpolateLanczos .debug input xf yf size x y) (interpolateLanczos .release input xf yf size x y) := by unfold interpolateLanczos; ba
macro_rules | `(tactic| ba_step) => `(tactic| with_reducible apply ba_interpolateLanczos)

theorem ba_interpolate (input : Image F) (xf yf : F) (method : Scale) (x y : Nat) : BuildsAgree (interpolate .debug input xf yf method x y) (interpolate .release input xf yf method x y) := by unfold interpolate; ba
macro_rules | `(tactic| ba_step) => `(tactic| with_reducible apply ba_interpolate)

theorem ba_scaleLoop (output : Image F) {interp interp' : Nat → Nat → Res (List F)} (hinterp : ∀ a0 a1, BuildsAgree (interp a0 a1) (interp' a0 a1)) : BuildsAgree (scaleLoop .debug output interp) (scaleLoop .release output interp') := by unfold scaleLoop; ba
macro_rules | `(tactic| ba_step) => `(tactic| with_reducible apply ba_scaleLoop)

theorem ba_scaleLoopPar (order : List Nat) (info : ImageInfo) {interp interp' : Nat → Nat → Res (List F)} (hinterp : ∀ a0 a1, BuildsAgree (interp a0 a1) (interp' a0 a1)) : BuildsAgree (scaleLoopPar order .debug info interp) (scaleLoopPar order .release info interp') := by unfold scaleLoopPar; ba
macro_rules | `(tactic| ba_step) => `(tactic| with_reducible apply ba_scaleLoopPar)

theorem ba_scale (input : Image F) (xf yf : F) (method : Scale) : BuildsAgree (scale .debug input xf yf method) (scale .release input xf yf method) := by unfold scale; ba
macro_rules | `(tactic| ba_step) => `(tactic| with_reducible apply ba_scale)

theorem ba_scalePar (order : List Nat) (input : Image F) (xf yf : F) (method : Scale) : BuildsAgree (scalePar order .debug input xf yf method) (scalePar order .release input xf yf method) := by unfold scalePar; ba
macro_rules | `(tactic| ba_step) => `(tactic| with_reducible apply ba_scalePar)

theorem ba_scaleLanczos (input : Image F) (xf yf : F) (size : Nat) : BuildsAgree (scaleLanczos .debug input xf yf size) (scaleLanczos .release input xf yf size) := by unfold scaleLanczos; ba
macro_rules | `(tactic| ba_step) => `(tactic| with_reducible apply ba_scaleLanczos)

theorem ba_scaleLanczosPar (order : List Nat) (input : Image F) (xf yf : F) (size : Nat) : BuildsAgree (scaleLanczosPar order .debug input xf yf size) (scaleLanczosPar order .release input xf yf size) := by unfold scaleLanczosPar; ba
macro_rules | `(tactic| ba_step) => `(tactic| with_reducible apply ba_scaleLanczosPar)

theorem ba_rotate (input : Image F) (degrees : F) : BuildsAgree (rotate .debug input degrees) (rotate .release input degrees) := by unfold rotate; ba
macro_rules | `(tactic| ba_step) => `(tactic| with_reducible apply ba_rotate)

theorem ba_shear (input : Image F) (shearX shearY : F) : BuildsAgree (shear .debug input shearX shearY) (shear .release input shearX shearY) := by unfold shear; ba
macro_rules | `(tactic| ba_step) => `(tactic| with_reducible apply ba_shear)

/-! ### Filter -/
theorem ba_filter1d (input : Image F) (kernel : List F) (isVert : Bool) : BuildsAgree (filter1d .debug input kernel isVert) (filter1d .release input kernel isVert) := by unfold filter1d; ba
macro_rules | `(tactic| ba_step) => `(tactic| with_reducible apply ba_filter1d)

theorem ba_filter1dPar (order : List Nat) (input : Image F) (kernel : List F) (isVert : Bool) : BuildsAgree (filter1dPar order .debug input kernel isVert) (filter1dPar order .release input kernel isVert) := by unfold filter1dPar; ba
macro_rules | `(tactic| ba_step) => `(tactic| with_reducible apply ba_filter1dPar)

theorem ba_separableFilter (input : Image F) (vert horz : List F) : BuildsAgree (separableFilter .debug input vert horz) (separableFilter .release input vert horz) := by unfold separableFilter; ba
macro_rules | `(tactic| ba_step) => `(tactic| with_reducible apply ba_separableFilter)

theorem ba_separableFilterPar (o1 o2 : List Nat) (input : Image F) (vert horz : List F) : BuildsAgree (separableFilterPar o1 o2 .debug input vert horz) (separableFilterPar o1 o2 .release input vert horz) := by unfold separableFilterPar; ba
macro_rules | `(tactic| ba_step) => `(tactic| with_reducible apply ba_separableFilterPar)

theorem ba_unseparableFilter (input : Image F) (kernel : List F) : BuildsAgree (unseparableFilter .debug input kernel) (unseparableFilter .release input kernel) := by unfold unseparableFilter; ba
macro_rules | `(tactic| ba_step) => `(tactic| with_reducible apply ba_unseparableFilter)

theorem ba_unseparableFilterPar (order : List Nat) (input : Image F) (kernel : List F) : BuildsAgree (unseparableFilterPar order .debug input kernel) (unseparableFilterPar order .release input kernel) := by unfold unseparableFilterPar; ba
macro_rules | `(tactic| ba_step) => `(tactic| with_reducible apply ba_unseparableFilterPar)

theorem ba_linearFilter (svd : Svd F) (input : Image F) (kernel : List F) : BuildsAgree (linearFilter svd .debug input kernel) (linearFilter svd .release input kernel) := by unfold linearFilter; ba
macro_rules | `(tactic| ba_step) => `(tactic| with_reducible apply ba_linearFilter)

theorem ba_boxFilter (input : Image F) (size : Nat) : BuildsAgree (boxFilter .debug input size) (boxFilter .release input size) := by unfold boxFilter; ba
macro_rules | `(tactic| ba_step) => `(tactic| with_reducible apply ba_boxFilter)

theorem ba_weightedAvgKernel (size weight : Nat) : BuildsAgree (weightedAvgKernel (F := F) .debug size weight) (weightedAvgKernel (F := F) .release size weight) := by unfold weightedAvgKernel; ba
macro_rules | `(tactic| ba_step) => `(tactic| with_reducible apply ba_weightedAvgKernel)

theorem ba_weightedAvgFilter (input : Image F) (size weight : Nat) : BuildsAgree (weightedAvgFilter .debug input size weight) (weightedAvgFilter .release input size weight) := by unfold weightedAvgFilter; ba
macro_rules | `(tactic| ba_step) => `(tactic| with_reducible apply ba_weightedAvgFilter)

theorem ba_gaussianBlur (svd : Svd F) (input : Image F) (size : Nat) (sigma : F) : BuildsAgree (gaussianBlur svd .debug input size sigma) (gaussianBlur svd .release input size sigma) := by unfold gaussianBlur; ba
macro_rules | `(tactic| ba_step) => `(tactic| with_reducible apply ba_gaussianBlur)

theorem ba_sharpen (input : Image F) : BuildsAgree (sharpen .debug input) (sharpen .release input) := by unfold sharpen; ba
macro_rules | `(tactic| ba_step) => `(tactic| with_reducible apply ba_sharpen)

theorem ba_unsharpMasking (input : Image F) : BuildsAgree (unsharpMasking .debug input) (unsharpMasking .release input) := by unfold unsharpMasking; ba
macro_rules | `(tactic| ba_step) => `(tactic| with_reducible apply ba_unsharpMasking)

theorem ba_threshold (input : Image F) (thr max : F) (method : Thresh) : BuildsAgree (threshold .debug input thr max method) (threshold .release input thr max method) := by unfold threshold; ba
macro_rules | `(tactic| ba_step) => `(tactic| with_reducible apply ba_threshold)

theorem ba_residual {T : Type} (N : RNum T) (original filtered : Image T) (hN : N.Agrees) : BuildsAgree (residual (T := T) .debug N original filtered) (residual (T := T) .release N original filtered) := by unfold residual; ba
macro_rules | `(tactic| ba_step) => `(tactic| with_reducible apply ba_residual)

theorem ba_derivativeMask (input : Image F) (vert horz : List F) : BuildsAgree (derivativeMask .debug input vert horz) (derivativeMask .release input vert horz) := by unfold derivativeMask; ba
macro_rules | `(tactic| ba_step) => `(tactic| with_reducible apply ba_derivativeMask)

theorem ba_prewitt (input : Image F) : BuildsAgree (prewitt .debug input) (prewitt .release input) := by unfold prewitt; ba
macro_rules | `(tactic| ba_step) => `(tactic| with_reducible apply ba_prewitt)

theorem ba_sobel (input : Image F) : BuildsAgree (sobel .debug input) (sobel .release input) := by unfold sobel; ba
macro_rules | `(tactic| ba_step) => `(tactic| with_reducible apply ba_sobel)

theorem ba_sobelWeighted (input : Image F) (weight : Nat) : BuildsAgree (sobelWeighted .debug input weight) (sobelWeighted .release input weight) := by unfold sobelWeighted; ba
macro_rules | `(tactic| ba_step) => `(tactic| with_reducible apply ba_sobelWeighted)

theorem ba_laplacian (input : Image F) : BuildsAgree (laplacian .debug input) (laplacian .release input) := by unfold laplacian; ba
macro_rules | `(tactic| ba_step) => `(tactic| with_reducible apply ba_laplacian)

theorem ba_laplacianOfGaussian (input : Image F) (size : Nat) (sigma : F) : BuildsAgree (laplacianOfGaussian .debug input size sigma) (laplacianOfGaussian .release input size sigma) := by unfold laplacianOfGaussian; ba
macro_rules | `(tactic| ba_step) => `(tactic| with_reducible apply ba_laplacianOfGaussian)

theorem ba_normalizeLaplacian (input : Image F) : BuildsAgree (normalizeLaplacian .debug input) (normalizeLaplacian .release input) := by unfold normalizeLaplacian; ba
macro_rules | `(tactic| ba_step) => `(tactic| with_reducible apply ba_normalizeLaplacian)

theorem ba_bilateralDirectPixel (input : Image F) (range : F) (spatialMat : List F) (size x y : Nat) : BuildsAgree (bilateralDirectPixel .debug input range spatialMat size x y) (bilateralDirectPixel .release input range spatialMat size x y) := by unfold bilateralDirectPixel; ba
macro_rules | `(tactic| ba_step) => `(tactic| with_reducible apply ba_bilateralDirectPixel)

theorem ba_bilateralFilter (input : Image UInt8) (range spatial : F) : BuildsAgree (bilateralFilter .debug input range spatial) (bilateralFilter .release input range spatial) := by unfold bilateralFilter; ba
macro_rules | `(tactic| ba_step) => `(tactic| with_reducible apply ba_bilateralFilter)

theorem ba_bilateralFilterPar (order : List Nat) (input : Image UInt8) (range spatial : F) : BuildsAgree (bilateralFilterPar order .debug input range spatial) (bilateralFilterPar order .release input range spatial) := by unfold bilateralFilterPar; ba
macro_rules | `(tactic| ba_step) => `(tactic| with_reducible apply ba_bilateralFilterPar)

/-! ### Median -/
theorem ba_histAdd (data : List (List Int)) (n v : Nat) (d : Int) : BuildsAgree (histAdd .debug data n v d) (histAdd .release data n v d) := by unfold histAdd; ba
macro_rules | `(tactic| ba_step) => `(tactic| with_reducible apply ba_histAdd)

theorem ba_PartialHistograms_update (h : PartialHistograms) (pIn : List (List UInt8)) (ch : Nat) (add : Bool) : BuildsAgree (PartialHistograms.update .debug h pIn ch add) (PartialHistograms.update .release h pIn ch add) := by unfold PartialHistograms.update; ba
macro_rules | `(tactic| ba_step) => `(tactic| with_reducible apply ba_PartialHistograms_update)

theorem ba_PartialHistograms_getCount (h : PartialHistograms) (key index : Nat) : BuildsAgree (PartialHistograms.getCount .debug h key index) (PartialHistograms.getCount .release h key index) := by unfold PartialHistograms.getCount; ba
macro_rules | `(tactic| ba_step) => `(tactic| with_reducible apply ba_PartialHistograms_getCount)

theorem ba_MedianHist_update (h : MedianHist) (pIn : List (List UInt8)) (ch : Nat) (add : Bool) : BuildsAgree (MedianHist.update .debug h pIn ch add) (MedianHist.update .release h pIn ch add) := by unfold MedianHist.update; ba
macro_rules | `(tactic| ba_step) => `(tactic| with_reducible apply ba_MedianHist_update)

theorem ba_scanUp (h : PartialHistograms) (center : Int) (i : Nat) (l : List Nat) (sum : Int) : BuildsAgree (scanUp .debug h center i l sum) (scanUp .release h center i l sum) := by
  induction l generalizing sum with
  | nil => simp only [scanUp]; ba
  | cons a l ih => simp only [scanUp]; ba <;> exact ih _
macro_rules | `(tactic| ba_step) => `(tactic| with_reducible apply ba_scanUp)

theorem ba_scanDown (h : PartialHistograms) (center : Int) (i : Nat) (l : List Nat) (sum : Int) : BuildsAgree (scanDown .debug h center i l sum) (scanDown .release h center i l sum) := by
  induction l generalizing sum with
  | nil => simp only [scanDown]; ba
  | cons a l ih => simp only [scanDown]; ba <;> exact ih _
macro_rules | `(tactic| ba_step) => `(tactic| with_reducible apply ba_scanDown)

theorem ba_rowMed (hists : List MedianHist) (pIn : List (List UInt8)) (add : Bool) : BuildsAgree (rowMed .debug hists pIn add) (rowMed .release hists pIn add) := by unfold rowMed; ba
macro_rules | `(tactic| ba_step) => `(tactic| with_reducible apply ba_rowMed)

theorem ba_inputRow (input : Image UInt8) (radius nCols x : Nat) (y : Nat) : BuildsAgree (inputRow .debug input radius nCols x y) (inputRow .release input radius nCols x y) := by unfold inputRow; ba
macro_rules | `(tactic| ba_step) => `(tactic| with_reducible apply ba_inputRow)

theorem ba_writeClamped (output : Image UInt8) (x i y : Nat) (p : List UInt8) : BuildsAgree (writeClamped .debug output x i y p) (writeClamped .release output x i y p) := by unfold writeClamped; ba
macro_rules | `(tactic| ba_step) => `(tactic| with_reducible apply ba_writeClamped)

theorem ba_initColsMed (input output : Image UInt8) (hists : List MedianHist) (radius : Nat) (center : Int) (nCols x : Nat) : BuildsAgree (initColsMed .debug input output hists radius center nCols x) (initColsMed .release input output hists radius center nCols x) := by unfold initColsMed; ba
macro_rules | `(tactic| ba_step) => `(tactic| with_reducible apply ba_initColsMed)

theorem ba_processRowMed (output : Image UInt8) (hists : List MedianHist) (center : Int) (nCols x y : Nat) : BuildsAgree (processRowMed .debug output hists center nCols x y) (processRowMed .release output hists center nCols x y) := by unfold processRowMed; ba
macro_rules | `(tactic| ba_step) => `(tactic| with_reducible apply ba_processRowMed)

theorem ba_rowInOut (height radius j : Nat) : BuildsAgree (rowInOut .debug height radius j) (rowInOut .release height radius j) := by unfold rowInOut; ba
macro_rules | `(tactic| ba_step) => `(tactic| with_reducible apply ba_rowInOut)

theorem ba_processColsMed (input output : Image UInt8) (radius nCols x : Nat) : BuildsAgree (processColsMed .debug input output radius nCols x) (processColsMed .release input output radius nCols x) := by unfold processColsMed; ba
macro_rules | `(tactic| ba_step) => `(tactic| with_reducible apply ba_processColsMed)

theorem ba_medianFilter (F : Type) [FloatOps F] (input : Image UInt8) (radius : Nat) : BuildsAgree (medianFilter F .debug input radius) (medianFilter F .release input radius) := by unfold medianFilter; ba
macro_rules | `(tactic| ba_step) => `(tactic| with_reducible apply ba_medianFilter)

theorem ba_MeanHist_new (radius nCols alpha : Nat) : BuildsAgree (MeanHist.new (F := F) .debug radius nCols alpha) (MeanHist.new (F := F) .release radius nCols alpha) := by unfold MeanHist.new; ba
macro_rules | `(tactic| ba_step) => `(tactic| with_reducible apply ba_MeanHist_new)

theorem ba_MeanHist_lowerAt (h : MeanHist F) (index : Nat) : BuildsAgree (MeanHist.lowerAt .debug h index) (MeanHist.lowerAt .release h index) := by unfold MeanHist.lowerAt; ba
macro_rules | `(tactic| ba_step) => `(tactic| with_reducible apply ba_MeanHist_lowerAt)

theorem ba_MeanHist_upperAt (h : MeanHist F) (index : Nat) : BuildsAgree (MeanHist.upperAt .debug h index) (MeanHist.upperAt .release h index) := by unfold MeanHist.upperAt; ba
macro_rules | `(tactic| ba_step) => `(tactic| with_reducible apply ba_MeanHist_upperAt)

theorem ba_MeanHist_addSum (h : MeanHist F) (n : Nat) (v : Int) : BuildsAgree (MeanHist.addSum .debug h n v) (MeanHist.addSum .release h n v) := by unfold MeanHist.addSum; ba
macro_rules | `(tactic| ba_step) => `(tactic| with_reducible apply ba_MeanHist_addSum)

theorem ba_MeanHist_subSum (h : MeanHist F) (n : Nat) (v : Int) : BuildsAgree (MeanHist.subSum .debug h n v) (MeanHist.subSum .release h n v) := by unfold MeanHist.subSum; ba
macro_rules | `(tactic| ba_step) => `(tactic| with_reducible apply ba_MeanHist_subSum)

theorem ba_MeanHist_firstKey (h : PartialHistograms) (n : Nat) (l : List Nat) : BuildsAgree (MeanHist.firstKey .debug h n l) (MeanHist.firstKey .release h n l) := by
  induction l with
  | nil => simp only [MeanHist.firstKey]; ba
  | cons a l ih => simp only [MeanHist.firstKey]; ba <;> exact ih
macro_rules | `(tactic| ba_step) => `(tactic| with_reducible apply ba_MeanHist_firstKey)

theorem ba_MeanHist_getNextLower (h : MeanHist F) (n : Nat) (lowerCount : Int) (lower : UInt8) : BuildsAgree (MeanHist.getNextLower .debug h n lowerCount lower) (MeanHist.getNextLower .release h n lowerCount lower) := by unfold MeanHist.getNextLower; ba
macro_rules | `(tactic| ba_step) => `(tactic| with_reducible apply ba_MeanHist_getNextLower)

theorem ba_MeanHist_getNextUpper (h : MeanHist F) (n : Nat) (upperCount : Int) (upper : UInt8) : BuildsAgree (MeanHist.getNextUpper .debug h n upperCount upper) (MeanHist.getNextUpper .release h n upperCount upper) := by unfold MeanHist.getNextUpper; ba
macro_rules | `(tactic| ba_step) => `(tactic| with_reducible apply ba_MeanHist_getNextUpper)

theorem ba_MeanHist_addValue (bs : BinSearch) (h : MeanHist F) (n : Nat) (val : UInt8) : BuildsAgree (MeanHist.addValue bs .debug h n val) (MeanHist.addValue bs .release h n val) := by unfold MeanHist.addValue; ba
macro_rules | `(tactic| ba_step) => `(tactic| with_reducible apply ba_MeanHist_addValue)

theorem ba_MeanHist_removeValue (bs : BinSearch) (h : MeanHist F) (n : Nat) (val : UInt8) (rest : List UInt8) : BuildsAgree (MeanHist.removeValue bs .debug h n val rest) (MeanHist.removeValue bs .release h n val rest) := by unfold MeanHist.removeValue; ba
macro_rules | `(tactic| ba_step) => `(tactic| with_reducible apply ba_MeanHist_removeValue)

theorem ba_MeanHist_update (bs : BinSearch) (h : MeanHist F) (pIn : List (List UInt8)) (ch : Nat) (add : Bool) : BuildsAgree (MeanHist.update bs .debug h pIn ch add) (MeanHist.update bs .release h pIn ch add) := by unfold MeanHist.update; ba
macro_rules | `(tactic| ba_step) => `(tactic| with_reducible apply ba_MeanHist_update)

theorem ba_rowMean (bs : BinSearch) (hists : List (MeanHist F)) (pIn : List (List UInt8)) (add : Bool) : BuildsAgree (rowMean bs .debug hists pIn add) (rowMean bs .release hists pIn add) := by unfold rowMean; ba
macro_rules | `(tactic| ba_step) => `(tactic| with_reducible apply ba_rowMean)

theorem ba_takeLower (trim key fuel : Nat) (s : List UInt8 × Int × Int) : BuildsAgree (takeLower .debug trim key fuel s) (takeLower .release trim key fuel s) := by
  induction fuel generalizing s with
  | zero => simp only [takeLower]; ba
  | succ n ih => obtain ⟨a, b, c⟩ := s; simp only [takeLower]; ba <;> exact ih _
macro_rules | `(tactic| ba_step) => `(tactic| with_reducible apply ba_takeLower)

theorem ba_takeUpper (trim upperTrim key : Nat) (count : Int) (fuel : Nat) (s : List UInt8 × Int × Int) : BuildsAgree (takeUpper .debug trim upperTrim key count fuel s) (takeUpper .release trim upperTrim key count fuel s) := by
  induction fuel generalizing s with
  | zero => simp only [takeUpper]; ba
  | succ n ih => obtain ⟨a, b, c⟩ := s; simp only [takeUpper]; ba <;> exact ih _
macro_rules | `(tactic| ba_step) => `(tactic| with_reducible apply ba_takeUpper)

theorem ba_initTrim (h : PartialHistograms) (trim upperTrim i : Nat) : BuildsAgree (initTrim .debug h trim upperTrim i) (initTrim .release h trim upperTrim i) := by unfold initTrim; ba
macro_rules | `(tactic| ba_step) => `(tactic| with_reducible apply ba_initTrim)

theorem ba_initColsMean (bs : BinSearch) (input output : Image UInt8) (hists : List (MeanHist F)) (radius alpha nCols x : Nat) : BuildsAgree (initColsMean bs .debug input output hists radius alpha nCols x) (initColsMean bs .release input output hists radius alpha nCols x) := by unfold initColsMean; ba
macro_rules | `(tactic| ba_step) => `(tactic| with_reducible apply ba_initColsMean)

theorem ba_processRowMean (output : Image UInt8) (hists : List (MeanHist F)) (nCols x y : Nat) : BuildsAgree (processRowMean .debug output hists nCols x y) (processRowMean .release output hists nCols x y) := by unfold processRowMean; ba
macro_rules | `(tactic| ba_step) => `(tactic| with_reducible apply ba_processRowMean)

theorem ba_processColsMean (bs : BinSearch) (F : Type) [FloatOps F] (input output : Image UInt8) (radius alpha nCols x : Nat) : BuildsAgree (processColsMean bs .debug F input output radius alpha nCols x) (processColsMean bs .release F input output radius alpha nCols x) := by unfold processColsMean; ba
macro_rules | `(tactic| ba_step) => `(tactic| with_reducible apply ba_processColsMean)

theorem ba_alphaTrimmedMeanFilter (F : Type) [FloatOps F] (bs : BinSearch) (input : Image UInt8) (radius alpha : Nat) : BuildsAgree (alphaTrimmedMeanFilter F bs .debug input radius alpha) (alphaTrimmedMeanFilter F bs .release input radius alpha) := by unfold alphaTrimmedMeanFilter; ba
macro_rules | `(tactic| ba_step) => `(tactic| with_reducible apply ba_alphaTrimmedMeanFilter)

end Imgproc

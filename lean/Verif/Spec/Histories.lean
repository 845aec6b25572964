import Verif.Spec.Shapes
import Verif.Model.Filter
import Verif.Model.Median
import Verif.Core.IEEE
/-!
Specification for C131: histories of library calls. An image in the hands of a user is one the user built from a buffer of the
right length, or the result of a call that returned normally on an image obtained earlier.
-/
namespace Imgproc

/-- an image of bytes or of `f32` values -/
inductive AnyImage where
  | bytes (img : Image UInt8)
  | floats (img : Image F32)

/-- what a user relies on: the buffer and the header belong together, and every pixel inside the image can be read, in
both build profiles, and has one value per channel -/
def Image.Consistent {T : Type} (img : Image T) : Prop :=
  img.WF ∧ ∀ (Q : Profile) (x y : Nat), x < img.info.width → y < img.info.height →
    ∃ p, img.getPixel Q x y = .ok p ∧ p.length = img.info.channels

def AnyImage.Consistent : AnyImage → Prop
  | .bytes img => img.Consistent
  | .floats img => img.Consistent

/-- a closure of `map_pixels` / `map_pixels_if_alpha` that always returns `c` values -/
def ConstLength {T S : Type} (c : Nat) (f : List T → List S → Res (List S)) : Prop := ∀ p q, f p [] = .ok q → q.length = c

variable [Libm f32]

/-- one call that returned normally. The parameters of the calls are unrestricted, except where a comment says so. -/
inductive Call (P : Profile) (svd : Svd F32) (bs : BinSearch) : AnyImage → AnyImage → Prop
  -- src/image/mod.rs: pixel access, maps and edits with arbitrary closures
  | setPixel8 {a o x y p} : a.setPixel P x y p = .ok o → Call P svd bs (.bytes a) (.bytes o)
  | setPixel {a o x y p} : a.setPixel P x y p = .ok o → Call P svd bs (.floats a) (.floats o)
  | setPixelIndexed8 {a o k p} : a.setPixelIndexed P k p = .ok o → Call P svd bs (.bytes a) (.bytes o)
  | setPixelIndexed {a o k p} : a.setPixelIndexed P k p = .ok o → Call P svd bs (.floats a) (.floats o)
  | pixelMut8 {a r x y q} : a.getPixelMut P x y = .ok r → q.length = r.1.length → Call P svd bs (.bytes a) (.bytes (r.2 q))
  | pixelMut {a r x y q} : a.getPixelMut P x y = .ok r → q.length = r.1.length → Call P svd bs (.floats a) (.floats (r.2 q))
  | mapChannels8 {a o f} : a.mapChannels P f = .ok o → Call P svd bs (.bytes a) (.bytes o)
  | mapChannels8f {a o f} : a.mapChannels P f = .ok o → Call P svd bs (.bytes a) (.floats o)
  | mapChannels {a o f} : a.mapChannels P f = .ok o → Call P svd bs (.floats a) (.floats o)
  | mapChannelsf8 {a o f} : a.mapChannels P f = .ok o → Call P svd bs (.floats a) (.bytes o)
  | mapChannelsIfAlpha8 {a o f g} : a.mapChannelsIfAlpha P f g = .ok o → Call P svd bs (.bytes a) (.bytes o)
  | mapChannelsIfAlpha8f {a o f g} : a.mapChannelsIfAlpha P f g = .ok o → Call P svd bs (.bytes a) (.floats o)
  | mapChannelsIfAlpha {a o f g} : a.mapChannelsIfAlpha P f g = .ok o → Call P svd bs (.floats a) (.floats o)
  | mapChannelsIfAlphaf8 {a o f g} : a.mapChannelsIfAlpha P f g = .ok o → Call P svd bs (.floats a) (.bytes o)
  -- the closure returns a fixed number of values, and the new size fits
  | mapPixels8 {a o f c} : ConstLength c f → c < 256 → a.info.width * a.info.height * c < U32SIZE → a.mapPixels P f = .ok o →
      Call P svd bs (.bytes a) (.bytes o)
  | mapPixels {a o f c} : ConstLength c f → c < 256 → a.info.width * a.info.height * c < U32SIZE → a.mapPixels P f = .ok o →
      Call P svd bs (.floats a) (.floats o)
  | mapPixelsIfAlpha8 {a o f g c} : ConstLength c f → c < 255 → a.info.width * a.info.height * (c + 1) < U32SIZE →
      a.mapPixelsIfAlpha P f g = .ok o → Call P svd bs (.bytes a) (.bytes o)
  | mapPixelsIfAlpha {a o f g c} : ConstLength c f → c < 255 → a.info.width * a.info.height * (c + 1) < U32SIZE →
      a.mapPixelsIfAlpha P f g = .ok o → Call P svd bs (.floats a) (.floats o)
  | applyPixels8 {a o f} : a.applyPixels P f = .ok o → Call P svd bs (.bytes a) (.bytes o)
  | applyPixels {a o f} : a.applyPixels P f = .ok o → Call P svd bs (.floats a) (.floats o)
  | applyPixelsIfAlpha8 {a o f g} : a.applyPixelsIfAlpha P f g = .ok o → Call P svd bs (.bytes a) (.bytes o)
  | applyPixelsIfAlpha {a o f g} : a.applyPixelsIfAlpha P f g = .ok o → Call P svd bs (.floats a) (.floats o)
  | applyChannels8 {a o f} : a.applyChannels P f = .ok o → Call P svd bs (.bytes a) (.bytes o)
  | applyChannels {a o f} : a.applyChannels P f = .ok o → Call P svd bs (.floats a) (.floats o)
  | applyChannelsIfAlpha8 {a o f g} : a.applyChannelsIfAlpha P f g = .ok o → Call P svd bs (.bytes a) (.bytes o)
  | applyChannelsIfAlpha {a o f g} : a.applyChannelsIfAlpha P f g = .ok o → Call P svd bs (.floats a) (.floats o)
  | editChannel8 {a o f k} : a.editChannel P f k = .ok o → Call P svd bs (.bytes a) (.bytes o)
  | editChannel {a o f k} : a.editChannel P f k = .ok o → Call P svd bs (.floats a) (.floats o)
  -- src/convert.rs, src/image/from_impl.rs
  | scaleChannels {a o u v w z} : scaleChannels P a u v w z = .ok o → Call P svd bs (.floats a) (.floats o)
  | f32ToU8Scale {a o n} : f32ToU8Scale P a n = .ok o → Call P svd bs (.floats a) (.bytes o)
  | u8ToF32Scale {a o n} : u8ToF32Scale P a n = .ok o → Call P svd bs (.bytes a) (.floats o)
  | fromBytes {a o} : imageU8ToFloat P a = .ok o → Call P svd bs (.bytes a) (.floats o)
  | fromFloats {a o} : imageFloatToU8 P a = .ok o → Call P svd bs (.floats a) (.bytes o)
  -- src/colorspace.rs; with AVX2 the grayscale conversion is for three colours
  | grayscale {a o avx2} : (avx2 = true → a.info.channels = if a.info.alpha then 4 else 3) → rgbToGrayscale F32 avx2 P a = .ok o →
      Call P svd bs (.bytes a) (.bytes o)
  -- the f32 version is for images with a colour
  | grayscaleF32 {a o} : (a.info.alpha = true → 2 ≤ a.info.channels) → rgbToGrayscaleF32 P a = .ok o → Call P svd bs (.floats a) (.floats o)
  | linearize {a o} : linearizeSrgb P a = .ok o → Call P svd bs (.bytes a) (.floats o)
  | unlinearize {a o} : unlinearizeSrgb P a = .ok o → Call P svd bs (.floats a) (.bytes o)
  | linToXyz {a o} : srgbLinToXyz P a = .ok o → Call P svd bs (.floats a) (.floats o)
  | xyzToLin {a o} : xyzToSrgbLin P a = .ok o → Call P svd bs (.floats a) (.floats o)
  | xyzToLab {a o w} : xyzToLab P a w = .ok o → Call P svd bs (.floats a) (.floats o)
  | labToXyz {a o w} : labToXyz P a w = .ok o → Call P svd bs (.floats a) (.floats o)
  | rgbToHsv {a o} : rgbToHsv P a = .ok o → Call P svd bs (.bytes a) (.bytes o)
  | hsvToRgb {a o} : hsvToRgb P a = .ok o → Call P svd bs (.bytes a) (.bytes o)
  | rgbToHsvF32 {a o} : rgbToHsvF32 P a = .ok o → Call P svd bs (.bytes a) (.floats o)
  | hsvToRgbF32 {a o} : hsvToRgbF32 P a = .ok o → Call P svd bs (.floats a) (.bytes o)
  | srgbToXyz {a o} : srgbToXyz P a = .ok o → Call P svd bs (.bytes a) (.floats o)
  | xyzToSrgb {a o} : xyzToSrgb P a = .ok o → Call P svd bs (.floats a) (.bytes o)
  | srgbToLab {a o w} : srgbToLab P a w = .ok o → Call P svd bs (.bytes a) (.floats o)
  | labToSrgb {a o w} : labToSrgb P a w = .ok o → Call P svd bs (.floats a) (.bytes o)
  -- src/tone.rs, with and without AVX2
  | brightness {a o avx2 b} : brightness avx2 P a b = .ok o → Call P svd bs (.bytes a) (.bytes o)
  | brightnessLab {a o b} : brightnessLab F32 P a b = .ok o → Call P svd bs (.bytes a) (.bytes o)
  | contrast {a o} {g : F32} : contrast P a g = .ok o → Call P svd bs (.bytes a) (.bytes o)
  | contrastLab {a o} {g : F32} : contrastLab P a g = .ok o → Call P svd bs (.bytes a) (.bytes o)
  | saturation {a o avx2 b} : saturation avx2 P a b = .ok o → Call P svd bs (.bytes a) (.bytes o)
  | gamma {a o m} {g : F32} : gammaOp P a g m = .ok o → Call P svd bs (.bytes a) (.bytes o)
  | equalize {a o w} {al p : F32} : histogramEqualization P a al w p = .ok o → Call P svd bs (.bytes a) (.bytes o)
  -- src/filter
  | filter1d {a o k v} : filter1d P a k v = .ok o → Call P svd bs (.floats a) (.floats o)
  | separable {a o k l} : separableFilter P a k l = .ok o → Call P svd bs (.floats a) (.floats o)
  | unseparable {a o k} : unseparableFilter P a k = .ok o → Call P svd bs (.floats a) (.floats o)
  | linear {a o k} : linearFilter svd P a k = .ok o → Call P svd bs (.floats a) (.floats o)
  | box {a o n} : boxFilter P a n = .ok o → Call P svd bs (.floats a) (.floats o)
  | weightedAvg {a o n w} : weightedAvgFilter P a n w = .ok o → Call P svd bs (.floats a) (.floats o)
  | gaussian {a o n s} : gaussianBlur svd P a n s = .ok o → Call P svd bs (.floats a) (.floats o)
  | sharpen {a o} : sharpen P a = .ok o → Call P svd bs (.floats a) (.floats o)
  | unsharp {a o} : unsharpMasking P a = .ok o → Call P svd bs (.floats a) (.floats o)
  | threshold {a o t m k} : threshold P a t m k = .ok o → Call P svd bs (.floats a) (.floats o)
  | residual8 {a b o} : residual P u8Num a b = .ok o → Call P svd bs (.bytes a) (.bytes o)
  | residual {a b o} : residual P FloatOps.rnum a b = .ok o → Call P svd bs (.floats a) (.floats o)
  | derivative {a o k l} : derivativeMask P a k l = .ok o → Call P svd bs (.floats a) (.floats o)
  | prewitt {a o} : prewitt P a = .ok o → Call P svd bs (.floats a) (.floats o)
  | sobel {a o} : sobel P a = .ok o → Call P svd bs (.floats a) (.floats o)
  | sobelWeighted {a o w} : sobelWeighted P a w = .ok o → Call P svd bs (.floats a) (.floats o)
  | laplacian {a o} : laplacian P a = .ok o → Call P svd bs (.floats a) (.floats o)
  | log {a o n s} : laplacianOfGaussian P a n s = .ok o → Call P svd bs (.floats a) (.floats o)
  | normalizeLaplacian {a o} : normalizeLaplacian P a = .ok o → Call P svd bs (.floats a) (.bytes o)
  | bilateral {a o} {r s : F32} : bilateralFilter P a r s = .ok o → Call P svd bs (.bytes a) (.bytes o)
  | median {a o r} : medianFilter F32 P a r = .ok o → Call P svd bs (.bytes a) (.bytes o)
  | alphaTrimmed {a o r al} : alphaTrimmedMeanFilter F32 bs P a r al = .ok o → Call P svd bs (.bytes a) (.bytes o)
  -- src/morphology.rs, src/util/mod.rs
  | erode {a o r} : erode F32 P a r = .ok o → Call P svd bs (.bytes a) (.bytes o)
  | dilate {a o r} : dilate F32 P a r = .ok o → Call P svd bs (.bytes a) (.bytes o)
  | majority {a o r} : majority F32 P a r = .ok o → Call P svd bs (.bytes a) (.bytes o)
  | morphOpen {a o r} : morphOpen F32 P a r = .ok o → Call P svd bs (.bytes a) (.bytes o)
  | morphClose {a o r} : morphClose F32 P a r = .ok o → Call P svd bs (.bytes a) (.bytes o)
  | gradient {a o r} : gradient F32 P a r = .ok o → Call P svd bs (.bytes a) (.bytes o)
  | summedArea {a o} : generateSummedAreaTable P a = .ok o → Call P svd bs (.floats a) (.floats o)
  -- src/transform.rs; the second image of a call is arbitrary; sizes are u32 values; an image cropped or scaled has a channel
  | crop8 {a o x y w k} : 0 < a.info.channels → w < U32SIZE → k < U32SIZE → crop P u8Num a x y w k = .ok o → Call P svd bs (.bytes a) (.bytes o)
  | crop {a o x y w k} : 0 < a.info.channels → w < U32SIZE → k < U32SIZE → crop P FloatOps.rnum a x y w k = .ok o →
      Call P svd bs (.floats a) (.floats o)
  | overlay8 {a b o x y} : overlay P a b x y = .ok o → Call P svd bs (.bytes a) (.bytes o)
  | overlay {a b o x y} : overlay P a b x y = .ok o → Call P svd bs (.floats a) (.floats o)
  | superimpose {a b o x y al} : superimpose P a b x y al = .ok o → Call P svd bs (.floats a) (.floats o)
  | translate8 {a o x y} : translate P u8Num a x y = .ok o → Call P svd bs (.bytes a) (.bytes o)
  | translate {a o x y} : translate P FloatOps.rnum a x y = .ok o → Call P svd bs (.floats a) (.floats o)
  | reflect8 {a o r} : reflect P u8Num a r = .ok o → Call P svd bs (.bytes a) (.bytes o)
  | reflect {a o r} : reflect P FloatOps.rnum a r = .ok o → Call P svd bs (.floats a) (.floats o)
  | scale {a o u v m} : 0 < a.info.channels → scale P a u v m = .ok o → Call P svd bs (.floats a) (.floats o)
  | scaleLanczos {a o u v n} : 0 < a.info.channels → scaleLanczos P a u v n = .ok o → Call P svd bs (.floats a) (.floats o)
  -- without overflow checks the size of the result has to fit (see `c131_violated`)
  | shear {a o u v} : (P = .debug ∨ o.info.WF) → shear P a u v = .ok o → Call P svd bs (.floats a) (.floats o)
  | rotate {a o d} : (P = .debug ∨ o.info.WF) → rotate P a d = .ok o → Call P svd bs (.floats a) (.floats o)
  -- the rayon versions, with any schedule that runs every task once
  | filter1dPar {a o k v order} : order.Perm (List.range (a.info.width * a.info.height)) → k.length < U32SIZE →
      filter1dPar order P a k v = .ok o → Call P svd bs (.floats a) (.floats o)
  | separablePar {a o k l o1 o2} : o1.Perm (List.range (a.info.width * a.info.height)) → o2.Perm (List.range (a.info.width * a.info.height)) →
      k.length < U32SIZE → l.length < U32SIZE → separableFilterPar o1 o2 P a k l = .ok o → Call P svd bs (.floats a) (.floats o)
  | unseparablePar {a o k order} : order.Perm (List.range (a.info.width * a.info.height)) → k.length ≤ 16777216 →
      unseparableFilterPar order P a k = .ok o → Call P svd bs (.floats a) (.floats o)
  | bilateralPar {a o order} {r s : F32} : (a.info.alpha = true → 0 < a.info.channels) → order.Perm (List.range (a.info.width * a.info.height)) → bilateralFilterPar order P a r s = .ok o →
      Call P svd bs (.bytes a) (.bytes o)
  | cropPar8 {a o x y w k order} : order.Perm (List.range (w * k)) → x + w < U32SIZE → y + k < U32SIZE → 0 < a.info.channels →
      cropPar order P a x y w k = .ok o → Call P svd bs (.bytes a) (.bytes o)
  | cropPar {a o x y w k order} : order.Perm (List.range (w * k)) → x + w < U32SIZE → y + k < U32SIZE → 0 < a.info.channels →
      cropPar order P a x y w k = .ok o → Call P svd bs (.floats a) (.floats o)
  | scalePar {a o u v m order} : order.Perm (List.range (scaleDim a.info.width u * scaleDim a.info.height v)) → 0 < a.info.channels →
      (P = .debug ∨ o.info.WF) → scalePar order P a u v m = .ok o → Call P svd bs (.floats a) (.floats o)
  | scaleLanczosPar {a o u v n order} : order.Perm (List.range (scaleDim a.info.width u * scaleDim a.info.height v)) → 0 < a.info.channels →
      (P = .debug ∨ o.info.WF) → scaleLanczosPar order P a u v n = .ok o → Call P svd bs (.floats a) (.floats o)

/-- the images a user can hold after some history of calls in the build profile `P` -/
inductive Held (P : Profile) (svd : Svd F32) (bs : BinSearch) : AnyImage → Prop
  | fromVec8 {w h c al} {d : List UInt8} : (⟨w, h, c, al⟩ : ImageInfo).WF → d.length = w * h * c →
      Held P svd bs (.bytes (Image.fromVec w h c al d))
  | fromVec {w h c al} {d : List F32} : (⟨w, h, c, al⟩ : ImageInfo).WF → d.length = w * h * c →
      Held P svd bs (.floats (Image.fromVec w h c al d))
  | blank8 {i o} : i.WF → Image.blank P u8Num i = .ok o → Held P svd bs (.bytes o)
  | blank {i o} : i.WF → Image.blank P FloatOps.rnum i = .ok o → Held P svd bs (.floats o)
  | call {a b} : Held P svd bs a → Call P svd bs a b → Held P svd bs b
end Imgproc

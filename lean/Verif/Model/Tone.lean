import Verif.Model.Simd
/-! Model of src/tone.rs -/
namespace Imgproc
open FloatOps

/-- src/tone.rs:31-38 `brightness_rgb_norm` -/
def brightnessRgbNorm (P : Profile) (input : Image UInt8) (bias : Int) : Res (Image UInt8) := do
  let table ← generateLookupTable (List.replicate 256 0) fun i => addClampU8 P i bias
  input.mapChannelsIfAlpha P (fun c => idx table c.toNat) (fun a => .ok a)

/-- src/tone.rs:18-29 `brightness` -/
def brightness (avx2 : Bool) (P : Profile) (input : Image UInt8) (bias : Int) : Res (Image UInt8) := do
  let a ← i16Abs P bias
  checkInRange (intNum I16HALF) a (-255) 255
  if avx2 then adds256U8 P input bias else brightnessRgbNorm P input bias

/-- src/tone.rs:108-112 `saturation_norm` -/
def saturationNorm (P : Profile) (hsv : Image UInt8) (sat : Int) : Res (Image UInt8) :=
  hsv.editChannel P (fun s => addClampU8 P s sat) 1

/-- src/tone.rs:91-106 `saturation` -/
def saturation (avx2 : Bool) (P : Profile) (input : Image UInt8) (sat : Int) : Res (Image UInt8) := do
  checkInRange (intNum I16HALF) sat (-255) 255
  let hsv ← rgbToHsv P input
  let hsv ← if avx2 then addsN256U8 P hsv sat 1 else saturationNorm P hsv sat
  hsvToRgb P hsv

section
variable {F : Type} [FloatOps F]

/-- src/tone.rs:45-53 `brightness_lab` -/
def brightnessLab (F : Type) [FloatOps F] (P : Profile) (input : Image UInt8) (bias : Int) :
    Res (Image UInt8) := do
  let a ← i16Abs P bias
  checkInRange (intNum I16HALF) a (-255) 255
  let lab : Image F ← srgbToLab P input .d50
  let biasLab : F := FloatOps.ofInt bias /. num 255 *. num 100
  let lab ← lab.editChannel P (fun n => .ok (n +. biasLab)) 0
  labToSrgb P lab .d50

/-- src/tone.rs:60-70 `contrast` -/
def contrast (P : Profile) (input : Image UInt8) (gain : F) : Res (Image UInt8) := do
  checkNonNeg (FloatOps.rnum (F := F)) gain
  checkInRange (FloatOps.rnum (F := F)) gain (num 0) (num 1)
  let table ← generateLookupTable (List.replicate 256 0) fun i => do
    let v ← FloatOps.clamp (FloatOps.round (ofU8 (F := F) i *. gain)) (num 0) (num 255)
    .ok (toU8 v)
  input.mapChannelsIfAlpha P (fun c => idx table c.toNat) (fun a => .ok a)

/-- src/tone.rs:77-84 `contrast_lab` -/
def contrastLab (P : Profile) (input : Image UInt8) (gain : F) : Res (Image UInt8) := do
  checkNonNeg (FloatOps.rnum (F := F)) gain
  checkInRange (FloatOps.rnum (F := F)) gain (num 0) (num 1)
  let lab : Image F ← srgbToLab P input .d50
  let lab ← lab.editChannel P (fun n => .ok (n *. gain)) 0
  labToSrgb P lab .d50

/-- src/tone.rs:119-125 `gamma` -/
def gammaOp (P : Profile) (input : Image UInt8) (gamma : F) (max : UInt8) : Res (Image UInt8) := do
  checkNonNeg (FloatOps.rnum (F := F)) gamma
  input.mapChannelsIfAlpha P (fun c =>
    .ok (toU8 (FloatOps.round (FloatOps.pow (ofU8 (F := F) c /. ofU8 max) gamma *. ofU8 max))))
    (fun a => .ok a)

/-- the closure of src/tone.rs:145-148: look the percentile of the channel value up and blend -/
def equalizeValue (percentiles : List (Int × F)) (alpha precision n : F) : Res F :=
  match assocGet percentiles (histKey n precision) with
  | none => panic .unwrap
  | some pc => .ok ((alpha *. pc *. num 100) +. ((num 1 -. alpha) *. n))

/-- src/tone.rs:137-151 `histogram_equalization` -/
def histogramEqualization (P : Profile) (input : Image UInt8) (alpha : F) (white : White) (precision : F) :
    Res (Image UInt8) := do
  checkNonNeg (FloatOps.rnum (F := F)) precision
  checkInRange (FloatOps.rnum (F := F)) alpha (num 0) (num 1)
  let lab : Image F ← srgbToLab P input white
  let percentiles ← generateHistogramPercentiles P lab [] precision
  let lab ← lab.editChannel P (equalizeValue percentiles alpha precision) 0
  labToSrgb P lab white
end
end Imgproc

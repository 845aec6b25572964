import Verif.Model.Util
/-! Model of src/morphology.rs (and `check_grayscale`, the u8 to f32 conversion it uses). -/
namespace Imgproc
open FloatOps

/-- src/error/messages.rs:68-74 `check_grayscale` -/
def checkGrayscale {T} (input : Image T) : Res Unit :=
  if (input.info.alpha && input.info.channels ≠ 2) || (!input.info.alpha && input.info.channels ≠ 1)
  then invalidArg else .ok ()

/-- src/image/from_impl.rs:3-7 `From<Image<u8>> for Image<f32>` -/
def imageU8ToFloat {F : Type} [FloatOps F] (P : Profile) (img : Image UInt8) : Res (Image F) :=
  img.mapChannels P fun c => .ok (ofU8 c)

/-- Window of `(x, y)`, one dimension: src/morphology.rs:21-36 (and 59-74, 97-112, 147-162).
`top = c - radius if c >= radius`, `bot = c + radius if c < n - radius`. -/
def morphSpan (P : Profile) (c n radius : Nat) : Res (Nat × Nat) := do
  let top := if c ≥ radius then c - radius else c
  let lim ← u32Sub P n radius
  let bot ← if c < lim then u32Add P c radius else .ok c
  .ok (top, bot)

/-- The scan shared by the morphological operations: at every pixel the window sum's first channel
decides whether 255 is written. -/
def morphScan {F : Type} [FloatOps F] (P : Profile) (input : Image UInt8) (radius : Nat)
    (table : Image F) (test : F → Bool) : Res (Image UInt8) := do
  let output ← Image.blank P u8Num input.info
  forRange 0 input.info.height output fun y output =>
    forRange 0 input.info.width output fun x output => do
      let (xTop, xBot) ← morphSpan P x input.info.width radius
      let (yTop, yBot) ← morphSpan P y input.info.height radius
      let s ← rectangularIntensitySum P table xTop yTop xBot yBot
      let s0 ← idx s 0
      if test s0 then output.setPixel P x y [255] else .ok output

/-- `let size = 2 * radius + 1; let max_sum = (size * size * 255) as f32` src/morphology.rs:13-14 -/
def morphMaxSum {F : Type} [FloatOps F] (P : Profile) (radius : Nat) : Res F := do
  let r2 ← u32Mul P 2 radius
  let size ← u32Add P r2 1
  let s2 ← u32Mul P size size
  let m ← u32Mul P s2 255
  .ok (ofNat m)

/-- `(sum - max_sum).abs() < f32::EPSILON` src/morphology.rs:38 -/
def isFull {F : Type} [FloatOps F] (maxSum s : F) : Bool :=
  FloatOps.abs (s -. maxSum) <. FloatOps.epsilon

/-- src/morphology.rs:9-45 `erode` -/
def erode (F : Type) [FloatOps F] (P : Profile) (input : Image UInt8) (radius : Nat) :
    Res (Image UInt8) := do
  checkGrayscale input
  let maxSum : F ← morphMaxSum P radius
  let f : Image F ← imageU8ToFloat P input
  let table ← generateSummedAreaTable P f
  morphScan P input radius table (isFull maxSum)

/-- src/morphology.rs:49-83 `dilate` -/
def dilate (F : Type) [FloatOps F] (P : Profile) (input : Image UInt8) (radius : Nat) :
    Res (Image UInt8) := do
  checkGrayscale input
  let f : Image F ← imageU8ToFloat P input
  let table ← generateSummedAreaTable P f
  morphScan P input radius table (fun s => s >=. num 255)

/-- src/morphology.rs:87-121 `majority` -/
def majority (F : Type) [FloatOps F] (P : Profile) (input : Image UInt8) (radius : Nat) :
    Res (Image UInt8) := do
  checkGrayscale input
  let f : Image F ← imageU8ToFloat P input
  let table ← generateSummedAreaTable P f
  morphScan P input radius table (fun s => s >=. num 255)

/-- src/morphology.rs:124-126 `open` -/
def morphOpen (F : Type) [FloatOps F] (P : Profile) (input : Image UInt8) (radius : Nat) :
    Res (Image UInt8) := do
  let e ← erode F P input radius
  dilate F P e radius

/-- src/morphology.rs:129-131 `close` -/
def morphClose (F : Type) [FloatOps F] (P : Profile) (input : Image UInt8) (radius : Nat) :
    Res (Image UInt8) := do
  let d ← dilate F P input radius
  erode F P d radius

/-- src/morphology.rs:135-175 `gradient` -/
def gradient (F : Type) [FloatOps F] (P : Profile) (input : Image UInt8) (radius : Nat) :
    Res (Image UInt8) := do
  checkGrayscale input
  let maxSum : F ← morphMaxSum P radius
  let f : Image F ← imageU8ToFloat P input
  let table ← generateSummedAreaTable P f
  morphScan P input radius table (fun s => xor (isFull maxSum s) (s >=. num 255))
end Imgproc

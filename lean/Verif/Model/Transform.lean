import Verif.Model.Util
import Verif.Model.Par
/-! Model of src/transform.rs. Functions with suffix `Par` are the `rayon` feature's versions and
take the schedule `order` as their first argument. -/
namespace Imgproc
open FloatOps

/-- src/enums.rs:26-38 `Scale` -/
inductive Scale where
  | nearestNeighbor | bilinear | bicubic | lanczos
deriving DecidableEq, Repr

/-- src/enums.rs:41-47 `Refl` -/
inductive Refl where
  | vertical | horizontal
deriving DecidableEq, Repr

section
variable {T : Type}

/-- argument checks of `crop`: src/transform.rs:17-23, 40-46. The sum is also evaluated in the error
message, with the same outcome. -/
def cropCheck (P : Profile) (input : Image T) (x y width height : Nat) : Res Unit := do
  let xw ← u32Add P x width
  if xw ≥ input.info.width then invalidArg
  else
    let yh ← u32Add P y height
    if yh ≥ input.info.height then invalidArg else .ok ()

/-- src/transform.rs:15-34 `crop` (sequential) -/
def crop (P : Profile) (N : RNum T) (input : Image T) (x y width height : Nat) : Res (Image T) := do
  cropCheck P input x y width height
  let output ← Image.blank P N ⟨width, height, input.info.channels, input.info.alpha⟩
  forRange 0 height output fun j output =>
    forRange 0 width output fun i output => do
      let ix ← u32Add P i x
      let jy ← u32Add P j y
      let p ← input.getPixel P ix jy
      output.setPixel P i j p

/-- src/transform.rs:39-58 `crop` (rayon) -/
def cropPar (order : List Nat) (P : Profile) (input : Image T) (x y width height : Nat) :
    Res (Image T) := do
  cropCheck P input x y width height
  let size ← u32Mul P width height
  let data ← parCollect order size fun i => do
    let ab ← get2dCoords P i width
    let ax ← u32Add P ab.1 x
    let by' ← u32Add P ab.2 y
    input.getPixel P ax by'
  Image.fromVecOfSlice P width height input.info.channels input.info.alpha data

/-- src/transform.rs:89-103 `overlay` -/
def overlay (P : Profile) (back front : Image T) (x y : Nat) : Res (Image T) := do
  checkEqual back.info.channels front.info.channels
  let xw ← u32Add P x front.info.width
  let width := min xw back.info.width
  let yh ← u32Add P y front.info.height
  let height := min yh back.info.height
  forRange y height back fun j output =>
    forRange x width output fun i output => do
      let ix ← u32Sub P i x
      let jy ← u32Sub P j y
      let p ← front.getPixel P ix jy
      output.setPixel P i j p

/-- src/transform.rs:197-207 `translate` -/
def translate (P : Profile) (N : RNum T) (input : Image T) (x y : Nat) : Res (Image T) := do
  let output ← Image.blank P N input.info
  forRange y output.info.height output fun j output =>
    forRange x output.info.width output fun i output => do
      let ix ← u32Sub P i x
      let jy ← u32Sub P j y
      let p ← input.getPixel P ix jy
      output.setPixel P i j p

/-- src/transform.rs:262-284 `reflect` -/
def reflect (P : Profile) (N : RNum T) (input : Image T) (axis : Refl) : Res (Image T) := do
  let output ← Image.blank P N input.info
  let width := output.info.width
  let height := output.info.height
  match axis with
  | .horizontal =>
    forRange 0 height output fun y output =>
      forRange 0 width output fun x output => do
        let a ← u32Sub P height y
        let b ← u32Sub P a 1
        let p ← input.getPixel P x b
        output.setPixel P x y p
  | .vertical =>
    forRange 0 height output fun y output =>
      forRange 0 width output fun x output => do
        let a ← u32Sub P width x
        let b ← u32Sub P a 1
        let p ← input.getPixel P b y
        output.setPixel P x y p
end

section
variable {F : Type} [FloatOps F]

/-- src/transform.rs:63-85 `superimpose`. Note the argument order of the range check: it tests the
literal 0.0 against the interval [1.0, alpha]. -/
def superimpose (P : Profile) (back front : Image F) (x y : Nat) (alpha : F) : Res (Image F) := do
  checkEqual back.info.channels front.info.channels
  checkInRange (FloatOps.rnum (F := F)) (num 0) (num 1) alpha
  let xw ← u32Add P x front.info.width
  let width := min xw back.info.width
  let yh ← u32Add P y front.info.height
  let height := min yh back.info.height
  forRange y height back fun j output =>
    forRange x width output fun i output => do
      let pBack ← back.getPixel P i j
      let ix ← u32Sub P i x
      let jy ← u32Sub P j y
      let pFront ← front.getPixel P ix jy
      let pIn ← forRange 0 output.info.channels [] fun k pIn => do
        let b ← idx pBack k
        let f ← idx pFront k
        .ok (pIn ++ [alpha *. b +. (num 1 -. alpha) *. f])
      output.setPixel P i j pIn

/-- src/transform.rs:429-434 `interpolate_nearest_neighbor` -/
def interpolateNearestNeighbor (P : Profile) (input : Image F) (xf yf : F) (x y : Nat) :
    Res (List F) := do
  let x1 ← u32Add P x 1
  let xIn := toU32 (FloatOps.ceil (ofNat (F := F) x1 /. xf) -. num 1)
  let y1 ← u32Add P y 1
  let yIn := toU32 (FloatOps.ceil (ofNat (F := F) y1 /. yf) -. num 1)
  input.getPixel P xIn yIn

/-- src/transform.rs:436-460 `interpolate_bilinear` -/
def interpolateBilinear (P : Profile) (input : Image F) (xf yf : F) (x y : Nat) :
    Res (List F) := do
  let xIn := ofNat (F := F) x /. xf
  let yIn := ofNat (F := F) y /. yf
  let x1 := toU32 (FloatOps.floor xIn)
  let w1 ← u32Sub P input.info.width 1
  let x2 := min (toU32 (FloatOps.ceil xIn)) w1
  let y1 := toU32 (FloatOps.floor yIn)
  let h1 ← u32Sub P input.info.height 1
  let y2 := min (toU32 (FloatOps.ceil yIn)) h1
  let xWeight := xIn -. ofNat (F := F) x1
  let yWeight := yIn -. ofNat (F := F) y1
  let p1 ← input.getPixel P x1 y1
  let p2 ← input.getPixel P x2 y1
  let p3 ← input.getPixel P x1 y2
  let p4 ← input.getPixel P x2 y2
  forRange 0 input.info.channels [] fun c pOut => do
    let a1 ← idx p1 c
    let a2 ← idx p2 c
    let a3 ← idx p3 c
    let a4 ← idx p4 c
    .ok (pOut ++ [a1 *. xWeight *. yWeight
      +. a2 *. (num 1 -. xWeight) *. yWeight
      +. a3 *. xWeight *. (num 1 -. yWeight)
      +. a4 *. (num 1 -. xWeight) *. (num 1 -. yWeight)])

/-- `for c in 0..channels { p_out[c] += p_in[c] * r; }` : src/transform.rs:478-480, 503-505 -/
def accumPixel (channels : Nat) (pIn : List F) (r : F) (pOut : List F) : Res (List F) :=
  forRange 0 channels pOut fun c pOut => do
    let o ← idx pOut c
    let v ← idx pIn c
    setIdx pOut c (o +. v *. r)

/-- src/transform.rs:462-485 `interpolate_bicubic` -/
def interpolateBicubic (P : Profile) (input : Image F) (xf yf : F) (x y : Nat) :
    Res (List F) := do
  let xIn := ofNat (F := F) x /. xf
  let yIn := ofNat (F := F) y /. yf
  let deltaX := xIn -. FloatOps.floor xIn
  let deltaY := yIn -. FloatOps.floor yIn
  forRangeI (-1) 3 (List.replicate input.info.channels (num 0)) fun m pOut => do
    let xc ← FloatOps.clamp (xIn +. FloatOps.ofInt m) (num 0) (ofNat (F := F) input.info.width -. num 1)
    let xClamp := toU32 xc
    forRangeI (-1) 3 pOut fun n pOut => do
      let yc ← FloatOps.clamp (yIn +. FloatOps.ofInt n) (num 0) (ofNat (F := F) input.info.height -. num 1)
      let yClamp := toU32 yc
      let pIn ← input.getPixelUnchecked P xClamp yClamp
      let r := cubicWeightingFn (FloatOps.ofInt m -. deltaX) *. cubicWeightingFn (deltaY -. FloatOps.ofInt n)
      accumPixel input.info.channels pIn r pOut

/-- src/transform.rs:487-510 `interpolate_lanczos` -/
def interpolateLanczos (P : Profile) (input : Image F) (xf yf : F) (size x y : Nat) :
    Res (List F) := do
  let xIn := ofNat (F := F) x /. xf
  let yIn := ofNat (F := F) y /. yf
  let deltaX := xIn -. FloatOps.floor xIn
  let deltaY := yIn -. FloatOps.floor yIn
  let lo ← i32Sub P 1 (Imgproc.toI32 size)
  let hi ← i32Add P (Imgproc.toI32 size) 1
  forRangeI lo hi (List.replicate input.info.channels (num 0)) fun i pOut => do
    let xc ← FloatOps.clamp (xIn +. FloatOps.ofInt i) (num 0) (ofNat (F := F) input.info.width -. num 1)
    let xClamp := toU32 xc
    forRangeI lo hi pOut fun j pOut => do
      let yc ← FloatOps.clamp (yIn +. FloatOps.ofInt j) (num 0) (ofNat (F := F) input.info.height -. num 1)
      let yClamp := toU32 yc
      let pIn ← input.getPixelUnchecked P xClamp yClamp
      let lz := lanczosKernel (deltaX -. FloatOps.ofInt i) (ofNat (F := F) size)
        *. lanczosKernel (deltaY -. FloatOps.ofInt j) (ofNat (F := F) size)
      accumPixel input.info.channels pIn lz pOut

/-- the interpolation used by each method: src/transform.rs:122-135, 150-161 -/
def interpolate (P : Profile) (input : Image F) (xf yf : F) (method : Scale) (x y : Nat) : Res (List F) :=
  match method with
  | .nearestNeighbor => interpolateNearestNeighbor P input xf yf x y
  | .bilinear => interpolateBilinear P input xf yf x y
  | .bicubic => interpolateBicubic P input xf yf x y
  | .lanczos => interpolateLanczos P input xf yf 3 x y

/-- the four sequential `scale_*` loops, identical up to the interpolation:
src/transform.rs:325-332, 351-358, 377-384, 403-410 -/
def scaleLoop (P : Profile) (output : Image F) (interp : Nat → Nat → Res (List F)) : Res (Image F) :=
  forRange 0 output.info.height output fun y output =>
    forRange 0 output.info.width output fun x output => do
      let p ← interp x y
      output.setPixel P x y p

/-- the four rayon `scale_*` functions, identical up to the interpolation and to borrowing slices or
owning vectors: src/transform.rs:335-348, 361-374, 387-400, 413-427 -/
def scaleLoopPar (order : List Nat) (P : Profile) (info : ImageInfo)
    (interp : Nat → Nat → Res (List F)) : Res (Image F) := do
  let size ← info.size P
  let data ← parCollect order size fun i => do
    let xy ← get2dCoords P i info.width
    interp xy.1 xy.2
  Image.fromVecOfVec P info.width info.height info.channels info.alpha data

/-- output size computation: src/transform.rs:116-117, 144-145, 172-173, 187-188 -/
def scaleDim (n : Nat) (f : F) : Nat := toU32 (FloatOps.round (ofNat (F := F) n *. f))

/-- src/transform.rs:112-137 `scale` (sequential) -/
def scale (P : Profile) (input : Image F) (xf yf : F) (method : Scale) : Res (Image F) := do
  checkNonNeg (FloatOps.rnum (F := F)) xf
  checkNonNeg (FloatOps.rnum (F := F)) yf
  let output ← Image.blank P FloatOps.rnum
    ⟨scaleDim input.info.width xf, scaleDim input.info.height yf, input.info.channels, input.info.alpha⟩
  scaleLoop P output (interpolate P input xf yf method)

/-- src/transform.rs:141-163 `scale` (rayon) -/
def scalePar (order : List Nat) (P : Profile) (input : Image F) (xf yf : F) (method : Scale) :
    Res (Image F) := do
  checkNonNeg (FloatOps.rnum (F := F)) xf
  checkNonNeg (FloatOps.rnum (F := F)) yf
  scaleLoopPar order P
    ⟨scaleDim input.info.width xf, scaleDim input.info.height yf, input.info.channels, input.info.alpha⟩
    (interpolate P input xf yf method)

/-- src/transform.rs:167-179 `scale_lanczos` (sequential) -/
def scaleLanczos (P : Profile) (input : Image F) (xf yf : F) (size : Nat) : Res (Image F) := do
  checkNonNeg (FloatOps.rnum (F := F)) xf
  checkNonNeg (FloatOps.rnum (F := F)) yf
  checkNonNeg u32Num size
  let output ← Image.blank P FloatOps.rnum
    ⟨scaleDim input.info.width xf, scaleDim input.info.height yf, input.info.channels, input.info.alpha⟩
  scaleLoop P output (interpolateLanczos P input xf yf size)

/-- src/transform.rs:183-193 `scale_lanczos` (rayon) -/
def scaleLanczosPar (order : List Nat) (P : Profile) (input : Image F) (xf yf : F) (size : Nat) :
    Res (Image F) := do
  checkNonNeg (FloatOps.rnum (F := F)) xf
  checkNonNeg (FloatOps.rnum (F := F)) yf
  checkNonNeg u32Num size
  scaleLoopPar order P
    ⟨scaleDim input.info.width xf, scaleDim input.info.height yf, input.info.channels, input.info.alpha⟩
    (interpolateLanczos P input xf yf size)

/-- src/transform.rs:210-259 `rotate` -/
def rotate (P : Profile) (input : Image F) (degrees : F) : Res (Image F) := do
  let wIn := input.info.width
  let hIn := input.info.height
  let rad := FloatOps.toRadians degrees
  let sin := FloatOps.sin rad
  let cos := FloatOps.cos rad
  let x := wIn / 2
  let y := hIn / 2
  let mat := [cos, FloatOps.neg sin, sin, cos]
  let N := FloatOps.rnum (F := F)
  let xF : F := ofNat x
  let yF : F := ofNat y
  let hF : F := ofNat hIn
  let wx ← u32Sub P wIn x
  let c1 ← vectorMul P N mat [FloatOps.neg xF, yF]
  let c2 ← vectorMul P N mat [ofNat wx, yF]
  let c3 ← vectorMul P N mat [FloatOps.neg xF, yF -. hF]
  let c4 ← vectorMul P N mat [ofNat wx, yF -. hF]
  let x1 ← idx c1 0
  let x2 ← idx c2 0
  let x3 ← idx c3 0
  let x4 ← idx c4 0
  let y1 ← idx c1 1
  let y2 ← idx c2 1
  let y3 ← idx c3 1
  let y4 ← idx c4 1
  let xMax := max4 x1 x2 x3 x4
  let xMin := min4 x1 x2 x3 x4
  let yMax := max4 y1 y2 y3 y4
  let yMin := min4 y1 y2 y3 y4
  let wOut := toU32 (xMax -. xMin)
  let hOut := toU32 (yMax -. yMin)
  let output ← Image.blank P N ⟨wOut, hOut, input.info.channels, input.info.alpha⟩
  forRange 0 hIn output fun j output =>
    forRange 0 wIn output fun i output => do
      let x1 := ofNat (F := F) i -. xF
      let y1 := yF -. ofNat (F := F) j
      let coords ← vectorMulMut P N mat [x1, y1] []
      let a ← idx coords 0
      let cx := a +. (xMax -. num 1)
      let b ← idx coords 1
      let cy := yMax -. b -. num 1
      let p ← input.getPixel P i j
      let output ← output.setPixel P (toU32 cx) (toU32 cy) p
      if cx >=. num 1 then
        let xm ← u32Sub P (toU32 cx) 1
        let p ← input.getPixel P i j
        output.setPixel P xm (toU32 cy) p
      else .ok output

/-- src/transform.rs:287-318 `shear` -/
def shear (P : Profile) (input : Image F) (shearX shearY : F) : Res (Image F) := do
  let wIn := input.info.width
  let hIn := input.info.height
  let offsetX := FloatOps.abs (ofNat (F := F) hIn *. shearX)
  let offsetY := FloatOps.abs (ofNat (F := F) wIn *. shearY)
  let wOut ← u32Add P wIn (toU32 offsetX)
  let hOut ← u32Add P (toU32 offsetY) hIn
  let N := FloatOps.rnum (F := F)
  let output ← Image.blank P N ⟨wOut, hOut, input.info.channels, input.info.alpha⟩
  let mat := [num 1, FloatOps.neg shearX, FloatOps.neg shearY, num 1]
  forRange 0 hIn output fun y output =>
    forRange 0 wIn output fun x output => do
      let coords ← vectorMulMut P N mat [ofNat x, ofNat y] []
      let a ← idx coords 0
      let cx := if shearX >. num 0 then a +. offsetX else a
      let b ← idx coords 1
      let cy := if shearY >. num 0 then b +. offsetY else b
      let p ← input.getPixel P x y
      output.setPixel P (toU32 cx) (toU32 cy) p
end
end Imgproc

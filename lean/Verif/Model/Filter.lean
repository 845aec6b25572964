import Verif.Model.Tone
import Verif.Model.Transform
/-! Model of src/filter/mod.rs, src/filter/edge.rs and src/filter/bilateral.rs.
Functions with suffix `Par` are the rayon versions (schedule first). -/
namespace Imgproc
open FloatOps

/-- src/enums.rs:10-25 `Thresh` -/
inductive Thresh where
  | binary | binaryInv | trunc | toZero | toZeroInv
deriving DecidableEq, Repr

section
variable {F : Type} [FloatOps F]

/-- src/filter/mod.rs:27-43 `filter_1d` (sequential) -/
def filter1d (P : Profile) (input : Image F) (kernel : List F) (isVert : Bool) : Res (Image F) := do
  checkOdd usizeNum kernel.length
  let output ← Image.blank P FloatOps.rnum input.info
  forRange 0 input.info.height output fun y output =>
    forRange 0 input.info.width output fun x output => do
      let nb ← input.getNeighborhood1d P x y (usizeToU32 kernel.length) isVert
      let p ← apply1dKernel P nb kernel
      output.setPixel P x y p

/-- src/filter/mod.rs:48-62 `filter_1d` (rayon); `apply_1d_kernel(..).unwrap()` inside the task -/
def filter1dPar (order : List Nat) (P : Profile) (input : Image F) (kernel : List F) (isVert : Bool) :
    Res (Image F) := do
  checkOdd usizeNum kernel.length
  let n ← input.info.size P
  let data ← parCollect order n fun i => do
    let xy ← get2dCoords P i input.info.width
    let nb ← input.getNeighborhood1d P xy.1 xy.2 (usizeToU32 kernel.length) isVert
    unwrapRes (apply1dKernel P nb kernel)
  Image.fromVecOfVec P input.info.width input.info.height input.info.channels input.info.alpha data

/-- src/filter/mod.rs:65-72 `separable_filter` -/
def separableFilter (P : Profile) (input : Image F) (vert horz : List F) : Res (Image F) := do
  checkOdd usizeNum vert.length
  checkOdd usizeNum horz.length
  checkEqual vert.length horz.length
  let vertical ← filter1d P input vert true
  filter1d P vertical horz false

/-- src/filter/mod.rs:65-72 `separable_filter` built with rayon -/
def separableFilterPar (o1 o2 : List Nat) (P : Profile) (input : Image F) (vert horz : List F) :
    Res (Image F) := do
  checkOdd usizeNum vert.length
  checkOdd usizeNum horz.length
  checkEqual vert.length horz.length
  let vertical ← filter1dPar o1 P input vert true
  filter1dPar o2 P vertical horz false

/-- src/filter/mod.rs:76-94 `unseparable_filter` (sequential) -/
def unseparableFilter (P : Profile) (input : Image F) (kernel : List F) : Res (Image F) := do
  checkOdd usizeNum kernel.length
  FloatOps.checkSquare (ofNat (F := F) kernel.length)
  let size := toU32 (FloatOps.sqrt (ofNat (F := F) kernel.length))
  let output ← Image.blank P FloatOps.rnum input.info
  forRange 0 input.info.height output fun y output =>
    forRange 0 input.info.width output fun x output => do
      let nb ← input.getNeighborhood2d P x y size
      let p ← apply2dKernel P nb kernel
      output.setPixel P x y p

/-- src/filter/mod.rs:98-113 `unseparable_filter` (rayon) -/
def unseparableFilterPar (order : List Nat) (P : Profile) (input : Image F) (kernel : List F) :
    Res (Image F) := do
  checkOdd usizeNum kernel.length
  FloatOps.checkSquare (ofNat (F := F) kernel.length)
  let size := toU32 (FloatOps.sqrt (ofNat (F := F) kernel.length))
  let n ← input.info.size P
  let data ← parCollect order n fun i => do
    let xy ← get2dCoords P i input.info.width
    let nb ← input.getNeighborhood2d P xy.1 xy.2 size
    unwrapRes (apply2dKernel P nb kernel)
  Image.fromVecOfVec P input.info.width input.info.height input.info.channels input.info.alpha data

/-- src/filter/mod.rs:116-125 `linear_filter` -/
def linearFilter (svd : Svd F) (P : Profile) (input : Image F) (kernel : List F) : Res (Image F) := do
  checkOdd usizeNum kernel.length
  FloatOps.checkSquare (ofNat (F := F) kernel.length)
  let sep ← separateKernel svd kernel
  match sep with
  | some (vert, horz) => separableFilter P input vert horz
  | none => unseparableFilter P input kernel

/-- src/filter/mod.rs:132-139 `box_filter` -/
def boxFilter (P : Profile) (input : Image F) (size : Nat) : Res (Image F) := do
  checkOdd u32Num size
  let len ← u32Mul P size size
  let kernel := List.replicate len ((num 1 : F) /. ofNat len)
  separableFilter P input kernel kernel

/-- src/filter/mod.rs:145-148: the kernel of `weighted_avg_filter` -/
def weightedAvgKernel (P : Profile) (size weight : Nat) : Res (List F) := do
  let s2 ← u32Mul P size size
  let s1 ← u32Sub P s2 1
  let sum ← u32Add P s1 weight
  let c1 ← u32Mul P (size / 2) size
  let center ← u32Add P c1 (size / 2)
  let len ← u32Mul P size size
  setIdx (List.replicate len ((num 1 : F) /. ofNat sum)) center (ofNat weight /. ofNat sum)

/-- src/filter/mod.rs:142-151 `weighted_avg_filter` -/
def weightedAvgFilter (P : Profile) (input : Image F) (size weight : Nat) : Res (Image F) := do
  checkOdd u32Num size
  let kernel ← weightedAvgKernel P size weight
  unseparableFilter P input kernel

/-- src/filter/mod.rs:154-157 `gaussian_blur` -/
def gaussianBlur (svd : Svd F) (P : Profile) (input : Image F) (size : Nat) (sigma : F) : Res (Image F) := do
  let kernel ← generateGaussianKernel P size sigma
  linearFilter svd P input kernel

/-- src/filter/mod.rs:164-166 `sharpen` -/
def sharpen (P : Profile) (input : Image F) : Res (Image F) := unseparableFilter P input K_SHARPEN

/-- src/filter/mod.rs:169-171 `unsharp_masking` -/
def unsharpMasking (P : Profile) (input : Image F) : Res (Image F) :=
  unseparableFilter P input K_UNSHARP_MASKING

/-- src/filter/mod.rs:178-228 `threshold` -/
def threshold (P : Profile) (input : Image F) (thr max : F) (method : Thresh) : Res (Image F) := do
  checkGrayscale input
  match method with
  | .binary => input.mapChannelsIfAlpha P (fun c => .ok (if c >. thr then max else num 0)) (fun a => .ok a)
  | .binaryInv => input.mapChannelsIfAlpha P (fun c => .ok (if c >. thr then num 0 else max)) (fun a => .ok a)
  | .trunc => input.mapChannelsIfAlpha P (fun c => .ok (if c >. thr then thr else c)) (fun a => .ok a)
  | .toZero => input.mapChannelsIfAlpha P (fun c => .ok (if c >. thr then c else num 0)) (fun a => .ok a)
  | .toZeroInv => input.mapChannelsIfAlpha P (fun c => .ok (if c >. thr then num 0 else c)) (fun a => .ok a)
end

/-- src/filter/mod.rs:235-253 `residual` -/
def residual {T : Type} (P : Profile) (N : RNum T) (original filtered : Image T) : Res (Image T) := do
  checkEqual original.info filtered.info
  let data ← forRange 0 original.info.height [] fun y data =>
    forRange 0 original.info.width data fun x data => do
      let p1 ← original.getPixel P x y
      let p2 ← filtered.getPixel P x y
      forRange 0 original.info.channels data fun c data => do
        let a ← idx p1 c
        let b ← idx p2 c
        let d ← N.sub P a b
        .ok (data ++ [d])
  .ok (Image.fromSlice original.info.width original.info.height original.info.channels original.info.alpha data)

section
variable {F : Type} [FloatOps F]
/-! ### src/filter/edge.rs -/

/-- src/filter/edge.rs:11-24 `derivative_mask` -/
def derivativeMask (P : Profile) (input : Image F) (vert horz : List F) : Res (Image F) := do
  checkGrayscale input
  let imgX ← separableFilter P input vert horz
  let imgY ← separableFilter P input horz vert
  let output ← Image.blank P FloatOps.rnum input.info
  let n ← output.info.fullSize P
  forRange 0 n output fun i output => do
    let px ← imgX.at' P i
    let gx ← idx px 0
    let py ← imgY.at' P i
    let gy ← idx py 0
    output.setPixelIndexed P i
      [FloatOps.sqrt (FloatOps.pow gx (num 2) +. FloatOps.pow gy (num 2))]

/-- src/filter/edge.rs:27-29 `prewitt` -/
def prewitt (P : Profile) (input : Image F) : Res (Image F) :=
  derivativeMask P input K_PREWITT_1D_VERT K_PREWITT_1D_HORZ

/-- src/filter/edge.rs:32-34 `sobel` -/
def sobel (P : Profile) (input : Image F) : Res (Image F) :=
  derivativeMask P input K_SOBEL_1D_VERT K_SOBEL_1D_HORZ

/-- src/filter/edge.rs:37-40 `sobel_weighted` -/
def sobelWeighted (P : Profile) (input : Image F) (weight : Nat) : Res (Image F) :=
  derivativeMask P input [num 1, ofNat weight, num 1] K_SOBEL_1D_HORZ

/-- src/filter/edge.rs:44-46 `laplacian` -/
def laplacian (P : Profile) (input : Image F) : Res (Image F) := unseparableFilter P input K_LAPLACIAN

/-- src/filter/edge.rs:51-54 `laplacian_of_gaussian` -/
def laplacianOfGaussian (P : Profile) (input : Image F) (size : Nat) (sigma : F) : Res (Image F) := do
  let kernel ← generateLogKernel P size sigma
  unseparableFilter P input kernel

/-- `x.partial_cmp(y).unwrap()`: panics when either is NaN -/
def partialCmpUnwrap (x y : F) : Res Ordering :=
  if x <. y then .ok .lt
  else if x ==. y then .ok .eq
  else if x >. y then .ok .gt
  else panic .unwrap

/-- `iter().min_by(cmp).unwrap()`: std folds left to right keeping the first minimum
(on `Greater` the new element replaces the accumulator) -/
def minByUnwrap : List F → Res F
  | [] => panic .unwrap
  | a :: l => forList l a fun y acc => do
    let o ← partialCmpUnwrap acc y
    .ok (if o = .gt then y else acc)

/-- `iter().max_by(cmp).unwrap()`: the last maximum (on `Greater` the accumulator stays) -/
def maxByUnwrap : List F → Res F
  | [] => panic .unwrap
  | a :: l => forList l a fun y acc => do
    let o ← partialCmpUnwrap acc y
    .ok (if o = .gt then acc else y)

/-- src/filter/edge.rs:57-64 `normalize_laplacian` -/
def normalizeLaplacian (P : Profile) (input : Image F) : Res (Image UInt8) := do
  checkGrayscale input
  let min ← minByUnwrap input.data
  let max ← maxByUnwrap input.data
  let scaled ← scaleChannels P input min (num 0) max (num 255)
  imageFloatToU8 P scaled

/-! ### src/filter/bilateral.rs -/

/-- src/filter/bilateral.rs:68-87 and 90-111 `bilateral_direct_pixel` -/
def bilateralDirectPixel (P : Profile) (input : Image F) (range : F) (spatialMat : List F)
    (size x y : Nat) : Res (List F) := do
  let pn ← input.getNeighborhood2d P x y size
  let pIn ← input.getPixel P x y
  forEnum pIn 0 [] fun c channel out => do
    let n ← u32Mul P size size
    let (pCurr, total) ← forRange 0 n ((num 0 : F), (num 0 : F)) fun i acc => do
      let q ← pn.index i
      let v ← idx q c
      let gr ← unwrapRes (gaussianFn (FloatOps.abs (channel -. v)) range)
      let sm ← idx spatialMat i
      let weight := sm *. gr
      .ok (acc.1 +. weight *. v, acc.2 +. weight)
    .ok (out ++ [pCurr /. total])

/-- `((spatial * 4.0) + 1.0) as u32` src/filter/bilateral.rs:17, 46 -/
def bilateralSize (spatial : F) : Nat := toU32 ((spatial *. num 4) +. num 1)

/-- src/filter/bilateral.rs:11-36 `bilateral_filter` (sequential) -/
def bilateralFilter (P : Profile) (input : Image UInt8) (range spatial : F) : Res (Image UInt8) := do
  checkNonNeg (FloatOps.rnum (F := F)) range
  checkNonNeg (FloatOps.rnum (F := F)) spatial
  let size := bilateralSize spatial
  let mat ← generateSpatialMat P size spatial
  let lab : Image F ← srgbToLab P input .d65
  let output ← Image.blank P FloatOps.rnum lab.info
  let output ← forRange 0 input.info.height output fun y output =>
    forRange 0 input.info.width output fun x output => do
      let p ← bilateralDirectPixel P lab range mat size x y
      output.setPixel P x y p
  labToSrgb P output .d65

/-- src/filter/bilateral.rs:40-65 `bilateral_filter` (rayon) -/
def bilateralFilterPar (order : List Nat) (P : Profile) (input : Image UInt8) (range spatial : F) :
    Res (Image UInt8) := do
  checkNonNeg (FloatOps.rnum (F := F)) range
  checkNonNeg (FloatOps.rnum (F := F)) spatial
  let size := bilateralSize spatial
  let mat ← generateSpatialMat P size spatial
  let lab : Image F ← srgbToLab P input .d65
  let n ← input.info.size P
  let data ← parCollect order n fun i => do
    let xy ← get2dCoords P i input.info.width
    bilateralDirectPixel P lab range mat size xy.1 xy.2
  let output ← Image.fromVecOfVec P input.info.width input.info.height input.info.channels input.info.alpha data
  labToSrgb P output .d65
end
end Imgproc

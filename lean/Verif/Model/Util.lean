import Verif.Model.Math
/-! Model of src/util/mod.rs, src/util/constants.rs and the relevant src/enums.rs -/
namespace Imgproc
open FloatOps

/-- src/enums.rs:4-7 `White` -/
inductive White where
  | d50 | d65
deriving DecidableEq, Repr

/-- src/util/mod.rs:229-234 `get_2d_coords` -/
def get2dCoords (P : Profile) (i width : Nat) : Res (Nat × Nat) := do
  let x ← natMod i width
  let d ← u32Sub P i x
  let y ← natDiv d width
  .ok (x, y)

/-- src/util/mod.rs:58-63 `generate_lookup_table` (`table` is a `[T; 256]`) -/
def generateLookupTable {T : Type} (table : List T) (f : UInt8 → Res T) : Res (List T) :=
  forRange 0 table.length table fun i table => do
    let v ← f (UInt8.ofNat i)
    setIdx table i v

section
variable {F : Type} [FloatOps F]

/-- src/util/mod.rs:22-27 `xyz_tristimulus_vals` -/
def xyzTristimulusVals : White → F × F × F
  | .d50 => (lit 96.4212, num 100, lit 82.5188)
  | .d65 => (lit 95.0489, num 100, lit 108.8840)

/-- `histogram.entry(p).or_insert(1); *count += 1` on a BTreeMap kept as a key-sorted list:
src/util/mod.rs:44-45 -/
def histBump (P : Profile) (key : Int) : List (Int × Int) → Res (List (Int × Int))
  | [] => do
    let c ← i32Add P 1 1
    .ok [(key, c)]
  | (k, c) :: rest =>
    if key < k then do
      let n ← i32Add P 1 1
      .ok ((key, n) :: (k, c) :: rest)
    else if key = k then do
      let n ← i32Add P c 1
      .ok ((k, n) :: rest)
    else do
      let r ← histBump P key rest
      .ok ((k, c) :: r)

/-- the intensity key of a channel value: src/util/mod.rs:43, src/tone.rs:146 -/
def histKey (num' precision : F) : Int := FloatOps.toI32 (FloatOps.round (num' *. precision))

/-- src/util/mod.rs:38-55 `generate_histogram_percentiles`. The HashMap is an association list in
which the most recent insertion wins. -/
def generateHistogramPercentiles (P : Profile) (input : Image F) (percentiles : List (Int × F))
    (precision : F) : Res (List (Int × F)) := do
  let hist ← forRange 0 input.info.height [] fun y hist =>
    forRange 0 input.info.width hist fun x hist => do
      let p ← input.getPixel P x y
      let v ← idx p 0
      histBump P (histKey v precision) hist
  let n ← input.info.size P
  let numPixels : F := ofNat n
  let r ← forList hist ((0 : Int), percentiles) fun kv s => do
    let sum ← i32Add P s.1 kv.2
    .ok (sum, (kv.1, FloatOps.ofInt sum /. numPixels) :: s.2)
  .ok r.2

/-- HashMap `get` on the association list -/
def assocGet (m : List (Int × F)) (k : Int) : Option F := (m.find? (fun kv => kv.1 == k)).map (·.2)

/-- `filter[(i * size as i32 + j) as usize] = num` : src/util/mod.rs:77, 80 -/
def kernelSet (P : Profile) (filter : List F) (i j : Int) (size : Nat) (v : F) : Res (List F) := do
  let a ← i32Mul P i (Imgproc.toI32 size)
  let k ← i32Add P a j
  -- `as usize` of a negative i32 would sign-extend and be out of range
  if k < 0 then panic .index else setIdx filter k.toNat v

/-- `(i - k) * (i - k) + (j - k) * (j - k)` : src/util/mod.rs:76, 100 -/
def kernelDist2 (P : Profile) (i j k : Int) : Res Int := do
  let a ← i32Sub P i k
  let a2 ← i32Mul P a a
  let b ← i32Sub P j k
  let b2 ← i32Mul P b b
  i32Add P a2 b2

/-- loop shared by src/util/mod.rs:72-84 and 96-108 -/
def kernelFill (P : Profile) (size : Nat) (entry : Int → F) : Res (List F) := do
  let len ← u32Mul P size size
  let sm ← u32Sub P size 1
  let k := Imgproc.toI32 (sm / 2)
  forRangeI 0 (Imgproc.toI32 size) (List.replicate len (num 0)) fun i filter =>
    forRangeI 0 (Imgproc.toI32 size) filter fun j filter =>
      if i ≤ j then do
        let d ← kernelDist2 P i j k
        let v := entry d
        let filter ← kernelSet P filter i j size v
        if i ≠ j then kernelSet P filter j i size v else .ok filter
      else .ok filter

/-- entry formula of src/util/mod.rs:75-76 -/
def gaussianEntry (sigma : F) (d : Int) : F :=
  (num 1 /. (num 2 *. FloatOps.pi *. sigma *. sigma)) *.
    (FloatOps.pow FloatOps.e (FloatOps.neg (FloatOps.ofInt d) /. (num 2 *. sigma *. sigma)))

/-- entry formula of src/util/mod.rs:100-101 -/
def logEntry (sigma : F) (d : Int) : F :=
  let exp := FloatOps.neg (FloatOps.ofInt d) /. (num 2 *. sigma *. sigma)
  (num (-1) /. (FloatOps.pi *. FloatOps.pow sigma (num 4))) *. (num 1 -. exp) *. (FloatOps.pow FloatOps.e exp)

/-- src/util/mod.rs:66-87 `generate_gaussian_kernel` -/
def generateGaussianKernel (P : Profile) (size : Nat) (sigma : F) : Res (List F) := do
  checkOdd u32Num size
  kernelFill P size (gaussianEntry sigma)

/-- src/util/mod.rs:90-111 `generate_log_kernel` -/
def generateLogKernel (P : Profile) (size : Nat) (sigma : F) : Res (List F) := do
  checkOdd u32Num size
  kernelFill P size (logEntry sigma)

/-- `mat[(a * size + b) as usize] = g` -/
def matSet (P : Profile) (size : Nat) (mat : List F) (a b : Nat) (g : F) : Res (List F) := do
  let t ← u32Mul P a size
  let i ← u32Add P t b
  setIdx mat i g

/-- src/util/mod.rs:114-159 `generate_spatial_mat` -/
def generateSpatialMat (P : Profile) (size : Nat) (spatial : F) : Res (List F) := do
  let center := size / 2
  let len ← u32Mul P size size
  let c1 ← u32Add P center 1
  forRange 0 c1 (List.replicate len (num 0)) fun y mat =>
    forRange 0 c1 mat fun x mat => do
      let t ← u32Mul P y size
      let i ← u32Add P t x
      let cur ← idx mat i
      if cur ==. num 0 && !(x = center && y = center) then
        let dist : F := distance center center x y
        let g ← gaussianFn dist spatial
        let mat ← matSet P size mat y x g
        if x = y then
          let delta ← u32Sub P center y
          let coord ← u32Add P center delta
          let mat ← matSet P size mat coord x g
          let mat ← matSet P size mat x coord g
          matSet P size mat coord coord g
        else if x = center then
          let delta ← u32Sub P center y
          -- `x * size + x - delta`
          let a ← u32Mul P x size
          let b ← u32Add P a x
          let k ← u32Sub P b delta
          let mat ← setIdx mat k g
          let a ← u32Mul P x size
          let b ← u32Add P a x
          let k ← u32Add P b delta
          let mat ← setIdx mat k g
          let xd ← u32Add P x delta
          matSet P size mat xd x g
        else
          let deltaX ← u32Sub P center x
          let deltaY ← u32Sub P center y
          let posX ← u32Add P center deltaX
          let posY ← u32Add P center deltaY
          let negX ← u32Sub P center deltaX
          let negY ← u32Sub P center deltaY
          let mat ← matSet P size mat negX negY g
          let mat ← matSet P size mat negY posX g
          let mat ← matSet P size mat posX negY g
          let mat ← matSet P size mat posY negX g
          let mat ← matSet P size mat negX posY g
          let mat ← matSet P size mat posY posX g
          matSet P size mat posX posY g
      else .ok mat

/-- `let mut p = zeroes; if cond { p = img.get_pixel(x, y) }` : the guarded border reads of
src/util/mod.rs:173-186 and 207-218 (the nested `if x > 0 { .. if y > 0 {..} }` is the conjunction) -/
def pixelOr (P : Profile) (img : Image F) (cond : Bool) (x y : Nat) (zeroes : List F) : Res (List F) :=
  if cond then img.getPixel P x y else .ok zeroes

/-- src/util/mod.rs:163-196 `generate_summed_area_table` -/
def generateSummedAreaTable (P : Profile) (input : Image F) : Res (Image F) := do
  let output ← Image.blank P FloatOps.rnum input.info
  let zeroes : List F := List.replicate input.info.channels (num 0)
  forRange 0 input.info.height output fun y output =>
    forRange 0 input.info.width output fun x output => do
      let pIn ← input.getPixel P x y
      let pLeft ← pixelOr P output (decide (x > 0)) (x - 1) y zeroes
      let pDiag ← pixelOr P output (decide (x > 0 ∧ y > 0)) (x - 1) (y - 1) zeroes
      let pTop ← pixelOr P output (decide (y > 0)) x (y - 1) zeroes
      let pOut ← forRange 0 input.info.channels [] fun c out => do
        let a ← idx pIn c
        let t ← idx pTop c
        let l ← idx pLeft c
        let d ← idx pDiag c
        .ok (out ++ [a +. t +. l -. d])
      output.setPixel P x y pOut

/-- src/util/mod.rs:200-226 `rectangular_intensity_sum` -/
def rectangularIntensitySum (P : Profile) (table : Image F) (x0 y0 x1 y1 : Nat) : Res (List F) := do
  let zeroes : List F := List.replicate table.info.channels (num 0)
  let botRight ← table.getPixel P x1 y1
  let botLeft ← pixelOr P table (decide (x0 ≠ 0)) (x0 - 1) y1 zeroes
  let topLeft ← pixelOr P table (decide (x0 ≠ 0 ∧ y0 ≠ 0)) (x0 - 1) (y0 - 1) zeroes
  let topRight ← pixelOr P table (decide (y0 ≠ 0)) x1 (y0 - 1) zeroes
  forRange 0 table.info.channels [] fun i sum => do
    let br ← idx botRight i
    let tr ← idx topRight i
    let bl ← idx botLeft i
    let tl ← idx topLeft i
    .ok (sum ++ [br -. tr -. bl +. tl])

/-! ### src/util/constants.rs -/

/-- src/util/constants.rs:8 `GAMMA` -/
def GAMMA : F := lit 2.2
/-- src/util/constants.rs:11-13 -/
def SRGB_TO_XYZ_MAT : List F := [lit 0.4124564, lit 0.3575761, lit 0.1804375,
  lit 0.2126729, lit 0.7151522, lit 0.0721750, lit 0.0193339, lit 0.1191920, lit 0.9503041]
/-- src/util/constants.rs:16-18 -/
def XYZ_TO_SRGB_MAT : List F := [lit 3.2404542, lit (-1.5371385), lit (-0.4985314),
  lit (-0.9692660), lit 1.8760108, lit 0.0415560, lit 0.0556434, lit (-0.2040259), lit 1.0572252]
/-- quotient constants such as `-24.0/256.0`: constant folding of an f32 division -/
def ratio (a b : Int) : F := num a /. num b
/-- src/util/constants.rs:25-27 -/
def K_GAUSSIAN_BLUR_2D_3 : List F := [1, 2, 1, 2, 4, 2, 1, 2, 1].map fun a => ratio a 16
/-- src/util/constants.rs:30 -/
def K_GAUSSIAN_BLUR_1D_3 : List F := [1, 2, 1].map fun a => ratio a 4
/-- src/util/constants.rs:33-37 -/
def K_GAUSSIAN_BLUR_2D_5 : List F := [1, 4, 6, 4, 1, 4, 16, 24, 16, 4, 6, 24, 36, 24, 6,
  4, 16, 24, 16, 4, 1, 4, 6, 4, 1].map fun a => ratio a 256
/-- src/util/constants.rs:40 -/
def K_GAUSSIAN_BLUR_1D_5 : List F := [1, 4, 6, 4, 1].map fun a => ratio a 16
/-- src/util/constants.rs:43-47 -/
def K_UNSHARP_MASKING : List F := [-1, -4, -6, -4, -1, -4, -16, -24, -16, -4, -6, -24, 476, -24, -6,
  -4, -16, -24, -16, -4, -1, -4, -6, -4, -1].map fun a => ratio a 256
/-- src/util/constants.rs:51-53 -/
def K_SHARPEN : List F := [0, -1, 0, -1, 5, -1, 0, -1, 0].map num
/-- src/util/constants.rs:56 -/
def K_SOBEL_1D_VERT : List F := [1, 2, 1].map num
/-- src/util/constants.rs:59 -/
def K_SOBEL_1D_HORZ : List F := [-1, 0, 1].map num
/-- src/util/constants.rs:62 -/
def K_PREWITT_1D_VERT : List F := [1, 1, 1].map num
/-- src/util/constants.rs:65 -/
def K_PREWITT_1D_HORZ : List F := [-1, 0, 1].map num
/-- src/util/constants.rs:68 -/
def K_LAPLACIAN : List F := [0, -1, 0, -1, 4, -1, 0, -1, 0].map num
end
end Imgproc

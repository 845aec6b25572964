import Verif.Core.Float
import Verif.Model.Image
/-! Model of src/util/math.rs -/
namespace Imgproc
open FloatOps

section
variable {T : Type}

/-- The accumulation loops shared by `vector_mul` and `vector_mul_mut`:
src/util/math.rs:17-21 and 38-42, `output[i] += mat[rows * i + j] * input[j]`. -/
def vectorMulLoops (P : Profile) (N : RNum T) (mat input output : List T) (rows : Nat) : Res (List T) :=
  forRange 0 rows output fun i output =>
    forRange 0 rows output fun j output => do
      let a ← usizeMul P rows i
      let k ← usizeAdd P a j
      let m ← idx mat k
      let v ← idx input j
      let prod ← N.mul P m v
      let o ← idx output i
      let s ← N.add P o prod
      setIdx output i s

/-- src/util/math.rs:9-24 `vector_mul` -/
def vectorMul (P : Profile) (N : RNum T) (mat input : List T) : Res (List T) := do
  let rows := input.length
  let matCols ← natDiv mat.length rows
  checkEqual matCols rows
  vectorMulLoops P N mat input (List.replicate rows (N.ofU8 0)) rows

/-- src/util/math.rs:27-45 `vector_mul_mut`: returns the new content of `output` -/
def vectorMulMut (P : Profile) (N : RNum T) (mat input output : List T) : Res (List T) := do
  let rows := input.length
  let matCols ← natDiv mat.length rows
  checkEqual matCols rows
  let _ := output
  let output ← forRange 0 rows [] fun _ o => .ok (o ++ [N.ofU8 0])
  vectorMulLoops P N mat input output rows
end

section
variable {F : Type} [FloatOps F]

/-- The external singular value decomposition (rulinalg `Matrix::svd`), a parameter of the model:
size and row-major data to row-major `(S, U, V)`; `none` is its `Err`. Its only assumed property is
stated in each theorem that uses it. -/
abbrev Svd (F : Type) := Nat → List F → Option (List F × List F × List F)

/-- `col(0)` of a row-major `size x size` matrix, scaled: src/util/math.rs:66-67
(`v.transpose().row(0)` is column 0 of `v`) -/
def col0Scaled (m : List F) (size : Nat) (scalar : F) : Res (List F) :=
  forRange 0 size [] fun i out => do
    let v ← idx m (i * size)
    .ok (out ++ [v *. scalar])

/-- src/util/math.rs:48-69 `separate_kernel`. `Matrix::new` asserts the data length. -/
def separateKernel (svd : Svd F) (kernel : List F) : Res (Option (List F × List F)) := do
  let size := toUsize (FloatOps.sqrt (ofNat (F := F) kernel.length))
  if kernel.length ≠ size * size then panic .explicit
  else match svd size kernel with
  | none => panic .unwrap
  | some (s, u, v) => do
    let s0 ← idx s 0
    if !(s0 ==. num 0) then
      let bad ← forRange 1 size false fun i bad => do
        -- early `return None` : once `bad` is set the remaining iterations do nothing
        if bad then .ok true
        else
          let d ← idx s (i * size + i)
          .ok (!(d ==. num 0))
      if bad then .ok none
      else
        let scalar := FloatOps.sqrt s0
        let vert ← col0Scaled u size scalar
        let horz ← col0Scaled v size scalar
        .ok (some (vert, horz))
    else .ok none

/-- src/util/math.rs:72-84 `max_3` -/
def max3 (x y z : F) : F :=
  if x >. y then (if x >. z then x else z)
  else if y >. z then y
  else z

/-- src/util/math.rs:87-99 `min_3` -/
def min3 (x y z : F) : F :=
  if x <. y then (if x <. z then x else z)
  else if y <. z then y
  else z

/-- src/util/math.rs:102-112 `max_4` -/
def max4 (w x y z : F) : F :=
  if w >. x then max3 w y z
  else if x >. y then max3 w x z
  else if y >. z then max3 w x y
  else max3 x y z

/-- src/util/math.rs:115-125 `min_4` -/
def min4 (w x y z : F) : F :=
  if w <. x then min3 w y z
  else if x <. y then min3 w x z
  else if y <. z then min3 w x y
  else min3 x y z

/-- Inner loop of kernel application: `for (j, val) in output.iter_mut().enumerate()
{ *val += kernel[i] * input[i][j]; }` src/util/math.rs:143-145, 163-165, 190-192, 212-214 -/
def kernelStep (kernel : List F) (input : SubImage F) (i : Nat) (output : List F) : Res (List F) :=
  forRange 0 output.length output fun j output => do
    let k ← idx kernel i
    let px ← input.index i
    let v ← idx px j
    let o ← idx output j
    setIdx output j (o +. k *. v)

/-- src/util/math.rs:129-149 (sequential) and 153-168 (rayon) `apply_1d_kernel`. The sequential
version clears `output` and pushes zeros, the rayon version allocates zeros: same value. -/
def apply1dKernel (P : Profile) (input : SubImage F) (kernel : List F) : Res (List F) := do
  let size ← input.info.size P
  checkOdd usizeNum kernel.length
  checkEqual kernel.length size
  forRange 0 size (List.replicate input.info.channels (num 0)) fun i output =>
    kernelStep kernel input i output

/-- src/util/math.rs:172-197 (sequential) and 201-217 (rayon) `apply_2d_kernel` -/
def apply2dKernel (P : Profile) (input : SubImage F) (kernel : List F) : Res (List F) := do
  let size := input.info.width
  checkOdd usizeNum kernel.length
  let sq ← usizeMul P size size
  checkEqual kernel.length sq
  forRange 0 size (List.replicate input.info.channels (num 0)) fun y output =>
    forRange 0 size output fun x output => do
      let a ← usizeMul P y size
      let index ← usizeAdd P a x
      kernelStep kernel input index output

/-- src/util/math.rs:129-149 `apply_1d_kernel` as the sequential build exposes it: `output` is a
caller-supplied buffer whose previous content is cleared and refilled. Returns the new content. -/
def apply1dKernelInto (P : Profile) (input : SubImage F) (output kernel : List F) : Res (List F) := do
  let size ← input.info.size P
  checkOdd usizeNum kernel.length
  checkEqual kernel.length size
  let _ := output
  let output ← forRange 0 input.info.channels [] fun _ o => .ok (o ++ [num 0])
  forRange 0 size output fun i output => kernelStep kernel input i output

/-- src/util/math.rs:172-197 `apply_2d_kernel` of the sequential build -/
def apply2dKernelInto (P : Profile) (input : SubImage F) (output kernel : List F) : Res (List F) := do
  let size := input.info.width
  checkOdd usizeNum kernel.length
  let sq ← usizeMul P size size
  checkEqual kernel.length sq
  let _ := output
  let output ← forRange 0 input.info.channels [] fun _ o => .ok (o ++ [num 0])
  forRange 0 size output fun y output =>
    forRange 0 size output fun x output => do
      let a ← usizeMul P y size
      let index ← usizeAdd P a x
      kernelStep kernel input index output

/-- src/util/math.rs:220-225 `distance` -/
def distance (x1 y1 x2 y2 : Nat) : F :=
  let xd := (ofNat (F := F) x1) -. (ofNat x2)
  let yd := (ofNat (F := F) y1) -. (ofNat y2)
  FloatOps.sqrt ((xd *. xd) +. (yd *. yd))

/-- src/util/math.rs:228-234 `gaussian_fn` -/
def gaussianFn (x sigma : F) : Res F := do
  checkNonNeg (FloatOps.rnum (F := F)) sigma
  let s2 := sigma *. sigma
  .ok ((num 1 /. (num 2 *. FloatOps.pi *. s2)) *.
    (FloatOps.pow FloatOps.e ((FloatOps.neg (x *. x)) /. (num 2 *. s2))))

/-- src/util/math.rs:267-273 `clamp_zero` -/
def clampZero (x : F) : F := if x <=. num 0 then num 0 else x

/-- src/util/math.rs:237-242 `cubic_weighting_fn` -/
def cubicWeightingFn (x : F) : F :=
  (num 1 /. num 6) *. (FloatOps.pow (clampZero (x +. num 2)) (num 3)
    -. num 4 *. FloatOps.pow (clampZero (x +. num 1)) (num 3)
    +. num 6 *. FloatOps.pow (clampZero x) (num 3)
    -. num 4 *. FloatOps.pow (clampZero (x -. num 1)) (num 3))

/-- src/util/math.rs:245-253 `xyz_to_lab_fn` -/
def xyzToLabFn (n : F) : F :=
  let d : F := num 6 /. num 29
  if n >. FloatOps.pow d (num 3) then FloatOps.pow n (num 1 /. num 3)
  else (n /. (num 3 *. d *. d)) +. (num 4 /. num 29)

/-- src/util/math.rs:256-264 `lab_to_xyz_fn` -/
def labToXyzFn (n : F) : F :=
  let d : F := num 6 /. num 29
  if n >. d then FloatOps.pow n (num 3)
  else num 3 *. d *. d *. (n -. (num 4 /. num 29))

/-- src/util/math.rs:276-284 `sinc_norm` -/
def sincNorm (x : F) : F :=
  if x ==. num 0 then num 1
  else
    let piX := FloatOps.pi *. x
    FloatOps.sin piX /. piX

/-- src/util/math.rs:287-293 `lanczos_kernel` -/
def lanczosKernel (x a : F) : F :=
  if x >. FloatOps.neg a && x <. a then sincNorm x *. sincNorm (x /. a)
  else num 0
end
end Imgproc

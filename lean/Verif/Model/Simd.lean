import Verif.Model.Colorspace
/-! Model of src/simd.rs (feature `simd`, AVX2). A `__m256i` is a list of 32 bytes, lowest address
first. Raw loads and stores outside a buffer are `Fault.ub`. -/
namespace Imgproc
open FloatOps

/-- `_mm256_loadu_si256(data.as_ptr().offset(i))` -/
def load256 (data : List UInt8) (i : Nat) : Res (List UInt8) :=
  if i + 32 ≤ data.length then .ok ((data.drop i).take 32) else .error .ub

/-- store of `v` (16 or 32 bytes) at `data.as_mut_ptr().offset(i)` -/
def storeBytes (data : List UInt8) (i : Nat) (v : List UInt8) : Res (List UInt8) :=
  if i + v.length ≤ data.length then .ok (data.take i ++ v ++ data.drop (i + v.length)) else .error .ub

/-- `_mm256_set1_epi8(v.abs() as i8)` : src/simd.rs:20, 65 -/
def set1Epi8 (v : Int) : List UInt8 := List.replicate 32 (intToU8 v)

/-- byte `k` (little endian) of a 64-bit constant -/
def byteOf (v : Int) (k : Nat) : UInt8 := UInt8.ofNat ((v % 18446744073709551616).toNat / 256 ^ k % 256)

/-- `_mm256_set1_epi32(v)` -/
def set1Epi32 (v : Int) : List UInt8 :=
  (List.range 32).map fun k => byteOf v (k % 4)

/-- `_mm256_set_epi64x(e3, e2, e1, e0)` : `e0` is the lowest quadword -/
def setEpi64x (e3 e2 e1 e0 : Int) : List UInt8 :=
  (List.range 32).map fun k =>
    byteOf (if k / 8 = 0 then e0 else if k / 8 = 1 then e1 else if k / 8 = 2 then e2 else e3) (k % 8)

/-- `_mm256_setzero_si256()` -/
def zero256 : List UInt8 := List.replicate 32 0

/-- `_mm256_blendv_epi8(a, b, mask)`: byte of `b` where the mask byte's top bit is set -/
def blendv (a b mask : List UInt8) : List UInt8 :=
  List.zipWith (fun (ab : UInt8 × UInt8) (m : UInt8) => if m ≥ 128 then ab.2 else ab.1) (List.zip a b) mask

/-- `_mm256_adds_epu8`: unsigned saturating add -/
def addsEpu8 (a b : List UInt8) : List UInt8 :=
  List.zipWith (fun x y => if x.toNat + y.toNat > 255 then 255 else x + y) a b

/-- `_mm256_subs_epu8`: unsigned saturating subtract -/
def subsEpu8 (a b : List UInt8) : List UInt8 :=
  List.zipWith (fun x y => if x.toNat < y.toNat then 0 else x - y) a b

/-- `_mm256_avg_epu8`: (x + y + 1) >> 1 -/
def avgEpu8 (a b : List UInt8) : List UInt8 :=
  List.zipWith (fun x y => UInt8.ofNat ((x.toNat + y.toNat + 1) / 2)) a b

/-- interleave two byte lists -/
def interleave (a b : List UInt8) : List UInt8 :=
  (List.zip a b).flatMap fun p => [p.1, p.2]

/-- `_mm256_unpacklo_epi8(a, b)` (per 128-bit lane) -/
def unpackLo (a b : List UInt8) : List UInt8 :=
  interleave (a.take 8) (b.take 8) ++ interleave ((a.drop 16).take 8) ((b.drop 16).take 8)

/-- `_mm256_unpackhi_epi8(a, b)` (per 128-bit lane) -/
def unpackHi (a b : List UInt8) : List UInt8 :=
  interleave ((a.drop 8).take 8) ((b.drop 8).take 8) ++ interleave ((a.drop 24).take 8) ((b.drop 24).take 8)

/-- `_mm256_storeu2_m128i(hi, lo, v)` -/
def storeu2 (data : List UInt8) (hi lo : Nat) (v : List UInt8) : Res (List UInt8) := do
  let data ← storeBytes data lo (v.take 16)
  storeBytes data hi (v.drop 16)

/-- `while (i + step) <= n { body; i += step; }`. `add` is the machine addition of the counter's
type. The fuel is larger than any number of iterations the loop can make before it faults. -/
def whileStep {σ} (add : Nat → Nat → Res Nat) (step n : Nat) (body : Nat → σ → Res σ) :
    Nat → Nat → σ → Res (Nat × σ)
  | 0, _, _ => panic .explicit
  | fuel + 1, i, s => do
    let t ← add i step
    if t ≤ n then
      let s ← body i s
      whileStep add step n body fuel t s
    else .ok (i, s)

/-- scalar element of the (dead) tail loops: `(input.data()[j] as i16 + val).clamp(0, 255) as u8` -/
def addClampU8 (P : Profile) (c : UInt8) (val : Int) : Res UInt8 := do
  let s ← i16Add P (c.toNat : Int) val
  let r ← intClamp s 0 255
  .ok (intToU8 r)

/-- src/simd.rs:15-58 `adds_256_u8` -/
def adds256U8 (P : Profile) (input : Image UInt8) (val : Int) : Res (Image UInt8) := do
  let numBytes ← input.info.fullSize P
  let data := List.replicate numBytes (0 : UInt8)
  let a ← i16Abs P val
  let val256 := set1Epi8 a
  let val256 := if input.info.alpha then blendv val256 zero256 (set1Epi32 (-2 * 2 ^ 30)) else val256
  let (i, data) ← whileStep (u32Add P) 32 numBytes (fun i data => do
    let chunk ← load256 input.data i
    let res := if val > 0 then addsEpu8 chunk val256 else subsEpu8 chunk val256
    storeBytes data i res) (numBytes / 32 + 2) 0 data
  let data ← if i > numBytes then do
      let s ← u32Sub P i 32
      forRange s numBytes data fun j data => do
        let c ← idx input.data j
        let v ← addClampU8 P c val
        setIdx data j v
    else .ok data
  .ok (Image.fromVec input.info.width input.info.height input.info.channels input.info.alpha data)

/-- the masks of src/simd.rs:69-88 -/
def channelMask (alpha : Bool) (n : Nat) : List UInt8 :=
  if alpha then
    if n = 0 then set1Epi32 0x80
    else if n = 1 then set1Epi32 0x8000
    else if n = 2 then set1Epi32 0x800000
    else if n = 3 then set1Epi32 (-0x80000000)
    else zero256
  else
    if n = 0 then setEpi64x 0x80000080 0x800000800000 (-0x7FFFFF7FFFFF8000) 0x80000080000080
    else if n = 1 then setEpi64x 0x8000008000 0x80000080000080 0x800000800000 (-0x7FFFFF7FFFFF8000)
    else if n = 2 then setEpi64x 0x800000800000 (-0x7FFFFF7FFFFF8000) 0x80000080000080 0x800000800000
    else zero256

/-- src/simd.rs:64-128 `adds_n_256_u8` -/
def addsN256U8 (P : Profile) (input : Image UInt8) (val : Int) (n : Nat) : Res (Image UInt8) := do
  let numBytes ← input.info.fullSize P
  let data := List.replicate numBytes (0 : UInt8)
  let a ← i16Abs P val
  let val256 := blendv zero256 (set1Epi8 a) (channelMask input.info.alpha n)
  let step := if input.info.alpha then 32 else 30
  let (i, data) ← whileStep (u32Add P) step numBytes (fun i data => do
    let chunk ← load256 input.data i
    let res := if val > 0 then addsEpu8 chunk val256 else subsEpu8 chunk val256
    storeBytes data i res) (numBytes / 30 + 2) 0 data
  let data ← if i > numBytes then do
      let s ← u32Sub P i step
      forStep s numBytes input.info.channels data fun j data => do
        let index ← usizeAdd P j n
        let c ← idx input.data index
        let v ← addClampU8 P c val
        setIdx data index v
    else .ok data
  .ok (Image.fromVec input.info.width input.info.height input.info.channels input.info.alpha data)

/-- channel `k` of the 32 pixels starting at `offset`: one of the vectors built by
`deinterleave_3_256_u8` / `deinterleave_4_256_u8` -/
def gatherChannels (P : Profile) (input : Image UInt8) (offset count : Nat) : Res (List (List UInt8)) := do
  let step := input.info.channels
  let range ← usizeMul P 32 step
  let stop ← usizeAdd P offset range
  forStep offset stop step (List.replicate count []) fun i vs =>
    forRange 0 count vs fun k vs => do
      let ik ← usizeAdd P i k
      let c ← idx input.data ik
      let v ← idx vs k
      setIdx vs k (v ++ [c])

/-- src/simd.rs:134-154 `deinterleave_3_256_u8`: (r, g, b); the raw loads read 32 bytes of each vector -/
def deinterleave3 (P : Profile) (input : Image UInt8) (offset : Nat) :
    Res (List UInt8 × List UInt8 × List UInt8) := do
  let vs ← gatherChannels P input offset 3
  let r ← idx vs 0
  let g ← idx vs 1
  let b ← idx vs 2
  let r ← load256 r 0
  let g ← load256 g 0
  let b ← load256 b 0
  .ok (r, g, b)

/-- src/simd.rs:160-181 `deinterleave_4_256_u8`: (r, g, b, a) -/
def deinterleave4 (P : Profile) (input : Image UInt8) (offset : Nat) :
    Res (List UInt8 × List UInt8 × List UInt8 × List UInt8) := do
  let vs ← gatherChannels P input offset 4
  let r ← idx vs 0
  let g ← idx vs 1
  let b ← idx vs 2
  let a ← idx vs 3
  let r ← load256 r 0
  let g ← load256 g 0
  let b ← load256 b 0
  let a ← load256 a 0
  .ok (r, g, b, a)

/-- u8 sum of three bytes in the dead tail loops (overflow-checked u8 additions) -/
def tailSum (P : Profile) (input : Image UInt8) (i : Nat) : Res UInt8 := do
  let a ← idx input.data i
  let b ← idx input.data (i + 1)
  let c ← idx input.data (i + 2)
  let s ← u8Num.add P a b
  u8Num.add P s c

/-- src/simd.rs:186-215 `avg_256_u8` -/
def avg256U8 (F : Type) [FloatOps F] (P : Profile) (input : Image UInt8) : Res (Image UInt8) := do
  let channels := input.info.channels
  let chunkSize ← usizeMul P 32 channels
  let numBytes ← input.info.fullSize P
  let data := List.replicate (numBytes / 3) (0 : UInt8)
  let (i, data) ← whileStep (usizeAdd P) chunkSize numBytes (fun i data => do
    let (r, g, b) ← deinterleave3 P input i
    let rgb := avgEpu8 (avgEpu8 r g) b
    let o ← natDiv i channels
    storeBytes data o rgb) (numBytes + 2) 0 data
  let data ← if i > numBytes then do
      let s ← usizeSub P i chunkSize
      forStep s numBytes 3 data fun j data => do
        let s ← tailSum P input i
        let o ← natDiv j channels
        setIdx data o (toU8 (FloatOps.round (ofU8 (F := F) s /. num 3)))
    else .ok data
  .ok (Image.fromVec input.info.width input.info.height 1 input.info.alpha data)

/-- src/simd.rs:221-260 `avg_alpha_256_u8` -/
def avgAlpha256U8 (F : Type) [FloatOps F] (P : Profile) (input : Image UInt8) : Res (Image UInt8) := do
  let channels := input.info.channels
  let chunkSize ← usizeMul P 32 channels
  let numBytes ← input.info.fullSize P
  let data := List.replicate (numBytes / 2) (0 : UInt8)
  let (i, data) ← whileStep (usizeAdd P) chunkSize numBytes (fun i data => do
    let (r, g, b, a) ← deinterleave4 P input i
    let rgb := avgEpu8 (avgEpu8 r g) b
    let lo := unpackLo rgb a
    let hi := unpackHi rgb a
    let data ← storeu2 data (i / 2 + 32) (i / 2) lo
    storeu2 data (i / 2 + 48) (i / 2 + 16) hi) (numBytes + 2) 0 data
  let data ← if i > numBytes then do
      let s ← usizeSub P i chunkSize
      forStep s numBytes channels data fun j data => do
        let s ← tailSum P input i
        let data ← setIdx data (j / 2) (toU8 (FloatOps.round (ofU8 (F := F) s /. num 3)))
        let a ← idx input.data (i + 3)
        setIdx data (j / 2 + 1) a
    else .ok data
  .ok (Image.fromVec input.info.width input.info.height 2 input.info.alpha data)

/-- src/simd.rs:265-271 `avg_checked_256_u8` -/
def avgChecked256U8 (F : Type) [FloatOps F] (P : Profile) (input : Image UInt8) : Res (Image UInt8) :=
  if input.info.alpha then avgAlpha256U8 F P input else avg256U8 F P input

/-- src/colorspace.rs:14-26 `rgb_to_grayscale`; `avx2` says whether the `simd` feature is on and the
host has AVX2 -/
def rgbToGrayscale (F : Type) [FloatOps F] (avx2 : Bool) (P : Profile) (input : Image UInt8) :
    Res (Image UInt8) :=
  if avx2 then avgChecked256U8 F P input else rgbToGrayscaleNorm P input
end Imgproc

import Verif.Model.Convert
/-! Model of src/colorspace.rs (scalar paths; the AVX2 path of `rgb_to_grayscale` is in Model/Simd). -/
namespace Imgproc
open FloatOps

/-- src/colorspace.rs:28-37 `rgb_to_grayscale_norm` -/
def rgbToGrayscaleNorm (P : Profile) (input : Image UInt8) : Res (Image UInt8) :=
  input.mapPixelsIfAlpha P (fun channels out => do
    let sum ← forList channels (0 : Int) fun c sum => i16Add P sum (c.toNat : Int)
    let q ← i16Div sum (Imgproc.toI16 channels.length)
    .ok (out ++ [intToU8 q])) (fun a => .ok a)

/-- src/colorspace.rs:141-175 `rgb_to_hsv` on one pixel's colour channels -/
def rgbToHsvPixel (P : Profile) (channels : List UInt8) : Res (List UInt8) := do
  let c0 ← idx channels 0
  let c1 ← idx channels 1
  let c2 ← idx channels 2
  let max : Int := (Max.max (Max.max c0 c1) c2).toNat
  let min : Int := (Min.min (Min.min c0 c1) c2).toNat
  let range ← i32Sub P max min
  let r : Int := c0.toNat
  let g : Int := c1.toNat
  let b : Int := c2.toNat
  let saturation ← if max ≠ 0 then do
      let t ← i32Mul P 255 range
      i32Div t max
    else .ok 0
  let hue ← if range ≠ 0 then
      if max = r then do
        let d ← i32Sub P g b
        let t ← i32Mul P 43 d
        i32Div t range
      else if max = g then do
        let d ← i32Sub P b r
        let t ← i32Mul P 43 d
        let q ← i32Div t range
        i32Add P 85 q
      else do
        let d ← i32Sub P r g
        let t ← i32Mul P 43 d
        let q ← i32Div t range
        i32Add P 170 q
    else .ok 0
  let hue ← if hue < 0 then i32Add P hue 255
    else if hue > 255 then i32Sub P hue 255
    else .ok hue
  .ok [intToU8 hue, intToU8 saturation, intToU8 max]

/-- src/colorspace.rs:141-175 `rgb_to_hsv` -/
def rgbToHsv (P : Profile) (input : Image UInt8) : Res (Image UInt8) :=
  input.mapPixelsIfAlpha P (fun channels out => do
    let p ← rgbToHsvPixel P channels
    .ok (out ++ p)) (fun a => .ok a)

/-- src/colorspace.rs:181-208 `hsv_to_rgb` on one pixel's colour channels -/
def hsvToRgbPixel (P : Profile) (channels : List UInt8) : Res (List UInt8) := do
  let s8 ← idx channels 1
  if s8 = 0 then
    let val ← idx channels 2
    .ok [val, val, val]
  else
    let h8 ← idx channels 0
    let v8 ← idx channels 2
    let h : Int := h8.toNat
    let s : Int := s8.toNat
    let v : Int := v8.toNat
    let hue ← i32Div h 43
    -- f = (h - (hue * 43)) * 6
    let t ← i32Mul P hue 43
    let t ← i32Sub P h t
    let f ← i32Mul P t 6
    -- p = (v * (255 - s)) / 255
    let a ← i32Sub P 255 s
    let a ← i32Mul P v a
    let p ← i32Div a 255
    -- q = (v * (255 - (s * f) / 255)) / 255
    let a ← i32Mul P s f
    let a ← i32Div a 255
    let a ← i32Sub P 255 a
    let a ← i32Mul P v a
    let q ← i32Div a 255
    -- t = (v * (255 - (s * (255 - f)) / 255)) / 255
    let a ← i32Sub P 255 f
    let a ← i32Mul P s a
    let a ← i32Div a 255
    let a ← i32Sub P 255 a
    let a ← i32Mul P v a
    let t ← i32Div a 255
    let p8 := intToU8 p
    let q8 := intToU8 q
    let t8 := intToU8 t
    let v' := intToU8 v
    if hue = 0 then .ok [v', t8, p8]
    else if hue = 1 then .ok [q8, v', p8]
    else if hue = 2 then .ok [p8, v', t8]
    else if hue = 3 then .ok [p8, q8, v']
    else if hue = 4 then .ok [t8, p8, v']
    else .ok [v', p8, q8]

/-- src/colorspace.rs:181-208 `hsv_to_rgb` -/
def hsvToRgb (P : Profile) (input : Image UInt8) : Res (Image UInt8) :=
  input.mapPixelsIfAlpha P (fun channels out => do
    let p ← hsvToRgbPixel P channels
    .ok (out ++ p)) (fun a => .ok a)

section
variable {F : Type} [FloatOps F]

/-- src/colorspace.rs:40-49 `rgb_to_grayscale_f32` -/
def rgbToGrayscaleF32 (P : Profile) (input : Image F) : Res (Image F) :=
  input.mapPixelsIfAlpha P (fun channels out => do
    let sum ← forList channels (num 0 : F) fun c sum => .ok (sum +. c)
    .ok (out ++ [sum /. ofNat channels.length])) (fun a => .ok a)

/-- table entry of src/colorspace.rs:57-64 -/
def linearizeEntry (i : UInt8) : F :=
  let val : F := ofU8 i
  if val <=. num 10 then val /. num 3294
  else FloatOps.pow ((val +. lit 14.025) /. lit 269.025) GAMMA

/-- src/colorspace.rs:55-67 `linearize_srgb_f32` -/
def linearizeSrgb (P : Profile) (input : Image UInt8) : Res (Image F) := do
  let table ← generateLookupTable (List.replicate 256 (num 0)) fun i => .ok (linearizeEntry (F := F) i)
  input.mapChannelsIfAlpha P (fun i => idx table i.toNat) (fun a => .ok (ofU8 a))

/-- src/colorspace.rs:73-81 `unlinearize_srgb_f32` on one colour channel -/
def unlinearizeEntry (n : F) : UInt8 :=
  if n <=. lit 0.0031308 then toU8 (n *. lit 3294.6)
  else toU8 (lit 269.025 *. FloatOps.pow n (num 1 /. GAMMA) -. lit 14.025)

/-- src/colorspace.rs:73-81 `unlinearize_srgb_f32` -/
def unlinearizeSrgb (P : Profile) (input : Image F) : Res (Image UInt8) :=
  input.mapChannelsIfAlpha P (fun n => .ok (unlinearizeEntry n)) (fun a => .ok (toU8 (FloatOps.round a)))

/-- src/colorspace.rs:87-91 `srgb_lin_to_xyz_f32` -/
def srgbLinToXyz (P : Profile) (input : Image F) : Res (Image F) :=
  input.mapPixelsIfAlpha P
    (fun channels out => unwrapRes (vectorMulMut P FloatOps.rnum SRGB_TO_XYZ_MAT channels out))
    (fun a => .ok a)

/-- src/colorspace.rs:97-101 `xyz_to_srgb_lin_f32` -/
def xyzToSrgbLin (P : Profile) (input : Image F) : Res (Image F) :=
  input.mapPixelsIfAlpha P
    (fun channels out => unwrapRes (vectorMulMut P FloatOps.rnum XYZ_TO_SRGB_MAT channels out))
    (fun a => .ok a)

/-- src/colorspace.rs:107-119 `xyz_to_lab_f32` on one pixel's colour channels -/
def xyzToLabPixel (white : White) (channels : List F) : Res (List F) := do
  let (xn, yn, zn) := xyzTristimulusVals (F := F) white
  let c0 ← idx channels 0
  let x := xyzToLabFn (c0 *. num 100 /. xn)
  let c1 ← idx channels 1
  let y := xyzToLabFn (c1 *. num 100 /. yn)
  let c2 ← idx channels 2
  let z := xyzToLabFn (c2 *. num 100 /. zn)
  .ok [num 116 *. y -. num 16, num 500 *. (x -. y), num 200 *. (y -. z)]

/-- src/colorspace.rs:107-119 `xyz_to_lab_f32` -/
def xyzToLab (P : Profile) (input : Image F) (white : White) : Res (Image F) :=
  input.mapPixelsIfAlpha P (fun channels out => do
    let p ← xyzToLabPixel white channels
    .ok (out ++ p)) (fun a => .ok a)

/-- src/colorspace.rs:125-135 `lab_to_xyz_f32` on one pixel's colour channels -/
def labToXyzPixel (white : White) (channels : List F) : Res (List F) := do
  let (xn, yn, zn) := xyzTristimulusVals (F := F) white
  let c0 ← idx channels 0
  let n := (c0 +. num 16) /. num 116
  let c1 ← idx channels 1
  let c2 ← idx channels 2
  .ok [xn *. labToXyzFn (n +. c1 /. num 500) /. num 100,
       yn *. labToXyzFn n /. num 100,
       zn *. labToXyzFn (n -. c2 /. num 200) /. num 100]

/-- src/colorspace.rs:125-135 `lab_to_xyz_f32` -/
def labToXyz (P : Profile) (input : Image F) (white : White) : Res (Image F) :=
  input.mapPixelsIfAlpha P (fun channels out => do
    let p ← labToXyzPixel white channels
    .ok (out ++ p)) (fun a => .ok a)

/-- src/colorspace.rs:214-247 `rgb_to_hsv_f32` on one pixel's colour channels. `max - min` is a u8
subtraction that cannot underflow. -/
def rgbToHsvF32Pixel (channels : List UInt8) : Res (List F) := do
  let c0 ← idx channels 0
  let c1 ← idx channels 1
  let c2 ← idx channels 2
  let max := Max.max (Max.max c0 c1) c2
  let min := Min.min (Min.min c0 c1) c2
  let range : F := ofU8 (max - min) /. num 255
  let r : F := ofU8 c0 /. num 255
  let g : F := ofU8 c1 /. num 255
  let b : F := ofU8 c2 /. num 255
  let saturation : F := if max ≠ 0 then range /. (ofU8 max /. num 255) else num 0
  let hue : F :=
    if !(range ==. num 0) then
      if max = c0 then (g -. b) /. range
      else if max = c1 then (b -. r) /. range +. num 2
      else (r -. g) /. range +. num 4
    else num 0
  let hue := hue /. num 6
  let hue := if hue <. num 0 then hue +. num 1
    else if hue >. num 1 then hue -. num 1
    else hue
  .ok [hue, saturation, ofU8 max /. num 255]

/-- src/colorspace.rs:214-247 `rgb_to_hsv_f32` -/
def rgbToHsvF32 (P : Profile) (input : Image UInt8) : Res (Image F) :=
  input.mapPixelsIfAlpha P (fun channels out => do
    let p ← rgbToHsvF32Pixel channels
    .ok (out ++ p)) (fun a => .ok (ofU8 a /. num 255))

/-- src/colorspace.rs:253-278 `hsv_to_rgb_f32` on one pixel's colour channels -/
def hsvToRgbF32Pixel (channels : List F) : Res (List UInt8) := do
  let s ← idx channels 1
  if s ==. num 0 then
    let v ← idx channels 2
    let val := toU8 (v *. num 255)
    .ok [val, val, val]
  else
    let h ← idx channels 0
    let v ← idx channels 2
    let hue := h *. num 6
    let f := hue -. FloatOps.floor hue
    let p := toU8 (v *. (num 1 -. s) *. num 255)
    let q := toU8 (v *. (num 1 -. s *. f) *. num 255)
    let t := toU8 (v *. (num 1 -. s *. (num 1 -. f)) *. num 255)
    let val := toU8 (v *. num 255)
    let k := toU8 (FloatOps.floor hue)
    if k = 0 then .ok [val, t, p]
    else if k = 1 then .ok [q, val, p]
    else if k = 2 then .ok [p, val, t]
    else if k = 3 then .ok [p, q, val]
    else if k = 4 then .ok [t, p, val]
    else .ok [val, p, q]

/-- src/colorspace.rs:253-278 `hsv_to_rgb_f32` -/
def hsvToRgbF32 (P : Profile) (input : Image F) : Res (Image UInt8) :=
  input.mapPixelsIfAlpha P (fun channels out => do
    let p ← hsvToRgbF32Pixel channels
    .ok (out ++ p)) (fun a => .ok (toU8 (FloatOps.round (a *. num 255))))

/-- src/colorspace.rs:284-287 `srgb_to_xyz_f32` -/
def srgbToXyz (P : Profile) (input : Image UInt8) : Res (Image F) := do
  let lin ← linearizeSrgb P input
  srgbLinToXyz P lin

/-- src/colorspace.rs:293-296 `xyz_to_srgb_f32` -/
def xyzToSrgb (P : Profile) (input : Image F) : Res (Image UInt8) := do
  let srgb ← xyzToSrgbLin P input
  unlinearizeSrgb P srgb

/-- src/colorspace.rs:302-305 `srgb_to_lab_f32` -/
def srgbToLab (P : Profile) (input : Image UInt8) (white : White) : Res (Image F) := do
  let xyz ← srgbToXyz P input
  xyzToLab P xyz white

/-- src/colorspace.rs:311-314 `lab_to_srgb_f32` -/
def labToSrgb (P : Profile) (input : Image F) (white : White) : Res (Image UInt8) := do
  let xyz ← labToXyz P input white
  xyzToSrgb P xyz
end
end Imgproc

import Verif.Model.Morphology
/-! Model of src/convert.rs and src/image/from_impl.rs -/
namespace Imgproc
open FloatOps
variable {F : Type} [FloatOps F]

/-- src/convert.rs:7-11 `scale_channels` -/
def scaleChannels (P : Profile) (input : Image F) (curMin scMin curMax scMax : F) : Res (Image F) :=
  input.mapChannels P fun c =>
    .ok ((c -. curMin) /. (curMax -. curMin) *. (scMax -. scMin) +. scMin)

/-- src/convert.rs:15-17 `f32_to_u8_scale` -/
def f32ToU8Scale (P : Profile) (input : Image F) (scale : Nat) : Res (Image UInt8) :=
  input.mapChannels P fun c => .ok (toU8 (FloatOps.round (c /. ofNat scale *. num 255)))

/-- src/convert.rs:21-23 `u8_to_f32_scale` -/
def u8ToF32Scale (P : Profile) (input : Image UInt8) (scale : Nat) : Res (Image F) :=
  input.mapChannels P fun c => .ok ((ofU8 c /. num 255) *. ofNat scale)

/-- src/image/from_impl.rs:15-49 `From<Image<u16|u32|u64|u128|usize>> for Image<f64>`
(unsigned integers are Nat; the type's range is a hypothesis of the theorems) -/
def imageNatToFloat (P : Profile) (img : Image Nat) : Res (Image F) :=
  img.mapChannels P fun c => .ok (ofNat c)

/-- src/image/from_impl.rs:51-61 `From<Image<f64>>` / `From<Image<f32>> for Image<u8>` -/
def imageFloatToU8 (P : Profile) (img : Image F) : Res (Image UInt8) :=
  img.mapChannels P fun c => .ok (toU8 (FloatOps.round c))
end Imgproc

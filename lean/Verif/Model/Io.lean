import Verif.Model.Image
/-! Model of src/io/mod.rs. The file system and the codecs of the `image` crate are parameters. -/
namespace Imgproc

/-- `image::ColorType` (variants the library distinguishes; the rest is `other`) -/
inductive ColorType where
  | l8 | la8 | rgb8 | rgba8 | bgr8 | bgra8 | other
deriving DecidableEq, Repr

/-- what `Reader::open(..).decode()` yields: dimensions, colour type and `as_bytes()` -/
structure Decoded where
  color : ColorType
  width : Nat
  height : Nat
  bytes : List UInt8

/-- The external codec. `save` (path, colour, width, height, samples): whether it succeeds and the new
content of the file at the path (`none`: left untouched; a failing save may leave a partial file).
`decode`: `Reader::open(path)?.decode()` of a file's content. -/
structure Codec (File : Type) where
  save : String → ColorType → Nat → Nat → List UInt8 → Bool × Option File
  decode : String → File → Option Decoded

/-- a file system: path to content -/
abbrev FileSys (File : Type) := String → Option File

/-- src/io/mod.rs:28-36 `from_color_type` -/
def fromColorType : ColorType → Res (Nat × Bool)
  | .l8 => .ok (1, false)
  | .la8 => .ok (2, true)
  | .rgb8 | .bgr8 => .ok (3, false)
  | .rgba8 | .bgra8 => .ok (4, true)
  | .other => .error (.err .unsupportedColorType)

/-- src/io/mod.rs:40-46 `read` -/
def ioRead {File : Type} (codec : Codec File) (fs : FileSys File) (path : String) : Res (Image UInt8) :=
  match fs path with
  | none => .error (.err .io)
  | some file =>
    match codec.decode path file with
    | none => .error (.err .io)
    | some d => do
      let (channels, alpha) ← fromColorType d.color
      .ok (Image.fromSlice d.width d.height channels alpha d.bytes)

/-- `ImageBuffer::from_raw(width, height, data)` followed by `save(filename)`; `samples` is the
number of samples per pixel of the pixel type. `from_raw` is `None` when the buffer is too short;
the file receives the first `width * height * samples` values. Returns the outcome and the file
system afterwards. -/
def saveBuffer {File : Type} (codec : Codec File) (fs : FileSys File) (path : String) (color : ColorType)
    (samples width height : Nat) (data : List UInt8) : Res Unit × FileSys File :=
  if data.length < width * height * samples then (.error (.err .imageWrite), fs)
  else
    let r := codec.save path color width height (data.take (width * height * samples))
    let fs' : FileSys File := match r.2 with
      | none => fs
      | some f => fun p => if p = path then some f else fs p
    (if r.1 then .ok () else .error (.err .io), fs')

/-- src/io/mod.rs:49-83 `write`: the outcome and the file system afterwards -/
def ioWrite {File : Type} (codec : Codec File) (fs : FileSys File) (input : Image UInt8) (path : String) :
    Res Unit × FileSys File :=
  if input.info.alpha then
    match input.info.channels with
    | 2 => saveBuffer codec fs path .la8 2 input.info.width input.info.height input.data
    | 4 => saveBuffer codec fs path .rgba8 4 input.info.width input.info.height input.data
    | _ => (.error (.err .unsupportedColorType), fs)
  else
    match input.info.channels with
    | 1 => saveBuffer codec fs path .l8 1 input.info.width input.info.height input.data
    | 3 => saveBuffer codec fs path .rgb8 3 input.info.width input.info.height input.data
    | _ => (.error (.err .unsupportedColorType), fs)
end Imgproc

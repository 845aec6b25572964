import Verif.Model.Image
/-! Specification vocabulary for images: independent of the model's loops. -/
namespace Imgproc

/-- An image whose buffer matches its header and whose sizes fit the machine types
(what every constructor is meant to produce). -/
structure Image.WF {T} (img : Image T) : Prop where
  width : img.info.width < U32SIZE
  height : img.info.height < U32SIZE
  channels : img.info.channels < 256
  size : img.info.width * img.info.height < U32SIZE
  full : img.info.width * img.info.height * img.info.channels < U32SIZE
  length : img.data.length = img.info.width * img.info.height * img.info.channels

/-- a header whose sizes fit the machine types -/
structure ImageInfo.WF (i : ImageInfo) : Prop where
  width : i.width < U32SIZE
  height : i.height < U32SIZE
  channels : i.channels < 256
  size : i.width * i.height < U32SIZE
  full : i.width * i.height * i.channels < U32SIZE

/-- The pixel of row `y`, column `x`, read off the row-major buffer (mathematical view). -/
def Image.px {T} (img : Image T) (x y : Nat) : List T :=
  (img.data.drop ((y * img.info.width + x) * img.info.channels)).take img.info.channels

/-- `img` is a well-formed image with header `info` and pixel `f x y` at each coordinate,
as observed through the public `get_pixel`, in both build profiles. -/
def Image.Shows {T} (img : Image T) (info : ImageInfo) (f : Nat → Nat → List T) : Prop :=
  img.WF ∧ img.info = info ∧
  ∀ (P : Profile) (x y : Nat), x < info.width → y < info.height → img.getPixel P x y = .ok (f x y)

end Imgproc

namespace Imgproc
/-- Apply `g` to the last element and `f` to all others. -/
def onAlpha {T S} (f g : T → S) (p : List T) : List S :=
  p.dropLast.map f ++ (p.getLast?.map g).toList

/-- `f` on the colour part of a pixel followed by `g` of its last (alpha) element. -/
def onAlphaPixel {T S} (f : List T → List S) (g : T → S) (p : List T) : List S :=
  f p.dropLast ++ (p.getLast?.map g).toList
end Imgproc

namespace Imgproc
/-- number of colour (non-alpha) channels -/
def ImageInfo.colours (i : ImageInfo) : Nat := if i.alpha then i.channels - 1 else i.channels
/-- the colour part of a pixel of an image with header `i` -/
def ImageInfo.colour {T} (i : ImageInfo) (p : List T) : List T := if i.alpha then p.dropLast else p
/-- the alpha part of a pixel (empty when the image has no alpha channel) -/
def ImageInfo.alphaOf {T} (i : ImageInfo) (p : List T) : List T := if i.alpha then p.getLast?.toList else []
end Imgproc

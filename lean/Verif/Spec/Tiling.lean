import Verif.Spec.Image

/-! Specification vocabulary for C130: cutting an image into tiles. -/
namespace Imgproc

/-- spec: along one axis, position `x` of a tile of length `w`, cut at offset `x0` from an axis of length `W`, is in the tile
and at least `m` away from every end of the tile that is not an end of the whole axis -/
def ClearOfSeam (x0 w W m x : Nat) : Prop := x < w ∧ (x0 = 0 ∨ m ≤ x) ∧ (x0 + w = W ∨ x + m < w)

/-- spec: `tile` lies inside `img` with its top left corner at `(x0, y0)`, has the same channels, and shows the same pixels,
bit for bit, at every position that is at least `m` pixels away from the seams (for `m = 0`: everywhere) -/
structure TileOf {T : Type} (tile img : Image T) (x0 y0 m : Nat) : Prop where
  wf : tile.WF
  whole : img.WF
  width : x0 + tile.info.width ≤ img.info.width
  height : y0 + tile.info.height ≤ img.info.height
  channels : tile.info.channels = img.info.channels
  alpha : tile.info.alpha = img.info.alpha
  pixel : ∀ (P : Profile) (x y : Nat), ClearOfSeam x0 tile.info.width img.info.width m x →
    ClearOfSeam y0 tile.info.height img.info.height m y → tile.getPixel P x y = img.getPixel P (x0 + x) (y0 + y)

/-- spec: `ot` and `o`, the results of an operation on `tile` and on `img`, have the shapes of `tile` and `img`, and `ot` is the
tile of `o` at the same place, except within `m` pixels of the seams -/
structure SameTile {T S : Type} (tile img : Image T) (ot o : Image S) (x0 y0 m : Nat) : Prop where
  tileShape : ot.info = tile.info
  shape : o.info = img.info
  tile : TileOf ot o x0 y0 m

end Imgproc

import Verif.Model.Error
/-! Model of src/image/{mod,sub_image,pixel,pixel_iter}.rs -/
namespace Imgproc

/-- src/image/mod.rs:79-86 `ImageInfo` (u32, u32, u8 kept as Nat) -/
structure ImageInfo where
  width : Nat
  height : Nat
  channels : Nat
  alpha : Bool
deriving DecidableEq, Repr

/-- src/image/mod.rs:72-77 `Image<T>` -/
structure Image (T : Type) where
  info : ImageInfo
  data : List T
deriving DecidableEq, Repr

namespace ImageInfo
/-- src/image/mod.rs:162-168 `channels_non_alpha` (u8 subtraction) -/
def channelsNonAlpha (P : Profile) (i : ImageInfo) : Res Nat :=
  if i.alpha then
    if 1 ≤ i.channels then .ok (i.channels - 1)
    else match P with | .debug => panic .overflow | .release => .ok 255
  else .ok i.channels

/-- src/image/mod.rs:171-173 `size` -/
def size (P : Profile) (i : ImageInfo) : Res Nat := u32Mul P i.width i.height

/-- src/image/mod.rs:176-178 `full_size` -/
def fullSize (P : Profile) (i : ImageInfo) : Res Nat := do
  let a ← u32Mul P i.width i.height
  u32Mul P a i.channels
end ImageInfo

/-! ### Pixel slices, src/image/pixel.rs -/
namespace Pixel
variable {T S : Type}

/-- src/image/pixel.rs:39-41 `alpha`: `self[self.len()-1]` -/
def alpha (P : Profile) (p : List T) : Res T := do
  let n ← usizeSub P p.length 1
  idx p n

/-- src/image/pixel.rs:43-45 `channels_without_alpha`: `&self[..(self.len()-1)]` -/
def channelsWithoutAlpha (P : Profile) (p : List T) : Res (List T) := do
  let n ← usizeSub P p.length 1
  slice p 0 n

/-- src/image/pixel.rs:47-56 `map_all` -/
def mapAll (p : List T) (f : T → Res S) : Res (List S) :=
  forList p [] fun c out => do
    let v ← f c
    .ok (out ++ [v])

/-- src/image/pixel.rs:58-69 `map_alpha` -/
def mapAlpha (P : Profile) (p : List T) (f g : T → Res S) : Res (List S) := do
  let cs ← channelsWithoutAlpha P p
  let out ← forList cs [] fun c out => do
    let v ← f c
    .ok (out ++ [v])
  let a ← alpha P p
  let ga ← g a
  .ok (out ++ [ga])

/-- src/image/pixel.rs:71-76 `apply` -/
def apply (p : List T) (f : T → Res T) : Res (List T) :=
  forRange 0 p.length p fun i p => do
    let c ← idx p i
    let v ← f c
    setIdx p i v

/-- src/image/pixel.rs:78-86 `apply_alpha` -/
def applyAlpha (P : Profile) (p : List T) (f g : T → Res T) : Res (List T) := do
  let n ← usizeSub P p.length 1
  let p ← forRange 0 n p fun i p => do
    let c ← idx p i
    let v ← f c
    setIdx p i v
  let a ← alpha P p
  let ga ← g a
  let m ← usizeSub P p.length 1
  setIdx p m ga

/-- src/image/pixel.rs:88-96 `is_black` (early return becomes a structural recursion) -/
def isBlack (N : RNum T) : List T → Bool
  | [] => true
  | c :: cs => if !N.eq c (N.ofU8 0) then false else isBlack N cs

/-- src/image/pixel.rs:98-106 `is_black_alpha` -/
def isBlackAlpha (P : Profile) (N : RNum T) (p : List T) : Res Bool := do
  let cs ← channelsWithoutAlpha P p
  .ok (isBlack N cs)
end Pixel

/-! ### SubImage, src/image/sub_image.rs -/

/-- src/image/sub_image.rs:6-9 `SubImage` (borrowed pixel slices become lists) -/
structure SubImage (T : Type) where
  info : ImageInfo
  data : List (List T)
deriving DecidableEq, Repr

namespace SubImage
variable {T : Type}
/-- src/image/sub_image.rs:13-18 `new` -/
def new (width height channels : Nat) (alpha : Bool) (data : List (List T)) : SubImage T :=
  { info := ⟨width, height, channels, alpha⟩, data := data }

/-- src/image/sub_image.rs:49-55 `Index` -/
def index (s : SubImage T) (i : Nat) : Res (List T) := idx s.data i

/-- src/image/sub_image.rs:26-34 `to_vec` -/
def toVec (P : Profile) (s : SubImage T) : Res (List T) := do
  let n ← s.info.size P
  forRange 0 n [] fun i data => do
    let p ← s.index i
    .ok (data ++ p)

/-- src/image/sub_image.rs:42-46 `get_pixel` -/
def getPixel (P : Profile) (s : SubImage T) (x y : Nat) : Res (List T) := do
  checkXY x y s.info.width s.info.height
  let a ← u32Mul P y s.info.width
  let b ← u32Add P a x
  s.index b
end SubImage

namespace Image
variable {T S : Type}

/-- src/image/mod.rs:189-194 `from_slice` -/
def fromSlice (width height channels : Nat) (alpha : Bool) (data : List T) : Image T :=
  { info := ⟨width, height, channels, alpha⟩, data := data }

/-- src/image/mod.rs:197-202 `from_vec` -/
def fromVec (width height channels : Nat) (alpha : Bool) (data : List T) : Image T :=
  { info := ⟨width, height, channels, alpha⟩, data := data }

/-- src/image/mod.rs:205-215 `from_vec_of_vec` (the capacity expression may overflow) -/
def fromVecOfVec (P : Profile) (width height channels : Nat) (alpha : Bool)
    (data : List (List T)) : Res (Image T) := do
  let a ← u32Mul P width height
  let _ ← u32Mul P a channels
  let out ← forList data [] fun v out => .ok (out ++ v)
  .ok { info := ⟨width, height, channels, alpha⟩, data := out }

/-- src/image/mod.rs:218-228 `from_vec_of_slice` -/
def fromVecOfSlice (P : Profile) (width height channels : Nat) (alpha : Bool)
    (data : List (List T)) : Res (Image T) := do
  let a ← u32Mul P width height
  let _ ← u32Mul P a channels
  let out ← forList data [] fun v out => .ok (out ++ v)
  .ok { info := ⟨width, height, channels, alpha⟩, data := out }

/-- src/image/mod.rs:231-236 `blank` -/
def blank (P : Profile) (N : RNum T) (info : ImageInfo) : Res (Image T) := do
  let n ← info.fullSize P
  .ok { info := info, data := List.replicate n (N.ofU8 0) }

/-- src/image/mod.rs:239-244 `empty` -/
def empty (P : Profile) (info : ImageInfo) : Res (Image T) := do
  let _ ← info.fullSize P
  .ok { info := info, data := [] }

/-- src/image/mod.rs:247-249 `index(x, y)` -/
def index (P : Profile) (img : Image T) (x y : Nat) : Res Nat := do
  let a ← u32Mul P y img.info.width
  let b ← u32Add P a x
  u32Mul P b img.info.channels

/-- src/image/mod.rs:565-571 `Index<usize>`: `&img[i]` -/
def at' (P : Profile) (img : Image T) (i : Nat) : Res (List T) := do
  let start ← usizeMul P i img.info.channels
  let stop ← usizeAdd P start img.info.channels
  slice img.data start stop

/-- src/image/mod.rs:573-578 `IndexMut<usize>`, used as `img[i] = <slice of the same length>`;
the borrowed slice is modelled as its current contents plus a write-back function. -/
def atMut (P : Profile) (img : Image T) (i : Nat) : Res (List T × (List T → Image T)) := do
  let start ← usizeMul P i img.info.channels
  let stop ← usizeAdd P start img.info.channels
  let s ← slice img.data start stop
  .ok (s, fun p => { img with data := img.data.take start ++ p ++ img.data.drop stop })

/-- src/image/mod.rs:558-562 `get_pixel` -/
def getPixel (P : Profile) (img : Image T) (x y : Nat) : Res (List T) := do
  checkXY x y img.info.width img.info.height
  let a ← u32Mul P y img.info.width
  let b ← u32Add P a x
  img.at' P b

/-- src/image/mod.rs:262-264 `get_pixel_unchecked` -/
def getPixelUnchecked (P : Profile) (img : Image T) (x y : Nat) : Res (List T) := do
  let a ← u32Mul P y img.info.width
  let b ← u32Add P a x
  img.at' P b

/-- src/image/mod.rs:271-276 `get_pixel_mut`: contents plus write-back -/
def getPixelMut (P : Profile) (img : Image T) (x y : Nat) :
    Res (List T × (List T → Image T)) := do
  checkXY x y img.info.width img.info.height
  let start ← img.index P x y
  let stop ← usizeAdd P start img.info.channels
  let s ← slice img.data start stop
  .ok (s, fun p => { img with data := img.data.take start ++ p ++ img.data.drop stop })

/-- src/image/mod.rs:280-283 `get_pixel_mut_unchecked` -/
def getPixelMutUnchecked (P : Profile) (img : Image T) (x y : Nat) :
    Res (List T × (List T → Image T)) := do
  let a ← u32Mul P y img.info.width
  let b ← u32Add P a x
  img.atMut P b

/-- src/image/mod.rs:291-303 `get_subimage` (the outer loop runs over x, the inner over y) -/
def getSubimage (P : Profile) (img : Image T) (x y width height : Nat) : Res (SubImage T) := do
  checkXY x y img.info.width img.info.height
  let xe ← u32Add P x width
  let data ← forRange x xe [] fun i data => do
    let ye ← u32Add P y height
    forRange y ye data fun j data => do
      let p ← img.getPixel P i j
      .ok (data ++ [p])
  .ok (SubImage.new width height img.info.channels img.info.alpha data)

/-- The coordinate used by the neighborhood functions: src/image/mod.rs:319-321, 331-333, 357-361.
`start` is the first coordinate, `i` the offset, `n` the image extent, `c` the centre. -/
def neighborCoord (P : Profile) (start : Int) (i n c : Nat) : Res Nat := do
  let cur ← i32Add P start (toI32 i)
  let cur := if cur < 0 ∨ cur ≥ toI32 n then toI32 c else cur
  .ok (i32ToU32 cur)

/-- `(x as i32) - (size as i32) / 2` : src/image/mod.rs:318, 330, 351-352 -/
def neighborStart (P : Profile) (x size : Nat) : Res Int := do
  let h ← i32Div (toI32 size) 2
  i32Sub P (toI32 x) h

/-- src/image/mod.rs:312-342 `get_neighborhood_1d` -/
def getNeighborhood1d (P : Profile) (img : Image T) (x y size : Nat) (isVert : Bool) :
    Res (SubImage T) := do
  checkXY x y img.info.width img.info.height
  if isVert then
    let startY ← neighborStart P y size
    let data ← forRange 0 size [] fun i data => do
      let cy ← neighborCoord P startY i img.info.height y
      let p ← img.getPixel P x cy
      .ok (data ++ [p])
    .ok (SubImage.new 1 size img.info.channels img.info.alpha data)
  else
    let startX ← neighborStart P x size
    let data ← forRange 0 size [] fun i data => do
      let cx ← neighborCoord P startX i img.info.width x
      let p ← img.getPixel P cx y
      .ok (data ++ [p])
    .ok (SubImage.new size 1 img.info.channels img.info.alpha data)

/-- src/image/mod.rs:348-369 `get_neighborhood_2d` -/
def getNeighborhood2d (P : Profile) (img : Image T) (x y size : Nat) : Res (SubImage T) := do
  checkXY x y img.info.width img.info.height
  let startX ← neighborStart P x size
  let startY ← neighborStart P y size
  let data ← forRange 0 size [] fun i data =>
    forRange 0 size data fun j data => do
      let cx ← neighborCoord P startX j img.info.width x
      let cy ← neighborCoord P startY i img.info.height y
      let p ← img.getPixel P cx cy
      .ok (data ++ [p])
  .ok (SubImage.new size size img.info.channels img.info.alpha data)

/-- src/image/mod.rs:376-382 `set_pixel` -/
def setPixel (P : Profile) (img : Image T) (x y : Nat) (pixel : List T) : Res (Image T) := do
  checkChannels img.info.channels pixel.length
  checkXY x y img.info.width img.info.height
  let start ← img.index P x y
  let stop ← usizeAdd P img.info.channels start
  let d ← writeSlice img.data start stop pixel
  .ok { img with data := d }

/-- src/image/mod.rs:389-394 `set_pixel_indexed` -/
def setPixelIndexed (P : Profile) (img : Image T) (index : Nat) (pixel : List T) :
    Res (Image T) := do
  checkChannels img.info.channels pixel.length
  let start ← usizeMul P index img.info.channels
  let stop ← usizeAdd P img.info.channels start
  let d ← writeSlice img.data start stop pixel
  .ok { img with data := d }

/-- src/image/mod.rs:397-418 `map_pixels`. The closure receives the pixel and the output vector
(empty at each call: `append` drains it) and returns the new output vector. -/
def mapPixels (P : Profile) (img : Image T) (f : List T → List S → Res (List S)) :
    Res (Image S) := do
  let n ← img.info.size P
  let data ← forRange 0 n [] fun i data => do
    let p ← img.at' P i
    let out ← f p []
    .ok (data ++ out)
  let n' ← img.info.size P
  let channels ← natDiv (usizeToU32 data.length) n'
  .ok { info := { img.info with channels := natToU8 channels }, data := data }

/-- src/image/mod.rs:423-450 `map_pixels_if_alpha` -/
def mapPixelsIfAlpha (P : Profile) (img : Image T) (f : List T → List S → Res (List S))
    (g : T → Res S) : Res (Image S) := do
  if !img.info.alpha then mapPixels P img f
  else
    let n ← img.info.size P
    let data ← forRange 0 n [] fun i data => do
      let p ← img.at' P i
      let cs ← Pixel.channelsWithoutAlpha P p
      let out ← f cs []
      let p' ← img.at' P i
      let a ← Pixel.alpha P p'
      let ga ← g a
      .ok (data ++ (out ++ [ga]))
    let n' ← img.info.size P
    let channels ← natDiv (usizeToU32 data.length) n'
    .ok { info := { img.info with channels := natToU8 channels }, data := data }

/-- src/image/mod.rs:453-465 `map_channels` -/
def mapChannels (P : Profile) (img : Image T) (f : T → Res S) : Res (Image S) := do
  let n ← img.info.fullSize P
  let data ← forRange 0 n [] fun i data => do
    let c ← idx img.data i
    let v ← f c
    .ok (data ++ [v])
  .ok { info := img.info, data := data }

/-- src/image/mod.rs:470-486 `map_channels_if_alpha` -/
def mapChannelsIfAlpha (P : Profile) (img : Image T) (f g : T → Res S) : Res (Image S) := do
  if !img.info.alpha then mapChannels P img f
  else
    let _ ← img.info.fullSize P
    let n ← img.info.size P
    let data ← forRange 0 n [] fun i data => do
      let p ← img.at' P i
      let q ← Pixel.mapAlpha P p f g
      .ok (data ++ q)
    .ok { info := img.info, data := data }

/-- src/image/mod.rs:489-498 `apply_pixels` -/
def applyPixels (P : Profile) (img : Image T) (f : List T → List T → Res (List T)) :
    Res (Image T) := do
  let n ← img.info.size P
  forRange 0 n img fun i img => do
    let p ← img.at' P i
    let out ← f p []
    img.setPixelIndexed P i out

/-- src/image/mod.rs:503-518 `apply_pixels_if_alpha` -/
def applyPixelsIfAlpha (P : Profile) (img : Image T) (f : List T → List T → Res (List T))
    (g : T → Res T) : Res (Image T) := do
  if !img.info.alpha then applyPixels P img f
  else
    let n ← img.info.size P
    forRange 0 n img fun i img => do
      let p ← img.at' P i
      let cs ← Pixel.channelsWithoutAlpha P p
      let out ← f cs []
      let p' ← img.at' P i
      let a ← Pixel.alpha P p'
      let ga ← g a
      img.setPixelIndexed P i (out ++ [ga])

/-- src/image/mod.rs:521-526 `apply_channels` -/
def applyChannels (P : Profile) (img : Image T) (f : T → Res T) : Res (Image T) := do
  let n ← img.info.fullSize P
  forRange 0 n img fun i img => do
    let c ← idx img.data i
    let v ← f c
    let d ← setIdx img.data i v
    .ok { img with data := d }

/-- src/image/mod.rs:531-542 `apply_channels_if_alpha` -/
def applyChannelsIfAlpha (P : Profile) (img : Image T) (f g : T → Res T) : Res (Image T) := do
  if !img.info.alpha then applyChannels P img f
  else
    let n ← img.info.size P
    forRange 0 n img fun i img => do
      let (p, back) ← img.atMut P i
      let q ← Pixel.applyAlpha P p f g
      .ok (back q)

/-- src/image/mod.rs:545-550 `edit_channel` -/
def editChannel (P : Profile) (img : Image T) (f : T → Res T) (index : Nat) : Res (Image T) := do
  let n ← img.info.fullSize P
  forStep index n img.info.channels img fun i img => do
    let c ← idx img.data i
    let v ← f c
    let d ← setIdx img.data i v
    .ok { img with data := d }
end Image

/-! ### PixelIter, src/image/pixel_iter.rs -/

/-- src/image/pixel_iter.rs:29-35 `PixelIter` (the image reference is passed separately) -/
structure PixelIter where
  x : Nat
  y : Nat
  xMax : Nat
  yMax : Nat
deriving DecidableEq, Repr

namespace PixelIter
variable {T : Type}
/-- src/image/pixel_iter.rs:38-46 `new` -/
def new (P : Profile) (img : Image T) : Res PixelIter := do
  let xm ← u32Sub P img.info.width 1
  let ym ← u32Sub P img.info.height 1
  .ok ⟨0, 0, xm, ym⟩

/-- src/image/pixel_iter.rs:52-67 `next` -/
def next (P : Profile) (img : Image T) (it : PixelIter) :
    Res (Option (Nat × Nat × List T) × PixelIter) := do
  if it.x > it.xMax ∧ it.y ≥ it.yMax then .ok (none, it)
  else
    let it ← if it.x > it.xMax then do
        let y' ← u32Add P it.y 1
        .ok { it with x := 0, y := y' }
      else .ok it
    let x' ← u32Add P it.x 1
    let p ← img.getPixel P it.x it.y
    .ok (some (it.x, it.y, p), { it with x := x' })

/-- src/image/pixel_iter.rs:69-72 `size_hint` -/
def sizeHint (P : Profile) (it : PixelIter) : Res (Nat × Option Nat) := do
  let a ← u32Add P it.xMax 1
  let b ← u32Add P it.yMax 1
  let s ← u32Mul P a b
  .ok (s, some s)
end PixelIter

end Imgproc

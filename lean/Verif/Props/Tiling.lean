import Verif.Props.Filter3
import Verif.Props.Linear
import Verif.Props.Transform
import Verif.Props.Bilateral
import Verif.Props.Filter4
import Verif.Props.Morphology3
import Verif.Spec.Tiling

/-!
# C130: filtering an image tile by tile

A user who processes an image in tiles relies on this: the result at a position of a tile, away from the seams by the
filter's radius, is bit for bit the result of processing the whole image. The margin is carried along, so the theorems chain.
-/
namespace Imgproc
open FloatOps (num ofNat)

theorem ClearOfSeam.lt {x0 w W m x : Nat} (h : ClearOfSeam x0 w W m x) : x < w := h.1
theorem ClearOfSeam.mono {x0 w W m m' x : Nat} (h : ClearOfSeam x0 w W m x) (hm : m' ≤ m) : ClearOfSeam x0 w W m' x :=
  ⟨h.1, h.2.1.imp id (by omega), h.2.2.imp id (by omega)⟩

/-- the replacement coordinate at a border is the same in the tile and in the image -/
theorem padCoord_tile {x0 w W m r x : Nat} (hw : x0 + w ≤ W) (h : ClearOfSeam x0 w W (m + r) x) {o : Int}
    (h1 : (x : Int) - r ≤ o) (h2 : o ≤ (x : Int) + r) :
    ClearOfSeam x0 w W m (padCoord w x o) ∧ padCoord W (x0 + x) (x0 + o) = x0 + padCoord w x o := by
  obtain ⟨a, b, c⟩ := h
  unfold padCoord ClearOfSeam
  split <;> split <;> omega

section
variable {T : Type} {tile img : Image T} {x0 y0 m : Nat}

theorem TileOf.px (t : TileOf tile img x0 y0 m) {x y : Nat} (hx : ClearOfSeam x0 tile.info.width img.info.width m x)
    (hy : ClearOfSeam y0 tile.info.height img.info.height m y) : tile.px x y = img.px (x0 + x) (y0 + y) := by
  have e := t.pixel .debug x y hx hy
  have h1 := hx.1
  have h2 := hy.1
  have := t.width
  have := t.height
  rw [Image.getPixel_eq _ t.wf h1 h2, Image.getPixel_eq _ t.whole (by omega) (by omega)] at e
  injection e

theorem TileOf.mono (t : TileOf tile img x0 y0 m) {m' : Nat} (h : m ≤ m') : TileOf tile img x0 y0 m' :=
  ⟨t.wf, t.whole, t.width, t.height, t.channels, t.alpha, fun P x y hx hy => t.pixel P x y (hx.mono h) (hy.mono h)⟩

theorem SameTile.mono {S : Type} {o ot : Image S} (t : SameTile tile img ot o x0 y0 m) {m' : Nat} (h : m ≤ m') :
    SameTile tile img ot o x0 y0 m' := ⟨t.tileShape, t.shape, t.tile.mono h⟩

/-- two images described pixel by pixel form a tile and its whole -/
theorem TileOf.of_shows {S : Type} (t : TileOf tile img x0 y0 m) {o ot : Image S} {m' : Nat} {f ft : Nat → Nat → List S}
    (s : o.Shows img.info f) (st : ot.Shows tile.info ft)
    (h : ∀ x y, ClearOfSeam x0 tile.info.width img.info.width m' x → ClearOfSeam y0 tile.info.height img.info.height m' y →
      ft x y = f (x0 + x) (y0 + y)) : SameTile tile img ot o x0 y0 m' := by
  have hi := s.info_eq
  have hit := st.info_eq
  refine ⟨hit, hi, st.WF, s.WF, by rw [hi, hit]; exact t.width, by rw [hi, hit]; exact t.height, by rw [hi, hit]; exact t.channels,
    by rw [hi, hit]; exact t.alpha, fun P x y hx hy => ?_⟩
  rw [hi, hit] at hx hy
  have := t.width
  have := t.height
  have h1 := hx.1
  have h2 := hy.1
  rw [st.2.2 P x y h1 h2, s.2.2 P (x0 + x) (y0 + y) (by omega) (by omega), h x y hx hy]

theorem TileOf.window1d (t : TileOf tile img x0 y0 m) {n x y : Nat} (v : Bool) (hodd : n % 2 = 1)
    (hx : ClearOfSeam x0 tile.info.width img.info.width (if v then m else m + n / 2) x)
    (hy : ClearOfSeam y0 tile.info.height img.info.height (if v then m + n / 2 else m) y) :
    window1d tile x y n v = Imgproc.window1d img (x0 + x) (y0 + y) n v := by
  unfold Imgproc.window1d
  apply List.map_congr_left
  intro k hk
  have hk := List.mem_range.1 hk
  cases v
  · simp only [Bool.false_eq_true, if_false] at hx hy ⊢
    have := padCoord_tile t.width hx (o := (x : Int) - (n / 2 : Nat) + k) (by omega) (by omega)
    rw [t.px this.1 hy, ← this.2]
    congr 2; push_cast; omega
  · simp only [if_true] at hx hy ⊢
    have := padCoord_tile t.height hy (o := (y : Int) - (n / 2 : Nat) + k) (by omega) (by omega)
    rw [t.px hx this.1, ← this.2]
    congr 2; push_cast; omega

theorem TileOf.window2d (t : TileOf tile img x0 y0 m) {n x y : Nat} (hodd : n % 2 = 1)
    (hx : ClearOfSeam x0 tile.info.width img.info.width (m + n / 2) x)
    (hy : ClearOfSeam y0 tile.info.height img.info.height (m + n / 2) y) :
    window2d tile x y n = Imgproc.window2d img (x0 + x) (y0 + y) n := by
  unfold Imgproc.window2d
  apply List.flatMap_congr
  intro i hi
  apply List.map_congr_left
  intro k hk
  have hi := List.mem_range.1 hi
  have hk := List.mem_range.1 hk
  have h1 := padCoord_tile t.width hx (o := (x : Int) - (n / 2 : Nat) + k) (by omega) (by omega)
  have h2 := padCoord_tile t.height hy (o := (y : Int) - (n / 2 : Nat) + i) (by omega) (by omega)
  rw [t.px h1.1 h2.1, ← h1.2, ← h2.2]
  congr 2 <;> (push_cast; omega)

/-- **C130** `crop` cuts a tile: no seam effects at all -/
theorem c130_crop (P : Profile) (N : RNum T) (img : Image T) (h : img.WF)
    (x y width height : Nat) (hx : x + width < img.info.width) (hy : y + height < img.info.height) :
    ∃ tile, crop P N img x y width height = .ok tile ∧ tile.info.width = width ∧ tile.info.height = height ∧
      TileOf tile img x y 0 := by
  obtain ⟨o, e, s⟩ := c60_crop_inside P N img h x y width height hx hy
  have hi := s.info_eq
  refine ⟨o, e, by rw [hi], by rw [hi], s.WF, h, by rw [hi]; exact hx.le, by rw [hi]; exact hy.le, by rw [hi], by rw [hi], ?_⟩
  intro Q i j hi' hj'
  rw [hi] at hi' hj'
  have h1 : i < width := hi'.1
  have h2 : j < height := hj'.1
  rw [s.2.2 Q i j h1 h2, Image.getPixel_eq _ h (by omega) (by omega)]

/-- **C130** a tile of a tile is a tile -/
theorem c130_nested {tile' : Image T} {x1 y1 : Nat} (t : TileOf tile img x0 y0 0) (t' : TileOf tile' tile x1 y1 0) :
    TileOf tile' img (x0 + x1) (y0 + y1) 0 := by
  have a := t.width
  have b := t.height
  have c := t'.width
  have d := t'.height
  refine ⟨t'.wf, t.whole, by omega, by omega, t'.channels.trans t.channels, t'.alpha.trans t.alpha, fun P x y hx hy => ?_⟩
  have e := hx.1
  have f := hy.1
  rw [t'.pixel P x y ⟨e, by omega, by omega⟩ ⟨f, by omega, by omega⟩,
    t.pixel P (x1 + x) (y1 + y) ⟨by omega, by omega, by omega⟩ ⟨by omega, by omega, by omega⟩, Nat.add_assoc, Nat.add_assoc]
end

section
variable {F : Type} [FloatOps F] {tile img : Image F} {x0 y0 m : Nat}

/-- **C130** `filter_1d`, any kernel of odd length, any arithmetic: the margin grows by half the kernel -/
theorem c130_filter_1d (P : Profile) (t : TileOf tile img x0 y0 m) (kernel : List F) (isVert : Bool)
    (hodd : kernel.length % 2 = 1)
    (hw : img.info.width + kernel.length ≤ 2147483648) (hh : img.info.height + kernel.length ≤ 2147483648) :
    ∃ o ot, filter1d P img kernel isVert = .ok o ∧ filter1d P tile kernel isVert = .ok ot ∧
      SameTile tile img ot o x0 y0 (m + kernel.length / 2) := by
  have hw' := t.width
  have hh' := t.height
  obtain ⟨o, e, s⟩ := c47_filter_1d_partial P img t.whole kernel isVert hodd hw hh
  obtain ⟨ot, et, st⟩ := c47_filter_1d_partial P tile t.wf kernel isVert hodd (by omega) (by omega)
  refine ⟨o, ot, e, et, t.of_shows s st fun x y hx hy => ?_⟩
  rw [t.channels, t.window1d isVert hodd (hx.mono (by split <;> omega)) (hy.mono (by split <;> omega))]

/-- **C130** `separable_filter`: the margin grows by half the kernel, not by twice that -/
theorem c130_separable (P : Profile) (t : TileOf tile img x0 y0 m) (vert horz : List F)
    (hodd : vert.length % 2 = 1) (heq : vert.length = horz.length)
    (hw : img.info.width + vert.length ≤ 2147483648) (hh : img.info.height + vert.length ≤ 2147483648) :
    ∃ o ot, separableFilter P img vert horz = .ok o ∧ separableFilter P tile vert horz = .ok ot ∧
      SameTile tile img ot o x0 y0 (m + vert.length / 2) := by
  have hw' := t.width
  have hh' := t.height
  obtain ⟨mid, o, e, sm, s⟩ := c47_separable_partial P img t.whole vert horz hodd heq hw hh
  obtain ⟨midt, ot, et, smt, st⟩ := c47_separable_partial P tile t.wf vert horz hodd heq (by omega) (by omega)
  refine ⟨o, ot, e, et, t.of_shows s st fun x y hx hy => ?_⟩
  rw [t.channels]
  congr 2
  unfold window1d
  apply List.map_congr_left
  intro k hk
  have hk := List.mem_range.1 hk
  simp only [Bool.false_eq_true, if_false]
  rw [sm.info_eq, smt.info_eq]
  have h1 := padCoord_tile t.width hx (o := (x : Int) - (horz.length / 2 : Nat) + k) (by omega) (by omega)
  have h2 := h1.1.1
  have h3 := hy.1
  rw [smt.px_eq h2 h3]
  have hc : (((x0 + x : Nat) : Int) - (horz.length / 2 : Nat) + k) = (x0 : Int) + ((x : Int) - (horz.length / 2 : Nat) + k) := by
    push_cast; omega
  rw [hc, h1.2, sm.px_eq (by omega) (by omega), t.channels,
    t.window1d true hodd (by simpa using h1.1) (by simpa using hy)]

/-- **C130** `box_filter` (whose kernel is `size * size` long): the margin grows by `size * size / 2` -/
theorem c130_box (P : Profile) (t : TileOf tile img x0 y0 m) (size : Nat) (hodd : size % 2 = 1) (hs : size < 65536)
    (hw : img.info.width + size * size ≤ 2147483648) (hh : img.info.height + size * size ≤ 2147483648) :
    ∃ o ot, boxFilter P img size = .ok o ∧ boxFilter P tile size = .ok ot ∧ SameTile tile img ot o x0 y0 (m + size * size / 2) := by
  have hsq : size * size < 4294967296 := by
    have : size * size ≤ 65535 * 65535 := Nat.mul_le_mul (by omega) (by omega)
    omega
  have ho : size * size % 2 = 1 := by rw [Nat.mul_mod, hodd]
  have := c130_separable P t (List.replicate (size * size) ((num 1 : F) /. ofNat (size * size)))
    (List.replicate (size * size) ((num 1 : F) /. ofNat (size * size))) (by simpa using ho) rfl (by simpa using hw) (by simpa using hh)
  simp only [List.length_replicate] at this
  unfold boxFilter
  rw [checkOdd_u32_ok hodd, ok_bind, u32Mul_ok hsq, ok_bind]
  exact this

/-- **C130** the gradient filters (`sobel`, `prewitt`, `sobel_weighted` and any other pair of 1-d masks) -/
theorem c130_derivative_mask (P : Profile) (t : TileOf tile img x0 y0 m) (vert horz : List F)
    (hch : img.info.channels = 1) (ha : img.info.alpha = false)
    (hodd : vert.length % 2 = 1) (heq : vert.length = horz.length)
    (hw : img.info.width + vert.length ≤ 2147483648) (hh : img.info.height + vert.length ≤ 2147483648) :
    ∃ o ot, derivativeMask P img vert horz = .ok o ∧ derivativeMask P tile vert horz = .ok ot ∧
      SameTile tile img ot o x0 y0 (m + vert.length / 2) := by
  have hw' := t.width
  have hh' := t.height
  obtain ⟨gx, gy, o, ex, ey, e, s⟩ := c54_derivative_mask_partial P img t.whole vert horz hch ha hodd heq hw hh
  obtain ⟨gxt, gyt, ot, ext, eyt, et, st⟩ := c54_derivative_mask_partial P tile t.wf vert horz (t.channels.trans hch)
    (t.alpha.trans ha) hodd heq (by omega) (by omega)
  obtain ⟨_, _, h1, h2, tx⟩ := c130_separable P t vert horz hodd heq hw hh
  obtain ⟨_, _, h3, h4, ty⟩ := c130_separable P t horz vert (heq ▸ hodd) heq.symm (heq ▸ hw) (heq ▸ hh)
  rw [ex] at h1; rw [ext] at h2; rw [ey] at h3; rw [eyt] at h4
  cases h1; cases h2; cases h3; cases h4
  refine ⟨o, ot, e, et, t.of_shows s st fun x y hx hy => ?_⟩
  obtain ⟨i2, i1, tx⟩ := tx
  obtain ⟨i4, i3, ty⟩ := ty
  rw [tx.px (by rw [i1, i2]; exact hx) (by rw [i1, i2]; exact hy),
    ty.px (by rw [i3, i4, ← heq]; exact hx) (by rw [i3, i4, ← heq]; exact hy)]

/-- **C130** `sobel`, `prewitt` and `sobel_weighted`: the margin grows by one pixel -/
theorem c130_edge (P : Profile) (t : TileOf tile img x0 y0 m) (hch : img.info.channels = 1) (ha : img.info.alpha = false)
    (hw : img.info.width + 3 ≤ 2147483648) (hh : img.info.height + 3 ≤ 2147483648) (weight : Nat) :
    (∃ o ot, sobel P img = .ok o ∧ sobel P tile = .ok ot ∧ SameTile tile img ot o x0 y0 (m + 1)) ∧
    (∃ o ot, prewitt P img = .ok o ∧ prewitt P tile = .ok ot ∧ SameTile tile img ot o x0 y0 (m + 1)) ∧
    (∃ o ot, sobelWeighted P img weight = .ok o ∧ sobelWeighted P tile weight = .ok ot ∧ SameTile tile img ot o x0 y0 (m + 1)) :=
  ⟨let ⟨o, ot, e, et, t'⟩ := c130_derivative_mask P t K_SOBEL_1D_VERT K_SOBEL_1D_HORZ hch ha (by simp [K_SOBEL_1D_VERT]) rfl hw hh
   ⟨o, ot, e, et, t'.mono (by simp [K_SOBEL_1D_VERT])⟩,
   let ⟨o, ot, e, et, t'⟩ := c130_derivative_mask P t K_PREWITT_1D_VERT K_PREWITT_1D_HORZ hch ha (by simp [K_PREWITT_1D_VERT]) rfl hw hh
   ⟨o, ot, e, et, t'.mono (by simp [K_PREWITT_1D_VERT])⟩,
   let ⟨o, ot, e, et, t'⟩ := c130_derivative_mask P t [num 1, ofNat weight, num 1] K_SOBEL_1D_HORZ hch ha (by simp) rfl hw hh
   ⟨o, ot, e, et, t'.mono (by simp)⟩⟩

/-- **C130** `threshold` looks at one pixel: the margin stays -/
theorem c130_threshold (P : Profile) (t : TileOf tile img x0 y0 m) (hg : Grayscale img.info) (thr max : F) (method : Thresh) :
    ∃ o ot, threshold P img thr max method = .ok o ∧ threshold P tile thr max method = .ok ot ∧ SameTile tile img ot o x0 y0 m := by
  obtain ⟨o, e, s⟩ := c52_threshold P t.whole hg thr max method
  obtain ⟨ot, et, st⟩ := c52_threshold P t.wf (by unfold Grayscale; rw [t.channels, t.alpha]; exact hg) thr max method
  refine ⟨o, ot, e, et, t.of_shows s st fun x y hx hy => ?_⟩
  rw [t.px hx hy]
  unfold ImageInfo.colour ImageInfo.alphaOf
  rw [t.alpha]
end

section
variable [Libm f32] {tile img : Image F32} {x0 y0 m : Nat}

/-- **C130** `unseparable_filter`, any `n x n` kernel, bit for bit in f32 -/
theorem c130_unseparable (P : Profile) (t : TileOf tile img x0 y0 m) (kernel : List F32) (n : Nat)
    (hodd : n % 2 = 1) (hk : kernel.length = n * n) (hn : n ≤ 65535)
    (hw : img.info.width + n ≤ 2147483648) (hh : img.info.height + n ≤ 2147483648) :
    ∃ o ot, unseparableFilter P img kernel = .ok o ∧ unseparableFilter P tile kernel = .ok ot ∧
      SameTile tile img ot o x0 y0 (m + n / 2) := by
  have hw' := t.width
  have hh' := t.height
  obtain ⟨o, e, s⟩ := c47_unseparable_large_partial P img t.whole kernel n hodd hk hn hw hh
  obtain ⟨ot, et, st⟩ := c47_unseparable_large_partial P tile t.wf kernel n hodd hk hn (by omega) (by omega)
  refine ⟨o, ot, e, et, t.of_shows s st fun x y hx hy => ?_⟩
  rw [t.channels, t.window2d hodd hx hy]

/-- **C130** `sharpen`, `laplacian` (margin 1) and `unsharp_masking` (margin 2) -/
theorem c130_sharpen (P : Profile) (t : TileOf tile img x0 y0 m)
    (hw : img.info.width + 5 ≤ 2147483648) (hh : img.info.height + 5 ≤ 2147483648) :
    (∃ o ot, sharpen P img = .ok o ∧ sharpen P tile = .ok ot ∧ SameTile tile img ot o x0 y0 (m + 1)) ∧
    (∃ o ot, laplacian P img = .ok o ∧ laplacian P tile = .ok ot ∧ SameTile tile img ot o x0 y0 (m + 1)) ∧
    (∃ o ot, unsharpMasking P img = .ok o ∧ unsharpMasking P tile = .ok ot ∧ SameTile tile img ot o x0 y0 (m + 2)) :=
  ⟨c130_unseparable P t K_SHARPEN 3 rfl rfl (by omega) (by omega) (by omega),
   c130_unseparable P t K_LAPLACIAN 3 rfl rfl (by omega) (by omega) (by omega),
   c130_unseparable P t K_UNSHARP_MASKING 5 rfl rfl (by omega) (by omega) (by omega)⟩

/-- **C130** `weighted_avg_filter` and `laplacian_of_gaussian` -/
theorem c130_kernels (P : Profile) (t : TileOf tile img x0 y0 m) (size : Nat) (hodd : size % 2 = 1) (hs : size * size < 2147483648)
    (hw : img.info.width + size ≤ 2147483648) (hh : img.info.height + size ≤ 2147483648) :
    (∀ weight, size * size - 1 + weight < 4294967296 → ∃ o ot, weightedAvgFilter P img size weight = .ok o ∧
      weightedAvgFilter P tile size weight = .ok ot ∧ SameTile tile img ot o x0 y0 (m + size / 2)) ∧
    (∀ sigma : F32, ∃ o ot, laplacianOfGaussian P img size sigma = .ok o ∧ laplacianOfGaussian P tile size sigma = .ok ot ∧
      SameTile tile img ot o x0 y0 (m + size / 2)) := by
  have hs' : size ≤ 65535 := by
    by_contra h
    have : 65536 * 65536 ≤ size * size := Nat.mul_le_mul (by omega) (by omega)
    omega
  constructor
  · intro weight hsum
    unfold weightedAvgFilter
    rw [checkOdd_u32_ok hodd, ok_bind, c50_kernel P size weight hodd (by omega) hsum, ok_bind, ok_bind]
    exact c130_unseparable P t _ size hodd (by simp) hs' hw hh
  · intro sigma
    obtain ⟨k, e, hl, _⟩ := c43_log P size sigma hodd hs
    unfold laplacianOfGaussian
    rw [e, ok_bind, ok_bind]
    exact c130_unseparable P t _ size hodd hl hs' hw hh
end
end Imgproc

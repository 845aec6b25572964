import Verif.Props.Tiling

/-! # C130, continued: filters that choose a kernel by SVD, the bilateral filter, morphology -/
namespace Imgproc
open FloatOps

theorem col0Scaled_length {F : Type} [FloatOps F] {m : List F} {size : Nat} {k : F} {out : List F}
    (h : col0Scaled m size k = .ok out) : out.length = size := by
  unfold col0Scaled at h
  suffices H : ∀ (d a : Nat) (s : List F), (forRange a (a + d) s fun i out => do
      let v ← idx m (i * size)
      Except.ok (out ++ [v *. k])) = .ok out → out.length = s.length + d by
    simpa using H size 0 [] (by simpa using h)
  intro d
  induction d with
  | zero => intro a s h; rw [forRange_empty (by omega)] at h; cases h; rfl
  | succ d ih =>
    intro a s h
    rw [forRange_cons (by omega)] at h
    obtain ⟨s1, e1, h⟩ := bind_eq_ok h
    obtain ⟨v, _, e1⟩ := bind_eq_ok e1
    cases e1
    rw [show a + (d + 1) = (a + 1) + d by omega] at h
    have := ih (a + 1) _ h
    simp at this
    omega

section
variable [Libm f32] {tile img : Image F32} {x0 y0 m : Nat}

/-- **C130** `linear_filter`, whatever the SVD routine answers: if it succeeds on the image it succeeds on the tile, and the
margin grows by half the kernel side -/
theorem c130_linear (svd : Svd F32) (P : Profile) (t : TileOf tile img x0 y0 m) (kernel : List F32) (n : Nat)
    (hodd : n % 2 = 1) (hk : kernel.length = n * n) (hn : n ≤ 65535)
    (hw : img.info.width + n ≤ 2147483648) (hh : img.info.height + n ≤ 2147483648)
    (o : Image F32) (e : linearFilter svd P img kernel = .ok o) :
    ∃ ot, linearFilter svd P tile kernel = .ok ot ∧ SameTile tile img ot o x0 y0 (m + n / 2) := by
  unfold linearFilter at e ⊢
  obtain ⟨u1, e1, e⟩ := bind_eq_ok e
  obtain ⟨u2, e2, e⟩ := bind_eq_ok e
  obtain ⟨sep, e3, e⟩ := bind_eq_ok e
  rw [e1, ok_bind, e2, ok_bind, e3, ok_bind]
  match sep, e3, e with
  | none, _, e =>
    obtain ⟨o', ot, a, b, c⟩ := c130_unseparable P t kernel n hodd hk hn hw hh
    have e : unseparableFilter P img kernel = .ok o := e
    rw [e] at a; cases a
    exact ⟨ot, b, c⟩
  | some (v, h), e3, e =>
    have hl : v.length = n ∧ h.length = n := by
      unfold separateKernel at e3
      dsimp only at e3
      split at e3
      · cases e3
      · rename_i hne
        have hne : kernel.length = _ := not_not.1 hne
        have hs := hne.symm.trans hk
        generalize toUsize (FloatOps.sqrt (ofNat (F := F32) kernel.length)) = s at *
        have hs : s = n := Nat.mul_self_inj.1 hs
        subst hs
        split at e3
        · cases e3
        · obtain ⟨s0, _, e3⟩ := bind_eq_ok e3
          split at e3
          · obtain ⟨bad, _, e3⟩ := bind_eq_ok e3
            split at e3
            · cases e3
            · obtain ⟨a, ha, e3⟩ := bind_eq_ok e3
              obtain ⟨b, hb, e3⟩ := bind_eq_ok e3
              cases e3
              exact ⟨col0Scaled_length ha, col0Scaled_length hb⟩
          · cases e3
    obtain ⟨o', ot, a, b, c⟩ := c130_separable P t v h (by rw [hl.1]; exact hodd) (hl.1.trans hl.2.symm)
      (by rw [hl.1]; exact hw) (by rw [hl.1]; exact hh)
    have e : separableFilter P img v h = .ok o := e
    rw [e] at a; cases a
    exact ⟨ot, b, by rw [← hl.1]; exact c⟩

/-- **C130** `gaussian_blur` -/
theorem c130_gaussian_blur (svd : Svd F32) (P : Profile) (t : TileOf tile img x0 y0 m) (size : Nat) (sigma : F32)
    (hodd : size % 2 = 1) (hs : size * size < 2147483648)
    (hw : img.info.width + size ≤ 2147483648) (hh : img.info.height + size ≤ 2147483648)
    (o : Image F32) (e : gaussianBlur svd P img size sigma = .ok o) :
    ∃ ot, gaussianBlur svd P tile size sigma = .ok ot ∧ SameTile tile img ot o x0 y0 (m + size / 2) := by
  have hs' : size ≤ 65535 := by
    by_contra h
    have : 65536 * 65536 ≤ size * size := Nat.mul_le_mul (by omega) (by omega)
    omega
  obtain ⟨k, ek, hl, _⟩ := c43_gaussian P size sigma hodd hs
  unfold gaussianBlur at e ⊢
  rw [ek, ok_bind] at e ⊢
  exact c130_linear svd P t k size hodd hl hs' hw hh o e

omit [Libm f32] in
/-- a pixel-wise conversion of a tile -/
theorem TileOf.of_CA {T S : Type} {tile img : Image T} (t : TileOf tile img x0 y0 m) {o ot : Image S} {m' : Nat}
    {C Ct A At : Nat → Nat → List S} (s : o.CA img.info C A) (st : ot.CA tile.info Ct At)
    (h : ∀ x y, ClearOfSeam x0 tile.info.width img.info.width m' x → ClearOfSeam y0 tile.info.height img.info.height m' y →
      Ct x y = C (x0 + x) (y0 + y) ∧ At x y = A (x0 + x) (y0 + y)) : SameTile tile img ot o x0 y0 m' :=
  t.of_shows s.shows st.shows fun x y hx hy => by rw [(h x y hx hy).1, (h x y hx hy).2]

/-- **C130** `bilateral_filter`: colour conversion, smoothing and conversion back, bit for bit -/
theorem c130_bilateral (P : Profile) {tile img : Image UInt8} (t : TileOf tile img x0 y0 m) (range spatial : F32)
    (hr : ¬ Negative range) (hsp : ¬ Negative spatial) (size : Nat) (hsize : bilateralSize spatial = size)
    (hodd : size % 2 = 1) (hlt : size < 65536)
    (hpos : 0 < tile.info.width ∧ 0 < tile.info.height) (h3 : img.info.colours = 3)
    (hw : img.info.width + size ≤ 2147483648) (hh : img.info.height + size ≤ 2147483648) :
    ∃ o ot, bilateralFilter P img range spatial = .ok o ∧ bilateralFilter P tile range spatial = .ok ot ∧
      SameTile tile img ot o x0 y0 (m + size / 2) := by
  have hw' := t.width
  have hh' := t.height
  have h3' : tile.info.colours = 3 := by unfold ImageInfo.colours at h3 ⊢; rw [t.channels, t.alpha]; exact h3
  obtain ⟨mat, em, hml, _⟩ := c44_spatial_mat_partial P size spatial hodd hlt hsp
  obtain ⟨o, lab, fil, e, _, _, _, cl, sf, _, co⟩ := bilateral_core P img t.whole range spatial (nonNeg_ok hr) (nonNeg_ok hsp)
    size hsize (by omega) hlt em hml ⟨by omega, by omega⟩ h3 hw hh
  obtain ⟨ot, labt, filt, et, _, _, _, clt, sft, _, cot⟩ := bilateral_core P tile t.wf range spatial (nonNeg_ok hr) (nonNeg_ok hsp)
    size hsize (by omega) hlt em hml hpos h3' (by omega) (by omega)
  have hcol : ∀ {T : Type} (p : List T), tile.info.colour p = img.info.colour p := fun p => by
    unfold ImageInfo.colour; rw [t.alpha]
  have halp : ∀ {T : Type} (p : List T), tile.info.alphaOf p = img.info.alphaOf p := fun p => by
    unfold ImageInfo.alphaOf; rw [t.alpha]
  have tl : TileOf labt lab x0 y0 m := (t.of_CA cl clt fun x y hx hy => by
    rw [t.px hx hy, hcol, halp]; exact ⟨rfl, rfl⟩).tile
  have il := cl.info_eq
  have ilt := clt.info_eq
  have tf : TileOf filt fil x0 y0 (m + size / 2) := (t.of_shows sf sft fun x y hx hy => by
    rw [t.channels, tl.window2d hodd (by rw [il, ilt]; exact hx) (by rw [il, ilt]; exact hy),
      tl.px (by rw [il, ilt]; exact hx.mono (by omega)) (by rw [il, ilt]; exact hy.mono (by omega))]).tile
  refine ⟨o, ot, e, et, t.of_CA co cot fun x y hx hy => ?_⟩
  rw [tf.px (by rw [sf.info_eq, sft.info_eq]; exact hx) (by rw [sf.info_eq, sft.info_eq]; exact hy), hcol, halp]
  exact ⟨rfl, rfl⟩
end

section
variable {tile img : Image UInt8} {x0 y0 m : Nat}

theorem draw_congr {p q : Prop} {_ : Decidable p} {_ : Decidable q} (h : p ↔ q) :
    [if p then (255 : UInt8) else 0] = [if q then 255 else 0] := by simp only [h]

theorem isWhite_iff' {img : Image UInt8} (h : img.WF) {x y : Nat} :
    IsWhite img x y ↔ x < img.info.width ∧ y < img.info.height ∧ img.px x y = [255] := by
  constructor
  · intro e
    by_cases hx : x < img.info.width ∧ y < img.info.height
    · exact ⟨hx.1, hx.2, (isWhite_iff h hx.1 hx.2).1 e⟩
    · have := e .debug
      unfold Image.getPixel checkXY at this
      split at this
      · cases this
      · split at this
        · cases this
        · omega
  · rintro ⟨a, b, c⟩; exact (isWhite_iff h a b).2 c

theorem TileOf.small (t : TileOf tile img x0 y0 m) (h : img.info.width * img.info.height * 255 ≤ 8388608) :
    tile.info.width * tile.info.height * 255 ≤ 8388608 := by
  have hw := t.width
  have hh := t.height
  have : tile.info.width * tile.info.height ≤ img.info.width * img.info.height := Nat.mul_le_mul (by omega) (by omega)
  exact (Nat.mul_le_mul_right 255 this).trans h

variable [Libm f32]

/-- **C130** `erode` -/
theorem c130_erode (P : Profile) (t : TileOf tile img x0 y0 m) (hch : img.info.channels = 1) (ha : img.info.alpha = false)
    {r : Nat} (hrw : r ≤ tile.info.width) (hrh : r ≤ tile.info.height)
    (hsmall : img.info.width * img.info.height * 255 ≤ 8388608) :
    ∃ o ot, erode F32 P img r = .ok o ∧ erode F32 P tile r = .ok ot ∧ SameTile tile img ot o x0 y0 (m + r) := by
  have hw := t.width
  have hh := t.height
  obtain ⟨o, e, s⟩ := c72_erode P t.whole hch ha (r := r) (by omega) (by omega) hsmall
  obtain ⟨ot, et, st⟩ := c72_erode P t.wf (t.channels.trans hch) (t.alpha.trans ha) hrw hrh (t.small hsmall)
  refine ⟨o, ot, e, et, t.of_shows s st fun x y hx hy => ?_⟩
  have : Eroded tile r x y ↔ Eroded img r (x0 + x) (y0 + y) := by
    unfold Eroded
    constructor
    · intro H i j hi hj
      obtain ⟨a, b, ea, eb, hab⟩ := H (i - x0) (j - y0) (by push_cast at hi; rw [show i - x0 - x = i - (x0 + x) by ring]; exact hi)
        (by push_cast at hj; rw [show j - y0 - y = j - (y0 + y) by ring]; exact hj)
      obtain ⟨h1, h2, h3⟩ := (isWhite_iff' t.wf).1 hab
      push_cast at hi hj
      rw [abs_le] at hi hj
      obtain ⟨hx1, hx2, hx3⟩ := hx
      obtain ⟨hy1, hy2, hy3⟩ := hy
      rw [t.px ⟨h1, by omega, by omega⟩ ⟨h2, by omega, by omega⟩] at h3
      exact ⟨x0 + a, y0 + b, by omega, by omega, (isWhite_iff' t.whole).2 ⟨by omega, by omega, h3⟩⟩
    · intro H i j hi hj
      obtain ⟨a, b, ea, eb, hab⟩ := H (i + x0) (j + y0) (by push_cast; rw [show i + x0 - (x0 + x) = i - x by ring]; exact hi)
        (by push_cast; rw [show j + y0 - (y0 + y) = j - y by ring]; exact hj)
      obtain ⟨h1, h2, h3⟩ := (isWhite_iff' t.whole).1 hab
      rw [abs_le] at hi hj
      obtain ⟨hx1, hx2, hx3⟩ := hx
      obtain ⟨hy1, hy2, hy3⟩ := hy
      refine ⟨a - x0, b - y0, by omega, by omega, (isWhite_iff' t.wf).2 ⟨by omega, by omega, ?_⟩⟩
      rw [t.px ⟨by omega, by omega, by omega⟩ ⟨by omega, by omega, by omega⟩, show x0 + (a - x0) = a by omega,
        show y0 + (b - y0) = b by omega]
      exact h3
  exact draw_congr this

/-- **C130** `dilate` and `majority`. At the image border the code's window is not the one documented (C73); the tile sees
the same window. -/
theorem c130_dilate (P : Profile) (t : TileOf tile img x0 y0 m) (hb : Binary img) (hbt : Binary tile)
    {r : Nat} (hrw : r ≤ tile.info.width) (hrh : r ≤ tile.info.height)
    (hsmall : img.info.width * img.info.height * 255 ≤ 8388608) :
    ∃ o ot, dilate F32 P img r = .ok o ∧ dilate F32 P tile r = .ok ot ∧ majority F32 P img r = .ok o ∧
      majority F32 P tile r = .ok ot ∧ SameTile tile img ot o x0 y0 (m + r) := by
  have hw := t.width
  have hh := t.height
  obtain ⟨o, e, s⟩ := c73_exact_window P hb (r := r) (by omega) (by omega) hsmall
  obtain ⟨ot, et, st⟩ := c73_exact_window P hbt hrw hrh (t.small hsmall)
  refine ⟨o, ot, e, et, by rw [c74_is_dilate]; exact e, by rw [c74_is_dilate]; exact et, t.of_shows s st fun x y hx hy => ?_⟩
  refine draw_congr ?_
  beta_reduce
  obtain ⟨hx1, hx2, hx3⟩ := hx
  obtain ⟨hy1, hy2, hy3⟩ := hy
  constructor
  · rintro ⟨a, b, a1, a2, b1, b2, hab⟩
    obtain ⟨h1, h2, h3⟩ := (isWhite_iff' t.wf).1 hab
    rw [t.px ⟨h1, by split_ifs at a1 a2 <;> omega, by split_ifs at a1 a2 <;> omega⟩
      ⟨h2, by split_ifs at b1 b2 <;> omega, by split_ifs at b1 b2 <;> omega⟩] at h3
    refine ⟨x0 + a, y0 + b, ?_, ?_, ?_, ?_, (isWhite_iff' t.whole).2 ⟨by omega, by omega, h3⟩⟩
    · split_ifs at a1 a2 ⊢ <;> omega
    · split_ifs at a1 a2 ⊢ <;> omega
    · split_ifs at b1 b2 ⊢ <;> omega
    · split_ifs at b1 b2 ⊢ <;> omega
  · rintro ⟨a, b, a1, a2, b1, b2, hab⟩
    obtain ⟨h1, h2, h3⟩ := (isWhite_iff' t.whole).1 hab
    have ha0 : x0 ≤ a := by split_ifs at a1 a2 <;> omega
    have hb0 : y0 ≤ b := by split_ifs at b1 b2 <;> omega
    have ha1 : a < x0 + tile.info.width := by split_ifs at a1 a2 <;> omega
    have hb1 : b < y0 + tile.info.height := by split_ifs at b1 b2 <;> omega
    refine ⟨a - x0, b - y0, ?_, ?_, ?_, ?_, (isWhite_iff' t.wf).2 ⟨by omega, by omega, ?_⟩⟩
    · split_ifs at a1 a2 ⊢ <;> omega
    · split_ifs at a1 a2 ⊢ <;> omega
    · split_ifs at b1 b2 ⊢ <;> omega
    · split_ifs at b1 b2 ⊢ <;> omega
    · rw [t.px ⟨by omega, by split_ifs at a1 a2 <;> omega, by split_ifs at a1 a2 <;> omega⟩
        ⟨by omega, by split_ifs at b1 b2 <;> omega, by split_ifs at b1 b2 <;> omega⟩, show x0 + (a - x0) = a by omega,
        show y0 + (b - y0) = b by omega]
      exact h3
end

section
variable {T : Type} {left right img : Image T}

/-- **C130** stitching: two tiles that overlap by `2 m` columns and are right `m` away from the seam determine the whole
image: take columns before `a` from the left tile, the others from the right tile -/
theorem c130_stitch {a m : Nat} (ha : m ≤ a) (haw : a ≤ img.info.width) (tl : TileOf left img 0 0 m) (tr : TileOf right img (a - m) 0 m)
    (hl : left.info.width = min (a + m) img.info.width) (hr : right.info.width = img.info.width - (a - m))
    (hlh : left.info.height = img.info.height) (hrh : right.info.height = img.info.height)
    (P : Profile) (x y : Nat) (hx : x < img.info.width) (hy : y < img.info.height) :
    img.getPixel P x y = if x < a then left.getPixel P x y else right.getPixel P (x - (a - m)) y := by
  split
  · rw [tl.pixel P x y ⟨by omega, by omega, by omega⟩ ⟨by omega, by omega, by omega⟩, Nat.zero_add, Nat.zero_add]
  · rw [tr.pixel P (x - (a - m)) y ⟨by omega, by omega, by omega⟩ ⟨by omega, by omega, by omega⟩, Nat.zero_add,
      show a - m + (x - (a - m)) = x by omega]
end

/-- every 5 x 5 one-channel image: cut out a 3 x 3 tile, take the gradient and threshold it. The tile's centre pixel is the
whole image's pixel `(2, 2)`. -/
example [Libm f32] (P : Profile) (d : List F32) (hd : d.length = 25) (thr : F32) :
    ∃ tile g gt o ot, crop P FloatOps.rnum (Image.fromVec 5 5 1 false d) 1 1 3 3 = .ok tile ∧
      sobel P (Image.fromVec 5 5 1 false d) = .ok g ∧ sobel P tile = .ok gt ∧
      threshold P g thr (num 255) .binary = .ok o ∧ threshold P gt thr (num 255) .binary = .ok ot ∧
      ot.getPixel P 1 1 = o.getPixel P 2 2 := by
  have wf : (Image.fromVec 5 5 1 false d).WF :=
    ⟨show 5 < _ by decide, show 5 < _ by decide, show 1 < _ by decide, show 5 * 5 < _ by decide, show 5 * 5 * 1 < _ by decide, hd⟩
  obtain ⟨tile, e, w, h, t⟩ := c130_crop P FloatOps.rnum _ wf 1 1 3 3 (show 4 < 5 by omega) (show 4 < 5 by omega)
  obtain ⟨⟨g, gt, e1, e2, t1⟩, -⟩ := c130_edge P t rfl rfl (show 5 + 3 ≤ _ by omega) (show 5 + 3 ≤ _ by omega) 2
  obtain ⟨o, ot, e3, e4, t2⟩ := c130_threshold P t1.tile (by rw [t1.shape]; exact .inl ⟨rfl, rfl⟩) thr (num 255) .binary
  refine ⟨tile, g, gt, o, ot, e, e1, e2, e3, e4, t2.tile.pixel P 1 1 ?_ ?_⟩
  · rw [t2.tileShape, t2.shape, t1.tileShape, t1.shape, w]; exact ⟨by omega, by omega, by omega⟩
  · rw [t2.tileShape, t2.shape, t1.tileShape, t1.shape, h]; exact ⟨by omega, by omega, by omega⟩
end Imgproc

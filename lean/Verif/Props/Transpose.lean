import Verif.Spec.Transpose
import Verif.Props.Mirror
import Verif.Props.Scale
import Verif.Props.Scale9
import Verif.Props.Shear
import Verif.Props.Scale6

/-!
# C136: rows and columns are treated alike

Exchanging the rows and columns of the image (and the two directions in the arguments) exchanges the rows and columns of the result.
-/
namespace Imgproc
open FloatOps
variable {T S : Type}

theorem ImageInfo.transpose_WF {i : ImageInfo} (h : i.WF) : i.transpose.WF :=
  ⟨h.height, h.width, h.channels, by have := h.size; show i.height * i.width < _; rwa [Nat.mul_comm],
    by have := h.full; show i.height * i.width * i.channels < _; rwa [Nat.mul_comm i.height]⟩

theorem transposeOf_iff {a b : Image T} (h : a.WF) : TransposeOf a b ↔ b.Shows a.info.transpose fun x y => a.px y x := by
  constructor
  · rintro ⟨h1, h2, h3⟩
    exact ⟨h1, h2, fun P x y hx hy => by rw [h3 P x y hx hy, Image.getPixel_eq P h hy hx]⟩
  · rintro ⟨h1, h2, h3⟩
    exact ⟨h1, h2, fun P x y hx hy => by rw [h3 P x y hx hy, Image.getPixel_eq P h hy hx]⟩

theorem TransposeOf.px {a b : Image T} (h : a.WF) (t : TransposeOf a b) {x y : Nat} (hx : x < a.info.height) (hy : y < a.info.width) :
    b.px x y = a.px y x := ((transposeOf_iff h).1 t).px_eq hx hy

/-- **C136** Every image has exactly one transpose, and transposing that gives the image back. -/
theorem c136_transpose (N : RNum T) {a : Image T} (h : a.WF) :
    (∃ b, TransposeOf a b) ∧ (∀ b b', TransposeOf a b → TransposeOf a b' → b = b') ∧ ∀ b, TransposeOf a b → TransposeOf b a := by
  refine ⟨?_, ?_, ?_⟩
  · obtain ⟨_, o, -, -, -, ho⟩ := Image.fillAll_set .debug N (ImageInfo.transpose_WF h.infoWF) (fun x y => a.px y x)
      (fun x y hx hy => Image.px_length h hy hx) (fun j i => .ok (a.px j i)) (fun _ _ _ _ => rfl)
    exact ⟨o, (transposeOf_iff h).2 ho⟩
  · intro b b' t t'
    exact Image.Shows.ext ((transposeOf_iff h).1 t) ((transposeOf_iff h).1 t')
  · intro b t
    refine (transposeOf_iff t.wf).2 ?_
    rw [t.header]
    exact h.shows.congr fun x y hx hy => (t.px h hy hx).symm

theorem transposes_of {op op' : Image T → Res (Image S)} {a : Image T} {i : ImageInfo} {f g : Nat → Nat → List S}
    (h1 : ∃ o, op a = .ok o ∧ o.Shows i f) (h2 : ∀ b, TransposeOf a b → ∃ o', op' b = .ok o' ∧ o'.Shows i.transpose (g))
    (hfg : ∀ b, TransposeOf a b → ∀ x y, x < i.height → y < i.width → g x y = f y x) : Transposes op op' a := by
  intro b t
  obtain ⟨o, e, ho⟩ := h1
  obtain ⟨o', e', ho'⟩ := h2 b t
  refine ⟨o, o', e, e', (transposeOf_iff ho.WF).2 ?_⟩
  rw [ho.info_eq]
  refine ho'.congr fun x y hx hy => ?_
  rw [hfg b t x y hx hy, ho.px_eq hy hx]

/-! ### geometry -/

/-- **C136** `crop` -/
theorem c136_crop (P : Profile) (N : RNum T) {a : Image T} (h : a.WF) (x y w k : Nat) (hx : x + w < a.info.width)
    (hy : y + k < a.info.height) : Transposes (fun i => crop P N i x y w k) (fun i => crop P N i y x k w) a := by
  intro b t
  obtain ⟨o, e, ho⟩ := c60_crop_inside P N a h x y w k hx hy
  obtain ⟨o', e', ho'⟩ := c60_crop_inside P N b t.wf y x k w (by rw [t.header]; exact hy) (by rw [t.header]; exact hx)
  refine ⟨o, o', e, e', (transposeOf_iff ho.WF).2 ?_⟩
  rw [t.header] at ho'
  rw [ho.info_eq]
  refine ho'.congr fun i j hi hj => ?_
  have hi : i < k := hi
  have hj : j < w := hj
  rw [t.px h (by omega) (by omega), ho.px_eq hj hi]

/-- **C136** `translate` -/
theorem c136_translate (P : Profile) (N : RNum T) {a : Image T} (h : a.WF) (x y : Nat) :
    Transposes (fun i => translate P N i x y) (fun i => translate P N i y x) a := by
  intro b t
  obtain ⟨o, e, ho⟩ := c64_translate P N a h x y
  obtain ⟨o', e', ho'⟩ := c64_translate P N b t.wf y x
  refine ⟨o, o', e, e', (transposeOf_iff ho.WF).2 ?_⟩
  rw [t.header] at ho'
  rw [ho.info_eq]
  refine ho'.congr fun i j hi hj => ?_
  have hi : i < a.info.height := hi
  have hj : j < a.info.width := hj
  rw [ho.px_eq hj hi]
  by_cases hc : x ≤ j ∧ y ≤ i
  · rw [if_pos hc, if_pos hc.symm, t.px h (by omega) (by omega)]
  · rw [if_neg hc, if_neg fun e => hc e.symm]; rfl

/-- **C136** mirroring left to right becomes mirroring top to bottom -/
theorem c136_reflect (P : Profile) (N : RNum T) {a : Image T} (h : a.WF) :
    Transposes (fun i => reflect P N i .vertical) (fun i => reflect P N i .horizontal) a ∧
    Transposes (fun i => reflect P N i .horizontal) (fun i => reflect P N i .vertical) a := by
  constructor <;>
  · intro b t
    obtain ⟨o, e, ho⟩ := c65_reflect P N a h _
    obtain ⟨o', e', ho'⟩ := c65_reflect P N b t.wf _
    refine ⟨o, o', e, e', (transposeOf_iff ho.WF).2 ?_⟩
    rw [t.header] at ho'
    rw [ho.info_eq]
    refine ho'.congr fun i j hi hj => ?_
    have hi : i < a.info.height := hi
    have hj : j < a.info.width := hj
    rw [ho.px_eq hj hi]
    exact t.px h (by first | exact hi | (show _ - 1 - _ < _; dsimp only [ImageInfo.transpose]; omega))
      (by first | exact hj | (show _ - 1 - _ < _; dsimp only [ImageInfo.transpose]; omega))

/-- **C136** `overlay`: both images transposed -/
theorem c136_overlay (P : Profile) {a front : Image T} (h : a.WF) (hf : front.WF) (hc : a.info.channels = front.info.channels) (x y : Nat)
    (hx : x + front.info.width < U32SIZE) (hy : y + front.info.height < U32SIZE) {front' : Image T} (tf : TransposeOf front front') :
    Transposes (fun i => overlay P i front x y) (fun i => overlay P i front' y x) a := by
  intro b t
  obtain ⟨o, e, ho⟩ := c63_overlay P a front h hf hc x y hx hy
  obtain ⟨o', e', ho'⟩ := c63_overlay P b front' t.wf tf.wf (by rw [t.header, tf.header]; exact hc) y x
    (by rw [tf.header]; exact hy) (by rw [tf.header]; exact hx)
  refine ⟨o, o', e, e', (transposeOf_iff ho.WF).2 ?_⟩
  rw [t.header, tf.header] at ho'
  rw [ho.info_eq]
  refine ho'.congr fun i j hi hj => ?_
  have hi : i < a.info.height := hi
  have hj : j < a.info.width := hj
  rw [ho.px_eq hj hi]
  show (if y ≤ i ∧ i < y + front.info.height ∧ x ≤ j ∧ j < x + front.info.width then _ else _) = _
  by_cases hc : x ≤ j ∧ j < x + front.info.width ∧ y ≤ i ∧ i < y + front.info.height
  · rw [if_pos hc, if_pos ⟨hc.2.2.1, hc.2.2.2, hc.1, hc.2.1⟩, tf.px hf (by omega) (by omega)]
  · rw [if_neg hc, if_neg fun e => hc ⟨e.2.2.1, e.2.2.2, e.1, e.2.1⟩, t.px h hi hj]

section
variable [Libm f32]
/-- **C136** enlarging by whole numbers with the nearest neighbour, in IEEE f32 -/
theorem c136_nearest (P : Profile) {a : Image F32} (h : a.WF) {xf yf : F32} {kx ky : Nat}
    (hxf : xf.Is (kx : Rat)) (hyf : yf.Is (ky : Rat)) (hkx : 0 < kx) (hky : 0 < ky)
    (hw : kx * a.info.width ≤ 16777216) (hh : ky * a.info.height ≤ 16777216)
    (hkx' : kx ≤ 16777216) (hky' : ky ≤ 16777216)
    (hsize : kx * a.info.width * (ky * a.info.height) * max 1 a.info.channels < 4294967296) :
    Transposes (fun i => scale P i xf yf .nearestNeighbor) (fun i => scale P i yf xf .nearestNeighbor) a := by
  intro b t
  obtain ⟨o, e, ho⟩ := c66_nearest_integer P h hxf hyf hkx hky hw hh hkx' hky' hsize
  obtain ⟨o', e', ho'⟩ := c66_nearest_integer P t.wf hyf hxf hky hkx (by rw [t.header]; exact hh) (by rw [t.header]; exact hw) hky' hkx'
    (by rw [t.header]; show ky * a.info.height * (kx * a.info.width) * _ < _; rw [Nat.mul_comm (ky * a.info.height)]; exact hsize)
  refine ⟨o, o', e, e', (transposeOf_iff ho.WF).2 ?_⟩
  rw [t.header] at ho'
  rw [ho.info_eq]
  refine ho'.congr fun i j hi hj => ?_
  have hi : i < ky * a.info.height := hi
  have hj : j < kx * a.info.width := hj
  rw [ho.px_eq hj hi]
  exact t.px h (Nat.div_lt_of_lt_mul hi) (Nat.div_lt_of_lt_mul hj)
end

/-! ### scaling and shearing in exact arithmetic -/

/-- two images of reals with transposed headers and channel values are transposes -/
theorem transposeOf_rchan {o o' : Image ℝ} (w : o.WF) (w' : o'.WF) (hi : o'.info = o.info.transpose)
    (hv : ∀ x y c, x < o'.info.width → y < o'.info.height → c < o'.info.channels → o'.rchan x y c = o.rchan y x c) : TransposeOf o o' := by
  refine (transposeOf_iff w).2 ?_
  rw [← hi]
  refine w'.shows.congr fun x y hx hy => ?_
  have hx0 := hx
  have hy0 := hy
  rw [hi] at hx hy
  refine List.ext_getElem? fun c => ?_
  have l1 := Image.px_length w' hx0 hy0
  have l2 := Image.px_length w (x := y) (y := x) hy hx
  by_cases hc : c < o'.info.channels
  · have := hv x y c hx0 hy0 hc
    unfold Image.rchan at this
    have hc' : c < o.info.channels := by rw [hi] at hc; exact hc
    rw [List.getD_eq_getElem?_getD, List.getD_eq_getElem?_getD, List.getElem?_eq_getElem (by omega), List.getElem?_eq_getElem (by omega)] at this
    simp only [Option.getD_some] at this
    rw [List.getElem?_eq_getElem (by omega), List.getElem?_eq_getElem (by omega), this]
  · have hc' : ¬ c < o.info.channels := by rw [hi] at hc; exact hc
    rw [List.getElem?_eq_none (by omega), List.getElem?_eq_none (by omega)]

theorem TransposeOf.rchan {a b : Image ℝ} (h : a.WF) (t : TransposeOf a b) {x y : Nat} (hx : x < a.info.height) (hy : y < a.info.width)
    (c : Nat) : b.rchan x y c = a.rchan y x c := by unfold Image.rchan; rw [t.px h hx hy]

theorem BilinearInput.transpose {a b : Image ℝ} {xf yf : ℝ} (h : BilinearInput a xf yf) (t : TransposeOf a b) : BilinearInput b yf xf :=
  ⟨t.wf, h.ypos, h.xpos, by rw [t.header]; exact h.height, by rw [t.header]; exact h.width,
    by rw [t.header]; have := h.size; rwa [Nat.mul_comm (scaledDim a.info.width xf)] at this⟩

theorem BicubicInput.transpose {a b : Image ℝ} {xf yf : ℝ} (h : BicubicInput a xf yf) (t : TransposeOf a b) : BicubicInput b yf xf :=
  ⟨h.toBilinearInput.transpose t, by rw [t.header]; exact h.hpos, by rw [t.header]; exact h.wpos⟩

/-- **C136** (exact arithmetic) bilinear scaling -/
theorem c136_bilinear (P : Profile) {a : Image ℝ} {xf yf : ℝ} (h : BilinearInput a xf yf) :
    Transposes (fun i => scale P i xf yf .bilinear) (fun i => scale P i yf xf .bilinear) a := by
  intro b t
  obtain ⟨o, e, ow, oi, ov⟩ := c68_value_partial P h
  obtain ⟨o', e', ow', oi', ov'⟩ := c68_value_partial P (h.transpose t)
  rw [t.header] at oi' ov'
  refine ⟨o, o', e, e', transposeOf_rchan ow ow' (by rw [oi, oi']; rfl) fun x y c hx hy hc => ?_⟩
  rw [ov' x y c hx hy hc]
  rw [oi'] at hx hy hc
  rw [ov y x c (by rw [oi]; exact hy) (by rw [oi]; exact hx) (by rw [oi]; exact hc)]
  have l1 : leftCol xf y < a.info.width := leftCol_lt h.xpos (x := y) hy
  have l2 : leftCol yf x < a.info.height := leftCol_lt h.ypos (x := x) hx
  dsimp only [ImageInfo.transpose]
  have k1 : (if fracCol yf x = 0 then leftCol yf x else rightCol yf a.info.height x) < a.info.height := by
    unfold rightCol; split <;> omega
  have k2 : (if fracCol xf y = 0 then leftCol xf y else rightCol xf a.info.width y) < a.info.width := by
    unfold rightCol; split <;> omega
  rw [t.rchan h.wf l2 l1, t.rchan h.wf k1 l1, t.rchan h.wf l2 k2, t.rchan h.wf k1 k2]
  unfold bilerp lerp
  ring

/-- **C136** (exact arithmetic) bicubic scaling -/
theorem c136_bicubic (P : Profile) {a : Image ℝ} {xf yf : ℝ} (h : BicubicInput a xf yf) :
    Transposes (fun i => scale P i xf yf .bicubic) (fun i => scale P i yf xf .bicubic) a := by
  intro b t
  obtain ⟨o, e, ow, oi, ov⟩ := c69_value P h
  obtain ⟨o', e', ow', oi', ov'⟩ := c69_value P (h.transpose t)
  rw [t.header] at oi' ov'
  refine ⟨o, o', e, e', transposeOf_rchan ow ow' (by rw [oi, oi']; rfl) fun x y c hx hy hc => ?_⟩
  rw [ov' x y c hx hy hc]
  rw [oi'] at hx hy hc
  rw [ov y x c (by rw [oi]; exact hy) (by rw [oi]; exact hx) (by rw [oi]; exact hc), Finset.sum_comm]
  refine Finset.sum_congr rfl fun m _ => Finset.sum_congr rfl fun n _ => ?_
  show b.rchan (clampCol a.info.height _) (clampCol a.info.width _) c * _ = _
  rw [t.rchan h.wf (clampCol_lt h.hpos _) (clampCol_lt h.wpos _), mul_comm (cubicTap yf x n)]

theorem lanczosOf_transpose {a b o o' : Image ℝ} {xf yf : ℝ} {s : Nat} (h : BicubicInput a xf yf) (t : TransposeOf a b)
    (h1 : LanczosOf a xf yf s o) (h2 : LanczosOf b yf xf s o') : TransposeOf o o' := by
  obtain ⟨ow, oi, ov⟩ := h1
  obtain ⟨ow', oi', ov'⟩ := h2
  rw [t.header] at oi' ov'
  refine transposeOf_rchan ow ow' (by rw [oi, oi']; rfl) fun x y c hx hy hc => ?_
  rw [ov' x y c hx hy hc]
  rw [oi'] at hx hy hc
  rw [ov y x c (by rw [oi]; exact hy) (by rw [oi]; exact hx) (by rw [oi]; exact hc), Finset.sum_comm]
  refine Finset.sum_congr rfl fun m _ => Finset.sum_congr rfl fun n _ => ?_
  show b.rchan (clampCol a.info.height _) (clampCol a.info.width _) c * _ = _
  rw [t.rchan h.wf (clampCol_lt h.hpos _) (clampCol_lt h.wpos _), mul_comm (lanczosTap s yf x n)]

/-- **C136** (exact arithmetic) Lanczos scaling, by both entry points -/
theorem c136_lanczos (P : Profile) {a : Image ℝ} {xf yf : ℝ} (h : BicubicInput a xf yf) {s : Nat} (hs : s < 2147483647) :
    Transposes (fun i => scaleLanczos P i xf yf s) (fun i => scaleLanczos P i yf xf s) a ∧
    Transposes (fun i => scale P i xf yf .lanczos) (fun i => scale P i yf xf .lanczos) a := by
  constructor
  · intro b t
    obtain ⟨o, e, ho⟩ := c84_scale_lanczos P h hs
    obtain ⟨o', e', ho'⟩ := c84_scale_lanczos P (h.transpose t) hs
    exact ⟨o, o', e, e', lanczosOf_transpose h t ho ho'⟩
  · intro b t
    obtain ⟨o, e, ho⟩ := c84_scale P h
    obtain ⟨o', e', ho'⟩ := c84_scale P (h.transpose t)
    exact ⟨o, o', e, e', lanczosOf_transpose h t ho ho'⟩

/-- **C136** (exact arithmetic) a horizontal shear becomes a vertical one -/
theorem c136_shear (P : Profile) {a : Image ℝ} {s : ℝ} (h : ShearInput a s 0) :
    Transposes (fun i => shear P i s 0) (fun i => shear P i 0 s) a := by
  intro b t
  have h' : ShearInput b 0 s := by
    refine ⟨t.wf, ?_⟩
    rw [t.header]
    have := ImageInfo.transpose_WF h.info
    exact this
  obtain ⟨o, e, ow, oi, o1, o2⟩ := c70_horizontal P h
  obtain ⟨o', e', ow', oi', o1', o2'⟩ := c70_vertical P h'
  rw [t.header] at oi' o1' o2'
  refine ⟨o, o', e, e', (transposeOf_iff ow).2 ?_⟩
  have ei : o'.info = o.info.transpose := by rw [oi, oi']; rfl
  rw [← ei]
  refine ow'.shows.congr fun x y hx hy => ?_
  have hx1 : x < a.info.height := by rw [oi'] at hx; exact hx
  have hy1 : y < o.info.width := by rw [ei] at hy; exact hy
  by_cases hc : y < shearShift a.info.height s x ∨ shearShift a.info.height s x + a.info.width ≤ y
  · rw [o2 y x hy1 hx1 hc]
    exact o2' x y hx1 hy hc
  · obtain ⟨z, rfl⟩ : ∃ z, y = z + shearShift a.info.height s x := ⟨y - shearShift a.info.height s x, by omega⟩
    have hz : z < a.info.width := by omega
    rw [o1 z x hz hx1]
    exact (o1' x z hx1 hz).trans (t.px h.wf hx1 hz)

/-! ### operations on single pixels -/

theorem perPixel_transposes (op : Image S → Res (Image T)) {a : Image S}
    (hdr : ImageInfo → ImageInfo) (H : ImageInfo → Prop) (Rel : ImageInfo → List S → List T → Prop)
    (hhdr : hdr a.info.transpose = (hdr a.info).transpose)
    (hsize : (hdr a.info).width = a.info.width ∧ (hdr a.info).height = a.info.height)
    (hH : H a.info.transpose)
    (hRel : ∀ p q q', Rel a.info p q → Rel a.info.transpose p q' → q = q')
    (hop : ∀ a : Image S, a.WF → H a.info → ∃ out, op a = .ok out ∧ out.WF ∧ out.info = hdr a.info ∧
      ∀ x y, x < a.info.width → y < a.info.height → Rel a.info (a.px x y) (out.px x y))
    (h : a.WF) (hi : H a.info) : Transposes op op a := by
  intro b t
  obtain ⟨o, e, ow, oi, ov⟩ := hop a h hi
  obtain ⟨o', e', ow', oi', ov'⟩ := hop b t.wf (by rw [t.header]; exact hH)
  rw [t.header] at oi' ov'
  refine ⟨o, o', e, e', (transposeOf_iff ow).2 ?_⟩
  have ei : o'.info = o.info.transpose := by rw [oi, oi', hhdr]
  rw [← ei]
  refine ow'.shows.congr fun x y hx hy => ?_
  have hx1 : x < a.info.height := by rw [ei, oi] at hx; rw [← hsize.2]; exact hx
  have hy1 : y < a.info.width := by rw [ei, oi] at hy; rw [← hsize.1]; exact hy
  have k := ov' x y hx1 hy1
  rw [t.px h hx1 hy1] at k
  exact (hRel _ _ _ (ov y x hy1 hx1) k).symm

theorem perPixel_transposes_rel (op : Image T → Res (Image T)) {a : Image T} (H : ImageInfo → Prop) (R : List T → List T → Prop)
    (hR : ∀ p q q', R q p → R q' p → q = q') (hH : H a.info.transpose)
    (hop : ∀ a : Image T, a.WF → H a.info → ∃ out, op a = .ok out ∧ out.WF ∧ out.info = a.info ∧
      ∀ x y, x < a.info.width → y < a.info.height → a.info.alphaOf (out.px x y) = a.info.alphaOf (a.px x y) ∧
        R (a.info.colour (out.px x y)) (a.info.colour (a.px x y)))
    (h : a.WF) (hi : H a.info) : Transposes op op a := by
  refine perPixel_transposes op id H (fun i p q => i.alphaOf q = i.alphaOf p ∧ R (i.colour q) (i.colour p)) rfl ⟨rfl, rfl⟩ hH
    (fun p q q' e e' => ?_) hop h hi
  have e' : a.info.alphaOf q' = a.info.alphaOf p ∧ R (a.info.colour q') (a.info.colour p) := e'
  rw [← a.info.colour_append q, ← a.info.colour_append q', e.1, e'.1, hR _ _ _ e.2 e'.2]

theorem rgb_transpose {i : ImageInfo} (h : Rgb i) : Rgb i.transpose := ⟨⟨h.1.2, h.1.1⟩, h.2⟩

/-- the case of an operation that keeps the header and acts by a function on colour and alpha -/
theorem perPixel_transposes_fun (op : Image S → Res (Image T)) {a : Image S} (H : ImageInfo → Prop) (C : List S → List T) (A : S → T)
    (hH : H a.info.transpose)
    (hop : ∀ a : Image S, a.WF → H a.info → ∃ out, op a = .ok out ∧ out.Shows a.info fun x y =>
      C (a.info.colour (a.px x y)) ++ (a.info.alphaOf (a.px x y)).map A)
    (h : a.WF) (hi : H a.info) : Transposes op op a :=
  perPixel_transposes op id H (fun i p q => q = C (i.colour p) ++ (i.alphaOf p).map A) rfl ⟨rfl, rfl⟩ hH
    (fun p q q' e e' => e.trans e'.symm) (fun a ha hia => by
      obtain ⟨out, e, ho⟩ := hop a ha hia
      exact ⟨out, e, ho.WF, ho.info_eq, fun x y hx hy => ho.px_eq hx hy⟩) h hi

/-- **C136** the tone operations on bytes -/
theorem c136_tone [Libm f32] (P : Profile) {a : Image UInt8} (h : a.WF) (ha : AlphaOk a.info)
    (bias : Int) (hb : -255 ≤ bias ∧ bias ≤ 255) (gain : F32) (q : Rat) (hg : gain.Is q) (h0 : 0 ≤ q) (h1 : q ≤ 1)
    (g : F32) (hn : ¬ Negative g) (max : UInt8) :
    Transposes (fun i => brightness false P i bias) (fun i => brightness false P i bias) a ∧
    Transposes (fun i => contrast P i gain) (fun i => contrast P i gain) a ∧
    Transposes (fun i => gammaOp P i g max) (fun i => gammaOp P i g max) a := by
  refine ⟨perPixel_transposes_fun _ AlphaOk (List.map (satAdd · bias)) id ha (fun a wa ia => ?_) h ha,
    perPixel_transposes_fun _ AlphaOk (List.map (contrastVal gain)) id ha (fun a wa ia => ?_) h ha,
    perPixel_transposes_fun _ AlphaOk (List.map fun v =>
      toU8 (FloatOps.round (FloatOps.pow (ofU8 (F := F32) v /. ofU8 max) g *. ofU8 max))) id ha (fun a wa ia => ?_) h ha⟩
  · simpa using c20_brightness P a bias wa ia hb
  · obtain ⟨out, e, ho⟩ := contrast_image P a wa ia gain (by
        intro ho
        unfold OutsideUnit at ho
        rcases FP.toQ?_cases hg with e | ⟨e, rfl⟩ <;> rw [e] at ho
        · rcases ho with ho | ho <;> linarith
        · exact ho) (fun v => let ⟨y, e, _⟩ := contrastVal_is hg h0 h1 v; ⟨y, e⟩)
    exact ⟨out, e, by simpa using ho⟩
  · obtain ⟨out, m, e, ho, hm⟩ := c23_gamma_shape P a wa ia g hn max
    exact ⟨out, e, by simpa [funext hm] using ho⟩

/-- **C136** the colour operations on RGB (and HSV) bytes -/
theorem c136_colour [Libm f32] (P : Profile) {a : Image UInt8} (h : a.WF) (h3 : Rgb a.info)
    (s : Int) (hs : -255 ≤ s ∧ s ≤ 255) (gain : F32) (hg : ¬ OutsideUnit gain) :
    Transposes (fun i => saturation false P i s) (fun i => saturation false P i s) a ∧
    Transposes (fun i => rgbToHsv P i) (fun i => rgbToHsv P i) a ∧
    Transposes (fun i => hsvToRgb P i) (fun i => hsvToRgb P i) a ∧
    Transposes (fun i => brightnessLab F32 P i s) (fun i => brightnessLab F32 P i s) a ∧
    Transposes (fun i => contrastLab P i gain) (fun i => contrastLab P i gain) a := by
  have ht := rgb_transpose h3
  refine ⟨perPixel_transposes_rel _ Rgb (IsSaturated s) (fun _ _ _ => isSaturated_fun) ht (fun a wa ia => ?_) h h3,
    perPixel_transposes_rel _ Rgb IsHsvOf (fun _ _ _ => isHsvOf_fun) ht (fun a wa ia => ?_) h h3,
    perPixel_transposes_rel _ Rgb IsRgbOf (fun _ _ _ => isRgbOf_fun) ht (fun a wa ia => ?_) h h3,
    perPixel_transposes_rel _ Rgb (fun q p => q = srgbOfLab (F := F32) .d50 ((labOfSrgb .d50 p).modify 0
            (fun l => l +. FloatOps.ofInt s /. num 255 *. num 100))) (fun _ _ _ e e' => e.trans e'.symm) ht
      (fun a wa ia => ?_) h h3,
    perPixel_transposes_rel _ Rgb (fun q p => q = srgbOfLab (F := F32) .d50 ((labOfSrgb .d50 p).modify 0
            (fun l => l *. gain))) (fun _ _ _ e e' => e.trans e'.symm) ht
      (fun a wa ia => ?_) h h3⟩
  · exact c24_saturation P a wa ia.1 ia.2 s hs
  · obtain ⟨out, F, e, ho, hF⟩ := c32_rgb_to_hsv P a wa ia.1 ia.2
    refine ⟨out, e, ho.WF, ho.info_eq, fun x y hx hy => ?_⟩
    obtain ⟨e1, e2⟩ := ho.parts wa (rgb_alphaOk ia.2) x y hx hy
    exact ⟨e1, e2 ▸ hF x y hx hy⟩
  · obtain ⟨out, F, e, ho, hF⟩ := c32_hsv_to_rgb P a wa ia.1 ia.2
    refine ⟨out, e, ho.WF, ho.info_eq, fun x y hx hy => ?_⟩
    obtain ⟨e1, e2⟩ := ho.parts wa (rgb_alphaOk ia.2) x y hx hy
    exact ⟨e1, e2 ▸ hF x y hx hy⟩
  · exact c28_brightness_lab P a wa ia.1 ia.2 s hs
  · exact c28_contrast_lab P a wa ia.1 ia.2 gain hg

/-- **C136** `rgb_to_grayscale` (up to 128 colour channels), `threshold` (in any arithmetic) and `linearize_srgb` -/
theorem c136_grayscale {F} [FloatOps F] (P : Profile) {a : Image UInt8} (h : a.WF)
    (hpos : 0 < a.info.width ∧ 0 < a.info.height) (h1 : 0 < a.info.colours) (h2 : a.info.colours ≤ 128) :
    Transposes (fun i => rgbToGrayscale F false P i) (fun i => rgbToGrayscale F false P i) a := by
  refine perPixel_transposes _ (fun i => { i with channels := 1 + (if i.alpha then 1 else 0) })
    (fun i => (0 < i.width ∧ 0 < i.height) ∧ 0 < i.colours ∧ i.colours ≤ 128)
    (fun i p q => q = [UInt8.ofNat (meanU8 (i.colour p))] ++ i.alphaOf p) rfl ⟨rfl, rfl⟩
    ⟨⟨hpos.2, hpos.1⟩, h1, h2⟩ (fun p q q' e e' => e.trans e'.symm) (fun a wa ia => ?_) h ⟨hpos, h1, h2⟩
  obtain ⟨out, e, ho⟩ := c29_grayscale_partial (F := F) P a wa ia.1 ia.2.1 ia.2.2
  exact ⟨out, e, ho.WF, ho.info_eq, fun x y hx hy => ho.px_eq hx hy⟩
theorem c136_threshold {F} [FloatOps F] (P : Profile) {a : Image F} (h : a.WF) (hg : Grayscale a.info) (thr max : F)
    (method : Thresh) : Transposes (fun i => threshold P i thr max method) (fun i => threshold P i thr max method) a := by
  refine perPixel_transposes_fun _ Grayscale
    (List.map fun c => threshRule method (FloatOps.lt thr c) c thr max (num 0)) id hg (fun a wa ia => ?_) h hg
  simpa using c52_threshold P wa ia thr max method
theorem c136_linearize [Libm f32] (P : Profile) {a : Image UInt8} (h : a.WF) (ha : AlphaOk a.info) :
    Transposes (fun i => linearizeSrgb (F := F32) P i) (fun i => linearizeSrgb (F := F32) P i) a :=
  perPixel_transposes_fun _ AlphaOk (List.map srgbToLinear) ofU8 ha (fun a wa ia => c37_linearize P a wa ia) h ha

/-! ### concrete cases -/
/-- `gray6` with rows and columns exchanged -/
def gray6T {T} (a b c d e f : T) : Image T := ⟨⟨2, 3, 1, false⟩, [a, d, b, e, c, f]⟩
theorem gray6_transpose {T} (a b c d e f : T) : TransposeOf (gray6 a b c d e f) (gray6T a b c d e f) :=
  ⟨⟨show 2 < _ by decide, show 3 < _ by decide, show 1 < _ by decide, show 2 * 3 < _ by decide, show 2 * 3 * 1 < _ by decide, rfl⟩,
    rfl, fun P x y hx hy => by
    have hx : x < 2 := hx
    have hy : y < 3 := hy
    cases P <;> interval_cases x <;> interval_cases y <;> rfl⟩

example (P : Profile) (a b c d e f : UInt8) : ∃ o o', crop P u8Num (gray6 a b c d e f) 0 0 2 1 = .ok o ∧
    crop P u8Num (gray6T a b c d e f) 0 0 1 2 = .ok o' ∧ TransposeOf o o' :=
  c136_crop P u8Num (gray6_WF ..) 0 0 2 1 (by dims) (by dims) _ (gray6_transpose ..)
end Imgproc

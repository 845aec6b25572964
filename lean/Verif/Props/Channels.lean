import Verif.Props.Transpose2
import Verif.Props.Median3
import Verif.Spec.Channels

/-!
# C139: channels are treated one by one and alike
-/
namespace Imgproc
open FloatOps
variable {T S : Type}

theorem ChannelsOf.px {σ : Nat → Nat} {k : Nat} {a b : Image T} (h : a.WF) (t : ChannelsOf σ k a b) {x y : Nat} (hx : x < a.info.width)
    (hy : y < a.info.height) {c : Nat} (hc : c < k) : (b.px x y)[c]? = (a.px x y)[σ c]? := by
  obtain ⟨p, q, e1, e2, hv⟩ := t.pixel .debug x y hx hy
  rw [Image.getPixel_eq .debug h hx hy] at e1
  rw [Image.getPixel_eq .debug t.wf (by rw [t.width]; exact hx) (by rw [t.height]; exact hy)] at e2
  cases e1; cases e2
  exact hv c hc

theorem ChannelsOf.getD {σ : Nat → Nat} {k : Nat} {a b : Image T} (h : a.WF) (t : ChannelsOf σ k a b) {x y : Nat} (hx : x < a.info.width)
    (hy : y < a.info.height) {c : Nat} (hc : c < k) (z : T) : (b.px x y).getD c z = (a.px x y).getD (σ c) z := by
  rw [List.getD_eq_getElem?_getD, List.getD_eq_getElem?_getD, t.px h hx hy hc]

theorem channelsOf_of {σ : Nat → Nat} {k : Nat} {o o' : Image T} (w : o.WF) (w' : o'.WF) (hw : o'.info.width = o.info.width)
    (hh : o'.info.height = o.info.height) (hk : o'.info.channels = k) (hf : k ≤ o.info.channels) (hin : ∀ c < k, σ c < o.info.channels)
    (hv : ∀ x y c, x < o.info.width → y < o.info.height → c < k → (o'.px x y)[c]? = (o.px x y)[σ c]?) : ChannelsOf σ k o o' :=
  ⟨w', hw, hh, hk, hf, hin, fun P x y hx hy => ⟨_, _, Image.getPixel_eq P w hx hy,
    Image.getPixel_eq P w' (by rw [hw]; exact hx) (by rw [hh]; exact hy), fun c hc => hv x y c hx hy hc⟩⟩

/-- two results with the same shape -/
theorem ChannelsOf.results {σ : Nat → Nat} {k : Nat} {a b : Image T} (t : ChannelsOf σ k a b) {o o' : Image S} {W H : Nat} {f g : Nat → Nat → List S}
    (ho : o.Shows ⟨W, H, a.info.channels, a.info.alpha⟩ f) (ho' : o'.Shows ⟨W, H, b.info.channels, b.info.alpha⟩ g)
    (hv : ∀ x y c, x < W → y < H → c < k → (g x y)[c]? = (f x y)[σ c]?) : ChannelsOf σ k o o' := by
  refine channelsOf_of ho.WF ho'.WF (by rw [ho.info_eq, ho'.info_eq]) (by rw [ho.info_eq, ho'.info_eq])
    (by rw [ho'.info_eq]; exact t.channels) (by rw [ho.info_eq]; exact t.fewer) (by rw [ho.info_eq]; exact t.inside) fun x y c hx hy hc => ?_
  rw [ho.info_eq] at hx hy
  rw [ho.px_eq hx hy, ho'.px_eq hx hy]
  exact hv x y c hx hy hc

/-- **C139** picking channels always makes an image, and only one for either alpha flag -/
theorem c139_pick (N : RNum T) {a : Image T} (h : a.WF) (σ : Nat → Nat) (k : Nat) (hk : k ≤ a.info.channels)
    (hs : ∀ c < k, σ c < a.info.channels) (alpha : Bool) :
    (∃ b, ChannelsOf σ k a b ∧ b.info.alpha = alpha) ∧
    ∀ b b', ChannelsOf σ k a b → ChannelsOf σ k a b' → b.info.alpha = b'.info.alpha → b = b' := by
  have hwf : ImageInfo.WF ⟨a.info.width, a.info.height, k, alpha⟩ :=
    ⟨h.width, h.height, lt_of_le_of_lt hk h.channels, h.size, lt_of_le_of_lt (Nat.mul_le_mul_left _ hk) h.full⟩
  constructor
  · obtain ⟨_, o, -, -, -, ho⟩ := Image.fillAll_set .debug N hwf (fun x y => (List.range k).map fun c => (a.px x y).getD (σ c) (N.ofU8 0))
      (fun x y _ _ => by simp) (fun j i => .ok ((List.range k).map fun c => (a.px i j).getD (σ c) (N.ofU8 0))) (fun _ _ _ _ => rfl)
    refine ⟨o, channelsOf_of h ho.WF (by rw [ho.info_eq]) (by rw [ho.info_eq]) (by rw [ho.info_eq]) hk hs fun x y c hx hy hc => ?_,
      by rw [ho.info_eq]⟩
    rw [ho.px_eq hx hy, List.getElem?_map, List.getElem?_range hc, Option.map_some, List.getD_eq_getElem?_getD,
      List.getElem?_eq_getElem (by rw [Image.px_length h hx hy]; exact hs c hc)]
    rfl
  · intro b b' t t' ha
    have hi : b'.info = b.info := by
      cases hb : b.info; cases hb' : b'.info
      have := t.width.trans t'.width.symm
      have := t.height.trans t'.height.symm
      have := t.channels.trans t'.channels.symm
      simp_all
    refine Image.Shows.ext t.wf.shows ?_
    rw [← hi]
    refine t'.wf.shows.congr fun x y hx hy => ?_
    rw [t'.width] at hx
    rw [t'.height] at hy
    refine List.ext_getElem? fun c => ?_
    by_cases hc : c < k
    · rw [t.px h hx hy hc, t'.px h hx hy hc]
    · rw [List.getElem?_eq_none, List.getElem?_eq_none]
      · rw [Image.px_length t.wf (by rw [t.width]; exact hx) (by rw [t.height]; exact hy), t.channels]; omega
      · rw [Image.px_length t'.wf (by rw [t'.width]; exact hx) (by rw [t'.height]; exact hy), t'.channels]; omega

/-! ### geometry -/

/-- **C139** `crop` -/
theorem c139_crop (P : Profile) (N : RNum T) {a : Image T} (h : a.WF) (x y w k : Nat) (hx : x + w < a.info.width)
    (hy : y + k < a.info.height) : PerChannel (fun i => crop P N i x y w k) a := by
  intro σ n b t
  obtain ⟨o, e, ho⟩ := c60_crop_inside P N a h x y w k hx hy
  obtain ⟨o', e', ho'⟩ := c60_crop_inside P N b t.wf x y w k (by rw [t.width]; exact hx) (by rw [t.height]; exact hy)
  exact ⟨o, o', e, e', t.results ho ho' fun i j c hi hj hc => t.px h (by omega) (by omega) hc⟩

/-- **C139** `translate` -/
theorem c139_translate (P : Profile) (N : RNum T) {a : Image T} (h : a.WF) (x y : Nat) : PerChannel (fun i => translate P N i x y) a := by
  intro σ n b t
  obtain ⟨o, e, ho⟩ := c64_translate P N a h x y
  obtain ⟨o', e', ho'⟩ := c64_translate P N b t.wf x y
  refine ⟨o, o', e, e', t.results (W := a.info.width) (H := a.info.height) ho (by rw [← t.width, ← t.height]; exact ho') fun i j c hi hj hc => ?_⟩
  by_cases hin : x ≤ i ∧ y ≤ j
  · rw [if_pos hin, if_pos hin, t.px h (by omega) (by omega) hc]
  · rw [if_neg hin, if_neg hin, List.getElem?_replicate, List.getElem?_replicate, if_pos (t.inside c hc), if_pos (by rw [t.channels]; exact hc)]

/-- **C139** `reflect` -/
theorem c139_reflect (P : Profile) (N : RNum T) {a : Image T} (h : a.WF) (axis : Refl) : PerChannel (fun i => reflect P N i axis) a := by
  intro σ n b t
  obtain ⟨o, e, ho⟩ := reflect_shows P N a h axis
  obtain ⟨o', e', ho'⟩ := reflect_shows P N b t.wf axis
  refine ⟨o, o', e, e', t.results (W := a.info.width) (H := a.info.height) ho (by rw [← t.width, ← t.height]; exact ho') fun i j c hi hj hc => ?_⟩
  have m := t.px h (mirX_lt (axis := axis) hi) (mirY_lt (axis := axis) hj) hc
  rw [← m, t.width, t.height]

/-- **C139** `overlay`: the same channels of both images -/
theorem c139_overlay (P : Profile) {a front : Image T} (h : a.WF) (hf : front.WF) (hc : a.info.channels = front.info.channels) (x y : Nat)
    (hx : x + front.info.width < U32SIZE) (hy : y + front.info.height < U32SIZE) (σ : Nat → Nat) (k : Nat) {b front' : Image T}
    (t : ChannelsOf σ k a b) (tf : ChannelsOf σ k front front') :
    ∃ o o', overlay P a front x y = .ok o ∧ overlay P b front' x y = .ok o' ∧ ChannelsOf σ k o o' := by
  obtain ⟨o, e, ho⟩ := c63_overlay P a front h hf hc x y hx hy
  obtain ⟨o', e', ho'⟩ := c63_overlay P b front' t.wf tf.wf (by rw [t.channels, tf.channels]) x y
    (by rw [tf.width]; exact hx) (by rw [tf.height]; exact hy)
  refine ⟨o, o', e, e', t.results (W := a.info.width) (H := a.info.height) ho (by rw [← t.width, ← t.height]; exact ho') fun i j c hi hj hc => ?_⟩
  rw [tf.width, tf.height]
  by_cases hin : x ≤ i ∧ i < x + front.info.width ∧ y ≤ j ∧ j < y + front.info.height
  · rw [if_pos hin, if_pos hin, tf.px hf (by omega) (by omega) hc]
  · rw [if_neg hin, if_neg hin, t.px h hi hj hc]

section
variable [Libm f32]
/-- **C139** enlarging by whole numbers with the nearest neighbour, in IEEE f32 -/
theorem c139_nearest (P : Profile) {a : Image F32} (h : a.WF) {xf yf : F32} {kx ky : Nat}
    (hxf : xf.Is (kx : Rat)) (hyf : yf.Is (ky : Rat)) (hkx : 0 < kx) (hky : 0 < ky)
    (hw : kx * a.info.width ≤ 16777216) (hh : ky * a.info.height ≤ 16777216)
    (hkx' : kx ≤ 16777216) (hky' : ky ≤ 16777216)
    (hsize : kx * a.info.width * (ky * a.info.height) * max 1 a.info.channels < 4294967296) :
    PerChannel (fun i => scale P i xf yf .nearestNeighbor) a := by
  intro σ k b t
  obtain ⟨o, e, ho⟩ := c66_nearest_integer P h hxf hyf hkx hky hw hh hkx' hky' hsize
  have hm : max 1 b.info.channels ≤ max 1 a.info.channels := by have := t.fewer; rw [t.channels]; omega
  obtain ⟨o', e', ho'⟩ := c66_nearest_integer P t.wf hxf hyf hkx hky (by rw [t.width]; exact hw) (by rw [t.height]; exact hh) hkx' hky'
    (by rw [t.width, t.height]; exact (Nat.mul_le_mul_left _ hm).trans_lt hsize)
  rw [t.width, t.height] at ho'
  exact ⟨o, o', e, e', t.results ho ho' fun i j c hi hj hc => t.px h (Nat.div_lt_of_lt_mul hi) (Nat.div_lt_of_lt_mul hj) hc⟩
end

/-! ### scaling and shearing in exact arithmetic -/

theorem ChannelsOf.rchan {σ : Nat → Nat} {k : Nat} {a b : Image ℝ} (h : a.WF) (t : ChannelsOf σ k a b) {x y : Nat} (hx : x < a.info.width)
    (hy : y < a.info.height) {c : Nat} (hc : c < k) : b.rchan x y c = a.rchan x y (σ c) := t.getD h hx hy hc 0

theorem ChannelsOf.ofRchan {σ : Nat → Nat} {k : Nat} {a b : Image ℝ} (t : ChannelsOf σ k a b) {o o' : Image ℝ} (w : o.WF) (w' : o'.WF) {W H : Nat}
    (hi : o.info = ⟨W, H, a.info.channels, a.info.alpha⟩) (hi' : o'.info = ⟨W, H, b.info.channels, b.info.alpha⟩)
    (hv : ∀ x y c, x < W → y < H → c < k → o'.rchan x y c = o.rchan x y (σ c)) : ChannelsOf σ k o o' := by
  refine t.results (W := W) (H := H) (hi ▸ w.shows) (hi' ▸ w'.shows) fun x y c hx hy hc => ?_
  have := hv x y c hx hy hc
  unfold Image.rchan at this
  have l' : c < (o'.px x y).length := by
    rw [Image.px_length w' (by rw [hi']; exact hx) (by rw [hi']; exact hy), hi']; show c < b.info.channels; rw [t.channels]; exact hc
  have l : σ c < (o.px x y).length := by
    rw [Image.px_length w (by rw [hi]; exact hx) (by rw [hi]; exact hy), hi]; exact t.inside c hc
  rw [List.getD_eq_getElem?_getD, List.getD_eq_getElem?_getD, List.getElem?_eq_getElem l', List.getElem?_eq_getElem l] at this
  simp only [Option.getD_some] at this
  rw [List.getElem?_eq_getElem l', List.getElem?_eq_getElem l, this]

theorem BilinearInput.pick {σ : Nat → Nat} {k : Nat} {a b : Image ℝ} {xf yf : ℝ} (h : BilinearInput a xf yf) (t : ChannelsOf σ k a b) :
    BilinearInput b xf yf :=
  ⟨t.wf, h.xpos, h.ypos, by rw [t.width]; exact h.width, by rw [t.height]; exact h.height, by
    have := h.size
    have hm : max 1 b.info.channels ≤ max 1 a.info.channels := by have := t.fewer; rw [t.channels]; omega
    rw [t.width, t.height]; exact (Nat.mul_le_mul_left _ hm).trans_lt this⟩

theorem BicubicInput.pick {σ : Nat → Nat} {k : Nat} {a b : Image ℝ} {xf yf : ℝ} (h : BicubicInput a xf yf) (t : ChannelsOf σ k a b) :
    BicubicInput b xf yf :=
  ⟨h.toBilinearInput.pick t, by rw [t.width]; exact h.wpos, by rw [t.height]; exact h.hpos⟩

/-- **C139** (exact arithmetic) bilinear scaling -/
theorem c139_bilinear (P : Profile) {a : Image ℝ} {xf yf : ℝ} (h : BilinearInput a xf yf) : PerChannel (fun i => scale P i xf yf .bilinear) a := by
  intro σ k b t
  obtain ⟨o, e, ow, oi, ov⟩ := c68_value_partial P h
  obtain ⟨o', e', ow', oi', ov'⟩ := c68_value_partial P (h.pick t)
  rw [t.width, t.height] at oi' ov'
  refine ⟨o, o', e, e', t.ofRchan ow ow' oi oi' fun x y c hx hy hc => ?_⟩
  rw [ov' x y c (by rw [oi']; exact hx) (by rw [oi']; exact hy) (by rw [oi']; show c < b.info.channels; rw [t.channels]; exact hc),
    ov x y (σ c) (by rw [oi]; exact hx) (by rw [oi]; exact hy) (by rw [oi]; exact t.inside c hc)]
  have l1 : leftCol xf x < a.info.width := leftCol_lt h.xpos hx
  have l2 : leftCol yf y < a.info.height := leftCol_lt h.ypos hy
  have k1 : (if fracCol yf y = 0 then leftCol yf y else rightCol yf a.info.height y) < a.info.height := by
    unfold rightCol; split <;> omega
  have k2 : (if fracCol xf x = 0 then leftCol xf x else rightCol xf a.info.width x) < a.info.width := by
    unfold rightCol; split <;> omega
  dsimp only
  rw [t.rchan h.wf l1 l2 hc, t.rchan h.wf l1 k1 hc, t.rchan h.wf k2 l2 hc, t.rchan h.wf k2 k1 hc]

/-- **C139** (exact arithmetic) bicubic scaling -/
theorem c139_bicubic (P : Profile) {a : Image ℝ} {xf yf : ℝ} (h : BicubicInput a xf yf) : PerChannel (fun i => scale P i xf yf .bicubic) a := by
  intro σ k b t
  obtain ⟨o, e, ow, oi, ov⟩ := c69_value P h
  obtain ⟨o', e', ow', oi', ov'⟩ := c69_value P (h.pick t)
  rw [t.width, t.height] at oi' ov'
  refine ⟨o, o', e, e', t.ofRchan ow ow' oi oi' fun x y c hx hy hc => ?_⟩
  rw [ov' x y c (by rw [oi']; exact hx) (by rw [oi']; exact hy) (by rw [oi']; show c < b.info.channels; rw [t.channels]; exact hc),
    ov x y (σ c) (by rw [oi]; exact hx) (by rw [oi]; exact hy) (by rw [oi]; exact t.inside c hc)]
  refine Finset.sum_congr rfl fun m _ => Finset.sum_congr rfl fun n _ => ?_
  rw [t.rchan h.wf (clampCol_lt h.wpos _) (clampCol_lt h.hpos _) hc]

theorem ChannelsOf.lanczos {σ : Nat → Nat} {k : Nat} {a b o o' : Image ℝ} {xf yf : ℝ} {s : Nat} (h : BicubicInput a xf yf) (t : ChannelsOf σ k a b)
    (h1 : LanczosOf a xf yf s o) (h2 : LanczosOf b xf yf s o') : ChannelsOf σ k o o' := by
  obtain ⟨ow, oi, ov⟩ := h1
  obtain ⟨ow', oi', ov'⟩ := h2
  rw [t.width, t.height] at oi' ov'
  refine t.ofRchan ow ow' oi oi' fun x y c hx hy hc => ?_
  rw [ov' x y c (by rw [oi']; exact hx) (by rw [oi']; exact hy) (by rw [oi']; show c < b.info.channels; rw [t.channels]; exact hc),
    ov x y (σ c) (by rw [oi]; exact hx) (by rw [oi]; exact hy) (by rw [oi]; exact t.inside c hc)]
  refine Finset.sum_congr rfl fun m _ => Finset.sum_congr rfl fun n _ => ?_
  rw [t.rchan h.wf (clampCol_lt h.wpos _) (clampCol_lt h.hpos _) hc]

/-- **C139** (exact arithmetic) Lanczos scaling, by both entry points -/
theorem c139_lanczos (P : Profile) {a : Image ℝ} {xf yf : ℝ} (h : BicubicInput a xf yf) {s : Nat} (hs : s < 2147483647) :
    PerChannel (fun i => scaleLanczos P i xf yf s) a ∧ PerChannel (fun i => scale P i xf yf .lanczos) a := by
  constructor
  · intro σ k b t
    obtain ⟨o, e, ho⟩ := c84_scale_lanczos P h hs
    obtain ⟨o', e', ho'⟩ := c84_scale_lanczos P (h.pick t) hs
    exact ⟨o, o', e, e', t.lanczos h ho ho'⟩
  · intro σ k b t
    obtain ⟨o, e, ho⟩ := c84_scale P h
    obtain ⟨o', e', ho'⟩ := c84_scale P (h.pick t)
    exact ⟨o, o', e, e', t.lanczos h ho ho'⟩

/-- **C139** (exact arithmetic) shear in one direction -/
theorem c139_shear (P : Profile) {a : Image ℝ} {s : ℝ} :
    (ShearInput a s 0 → PerChannel (fun i => shear P i s 0) a) ∧ (ShearInput a 0 s → PerChannel (fun i => shear P i 0 s) a) := by
  have inf : ∀ {sx sy : ℝ} {σ k b}, ShearInput a sx sy → ChannelsOf σ k a b → ShearInput b sx sy := by
    intro sx sy σ k b h t
    refine ⟨t.wf, ?_⟩
    have i := h.info
    have hk : b.info.channels ≤ a.info.channels := by rw [t.channels]; exact t.fewer
    rw [t.width, t.height]
    exact ⟨i.width, i.height, lt_of_le_of_lt hk i.channels, i.size, lt_of_le_of_lt (Nat.mul_le_mul_left _ hk) i.full⟩
  constructor
  · intro h σ k b t
    obtain ⟨o, e, ow, oi, o1, o2⟩ := c70_horizontal P h
    obtain ⟨o', e', ow', oi', o1', o2'⟩ := c70_horizontal P (inf h t)
    rw [t.width, t.height] at oi' o1' o2'
    refine ⟨o, o', e, e', t.results (oi ▸ ow.shows) (oi' ▸ ow'.shows) fun x y c hx hy hc => ?_⟩
    by_cases hin : x < shearShift a.info.height s y ∨ shearShift a.info.height s y + a.info.width ≤ x
    · rw [o2 x y (by rw [oi]; exact hx) hy hin, o2' x y (by rw [oi']; exact hx) hy hin, List.getElem?_replicate, List.getElem?_replicate,
        if_pos (t.inside c hc), if_pos (by rw [t.channels]; exact hc)]
    · obtain ⟨z, rfl⟩ : ∃ z, x = z + shearShift a.info.height s y := ⟨x - shearShift a.info.height s y, by omega⟩
      rw [o1 z y (by omega) hy, o1' z y (by omega) hy, t.px h.wf (by omega) hy hc]
  · intro h σ k b t
    obtain ⟨o, e, ow, oi, o1, o2⟩ := c70_vertical P h
    obtain ⟨o', e', ow', oi', o1', o2'⟩ := c70_vertical P (inf h t)
    rw [t.width, t.height] at oi' o1' o2'
    refine ⟨o, o', e, e', t.results (oi ▸ ow.shows) (oi' ▸ ow'.shows) fun x y c hx hy hc => ?_⟩
    by_cases hin : y < shearShift a.info.width s x ∨ shearShift a.info.width s x + a.info.height ≤ y
    · rw [o2 x y hx (by rw [oi]; exact hy) hin, o2' x y hx (by rw [oi']; exact hy) hin, List.getElem?_replicate, List.getElem?_replicate,
        if_pos (t.inside c hc), if_pos (by rw [t.channels]; exact hc)]
    · obtain ⟨z, rfl⟩ : ∃ z, y = z + shearShift a.info.width s x := ⟨y - shearShift a.info.width s x, by omega⟩
      rw [o1 x z hx (by omega), o1' x z hx (by omega), t.px h.wf hx (by omega) hc]

/-! ### filters, in any arithmetic -/
section
variable {F : Type} [FloatOps F]

theorem zip_foldl_congr {A B C D : Type} (f : D → A → B → D) (g : D → A → C → D) : ∀ (l : List A) (p : List B) (q : List C) (z : D),
    p.length = q.length → (∀ (i : Nat) z a u v, p[i]? = some u → q[i]? = some v → f z a u = g z a v) →
    (l.zip p).foldl (fun z e => f z e.1 e.2) z = (l.zip q).foldl (fun z e => g z e.1 e.2) z
  | [], _, _, _, _, _ => rfl
  | _ :: _, [], [], _, _, _ => rfl
  | a :: l, u :: p, v :: q, z, hl, h => by
    simp only [List.zip_cons_cons, List.foldl_cons]
    rw [h 0 z a u v rfl rfl]
    exact zip_foldl_congr f g l p q _ (by simpa using hl) fun i z a u v e1 e2 => h (i + 1) z a u v e1 e2

theorem kernelResponse_pick (kernel : List F) {p q : List (List F)} (hl : p.length = q.length) {c c' : Nat}
    (h : ∀ (i : Nat) u v, p[i]? = some u → q[i]? = some v → v.getD c' (num 0) = u.getD c (num 0)) :
    kernelResponse kernel q c' = kernelResponse kernel p c := by
  unfold kernelResponse
  refine (zip_foldl_congr (fun z a u => z +. a *. u.getD c (num 0)) (fun z a v => z +. a *. v.getD c' (num 0)) kernel p q _ hl ?_).symm
  intro i z a u v e1 e2
  rw [h i u v e1 e2]

theorem ChannelsOf.window1d {σ : Nat → Nat} {k : Nat} {a b : Image F} (h : a.WF) (t : ChannelsOf σ k a b) (kernel : List F) {x y n : Nat}
    {isVert : Bool} (hx : x < a.info.width) (hy : y < a.info.height) {c : Nat} (hc : c < k) :
    kernelResponse kernel (Imgproc.window1d b x y n isVert) c = kernelResponse kernel (Imgproc.window1d a x y n isVert) (σ c) := by
  refine kernelResponse_pick kernel (by simp [Imgproc.window1d]) fun i u v e1 e2 => ?_
  unfold Imgproc.window1d at e1 e2
  rw [List.getElem?_map] at e1 e2
  cases hr : (List.range n)[i]? with
  | none => rw [hr] at e1; cases e1
  | some m =>
    rw [hr] at e1 e2
    simp only [Option.map_some, Option.some.injEq, t.width, t.height] at e1 e2
    subst e1 e2
    cases isVert with
    | true => exact t.getD h hx (padCoord_lt hy) hc _
    | false => exact t.getD h (padCoord_lt hx) hy hc _

theorem ChannelsOf.window2d {σ : Nat → Nat} {k : Nat} {a b : Image F} (h : a.WF) (t : ChannelsOf σ k a b) (kernel : List F) {x y n : Nat}
    (hx : x < a.info.width) (hy : y < a.info.height) {c : Nat} (hc : c < k) :
    kernelResponse kernel (Imgproc.window2d b x y n) c = kernelResponse kernel (Imgproc.window2d a x y n) (σ c) := by
  have key : ∀ img : Image F, Imgproc.window2d img x y n = ((List.range n).flatMap fun i => (List.range n).map fun j => (i, j)).map fun e =>
      img.px (padCoord img.info.width x ((x : Int) - (n / 2 : Nat) + e.2)) (padCoord img.info.height y ((y : Int) - (n / 2 : Nat) + e.1)) := by
    intro img
    unfold Imgproc.window2d
    rw [List.map_flatMap]
    simp only [List.map_map, Function.comp_def]
  rw [key, key]
  refine kernelResponse_pick kernel (by simp) fun i u v e1 e2 => ?_
  rw [List.getElem?_map] at e1 e2
  cases hr : ((List.range n).flatMap fun i => (List.range n).map fun j => (i, j))[i]? with
  | none => rw [hr] at e1; cases e1
  | some m =>
    rw [hr] at e1 e2
    simp only [Option.map_some, Option.some.injEq, t.width, t.height] at e1 e2
    subst e1 e2
    exact t.getD h (padCoord_lt hx) (padCoord_lt hy) hc _

omit [FloatOps F] in
theorem ChannelsOf.filtered {σ : Nat → Nat} {k : Nat} {a b : Image F} (t : ChannelsOf σ k a b) {o o' : Image F} {f g : Nat → Nat → Nat → F}
    (ho : o.Shows a.info fun x y => (List.range a.info.channels).map (f x y))
    (ho' : o'.Shows b.info fun x y => (List.range b.info.channels).map (g x y))
    (hv : ∀ x y c, x < a.info.width → y < a.info.height → c < k → g x y c = f x y (σ c)) : ChannelsOf σ k o o' := by
  refine t.results (W := a.info.width) (H := a.info.height) ho (by rw [← t.width, ← t.height]; exact ho') fun x y c hx hy hc => ?_
  rw [List.getElem?_map, List.getElem?_map, List.getElem?_range (t.inside c hc), List.getElem?_range (by rw [t.channels]; exact hc),
    Option.map_some, Option.map_some, hv x y c hx hy hc]

/-- **C139** `filter_1d`, bit for bit in any arithmetic -/
theorem c139_filter_1d (P : Profile) {a : Image F} (h : a.WF) (kernel : List F) (isVert : Bool) (hodd : kernel.length % 2 = 1)
    (hw : a.info.width + kernel.length ≤ 2147483648) (hh : a.info.height + kernel.length ≤ 2147483648) :
    PerChannel (fun i => filter1d P i kernel isVert) a := by
  intro σ k b t
  obtain ⟨o, e, ho⟩ := c47_filter_1d_partial P a h kernel isVert hodd hw hh
  obtain ⟨o', e', ho'⟩ := c47_filter_1d_partial P b t.wf kernel isVert hodd (by rw [t.width]; exact hw) (by rw [t.height]; exact hh)
  exact ⟨o, o', e, e', t.filtered ho ho' fun x y c hx hy hc => t.window1d h kernel hx hy hc⟩

/-- **C139** `separable_filter`, bit for bit in any arithmetic -/
theorem c139_separable (P : Profile) {a : Image F} (h : a.WF) (vert horz : List F) (hodd : vert.length % 2 = 1)
    (heq : vert.length = horz.length) (hw : a.info.width + vert.length ≤ 2147483648) (hh : a.info.height + vert.length ≤ 2147483648) :
    PerChannel (fun i => separableFilter P i vert horz) a := by
  intro σ k b t
  obtain ⟨m, o, e, hm, ho⟩ := c47_separable_partial P a h vert horz hodd heq hw hh
  obtain ⟨m', o', e', hm', ho'⟩ := c47_separable_partial P b t.wf vert horz hodd heq (by rw [t.width]; exact hw) (by rw [t.height]; exact hh)
  have tm : ChannelsOf σ k m m' := t.filtered hm hm' fun x y c hx hy hc => t.window1d h vert hx hy hc
  refine ⟨o, o', e, e', t.filtered ho ho' fun x y c hx hy hc => ?_⟩
  have mi := hm.info_eq
  exact tm.window1d hm.WF horz (by rw [mi]; exact hx) (by rw [mi]; exact hy) hc
end

/-- **C139** `unseparable_filter`, bit for bit in f32 -/
theorem c139_unseparable [Libm f32] (P : Profile) {a : Image F32} (h : a.WF) (kernel : List F32) (n : Nat)
    (hodd : n % 2 = 1) (hk : kernel.length = n * n) (hn : n ≤ 65535)
    (hw : a.info.width + n ≤ 2147483648) (hh : a.info.height + n ≤ 2147483648) : PerChannel (fun i => unseparableFilter P i kernel) a := by
  intro σ k b t
  obtain ⟨o, e, ho⟩ := c47_unseparable_large_partial P a h kernel n hodd hk hn hw hh
  obtain ⟨o', e', ho'⟩ := c47_unseparable_large_partial P b t.wf kernel n hodd hk hn (by rw [t.width]; exact hw) (by rw [t.height]; exact hh)
  exact ⟨o, o', e, e', t.filtered ho ho' fun x y c hx hy hc => t.window2d h kernel hx hy hc⟩

/-- **C139** the sharpening and Laplacian filters, in f32 -/
theorem c139_fixed_kernels [Libm f32] (P : Profile) {a : Image F32} (h : a.WF)
    (hw : a.info.width + 5 ≤ 2147483648) (hh : a.info.height + 5 ≤ 2147483648) :
    PerChannel (fun i => sharpen P i) a ∧ PerChannel (fun i => unsharpMasking P i) a ∧ PerChannel (fun i => laplacian P i) a :=
  ⟨c139_unseparable P h K_SHARPEN 3 rfl rfl (by decide) (by omega) (by omega),
    c139_unseparable P h K_UNSHARP_MASKING 5 rfl rfl (by decide) (by omega) (by omega),
    c139_unseparable P h K_LAPLACIAN 3 rfl rfl (by decide) (by omega) (by omega)⟩

/-! ### median filter -/

theorem ChannelsOf.window {σ : Nat → Nat} {k : Nat} {a b : Image UInt8} (h : a.WF) (t : ChannelsOf σ k a b) (hw : 0 < a.info.width)
    (hh : 0 < a.info.height) (r x y : Nat) {c : Nat} (hc : c < k) : b.window r c x y = a.window r (σ c) x y := by
  unfold Image.window Image.value
  rw [t.width, t.height]
  refine List.flatMap_congr fun j _ => List.map_congr_left fun i _ => ?_
  rw [t.px h (clampCoord_lt hw _) (clampCoord_lt hh _) hc]

theorem ChannelsOf.sliding {σ : Nat → Nat} {k : Nat} {a b : Image UInt8} (h : a.WF) (t : ChannelsOf σ k a b) (hw : 0 < a.info.width)
    (hh : 0 < a.info.height) (r x : Nat) {c : Nat} (hc : c < k) : ∀ y, slidingMedian b r c x y = slidingMedian a r (σ c) x y
  | 0 => by unfold slidingMedian; rw [t.window h hw hh r x 0 hc]
  | y + 1 => by unfold slidingMedian; rw [t.window h hw hh r x (y + 1) hc, t.sliding h hw hh r x hc y]

/-- **C139** `median_filter` -/
theorem c139_median (F : Type) [FloatOps F] (P : Profile) {a : Image UInt8} {r : Nat} (h : MedianInput F a r) :
    PerChannel (fun i => medianFilter F P i r) a := by
  intro σ k b t
  obtain ⟨o, e, ho⟩ := c56_exact F P h
  have h' : MedianInput F b r := ⟨t.wf, by rw [t.width]; exact h.width, by rw [t.height]; exact h.height, by rw [t.width]; exact h.fitW,
    by rw [t.height]; exact h.fitH, h.fitN⟩
  obtain ⟨o', e', ho'⟩ := c56_exact F P h'
  refine ⟨o, o', e, e', t.results (W := a.info.width) (H := a.info.height) ho (by rw [← t.width, ← t.height]; exact ho') fun x y c hx hy hc => ?_⟩
  rw [List.getElem?_map, List.getElem?_map, List.getElem?_range (t.inside c hc), List.getElem?_range (by rw [t.channels]; exact hc),
    Option.map_some, Option.map_some, t.width, t.sliding h.wf h.width h.height r _ hc]

/-! ### tone -/

/-- operations that act by one function on the colour channels and another on alpha -/
theorem perColour_fun (op : Image S → Res (Image T)) {a : Image S} (f : S → T) (A : S → T) (ha : AlphaOk a.info)
    (hop : ∀ a : Image S, a.WF → AlphaOk a.info → ∃ out, op a = .ok out ∧ out.Shows a.info fun x y =>
      (a.info.colour (a.px x y)).map f ++ (a.info.alphaOf (a.px x y)).map A) (h : a.WF) : PerColourChannel op a := by
  intro σ k b t al
  obtain ⟨o, e, ho⟩ := hop a h ha
  obtain ⟨o', e', ho'⟩ := hop b t.wf (fun hb => by rw [t.channels]; exact (al.last (al.flag ▸ hb)).1)
  refine ⟨o, o', e, e', t.results (W := a.info.width) (H := a.info.height) ho (by rw [← t.width, ← t.height]; exact ho') fun x y c hx hy hc => ?_⟩
  have lp := Image.px_length h hx hy
  have lq := Image.px_length t.wf (x := x) (y := y) (by rw [t.width]; exact hx) (by rw [t.height]; exact hy)
  have hp := fun c hc => t.px h hx hy (c := c) hc
  rw [t.channels] at lq
  have hs := t.inside c hc
  generalize a.px x y = p at *
  generalize b.px x y = q at *
  unfold ImageInfo.colour ImageInfo.alphaOf
  rw [al.flag]
  cases hA : a.info.alpha with
  | false =>
    simp only [Bool.false_eq_true, if_false, List.map_nil, List.append_nil, List.getElem?_map]
    rw [hp c hc]
  | true =>
    simp only [if_true]
    obtain ⟨k0, hl⟩ := al.last hA
    by_cases hcl : c < k - 1
    · have := al.colour hA c hcl
      rw [List.getElem?_append_left (by simp; omega), List.getElem?_append_left (by simp; omega), List.getElem?_map, List.getElem?_map,
        List.getElem?_dropLast, List.getElem?_dropLast, if_pos (by omega), if_pos (by omega), hp c hc]
    · obtain rfl : c = k - 1 := by omega
      rw [hl, List.getElem?_append_right (by simp; omega), List.getElem?_append_right (by simp; omega)]
      have := hp (k - 1) hc
      rw [hl, ← lp, ← lq, ← List.getLast?_eq_getElem?, ← List.getLast?_eq_getElem?] at this
      rw [this]
      simp [lp, lq]

/-- **C139** brightness, contrast and gamma on bytes -/
theorem c139_tone [Libm f32] (P : Profile) {a : Image UInt8} (h : a.WF) (ha : AlphaOk a.info)
    (bias : Int) (hb : -255 ≤ bias ∧ bias ≤ 255) (gain : F32) (q : Rat) (hg : gain.Is q) (h0 : 0 ≤ q) (h1 : q ≤ 1)
    (g : F32) (hn : ¬ Negative g) (max : UInt8) :
    PerColourChannel (fun i => brightness false P i bias) a ∧ PerColourChannel (fun i => contrast P i gain) a ∧
    PerColourChannel (fun i => gammaOp P i g max) a := by
  refine ⟨perColour_fun _ (satAdd · bias) id ha (fun a wa ia => ?_) h, perColour_fun _ (contrastVal gain) id ha (fun a wa ia => ?_) h,
    perColour_fun _ (fun v => toU8 (FloatOps.round (FloatOps.pow (ofU8 (F := F32) v /. ofU8 max) g *. ofU8 max))) id ha (fun a wa ia => ?_) h⟩
  · simpa using c20_brightness P a bias wa ia hb
  · obtain ⟨out, e, ho⟩ := contrast_image P a wa ia gain (by
        intro ho
        unfold OutsideUnit at ho
        rcases FP.toQ?_cases hg with e | ⟨e, rfl⟩ <;> rw [e] at ho
        · rcases ho with ho | ho <;> linarith
        · exact ho) (fun v => let ⟨y, e, _⟩ := contrastVal_is hg h0 h1 v; ⟨y, e⟩)
    exact ⟨out, e, by simpa using ho⟩
  · obtain ⟨out, m, e, ho, hm⟩ := c23_gamma_shape P a wa ia g hn max
    exact ⟨out, e, by simpa [funext hm] using ho⟩

/-- **C139** linearization to f32 -/
theorem c139_linearize [Libm f32] (P : Profile) {a : Image UInt8} (h : a.WF) (ha : AlphaOk a.info) :
    PerColourChannel (fun i => linearizeSrgb (F := F32) P i) a :=
  perColour_fun _ srgbToLinear ofU8 ha (fun a wa ia => c37_linearize P a wa ia) h

/-- **C139** the grey value does not depend on the order of the colour channels -/
theorem c139_grayscale {F} [FloatOps F] (P : Profile) {a b : Image UInt8} (h : a.WF) (hb : b.WF) (hi : b.info = a.info)
    (hpos : 0 < a.info.width ∧ 0 < a.info.height) (h1 : 0 < a.info.colours) (h2 : a.info.colours ≤ 128)
    (hp : ∀ (P : Profile) x y, x < a.info.width → y < a.info.height → ∃ p q, a.getPixel P x y = .ok p ∧ b.getPixel P x y = .ok q ∧
      (a.info.colour p).Perm (a.info.colour q) ∧ a.info.alphaOf p = a.info.alphaOf q) :
    rgbToGrayscale F false P b = rgbToGrayscale F false P a ∧ ∃ out, rgbToGrayscale F false P a = .ok out := by
  obtain ⟨o, e, ho⟩ := c29_grayscale_partial (F := F) P a h hpos h1 h2
  obtain ⟨o', e', ho'⟩ := c29_grayscale_partial (F := F) P b hb (by rw [hi]; exact hpos) (by rw [hi]; exact h1) (by rw [hi]; exact h2)
  rw [hi] at ho'
  have : o' = o := Image.Shows.ext ho' (ho.congr fun x y hx hy => by
    obtain ⟨p, q, e1, e2, hc, hA⟩ := hp .debug x y hx hy
    rw [Image.getPixel_eq .debug h hx hy] at e1
    rw [Image.getPixel_eq .debug hb (by rw [hi]; exact hx) (by rw [hi]; exact hy)] at e2
    cases e1; cases e2
    have hm : meanU8 (a.info.colour (a.px x y)) = meanU8 (a.info.colour (b.px x y)) := by
      unfold meanU8; rw [(hc.map _).sum_eq, hc.length_eq]
    rw [hA, hm])
  exact ⟨by rw [e, e', this], o, e⟩

/-! ### concrete cases -/
theorem one_notNeg [Libm f32] : ¬ Negative (num 1 : F32) := by
  have h : (num 1 : F32).Is 1 := by simpa using num32 (n := 1) (by decide)
  unfold Negative
  rcases FP.toQ?_cases h with e | ⟨e, -⟩ <;> rw [e] <;> norm_num

theorem swap_redBlue {T : Type} (a b c d e f : T) : ChannelsOf (fun c => 2 - c) 3 (rgb2 a b c d e f) (rgb2 c b a f e d) :=
  ⟨rgb2_WF .., rfl, rfl, rfl, le_refl _, fun c hc => show 2 - c < 3 by omega, fun P x y hx hy => by
    have hx : x < 2 := hx
    have hy : y < 1 := hy
    cases P <;> interval_cases x <;> interval_cases y <;> exact ⟨_, _, rfl, rfl, fun c hc => by interval_cases c <;> rfl⟩⟩

example (P : Profile) (a b c d e f : UInt8) : ∃ o o', brightness false P (rgb2 a b c d e f) 7 = .ok o ∧
    brightness false P (rgb2 c b a f e d) 7 = .ok o' ∧ ChannelsOf (fun c => 2 - c) 3 o o' :=
  letI := trivialLibm f32
  (c139_tone P (rgb2_WF a b c d e f) (fun h => nomatch h) 7 (by decide) (num 1) 1 (by simpa using num32 (n := 1) (by decide)) (by norm_num)
    (le_refl _) (num 1) one_notNeg 255).1 _ _ _ (swap_redBlue ..) ⟨rfl, (fun h => nomatch h), (fun h => nomatch h)⟩
end Imgproc

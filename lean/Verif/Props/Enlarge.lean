import Verif.Props.Scale
import Verif.Props.Transform
import Verif.Props.Mirror2

/-!
# C138: enlarging and mirroring go well with cutting and pasting

Enlarging by whole numbers with the nearest neighbour commutes with cropping, translating, mirroring and pasting (with the offsets
enlarged as well), in IEEE f32; mirroring commutes with cropping and pasting at the mirrored place, for every channel type.
-/
namespace Imgproc
open FloatOps

section
variable [Libm f32]

/-- factors that are whole numbers, in f32, with an output that fits -/
structure EnlargeBy (img : Image F32) (xf yf : F32) (kx ky : Nat) : Prop where
  xf : xf.Is (kx : Rat)
  yf : yf.Is (ky : Rat)
  xpos : 0 < kx
  ypos : 0 < ky
  xsmall : kx ≤ 16777216
  ysmall : ky ≤ 16777216
  width : kx * img.info.width ≤ 16777216
  height : ky * img.info.height ≤ 16777216
  size : kx * img.info.width * (ky * img.info.height) * max 1 img.info.channels < 4294967296

omit [Libm f32] in
theorem EnlargeBy.smaller {a b : Image F32} {xf yf : F32} {kx ky : Nat} (h : EnlargeBy a xf yf kx ky)
    (hw : b.info.width ≤ a.info.width) (hh : b.info.height ≤ a.info.height) (hc : b.info.channels = a.info.channels) :
    EnlargeBy b xf yf kx ky := by
  have h1 := Nat.mul_le_mul_left kx hw
  have h2 := Nat.mul_le_mul_left ky hh
  refine ⟨h.xf, h.yf, h.xpos, h.ypos, h.xsmall, h.ysmall, h1.trans h.width, h2.trans h.height, ?_⟩
  rw [hc]
  exact (Nat.mul_le_mul_right _ (Nat.mul_le_mul h1 h2)).trans_lt h.size

theorem EnlargeBy.scale {a : Image F32} {xf yf : F32} {kx ky : Nat} (h : EnlargeBy a xf yf kx ky) (w : a.WF) (P : Profile) :
    ∃ out, Imgproc.scale P a xf yf .nearestNeighbor = .ok out ∧
      out.Shows ⟨kx * a.info.width, ky * a.info.height, a.info.channels, a.info.alpha⟩ fun x y => a.px (x / kx) (y / ky) :=
  c66_nearest_integer P w h.xf h.yf h.xpos h.ypos h.width h.height h.xsmall h.ysmall h.size

omit [Libm f32] in
theorem div_mul_add {k x i : Nat} (hk : 0 < k) : (k * x + i) / k = x + i / k := Nat.mul_add_div hk x i

/-- **C138** (IEEE f32) cropping the enlarged image is enlarging the cropped one -/
theorem c138_crop (P : Profile) (N : RNum F32) {img : Image F32} (w : img.WF) {xf yf : F32} {kx ky : Nat} (h : EnlargeBy img xf yf kx ky)
    (x y cw ch : Nat) (hx : x + cw < img.info.width) (hy : y + ch < img.info.height) :
    (scale P img xf yf .nearestNeighbor >>= fun o => crop P N o (kx * x) (ky * y) (kx * cw) (ky * ch)) =
      (crop P N img x y cw ch >>= fun c => scale P c xf yf .nearestNeighbor) ∧
    ∃ out, (crop P N img x y cw ch >>= fun c => scale P c xf yf .nearestNeighbor) = .ok out := by
  obtain ⟨s, es, hs⟩ := h.scale w P
  have b1 : kx * x + kx * cw < kx * img.info.width := by rw [← Nat.mul_add]; exact Nat.mul_lt_mul_of_pos_left hx h.xpos
  have b2 : ky * y + ky * ch < ky * img.info.height := by rw [← Nat.mul_add]; exact Nat.mul_lt_mul_of_pos_left hy h.ypos
  obtain ⟨o, eo, ho⟩ := c60_crop_inside P N s hs.WF (kx * x) (ky * y) (kx * cw) (ky * ch) (by rw [hs.info_eq]; exact b1)
    (by rw [hs.info_eq]; exact b2)
  obtain ⟨c, ec, hc⟩ := c60_crop_inside P N img w x y cw ch hx hy
  obtain ⟨o', eo', ho'⟩ := (h.smaller (b := c) (by rw [hc.info_eq]; show cw ≤ _; omega) (by rw [hc.info_eq]; show ch ≤ _; omega)
    (by rw [hc.info_eq])).scale hc.WF P
  rw [hs.info_eq] at ho
  rw [hc.info_eq] at ho'
  have key : o = o' := Image.Shows.ext ho (ho'.congr fun i j hi hj => by
    have hi : i < kx * cw := hi
    have hj : j < ky * ch := hj
    rw [hc.px_eq (Nat.div_lt_of_lt_mul hi) (Nat.div_lt_of_lt_mul hj), hs.px_eq (by show _ < kx * _; omega) (by show _ < ky * _; omega),
      div_mul_add h.xpos, div_mul_add h.ypos])
  rw [es, ok_bind, eo, ec, ok_bind, eo', key]
  exact ⟨rfl, _, rfl⟩

/-- **C138** (IEEE f32) enlarging a translated image is translating the enlarged image further -/
theorem c138_translate (P : Profile) {img : Image F32} (w : img.WF) {xf yf : F32} {kx ky : Nat}
    (h : EnlargeBy img xf yf kx ky) (N : RNum F32) (x y : Nat) :
    (translate P N img x y >>= fun t => scale P t xf yf .nearestNeighbor) =
      (scale P img xf yf .nearestNeighbor >>= fun s => translate P N s (kx * x) (ky * y)) ∧
    ∃ out, (translate P N img x y >>= fun t => scale P t xf yf .nearestNeighbor) = .ok out := by
  obtain ⟨s, es, hs⟩ := h.scale w P
  obtain ⟨o, eo, ho⟩ := c64_translate P N s hs.WF (kx * x) (ky * y)
  obtain ⟨t, et, ht⟩ := c64_translate P N img w x y
  have ti := ht.info_eq
  obtain ⟨o', eo', ho'⟩ := (h.smaller (b := t) (by rw [ti]) (by rw [ti]) (by rw [ti])).scale ht.WF P
  rw [hs.info_eq] at ho
  rw [ti] at ho'
  have key : o = o' := Image.Shows.ext ho (ho'.congr fun i j hi hj => by
    have hi : i < kx * img.info.width := hi
    have hj : j < ky * img.info.height := hj
    rw [ht.px_eq (Nat.div_lt_of_lt_mul hi) (Nat.div_lt_of_lt_mul hj)]
    have c1 : x ≤ i / kx ↔ kx * x ≤ i := by rw [Nat.le_div_iff_mul_le h.xpos, Nat.mul_comm]
    have c2 : y ≤ j / ky ↔ ky * y ≤ j := by rw [Nat.le_div_iff_mul_le h.ypos, Nat.mul_comm]
    by_cases hc : kx * x ≤ i ∧ ky * y ≤ j
    · rw [if_pos hc, if_pos ⟨c1.2 hc.1, c2.2 hc.2⟩, hs.px_eq (by show _ < kx * _; omega) (by show _ < ky * _; omega),
        Nat.sub_mul_div, Nat.sub_mul_div]
    · rw [if_neg hc, if_neg fun e => hc ⟨c1.1 e.1, c2.1 e.2⟩])
  rw [es, ok_bind, eo, et, ok_bind, eo', key]
  exact ⟨rfl, _, rfl⟩

omit [Libm f32] in
theorem mirror_div {k n i : Nat} (hk : 0 < k) (hi : i < k * n) : (k * n - 1 - i) / k = n - 1 - i / k := by
  have h1 : i / k < n := Nat.div_lt_of_lt_mul hi
  have h2 := Nat.div_add_mod i k
  have h3 := Nat.mod_lt i hk
  obtain ⟨m, rfl⟩ : ∃ m, n = m + i / k + 1 := ⟨n - i / k - 1, by omega⟩
  have : k * (m + i / k + 1) - 1 - i = k * m + (k - 1 - i % k) := by
    have : k * (m + i / k + 1) = k * m + k * (i / k) + k := by ring
    omega
  rw [this, Nat.mul_add_div hk, Nat.div_eq_of_lt (by omega)]
  omega

/-- **C138** (IEEE f32) enlarging the mirror image is mirroring the enlarged image -/
theorem c138_reflect (P : Profile) {img : Image F32} (w : img.WF) {xf yf : F32} {kx ky : Nat}
    (h : EnlargeBy img xf yf kx ky) (N : RNum F32) (axis : Refl) :
    (reflect P N img axis >>= fun t => scale P t xf yf .nearestNeighbor) =
      (scale P img xf yf .nearestNeighbor >>= fun s => reflect P N s axis) ∧
    ∃ out, (reflect P N img axis >>= fun t => scale P t xf yf .nearestNeighbor) = .ok out := by
  obtain ⟨s, es, hs⟩ := h.scale w P
  obtain ⟨o, eo, ho⟩ := reflect_shows P N s hs.WF axis
  obtain ⟨t, et, ht⟩ := reflect_shows P N img w axis
  have ti := ht.info_eq
  obtain ⟨o', eo', ho'⟩ := (h.smaller (b := t) (by rw [ti]) (by rw [ti]) (by rw [ti])).scale ht.WF P
  rw [hs.info_eq] at ho
  rw [ti] at ho'
  have key : o = o' := Image.Shows.ext ho (ho'.congr fun i j hi hj => by
    have hi : i < kx * img.info.width := hi
    have hj : j < ky * img.info.height := hj
    rw [ht.px_eq (Nat.div_lt_of_lt_mul hi) (Nat.div_lt_of_lt_mul hj),
      hs.px_eq (mirX_lt (axis := axis) hi) (mirY_lt (axis := axis) hj)]
    cases axis with
    | vertical => simp only [mirX, mirY]; rw [mirror_div h.xpos hi]
    | horizontal => simp only [mirX, mirY]; rw [mirror_div h.ypos hj])
  rw [es, ok_bind, eo, et, ok_bind, eo', key]
  exact ⟨rfl, _, rfl⟩

/-- **C138** (IEEE f32) enlarging an overlay is overlaying the enlarged images -/
theorem c138_overlay (P : Profile) {back front : Image F32} (wb : back.WF) (wf : front.WF) (hc : back.info.channels = front.info.channels)
    {xf yf : F32} {kx ky : Nat} (hb : EnlargeBy back xf yf kx ky) (hf : EnlargeBy front xf yf kx ky) (x y : Nat)
    (hx : kx * (x + front.info.width) < U32SIZE) (hy : ky * (y + front.info.height) < U32SIZE) :
    (overlay P back front x y >>= fun t => scale P t xf yf .nearestNeighbor) =
      (scale P back xf yf .nearestNeighbor >>= fun b => scale P front xf yf .nearestNeighbor >>= fun f => overlay P b f (kx * x) (ky * y)) ∧
    ∃ out, (overlay P back front x y >>= fun t => scale P t xf yf .nearestNeighbor) = .ok out := by
  have l1 : x + front.info.width ≤ kx * (x + front.info.width) := Nat.le_mul_of_pos_left _ hb.xpos
  have l2 : y + front.info.height ≤ ky * (y + front.info.height) := Nat.le_mul_of_pos_left _ hb.ypos
  obtain ⟨s, es, hs⟩ := hb.scale wb P
  obtain ⟨f, ef, hf⟩ := hf.scale wf P
  obtain ⟨o, eo, ho⟩ := c63_overlay P s f hs.WF hf.WF (by rw [hs.info_eq, hf.info_eq]; exact hc) (kx * x) (ky * y)
    (by rw [hf.info_eq]; show kx * x + kx * _ < _; rw [← Nat.mul_add]; exact hx)
    (by rw [hf.info_eq]; show ky * y + ky * _ < _; rw [← Nat.mul_add]; exact hy)
  obtain ⟨t, et, ht⟩ := c63_overlay P back front wb wf hc x y (by omega) (by omega)
  have ti := ht.info_eq
  obtain ⟨o', eo', ho'⟩ := (hb.smaller (b := t) (by rw [ti]) (by rw [ti]) (by rw [ti])).scale ht.WF P
  rw [hs.info_eq, hf.info_eq] at ho
  rw [ti] at ho'
  have key : o = o' := Image.Shows.ext ho (ho'.congr fun i j hi hj => by
    have hi : i < kx * back.info.width := hi
    have hj : j < ky * back.info.height := hj
    rw [ht.px_eq (Nat.div_lt_of_lt_mul hi) (Nat.div_lt_of_lt_mul hj)]
    have c1 : x ≤ i / kx ↔ kx * x ≤ i := by rw [Nat.le_div_iff_mul_le hb.xpos, Nat.mul_comm]
    have c2 : y ≤ j / ky ↔ ky * y ≤ j := by rw [Nat.le_div_iff_mul_le hb.ypos, Nat.mul_comm]
    have c3 : i / kx < x + front.info.width ↔ i < kx * x + kx * front.info.width := by
      rw [Nat.div_lt_iff_lt_mul hb.xpos, Nat.mul_comm, Nat.mul_add]
    have c4 : j / ky < y + front.info.height ↔ j < ky * y + ky * front.info.height := by
      rw [Nat.div_lt_iff_lt_mul hb.ypos, Nat.mul_comm, Nat.mul_add]
    dsimp only
    by_cases hc : kx * x ≤ i ∧ i < kx * x + kx * front.info.width ∧ ky * y ≤ j ∧ j < ky * y + ky * front.info.height
    · rw [if_pos hc, if_pos ⟨c1.2 hc.1, c3.2 hc.2.1, c2.2 hc.2.2.1, c4.2 hc.2.2.2⟩,
        hf.px_eq (by show _ < kx * _; omega) (by show _ < ky * _; omega), Nat.sub_mul_div, Nat.sub_mul_div]
    · rw [if_neg hc, if_neg fun e => hc ⟨c1.1 e.1, c3.1 e.2.1, c2.1 e.2.2.1, c4.1 e.2.2.2⟩, hs.px_eq hi hj])
  rw [es, ok_bind, ef, ok_bind, eo, et, ok_bind, eo', key]
  exact ⟨rfl, _, rfl⟩
end

section
variable {T : Type}

/-- **C138** mirroring a crop is cropping the mirror image at the mirrored place -/
theorem c138_reflect_crop (P : Profile) (N : RNum T) {img : Image T} (h : img.WF) (x y w k : Nat)
    (hx : x + w < img.info.width) (hy : y + k < img.info.height) :
    (0 < x → (crop P N img x y w k >>= fun c => reflect P N c .vertical) =
      (reflect P N img .vertical >>= fun m => crop P N m (img.info.width - x - w) y w k)) ∧
    (0 < y → (crop P N img x y w k >>= fun c => reflect P N c .horizontal) =
      (reflect P N img .horizontal >>= fun m => crop P N m x (img.info.height - y - k) w k)) := by
  obtain ⟨c, ec, hc⟩ := c60_crop_inside P N img h x y w k hx hy
  constructor
  · intro h0
    obtain ⟨o, eo, ho⟩ := c65_reflect P N c hc.WF .vertical
    obtain ⟨m, em, hm⟩ := c65_reflect P N img h .vertical
    obtain ⟨o', eo', ho'⟩ := c60_crop_inside P N m hm.WF (img.info.width - x - w) y w k (by rw [hm.info_eq]; omega) (by rw [hm.info_eq]; omega)
    rw [hc.info_eq] at ho
    rw [hm.info_eq] at ho'
    have key : o = o' := Image.Shows.ext ho (ho'.congr fun i j hi hj => by
      have hi : i < w := hi
      have hj : j < k := hj
      rw [hm.px_eq (by omega) (by omega)]
      dsimp only
      rw [hc.px_eq (by show w - 1 - i < w; omega) hj]
      congr 1; omega)
    rw [ec, ok_bind, eo, em, ok_bind, eo', key]
  · intro h0
    obtain ⟨o, eo, ho⟩ := c65_reflect P N c hc.WF .horizontal
    obtain ⟨m, em, hm⟩ := c65_reflect P N img h .horizontal
    obtain ⟨o', eo', ho'⟩ := c60_crop_inside P N m hm.WF x (img.info.height - y - k) w k (by rw [hm.info_eq]; omega) (by rw [hm.info_eq]; omega)
    rw [hc.info_eq] at ho
    rw [hm.info_eq] at ho'
    have key : o = o' := Image.Shows.ext ho (ho'.congr fun i j hi hj => by
      have hi : i < w := hi
      have hj : j < k := hj
      rw [hm.px_eq (by omega) (by omega)]
      dsimp only
      rw [hc.px_eq hi (by show k - 1 - j < k; omega)]
      congr 1; omega)
    rw [ec, ok_bind, eo, em, ok_bind, eo', key]

/-- **C138** mirroring a paste that fits is pasting the mirror image at the mirrored place -/
theorem c138_reflect_overlay (P : Profile) (N : RNum T) {back front : Image T} (hb : back.WF) (hf : front.WF)
    (hc : back.info.channels = front.info.channels) (x y : Nat)
    (hx : x + front.info.width ≤ back.info.width) (hy : y + front.info.height ≤ back.info.height) :
    (overlay P back front x y >>= fun o => reflect P N o .vertical) = (reflect P N back .vertical >>= fun b =>
      reflect P N front .vertical >>= fun f => overlay P b f (back.info.width - x - front.info.width) y) ∧
    (overlay P back front x y >>= fun o => reflect P N o .horizontal) = (reflect P N back .horizontal >>= fun b =>
      reflect P N front .horizontal >>= fun f => overlay P b f x (back.info.height - y - front.info.height)) := by
  have W := hb.width
  have H := hb.height
  obtain ⟨o, eo, ho⟩ := c63_overlay P back front hb hf hc x y (by omega) (by omega)
  constructor
  · obtain ⟨r, er, hr⟩ := c65_reflect P N o ho.WF .vertical
    obtain ⟨b, eb, hb'⟩ := c65_reflect P N back hb .vertical
    obtain ⟨f, ef, hf'⟩ := c65_reflect P N front hf .vertical
    obtain ⟨r', er', hr'⟩ := c63_overlay P b f hb'.WF hf'.WF (by rw [hb'.info_eq, hf'.info_eq]; exact hc)
      (back.info.width - x - front.info.width) y (by rw [hf'.info_eq]; omega) (by rw [hf'.info_eq]; omega)
    rw [ho.info_eq] at hr
    rw [hb'.info_eq, hf'.info_eq] at hr'
    have key : r = r' := Image.Shows.ext hr (hr'.congr fun i j hi hj => by
      dsimp only
      rw [ho.px_eq (by omega) hj]
      by_cases hin : x ≤ back.info.width - 1 - i ∧ back.info.width - 1 - i < x + front.info.width ∧ y ≤ j ∧ j < y + front.info.height
      · rw [if_pos hin, if_pos (by omega), hf'.px_eq (by omega) (by omega)]
        dsimp only
        congr 1; omega
      · rw [if_neg hin, if_neg (by omega), hb'.px_eq hi hj])
    rw [eo, ok_bind, er, eb, ok_bind, ef, ok_bind, er', key]
  · obtain ⟨r, er, hr⟩ := c65_reflect P N o ho.WF .horizontal
    obtain ⟨b, eb, hb'⟩ := c65_reflect P N back hb .horizontal
    obtain ⟨f, ef, hf'⟩ := c65_reflect P N front hf .horizontal
    obtain ⟨r', er', hr'⟩ := c63_overlay P b f hb'.WF hf'.WF (by rw [hb'.info_eq, hf'.info_eq]; exact hc)
      x (back.info.height - y - front.info.height) (by rw [hf'.info_eq]; omega) (by rw [hf'.info_eq]; omega)
    rw [ho.info_eq] at hr
    rw [hb'.info_eq, hf'.info_eq] at hr'
    have key : r = r' := Image.Shows.ext hr (hr'.congr fun i j hi hj => by
      dsimp only
      rw [ho.px_eq hi (by omega)]
      by_cases hin : x ≤ i ∧ i < x + front.info.width ∧ y ≤ back.info.height - 1 - j ∧ back.info.height - 1 - j < y + front.info.height
      · rw [if_pos hin, if_pos (by omega), hf'.px_eq (by omega) (by omega)]
        dsimp only
        congr 1; omega
      · rw [if_neg hin, if_neg (by omega), hb'.px_eq hi hj])
    rw [eo, ok_bind, er, eb, ok_bind, ef, ok_bind, er', key]
end

/-! ### concrete cases -/
example [Libm f32] (P : Profile) (a b c d e f : F32) (N : RNum F32) :
    (scale P (gray6 a b c d e f) (num 2) (num 3) .nearestNeighbor >>= fun o => crop P N o 2 0 2 3) =
      (crop P N (gray6 a b c d e f) 1 0 1 1 >>= fun c => scale P c (num 2) (num 3) .nearestNeighbor) :=
  (c138_crop P N (gray6_WF ..) (kx := 2) (ky := 3) ⟨by simpa using num32 (n := 2) (by decide), by simpa using num32 (n := 3) (by decide),
    by decide, by decide, by decide, by decide, show 2 * 3 ≤ _ by decide, show 3 * 2 ≤ _ by decide, show 2 * 3 * (3 * 2) * max 1 1 < _ by decide⟩
    1 0 1 1 (show 1 + 1 < 3 by decide) (show 0 + 1 < 2 by decide)).1
example (P : Profile) (a b c d e f : UInt8) :
    (crop P u8Num (gray6 a b c d e f) 1 0 1 1 >>= fun c => reflect P u8Num c .vertical) =
      (reflect P u8Num (gray6 a b c d e f) .vertical >>= fun m => crop P u8Num m 1 0 1 1) :=
  (c138_reflect_crop P u8Num (gray6_WF ..) 1 0 1 1 (show 1 + 1 < 3 by decide) (show 0 + 1 < 2 by decide)).1 (by decide)
end Imgproc

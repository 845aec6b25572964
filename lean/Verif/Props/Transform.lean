import Verif.Proofs.Fill
import Verif.Model.Transform
import Verif.Props.Image
/-! Properties C60, C61, C63, C64, C65: geometry that only moves pixels. -/
namespace Imgproc
variable {T : Type}

/-! ## C60 / C61 — crop -/

/-- **C60** (inside) A rectangle with `x+width < W` and `y+height < H` is cropped: pixel `(i,j)` of the
result is pixel `(x+i, y+j)` of the input, in both build profiles. -/
theorem c60_crop_inside (P : Profile) (N : RNum T) (img : Image T) (h : img.WF)
    (x y width height : Nat) (hx : x + width < img.info.width) (hy : y + height < img.info.height) :
    ∃ out, crop P N img x y width height = .ok out ∧
      out.Shows ⟨width, height, img.info.channels, img.info.alpha⟩
        (fun i j => img.px (x + i) (y + j)) := by
  have hW := h.width
  have hH := h.height
  have hwh : width * height ≤ img.info.width * img.info.height :=
    Nat.mul_le_mul (by omega) (by omega)
  have hwhc : width * height * img.info.channels ≤ img.info.width * img.info.height * img.info.channels :=
    Nat.mul_le_mul_right _ hwh
  have hs := h.size
  have hf := h.full
  have hi : ImageInfo.WF ⟨width, height, img.info.channels, img.info.alpha⟩ :=
    ⟨show width < _ by omega, show height < _ by omega, h.channels, show width * height < _ by omega,
      show width * height * img.info.channels < _ by omega⟩
  obtain ⟨b, out, eb, bi, e, ho⟩ := Image.fillAll_set P N hi (fun i j => img.px (x + i) (y + j))
    (fun i j hi hj => by
      simp only at hi hj ⊢
      exact Image.px_length h (by omega) (by omega))
    (fun j i => do
      let ix ← u32Add P i x
      let jy ← u32Add P j y
      img.getPixel P ix jy)
    (fun i j hi hj => by
      simp only at hi hj ⊢
      rw [u32Add_ok (by omega), ok_bind, u32Add_ok (by omega), ok_bind,
        Image.getPixel_eq P h (by omega) (by omega), Nat.add_comm x, Nat.add_comm y])
  refine ⟨out, ?_, ho⟩
  unfold crop cropCheck
  rw [u32Add_ok (by omega), ok_bind, if_neg (by omega), u32Add_ok (by omega), ok_bind,
    if_neg (by omega), ok_bind, eb, ok_bind, ← e]
  simp only [bind_assoc]

example : ∃ out, crop .debug u8Num demo 0 0 1 1 = .ok out := 
  let ⟨o, h, _⟩ := c60_crop_inside .debug u8Num demo demo_WF 0 0 1 1 (by decide) (by decide); ⟨o, h⟩

/-- **C60** (rejection) Every other rectangle whose far corner is representable gives `InvalidArg`. -/
theorem c60_crop_rejects (P : Profile) (N : RNum T) (img : Image T) (x y width height : Nat)
    (hx : x + width < U32SIZE) (hy : y + height < U32SIZE)
    (hout : ¬ (x + width < img.info.width ∧ y + height < img.info.height)) :
    Res.InvalidArg (crop P N img x y width height) := by
  unfold crop cropCheck
  rw [u32Add_ok hx, ok_bind]
  split
  · rfl
  · rw [u32Add_ok hy, ok_bind, if_pos (by omega)]; rfl

example : Res.InvalidArg (crop .release u8Num demo 1 0 1 1) :=
  c60_crop_rejects .release u8Num demo 1 0 1 1 (by decide) (by decide) (by decide)

/-- **C60** (overflowing corner) When `x+width` or `y+height` exceeds the u32 range, an
overflow-checked build never returns an image. -/
theorem c60_crop_overflow_debug (N : RNum T) (img : Image T) (x y width height : Nat)
    (ho : U32SIZE ≤ x + width ∨ U32SIZE ≤ y + height) :
    ¬ Res.Returns (crop .debug N img x y width height) := by
  unfold crop
  apply bind_not_ok
  intro u hu
  exfalso
  unfold cropCheck at hu
  obtain ⟨a, ha, hu⟩ := bind_eq_ok hu
  by_cases hx : x + width < U32SIZE
  · split at hu
    · cases hu
    · obtain ⟨b, hb, hu⟩ := bind_eq_ok hu
      simp only [u32Add, wrapNat] at hb
      rw [if_neg (by omega)] at hb; cases hb
  · simp only [u32Add, wrapNat] at ha
    rw [if_neg hx] at ha; cases ha

/-- **C60** (soundness, every u32 rectangle, both profiles) Whatever image `crop` returns, each of its
pixels is the input pixel it should be; none comes from elsewhere. -/
theorem c60_crop_sound (P : Profile) (N : RNum T) (img : Image T) (h : img.WF)
    (x y width height : Nat) (hx : x < U32SIZE) (hy : y < U32SIZE) (hw : width < U32SIZE)
    (hh : height < U32SIZE) (out : Image T) (e : crop P N img x y width height = .ok out) :
    ∀ i j, i < width → j < height →
      x + i < img.info.width ∧ y + j < img.info.height ∧
      ∀ Q, out.getPixel Q i j = img.getPixel Q (x + i) (y + j) := by
  intro i j hi hj
  have hW := h.width
  have hH := h.height
  by_cases hin : x + width < img.info.width ∧ y + height < img.info.height
  · obtain ⟨o, eo, ho⟩ := c60_crop_inside P N img h x y width height hin.1 hin.2
    rw [e] at eo; cases eo
    refine ⟨by omega, by omega, fun Q => ?_⟩
    rw [ho.2.2 Q i j hi hj, Image.getPixel_eq Q h (by omega) (by omega)]
  · by_cases hov : x + width < U32SIZE ∧ y + height < U32SIZE
    · have := c60_crop_rejects P N img x y width height hov.1 hov.2 hin
      rw [e] at this; cases this
    · -- overflow: some iteration reads outside the image, so the call cannot return
      exfalso
      have hret : Res.Returns (crop P N img x y width height) := ⟨_, e⟩
      revert hret
      cases P with
      | debug => exact c60_crop_overflow_debug N img x y width height (by omega)
      | release =>
        unfold crop
        apply bind_not_ok; intro u hu
        apply bind_not_ok; intro b hb
        by_cases hxo : x + width < U32SIZE
        · -- y overflows; x does not
          have hyo : U32SIZE ≤ y + height := by omega
          have hm : img.info.height - y < height := by omega
          refine forRange_not_ok (Nat.zero_le _) hm ?_ b
          intro s
          refine forRange_not_ok (Nat.zero_le _) (Nat.lt_of_le_of_lt (Nat.zero_le i) hi) ?_ s
          intro s
          apply bind_not_ok; intro ix hix
          apply bind_not_ok; intro jy hjy
          apply bind_not_ok; intro p hp
          exfalso
          have : img.info.height ≤ jy := by
            simp only [u32Add, wrapNat] at hjy
            split at hjy
            · cases hjy; omega
            · cases hjy; omega
          rw [Image.getPixel_panic _ (by omega)] at hp; cases hp
        · have hm : img.info.width - x < width := by omega
          refine forRange_not_ok (Nat.zero_le _) (Nat.lt_of_le_of_lt (Nat.zero_le j) hj) ?_ b
          intro s
          refine forRange_not_ok (Nat.zero_le _) hm ?_ s
          intro s
          apply bind_not_ok; intro ix hix
          apply bind_not_ok; intro jy hjy
          apply bind_not_ok; intro p hp
          exfalso
          have : img.info.width ≤ ix := by
            simp only [u32Add, wrapNat] at hix
            split at hix
            · cases hix; omega
            · cases hix; omega
          rw [Image.getPixel_panic _ (by omega)] at hp; cases hp

example : ∃ out, crop .release u8Num demo 0 0 1 1 = .ok out ∧ out.getPixel .debug 0 0 = .ok [1, 2, 3] :=
  ⟨_, rfl, rfl⟩

/-- **C61** (what the code does) Among rectangles inside the image, exactly those that touch neither
the right nor the bottom border are accepted. -/
theorem c61_crop_inside_partial (P : Profile) (N : RNum T) (img : Image T) (h : img.WF)
    (x y width height : Nat) (hx : x + width ≤ img.info.width) (hy : y + height ≤ img.info.height) :
    (Res.Returns (crop P N img x y width height) ↔
      x + width ≠ img.info.width ∧ y + height ≠ img.info.height) ∧
    (Res.InvalidArg (crop P N img x y width height) ↔
      x + width = img.info.width ∨ y + height = img.info.height) := by
  have hW := h.width
  have hH := h.height
  by_cases hin : x + width < img.info.width ∧ y + height < img.info.height
  · obtain ⟨o, eo, _⟩ := c60_crop_inside P N img h x y width height hin.1 hin.2
    rw [eo]
    refine ⟨⟨fun _ => by omega, fun _ => ⟨_, rfl⟩⟩, ⟨fun hi => (by cases hi), fun hi => (by omega)⟩⟩
  · have hr := c60_crop_rejects P N img x y width height (by omega) (by omega) hin
    refine ⟨⟨fun hi => ?_, fun hi => by omega⟩, ⟨fun _ => by omega, fun _ => hr⟩⟩
    obtain ⟨o, ho⟩ := hi
    rw [ho] at hr; cases hr

/-- **C61 violated**: cropping to the full image is always rejected. -/
theorem c61_violated (P : Profile) (N : RNum T) (img : Image T) (h : img.WF) :
    Res.InvalidArg (crop P N img 0 0 img.info.width img.info.height) :=
  (c61_crop_inside_partial P N img h 0 0 _ _ (by omega) (by omega)).2.2 (by omega)

/-! ## C63 — overlay -/

/-- **C63** `overlay` has back's header; it shows `front` shifted by `(x,y)` where that covers the
pixel, `back` elsewhere. -/
theorem c63_overlay (P : Profile) (back front : Image T) (hb : back.WF) (hf : front.WF)
    (hc : back.info.channels = front.info.channels) (x y : Nat)
    (hx : x + front.info.width < U32SIZE) (hy : y + front.info.height < U32SIZE) :
    ∃ out, overlay P back front x y = .ok out ∧
      out.Shows back.info (fun i j =>
        if x ≤ i ∧ i < x + front.info.width ∧ y ≤ j ∧ j < y + front.info.height
        then front.px (i - x) (j - y) else back.px i j) := by
  obtain ⟨out, e, ho⟩ := Image.fillRect_set P hb x (min (x + front.info.width) back.info.width)
    y (min (y + front.info.height) back.info.height) (Nat.min_le_right _ _) (Nat.min_le_right _ _)
    (fun i j => front.px (i - x) (j - y))
    (fun i j h1 h2 h3 h4 => by rw [hc]; exact Image.px_length hf (by omega) (by omega))
    (fun j i => do
      let ix ← u32Sub P i x
      let jy ← u32Sub P j y
      front.getPixel P ix jy)
    (fun i j h1 h2 h3 h4 => by
      rw [u32Sub_ok h1, ok_bind, u32Sub_ok h3, ok_bind, Image.getPixel_eq P hf (by omega) (by omega)])
  refine ⟨out, ?_, ho.congr fun i j hi hj => ?_⟩
  · unfold overlay checkEqual
    rw [if_neg (by simp [hc]), ok_bind, u32Add_ok hx, ok_bind]
    simp only
    rw [u32Add_ok hy, ok_bind, ← e]
    simp only [bind_assoc]
  · have : (x ≤ i ∧ i < min (x + front.info.width) back.info.width ∧ y ≤ j ∧
        j < min (y + front.info.height) back.info.height) ↔
      (x ≤ i ∧ i < x + front.info.width ∧ y ≤ j ∧ j < y + front.info.height) := by omega
    simp only [this]

/-- **C63** unequal channel counts are rejected. -/
theorem c63_overlay_channels (P : Profile) (back front : Image T)
    (hc : back.info.channels ≠ front.info.channels) (x y : Nat) :
    Res.InvalidArg (overlay P back front x y) := by
  unfold overlay checkEqual
  rw [if_pos hc]; rfl

/-- **C63** offsets that overflow u32 panic in overflow-checked builds. -/
theorem c63_overlay_overflow_debug (back front : Image T)
    (hc : back.info.channels = front.info.channels) (x y : Nat)
    (ho : U32SIZE ≤ x + front.info.width) : Res.Panics (overlay .debug back front x y) := by
  unfold overlay checkEqual
  rw [if_neg (by simp [hc]), ok_bind]
  refine Res.Panics.bind ⟨.overflow, ?_⟩ _
  simp [u32Add, wrapNat, show ¬ (x + front.info.width < U32SIZE) by omega]; rfl

example : overlay .debug demo (Image.fromVec 1 1 3 false [9, 9, 9]) 1 1 =
    .ok (Image.fromVec 2 2 3 false [1, 2, 3, 4, 5, 6, 7, 8, 9, 9, 9, 9]) := rfl

/-! ## C64 — translate -/

/-- **C64** `translate` keeps the header, moves pixels by `(x,y)` and fills with zeros. -/
theorem c64_translate (P : Profile) (N : RNum T) (img : Image T) (h : img.WF) (x y : Nat) :
    ∃ out, translate P N img x y = .ok out ∧
      out.Shows img.info (fun i j => if x ≤ i ∧ y ≤ j then img.px (i - x) (j - y)
        else List.replicate img.info.channels (N.ofU8 0)) := by
  obtain ⟨b, eb, hb⟩ := Image.blank_eq P N h.infoWF
  obtain ⟨bw, bi, bp⟩ := Image.shows_iff.1 hb
  obtain ⟨out, e, ho⟩ := Image.fillRect_set P bw x img.info.width y img.info.height
    (by simp [bi]) (by simp [bi]) (fun i j => img.px (i - x) (j - y))
    (fun i j h1 h2 h3 h4 => by rw [bi]; exact Image.px_length h (by omega) (by omega))
    (fun j i => do
      let ix ← u32Sub P i x
      let jy ← u32Sub P j y
      img.getPixel P ix jy)
    (fun i j h1 h2 h3 h4 => by
      rw [u32Sub_ok h1, ok_bind, u32Sub_ok h3, ok_bind, Image.getPixel_eq P h (by omega) (by omega)])
  rw [bi] at ho
  refine ⟨out, ?_, ho.congr fun i j hi hj => ?_⟩
  · unfold translate
    rw [eb, ok_bind, bi, fill_bound_congr (out0 := b) (fun o => o.info.width) (x1 := img.info.width)
      (fun o ho => by rw [ho, bi])
      (fun j i o => do
        let ix ← u32Sub P i x
        let jy ← u32Sub P j y
        let p ← img.getPixel P ix jy
        o.setPixel P i j p) (fun j i o o' h => by
          obtain ⟨_, _, h⟩ := bind_eq_ok h
          obtain ⟨_, _, h⟩ := bind_eq_ok h
          obtain ⟨_, _, h⟩ := bind_eq_ok h
          exact Image.setPixel_info h), ← e]
    simp only [bind_assoc]
  · have : (x ≤ i ∧ i < img.info.width ∧ y ≤ j ∧ j < img.info.height) ↔ (x ≤ i ∧ y ≤ j) := by omega
    simp only [this]
    rw [bp i j hi hj]

/-- **C64** two translations in a row are one translation by the sum of the offsets. -/
theorem c64_translate_compose (P : Profile) (N : RNum T) (img : Image T) (h : img.WF)
    (x y x' y' : Nat) :
    (translate P N img x y >>= fun a => translate P N a x' y') =
      translate P N img (x + x') (y + y') := by
  obtain ⟨a, ea, ha⟩ := c64_translate P N img h x y
  obtain ⟨b, eb, hb⟩ := c64_translate P N a ha.WF x' y'
  obtain ⟨c, ec, hc⟩ := c64_translate P N img h (x + x') (y + y')
  rw [ea, ok_bind, eb, ec]
  congr 1
  rw [ha.info_eq] at hb
  refine Image.Shows.ext hb (hc.congr fun i j hi hj => ?_)
  by_cases h1 : x' ≤ i ∧ y' ≤ j
  · rw [if_pos h1, ha.px_eq (by omega) (by omega)]
    by_cases h2 : x + x' ≤ i ∧ y + y' ≤ j
    · rw [if_pos h2, if_pos (by omega), show i - (x + x') = i - x' - x by omega,
        show j - (y + y') = j - y' - y by omega]
    · rw [if_neg h2, if_neg (by omega)]
  · rw [if_neg h1, if_neg (by omega)]

example : translate .debug u8Num demo 1 0 =
    .ok (Image.fromVec 2 2 3 false [0, 0, 0, 1, 2, 3, 0, 0, 0, 7, 8, 9]) := rfl

/-! ## C65 — reflect -/

/-- **C65** `reflect` keeps the header and mirrors: vertical axis `(w-1-x, y)`, horizontal `(x, h-1-y)`. -/
theorem c65_reflect (P : Profile) (N : RNum T) (img : Image T) (h : img.WF) (axis : Refl) :
    ∃ out, reflect P N img axis = .ok out ∧
      out.Shows img.info (fun x y => match axis with
        | .vertical => img.px (img.info.width - 1 - x) y
        | .horizontal => img.px x (img.info.height - 1 - y)) := by
  cases axis with
  | vertical =>
    obtain ⟨b, out, eb, bi, e, ho⟩ := Image.fillAll_set P N h.infoWF
      (fun x y => img.px (img.info.width - 1 - x) y)
      (fun x y hx hy => Image.px_length h (by omega) (by omega))
      (fun y x => do
        let a ← u32Sub P img.info.width x
        let b ← u32Sub P a 1
        img.getPixel P b y)
      (fun x y hx hy => by
        rw [u32Sub_ok (by omega), ok_bind, u32Sub_ok (by omega), ok_bind,
          Image.getPixel_eq P h (by omega) (by omega), Nat.sub_right_comm])
    refine ⟨out, ?_, ho⟩
    unfold reflect
    rw [eb, ok_bind]
    simp only [bi]
    rw [← e]
    simp only [bind_assoc]
  | horizontal =>
    obtain ⟨b, out, eb, bi, e, ho⟩ := Image.fillAll_set P N h.infoWF
      (fun x y => img.px x (img.info.height - 1 - y))
      (fun x y hx hy => Image.px_length h (by omega) (by omega))
      (fun y x => do
        let a ← u32Sub P img.info.height y
        let b ← u32Sub P a 1
        img.getPixel P x b)
      (fun x y hx hy => by
        rw [u32Sub_ok (by omega), ok_bind, u32Sub_ok (by omega), ok_bind,
          Image.getPixel_eq P h (by omega) (by omega), Nat.sub_right_comm])
    refine ⟨out, ?_, ho⟩
    unfold reflect
    rw [eb, ok_bind]
    simp only [bi]
    rw [← e]
    simp only [bind_assoc]

/-- **C65** reflecting twice along the same axis gives back the image. -/
theorem c65_reflect_involution (P Q : Profile) (N : RNum T) (img : Image T) (h : img.WF) (axis : Refl) :
    (reflect P N img axis >>= fun a => reflect Q N a axis) = .ok img := by
  obtain ⟨a, ea, ha⟩ := c65_reflect P N img h axis
  obtain ⟨b, eb, hb⟩ := c65_reflect Q N a ha.WF axis
  rw [ea, ok_bind, eb]
  congr 1
  rw [ha.info_eq] at hb
  refine Image.Shows.ext hb (h.shows.congr fun x y hx hy => ?_)
  cases axis with
  | vertical =>
    simp only
    rw [ha.px_eq (by omega) hy]
    simp only
    rw [show img.info.width - 1 - (img.info.width - 1 - x) = x by omega]
  | horizontal =>
    simp only
    rw [ha.px_eq hx (by omega)]
    simp only
    rw [show img.info.height - 1 - (img.info.height - 1 - y) = y by omega]

/-- **C65** the two reflections commute. -/
theorem c65_reflect_comm (P : Profile) (N : RNum T) (img : Image T) (h : img.WF) :
    (reflect P N img .vertical >>= fun a => reflect P N a .horizontal) =
    (reflect P N img .horizontal >>= fun a => reflect P N a .vertical) := by
  obtain ⟨a, ea, ha⟩ := c65_reflect P N img h .vertical
  obtain ⟨b, eb, hb⟩ := c65_reflect P N a ha.WF .horizontal
  obtain ⟨c, ec, hc⟩ := c65_reflect P N img h .horizontal
  obtain ⟨d, ed, hd⟩ := c65_reflect P N c hc.WF .vertical
  rw [ea, ok_bind, eb, ec, ok_bind, ed]
  congr 1
  rw [ha.info_eq] at hb
  rw [hc.info_eq] at hd
  refine Image.Shows.ext hb (hd.congr fun x y hx hy => ?_)
  simp only
  rw [ha.px_eq hx (by omega), hc.px_eq (by omega) hy]

example : reflect .debug u8Num demo .vertical =
    .ok (Image.fromVec 2 2 3 false [4, 5, 6, 1, 2, 3, 10, 11, 12, 7, 8, 9]) := rfl
end Imgproc

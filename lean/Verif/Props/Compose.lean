import Mathlib.Tactic.SplitIfs
import Verif.Props.Transform
import Verif.Spec.Demo
/-! Property C83: cutting and pasting are inverse to each other and compose. -/
namespace Imgproc
variable {T : Type}

/-- **C83** cropping a crop is one crop at the sum of the offsets -/
theorem c83_crop_crop (P : Profile) (N : RNum T) (img : Image T) (h : img.WF) (x y w hh x' y' w' h' : Nat)
    (hx : x + w < img.info.width) (hy : y + hh < img.info.height) (hx' : x' + w' < w) (hy' : y' + h' < hh) :
    (crop P N img x y w hh >>= fun a => crop P N a x' y' w' h') = crop P N img (x + x') (y + y') w' h' := by
  obtain ⟨a, ea, ha⟩ := c60_crop_inside P N img h x y w hh hx hy
  obtain ⟨b, eb, hb⟩ := c60_crop_inside P N a ha.1 x' y' w' h' (by rw [ha.2.1]; exact hx') (by rw [ha.2.1]; exact hy')
  obtain ⟨c, ec, hc⟩ := c60_crop_inside P N img h (x + x') (y + y') w' h' (by omega) (by omega)
  rw [ea, ok_bind, eb, ec, Image.Shows.ext hb (b := c)]
  rw [ha.2.1]
  refine hc.congr fun i j hi hj => ?_
  rw [ha.px_eq (x := x' + i) (y := y' + j) (by show _ < w; have : i < w' := hi; omega) (by show _ < hh; have : j < h' := hj; omega)]
  rw [Nat.add_assoc, Nat.add_assoc]

/-- **C83** pasting a crop back where it was cut from changes nothing -/
theorem c83_overlay_crop (P : Profile) (N : RNum T) (img : Image T) (h : img.WF) (x y w hh : Nat)
    (hx : x + w < img.info.width) (hy : y + hh < img.info.height) :
    (crop P N img x y w hh >>= fun a => overlay P img a x y) = .ok img := by
  obtain ⟨a, ea, ha⟩ := c60_crop_inside P N img h x y w hh hx hy
  have hlw := h.width
  have hlh := h.height
  obtain ⟨o, eo, ho⟩ := c63_overlay P img a h ha.1 (by rw [ha.2.1]) x y (by rw [ha.2.1]; show x + w < _; omega)
    (by rw [ha.2.1]; show y + hh < _; omega)
  rw [ea, ok_bind, eo, Image.Shows.ext ho (b := img)]
  refine h.shows.congr fun i j hi hj => ?_
  rw [ha.2.1]
  by_cases hc : x ≤ i ∧ i < x + w ∧ y ≤ j ∧ j < y + hh
  · rw [if_pos hc, ha.px_eq (x := i - x) (y := j - y) (by show _ < w; omega) (by show _ < hh; omega)]
    rw [Nat.add_sub_cancel' hc.1, Nat.add_sub_cancel' hc.2.2.1]
  · rw [if_neg hc]

/-- **C83** cutting out what was pasted gives the pasted image back -/
theorem c83_crop_overlay (P : Profile) (N : RNum T) (back front : Image T) (hb : back.WF) (hf : front.WF)
    (hc : back.info.channels = front.info.channels) (ha : back.info.alpha = front.info.alpha) (x y : Nat)
    (hx : x + front.info.width < back.info.width) (hy : y + front.info.height < back.info.height) :
    (overlay P back front x y >>= fun o => crop P N o x y front.info.width front.info.height) = .ok front := by
  have hlw := hb.width
  have hlh := hb.height
  obtain ⟨o, eo, ho⟩ := c63_overlay P back front hb hf hc x y (by omega) (by omega)
  obtain ⟨a, ea, hs⟩ := c60_crop_inside P N o ho.1 x y front.info.width front.info.height (by rw [ho.2.1]; exact hx)
    (by rw [ho.2.1]; exact hy)
  rw [eo, ok_bind, ea, Image.Shows.ext hs (b := front)]
  rw [ho.2.1, hc, ha]
  refine hf.shows.congr fun i j hi hj => ?_
  rw [ho.px_eq (x := x + i) (y := y + j) (by omega) (by omega), if_pos (by omega), Nat.add_sub_cancel_left, Nat.add_sub_cancel_left]

/-- **C83** pasting the same image twice is pasting it once -/
theorem c83_overlay_twice (P : Profile) (back front : Image T) (hb : back.WF) (hf : front.WF)
    (hc : back.info.channels = front.info.channels) (x y : Nat)
    (hx : x + front.info.width < U32SIZE) (hy : y + front.info.height < U32SIZE) :
    (overlay P back front x y >>= fun o => overlay P o front x y) = overlay P back front x y := by
  obtain ⟨o, eo, ho⟩ := c63_overlay P back front hb hf hc x y hx hy
  obtain ⟨o', eo', ho'⟩ := c63_overlay P o front ho.1 hf (by rw [ho.2.1]; exact hc) x y hx hy
  rw [eo, ok_bind, eo', Image.Shows.ext ho' (b := o)]
  rw [ho.2.1]
  refine ho.congr fun i j hi hj => ?_
  split_ifs with h
  · rfl
  · rw [ho.px_eq hi hj, if_neg h]

/-- **C83** pastes that do not overlap can be made in either order -/
theorem c83_overlay_comm (P : Profile) (back a b : Image T) (hb : back.WF) (ha : a.WF) (hb' : b.WF)
    (hca : back.info.channels = a.info.channels) (hcb : back.info.channels = b.info.channels) (x y x' y' : Nat)
    (hx : x + a.info.width < U32SIZE) (hy : y + a.info.height < U32SIZE)
    (hx' : x' + b.info.width < U32SIZE) (hy' : y' + b.info.height < U32SIZE)
    (hdis : ∀ i j, ¬ ((x ≤ i ∧ i < x + a.info.width ∧ y ≤ j ∧ j < y + a.info.height) ∧
      x' ≤ i ∧ i < x' + b.info.width ∧ y' ≤ j ∧ j < y' + b.info.height)) :
    (overlay P back a x y >>= fun o => overlay P o b x' y') = (overlay P back b x' y' >>= fun o => overlay P o a x y) := by
  obtain ⟨o, eo, ho⟩ := c63_overlay P back a hb ha hca x y hx hy
  obtain ⟨p, ep, hp⟩ := c63_overlay P back b hb hb' hcb x' y' hx' hy'
  obtain ⟨o', eo', ho'⟩ := c63_overlay P o b ho.1 hb' (by rw [ho.2.1]; exact hcb) x' y' hx' hy'
  obtain ⟨p', ep', hp'⟩ := c63_overlay P p a hp.1 ha (by rw [hp.2.1]; exact hca) x y hx hy
  rw [eo, ok_bind, eo', ep, ok_bind, ep', Image.Shows.ext ho' (b := p')]
  rw [ho.2.1]
  rw [hp.2.1] at hp'
  refine hp'.congr fun i j hi hj => ?_
  rw [ho.px_eq hi hj, hp.px_eq hi hj]
  have := hdis i j
  split_ifs <;> first | rfl | (exfalso; exact this (by constructor <;> assumption))

/-- **C83** translating is pasting onto a black image -/
theorem c83_translate_overlay (P : Profile) (N : RNum T) (img black : Image T) (h : img.WF) (hb : black.WF)
    (hi : black.info = img.info) (hblack : ∀ i j, i < img.info.width → j < img.info.height →
      black.px i j = List.replicate img.info.channels (N.ofU8 0)) (x y : Nat)
    (hx : x + img.info.width < U32SIZE) (hy : y + img.info.height < U32SIZE) :
    translate P N img x y = overlay P black img x y := by
  obtain ⟨t, et, ht⟩ := c64_translate P N img h x y
  obtain ⟨o, eo, ho⟩ := c63_overlay P black img hb h (by rw [hi]) x y hx hy
  rw [et, eo, Image.Shows.ext ht (b := o)]
  rw [hi] at ho
  refine ho.congr fun i j hi' hj' => ?_
  rw [hblack i j hi' hj']
  by_cases hc : x ≤ i ∧ y ≤ j
  · rw [if_pos hc, if_pos (by omega)]
  · rw [if_neg hc, if_neg (by omega)]

/-- **C83** cropping follows a translation -/
theorem c83_crop_translate (P : Profile) (N : RNum T) (img : Image T) (h : img.WF) (dx dy x y w hh : Nat)
    (hx : dx + x + w < img.info.width) (hy : dy + y + hh < img.info.height) :
    (translate P N img dx dy >>= fun t => crop P N t (dx + x) (dy + y) w hh) = crop P N img x y w hh := by
  obtain ⟨t, et, ht⟩ := c64_translate P N img h dx dy
  obtain ⟨a, ea, ha⟩ := c60_crop_inside P N t ht.1 (dx + x) (dy + y) w hh (by rw [ht.2.1]; exact hx) (by rw [ht.2.1]; exact hy)
  obtain ⟨b, eb, hb⟩ := c60_crop_inside P N img h x y w hh (by omega) (by omega)
  rw [et, ok_bind, ea, eb, Image.Shows.ext ha (b := b)]
  rw [ht.2.1]
  refine hb.congr fun i j hi hj => ?_
  have hi : i < w := hi
  have hj : j < hh := hj
  rw [ht.px_eq (x := dx + x + i) (y := dy + y + j) (by omega) (by omega), if_pos (by omega)]
  rw [show dx + x + i - dx = x + i by omega, show dy + y + j - dy = y + j by omega]

/-- a 1×1 image pasted into a 3×2 image and cut out again; and the other laws on the same images -/
example (P : Profile) (N : RNum T) (a b c d e f v : T) :
    (overlay P (gray6 a b c d e f) (Image.fromVec 1 1 1 false [v]) 1 0 >>= fun o => crop P N o 1 0 1 1) =
      .ok (Image.fromVec 1 1 1 false [v]) ∧
    (crop P N (gray6 a b c d e f) 1 0 1 1 >>= fun o => overlay P (gray6 a b c d e f) o 1 0) = .ok (gray6 a b c d e f) ∧
    (crop P N (gray6 a b c d e f) 0 0 2 1 >>= fun o => crop P N o 1 0 0 0) = crop P N (gray6 a b c d e f) 1 0 0 0 ∧
    (translate P N (gray6 a b c d e f) 1 0 >>= fun o => crop P N o 1 0 1 1) = crop P N (gray6 a b c d e f) 0 0 1 1 :=
  ⟨c83_crop_overlay P N _ (Image.fromVec 1 1 1 false [v]) (gray6_WF ..)
      ⟨show 1 < _ by decide, show 1 < _ by decide, show 1 < _ by decide, show 1 * 1 < _ by decide,
        show 1 * 1 * 1 < _ by decide, rfl⟩ rfl rfl 1 0 (by dims) (by dims),
    c83_overlay_crop P N _ (gray6_WF ..) 1 0 1 1 (by dims) (by dims),
    c83_crop_crop P N _ (gray6_WF ..) 0 0 2 1 1 0 0 0 (by dims) (by dims) (by dims) (by dims),
    c83_crop_translate P N _ (gray6_WF ..) 1 0 0 0 1 1 (by dims) (by dims)⟩
end Imgproc

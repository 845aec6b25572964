import Verif.Props.Morphology3
/-! Property C82: algebra of the morphological operations (exact opening, idempotence, composition of radii). -/
namespace Imgproc
open FloatOps

/-- spec: a `(2r+1) x (2r+1)` square of white pixels, lying inside the image, covers `(x, y)` -/
def CoveredBySquare (img : Image UInt8) (r x y : Nat) : Prop :=
  ∃ a b : Nat, |(a : Int) - x| ≤ r ∧ |(b : Int) - y| ≤ r ∧
    ∀ i j : Int, |i - a| ≤ r → |j - b| ≤ r → ∃ i' j' : Nat, i = i' ∧ j = j' ∧ IsWhite img i' j'

/-- spec: run `f` `n` times -/
def repeatOp {A : Type} (f : A → Res A) : Nat → A → Res A
  | 0, a => .ok a
  | n + 1, a => repeatOp f n a >>= f

theorem Image.Draws.ext {a b : Image UInt8} {info : ImageInfo} {S T : Nat → Nat → Prop} (ha : a.Draws info S)
    (hb : b.Draws info T) (h : ∀ x y, x < info.width → y < info.height → (S x y ↔ T x y)) : a = b :=
  Image.Shows.ext (ha.congr h) hb

/-- a pixel whose erosion is white is at least `r` away from every edge -/
theorem Eroded.interior {img : Image UInt8} {r x y : Nat} (h : Eroded img r x y) :
    r ≤ x ∧ x + r < img.info.width ∧ r ≤ y ∧ y + r < img.info.height := by
  obtain ⟨a, b, e1, e2, hw⟩ := h ((x : Int) - r) ((y : Int) - r) (by rw [abs_le]; omega) (by rw [abs_le]; omega)
  obtain ⟨a', b', e1', e2', hw'⟩ := h ((x : Int) + r) ((y : Int) + r) (by rw [abs_le]; omega) (by rw [abs_le]; omega)
  have := hw'.lt
  omega

/-- around interior white pixels the code's dilation window is the right one -/
theorem codeDilated_of_interior {img : Image UInt8} {r x y a b : Nat} (hx : x < img.info.width) (hy : y < img.info.height)
    (ha : r ≤ a) (ha' : a + r < img.info.width) (hb : r ≤ b) (hb' : b + r < img.info.height)
    (h1 : |(a : Int) - x| ≤ r) (h2 : |(b : Int) - y| ≤ r) (hw : IsWhite img a b) : CodeDilated img r x y := by
  rw [abs_le] at h1 h2
  refine ⟨a, b, ?_, ?_, ?_, ?_, hw⟩ <;> simp only [spanLo, spanHi] <;> split_ifs <;> omega

section
variable [Libm f32]

/-- **C82** `open` draws exactly the pixels covered by a white `(2r+1) x (2r+1)` square inside the image, for every
radius (the border defect of `dilate` does not show after an erosion). -/
theorem c82_open_value (P : Profile) {img : Image UInt8} {r : Nat} (h : MorphArgs img r) :
    ∃ o, morphOpen F32 P img r = .ok o ∧ o.Draws img.info (CoveredBySquare img r) := by
  obtain ⟨e, ee, he⟩ := h.erode P
  obtain ⟨o, eo, ho⟩ := (h.draws he).dilate P
  rw [he.2.1] at ho
  refine ⟨o, by unfold morphOpen; rw [ee, ok_bind, eo], ho.congr fun x y hx hy => ⟨fun hd => ?_, fun hc => ?_⟩⟩
  · obtain ⟨a, b, h1, h2, hw⟩ := hd.dilated
    exact ⟨a, b, h1, h2, (he.white'.1 hw).2.2⟩
  · obtain ⟨a, b, h1, h2, hE⟩ := hc
    have hE : Eroded img r a b := hE
    have hi := hE.interior
    refine codeDilated_of_interior (by rw [he.2.1]; exact hx) (by rw [he.2.1]; exact hy) hi.1 (by rw [he.2.1]; exact hi.2.1)
      hi.2.2.1 (by rw [he.2.1]; exact hi.2.2.2) h1 h2 (he.white'.2 ⟨by omega, by omega, hE⟩)

/-- **C82** opening twice is the same as opening once -/
theorem c82_open_idempotent (P : Profile) {img : Image UInt8} {r : Nat} (h : MorphArgs img r) :
    ∃ o, morphOpen F32 P img r = .ok o ∧ morphOpen F32 P o r = .ok o := by
  obtain ⟨o, eo, ho⟩ := c82_open_value P h
  obtain ⟨o', eo', ho'⟩ := c82_open_value P (h.draws ho)
  rw [ho.2.1] at ho'
  refine ⟨o, eo, ?_⟩
  rw [eo', ho'.ext ho fun x y hx hy => ⟨fun hc => ?_, fun hc => ?_⟩]
  · obtain ⟨a, b, h1, h2, hE⟩ := hc
    obtain ⟨i, j, e1, e2, hw⟩ := hE x y (by rw [abs_sub_comm]; exact h1) (by rw [abs_sub_comm]; exact h2)
    have : x = i := by omega
    have : y = j := by omega
    subst x y
    exact (ho.white'.1 hw).2.2
  · obtain ⟨a, b, h1, h2, hE⟩ := hc
    refine ⟨a, b, h1, h2, fun i j hi hj => ?_⟩
    obtain ⟨i', j', rfl, rfl, hw⟩ := hE i j hi hj
    exact ⟨i', j', rfl, rfl, ho.white'.2 ⟨hw.lt.1, hw.lt.2, a, b, by rw [abs_sub_comm]; exact hi,
      by rw [abs_sub_comm]; exact hj, hE⟩⟩

/-- **C82** closing twice is the same as closing once -/
theorem c82_close_idempotent (P : Profile) {img : Image UInt8} {r : Nat} (h : MorphArgs img r) :
    ∃ o, morphClose F32 P img r = .ok o ∧ morphClose F32 P o r = .ok o := by
  obtain ⟨d, ed, hd⟩ := h.dilate P
  obtain ⟨o, eo, ho⟩ := (h.draws hd).erode P
  rw [hd.2.1] at ho
  obtain ⟨d', ed', hd'⟩ := (h.draws ho).dilate P
  rw [ho.2.1] at hd'
  obtain ⟨o', eo', ho'⟩ := ((h.draws ho).draws (by rw [ho.2.1]; exact hd')).erode P
  rw [hd'.2.1] at ho'
  refine ⟨o, by unfold morphClose; rw [ed, ok_bind, eo], ?_⟩
  unfold morphClose
  rw [ed', ok_bind, eo', ho'.ext ho fun x y hx hy => ⟨fun hE => ?_, fun hE => ?_⟩]
  · -- white in the second closing: the window lies in `d' ⊆ d`
    refine hE.mono fun u v hw => ?_
    obtain ⟨hu, hv, hc⟩ := hd'.white'.1 hw
    obtain ⟨a, b, h1, h2, hab⟩ := hc.dilated
    exact (ho.white'.1 hab).2.2.at (by rw [abs_sub_comm]; exact h1) (by rw [abs_sub_comm]; exact h2)
  · intro i j hi hj
    obtain ⟨i', j', rfl, rfl, hw⟩ := hE i j hi hj
    have hin := hE.interior
    rw [hd.2.1] at hin
    have hl := hw.lt
    rw [hd.2.1] at hl
    refine ⟨i', j', rfl, rfl, hd'.white'.2 ⟨hl.1, hl.2, ?_⟩⟩
    exact codeDilated_of_interior (by rw [ho.2.1]; exact hl.1) (by rw [ho.2.1]; exact hl.2) hin.1
      (by rw [ho.2.1]; exact hin.2.1) hin.2.2.1 (by rw [ho.2.1]; exact hin.2.2.2) (by rw [abs_sub_comm]; exact hi)
      (by rw [abs_sub_comm]; exact hj) (ho.white'.2 ⟨hx, hy, hE⟩)

omit [Libm f32] in
theorem eroded_add {img e : Image UInt8} {r s : Nat} (he : e.Draws img.info (Eroded img r)) {x y : Nat} :
    Eroded e s x y ↔ Eroded img (r + s) x y := by
  constructor
  · intro h i j hi hj
    rw [abs_le] at hi hj
    push_cast at hi hj
    -- the point of the `s`-window of `(x, y)` nearest to `(i, j)`
    obtain ⟨a, b, e1, e2, hw⟩ := h (max (x - s) (min i (x + s))) (max (y - s) (min j (y + s)))
      (by rw [abs_le]; omega) (by rw [abs_le]; omega)
    exact (he.white'.1 hw).2.2 i j (by rw [abs_le]; omega) (by rw [abs_le]; omega)
  · intro h i j hi hj
    rw [abs_le] at hi hj
    obtain ⟨a, b, rfl, rfl, hw⟩ := h i j (by rw [abs_le]; push_cast; omega) (by rw [abs_le]; push_cast; omega)
    refine ⟨a, b, rfl, rfl, he.white'.2 ⟨hw.lt.1, hw.lt.2, fun u v hu hv => ?_⟩⟩
    rw [abs_le] at hu hv
    exact h u v (by rw [abs_le]; push_cast; omega) (by rw [abs_le]; push_cast; omega)

/-- **C82** erosions compose: eroding by `r` and then by `s` is eroding by `r + s` -/
theorem c82_erode_compose (P : Profile) {img : Image UInt8} {r s : Nat} (h : MorphArgs img (r + s)) :
    ∃ e o, erode F32 P img r = .ok e ∧ erode F32 P e s = .ok o ∧ erode F32 P img (r + s) = .ok o := by
  have hr : MorphArgs img r := ⟨h.binary, by have := h.width; omega, by have := h.height; omega, h.small⟩
  have hs : MorphArgs img s := ⟨h.binary, by have := h.width; omega, by have := h.height; omega, h.small⟩
  obtain ⟨e, ee, he⟩ := hr.erode P
  obtain ⟨o, eo, ho⟩ := (hs.draws he).erode P
  obtain ⟨o', eo', ho'⟩ := h.erode P
  rw [he.2.1] at ho
  refine ⟨e, o, ee, eo, ?_⟩
  rw [eo', ho.ext ho' fun x y _ _ => eroded_add he]

/-- **C82** dilating `n` times with radius 1 is the dilation with radius `n`, for every `n` (a single call with radius
`n ≥ 2` is not, see C73) -/
theorem c82_dilate_repeat (P : Profile) {img : Image UInt8} (h : MorphArgs img 1) (n : Nat) :
    ∃ o, repeatOp (fun i => dilate F32 P i 1) n img = .ok o ∧ o.Draws img.info (Dilated img n) := by
  induction n with
  | zero =>
    refine ⟨img, rfl, h.binary.wf, rfl, fun Q x y hx hy => ?_⟩
    have hz : Dilated img 0 x y ↔ IsWhite img x y := by
      constructor
      · rintro ⟨a, b, h1, h2, hw⟩
        rw [abs_le] at h1 h2
        have : a = x := by omega
        have : b = y := by omega
        subst a b; exact hw
      · intro hw; exact ⟨x, y, by simp, by simp, hw⟩
    dsimp only
    rcases h.binary.value Q x y hx hy with hv | hv
    · rw [if_neg, hv]
      rw [hz]
      intro hw
      rw [hw Q] at hv
      simp at hv
    · rw [if_pos, hv]
      rw [hz]
      intro Q'
      rcases h.binary.value Q' x y hx hy with hv' | hv'
      · rw [Image.getPixel_eq _ h.binary.wf hx hy] at hv hv'
        rw [hv] at hv'
        simp at hv'
      · exact hv'
  | succ n ih =>
    obtain ⟨o, eo, ho⟩ := ih
    have hA := h.draws ho
    obtain ⟨o', eo', ho'⟩ := c73_radius_one_partial P hA.binary (Nat.le_refl 1) hA.width hA.height hA.small
    rw [ho.2.1] at ho'
    refine ⟨o', by show repeatOp _ n img >>= _ = _; rw [eo, ok_bind]; exact eo', ho'.congr fun x y hx hy => ⟨?_, ?_⟩⟩
    · rintro ⟨a, b, h1, h2, hw⟩
      obtain ⟨p, q, h3, h4, hpq⟩ := (ho.white'.1 hw).2.2
      rw [abs_le] at h1 h2 h3 h4
      exact ⟨p, q, by rw [abs_le]; push_cast at *; omega, by rw [abs_le]; push_cast at *; omega, hpq⟩
    · rintro ⟨p, q, h1, h2, hpq⟩
      have hl := hpq.lt
      rw [abs_le] at h1 h2
      push_cast at h1 h2
      refine ⟨(max ((x : Int) - 1) (min p (x + 1))).toNat, (max ((y : Int) - 1) (min q (y + 1))).toNat,
        by rw [abs_le]; omega, by rw [abs_le]; omega, ho.white'.2 ⟨by omega, by omega, p, q, by rw [abs_le]; omega,
          by rw [abs_le]; omega, hpq⟩⟩

/-- the hypotheses are met, and the opening of the 3×3 white square with radius 1 is the square itself -/
example (P : Profile) : ∃ o, morphOpen F32 P whiteImg 1 = .ok o ∧ IsWhite o 0 0 ∧ IsWhite o 2 1 := by
  have hA : MorphArgs whiteImg 1 := ⟨whiteImg_binary, by decide, by decide, by decide⟩
  obtain ⟨o, e, ho⟩ := c82_open_value P hA
  have hw : ∀ i j : Nat, i < 3 → j < 3 → IsWhite whiteImg i j := fun i j hi hj =>
    (isWhite_iff whiteImg_binary.wf hi hj).2 (by interval_cases i <;> interval_cases j <;> rfl)
  have hc : ∀ x y : Nat, x < 3 → y < 3 → CoveredBySquare whiteImg 1 x y := by
    intro x y hx hy
    refine ⟨1, 1, by rw [abs_le]; omega, by rw [abs_le]; omega, fun i j hi hj => ?_⟩
    rw [abs_le] at hi hj
    exact ⟨i.toNat, j.toNat, by omega, by omega, hw _ _ (by omega) (by omega)⟩
  exact ⟨o, e, ho.white'.2 ⟨by decide, by decide, hc 0 0 (by decide) (by decide)⟩,
    ho.white'.2 ⟨by decide, by decide, hc 2 1 (by decide) (by decide)⟩⟩

example : MorphArgs whiteImg (1 + 2) := ⟨whiteImg_binary, by decide, by decide, by decide⟩
end
end Imgproc

import Verif.Props.Tone
import Verif.Props.Filter2
import Verif.Props.Filter4
import Verif.Spec.Demo
import Mathlib.Tactic.IntervalCases
/-! Properties C93 (algebra of `brightness`) and C94 (the thresholding methods fit together). -/
namespace Imgproc
open FloatOps

section
variable {T : Type}

/-- the alpha part of a pixel of a well-formed image has the length the header asks for -/
theorem Image.WF.alphaLen {img : Image T} (h : img.WF) (hc : img.info.alpha = true → 0 < img.info.channels) {x y : Nat}
    (hx : x < img.info.width) (hy : y < img.info.height) :
    (img.info.alphaOf (img.px x y)).length = if img.info.alpha then 1 else 0 :=
  img.info.alphaOf_length (Image.px_length h hx hy) hc

/-- two colour maps in a row are one colour map -/
theorem Image.Shows.colour_comp {img a out : Image T} (h : img.WF) (hc : img.info.alpha = true → 0 < img.info.channels)
    {m m' : T → T}
    (ha : a.Shows img.info fun x y => (img.info.colour (img.px x y)).map m ++ img.info.alphaOf (img.px x y))
    (ho : out.Shows a.info fun x y => (a.info.colour (a.px x y)).map m' ++ a.info.alphaOf (a.px x y)) :
    out.Shows img.info fun x y => (img.info.colour (img.px x y)).map (m' ∘ m) ++ img.info.alphaOf (img.px x y) := by
  rw [ha.info_eq] at ho
  refine ho.congr fun x y hx hy => ?_
  rw [ha.px_eq hx hy]
  obtain ⟨e1, e2⟩ := img.info.colour_of_append (q := (img.info.colour (img.px x y)).map m) (h.alphaLen hc hx hy)
  rw [e1, e2, List.map_map]

/-- a colour map that fixes every colour value of the image gives the image back -/
theorem Image.Shows.colour_fix {img out : Image T} (h : img.WF) {m : T → T}
    (ho : out.Shows img.info fun x y => (img.info.colour (img.px x y)).map m ++ img.info.alphaOf (img.px x y))
    (hm : ∀ x y, x < img.info.width → y < img.info.height → ∀ v ∈ img.info.colour (img.px x y), m v = v) :
    out = img := by
  refine Image.Shows.ext ho (h.shows.congr fun x y hx hy => ?_)
  have : (img.info.colour (img.px x y)).map m = img.info.colour (img.px x y) := by
    conv_rhs => rw [← List.map_id (img.info.colour (img.px x y))]
    exact List.map_congr_left fun v hv => hm x y hx hy v hv
  rw [this, ImageInfo.colour_append]
end

/-! ## C93 — brightness changes add up -/

/-- **C93** Bias 0 changes nothing. -/
theorem c93_zero (P : Profile) (img : Image UInt8) (h : img.WF)
    (hc : img.info.alpha = true → 0 < img.info.channels) : brightness false P img 0 = .ok img := by
  obtain ⟨out, e, ho⟩ := c20_brightness P img 0 h hc (by omega)
  rw [e, ho.colour_fix h fun x y _ _ v _ => ?_]
  exact UInt8.toNat_inj.1 (by have := satAdd_toNat v 0; have := v.toNat_lt; omega)

/-- **C93** Two biases of the same sign act like their sum (which has to stay within the documented range). -/
theorem c93_add (P : Profile) (img : Image UInt8) (h : img.WF)
    (hc : img.info.alpha = true → 0 < img.info.channels) (a b : Int)
    (hs : (0 ≤ a ∧ 0 ≤ b) ∨ (a ≤ 0 ∧ b ≤ 0)) (hr : -255 ≤ a + b ∧ a + b ≤ 255) :
    (brightness false P img a >>= fun i => brightness false P i b) = brightness false P img (a + b) := by
  obtain ⟨i, e1, h1⟩ := c20_brightness P img a h hc (by omega)
  obtain ⟨o, e2, h2⟩ := c20_brightness P i b h1.WF (by rw [h1.info_eq]; exact hc) (by omega)
  obtain ⟨o', e3, h3⟩ := c20_brightness P img (a + b) h hc (by omega)
  rw [e1, ok_bind, e2, e3]
  refine congrArg Except.ok (Image.Shows.ext (h1.colour_comp h hc h2) (h3.congr fun x y hx hy => ?_))
  refine congrArg₂ _ (List.map_congr_left fun v _ => UInt8.toNat_inj.1 ?_) rfl
  have := satAdd_toNat v a
  have := satAdd_toNat (satAdd v a) b
  have := satAdd_toNat v (a + b)
  have := v.toNat_lt
  show (satAdd v (a + b)).toNat = (satAdd (satAdd v a) b).toNat
  omega

/-- **C93** Undoing: where no colour value of the image leaves 0..255, the opposite bias restores it; where one does,
the image that comes back is a different one. -/
theorem c93_undo (P : Profile) (img : Image UInt8) (h : img.WF)
    (hc : img.info.alpha = true → 0 < img.info.channels) (b : Int) (hb : -255 ≤ b ∧ b ≤ 255) :
    (brightness false P img b >>= fun i => brightness false P i (-b)) = .ok img ↔
      ∀ x y, x < img.info.width → y < img.info.height → ∀ v ∈ img.info.colour (img.px x y),
        0 ≤ (v.toNat : Int) + b ∧ (v.toNat : Int) + b ≤ 255 := by
  obtain ⟨i, e1, h1⟩ := c20_brightness P img b h hc (by omega)
  obtain ⟨o, e2, h2⟩ := c20_brightness P i (-b) h1.WF (by rw [h1.info_eq]; exact hc) (by omega)
  rw [e1, ok_bind, e2]
  have h3 := h1.colour_comp h hc h2
  have key : ∀ v : UInt8, satAdd (satAdd v b) (-b) = v ↔ 0 ≤ (v.toNat : Int) + b ∧ (v.toNat : Int) + b ≤ 255 := by
    intro v
    have h1 := satAdd_toNat v b
    have h2 := satAdd_toNat (satAdd v b) (-b)
    have := v.toNat_lt
    rw [← UInt8.toNat_inj]
    omega
  constructor
  · intro e x y hx hy v hv
    have e : o = img := by injection e
    subst e
    have hp := h3.px_eq hx hy
    have hl := o.info.colour_of_append (q := (o.info.colour (o.px x y)).map ((satAdd · (-b)) ∘ (satAdd · b)))
      (h.alphaLen hc hx hy)
    rw [← hp] at hl
    obtain ⟨k, hk, rfl⟩ := List.mem_iff_getElem.1 hv
    have := congrArg (fun l => l[k]?) hl.1
    simp only [List.getElem?_map, List.getElem?_eq_getElem hk, Option.map_some, Option.some.injEq] at this
    exact (key _).1 this.symm
  · intro hv
    rw [h3.colour_fix h fun x y hx hy v hm => (key v).2 (hv x y hx hy v hm)]

/-- **C93** A larger bias never gives a smaller value, a larger value never gives a smaller result, and the negative of
an image is brightened exactly as the image is darkened. -/
theorem c93_monotone (v w : UInt8) (a b : Int) (hvw : v ≤ w) (hab : a ≤ b) :
    satAdd v a ≤ satAdd w b ∧ satAdd (255 - v) a = 255 - satAdd v (-a) := by
  have h1 := satAdd_toNat v a
  have h2 := satAdd_toNat w b
  have h3 := satAdd_toNat v (-a)
  have h4 := satAdd_toNat (255 - v) a
  have : (255 - v).toNat = 255 - v.toNat := by
    rw [UInt8.toNat_sub_of_le _ _ (by rw [UInt8.le_iff_toNat_le]; have := v.toNat_lt; show v.toNat ≤ 255; omega)]; rfl
  have h5 : (255 - satAdd v (-a)).toNat = 255 - (satAdd v (-a)).toNat := by
    rw [UInt8.toNat_sub_of_le _ _ (by rw [UInt8.le_iff_toNat_le]; have := (satAdd v (-a)).toNat_lt; show (satAdd v (-a)).toNat ≤ 255; omega)]; rfl
  have hle := UInt8.le_iff_toNat_le.1 hvw
  have := v.toNat_lt
  exact ⟨UInt8.le_iff_toNat_le.2 (by omega), UInt8.toNat_inj.1 (by omega)⟩

example (P : Profile) : (brightness false P demoA 100 >>= fun i => brightness false P i 147) = brightness false P demoA 247 :=
  c93_add P demoA demoA_WF (by decide) 100 147 (by omega) (by omega)
/-- 7 + 250 saturates, so subtracting 250 again gives 5 -/
example (P : Profile) : (brightness false P demoA 250 >>= fun i => brightness false P i (-250)) ≠ .ok demoA := by
  intro e
  have := (c93_undo P demoA demoA_WF (by decide) 250 (by omega)).1 e 1 0 (by decide) (by decide) 7 (by decide)
  revert this; decide
example (P : Profile) : (brightness false P demoA 200 >>= fun i => brightness false P i (-200)) = .ok demoA :=
  (c93_undo P demoA demoA_WF (by decide) 200 (by omega)).2 fun x y hx hy => by
    have hx : x < 2 := hx
    have hy : y < 1 := hy
    interval_cases x <;> interval_cases y <;> decide

/-! ## C94 — the thresholding methods fit together -/

theorem grayscale_pos {i : ImageInfo} (h : Grayscale i) : i.alpha = true → 0 < i.channels := by
  unfold Grayscale at h; intro _; omega

section
variable {F : Type} [FloatOps F]

/-- thresholding twice, pixel by pixel -/
theorem threshold_twice (P : Profile) {img : Image F} (h : img.WF) (hg : Grayscale img.info) (thr max : F)
    (method : Thresh) (hfix : ∀ c, threshRule method (FloatOps.lt thr (threshRule method (FloatOps.lt thr c) c thr max (num 0)))
      (threshRule method (FloatOps.lt thr c) c thr max (num 0)) thr max (num 0) =
      threshRule method (FloatOps.lt thr c) c thr max (num 0)) :
    (threshold P img thr max method >>= fun a => threshold P a thr max method) = threshold P img thr max method := by
  obtain ⟨a, e1, h1⟩ := c52_threshold P h hg thr max method
  obtain ⟨b, e2, h2⟩ := c52_threshold P h1.WF (h1.info_eq ▸ hg) thr max method
  rw [e1, ok_bind, e2]
  refine congrArg Except.ok (Image.Shows.ext (h1.colour_comp h (grayscale_pos hg) h2) (h1.congr fun x y hx hy => ?_))
  refine congrArg₂ _ (List.map_congr_left fun v _ => ?_) rfl
  exact (hfix v).symm

/-- **C94** `to_zero` and `to_zero_inv` are idempotent in any arithmetic, for any threshold and image whatever, NaN
included. -/
theorem c94_to_zero_idempotent (P : Profile) {img : Image F} (h : img.WF) (hg : Grayscale img.info) (thr max : F) :
    (threshold P img thr max .toZero >>= fun a => threshold P a thr max .toZero) = threshold P img thr max .toZero ∧
    (threshold P img thr max .toZeroInv >>= fun a => threshold P a thr max .toZeroInv) =
      threshold P img thr max .toZeroInv := by
  refine ⟨threshold_twice P h hg thr max _ fun c => ?_, threshold_twice P h hg thr max _ fun c => ?_⟩
  · cases e : FloatOps.lt thr c <;> simp only [threshRule, e]
    cases FloatOps.lt thr (num 0 : F) <;> rfl
  · cases e : FloatOps.lt thr c <;> simp only [threshRule, e]
    cases FloatOps.lt thr (num 0 : F) <;> rfl
end

section
variable [Libm f32]

theorem lt_irrefl32 (x : F32) : (x <. x) = false := by
  rcases hv : x.val with _ | s | _ | q
  · exact lt_nan_left hv
  · show FP.lt x.val x.val = false
    rw [hv]; unfold FP.lt; simp [FP.toQ?, FP.sign]
    try cases s <;> rfl
  · have : x.Is 0 := by show x.val.toQ? = _; rw [hv]; rfl
    rw [lt_is this this]; simp
  · have : x.Is q := by show x.val.toQ? = _; rw [hv]; rfl
    rw [lt_is this this]; simp

/-- **C94** `trunc` is idempotent in IEEE f32 for every threshold; `binary` and `binary_inv` are idempotent and
complementary when the threshold separates 0 from `max`. -/
theorem c94_trunc_idempotent (P : Profile) {img : Image F32} (h : img.WF) (hg : Grayscale img.info) (thr max : F32) :
    (threshold P img thr max .trunc >>= fun a => threshold P a thr max .trunc) = threshold P img thr max .trunc := by
  refine threshold_twice P h hg thr max _ fun c => ?_
  cases e : FloatOps.lt thr c <;> simp only [threshRule, e]
  rw [lt_irrefl32 thr]

/-- **C94** For 0 ≤ threshold < max, binary thresholding is idempotent, and applying it before or after the inverse
method exchanges the two. -/
theorem c94_binary (P : Profile) {img : Image F32} (h : img.WF) (hg : Grayscale img.info) {thr max : F32} {t m : Rat}
    (ht : thr.Is t) (hm : max.Is m) (h0 : 0 ≤ t) (htm : t < m) :
    (threshold P img thr max .binary >>= fun a => threshold P a thr max .binary) = threshold P img thr max .binary ∧
    (threshold P img thr max .binary >>= fun a => threshold P a thr max .binaryInv) = threshold P img thr max .binaryInv ∧
    (threshold P img thr max .binaryInv >>= fun a => threshold P a thr max .binaryInv) = threshold P img thr max .binary := by
  have l1 : (thr <. max) = true := by rw [lt_is ht hm]; simpa using htm
  have l0 : (thr <. (num 0 : F32)) = false := by
    have z : (num 0 : F32).Is 0 := by simpa using num32 (n := 0) (by decide)
    rw [lt_is ht z]; simpa using h0
  have two : ∀ m1 m2 m3 : Thresh, (∀ c : F32, threshRule m2 (FloatOps.lt thr (threshRule m1 (FloatOps.lt thr c) c thr max (num 0)))
      (threshRule m1 (FloatOps.lt thr c) c thr max (num 0)) thr max (num 0) =
      threshRule m3 (FloatOps.lt thr c) c thr max (num 0)) →
      (threshold P img thr max m1 >>= fun a => threshold P a thr max m2) = threshold P img thr max m3 := by
    intro m1 m2 m3 hfix
    obtain ⟨a, e1, h1⟩ := c52_threshold P h hg thr max m1
    obtain ⟨b, e2, h2⟩ := c52_threshold P h1.WF (h1.info_eq ▸ hg) thr max m2
    obtain ⟨c, e3, h3⟩ := c52_threshold P h hg thr max m3
    rw [e1, ok_bind, e2, e3]
    refine congrArg Except.ok (Image.Shows.ext (h1.colour_comp h (grayscale_pos hg) h2) (h3.congr fun x y hx hy => ?_))
    exact congrArg₂ _ (List.map_congr_left fun v _ => (hfix v).symm) rfl
  refine ⟨two _ _ _ fun c => ?_, two _ _ _ fun c => ?_, two _ _ _ fun c => ?_⟩ <;>
    cases e : FloatOps.lt thr c <;> simp only [threshRule, l1, l0]

/-- **C94** On one-channel images of finite values, `to_zero` and `to_zero_inv` split the image: the residual of the
image and one of them is the other, in IEEE f32. -/
theorem c94_split (P : Profile) {img : Image F32} {v : Nat → Nat → Nat → Rat}
    (h : img.ShowsValues img.info v) (hch : img.info.channels = 1) (ha : img.info.alpha = false)
    {thr : F32} {t : Rat} (ht : thr.Is t) (max : F32) :
    ∃ z zi r ri, threshold P img thr max .toZero = .ok z ∧ threshold P img thr max .toZeroInv = .ok zi ∧
      residual P (FloatOps.rnum (F := F32)) img z = .ok r ∧ residual P (FloatOps.rnum (F := F32)) img zi = .ok ri ∧
      (z.ShowsValues img.info fun x y c => if t < v x y c then v x y c else 0) ∧
      (ri.ShowsValues img.info fun x y c => if t < v x y c then v x y c else 0) ∧
      (zi.ShowsValues img.info fun x y c => if t < v x y c then 0 else v x y c) ∧
      (r.ShowsValues img.info fun x y c => if t < v x y c then 0 else v x y c) := by
  have hwf : img.WF := h.1
  have hg : Grayscale img.info := Or.inl ⟨ha, hch⟩
  obtain ⟨z, e1, h1⟩ := c52_threshold P hwf hg thr max .toZero
  obtain ⟨zi, e2, h2⟩ := c52_threshold P hwf hg thr max .toZeroInv
  obtain ⟨r, e3, h3⟩ := c53_residual_float P hwf h1.WF h1.info_eq.symm
  obtain ⟨ri, e4, h4⟩ := c53_residual_float P hwf h2.WF h2.info_eq.symm
  have z0 : (num 0 : F32).Is 0 := by simpa using num32 (n := 0) (by decide)
  have one : ∀ x y, x < img.info.width → y < img.info.height → ∃ w : F32, img.px x y = [w] ∧ w.Is (v x y 0) := by
    intro x y hx hy
    have hl := Image.px_length hwf hx hy
    rw [hch] at hl
    obtain ⟨w, hw⟩ := List.length_eq_one_iff.1 hl
    have := h.px hx hy (c := 0) (by omega) (num 0)
    rw [hw] at this
    exact ⟨w, hw, this⟩
  have col : ∀ p : List F32, img.info.colour p = p ∧ img.info.alphaOf p = [] := by
    intro p; unfold ImageInfo.colour ImageInfo.alphaOf; simp [ha]
  have rule : ∀ (w : F32) (q : Rat), w.Is q →
      (threshRule .toZero (FloatOps.lt thr w) w thr max (num 0)).Is (if t < q then q else 0) ∧
      (threshRule .toZeroInv (FloatOps.lt thr w) w thr max (num 0)).Is (if t < q then 0 else q) := by
    intro w q hw
    rw [show FloatOps.lt thr w = decide (t < q) from lt_is ht hw]
    by_cases hq : t < q <;> simp only [hq, decide_true, decide_false, threshRule, if_true, if_false] <;> exact ⟨by assumption, by assumption⟩
  have fin : ∀ {o : Image F32} {g : Nat → Nat → List F32} {u : Nat → Nat → Nat → Rat}, o.Shows img.info g →
      (∀ x y, x < img.info.width → y < img.info.height → ∃ w : F32, g x y = [w] ∧ w.Is (u x y 0)) → o.ShowsValues img.info u := by
    intro o g u ho hgu
    refine ho.values (fun x y hx hy => ?_) fun x y c hx hy hc => ?_
    · obtain ⟨w, e, _⟩ := hgu x y hx hy; rw [e, hch]; rfl
    · obtain ⟨w, e, hw⟩ := hgu x y hx hy
      obtain rfl : c = 0 := by omega
      exact ⟨w, by rw [e]; rfl, hw⟩
  refine ⟨z, zi, r, ri, e1, e2, e3, e4, fin h1 fun x y hx hy => ?_, fin h4 fun x y hx hy => ?_, fin h2 fun x y hx hy => ?_,
    fin h3 fun x y hx hy => ?_⟩
  · obtain ⟨w, e, hw⟩ := one x y hx hy
    rw [(col _).1, (col _).2, e]
    exact ⟨_, rfl, (rule w _ hw).1⟩
  · obtain ⟨w, e, hw⟩ := one x y hx hy
    rw [h2.px_eq hx hy, (col _).1, (col _).2, e]
    refine ⟨_, rfl, ?_⟩
    have := sub_exact hw (rule w _ hw).2 (by split <;> simp [hw.exact, z0.exact])
    refine Eq.mp (congrArg _ ?_) this
    split <;> simp
  · obtain ⟨w, e, hw⟩ := one x y hx hy
    rw [(col _).1, (col _).2, e]
    exact ⟨_, rfl, (rule w _ hw).2⟩
  · obtain ⟨w, e, hw⟩ := one x y hx hy
    rw [h1.px_eq hx hy, (col _).1, (col _).2, e]
    refine ⟨_, rfl, ?_⟩
    have := sub_exact hw (rule w _ hw).1 (by split <;> simp [hw.exact, z0.exact])
    refine Eq.mp (congrArg _ ?_) this
    split <;> simp

/-- every 3×2 byte image, converted to float, with threshold 127 and maximum 255 -/
example (P : Profile) (a b c d e f : UInt8) : ∃ g z r : Image F32, imageU8ToFloat P (gray6 a b c d e f) = .ok g ∧
    threshold P g (num 127) (num 255) .toZero = .ok z ∧ residual P (FloatOps.rnum (F := F32)) g z = .ok r := by
  obtain ⟨g, hg, hs⟩ := imageU8ToFloat_values P (gray6_WF a b c d e f)
  have hi := hs.2.1
  rw [← hi] at hs
  obtain ⟨z, _, r, _, e1, -, e2, -⟩ := c94_split P hs (by rw [hi]; rfl) (by rw [hi]; rfl)
    (thr := num 127) (num32 (n := 127) (by decide)) (num 255)
  exact ⟨g, z, r, hg, e1, e2⟩
example (P : Profile) (a b c d : F32) :
    (threshold P (grayAlpha2 a b c d) (num 127) (num 255) .binaryInv >>= fun i => threshold P i (num 127) (num 255) .binaryInv) =
      threshold P (grayAlpha2 a b c d) (num 127) (num 255) .binary :=
  (c94_binary P (grayAlpha2_WF a b c d) (Or.inr ⟨rfl, rfl⟩) (num32 (n := 127) (by decide)) (num32 (n := 255) (by decide))
    (by norm_num) (by norm_num)).2.2
end
end Imgproc

import Verif.Props.Tone2
import Verif.Props.Gray
import Verif.Props.Lab
import Verif.Props.Transform
import Verif.Props.Morphology4
import Verif.Props.Linear
import Verif.Props.Median2
/-! Property C95: operations commute with mirroring, and the per-pixel ones with cropping. -/
namespace Imgproc
open FloatOps
variable {S T : Type}

/-- spec: applying `op` and then mirroring or cropping gives what mirroring or cropping first gives -/
structure CommutesWithGeometry (P : Profile) (NS : RNum S) (NT : RNum T) (op : Image S → Res (Image T)) (img : Image S) :
    Prop where
  mirror : ∀ axis, (op img >>= fun o => reflect P NT o axis) = (reflect P NS img axis >>= op)
  crop : ∀ x y w h, 0 < w → 0 < h → x + w < img.info.width → y + h < img.info.height →
    (op img >>= fun o => crop P NT o x y w h) = (crop P NS img x y w h >>= op)

/-- an operation that is described pixel by pixel (by a functional relation) commutes with both -/
theorem perPixel_commutes (P : Profile) (NS : RNum S) (NT : RNum T) (op : Image S → Res (Image T)) (img : Image S)
    (hdr : ImageInfo → ImageInfo) (H : ImageInfo → Prop) (Rel : ImageInfo → List S → List T → Prop)
    (hhdr : ∀ i : ImageInfo, ∀ w h, hdr { i with width := w, height := h } = { hdr i with width := w, height := h })
    (hsize : ∀ i : ImageInfo, (hdr i).width = i.width ∧ (hdr i).height = i.height)
    (hH : ∀ i : ImageInfo, ∀ w h, 0 < w → 0 < h → H i → H { i with width := w, height := h })
    (hRel : ∀ (i : ImageInfo) w h p q, Rel { i with width := w, height := h } p q → Rel i p q)
    (hfun : ∀ i p q q', Rel i p q → Rel i p q' → q = q')
    (hop : ∀ a : Image S, a.WF → H a.info → ∃ out, op a = .ok out ∧ out.WF ∧ out.info = hdr a.info ∧
      ∀ x y, x < a.info.width → y < a.info.height → Rel a.info (a.px x y) (out.px x y))
    (h : img.WF) (hi : H img.info) : CommutesWithGeometry P NS NT op img := by
  obtain ⟨o, eo, ow, oi, op'⟩ := hop img h hi
  have sz := hsize img.info
  constructor
  · intro axis
    obtain ⟨m, em, hm⟩ := c65_reflect P NS img h axis
    obtain ⟨om, eom, omw, omi, omp⟩ := hop m hm.WF (hm.info_eq ▸ hi)
    obtain ⟨mo, emo, hmo⟩ := c65_reflect P NT o ow axis
    rw [eo, ok_bind, em, ok_bind, eom, emo]
    rw [oi] at hmo
    rw [hm.info_eq] at omi omp
    refine congrArg Except.ok (Image.ext_px hmo.WF omw (hmo.info_eq.trans omi.symm) fun x y hx hy => ?_)
    rw [hmo.info_eq, sz.1] at hx
    rw [hmo.info_eq, sz.2] at hy
    have e := omp x y hx hy
    rw [hm.px_eq hx hy] at e
    rw [hmo.px_eq (by omega) (by omega)]
    cases axis with
    | vertical =>
      dsimp only at e ⊢
      rw [sz.1]
      exact hfun _ _ _ _ (op' _ _ (by omega) hy) e
    | horizontal =>
      dsimp only at e ⊢
      rw [sz.2]
      exact hfun _ _ _ _ (op' _ _ hx (by omega)) e
  · intro x y w hh hw0 hh0 hx hy
    obtain ⟨m, em, hm⟩ := c60_crop_inside P NS img h x y w hh hx hy
    have e1 : (⟨w, hh, img.info.channels, img.info.alpha⟩ : ImageInfo) = { img.info with width := w, height := hh } := rfl
    rw [e1] at hm
    obtain ⟨om, eom, omw, omi, omp⟩ := hop m hm.WF (hm.info_eq ▸ hH _ _ _ hw0 hh0 hi)
    obtain ⟨mo, emo, hmo⟩ := c60_crop_inside P NT o ow x y w hh (by rw [oi]; omega) (by rw [oi]; omega)
    have e2 : (⟨w, hh, o.info.channels, o.info.alpha⟩ : ImageInfo) = { hdr img.info with width := w, height := hh } := by
      rw [oi]
    rw [e2] at hmo
    rw [eo, ok_bind, em, ok_bind, eom, emo]
    rw [hm.info_eq, hhdr] at omi
    rw [hm.info_eq] at omp
    refine congrArg Except.ok (Image.ext_px hmo.WF omw (hmo.info_eq.trans omi.symm) fun i j hx' hy' => ?_)
    rw [hmo.info_eq] at hx' hy'
    have hi' : i < w := hx'
    have hj' : j < hh := hy'
    have e := omp i j hx' hy'
    rw [hm.px_eq hx' hy'] at e
    rw [hmo.px_eq hx' hy']
    exact hfun _ _ _ _ (op' _ _ (by omega) (by omega)) (hRel _ _ _ _ _ e)

/-- the case of an operation that keeps the header and acts by a function on colour and alpha -/
theorem perPixel_commutes_fun (P : Profile) (NS : RNum S) (NT : RNum T) (op : Image S → Res (Image T)) (img : Image S)
    (H : ImageInfo → Prop) (C : List S → List T) (A : S → T)
    (hH : ∀ i : ImageInfo, ∀ w h, 0 < w → 0 < h → H i → H { i with width := w, height := h })
    (hop : ∀ a : Image S, a.WF → H a.info → ∃ out, op a = .ok out ∧ out.Shows a.info fun x y =>
      C (a.info.colour (a.px x y)) ++ (a.info.alphaOf (a.px x y)).map A)
    (h : img.WF) (hi : H img.info) : CommutesWithGeometry P NS NT op img := by
  refine perPixel_commutes P NS NT op img id H (fun i p q => q = C (i.colour p) ++ (i.alphaOf p).map A) (fun _ _ _ => rfl)
    (fun _ => ⟨rfl, rfl⟩) hH (fun i w h p q e => e) (fun i p q q' e e' => e.trans e'.symm) (fun a ha hia => ?_) h hi
  obtain ⟨out, e, ho⟩ := hop a ha hia
  exact ⟨out, e, ho.WF, ho.info_eq, fun x y hx hy => ho.px_eq hx hy⟩

/-- a usable alpha flag: an image with alpha has at least one channel -/
def AlphaOk (i : ImageInfo) : Prop := i.alpha = true → 0 < i.channels
/-- a non-empty image with three colour channels -/
def Rgb (i : ImageInfo) : Prop := (0 < i.width ∧ 0 < i.height) ∧ i.colours = 3

/-- **C95** the tone operations on bytes -/
theorem c95_tone [Libm f32] (P : Profile) (img : Image UInt8) (h : img.WF) (ha : AlphaOk img.info)
    (bias : Int) (hb : -255 ≤ bias ∧ bias ≤ 255) (gain : F32) (q : Rat) (hg : gain.Is q) (h0 : 0 ≤ q) (h1 : q ≤ 1)
    (g : F32) (hn : ¬ Negative g) (max : UInt8) :
    CommutesWithGeometry P u8Num u8Num (fun i => brightness false P i bias) img ∧
    CommutesWithGeometry P u8Num u8Num (fun i => contrast P i gain) img ∧
    CommutesWithGeometry P u8Num u8Num (fun i => gammaOp P i g max) img := by
  refine ⟨perPixel_commutes_fun P _ _ _ img AlphaOk (List.map (satAdd · bias)) id (fun _ _ _ _ _ h => h) (fun a wa ia => ?_) h ha,
    perPixel_commutes_fun P _ _ _ img AlphaOk (List.map (contrastVal gain)) id (fun _ _ _ _ _ h => h) (fun a wa ia => ?_) h ha,
    perPixel_commutes_fun P _ _ _ img AlphaOk (List.map fun v =>
      toU8 (FloatOps.round (FloatOps.pow (ofU8 (F := F32) v /. ofU8 max) g *. ofU8 max))) id (fun _ _ _ _ _ h => h)
      (fun a wa ia => ?_) h ha⟩
  · simpa using c20_brightness P a bias wa ia hb
  · obtain ⟨out, e, ho⟩ := contrast_image P a wa ia gain (by
        intro ho
        unfold OutsideUnit at ho
        rcases FP.toQ?_cases hg with e | ⟨e, rfl⟩ <;> rw [e] at ho
        · rcases ho with ho | ho <;> linarith
        · exact ho) (fun v => let ⟨y, e, _⟩ := contrastVal_is hg h0 h1 v; ⟨y, e⟩)
    exact ⟨out, e, by simpa using ho⟩
  · obtain ⟨out, m, e, ho, hm⟩ := c23_gamma_shape P a wa ia g hn max
    exact ⟨out, e, by simpa [funext hm] using ho⟩

theorem isSaturated_fun {s : Int} {p q q' : List UInt8} (h : IsSaturated s q p) (h' : IsSaturated s q' p) : q = q' := by
  obtain ⟨r, g, b, H, S, V, r', g', b', rfl, rfl, hH, hS, hV, e⟩ := h
  obtain ⟨r2, g2, b2, H2, S2, V2, r2', g2', b2', e0, rfl, hH2, hS2, hV2, e2⟩ := h'
  injection e0 with a1 e0; injection e0 with a2 e0; injection e0 with a3 _
  subst a1 a2 a3
  obtain rfl : H = H2 := UInt8.toNat_inj.1 (by omega)
  obtain rfl : S = S2 := UInt8.toNat_inj.1 (by omega)
  obtain rfl : V = V2 := UInt8.toNat_inj.1 (by omega)
  rw [← e] at e2
  simp only [Prod.mk.injEq] at e2
  obtain ⟨b1, b2, b3⟩ := e2
  rw [show r' = r2' from UInt8.toNat_inj.1 (by omega), show g' = g2' from UInt8.toNat_inj.1 (by omega),
    show b' = b2' from UInt8.toNat_inj.1 (by omega)]

theorem isHsvOf_fun {p q q' : List UInt8} (h : IsHsvOf q p) (h' : IsHsvOf q' p) : q = q' := by
  obtain ⟨r, g, b, H, S, V, rfl, rfl, hH, hS, hV⟩ := h
  obtain ⟨r2, g2, b2, H2, S2, V2, e0, rfl, hH2, hS2, hV2⟩ := h'
  injection e0 with a1 e0; injection e0 with a2 e0; injection e0 with a3 _
  subst a1 a2 a3
  rw [show H = H2 from UInt8.toNat_inj.1 (by omega), show S = S2 from UInt8.toNat_inj.1 (by omega),
    show V = V2 from UInt8.toNat_inj.1 (by omega)]

theorem isRgbOf_fun {p q q' : List UInt8} (h : IsRgbOf q p) (h' : IsRgbOf q' p) : q = q' := by
  obtain ⟨r, g, b, H, S, V, rfl, rfl, e⟩ := h
  obtain ⟨r2, g2, b2, H2, S2, V2, e0, rfl, e2⟩ := h'
  injection e0 with a1 e0; injection e0 with a2 e0; injection e0 with a3 _
  subst a1 a2 a3
  rw [← e] at e2
  simp only [Prod.mk.injEq] at e2
  obtain ⟨b1, b2, b3⟩ := e2
  rw [show H = H2 from UInt8.toNat_inj.1 (by omega), show S = S2 from UInt8.toNat_inj.1 (by omega),
    show V = V2 from UInt8.toNat_inj.1 (by omega)]

theorem rgb_resize : ∀ i : ImageInfo, ∀ w h, 0 < w → 0 < h → Rgb i → Rgb { i with width := w, height := h } :=
  fun _ _ _ hw hh h => ⟨⟨hw, hh⟩, h.2⟩

theorem rgb_alphaOk {i : ImageInfo} (h : i.colours = 3) : i.alpha = true → 0 < i.channels := by
  unfold ImageInfo.colours at h; intro ha; rw [if_pos ha] at h; omega

/-- operations that keep alpha and relate the colours functionally -/
theorem perPixel_commutes_rel (P : Profile) (N : RNum T) (op : Image T → Res (Image T)) (img : Image T)
    (H : ImageInfo → Prop) (R : List T → List T → Prop) (hR : ∀ p q q', R q p → R q' p → q = q')
    (hH : ∀ i : ImageInfo, ∀ w h, 0 < w → 0 < h → H i → H { i with width := w, height := h })
    (hop : ∀ a : Image T, a.WF → H a.info → ∃ out, op a = .ok out ∧ out.WF ∧ out.info = a.info ∧
      ∀ x y, x < a.info.width → y < a.info.height → a.info.alphaOf (out.px x y) = a.info.alphaOf (a.px x y) ∧
        R (a.info.colour (out.px x y)) (a.info.colour (a.px x y)))
    (h : img.WF) (hi : H img.info) : CommutesWithGeometry P N N op img := by
  refine perPixel_commutes P N N op img id H (fun i p q => i.alphaOf q = i.alphaOf p ∧ R (i.colour q) (i.colour p))
    (fun _ _ _ => rfl) (fun _ => ⟨rfl, rfl⟩) hH (fun i w h p q e => e) (fun i p q q' e e' => ?_) hop h hi
  rw [← i.colour_append q, ← i.colour_append q', e.1, e'.1, hR _ _ _ e.2 e'.2]

/-- alpha and colour of an image shown as colour ++ alpha -/
theorem Image.Shows.parts {img a : Image T} (h : img.WF) (hc : img.info.alpha = true → 0 < img.info.channels)
    {C : Nat → Nat → List T}
    (ha : a.Shows img.info fun x y => C x y ++ img.info.alphaOf (img.px x y)) :
    ∀ x y, x < img.info.width → y < img.info.height → img.info.alphaOf (a.px x y) = img.info.alphaOf (img.px x y) ∧
      img.info.colour (a.px x y) = C x y := by
  intro x y hx hy
  rw [ha.px_eq hx hy]
  obtain ⟨e1, e2⟩ := img.info.colour_of_append (q := C x y) (h.alphaLen hc hx hy)
  exact ⟨e2, e1⟩

/-- **C95** the colour operations on RGB (and HSV) bytes -/
theorem c95_colour [Libm f32] (P : Profile) (img : Image UInt8) (h : img.WF) (h3 : Rgb img.info)
    (s : Int) (hs : -255 ≤ s ∧ s ≤ 255) (gain : F32) (hg : ¬ OutsideUnit gain) :
    CommutesWithGeometry P u8Num u8Num (fun i => saturation false P i s) img ∧
    CommutesWithGeometry P u8Num u8Num (fun i => rgbToHsv P i) img ∧
    CommutesWithGeometry P u8Num u8Num (fun i => hsvToRgb P i) img ∧
    CommutesWithGeometry P u8Num u8Num (fun i => brightnessLab F32 P i s) img ∧
    CommutesWithGeometry P u8Num u8Num (fun i => contrastLab P i gain) img := by
  refine ⟨perPixel_commutes_rel P _ _ img Rgb (IsSaturated s) (fun _ _ _ => isSaturated_fun) rgb_resize (fun a wa ia => ?_) h h3,
    perPixel_commutes_rel P _ _ img Rgb IsHsvOf (fun _ _ _ => isHsvOf_fun) rgb_resize (fun a wa ia => ?_) h h3,
    perPixel_commutes_rel P _ _ img Rgb IsRgbOf (fun _ _ _ => isRgbOf_fun) rgb_resize (fun a wa ia => ?_) h h3,
    perPixel_commutes_rel P _ _ img Rgb (fun q p => q = srgbOfLab (F := F32) .d50 ((labOfSrgb .d50 p).modify 0
            (fun l => l +. FloatOps.ofInt s /. num 255 *. num 100))) (fun _ _ _ e e' => e.trans e'.symm) rgb_resize
      (fun a wa ia => ?_) h h3,
    perPixel_commutes_rel P _ _ img Rgb (fun q p => q = srgbOfLab (F := F32) .d50 ((labOfSrgb .d50 p).modify 0
            (fun l => l *. gain))) (fun _ _ _ e e' => e.trans e'.symm) rgb_resize
      (fun a wa ia => ?_) h h3⟩
  · exact c24_saturation P a wa ia.1 ia.2 s hs
  · obtain ⟨out, F, e, ho, hF⟩ := c32_rgb_to_hsv P a wa ia.1 ia.2
    refine ⟨out, e, ho.WF, ho.info_eq, fun x y hx hy => ?_⟩
    obtain ⟨e1, e2⟩ := ho.parts wa (rgb_alphaOk ia.2) x y hx hy
    exact ⟨e1, e2 ▸ hF x y hx hy⟩
  · obtain ⟨out, F, e, ho, hF⟩ := c32_hsv_to_rgb P a wa ia.1 ia.2
    refine ⟨out, e, ho.WF, ho.info_eq, fun x y hx hy => ?_⟩
    obtain ⟨e1, e2⟩ := ho.parts wa (rgb_alphaOk ia.2) x y hx hy
    exact ⟨e1, e2 ▸ hF x y hx hy⟩
  · exact c28_brightness_lab P a wa ia.1 ia.2 s hs
  · exact c28_contrast_lab P a wa ia.1 ia.2 gain hg

/-- **C95** `rgb_to_grayscale` (up to 128 colour channels) -/
theorem c95_grayscale {F} [FloatOps F] (P : Profile) (img : Image UInt8) (h : img.WF)
    (hpos : 0 < img.info.width ∧ 0 < img.info.height) (h1 : 0 < img.info.colours) (h2 : img.info.colours ≤ 128) :
    CommutesWithGeometry P u8Num u8Num (fun i => rgbToGrayscale F false P i) img := by
  refine perPixel_commutes P _ _ _ img (fun i => { i with channels := 1 + (if i.alpha then 1 else 0) })
    (fun i => (0 < i.width ∧ 0 < i.height) ∧ 0 < i.colours ∧ i.colours ≤ 128)
    (fun i p q => q = [UInt8.ofNat (meanU8 (i.colour p))] ++ i.alphaOf p) (fun _ _ _ => rfl) (fun _ => ⟨rfl, rfl⟩)
    (fun i w h hw hh e => ⟨⟨hw, hh⟩, e.2⟩) (fun i w h p q e => e) (fun i p q q' e e' => e.trans e'.symm) (fun a wa ia => ?_)
    h ⟨hpos, h1, h2⟩
  obtain ⟨out, e, ho⟩ := c29_grayscale_partial (F := F) P a wa ia.1 ia.2.1 ia.2.2
  exact ⟨out, e, ho.WF, ho.info_eq, fun x y hx hy => ho.px_eq hx hy⟩

/-- **C95** `threshold`, in any arithmetic -/
theorem c95_threshold {F} [FloatOps F] (P : Profile) (img : Image F) (h : img.WF) (hg : Grayscale img.info) (thr max : F)
    (method : Thresh) :
    CommutesWithGeometry P FloatOps.rnum FloatOps.rnum (fun i => threshold P i thr max method) img := by
  refine perPixel_commutes_fun P _ _ _ img Grayscale
    (List.map fun c => threshRule method (FloatOps.lt thr c) c thr max (num 0)) id (fun _ _ _ _ _ h => h) (fun a wa ia => ?_) h hg
  simpa using c52_threshold P wa ia thr max method

/-- **C95** `linearize_srgb` in IEEE f32 -/
theorem c95_linearize [Libm f32] (P : Profile) (img : Image UInt8) (h : img.WF) (ha : AlphaOk img.info) :
    CommutesWithGeometry P u8Num (FloatOps.rnum (F := F32)) (fun i => linearizeSrgb (F := F32) P i) img :=
  perPixel_commutes_fun P _ _ _ img AlphaOk (List.map srgbToLinear) ofU8 (fun _ _ _ _ _ h => h)
    (fun a wa ia => c37_linearize P a wa ia) h ha

end Imgproc

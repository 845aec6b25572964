import Verif.Spec.Positions
import Verif.Props.Transpose
import Verif.Props.Equalize

/-!
# C137: colour and tone operations do not look at positions

Rearranging the pixels of an image in any way (also into another shape) rearranges the result in the same way.
-/
namespace Imgproc
open FloatOps
variable {S T : Type}

theorem Rearranged.px {a b : Image T} {move : Nat × Nat → Nat × Nat} (h : a.WF) (t : Rearranged move a b) {x y : Nat}
    (hx : x < b.info.width) (hy : y < b.info.height) : b.px x y = a.px (move (x, y)).1 (move (x, y)).2 ∧
      (move (x, y)).1 < a.info.width ∧ (move (x, y)).2 < a.info.height := by
  have m := t.onto.mapsTo (show (x, y) ∈ b.positions from ⟨hx, hy⟩)
  have := t.pixel .debug (x, y) ⟨hx, hy⟩
  rw [Image.getPixel_eq .debug t.wf hx hy, Image.getPixel_eq .debug h m.1 m.2] at this
  exact ⟨Except.ok.inj this, m⟩

theorem Rearranged.nonempty {a b : Image T} {move : Nat × Nat → Nat × Nat} (t : Rearranged move a b)
    (h : 0 < a.info.width ∧ 0 < a.info.height) : 0 < b.info.width ∧ 0 < b.info.height := by
  obtain ⟨p, hp, -⟩ := t.onto.surjOn (show (0, 0) ∈ a.positions from h)
  exact ⟨Nat.zero_lt_of_lt hp.1, Nat.zero_lt_of_lt hp.2⟩

theorem Rearranged.header {a b : Image T} {move : Nat × Nat → Nat × Nat} (t : Rearranged move a b) :
    b.info = { a.info with width := b.info.width, height := b.info.height } := by
  have h1 := t.channels
  have h2 := t.alpha
  cases hb : b.info
  rw [hb] at h1 h2
  simp only at h1 h2
  subst h1 h2
  rfl

/-- the results, once they are known to show the right pixels -/
theorem rearranged_of {a b : Image S} {o o' : Image T} {move : Nat × Nat → Nat × Nat} (t : Rearranged move a b) (w : o.WF) (w' : o'.WF)
    (hc : o'.info.channels = o.info.channels) (ha : o'.info.alpha = o.info.alpha)
    (hs : o.info.width = a.info.width ∧ o.info.height = a.info.height) (hs' : o'.info.width = b.info.width ∧ o'.info.height = b.info.height)
    (hp : ∀ x y, x < b.info.width → y < b.info.height → o'.px x y = o.px (move (x, y)).1 (move (x, y)).2) : Rearranged move o o' := by
  have e1 : o.positions = a.positions := by unfold Image.positions; rw [hs.1, hs.2]
  have e2 : o'.positions = b.positions := by unfold Image.positions; rw [hs'.1, hs'.2]
  refine ⟨w', hc, ha, by rw [e1, e2]; exact t.onto, fun P p h => ?_⟩
  have hb : p ∈ b.positions := e2 ▸ h
  have m : move p ∈ o.positions := e1 ▸ t.onto.mapsTo hb
  rw [Image.getPixel_eq P w' h.1 h.2, Image.getPixel_eq P w m.1 m.2, hp p.1 p.2 hb.1 hb.2]

theorem perPixel_ignores (op : Image S → Res (Image T)) {a : Image S}
    (hdr : ImageInfo → ImageInfo) (H : ImageInfo → Prop) (Rel : ImageInfo → List S → List T → Prop)
    (hhdr : ∀ i : ImageInfo, ∀ w h, hdr { i with width := w, height := h } = { hdr i with width := w, height := h })
    (hsize : ∀ i : ImageInfo, (hdr i).width = i.width ∧ (hdr i).height = i.height)
    (hH : ∀ i : ImageInfo, ∀ w h, (0 < i.width ∧ 0 < i.height → 0 < w ∧ 0 < h) → H i → H { i with width := w, height := h })
    (hRel : ∀ (i : ImageInfo) w h p q, Rel { i with width := w, height := h } p q → Rel i p q)
    (hfun : ∀ i p q q', Rel i p q → Rel i p q' → q = q')
    (hop : ∀ a : Image S, a.WF → H a.info → ∃ out, op a = .ok out ∧ out.WF ∧ out.info = hdr a.info ∧
      ∀ x y, x < a.info.width → y < a.info.height → Rel a.info (a.px x y) (out.px x y))
    (h : a.WF) (hi : H a.info) : IgnoresPositions op a := by
  intro move b t
  obtain ⟨o, e, ow, oi, ov⟩ := hop a h hi
  obtain ⟨o', e', ow', oi', ov'⟩ := hop b t.wf (by rw [t.header]; exact hH _ _ _ t.nonempty hi)
  have hb := t.header
  have hi' : o'.info = { hdr a.info with width := b.info.width, height := b.info.height } := by rw [oi', hb, hhdr]
  refine ⟨o, o', e, e', rearranged_of t ow ow' (by rw [hi', oi]) (by rw [hi', oi]) (by rw [oi]; exact hsize _) (by rw [oi']; exact hsize _)
    fun x y hx hy => ?_⟩
  obtain ⟨k, m1, m2⟩ := t.px h hx hy
  have r := ov' x y hx hy
  rw [hb] at r
  have r := hRel _ _ _ _ _ r
  rw [k] at r
  exact hfun _ _ _ _ r (ov _ _ m1 m2)

theorem perPixel_ignores_fun (op : Image S → Res (Image T)) {a : Image S} (H : ImageInfo → Prop) (C : List S → List T) (A : S → T)
    (hH : ∀ i : ImageInfo, ∀ w h, (0 < i.width ∧ 0 < i.height → 0 < w ∧ 0 < h) → H i → H { i with width := w, height := h })
    (hop : ∀ a : Image S, a.WF → H a.info → ∃ out, op a = .ok out ∧ out.Shows a.info fun x y =>
      C (a.info.colour (a.px x y)) ++ (a.info.alphaOf (a.px x y)).map A)
    (h : a.WF) (hi : H a.info) : IgnoresPositions op a :=
  perPixel_ignores op id H (fun i p q => q = C (i.colour p) ++ (i.alphaOf p).map A) (fun _ _ _ => rfl) (fun _ => ⟨rfl, rfl⟩) hH
    (fun _ _ _ _ _ e => e) (fun _ _ _ _ e e' => e.trans e'.symm) (fun a ha hia => by
      obtain ⟨out, e, ho⟩ := hop a ha hia
      exact ⟨out, e, ho.WF, ho.info_eq, fun x y hx hy => ho.px_eq hx hy⟩) h hi

theorem perPixel_ignores_rel (op : Image T → Res (Image T)) {a : Image T} (H : ImageInfo → Prop) (R : List T → List T → Prop)
    (hR : ∀ p q q', R q p → R q' p → q = q')
    (hH : ∀ i : ImageInfo, ∀ w h, (0 < i.width ∧ 0 < i.height → 0 < w ∧ 0 < h) → H i → H { i with width := w, height := h })
    (hop : ∀ a : Image T, a.WF → H a.info → ∃ out, op a = .ok out ∧ out.WF ∧ out.info = a.info ∧
      ∀ x y, x < a.info.width → y < a.info.height → a.info.alphaOf (out.px x y) = a.info.alphaOf (a.px x y) ∧
        R (a.info.colour (out.px x y)) (a.info.colour (a.px x y)))
    (h : a.WF) (hi : H a.info) : IgnoresPositions op a := by
  refine perPixel_ignores op id H (fun i p q => i.alphaOf q = i.alphaOf p ∧ R (i.colour q) (i.colour p)) (fun _ _ _ => rfl)
    (fun _ => ⟨rfl, rfl⟩) hH (fun _ _ _ _ _ e => e) (fun i p q q' e e' => ?_) hop h hi
  rw [← i.colour_append q, ← i.colour_append q', e.1, e'.1, hR _ _ _ e.2 e'.2]

theorem rgb_reshape : ∀ i : ImageInfo, ∀ w h, (0 < i.width ∧ 0 < i.height → 0 < w ∧ 0 < h) → Rgb i →
    Rgb { i with width := w, height := h } := fun _ _ _ hp h => ⟨hp h.1, h.2⟩

/-- **C137** the tone operations on bytes -/
theorem c137_tone [Libm f32] (P : Profile) {a : Image UInt8} (h : a.WF) (ha : AlphaOk a.info)
    (bias : Int) (hb : -255 ≤ bias ∧ bias ≤ 255) (gain : F32) (q : Rat) (hg : gain.Is q) (h0 : 0 ≤ q) (h1 : q ≤ 1)
    (g : F32) (hn : ¬ Negative g) (max : UInt8) :
    IgnoresPositions (fun i => brightness false P i bias) a ∧ IgnoresPositions (fun i => contrast P i gain) a ∧
    IgnoresPositions (fun i => gammaOp P i g max) a := by
  refine ⟨perPixel_ignores_fun _ AlphaOk (List.map (satAdd · bias)) id (fun _ _ _ _ h => h) (fun a wa ia => ?_) h ha,
    perPixel_ignores_fun _ AlphaOk (List.map (contrastVal gain)) id (fun _ _ _ _ h => h) (fun a wa ia => ?_) h ha,
    perPixel_ignores_fun _ AlphaOk (List.map fun v =>
      toU8 (FloatOps.round (FloatOps.pow (ofU8 (F := F32) v /. ofU8 max) g *. ofU8 max))) id (fun _ _ _ _ h => h) (fun a wa ia => ?_) h ha⟩
  · simpa using c20_brightness P a bias wa ia hb
  · obtain ⟨out, e, ho⟩ := contrast_image P a wa ia gain (by
        intro ho
        unfold OutsideUnit at ho
        rcases FP.toQ?_cases hg with e | ⟨e, rfl⟩ <;> rw [e] at ho
        · rcases ho with ho | ho <;> linarith
        · exact ho) (fun v => let ⟨y, e, _⟩ := contrastVal_is hg h0 h1 v; ⟨y, e⟩)
    exact ⟨out, e, by simpa using ho⟩
  · obtain ⟨out, m, e, ho, hm⟩ := c23_gamma_shape P a wa ia g hn max
    exact ⟨out, e, by simpa [funext hm] using ho⟩

/-- **C137** the colour operations on RGB (and HSV) bytes -/
theorem c137_colour [Libm f32] (P : Profile) {a : Image UInt8} (h : a.WF) (h3 : Rgb a.info)
    (s : Int) (hs : -255 ≤ s ∧ s ≤ 255) (gain : F32) (hg : ¬ OutsideUnit gain) :
    IgnoresPositions (fun i => saturation false P i s) a ∧
    IgnoresPositions (fun i => rgbToHsv P i) a ∧
    IgnoresPositions (fun i => hsvToRgb P i) a ∧
    IgnoresPositions (fun i => brightnessLab F32 P i s) a ∧
    IgnoresPositions (fun i => contrastLab P i gain) a := by
  refine ⟨perPixel_ignores_rel _ Rgb (IsSaturated s) (fun _ _ _ => isSaturated_fun) rgb_reshape (fun a wa ia => ?_) h h3,
    perPixel_ignores_rel _ Rgb IsHsvOf (fun _ _ _ => isHsvOf_fun) rgb_reshape (fun a wa ia => ?_) h h3,
    perPixel_ignores_rel _ Rgb IsRgbOf (fun _ _ _ => isRgbOf_fun) rgb_reshape (fun a wa ia => ?_) h h3,
    perPixel_ignores_rel _ Rgb (fun q p => q = srgbOfLab (F := F32) .d50 ((labOfSrgb .d50 p).modify 0
            (fun l => l +. FloatOps.ofInt s /. num 255 *. num 100))) (fun _ _ _ e e' => e.trans e'.symm) rgb_reshape
      (fun a wa ia => ?_) h h3,
    perPixel_ignores_rel _ Rgb (fun q p => q = srgbOfLab (F := F32) .d50 ((labOfSrgb .d50 p).modify 0
            (fun l => l *. gain))) (fun _ _ _ e e' => e.trans e'.symm) rgb_reshape
      (fun a wa ia => ?_) h h3⟩
  · exact c24_saturation P a wa ia.1 ia.2 s hs
  · obtain ⟨out, F, e, ho, hF⟩ := c32_rgb_to_hsv P a wa ia.1 ia.2
    refine ⟨out, e, ho.WF, ho.info_eq, fun x y hx hy => ?_⟩
    obtain ⟨e1, e2⟩ := ho.parts wa (rgb_alphaOk ia.2) x y hx hy
    exact ⟨e1, e2 ▸ hF x y hx hy⟩
  · obtain ⟨out, F, e, ho, hF⟩ := c32_hsv_to_rgb P a wa ia.1 ia.2
    refine ⟨out, e, ho.WF, ho.info_eq, fun x y hx hy => ?_⟩
    obtain ⟨e1, e2⟩ := ho.parts wa (rgb_alphaOk ia.2) x y hx hy
    exact ⟨e1, e2 ▸ hF x y hx hy⟩
  · exact c28_brightness_lab P a wa ia.1 ia.2 s hs
  · exact c28_contrast_lab P a wa ia.1 ia.2 gain hg

/-- **C137** `rgb_to_grayscale` (up to 128 colour channels) -/
theorem c137_grayscale {F} [FloatOps F] (P : Profile) {a : Image UInt8} (h : a.WF)
    (hpos : 0 < a.info.width ∧ 0 < a.info.height) (h1 : 0 < a.info.colours) (h2 : a.info.colours ≤ 128) :
    IgnoresPositions (fun i => rgbToGrayscale F false P i) a := by
  refine perPixel_ignores _ (fun i => { i with channels := 1 + (if i.alpha then 1 else 0) })
    (fun i => (0 < i.width ∧ 0 < i.height) ∧ 0 < i.colours ∧ i.colours ≤ 128)
    (fun i p q => q = [UInt8.ofNat (meanU8 (i.colour p))] ++ i.alphaOf p) (fun _ _ _ => rfl) (fun _ => ⟨rfl, rfl⟩)
    (fun _ _ _ hp e => ⟨hp e.1, e.2⟩) (fun _ _ _ _ _ e => e) (fun _ _ _ _ e e' => e.trans e'.symm) (fun a wa ia => ?_) h ⟨hpos, h1, h2⟩
  obtain ⟨out, e, ho⟩ := c29_grayscale_partial (F := F) P a wa ia.1 ia.2.1 ia.2.2
  exact ⟨out, e, ho.WF, ho.info_eq, fun x y hx hy => ho.px_eq hx hy⟩

/-- **C137** `threshold`, in any arithmetic -/
theorem c137_threshold {F} [FloatOps F] (P : Profile) {a : Image F} (h : a.WF) (hg : Grayscale a.info) (thr max : F)
    (method : Thresh) : IgnoresPositions (fun i => threshold P i thr max method) a := by
  refine perPixel_ignores_fun _ Grayscale
    (List.map fun c => threshRule method (FloatOps.lt thr c) c thr max (num 0)) id (fun _ _ _ _ h => h) (fun a wa ia => ?_) h hg
  simpa using c52_threshold P wa ia thr max method

/-- **C137** `linearize_srgb`, in IEEE f32 -/
theorem c137_linearize [Libm f32] (P : Profile) {a : Image UInt8} (h : a.WF) (ha : AlphaOk a.info) :
    IgnoresPositions (fun i => linearizeSrgb (F := F32) P i) a :=
  perPixel_ignores_fun _ AlphaOk (List.map srgbToLinear) ofU8 (fun _ _ _ _ h => h) (fun a wa ia => c37_linearize P a wa ia) h ha

/-! ### histogram equalization -/

/-- the positions of an image, row by row -/
def posList (w h : Nat) : List (Nat × Nat) := (List.range h).flatMap fun y => (List.range w).map fun x => (x, y)

theorem mem_posList {w h : Nat} {p : Nat × Nat} : p ∈ posList w h ↔ p.1 < w ∧ p.2 < h := by
  unfold posList
  simp only [List.mem_flatMap, List.mem_range, List.mem_map]
  constructor
  · rintro ⟨y, hy, x, hx, rfl⟩; exact ⟨hx, hy⟩
  · rintro ⟨h1, h2⟩; exact ⟨p.2, h2, p.1, h1, rfl⟩

theorem nodup_posList (w h : Nat) : (posList w h).Nodup := by
  unfold posList
  rw [List.nodup_flatMap]
  refine ⟨fun y _ => List.nodup_range.map fun _ _ e => (Prod.mk.inj e).1, ?_⟩
  refine List.nodup_range.imp fun {y y'} hne => ?_
  intro p h1 h2
  obtain ⟨x, -, rfl⟩ := List.mem_map.1 h1
  obtain ⟨x', -, e⟩ := List.mem_map.1 h2
  exact hne (Prod.mk.inj e).2.symm

theorem lightBins_posList (img : Image UInt8) (white : White) (precision : ℝ) :
    img.lightBins white precision = (posList img.info.width img.info.height).map fun p => lightBin precision (img.lightness white p.1 p.2) := by
  unfold Image.lightBins posList
  rw [List.map_flatMap]
  refine List.flatMap_congr fun y _ => ?_
  rw [List.map_map]; rfl

theorem lightness_rearranged {a b : Image UInt8} {move : Nat × Nat → Nat × Nat} (h : a.WF) (t : Rearranged move a b) (white : White)
    {x y : Nat} (hx : x < b.info.width) (hy : y < b.info.height) :
    b.lightness white x y = a.lightness white (move (x, y)).1 (move (x, y)).2 := by
  unfold Image.lightness
  rw [(t.px h hx hy).1, t.header]; rfl

theorem posList_rearranged {a b : Image T} {move : Nat × Nat → Nat × Nat} (t : Rearranged move a b) :
    ((posList b.info.width b.info.height).map move).Perm (posList a.info.width a.info.height) := by
  rw [List.perm_ext_iff_of_nodup]
  · intro p
    rw [List.mem_map]
    constructor
    · rintro ⟨q, hq, rfl⟩
      exact mem_posList.2 (t.onto.mapsTo (mem_posList.1 hq))
    · intro hp
      obtain ⟨q, hq, e⟩ := t.onto.surjOn (mem_posList.1 hp)
      exact ⟨q, mem_posList.2 hq, e⟩
  · exact List.Nodup.map_on (fun p hp q hq e => t.onto.injOn (mem_posList.1 hp) (mem_posList.1 hq) e) (nodup_posList _ _)
  · exact nodup_posList _ _

theorem length_posList (w h : Nat) : (posList w h).length = w * h := by
  unfold posList
  simp [List.length_flatMap, Nat.mul_comm]

theorem atMost_of_perm {l m : List Int} (h : l.Perm m) (k : Int) : atMost l k = atMost m k := (h.filter _).length_eq
theorem distinctAtMost_of_perm {l m : List Int} (h : l.Perm m) (k : Int) : distinctAtMost l k = distinctAtMost m k := by
  unfold distinctAtMost
  rw [List.toFinset_eq_of_perm _ _ (h.filter _)]

theorem equalized_rearranged {a b : Image UInt8} {move : Nat × Nat → Nat × Nat} (h : a.WF) (t : Rearranged move a b) (white : White)
    (alpha precision : ℝ) {x y : Nat} (hx : x < b.info.width) (hy : y < b.info.height) :
    b.equalized white alpha precision x y = a.equalized white alpha precision (move (x, y)).1 (move (x, y)).2 := by
  have hp : (b.lightBins white precision).Perm (a.lightBins white precision) := by
    rw [lightBins_posList, lightBins_posList]
    have e : (posList b.info.width b.info.height).map (fun p => lightBin precision (b.lightness white p.1 p.2)) =
        ((posList b.info.width b.info.height).map move).map fun p => lightBin precision (a.lightness white p.1 p.2) := by
      rw [List.map_map]
      refine List.map_congr_left fun p hp => ?_
      have := mem_posList.1 hp
      rw [lightness_rearranged h t white this.1 this.2]; rfl
    rw [e]
    exact (posList_rearranged t).map _
  have n : b.info.width * b.info.height = a.info.width * a.info.height := by
    have := (posList_rearranged t).length_eq
    rwa [List.length_map, length_posList, length_posList] at this
  have k : ∀ k, b.percentile white precision k = a.percentile white precision k := by
    intro k
    unfold Image.percentile
    rw [atMost_of_perm hp, distinctAtMost_of_perm hp, n]
  unfold Image.equalized
  rw [k, lightness_rearranged h t white hx hy]

/-- **C137** (exact arithmetic) histogram equalization looks at how often every lightness occurs, not at where -/
theorem c137_equalize (P : Profile) (white : White) {a : Image UInt8} (h : a.WF)
    (hpos : 0 < a.info.width ∧ 0 < a.info.height) (h3 : a.info.colours = 3)
    (hsmall : a.info.width * a.info.height < 1073741824)
    (alpha precision : ℝ) (ha0 : 0 ≤ alpha) (ha1 : alpha ≤ 1) (hp : 0 ≤ precision) :
    IgnoresPositions (fun i => histogramEqualization P i alpha white precision) a := by
  intro move b t
  have hd := t.header
  have n : b.info.width * b.info.height = a.info.width * a.info.height := by
    have := (posList_rearranged t).length_eq
    rwa [List.length_map, length_posList, length_posList] at this
  obtain ⟨o, e, ow, oi, ov⟩ := c89_value P white a h hpos h3 hsmall alpha precision ha0 ha1 hp
  obtain ⟨o', e', ow', oi', ov'⟩ := c89_value P white b t.wf (t.nonempty hpos) (by rw [hd]; exact h3) (by rw [n]; exact hsmall)
    alpha precision ha0 ha1 hp
  refine ⟨o, o', e, e', rearranged_of t ow ow' (by rw [oi, oi', t.channels]) (by rw [oi, oi', t.alpha]) (by rw [oi]; exact ⟨rfl, rfl⟩)
    (by rw [oi']; exact ⟨rfl, rfl⟩) fun x y hx hy => ?_⟩
  obtain ⟨k, m1, m2⟩ := t.px h hx hy
  obtain ⟨e1, e2⟩ := ov' x y hx hy
  obtain ⟨e3, e4⟩ := ov _ _ m1 m2
  have c1 : ∀ p : List UInt8, b.info.colour p = a.info.colour p := fun p => by rw [hd]; rfl
  have c2 : ∀ p : List UInt8, b.info.alphaOf p = a.info.alphaOf p := fun p => by rw [hd]; rfl
  rw [c2, c2, k] at e1
  rw [c1, c1, k, equalized_rearranged h t white alpha precision hx hy] at e2
  rw [← a.info.colour_append (o'.px x y), ← a.info.colour_append (o.px (move (x, y)).1 (move (x, y)).2), e3, e4]
  exact congrArg₂ (· ++ ·) e2 e1

/-! ### a concrete case: six pixels in a row instead of three by two, backwards -/
def gray6Row {T} (a b c d e f : T) : Image T := ⟨⟨6, 1, 1, false⟩, [f, e, d, c, b, a]⟩
theorem gray6_rearranged {T} (a b c d e f : T) :
    Rearranged (fun p => ((5 - p.1) % 3, (5 - p.1) / 3)) (gray6 a b c d e f) (gray6Row a b c d e f) := by
  refine ⟨⟨show 6 < _ by decide, show 1 < _ by decide, show 1 < _ by decide, show 6 * 1 < _ by decide, show 6 * 1 * 1 < _ by decide, rfl⟩,
    rfl, rfl, ⟨?_, ?_, ?_⟩, ?_⟩
  · rintro ⟨x, y⟩ ⟨hx, hy⟩
    have hx : x < 6 := hx
    exact ⟨show (5 - x) % 3 < 3 by omega, show (5 - x) / 3 < 2 by omega⟩
  · rintro ⟨x, y⟩ ⟨hx, hy⟩ ⟨x', y'⟩ ⟨hx', hy'⟩ e
    have hx : x < 6 := hx
    have hy : y < 1 := hy
    have hx' : x' < 6 := hx'
    have hy' : y' < 1 := hy'
    simp only [Prod.mk.injEq] at e
    rw [show x = x' by omega, show y = y' by omega]
  · rintro ⟨x, y⟩ ⟨hx, hy⟩
    have hx : x < 3 := hx
    have hy : y < 2 := hy
    refine ⟨(5 - (y * 3 + x), 0), ⟨show 5 - (y * 3 + x) < 6 by omega, show 0 < 1 by omega⟩, ?_⟩
    simp only [Prod.mk.injEq]
    omega
  · rintro P ⟨x, y⟩ ⟨hx, hy⟩
    have hx : x < 6 := hx
    have hy : y < 1 := hy
    cases P <;> interval_cases x <;> interval_cases y <;> rfl
example (P : Profile) (a b c d e f : UInt8) : ∃ o o', rgbToGrayscale ℝ false P (gray6 a b c d e f) = .ok o ∧
    rgbToGrayscale ℝ false P (gray6Row a b c d e f) = .ok o' ∧ Rearranged (fun p => ((5 - p.1) % 3, (5 - p.1) / 3)) o o' :=
  c137_grayscale P (gray6_WF ..) ⟨show 0 < 3 by decide, show 0 < 2 by decide⟩ (show 0 < 1 by decide) (show 1 ≤ 128 by decide) _ _
    (gray6_rearranged ..)
example (P : Profile) : IgnoresPositions (fun i => histogramEqualization P i (1 / 2 : ℝ) .d65 10) demoA :=
  c137_equalize P .d65 demoA_WF ⟨by decide, by decide⟩ rfl (by decide) _ _ (by norm_num) (by norm_num) (by norm_num)
end Imgproc

import Verif.Props.Trip2
/-! Property C106: the image-level statements. All of them are about f32 arithmetic as IEEE 754 prescribes it; the only thing
assumed of the platform's `powf` is `PowAccurate`. -/
namespace Imgproc
open FloatOps

section
variable [Libm f32]

theorem loses_of_CA32 {img out : Image UInt8} {C : Nat → Nat → List UInt8}
    (hs : out.CA img.info C
      (fun x y => ((img.info.alphaOf (img.px x y)).map ofU8).map fun a : F32 => toU8 (FloatOps.round a)))
    (hC : ∀ x y, x < img.info.width → y < img.info.height →
      List.Forall₂ SameOrOneBelow (img.info.colour (img.px x y)) (C x y)) :
    img.LosesAtMostOne out :=
  ⟨hs.wf, hs.info_eq, fun x y hx hy => ⟨by rw [hs.alpha x y hx hy, alpha_back], by
    rw [hs.colour x y hx hy]; exact hC x y hx hy⟩⟩

theorem forall₂_map_right {α β : Type} {R : α → β → Prop} {f : α → β} (l : List α) (h : ∀ a ∈ l, R a (f a)) :
    List.Forall₂ R l (l.map f) := by
  induction l with
  | nil => exact .nil
  | cons a l ih => exact .cons (h a (by simp)) (ih fun b hb => h b (by simp [hb]))

/-- **C106** (f32) `linearize_srgb_f32` is within 1.5e-6 of the exact curve, for every byte of every image; alpha is kept. -/
theorem c106_linearize_accuracy (hp : PowAccurate) (P : Profile) (img : Image UInt8) (h : img.WF)
    (hc : img.info.alpha = true → 0 < img.info.channels) :
    ∃ mid : Image F32, linearizeSrgb P img = .ok mid ∧ mid.WF ∧ mid.info = img.info ∧
      ∀ x y, x < img.info.width → y < img.info.height →
        List.Forall₂ (fun v o => ∃ q : Rat, o.Is q ∧ |(q : ℝ) - linearValue v.toNat| ≤ 1.5e-6)
          (img.info.colour (img.px x y)) (img.info.colour (mid.px x y)) ∧
        img.info.alphaOf (mid.px x y) = (img.info.alphaOf (img.px x y)).map ofU8 := by
  obtain ⟨o1, e1, h1⟩ := linearize_CA (F := F32) P h hc
  refine ⟨o1, e1, h1.wf, h1.info_eq, fun x y hx hy => ⟨?_, h1.alpha x y hx hy⟩⟩
  rw [h1.colour x y hx hy]
  exact forall₂_map_right _ fun v _ => linearize_near hp v

/-- **C106** (f32) un-linearizing a linearized image gives the image back up to one level, downwards; the darkest eleven
levels and the alpha values come back exactly. -/
theorem c106_linear_trip (hp : PowAccurate) (P : Profile) (img : Image UInt8) (h : img.WF)
    (hc : img.info.alpha = true → 0 < img.info.channels) :
    ∃ (mid : Image F32) (out : Image UInt8), linearizeSrgb P img = .ok mid ∧ unlinearizeSrgb P mid = .ok out ∧
      img.LosesAtMostOne out ∧ ∀ x y, x < img.info.width → y < img.info.height →
        List.Forall₂ (fun v o => v.toNat ≤ 10 → o = v) (img.info.colour (img.px x y)) (img.info.colour (out.px x y)) := by
  obtain ⟨o1, e1, h1⟩ := linearize_CA (F := F32) P h hc
  obtain ⟨o2, e2, h2⟩ := unlinearize_CA P h1 hc
  refine ⟨o1, o2, e1, e2, loses_of_CA32 h2 fun x y hx hy => ?_, fun x y hx hy => ?_⟩
  · rw [List.map_map]
    exact forall₂_map_right _ fun v _ => unlinearize_near32 hp v ((linearize_near hp v).mono (by norm_num))
  · rw [h2.colour x y hx hy, List.map_map]
    exact forall₂_map_right _ fun v _ hv => unlinearize_dark_exact32 hv

theorem three_of_length {p : List UInt8} (h : p.length = 3) : ∃ a b c, p = [a, b, c] := by
  match p, h with
  | [a, b, c], _ => exact ⟨a, b, c, rfl⟩

/-- **C106** (f32) sRGB to XYZ and back loses at most one level per colour channel, and only downwards. -/
theorem c106_xyz (hp : PowAccurate) (P : Profile) (img : Image UInt8) (h : img.WF)
    (hpos : 0 < img.info.width ∧ 0 < img.info.height) (h3 : img.info.colours = 3) :
    ∃ (xyz : Image F32) (out : Image UInt8), srgbToXyz P img = .ok xyz ∧ xyzToSrgb P xyz = .ok out ∧
      img.LosesAtMostOne out := by
  obtain ⟨o1, e1, h1⟩ := linearize_CA (F := F32) P h (colours3 h3).2
  obtain ⟨o2, e2, h2⟩ := srgbLinToXyz_CA P h1 hpos h3
  obtain ⟨o4, e4, h4⟩ := xyzToSrgbLin_CA P h2 hpos h3
  obtain ⟨o5, e5, h5⟩ := unlinearize_CA P h4 (colours3 h3).2
  refine ⟨o2, o5, ?_, ?_, loses_of_CA32 h5 fun x y hx hy => ?_⟩
  · unfold srgbToXyz; rw [e1, ok_bind, e2]
  · unfold xyzToSrgb; rw [e4, ok_bind, e5]
  · obtain ⟨a, b, c, e⟩ := three_of_length (colour_len3 h h3 hx hy)
    rw [e]
    obtain ⟨x', y', z', e', nx, ny, nz⟩ := toXyz_near hp a b c
    rw [List.map_cons, List.map_cons, List.map_cons, List.map_nil, e']
    exact fromXyz_near hp a b c (nx.mono (by norm_num)) (ny.mono (by norm_num)) (nz.mono (by norm_num))

/-- **C106** (f32) sRGB to CIELAB and back, for both reference whites. -/
theorem c106_lab (hp : PowAccurate) (P : Profile) (white : White) (img : Image UInt8) (h : img.WF)
    (hpos : 0 < img.info.width ∧ 0 < img.info.height) (h3 : img.info.colours = 3) :
    ∃ (lab : Image F32) (out : Image UInt8), srgbToLab P img white = .ok lab ∧ labToSrgb P lab white = .ok out ∧
      img.LosesAtMostOne out := by
  obtain ⟨o1, e1, h1⟩ := srgbToLab_CA (F := F32) P white h hpos h3
  obtain ⟨o2, e2, h2⟩ := labToSrgb_CA P white h1 hpos h3
  refine ⟨o1, o2, e1, e2, loses_of_CA32 h2 fun x y hx hy => ?_⟩
  obtain ⟨a, b, c, e⟩ := three_of_length (colour_len3 h h3 hx hy)
  rw [e]
  obtain ⟨L, A, B, t, e', ht, hb⟩ := lab_trip hp white a b c
  rw [e']
  exact hb L ht

/-- the trip with an edit of the lightness that does not change its value -/
theorem lab_edit32 (hp : PowAccurate) (P : Profile) (img : Image UInt8) (h : img.WF)
    (hpos : 0 < img.info.width ∧ 0 < img.info.height) (h3 : img.info.colours = 3) (g : F32 → F32)
    (hg : ∀ (l : F32) (t : Rat), l.Is t → (g l).Is t) :
    ∃ (o1 o2 : Image F32) (o3 : Image UInt8), srgbToLab P img .d50 = .ok o1 ∧ o1.editChannel P (fun n => .ok (g n)) 0 = .ok o2 ∧
      labToSrgb P o2 .d50 = .ok o3 ∧ img.LosesAtMostOne o3 := by
  obtain ⟨o1, e1, h1⟩ := srgbToLab_CA (F := F32) P .d50 h hpos h3
  obtain ⟨o2, e2, h2⟩ := h1.edit P h3 (k := 0) (by decide) (f := fun n => .ok (g n)) (g := g) (fun _ _ _ _ n _ => rfl)
  obtain ⟨o3, e3, h3'⟩ := labToSrgb_CA P .d50 h2 hpos h3
  refine ⟨o1, o2, o3, e1, e2, e3, loses_of_CA32 h3' fun x y hx hy => ?_⟩
  obtain ⟨a, b, c, e⟩ := three_of_length (colour_len3 h h3 hx hy)
  rw [e]
  obtain ⟨L, A, B, t, e', ht, hb⟩ := lab_trip hp .d50 a b c
  rw [e']
  exact hb (g L) (hg L t ht)

/-- **C106** (f32) brightness by 0 in CIELAB mode changes no channel by more than one level. -/
theorem c106_brightness_zero (hp : PowAccurate) (P : Profile) (img : Image UInt8) (h : img.WF)
    (hpos : 0 < img.info.width ∧ 0 < img.info.height) (h3 : img.info.colours = 3) :
    ∃ out : Image UInt8, brightnessLab F32 P img 0 = .ok out ∧ img.LosesAtMostOne out := by
  have z : (FloatOps.ofInt 0 /. num 255 *. num 100 : F32).Is 0 := by
    have r0 : f32.rnd 0 = 0 := rndQ_zero _
    have z1 : (FloatOps.ofInt 0 /. num 255 : F32).Is 0 := by
      have := div_is (f := f32) (ofInt_exact (n := 0) (f32_int (by decide))) (num32 (n := 255) (by decide)) (by norm_num)
        (by norm_num [r0]; exact pow2_pos _)
      simpa [r0] using this
    have := mul_is (f := f32) z1 (num32 (n := 100) (by decide)) (by norm_num [r0]; exact pow2_pos _)
    simpa [r0] using this
  obtain ⟨o1, o2, o3, e1, e2, e3, hl⟩ := lab_edit32 hp P img h hpos h3 (fun n => n +. (FloatOps.ofInt 0 /. num 255 *. num 100 : F32))
    (fun l t hl => by
      have := add_exact hl z (by rw [add_zero]; exact hl.exact)
      rwa [add_zero] at this)
  refine ⟨o3, ?_, hl⟩
  unfold brightnessLab
  rw [i16Abs_ok (by omega) (by omega), ok_bind, checkInRange_byte, if_neg (by decide), ok_bind, e1, ok_bind]
  dsimp only
  rw [e2, ok_bind, e3]

/-- **C106** (f32) contrast by 1 in CIELAB mode changes no channel by more than one level. -/
theorem c106_contrast_one (hp : PowAccurate) (P : Profile) (img : Image UInt8) (h : img.WF)
    (hpos : 0 < img.info.width ∧ 0 < img.info.height) (h3 : img.info.colours = 3) :
    ∃ out : Image UInt8, contrastLab P img (num 1 : F32) = .ok out ∧ img.LosesAtMostOne out := by
  have o : (num 1 : F32).Is 1 := by simpa using num32 (n := 1) (by decide)
  have z : (num 0 : F32).Is 0 := by simpa using num32 (n := 0) (by decide)
  have z' : (ofU8 0 : F32).Is 0 := by simpa using ofU8_is 0
  obtain ⟨o1, o2, o3, e1, e2, e3, hl⟩ := lab_edit32 hp P img h hpos h3 (fun n => n *. (num 1 : F32))
    (fun l t hl => by
      have := mul_exact hl o (by rw [mul_one]; exact hl.exact)
      rwa [mul_one] at this)
  refine ⟨o3, ?_, hl⟩
  have c1 : ¬ ((num 1 : F32) <. (ofU8 0 : F32)) = true := by rw [lt_is o z']; decide
  have c2 : ¬ (((num 1 : F32) <. (num 0 : F32)) || ((num 1 : F32) <. (num 1 : F32))) = true := by
    rw [lt_is o z, lt_is o o]; decide
  unfold contrastLab checkNonNeg checkInRange
  show ((if ((num 1 : F32) <. (ofU8 0 : F32)) = true then invalidArg else .ok ()) >>= fun _ =>
    (if (((num 1 : F32) <. (num 0 : F32)) || ((num 1 : F32) <. (num 1 : F32))) = true then invalidArg else .ok ()) >>= fun _ => _) = _
  rw [if_neg c1, ok_bind, if_neg c2, ok_bind, e1, ok_bind, e2, ok_bind, e3]
end

/-! ## There is an accurate libm -/

/-- a correctly rounded power is accurate enough -/
theorem accurate_exists {a b : Rat} (ha : 1 / 2 ^ 20 ≤ a) (ha' : a ≤ 2) (hb : 0 < b) (hb' : b ≤ 4) :
    ∃ (z : F32) (c : Rat), z.Is c ∧ |(c : ℝ) - (a : ℝ) ^ (b : ℝ)| ≤ (a : ℝ) ^ (b : ℝ) / 2 ^ 21 := by
  have ha1 : (1 : ℝ) / 2 ^ 20 ≤ a := by
    have : ((1 / 2 ^ 20 : Rat) : ℝ) ≤ a := by exact_mod_cast ha
    simpa using this
  have ha2 : (a : ℝ) ≤ 2 := by exact_mod_cast ha'
  have hb1 : (0 : ℝ) < b := by exact_mod_cast hb
  have hb2 : (b : ℝ) ≤ 4 := by exact_mod_cast hb'
  have apos : (0 : ℝ) < a := lt_of_lt_of_le (by positivity) ha1
  set ρ : ℝ := (a : ℝ) ^ (b : ℝ) with hρ
  have lo : (1 : ℝ) / 2 ^ 80 ≤ ρ := by
    have h1 : ((1 : ℝ) / 2 ^ 20) ^ (b : ℝ) ≤ ρ := Real.rpow_le_rpow (by positivity) ha1 hb1.le
    have h2 := Real.rpow_le_rpow_of_exponent_ge (x := (1 : ℝ) / 2 ^ 20) (by positivity) (by norm_num) hb2
    rw [show (4 : ℝ) = ((4 : ℕ) : ℝ) by norm_num, Real.rpow_natCast] at h2
    have : ((1 : ℝ) / 2 ^ 20) ^ 4 = 1 / 2 ^ 80 := by norm_num
    linarith
  have hi : ρ ≤ 16 := by
    have h1 : ρ ≤ (2 : ℝ) ^ (b : ℝ) := Real.rpow_le_rpow apos.le ha2 hb1.le
    have h2 := Real.rpow_le_rpow_of_exponent_le (x := (2 : ℝ)) (by norm_num) hb2
    rw [show (4 : ℝ) = ((4 : ℕ) : ℝ) by norm_num, Real.rpow_natCast] at h2
    norm_num at h2
    linarith
  have ρ0 : 0 < ρ := lt_of_lt_of_le (by positivity) lo
  obtain ⟨q, q1, q2⟩ := exists_rat_btwn (show ρ < ρ + ρ / 2 ^ 24 by linarith [show (0 : ℝ) < ρ / 2 ^ 24 by positivity])
  have q0 : (0 : ℝ) < q := by linarith
  refine ⟨Flt.ofRat f32 q, f32.rnd q, Flt.ofRat_is (ovf_real (by rw [abs_of_pos q0]; linarith)), ?_⟩
  have he := rndQ_err (f := f32.toRFmt) q
  have h1 : pow2 (-(f32.p : Int)) = 1 / 16777216 := by norm_num [f32, pow2_eq]
  have h2 : pow2 (f32.emin - 1) ≤ 1 / 2 ^ 149 := by norm_num [f32, pow2_eq]
  rw [show (f32.toRFmt.p : Int) = (f32.p : Int) from rfl, h1] at he
  have he' : |((f32.rnd q : Rat) : ℝ) - q| ≤ ((max (|q| * (1 / 16777216)) (pow2 (f32.emin - 1)) : Rat) : ℝ) := by
    rw [← Rat.cast_sub, ← Rat.cast_abs]; exact_mod_cast he
  rw [Rat.cast_max] at he'
  have he2 : |((f32.rnd q : Rat) : ℝ) - q| ≤ q / 16777216 := by
    refine he'.trans (max_le (by push_cast; rw [abs_of_pos q0]; linarith) ?_)
    have h3 : ((pow2 (f32.emin - 1) : Rat) : ℝ) ≤ ((1 / 2 ^ 149 : Rat) : ℝ) := by exact_mod_cast h2
    refine h3.trans ?_
    have : ((1 / 2 ^ 149 : Rat) : ℝ) ≤ 1 / 2 ^ 80 / 16777216 := by norm_num
    linarith
  have t := abs_add_le (((f32.rnd q : Rat) : ℝ) - q) ((q : ℝ) - ρ)
  rw [sub_add_sub_cancel, abs_of_pos (show (0 : ℝ) < (q : ℝ) - ρ by linarith)] at t
  norm_num at *
  linarith

open Classical in
/-- a platform whose `powf` is accurate -/
noncomputable def accurateLibm : Libm f32 where
  pow x y := if h : ∃ (z : F32) (a b c : Rat), x.Is a ∧ y.Is b ∧ z.Is c ∧ |(c : ℝ) - (a : ℝ) ^ (b : ℝ)| ≤ (a : ℝ) ^ (b : ℝ) / 2 ^ 21
    then h.choose else x
  sin := id
  cos := id

theorem accurateLibm_spec : @PowAccurate accurateLibm := by
  intro x y a b hx hy h1 h2 h3 h4
  obtain ⟨z, c, hz, hc⟩ := accurate_exists h1 h2 h3 h4
  have h : ∃ (z : F32) (a b c : Rat), x.Is a ∧ y.Is b ∧ z.Is c ∧ |(c : ℝ) - (a : ℝ) ^ (b : ℝ)| ≤ (a : ℝ) ^ (b : ℝ) / 2 ^ 21 :=
    ⟨z, a, b, c, hx, hy, hz, hc⟩
  obtain ⟨a', b', c', hx', hy', hc', e⟩ := h.choose_spec
  rw [hx'.unique hx, hy'.unique hy] at e
  refine ⟨c', ?_, e⟩
  show ((accurateLibm.pow x y) : F32).Is c'
  unfold accurateLibm
  simp only [dif_pos h]
  exact hc'

example (P : Profile) : letI := accurateLibm
    (∃ (mid : Image F32) (out : Image UInt8), linearizeSrgb P demoA = .ok mid ∧ unlinearizeSrgb P mid = .ok out ∧
      demoA.LosesAtMostOne out) ∧
    ∃ (lab : Image F32) (out : Image UInt8), srgbToLab P demoA .d65 = .ok lab ∧ labToSrgb P lab .d65 = .ok out ∧
      demoA.LosesAtMostOne out := by
  letI := accurateLibm
  obtain ⟨mid, out, e1, e2, hl, -⟩ := c106_linear_trip accurateLibm_spec P demoA demoA_WF (fun _ => by decide)
  exact ⟨⟨mid, out, e1, e2, hl⟩, c106_lab accurateLibm_spec P .d65 demoA demoA_WF (by decide) (by decide)⟩
end Imgproc

import Verif.Props.Trip3
/-! Property C119: the CIELAB coordinates computed in f32 are close to the exact ones. -/
namespace Imgproc
open FloatOps

/-- spec: the CIELAB function (cube root with a linear part near 0), as published by the CIE -/
noncomputable def cieF (t : ℝ) : ℝ := if (6 / 29 : ℝ) ^ 3 < t then t ^ (1 / 3 : ℝ) else t / (3 * (6 / 29) ^ 2) + 4 / 29

/-- spec: the reference whites (times 100) -/
noncomputable def whitePoint : White → ℝ × ℝ × ℝ
  | .d50 => (96.4212, 100, 82.5188)
  | .d65 => (95.0489, 100, 108.8840)

/-- spec: lightness and the two opponent coordinates of a colour given by its bytes, in exact arithmetic -/
noncomputable def exactLab (white : White) (a b c : UInt8) : ℝ × ℝ × ℝ :=
  let fx := cieF ((exactXyz a b c).1 * 100 / (whitePoint white).1)
  let fy := cieF ((exactXyz a b c).2.1 * 100 / (whitePoint white).2.1)
  let fz := cieF ((exactXyz a b c).2.2 * 100 / (whitePoint white).2.2)
  (116 * fy - 16, 500 * (fx - fy), 200 * (fy - fz))

theorem cieF_root {t : ℝ} (h : (6 / 29 : ℝ) ^ 3 ≤ t) : ∃ c, cieF t = c ∧ c ^ 3 = t ∧ 6 / 29 ≤ c := by
  rcases h.eq_or_lt with rfl | h
  · refine ⟨6 / 29, ?_, rfl, le_rfl⟩
    unfold cieF; rw [if_neg (lt_irrefl _)]; norm_num
  · have t0 : 0 ≤ t := le_trans (by norm_num) h.le
    have c3 : (t ^ (1 / 3 : ℝ)) ^ 3 = t := by
      have := cbrt_cube t0
      rwa [show ((3 : ℝ)) = ((3 : ℕ) : ℝ) by norm_num, Real.rpow_natCast, show ((3:ℕ):ℝ) = 3 by norm_num] at this
    refine ⟨t ^ (1 / 3 : ℝ), by unfold cieF; rw [if_pos h], c3, ?_⟩
    by_contra hh
    push Not at hh
    have c0 : 0 ≤ t ^ (1 / 3 : ℝ) := Real.rpow_nonneg t0 _
    have : (t ^ (1 / 3 : ℝ)) ^ 3 < (6 / 29 : ℝ) ^ 3 := by gcongr
    rw [c3] at this
    linarith

theorem cieF_line {t : ℝ} (h : t ≤ (6 / 29 : ℝ) ^ 3) : cieF t = 841 / 108 * t + 4 / 29 := by
  unfold cieF; rw [if_neg (not_lt.2 h)]; ring

/-- `cieF` is increasing with slope at most 841/108 -/
theorem cieF_lip {s t : ℝ} (h : s ≤ t) : 0 ≤ cieF t - cieF s ∧ cieF t - cieF s ≤ 841 / 108 * (t - s) := by
  have root : ∀ {s t : ℝ}, (6 / 29 : ℝ) ^ 3 ≤ s → s ≤ t → 0 ≤ cieF t - cieF s ∧ cieF t - cieF s ≤ 841 / 108 * (t - s) := by
    intro s t hs h
    obtain ⟨a, ea, a3, a0⟩ := cieF_root hs
    obtain ⟨b, eb, b3, b0⟩ := cieF_root (hs.trans h)
    rw [ea, eb, ← a3, ← b3]
    have k : b ^ 3 - a ^ 3 = (b - a) * (b * b + b * a + a * a) := by ring
    have q : (108 / 841 : ℝ) ≤ b * b + b * a + a * a := by nlinarith
    have ab : a ≤ b := by
      by_contra hh
      push Not at hh
      have : b ^ 3 < a ^ 3 := by gcongr
      linarith
    refine ⟨by linarith, ?_⟩
    rw [k]
    have := mul_le_mul_of_nonneg_left q (sub_nonneg.2 ab)
    linarith
  have line : ∀ {s t : ℝ}, t ≤ (6 / 29 : ℝ) ^ 3 → s ≤ t → 0 ≤ cieF t - cieF s ∧ cieF t - cieF s ≤ 841 / 108 * (t - s) := by
    intro s t ht h
    rw [cieF_line ht, cieF_line (h.trans ht)]
    constructor <;> linarith
  rcases le_total ((6 / 29 : ℝ) ^ 3) s with hs | hs
  · exact root hs h
  · rcases le_total t ((6 / 29 : ℝ) ^ 3) with ht | ht
    · exact line ht h
    · have h1 := root le_rfl ht
      have h2 := line le_rfl hs
      constructor <;> linarith [h1.1, h1.2, h2.1, h2.2]

theorem cieF_close {s t e : ℝ} (h : |s - t| ≤ e) : |cieF s - cieF t| ≤ 841 / 108 * e := by
  rcases le_total s t with hs | hs
  · have := cieF_lip hs
    rw [abs_sub_comm, abs_of_nonneg (by linarith)] at h
    rw [abs_sub_comm, abs_of_nonneg this.1]; linarith [this.2]
  · have := cieF_lip hs
    rw [abs_of_nonneg (by linarith)] at h
    rw [abs_of_nonneg this.1]; linarith [this.2]

theorem cieF_bounds {t : ℝ} (h0 : 0 ≤ t) (h1 : t ≤ 1.33) : 4 / 29 ≤ cieF t ∧ cieF t ≤ 1.1 := by
  have a := cieF_lip h0
  have b := cieF_lip (s := t) (t := 1.331) (by linarith)
  rw [cieF_line (t := 0) (by norm_num)] at a
  obtain ⟨c, ec, c3, c0⟩ := cieF_root (t := 1.331) (by norm_num)
  have : c ≤ 1.1 := by
    by_contra hh
    push Not at hh
    have : (1.1 : ℝ) ^ 3 < c ^ 3 := by gcongr
    rw [c3] at this; norm_num at this
  constructor <;> linarith [a.1, b.1]

section
variable [Libm f32]

/-- `xyz_to_lab_fn` in f32 -/
theorem labFn_near (hp : PowAccurate) {t : F32} {τ : Rat} (ht : t.Is τ) (h0 : -1e-4 ≤ (τ : ℝ)) (h1 : (τ : ℝ) ≤ 1.33) :
    Near (xyzToLabFn t) (cieF τ) 1.2e-6 := by
  obtain ⟨θ, hθ, θ1⟩ := labThreshold_near hp
  rw [abs_le] at θ1
  have key1 : xyzToLabFn t = if θ < τ then FloatOps.pow t (num 1 /. num 3) else
      (t /. (num 3 *. (num 6 /. num 29) *. (num 6 /. num 29))) +. (num 4 /. num 29) := by
    unfold xyzToLabFn
    simp only
    rw [show (t >. (FloatOps.pow (num 6 /. num 29) (num 3) : F32)) = ((FloatOps.pow (num 6 /. num 29) (num 3) : F32) <. t) from rfl, lt_is hθ ht]
    by_cases h : θ < τ <;> simp [h]
  rw [key1]
  by_cases hb : θ < τ
  · rw [if_pos hb]
    have hb' : (θ : ℝ) < τ := by exact_mod_cast hb
    have τ0 : 0.0088 ≤ (τ : ℝ) := by linarith
    set c : ℝ := (τ : ℝ) ^ (1 / 3 : ℝ) with hc
    have c0 : 0 ≤ c := Real.rpow_nonneg (by linarith) _
    have c3 : c ^ 3 = τ := by rw [← rpow_three]; exact cbrt_cube (by linarith)
    have c1 : c ≤ 1.1 := by
      by_contra hh
      push Not at hh
      have : (1.1 : ℝ) ^ 3 < c ^ 3 := by gcongr
      rw [c3] at this; norm_num at this; linarith
    have np : Near (FloatOps.pow t (num 1 /. num 3)) c 8e-7 := by
      have n0 : Near t (τ : ℝ) (0 * τ) := by rw [zero_mul]; exact Near.exact ht
      have := Near.pow hp (S := 1) (κ := 1.5e-7) (Λ := (5 : ℕ)) n0 third_near (by norm_num; linarith) (by linarith) (by norm_num)
        (by norm_num) (by norm_num) (by norm_num) (log_bound (by linarith) (by norm_num) (by norm_num; linarith))
        (by norm_num) (by norm_num)
      refine this.mono ?_
      rw [← hc]; nlinarith
    refine np.trans (f := 3e-7) ?_ (by norm_num)
    rcases lt_or_ge ((6 / 29 : ℝ) ^ 3) τ with hr | hl
    · unfold cieF; rw [if_pos hr, sub_self]; norm_num
    · have c2 : 6 / 29 - 1e-7 ≤ c := by
        by_contra hh
        push Not at hh
        have : c ^ 3 < (6 / 29 - 1e-7) ^ 3 := by gcongr
        rw [c3] at this; norm_num at this; linarith
      have c4 : c ≤ 6 / 29 := by
        by_contra hh
        push Not at hh
        have : (6 / 29 : ℝ) ^ 3 < c ^ 3 := by gcongr
        rw [c3] at this; linarith
      rw [cieF_line hl, abs_le]
      norm_num at hl ⊢
      constructor <;> linarith
  · rw [if_neg hb]
    have hb' : (τ : ℝ) ≤ θ := by exact_mod_cast not_lt.1 hb
    have nq : Near (t /. (num 3 *. (num 6 /. num 29) *. (num 6 /. num 29))) ((τ : ℝ) / (108 / 841)) 1e-7 :=
      Near.div (L := 108 / 841) (B := 0.07) (Near.exact ht) slope_near (le_refl _) (by norm_num)
        (by rw [abs_le]; constructor
            · rw [le_div_iff₀ (by norm_num)]; linarith
            · rw [div_le_iff₀ (by norm_num)]; linarith) (by norm_num) (by norm_num) (by norm_num)
    have q0 : -0.001 ≤ (τ : ℝ) / (108 / 841) := by rw [le_div_iff₀ (by norm_num)]; linarith
    have q1 : (τ : ℝ) / (108 / 841) ≤ 2 / 29 + 1e-7 := by rw [div_le_iff₀ (by norm_num)]; linarith
    have ns : Near ((t /. (num 3 *. (num 6 /. num 29) *. (num 6 /. num 29))) +. (num 4 /. num 29)) ((τ : ℝ) / (108 / 841) + 4 / 29) 2e-7 :=
      Near.add (B := 0.3) nq four_near (by norm_num) (by rw [abs_le]; constructor <;> linarith) (by norm_num) (by norm_num)
    refine ns.trans (f := 1e-6) ?_ (by norm_num)
    have e : (τ : ℝ) / (108 / 841) + 4 / 29 = 841 / 108 * τ + 4 / 29 := by ring
    rw [e]
    rcases lt_or_ge ((6 / 29 : ℝ) ^ 3) τ with hr | hl
    · have a := cieF_lip hr.le
      rw [cieF_line (t := (6 / 29 : ℝ) ^ 3) le_rfl] at a
      norm_num at hr a
      rw [abs_le]; constructor <;> linarith [a.1, a.2]
    · rw [cieF_line hl, sub_self]; norm_num

/-- the f32 white points -/
theorem whitePoint_near (white : White) : WhiteNear (xyzTristimulusVals (F := F32) white).1 (whitePoint white).1 ∧
    WhiteNear (xyzTristimulusVals (F := F32) white).2.1 (whitePoint white).2.1 ∧
    WhiteNear (xyzTristimulusVals (F := F32) white).2.2 (whitePoint white).2.2 := by
  have n100 : WhiteNear (num 100 : F32) 100 :=
    ⟨((Near.num (n := 100) (by decide)).of_eq (by norm_num)).mono (by norm_num), by norm_num, by norm_num⟩
  have l : ∀ (q : Rat) (r : ℝ), (q : ℝ) = r → 82.5 ≤ (q : ℝ) → (q : ℝ) ≤ 109 → WhiteNear (lit q : F32) r := fun q r e h0 h1 =>
    ⟨((Near.lit (B := 109) (by norm_num) (by rw [abs_of_nonneg (by linarith)]; exact h1) (by norm_num)).mono (by norm_num)).of_eq e, e ▸ h0, e ▸ h1⟩
  cases white
  · exact ⟨l _ _ (by norm_num [whitePoint]) (by norm_num) (by norm_num), n100, l _ _ (by norm_num [whitePoint]) (by norm_num) (by norm_num)⟩
  · exact ⟨l _ _ (by norm_num [whitePoint]) (by norm_num) (by norm_num), n100, l _ _ (by norm_num [whitePoint]) (by norm_num) (by norm_num)⟩

/-- one channel of the conversion: the CIELAB function of the scaled XYZ value -/
theorem channel_near (hp : PowAccurate) {w x : F32} {W X : ℝ} (hw : WhiteNear w W) (hx : Near x X 2.1e-6) (h0 : 0 ≤ X) (h1 : X ≤ 1.09) :
    Near (xyzToLabFn (x *. num 100 /. w)) (cieF (X * 100 / W)) 2.5e-5 ∧ |cieF (X * 100 / W)| ≤ 1.1 := by
  obtain ⟨τ, hτ, τ1⟩ := scale_near hw hx h0 h1
  have τ2 := abs_le.1 τ1
  have wpos : 0 < W := by linarith [hw.2.1]
  have s0 : 0 ≤ X * 100 / W := by positivity
  have s1 : X * 100 / W ≤ 1.3213 := by rw [div_le_iff₀ wpos]; linarith [hw.2.1]
  have b := cieF_bounds s0 (by linarith)
  refine ⟨(labFn_near hp hτ (by linarith) (by linarith)).trans (cieF_close τ1) (by norm_num), ?_⟩
  rw [abs_of_nonneg (by linarith)]; exact b.2

/-- the CIELAB coordinates of any sRGB colour computed in f32 are numbers within 0.003 (lightness), 0.026 (a) and 0.011 (b)
of the exact ones. -/
theorem labOfSrgb_near (hp : PowAccurate) (white : White) (a b c : UInt8) : ∃ L A B : F32, labOfSrgb white [a, b, c] = [L, A, B] ∧
    Near L (exactLab white a b c).1 0.003 ∧ Near A (exactLab white a b c).2.1 0.026 ∧ Near B (exactLab white a b c).2.2 0.011 := by
  obtain ⟨w1, w2, w3⟩ := whitePoint_near white
  obtain ⟨⟨x0, x1⟩, ⟨y0, y1⟩, z0, z1⟩ := exactXyz_bound a b c
  obtain ⟨x, y, z, e, hx, hy, hz⟩ := toXyz_near hp a b c
  obtain ⟨p, bp⟩ := channel_near hp w1 hx x0 (by linarith)
  obtain ⟨q, bq⟩ := channel_near hp w2 hy y0 (by linarith)
  obtain ⟨r, br⟩ := channel_near hp w3 hz z0 (by linarith)
  refine ⟨_, _, _, by unfold labOfSrgb; rw [List.map_cons, List.map_cons, List.map_cons, List.map_nil, e]; rfl, ?_, ?_, ?_⟩
  · have m := Near.mul (B := 116) (C := 1.1) (e' := 0.00292) (Near.num (n := 116) (by decide)) q (by norm_num) bq (by norm_num) (by norm_num) (by norm_num)
    have := Near.sub (B := 145) (e' := 0.003) m (Near.num (n := 16) (by decide)) (by norm_num) (by
      have := abs_le.1 bq; push_cast; rw [abs_le]; constructor <;> linarith) (by norm_num) (by norm_num)
    exact this.of_eq (by unfold exactLab; push_cast; rfl)
  · have d := Near.sub (B := 2.2) (e' := 5.1e-5) p q (by norm_num) (by
      have := abs_le.1 bq; have := abs_le.1 bp; rw [abs_le]; constructor <;> linarith) (by norm_num) (by norm_num)
    have := Near.mul (B := 500) (C := 2.2) (e' := 0.026) (Near.num (n := 500) (by decide)) d (by norm_num) (by
      have := abs_le.1 bq; have := abs_le.1 bp; rw [abs_le]; constructor <;> linarith) (by norm_num) (by norm_num) (by norm_num)
    exact this.of_eq (by unfold exactLab; push_cast; rfl)
  · have d := Near.sub (B := 2.2) (e' := 5.1e-5) q r (by norm_num) (by
      have := abs_le.1 bq; have := abs_le.1 br; rw [abs_le]; constructor <;> linarith) (by norm_num) (by norm_num)
    have := Near.mul (B := 200) (C := 2.2) (e' := 0.011) (Near.num (n := 200) (by decide)) d (by norm_num) (by
      have := abs_le.1 bq; have := abs_le.1 br; rw [abs_le]; constructor <;> linarith) (by norm_num) (by norm_num) (by norm_num)
    exact this.of_eq (by unfold exactLab; push_cast; rfl)
/-- **C119** `srgb_to_lab` in f32, either white: every pixel `(a, b, c, alpha)` becomes numbers within 0.003 (lightness), 0.026 (a) and
0.011 (b) of the exact CIELAB coordinates, followed by the alpha channel as a float. -/
theorem c119_lab_accurate (hp : PowAccurate) (P : Profile) (white : White) (img : Image UInt8) (h : img.WF)
    (hpos : 0 < img.info.width ∧ 0 < img.info.height) (h3 : img.info.colours = 3) :
    ∃ out : Image F32, srgbToLab P img white = .ok out ∧ out.WF ∧ out.info = img.info ∧
      ∀ x y, x < img.info.width → y < img.info.height → ∃ (a b c : UInt8) (alpha : List UInt8) (L A B : F32),
        img.getPixel P x y = .ok ([a, b, c] ++ alpha) ∧ out.getPixel P x y = .ok ([L, A, B] ++ alpha.map ofU8) ∧
        Near L (exactLab white a b c).1 0.003 ∧ Near A (exactLab white a b c).2.1 0.026 ∧ Near B (exactLab white a b c).2.2 0.011 := by
  obtain ⟨out, e, ho⟩ := srgbToLab_CA (F := F32) P white h hpos h3
  refine ⟨out, e, ho.wf, ho.info_eq, fun x y hx hy => ?_⟩
  obtain ⟨a, b, c, ec⟩ := three_of_length (colour_len3 h h3 hx hy)
  obtain ⟨L, A, B, el, n1, n2, n3⟩ := labOfSrgb_near hp white a b c
  refine ⟨a, b, c, img.info.alphaOf (img.px x y), L, A, B, ?_, ?_, n1, n2, n3⟩
  · rw [Image.getPixel_eq P h hx hy, ← ec, img.info.colour_append]
  · rw [Image.getPixel_eq P ho.wf (by rw [ho.info_eq]; exact hx) (by rw [ho.info_eq]; exact hy), ho.shows.px_eq hx hy, ec, el]

omit [Libm f32] in
theorem exactLab_black (white : White) : (exactLab white 0 0 0).1 = 0 := by
  have z : linearValue 0 = 0 := by simp [linearValue]
  unfold exactLab exactXyz
  simp only [show (0 : UInt8).toNat = 0 from rfl, z, mul_zero, add_zero, zero_mul, zero_div]
  rw [cieF_line (by norm_num)]
  norm_num

omit [Libm f32] in
theorem exactLab_white (white : White) : 100 ≤ (exactLab white 255 255 255).1 ∧ (exactLab white 255 255 255).1 ≤ 100.00001 := by
  have z : linearValue 255 = 1 := by norm_num [linearValue]
  have w : (whitePoint white).2.1 = 100 := by cases white <;> rfl
  unfold exactLab exactXyz
  simp only [show (255 : UInt8).toNat = 255 from rfl, z, w]
  norm_num
  obtain ⟨c, ec, c3, c0⟩ := cieF_root (t := (10000001 / 10000000 : ℝ)) (by norm_num)
  rw [ec]
  have a : 1 ≤ c := by
    by_contra hh
    push Not at hh
    have : c ^ 3 < 1 ^ 3 := by gcongr
    rw [c3] at this; norm_num at this
  have b : c ≤ 1.00000004 := by
    by_contra hh
    push Not at hh
    have : (1.00000004 : ℝ) ^ 3 < c ^ 3 := by gcongr
    rw [c3] at this; norm_num at this
  norm_num at b
  constructor <;> linarith

omit [Libm f32] in
/-- **C119** the exact lightness is between 0 (black) and that of white, which is 100 (and a bit: the published matrix adds up to
1.0000001), and it does not decrease when a channel increases -/
theorem c119_exact_lightness (white : White) {a b c a' b' c' : UInt8} (ha : a ≤ a') (hb : b ≤ b') (hc : c ≤ c') :
    (exactLab white a b c).1 ≤ (exactLab white a' b' c').1 ∧ (exactLab white 0 0 0).1 = 0 ∧
      0 ≤ (exactLab white a b c).1 ∧ (exactLab white a b c).1 ≤ 100.00001 ∧ 100 ≤ (exactLab white 255 255 255).1 := by
  have mono : ∀ {a b c a' b' c' : UInt8}, a ≤ a' → b ≤ b' → c ≤ c' → (exactLab white a b c).1 ≤ (exactLab white a' b' c').1 := by
    intro a b c a' b' c' ha hb hc
    have w : (whitePoint white).2.1 = 100 := by cases white <;> rfl
    have linearValue_mono : ∀ {v w : UInt8}, v.toNat ≤ w.toNat → linearValue v.toNat ≤ linearValue w.toNat := fun {v w} h => by
      rcases h.eq_or_lt with h | h
      · rw [h]
      · exact (c87_curve.2.2 _ _ h (by have := w.toNat_lt; omega)).le
    have h1 := linearValue_mono (UInt8.le_iff_toNat_le.1 ha)
    have h2 := linearValue_mono (UInt8.le_iff_toNat_le.1 hb)
    have h3 := linearValue_mono (UInt8.le_iff_toNat_le.1 hc)
    have le : (exactXyz a b c).2.1 * 100 / 100 ≤ (exactXyz a' b' c').2.1 * 100 / 100 := by
      unfold exactXyz; dsimp only; linarith
    have := (cieF_lip le).1
    unfold exactLab
    simp only [w]
    linarith
  have lt : ∀ v : UInt8, 0 ≤ v ∧ v ≤ 255 := fun v => ⟨UInt8.le_iff_toNat_le.2 (Nat.zero_le _), UInt8.le_iff_toNat_le.2 (by have := v.toNat_lt; show _ ≤ 255; omega)⟩
  refine ⟨mono ha hb hc, exactLab_black white, ?_, ?_, (exactLab_white white).1⟩
  · rw [← exactLab_black white]; exact mono (lt a).1 (lt b).1 (lt c).1
  · exact (mono (lt a).2 (lt b).2 (lt c).2).trans (exactLab_white white).2

/-- **C119** in f32 the lightness of every pixel is between -0.003 and 100.004, the one of a black pixel within 0.003 of 0, the one of
a white pixel within 0.004 of 100. -/
theorem c119_lightness_range (hp : PowAccurate) (white : White) (a b c : UInt8) : ∃ (L A B : F32) (l : Rat),
    labOfSrgb white [a, b, c] = [L, A, B] ∧ L.Is l ∧ -0.003 ≤ l ∧ l ≤ 100.004 ∧
      ([a, b, c] = [0, 0, 0] → |l| ≤ 0.003) ∧ ([a, b, c] = [255, 255, 255] → |l - 100| ≤ 0.004) := by
  obtain ⟨L, A, B, e, ⟨l, hl, bl⟩, -, -⟩ := labOfSrgb_near hp white a b c
  obtain ⟨-, -, l0, l1, -⟩ := c119_exact_lightness white (UInt8.le_refl a) (UInt8.le_refl b) (UInt8.le_refl c)
  have b2 := abs_le.1 bl
  refine ⟨L, A, B, l, e, hl, ?_, ?_, fun h => ?_, fun h => ?_⟩
  · rw [← Rat.cast_le (K := ℝ)]; push_cast; linarith
  · rw [← Rat.cast_le (K := ℝ)]; push_cast; linarith
  · obtain ⟨rfl, rfl, rfl⟩ : a = 0 ∧ b = 0 ∧ c = 0 := by simpa using h
    rw [exactLab_black] at b2
    rw [← Rat.cast_le (K := ℝ)]; push_cast; rw [abs_le]; constructor <;> linarith
  · obtain ⟨rfl, rfl, rfl⟩ : a = 255 ∧ b = 255 ∧ c = 255 := by simpa using h
    have w := exactLab_white white
    rw [← Rat.cast_le (K := ℝ)]; push_cast; rw [abs_le]; constructor <;> linarith
end

/-- a 2 x 1 RGBA image and a math library that meet the hypotheses -/
example (P : Profile) : letI := accurateLibm
    ∃ out : Image F32, srgbToLab P demoA .d65 = .ok out ∧ out.info = demoA.info := by
  let := accurateLibm
  obtain ⟨out, e, -, hi, -⟩ := c119_lab_accurate accurateLibm_spec P .d65 demoA demoA_WF (by decide) (by decide)
  exact ⟨out, e, hi⟩
end Imgproc

import Verif.Props.Trip3
import Verif.Props.Gamma
import Verif.Props.Scale9
/-! Properties C107 and C108: accuracy of the f32 colour conversions and of f32 gamma correction. -/
namespace Imgproc
open FloatOps

/-- spec: `v` is a finite float in `[0, hi]` -/
def InUnit (hi : Rat) (v : F32) : Prop := ∃ q : Rat, v.Is q ∧ 0 ≤ q ∧ q ≤ hi
/-- spec: two finite floats at most `e` apart -/
def CloseTo (e : Rat) (v o : F32) : Prop := ∃ p q : Rat, v.Is p ∧ o.Is q ∧ |q - p| ≤ e

/-- spec: `out` has the header and alpha of `img`, and every colour channel differs by at most `e` -/
def Image.CloseTo (e : Rat) (img out : Image F32) : Prop :=
  out.WF ∧ out.info = img.info ∧ ∀ x y, x < img.info.width → y < img.info.height →
    img.info.alphaOf (out.px x y) = img.info.alphaOf (img.px x y) ∧
    List.Forall₂ (Imgproc.CloseTo e) (img.info.colour (img.px x y)) (img.info.colour (out.px x y))

theorem CloseTo.of {v o : F32} {p e : Rat} {e' : ℝ} (hv : v.Is p) (h : Near o (p : ℝ) e') (he : e' ≤ (e : ℝ)) : CloseTo e v o := by
  obtain ⟨q, hq, h⟩ := h
  refine ⟨p, q, hv, hq, ?_⟩
  have : ((|q - p| : Rat) : ℝ) ≤ (e : ℝ) := by push_cast; exact h.trans he
  exact_mod_cast this

theorem InUnit.real {v : F32} {hi : Rat} (h : InUnit hi v) : ∃ q : Rat, v.Is q ∧ (0 : ℝ) ≤ q ∧ (q : ℝ) ≤ hi := by
  obtain ⟨q, h, h0, h1⟩ := h
  exact ⟨q, h, by exact_mod_cast h0, by exact_mod_cast h1⟩

theorem three_of_lengthF {p : List F32} (h : p.length = 3) : ∃ a b c, p = [a, b, c] := List.length_eq_three.1 h

section
variable [Libm f32]

/-- linear RGB to XYZ and back in f32, one colour -/
theorem matrices_near {a b c : F32} (ha : InUnit 1 a) (hb : InUnit 1 b) (hc : InUnit 1 c) :
    List.Forall₂ (CloseTo 6e-6) [a, b, c] (mat3 XYZ_TO_SRGB_MAT (mat3 SRGB_TO_XYZ_MAT [a, b, c])) := by
  obtain ⟨p, hp, p0, p1⟩ := ha.real
  obtain ⟨q, hq, q0, q1⟩ := hb.real
  obtain ⟨r, hr, r0, r1⟩ := hc.real
  push_cast at p1 q1 r1
  have ap : |(p : ℝ)| ≤ 1 := by rw [abs_of_nonneg p0]; exact p1
  have aq : |(q : ℝ)| ≤ 1 := by rw [abs_of_nonneg q0]; exact q1
  have ar : |(r : ℝ)| ≤ 1 := by rw [abs_of_nonneg r0]; exact r1
  have f : ∀ {q1 q2 q3 : Rat} (Q1 Q2 Q3 : ℝ), _ := fun {q1 q2 q3} Q1 Q2 Q3 =>
    row_near (M := 1) (q1 := q1) (q2 := q2) (q3 := q3) Q1 Q2 Q3 (hx := Near.exact hp) (hy := Near.exact hq) (hz := Near.exact hr) (h1 := ap) (h2 := aq) (h3 := ar)
  set X : ℝ := 0.4124564 * (p : ℝ) + 0.3575761 * q + 0.1804375 * r with hX
  set Y : ℝ := 0.2126729 * (p : ℝ) + 0.7151522 * q + 0.0721750 * r with hY
  set Z : ℝ := 0.0193339 * (p : ℝ) + 0.1191920 * q + 0.9503041 * r with hZ
  have uX : |X| ≤ 1.09 := by rw [abs_of_nonneg (by positivity)]; linarith
  have uY : |Y| ≤ 1.09 := by rw [abs_of_nonneg (by positivity)]; linarith
  have uZ : |Z| ≤ 1.09 := by rw [abs_of_nonneg (by positivity)]; linarith
  obtain ⟨x, y, z, e, nx, ny, nz⟩ : ∃ x y z : F32, mat3 SRGB_TO_XYZ_MAT [a, b, c] = [x, y, z] ∧ Near x X 4e-7 ∧ Near y Y 4e-7 ∧ Near z Z 4e-7 := by
    refine ⟨_, _, _, rfl, ?_, ?_, ?_⟩
    · refine ((f 0.4124564 0.3575761 0.1804375 ?_ ?_ ?_ ?_ ?_ ?_ ?_ ?_ ?_ ?_).mono ?_).of_eq ?_
      all_goals norm_num [abs_of_pos, hX]
    · refine ((f 0.2126729 0.7151522 0.0721750 ?_ ?_ ?_ ?_ ?_ ?_ ?_ ?_ ?_ ?_).mono ?_).of_eq ?_
      all_goals norm_num [abs_of_pos, hY]
    · refine ((f 0.0193339 0.1191920 0.9503041 ?_ ?_ ?_ ?_ ?_ ?_ ?_ ?_ ?_ ?_).mono ?_).of_eq ?_
      all_goals norm_num [abs_of_pos, hZ]
  rw [e]
  have b1 : |3.2404542 * X + -1.5371385 * Y + -0.4985314 * Z - p| ≤ 1e-6 := by rw [hX, hY, hZ, abs_le]; constructor <;> linarith
  have b2 : |-0.9692660 * X + 1.8760108 * Y + 0.0415560 * Z - q| ≤ 1e-6 := by rw [hX, hY, hZ, abs_le]; constructor <;> linarith
  have b3 : |0.0556434 * X + -0.2040259 * Y + 1.0572252 * Z - r| ≤ 1e-6 := by rw [hX, hY, hZ, abs_le]; constructor <;> linarith
  refine .cons (.of (e' := 6e-6) hp ?_ (by norm_num)) (.cons (.of (e' := 6e-6) hq ?_ (by norm_num)) (.cons (.of (e' := 6e-6) hr ?_ (by norm_num)) .nil))
  · refine Near.trans (e := 5e-6) (((row_near (M := 1.09) 3.2404542 1.5371385 0.4985314 ?_ ?_ ?_ nx ny nz uX uY uZ ?_ ?_ ?_ ?_ ?_ ?_ ?_).mono ?_).of_eq ?_) b1 ?_
    all_goals norm_num [abs_of_pos]
  · refine Near.trans (e := 5e-6) (((row_near (M := 1.09) 0.9692660 1.8760108 0.0415560 ?_ ?_ ?_ nx ny nz uX uY uZ ?_ ?_ ?_ ?_ ?_ ?_ ?_).mono ?_).of_eq ?_) b2 ?_
    all_goals norm_num [abs_of_pos]
  · refine Near.trans (e := 5e-6) (((row_near (M := 1.09) 0.0556434 0.2040259 1.0572252 ?_ ?_ ?_ nx ny nz uX uY uZ ?_ ?_ ?_ ?_ ?_ ?_ ?_).mono ?_).of_eq ?_) b3 ?_
    all_goals norm_num [abs_of_pos]

/-- **C107** (f32) linear RGB in `[0, 1]` to XYZ and back: every channel within 6e-6, alpha untouched. -/
theorem c107_matrices (P : Profile) (img : Image F32) (h : img.WF) (hpos : 0 < img.info.width ∧ 0 < img.info.height)
    (h3 : img.info.colours = 3)
    (hu : ∀ x y, x < img.info.width → y < img.info.height → ∀ v ∈ img.info.colour (img.px x y), InUnit 1 v) :
    ∃ xyz out, srgbLinToXyz P img = .ok xyz ∧ xyzToSrgbLin P xyz = .ok out ∧ img.CloseTo 6e-6 out := by
  obtain ⟨o1, e1, h1⟩ := srgbLinToXyz_CA P h.CA hpos h3
  obtain ⟨o2, e2, h2⟩ := xyzToSrgbLin_CA P h1 hpos h3
  refine ⟨o1, o2, e1, e2, h2.wf, h2.info_eq, fun x y hx hy => ⟨h2.alpha x y hx hy, ?_⟩⟩
  rw [h2.colour x y hx hy]
  have hv := hu x y hx hy
  obtain ⟨a, b, c, e⟩ := three_of_lengthF (by rw [← h3]; exact img.info.colour_length (Image.px_length h hx hy))
  rw [e] at hv ⊢
  exact matrices_near (hv a (by simp)) (hv b (by simp)) (hv c (by simp))

/-- XYZ to CIELAB and back in f32, one colour -/
theorem lab_near (hp : PowAccurate) (white : White) {x y z : F32} (hx : InUnit 1.09 x) (hy : InUnit 1.09 y) (hz : InUnit 1.09 z) :
    List.Forall₂ (CloseTo 1.5e-5) [x, y, z] (xyzOfLab white (labOfXyz white [x, y, z])) := by
  obtain ⟨X, iX, X0, X1⟩ := hx.real
  obtain ⟨Y, iY, Y0, Y1⟩ := hy.real
  obtain ⟨Z, iZ, Z0, Z1⟩ := hz.real
  push_cast at X1 Y1 Z1
  obtain ⟨W1, W2, W3, w1, w2, w3⟩ := white_near white
  obtain ⟨p, hp', p0, p1, bp⟩ := channel_trip hp w1 ((Near.exact iX).mono (by norm_num)) X0 X1
  obtain ⟨q, hq', q0, q1, bq⟩ := channel_trip hp w2 ((Near.exact iY).mono (by norm_num)) Y0 Y1
  obtain ⟨r, hr', r0, r1, br⟩ := channel_trip hp w3 ((Near.exact iZ).mono (by norm_num)) Z0 Z1
  have lex : ∃ t : Rat, (num 116 *. xyzToLabFn (y *. num 100 /. (xyzTristimulusVals (F := F32) white).2.1) -. num 16).Is t := by
    have m : Near (num 116 *. xyzToLabFn (y *. num 100 /. (xyzTristimulusVals (F := F32) white).2.1)) (116 * (q : ℝ)) 8e-6 :=
      (Near.mul (B := 116) (C := 1.11) (Near.num (n := 116) (by decide)) (Near.exact hq') (by norm_num) (by rw [abs_of_nonneg (by linarith)]; exact q1)
        (by norm_num) (by norm_num) (by norm_num)).of_eq (by norm_num)
    obtain ⟨t, ht, -⟩ := Near.sub (B := 113) (e' := 1.5e-5) m (Near.num (n := 16) (by decide)) (by norm_num)
      (by push_cast; rw [abs_le]; constructor <;> linarith) (by norm_num) (by norm_num)
    exact ⟨t, ht⟩
  obtain ⟨t, ht⟩ := lex
  obtain ⟨n2, n1, n3⟩ := affine_near hp' hq' hr' p0 p1 q0 q1 r0 r1 ht ht
  exact .cons (.of iX (bp _ n1) (by norm_num)) (.cons (.of iY (bq _ n2) (by norm_num)) (.cons (.of iZ (br _ n3) (by norm_num)) .nil))

/-- **C107** (f32) XYZ in `[0, 1.09]` (all colours of the sRGB gamut) to CIELAB and back, for both reference whites: every
channel within 1.5e-5, alpha untouched. -/
theorem c107_lab (hp : PowAccurate) (P : Profile) (white : White) (img : Image F32) (h : img.WF)
    (hpos : 0 < img.info.width ∧ 0 < img.info.height) (h3 : img.info.colours = 3)
    (hu : ∀ x y, x < img.info.width → y < img.info.height → ∀ v ∈ img.info.colour (img.px x y), InUnit 1.09 v) :
    ∃ lab out, xyzToLab P img white = .ok lab ∧ labToXyz P lab white = .ok out ∧ img.CloseTo 1.5e-5 out := by
  obtain ⟨o1, e1, h1⟩ := xyzToLab_CA P white h.CA hpos h3
  obtain ⟨o2, e2, h2⟩ := labToXyz_CA P white h1 hpos h3
  refine ⟨o1, o2, e1, e2, h2.wf, h2.info_eq, fun x y hx hy => ⟨h2.alpha x y hx hy, ?_⟩⟩
  rw [h2.colour x y hx hy]
  have hv := hu x y hx hy
  obtain ⟨a, b, c, e⟩ := three_of_lengthF (by rw [← h3]; exact img.info.colour_length (Image.px_length h hx hy))
  rw [e] at hv ⊢
  exact lab_near hp white (hv a (by simp)) (hv b (by simp)) (hv c (by simp))

/-! ## C108 -/

/-- rounding a float near a number of the byte range to a byte -/
theorem near_nearest {x : F32} {r e : ℝ} (h : Near x r e) (h0 : 0 ≤ r) (h1 : r ≤ 255) :
    |((toU8 (FloatOps.round x)).toNat : ℝ) - r| ≤ 1 / 2 + e := by
  obtain ⟨a, ha, hr⟩ := h
  have e0 : 0 ≤ e := le_trans (abs_nonneg _) hr
  have hi := round_is ha (roundAwayQ_exact (by decide) (by decide) ha.exact)
  have hk := roundAwayQ_abs a
  rw [toU8_toNat hi, truncQ_int]
  generalize FP.roundAwayQ a = k at hk
  have hk' : |(k : ℝ) - a| ≤ 1 / 2 := by
    have : ((|(k : Rat) - a| : Rat) : ℝ) ≤ ((1 / 2 : Rat) : ℝ) := by exact_mod_cast hk
    simpa using this
  rw [abs_le] at hk' hr
  have c : (((max 0 (min 255 k)).toNat : ℤ) : ℝ) = ((max 0 (min 255 k) : ℤ) : ℝ) := by
    rw [Int.toNat_of_nonneg (by omega)]
  rw [Int.cast_natCast] at c
  rw [c]
  push_cast
  rw [abs_le]
  rcases le_total (k : ℝ) 255 with h255 | h255
  · rw [min_eq_right h255]
    rcases le_total (0 : ℝ) k with hk0 | hk0
    · rw [max_eq_right hk0]; constructor <;> linarith
    · rw [max_eq_left hk0]; constructor <;> linarith
  · rw [min_eq_left h255, max_eq_right (by norm_num)]; constructor <;> linarith

theorem gamma_byte_near (hp : PowAccurate) {g : F32} {γ : Rat} (hg : g.Is γ) (g0 : 0 < γ) (g1 : γ ≤ 4) {v max : UInt8} (hv : 1 ≤ v.toNat)
    (hm : v.toNat ≤ max.toNat) :
    Near (FloatOps.pow (ofU8 v /. ofU8 max) g *. ofU8 max) (gammaCurve γ max.toNat v.toNat) 3e-4 := by
  have mm := max.toNat_lt
  have v1 : (1 : ℝ) ≤ v.toNat := by exact_mod_cast hv
  have vm : (v.toNat : ℝ) ≤ max.toNat := by exact_mod_cast hm
  have m255 : (max.toNat : ℝ) ≤ 255 := by exact_mod_cast (by omega : max.toNat ≤ 255)
  have m0 : (0 : ℝ) < max.toNat := by linarith
  have γ0 : (0 : ℝ) < γ := by exact_mod_cast g0
  have γ1 : (γ : ℝ) ≤ 4 := by exact_mod_cast g1
  set r : ℝ := (v.toNat : ℝ) / max.toNat with hr
  have r1 : r ≤ 1 := by rw [hr, div_le_one m0]; exact vm
  have r0 : 1 / 255 ≤ r := by rw [hr, div_le_div_iff₀ (by norm_num) m0]; linarith
  have d : Near (ofU8 v /. ofU8 max : F32) r (6e-8 * r) :=
    Near.div (L := (max.toNat : ℝ)) (B := r) (Near.byte v) (Near.byte max) (le_refl _) m0 (by rw [abs_of_nonneg (by linarith)])
      (by linarith) (by norm_num; linarith) (by norm_num; linarith)
  have pw := Near.pow hp (S := 4) (κ := 2.5e-7) (Λ := (6 : ℕ)) d (Near.exact hg) (by norm_num; linarith) (by linarith) (by norm_num)
    γ0 (by linarith) (le_refl _) (log_bound (by linarith) (by norm_num) (by norm_num; linarith)) (by norm_num) (by norm_num)
  have P1 : r ^ (γ : ℝ) ≤ 1 := Real.rpow_le_one (by linarith) r1 γ0.le
  have P0 : 0 ≤ r ^ (γ : ℝ) := Real.rpow_nonneg (by linarith) _
  have pw' : Near (FloatOps.pow (ofU8 v /. ofU8 max) g) (r ^ (γ : ℝ)) 8e-7 := pw.mono (by nlinarith)
  exact Near.mul (B := 1) (C := 255) pw' (Near.byte max) (by rw [abs_of_nonneg P0]; exact P1) (by rw [abs_of_nonneg m0.le]; exact m255)
    (by norm_num) (by norm_num) (by norm_num)

theorem zero_div_byte {max : UInt8} (hm : 0 < max.toNat) : (ofU8 0 /. ofU8 max : F32) = num 0 := by
  have h1 : (ofU8 0 : F32).val = .fin 0 := ofNat_pos (n := 0) (by decide)
  have h2 : (ofU8 max : F32).val = .fin (max.toNat : Rat) := ofNat_pos (n := max.toNat) (by have := max.toNat_lt; omega)
  have h3 : (num 0 : F32).val = .fin 0 := ofNat_pos (n := 0) (by decide)
  refine Flt.ext ?_
  rw [h3]
  show FP.div f32 (ofU8 0 : F32).val (ofU8 max : F32).val = _
  rw [h1, h2]
  have : (max.toNat : Rat) ≠ 0 := by exact_mod_cast hm.ne'
  have s : ¬ ((max.toNat : Rat) < 0) := by simp
  simp [FP.div, FP.toQ?, FP.sign, FP.round, FP.zero, hm.ne', s]

/-- **C108** (f32) `gamma` with exponent `0 < g <= 4` and maximum `max` maps every colour byte `1 <= v <= max` to a byte within
0.5003 of the exact curve `(v/max)^g * max` (so to the nearest integer unless the curve comes within 0.0003 of a tie), never
exceeds `max` there, fixes `max` exactly, fixes 0 when the platform's `powf(0, g)` is 0, and keeps alpha. -/
theorem c108_gamma (hp : PowAccurate) (P : Profile) (img : Image UInt8) (h : img.WF)
    (hc : img.info.alpha = true → 0 < img.info.channels) (g : F32) (γ : Rat) (hg : g.Is γ) (g0 : 0 < γ) (g1 : γ ≤ 4)
    (max : UInt8) (hm : 0 < max) :
    ∃ out, ∃ m : UInt8 → UInt8, gammaOp P img g max = .ok out ∧
      out.Shows img.info (fun x y => (img.info.colour (img.px x y)).map m ++ img.info.alphaOf (img.px x y)) ∧
      (∀ v, 1 ≤ v → v ≤ max → |((m v).toNat : ℝ) - gammaCurve γ max.toNat v.toNat| ≤ 0.5003) ∧
      (∀ v, 1 ≤ v → v ≤ max → m v ≤ max) ∧ m max = max ∧
      (FloatOps.pow (num 0) g = num 0 → m 0 = 0) := by
  have hmn : 0 < max.toNat := UInt8.lt_iff_toNat_lt.1 hm
  have hm0 : (0 : ℝ) < max.toNat := by exact_mod_cast hmn
  have m255 : (max.toNat : ℝ) ≤ 255 := by exact_mod_cast (by have := max.toNat_lt; omega : max.toNat ≤ 255)
  have γ0 : (0 : ℝ) ≤ γ := by exact_mod_cast g0.le
  obtain ⟨out, e, ho⟩ := Image.mapChannelsIfAlpha_colour P h hc
    (f := fun c => .ok (toU8 (FloatOps.round (FloatOps.pow (ofU8 (F := F32) c /. ofU8 max) g *. ofU8 max))))
    (g := fun a => .ok a) (g' := id) (fun _ _ => rfl) (fun _ _ => rfl)
  have le : ∀ v : UInt8, v ≤ max → gammaCurve γ max.toNat v.toNat ≤ max.toNat := fun v hv => by
    have := gammaCurve_mono (g := γ) γ0 hm0.le (Nat.cast_nonneg v.toNat) (w := (max.toNat : ℝ))
      (by exact_mod_cast UInt8.le_iff_toNat_le.1 hv)
    rwa [gammaCurve_max hm0] at this
  have near : ∀ v : UInt8, 1 ≤ v → v ≤ max →
      |((toU8 (FloatOps.round (FloatOps.pow (ofU8 (F := F32) v /. ofU8 max) g *. ofU8 max))).toNat : ℝ) - gammaCurve γ max.toNat v.toNat| ≤ 0.5003 := by
    intro v h1 h2
    have := near_nearest (gamma_byte_near hp hg g0 g1 (UInt8.le_iff_toNat_le.1 h1) (UInt8.le_iff_toNat_le.1 h2))
      (gammaCurve_nonneg hm0.le (Nat.cast_nonneg _)) ((le v h2).trans m255)
    norm_num at this ⊢
    exact this
  have up : ∀ v : UInt8, 1 ≤ v → v ≤ max →
      toU8 (FloatOps.round (FloatOps.pow (ofU8 (F := F32) v /. ofU8 max) g *. ofU8 max)) ≤ max := fun v h1 h2 => by
    have a := (abs_le.1 (near v h1 h2)).2
    have b := le v h2
    rw [UInt8.le_iff_toNat_le]
    have : ((toU8 (FloatOps.round (FloatOps.pow (ofU8 (F := F32) v /. ofU8 max) g *. ofU8 max))).toNat : ℝ) < ((max.toNat + 1 : ℕ) : ℝ) := by
      push_cast; linarith
    exact Nat.lt_succ_iff.1 (by exact_mod_cast this)
  refine ⟨out, _, ?_, ho.congr fun x y _ _ => by rw [List.map_id], near, up, ?_, fun hz => ?_⟩
  · unfold gammaOp
    have z' : (ofU8 0 : F32).Is 0 := by simpa using ofU8_is 0
    have c1 : ¬ (g <. (ofU8 0 : F32)) = true := by rw [lt_is hg z', decide_eq_true_eq]; linarith
    unfold checkNonNeg
    show ((if (g <. (ofU8 0 : F32)) = true then invalidArg else .ok ()) >>= fun _ => _) = _
    rw [if_neg c1, ok_bind]
    exact e
  · have h1 : (1 : UInt8) ≤ max := by rw [UInt8.le_iff_toNat_le]; exact hmn
    have a := (abs_le.1 (near max h1 (UInt8.le_iff_toNat_le.2 (Nat.le_refl _)))).1
    have u := UInt8.le_iff_toNat_le.1 (up max h1 (UInt8.le_iff_toNat_le.2 (Nat.le_refl _)))
    rw [gammaCurve_max hm0] at a
    rw [← UInt8.toNat_inj]
    have : (max.toNat : ℝ) < (((toU8 (FloatOps.round (FloatOps.pow (ofU8 (F := F32) max /. ofU8 max) g *. ofU8 max))).toNat + 1 : ℕ) : ℝ) := by
      push_cast; linarith
    have : max.toNat < (toU8 (FloatOps.round (FloatOps.pow (ofU8 (F := F32) max /. ofU8 max) g *. ofU8 max))).toNat + 1 := by
      exact_mod_cast this
    exact Nat.le_antisymm u (by omega)
  · show toU8 (FloatOps.round (FloatOps.pow (ofU8 (F := F32) 0 /. ofU8 max) g *. ofU8 max)) = 0
    rw [zero_div_byte hmn, hz]
    have r0 : f32.rnd 0 = 0 := rndQ_zero _
    have z : (num 0 *. ofU8 max : F32).Is 0 := by
      have := mul_is (f := f32) (num32 (n := 0) (by decide)) (ofU8_is max) (by norm_num [r0]; exact pow2_pos _)
      simpa [r0] using this
    have zr := round_is z (by rw [show FP.roundAwayQ 0 = 0 from by simpa using roundAwayQ_int 0]; exact_mod_cast Fmt.Exact.zero)
    rw [show FP.roundAwayQ 0 = 0 from by simpa using roundAwayQ_int 0] at zr
    have := toU8_of_is (n := 0) (by simpa using zr) (by decide)
    simpa using this
end

example (P : Profile) : letI := accurateLibm
    ∃ out, ∃ m : UInt8 → UInt8, gammaOp P demoA (num 2 : F32) 255 = .ok out ∧ m 255 = 255 ∧
      |((m 128).toNat : ℝ) - gammaCurve 2 255 128| ≤ 0.5003 := by
  letI := accurateLibm
  obtain ⟨out, m, e, -, h1, -, h2, -⟩ := c108_gamma accurateLibm_spec P demoA demoA_WF (fun _ => by decide) (num 2) 2
    (by simpa using num32 (n := 2) (by decide)) (by norm_num) (by norm_num) 255 (by decide)
  refine ⟨out, m, e, h2, ?_⟩
  have := h1 128 (by decide) (by decide)
  norm_num at this ⊢
  exact this

example (P : Profile) : letI := accurateLibm
    ∃ lab out, xyzToLab P (rgba1 (num 0) (num 1) (num 1) (num 7) : Image F32) .d50 = .ok lab ∧ labToXyz P lab .d50 = .ok out ∧
      (rgba1 (num 0) (num 1) (num 1) (num 7) : Image F32).CloseTo 1.5e-5 out := by
  letI := accurateLibm
  refine c107_lab accurateLibm_spec P .d50 _ (rgba1_WF ..) (by dims) rfl fun x y hx hy v hv => ?_
  have hx' : x < 1 := hx
  have hy' : y < 1 := hy
  obtain rfl : x = 0 := by omega
  obtain rfl : y = 0 := by omega
  have hv' : v ∈ ([num 0, num 1, num 1] : List F32) := hv
  have z : InUnit 1.09 (num 0 : F32) := ⟨0, by simpa using num32 (n := 0) (by decide), by norm_num, by norm_num⟩
  have o : InUnit 1.09 (num 1 : F32) := ⟨1, by simpa using num32 (n := 1) (by decide), by norm_num, by norm_num⟩
  simp only [List.mem_cons, List.not_mem_nil, or_false] at hv'
  rcases hv' with rfl | rfl | rfl
  · exact z
  · exact o
  · exact o
end Imgproc

import Verif.Props.Lab2
import Verif.Props.Equalize
import Verif.Props.Bilateral2
/-! Property C97: what gamma correction computes in exact arithmetic. -/
namespace Imgproc
open FloatOps

/-- spec: the gamma curve through `(0, 0)` and `(max, max)` -/
noncomputable def gammaCurve (g max v : ℝ) : ℝ := (v / max) ^ g * max

theorem gammaCurve_nonneg {g max v : ℝ} (hm : 0 ≤ max) (hv : 0 ≤ v) : 0 ≤ gammaCurve g max v :=
  mul_nonneg (Real.rpow_nonneg (div_nonneg hv hm) g) hm

theorem gammaCurve_mono {g max v w : ℝ} (hg : 0 ≤ g) (hm : 0 ≤ max) (hv : 0 ≤ v) (h : v ≤ w) :
    gammaCurve g max v ≤ gammaCurve g max w :=
  mul_le_mul_of_nonneg_right (Real.rpow_le_rpow (div_nonneg hv hm) (div_le_div_of_nonneg_right h hm) hg) hm

theorem gammaCurve_max {g max : ℝ} (hm : 0 < max) : gammaCurve g max max = max := by
  unfold gammaCurve; rw [div_self hm.ne', Real.one_rpow, one_mul]

theorem gammaCurve_one {max v : ℝ} (hm : 0 < max) : gammaCurve 1 max v = v := by
  unfold gammaCurve; rw [Real.rpow_one, div_mul_cancel₀ _ hm.ne']

theorem gammaCurve_anti {g g' max v : ℝ} (hg : 0 ≤ g) (h : g ≤ g') (hm : 0 < max) (hv : 0 ≤ v) (hvm : v ≤ max) :
    gammaCurve g' max v ≤ gammaCurve g max v := by
  refine mul_le_mul_of_nonneg_right ?_ hm.le
  rcases hv.eq_or_lt with rfl | hv
  · rw [zero_div]
    rcases hg.eq_or_lt with rfl | hg
    · rcases h.eq_or_lt with rfl | h
      · exact le_refl _
      · rw [Real.zero_rpow h.ne', Real.rpow_zero]; norm_num
    · rw [Real.zero_rpow hg.ne', Real.zero_rpow (by linarith)]
  · exact Real.rpow_le_rpow_of_exponent_ge (div_pos hv hm) ((div_le_one hm).2 hvm) h

theorem toU8_real_toNat (k : ℤ) : (toU8 (k : ℝ)).toNat = (max 0 (min 255 k)).toNat := by
  unfold toU8
  rw [Ideal.toInt_eq]
  have : realTrunc (k : ℝ) = k := by unfold realTrunc; split <;> simp
  rw [this, UInt8.toNat_ofNat']
  omega

theorem realRound_int (k : ℤ) : realRound (k : ℝ) = k := by
  unfold realRound
  split
  · rw [Int.floor_eq_iff]; constructor <;> linarith
  · rw [Int.ceil_eq_iff]; constructor <;> linarith

theorem toU8_round_mono {x y : ℝ} (h : x ≤ y) : toU8 (realRound x : ℝ) ≤ toU8 (realRound y : ℝ) := by
  rw [UInt8.le_iff_toNat_le, toU8_real_toNat, toU8_real_toNat]
  have := realRound_mono h
  omega

theorem toU8_round_nat (v : UInt8) : toU8 ((realRound (v.toNat : ℝ) : ℤ) : ℝ) = v := by
  rw [← UInt8.toNat_inj, toU8_real_toNat]
  have := realRound_int (v.toNat : ℤ)
  rw [Int.cast_natCast] at this
  rw [this]
  have := v.toNat_lt
  omega

/-- the byte the code computes is the nearest integer to the curve, capped at 255 -/
theorem toU8_round_near {x : ℝ} (h0 : 0 ≤ x) (h1 : x ≤ 255) : |((toU8 (realRound x : ℝ)).toNat : ℝ) - x| ≤ 1 / 2 := by
  have lo : 0 ≤ realRound x := by
    have := realRound_mono h0
    rwa [show realRound 0 = 0 by simpa using realRound_int 0] at this
  have hi : realRound x ≤ 255 := by
    have := realRound_mono h1
    rwa [show realRound 255 = 255 by simpa using realRound_int 255] at this
  have e : (((toU8 (realRound x : ℝ)).toNat : ℤ) : ℝ) = realRound x := by
    rw [toU8_real_toNat]; congr 1; omega
  rw [Int.cast_natCast] at e
  rw [e]
  unfold realRound
  rw [if_pos h0, abs_le]
  have a := Int.floor_le (x + 1 / 2)
  have b := Int.lt_floor_add_one (x + 1 / 2)
  constructor <;> linarith

/-- the byte map of `gamma` -/
noncomputable def gammaByte (g : ℝ) (max v : UInt8) : UInt8 :=
  toU8 (realRound (gammaCurve g max.toNat v.toNat) : ℝ)

/-- **C97** (exact arithmetic) `gamma` with exponent `g >= 0` maps every colour byte `v` through one map of bytes and keeps
the header and the alpha channel; for a maximum `max > 0` the map sends every `v <= max` to the integer nearest to the curve
`(v/max)^g * max`, and saturates at 255 where the curve (for `v > max`) leaves the byte range. -/
theorem c97_value (P : Profile) (img : Image UInt8) (h : img.WF) (hc : img.info.alpha = true → 0 < img.info.channels)
    (g : ℝ) (hg : 0 ≤ g) (max : UInt8) (hm : 0 < max) :
    ∃ out, ∃ m : UInt8 → UInt8, gammaOp P img g max = .ok out ∧
      out.Shows img.info (fun x y => (img.info.colour (img.px x y)).map m ++ img.info.alphaOf (img.px x y)) ∧
      (∀ v, m v = gammaByte g max v) ∧
      (∀ v, gammaCurve g max.toNat v.toNat ≤ 255 → |((m v).toNat : ℝ) - gammaCurve g max.toNat v.toNat| ≤ 1 / 2) ∧
      (∀ v, 255 ≤ gammaCurve g max.toNat v.toNat → m v = 255) ∧
      (∀ v, v ≤ max → gammaCurve g max.toNat v.toNat ≤ max.toNat) := by
  have hm0 : (0 : ℝ) < max.toNat := by exact_mod_cast UInt8.lt_iff_toNat_lt.1 hm
  obtain ⟨out, e, ho⟩ := Image.mapChannelsIfAlpha_colour P h hc
    (f := fun c => .ok (toU8 (FloatOps.round (FloatOps.pow (ofU8 (F := ℝ) c /. ofU8 max) g *. ofU8 max))))
    (g := fun a => .ok a) (g' := id) (fun _ _ => rfl) (fun _ _ => rfl)
  have hb : ∀ v, toU8 (FloatOps.round (FloatOps.pow (ofU8 (F := ℝ) v /. ofU8 max) g *. ofU8 max)) = gammaByte g max v := by
    intro v
    unfold gammaByte gammaCurve
    simp only [Ideal.ofU8_eq, Ideal.div_eq, Ideal.pow_eq, Ideal.mul_eq, Ideal.round_eq]
  refine ⟨out, gammaByte g max, ?_, ?_, fun _ => rfl, fun v hv => ?_, fun v hv => ?_, fun v hv => ?_⟩
  · unfold gammaOp
    rw [nonNeg_real hg, ok_bind]
    exact e
  · refine ho.congr fun x y _ _ => ?_
    simp only [hb, List.map_id]
  · exact toU8_round_near (gammaCurve_nonneg hm0.le (Nat.cast_nonneg _)) hv
  · rw [← UInt8.toNat_inj]
    unfold gammaByte
    rw [toU8_real_toNat]
    have := realRound_mono hv
    rw [show realRound 255 = 255 by simpa using realRound_int 255] at this
    show _ = 255
    omega
  · have := gammaCurve_mono (g := g) hg hm0.le (Nat.cast_nonneg v.toNat) (w := (max.toNat : ℝ))
      (by exact_mod_cast UInt8.le_iff_toNat_le.1 hv)
    rwa [gammaCurve_max hm0] at this

/-- **C97** the byte map is increasing, fixes `max` (and 0 unless the exponent is 0), keeps values up to `max` up to `max`,
is the identity for exponent 1, and a larger exponent darkens. -/
theorem c97_curve (g : ℝ) (hg : 0 ≤ g) (max : UInt8) (hm : 0 < max) :
    (∀ v w : UInt8, v ≤ w → gammaByte g max v ≤ gammaByte g max w) ∧
    gammaByte g max max = max ∧
    (0 < g → gammaByte g max 0 = 0) ∧
    (∀ v ≤ max, gammaByte g max v ≤ max) ∧
    (∀ v, gammaByte 1 max v = v) ∧
    (∀ v ≤ max, gammaByte 0 max v = max) ∧
    (∀ g', g ≤ g' → ∀ v ≤ max, gammaByte g' max v ≤ gammaByte g max v) := by
  have hm0 : (0 : ℝ) < max.toNat := by exact_mod_cast UInt8.lt_iff_toNat_lt.1 hm
  have mono : ∀ v w : UInt8, v ≤ w → gammaByte g max v ≤ gammaByte g max w := fun v w h =>
    toU8_round_mono (gammaCurve_mono hg hm0.le (Nat.cast_nonneg _) (by exact_mod_cast UInt8.le_iff_toNat_le.1 h))
  have fix : gammaByte g max max = max := by
    unfold gammaByte; rw [gammaCurve_max hm0]; exact toU8_round_nat max
  refine ⟨mono, fix, fun h => ?_, fun v hv => ?_, fun v => ?_, fun v hv => ?_, fun g' h v hv => ?_⟩
  · unfold gammaByte gammaCurve
    have : ((0 : UInt8).toNat : ℝ) / max.toNat = 0 := by simp
    rw [this, Real.zero_rpow h.ne', zero_mul]
    simpa using toU8_round_nat 0
  · have := mono v max hv; rwa [fix] at this
  · unfold gammaByte; rw [gammaCurve_one hm0]; exact toU8_round_nat v
  · unfold gammaByte gammaCurve
    rw [Real.rpow_zero, one_mul]; exact toU8_round_nat max
  · exact toU8_round_mono (gammaCurve_anti hg h hm0 (Nat.cast_nonneg _) (by exact_mod_cast UInt8.le_iff_toNat_le.1 hv))

/-- **C97** hence `gamma` with exponent 1 returns the image (whatever the maximum), and with exponent 0 makes every colour
byte `max` on images whose values are at most `max`. -/
theorem c97_one (P : Profile) (img : Image UInt8) (h : img.WF) (hc : img.info.alpha = true → 0 < img.info.channels)
    (max : UInt8) (hm : 0 < max) : gammaOp P img (1 : ℝ) max = .ok img := by
  obtain ⟨out, m, e, ho, hv, -⟩ := c97_value P img h hc 1 zero_le_one max hm
  rw [e]
  refine congrArg Except.ok (Image.Shows.ext ho (h.shows.congr fun x y _ _ => ?_))
  have : m = id := by funext v; rw [hv]; exact (c97_curve 1 zero_le_one max hm).2.2.2.2.1 v
  rw [this, List.map_id]
  exact (ImageInfo.colour_append _ _).symm

/-- squaring with maximum 200 sends 100 to 50; the square root with maximum 100 sends 25 to 50 -/
example : gammaByte 2 200 100 = 50 ∧ gammaByte (1 / 2) 100 25 = 50 := by
  have a : gammaCurve 2 200 100 = (50 : ℕ) := by unfold gammaCurve; rw [show (2 : ℝ) = (2 : ℕ) by norm_num, Real.rpow_natCast]; norm_num
  have b : gammaCurve (1 / 2) 100 25 = (50 : ℕ) := by
    unfold gammaCurve
    rw [← Real.sqrt_eq_rpow, show (25 / 100 : ℝ) = (1 / 2) ^ 2 by norm_num, Real.sqrt_sq (by norm_num)]; norm_num
  constructor
  · have := toU8_round_nat 50
    unfold gammaByte
    rw [show ((200 : UInt8).toNat : ℝ) = 200 by rw [show (200 : UInt8).toNat = 200 from rfl]; norm_num, show ((100 : UInt8).toNat : ℝ) = 100 by rw [show (100 : UInt8).toNat = 100 from rfl]; norm_num, a]; exact this
  · have := toU8_round_nat 50
    unfold gammaByte
    rw [show ((100 : UInt8).toNat : ℝ) = 100 by rw [show (100 : UInt8).toNat = 100 from rfl]; norm_num, show ((25 : UInt8).toNat : ℝ) = 25 by rw [show (25 : UInt8).toNat = 25 from rfl]; norm_num, b]; exact this

/-- the hypotheses are met by a two-channel image with alpha: the square-law curve with maximum 200 -/
example (P : Profile) : ∃ out, gammaOp P demoA (2 : ℝ) 200 = .ok out ∧ out.info = demoA.info := by
  obtain ⟨out, m, e, h, -⟩ := c97_value P demoA demoA_WF (fun _ => by decide) 2 (by norm_num) 200 (by decide)
  exact ⟨out, e, h.info_eq⟩
end Imgproc

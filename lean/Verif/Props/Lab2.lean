import Verif.Props.Lab
import Verif.Proofs.RealSum
import Mathlib.Analysis.Convex.SpecificFunctions.Basic
/-! Properties C87 and C88: in exact arithmetic (`F := ℝ`), un-linearizing undoes linearizing, and going through XYZ or
CIELAB and back loses at most one grey level per channel (but not always zero: the conversion back truncates). -/
namespace Imgproc
open FloatOps

theorem toU8_real {x : ℝ} {k : ℕ} (hk : k ≤ 255) (h1 : (k : ℝ) ≤ x) (h2 : x < k + 1) :
    toU8 x = UInt8.ofNat k := by
  unfold toU8
  rw [Ideal.toInt_eq]
  have hx : 0 ≤ x := le_trans (Nat.cast_nonneg k) h1
  have hf : ⌊x⌋ = (k : ℤ) := by rw [Int.floor_eq_iff]; exact ⟨by exact_mod_cast h1, by exact_mod_cast h2⟩
  unfold realTrunc
  rw [if_pos hx, hf]
  have : (max (0 : ℤ) (min 255 (k : ℤ))).toNat = k := by omega
  rw [this]

theorem toU8_real_zero {x : ℝ} (h : x < 1) : toU8 x = 0 := by
  rcases le_or_gt 0 x with h0 | h0
  · have := toU8_real (k := 0) (x := x) (by decide) (by simpa using h0) (by simpa using h)
    simpa using this
  · unfold toU8
    rw [Ideal.toInt_eq]
    unfold realTrunc
    rw [if_neg (not_le.2 h0)]
    have : ⌈x⌉ ≤ 0 := by rw [Int.ceil_le]; exact_mod_cast h0.le
    have : (max (0 : ℤ) (min 255 ⌈x⌉)).toNat = 0 := by omega
    rw [this]; rfl

/-- spec: the sRGB transfer curve used by the library, on a byte value, in exact arithmetic -/
noncomputable def linearValue (v : ℕ) : ℝ :=
  if v ≤ 10 then (v : ℝ) / 3294 else (((v : ℝ) + 14.025) / 269.025) ^ (2.2 : ℝ)

theorem linearizeEntry_real (v : UInt8) : linearizeEntry (F := ℝ) v = linearValue v.toNat := by
  unfold linearizeEntry linearValue
  simp only [Ideal.ofU8_eq, Ideal.num_eq, Ideal.le_eq, Ideal.div_eq, Ideal.add_eq, Ideal.lit_eq, Ideal.pow_eq, GAMMA]
  have : ((v.toNat : ℝ) ≤ ((10 : ℤ) : ℝ)) ↔ v.toNat ≤ 10 := by
    rw [show ((10 : ℤ) : ℝ) = ((10 : ℕ) : ℝ) by norm_num, Nat.cast_le]
  rw [if_congr this rfl rfl]
  norm_num

theorem unlinearizeEntry_real (n : ℝ) : unlinearizeEntry n =
    if n ≤ 0.0031308 then toU8 (n * 3294.6 : ℝ) else toU8 (269.025 * n ^ (1 / 2.2 : ℝ) - 14.025 : ℝ) := by
  unfold unlinearizeEntry
  simp only [Ideal.num_eq, Ideal.le_eq, Ideal.div_eq, Ideal.sub_eq, Ideal.mul_eq, Ideal.lit_eq, Ideal.pow_eq, GAMMA]
  norm_num

/-- position of a level on the power part of the curve -/
noncomputable def lev (v : ℝ) : ℝ := (v + 14.025) / 269.025

theorem lev_root {v : ℝ} (h : 0 ≤ v) : 269.025 * ((lev v) ^ (2.2 : ℝ)) ^ (1 / 2.2 : ℝ) - 14.025 = v := by
  have h0 : 0 ≤ lev v := by unfold lev; positivity
  rw [← Real.rpow_mul h0]
  norm_num
  unfold lev; ring

theorem lev_gap {v : ℝ} (h : 10 ≤ v) (h2 : v ≤ 255) : (lev v) ^ (2.2 : ℝ) + 1e-5 ≤ (lev (v + 1)) ^ (2.2 : ℝ) := by
  have s0 : 0.089 ≤ lev v := by unfold lev; rw [le_div_iff₀ (by norm_num)]; linarith
  have s1 : lev v ≤ 1 := by unfold lev; rw [div_le_one (by norm_num)]; linarith
  have e : lev (v + 1) = lev v * (1 + (1 / 269.025) / lev v) := by
    have : lev v ≠ 0 := by linarith
    field_simp
    unfold lev; ring
  rw [e, Real.mul_rpow (by linarith) (by positivity)]
  have b : 1 + 2.2 * ((1 / 269.025) / lev v) ≤ (1 + (1 / 269.025) / lev v) ^ (2.2 : ℝ) := by
    refine one_add_mul_self_le_rpow_one_add ?_ (by norm_num)
    have : 0 ≤ (1 / 269.025) / lev v := by positivity
    linarith
  have p0 : 0 ≤ lev v ^ (2.2 : ℝ) := by positivity
  have p1 : lev v * lev v * lev v ≤ lev v ^ (2.2 : ℝ) := by
    have := Real.rpow_le_rpow_of_exponent_ge (x := lev v) (by linarith) s1 (show (2.2 : ℝ) ≤ ((3 : ℕ) : ℝ) by norm_num)
    rw [Real.rpow_natCast] at this
    calc _ = lev v ^ 3 := by ring
      _ ≤ _ := this
  have c : 1e-5 ≤ lev v ^ (2.2 : ℝ) * (2.2 * ((1 / 269.025) / lev v)) := by
    have : lev v * lev v * lev v * (2.2 * ((1 / 269.025) / lev v)) ≤ lev v ^ (2.2 : ℝ) * (2.2 * ((1 / 269.025) / lev v)) :=
      mul_le_mul_of_nonneg_right p1 (by positivity)
    refine le_trans ?_ this
    have e2 : lev v * lev v * lev v * (2.2 * ((1 / 269.025) / lev v)) = lev v * lev v * (2.2 / 269.025) := by
      field_simp
    rw [e2]
    nlinarith
  nlinarith [mul_le_mul_of_nonneg_left b p0]

/-- the branch threshold lies between levels 10 and 11 -/
theorem lev_eleven : 0.0031308 + 1e-5 < (lev 11) ^ (2.2 : ℝ) := by
  have h0 : (0 : ℝ) ≤ lev 11 := by unfold lev; norm_num
  refine lt_of_pow_lt_pow_left₀ 5 (by positivity) ?_
  rw [← Real.rpow_natCast ((lev 11) ^ (2.2 : ℝ)), ← Real.rpow_mul h0,
    show (2.2 : ℝ) * ((5 : ℕ) : ℝ) = ((11 : ℕ) : ℝ) by norm_num, Real.rpow_natCast]
  unfold lev
  norm_num

theorem lev_mono {a b : ℝ} (h0 : 0 ≤ a) (h : a ≤ b) : (lev a) ^ (2.2 : ℝ) ≤ (lev b) ^ (2.2 : ℝ) :=
  Real.rpow_le_rpow (by unfold lev; positivity) (by unfold lev; gcongr) (by norm_num)

/-- the power branch applied between two levels -/
theorem root_between {n v : ℝ} (h0 : 0 ≤ v) (h1 : (lev v) ^ (2.2 : ℝ) ≤ n) (h2 : n < (lev (v + 1)) ^ (2.2 : ℝ)) :
    v ≤ 269.025 * n ^ (1 / 2.2 : ℝ) - 14.025 ∧ 269.025 * n ^ (1 / 2.2 : ℝ) - 14.025 < v + 1 := by
  have l0 : 0 ≤ (lev v) ^ (2.2 : ℝ) := Real.rpow_nonneg (by unfold lev; positivity) _
  have a := Real.rpow_le_rpow l0 h1 (show (0 : ℝ) ≤ 1 / 2.2 by norm_num)
  have b := Real.rpow_lt_rpow (l0.trans h1) h2 (show (0 : ℝ) < 1 / 2.2 by norm_num)
  have e1 := lev_root h0
  have e2 := lev_root (v := v + 1) (by linarith)
  constructor <;> linarith

theorem linearValue_hi {v : ℕ} (h : 11 ≤ v) : linearValue v = (lev v) ^ (2.2 : ℝ) := by
  unfold linearValue lev
  rw [if_neg (by omega)]

/-- what comes back for a value within `1e-6` of a level: the level, or the one below it when the value is smaller -/
theorem unlinearize_dark {v : ℕ} (hv : v ≤ 10) {n : ℝ} (h : |n - linearValue v| ≤ 1e-6) :
    unlinearizeEntry n = UInt8.ofNat v ∨ 0 < v ∧ n < linearValue v ∧ unlinearizeEntry n = UInt8.ofNat (v - 1) := by
  rw [abs_le] at h
  have e : linearValue v = (v : ℝ) / 3294 := by unfold linearValue; rw [if_pos hv]
  rw [e] at h ⊢
  have hv' : (v : ℝ) ≤ 10 := by exact_mod_cast hv
  have hv0 : (0 : ℝ) ≤ v := Nat.cast_nonneg v
  have e' : (v : ℝ) / 3294 * 3294.6 = v + v * (0.6 / 3294) := by ring
  rw [unlinearizeEntry_real, if_pos (by linarith)]
  rcases le_or_gt (v : ℝ) (n * 3294.6) with hc | hc
  · exact .inl (toU8_real (by omega) hc (by linarith))
  · rcases Nat.eq_zero_or_pos v with rfl | hp
    · left
      rw [toU8_real_zero (by simp only [Nat.cast_zero] at hc; linarith)]; rfl
    · right
      refine ⟨hp, by linarith [mul_nonneg hv0 (show (0 : ℝ) ≤ 0.6 / 3294 by norm_num)], toU8_real (by omega) ?_ ?_⟩
      · rw [Nat.cast_sub hp]; push_cast; linarith
      · rw [Nat.cast_sub hp]; push_cast; linarith

theorem unlinearize_bright {v : ℕ} (hv : 11 ≤ v) (hv' : v ≤ 255) {n : ℝ} (h : |n - linearValue v| ≤ 1e-6) :
    linearValue v ≤ n ∧ unlinearizeEntry n = UInt8.ofNat v ∨
      n < linearValue v ∧ unlinearizeEntry n = UInt8.ofNat (v - 1) := by
  rw [abs_le] at h
  rw [linearValue_hi hv] at h ⊢
  have h11 : (11 : ℝ) ≤ v := by exact_mod_cast hv
  have h255 : (v : ℝ) ≤ 255 := by exact_mod_cast hv'
  have t := lev_eleven
  have m := lev_mono (by norm_num) h11
  rw [unlinearizeEntry_real, if_neg (by linarith)]
  rcases le_or_gt ((lev v) ^ (2.2 : ℝ)) n with hc | hc
  · left
    obtain ⟨a, b⟩ := root_between (by linarith) hc (by
      have := lev_gap (v := v) (by linarith) h255; linarith)
    exact ⟨hc, toU8_real hv' a b⟩
  · right
    have e1 : (v : ℝ) - 1 + 1 = v := by ring
    obtain ⟨a, b⟩ := root_between (n := n) (v := (v : ℝ) - 1) (by linarith) (by
      have := lev_gap (v := (v : ℝ) - 1) (by linarith) (by linarith)
      rw [e1] at this; linarith) (by rw [e1]; exact hc)
    refine ⟨hc, toU8_real (by omega) ?_ ?_⟩
    · rw [Nat.cast_sub (by omega)]; exact_mod_cast a
    · rw [Nat.cast_sub (by omega)]; push_cast; linarith

theorem unlinearize_near (v : UInt8) {n : ℝ} (h : |n - linearValue v.toNat| ≤ 1e-6) :
    unlinearizeEntry n = v ∨ (unlinearizeEntry n).toNat + 1 = v.toNat := by
  have hv := v.toNat_lt
  have e : UInt8.ofNat v.toNat = v := by simp
  have e1 : 0 < v.toNat → (UInt8.ofNat (v.toNat - 1)).toNat + 1 = v.toNat := fun hp => by
    rw [UInt8.toNat_ofNat']; omega
  rcases Nat.lt_or_ge 10 v.toNat with hc | hc
  · rcases unlinearize_bright hc (by omega) h with ⟨-, h⟩ | ⟨-, h⟩
    · left; rw [h, e]
    · right; rw [h, e1 (by omega)]
  · rcases unlinearize_dark hc h with h | ⟨hp, -, h⟩
    · left; rw [h, e]
    · right; rw [h, e1 hp]

theorem unlinearize_exact (v : UInt8) : unlinearizeEntry (linearValue v.toNat) = v := by
  have hv := v.toNat_lt
  have e : UInt8.ofNat v.toNat = v := by simp
  have h : |linearValue v.toNat - linearValue v.toNat| ≤ 1e-6 := by simp; norm_num
  rcases Nat.lt_or_ge 10 v.toNat with hc | hc
  · rcases unlinearize_bright hc (by omega) h with ⟨-, h⟩ | ⟨h, -⟩
    · rw [h, e]
    · exact absurd h (lt_irrefl _)
  · rcases unlinearize_dark hc h with h | ⟨-, h, -⟩
    · rw [h, e]
    · exact absurd h (lt_irrefl _)

theorem alpha_back_real (l : List UInt8) :
    (l.map (ofU8 (F := ℝ))).map (fun a => toU8 (FloatOps.round a)) = l := by
  rw [List.map_map]
  have : (fun c : ℝ => toU8 (FloatOps.round c)) ∘ (fun v => ofU8 v) = id := by
    funext v
    have hr : realRound (v.toNat : ℝ) = v.toNat := by
      unfold realRound
      rw [if_pos (Nat.cast_nonneg _), Int.floor_eq_iff]
      constructor <;> push_cast <;> linarith
    have hv := v.toNat_lt
    show toU8 (FloatOps.round (ofU8 v : ℝ)) = v
    rw [Ideal.ofU8_eq, Ideal.round_eq, hr]
    rw [toU8_real (k := v.toNat) (by omega) (by push_cast; exact le_refl _) (by push_cast; linarith)]
    simp
  rw [this, List.map_id]

/-! ## C87 -/

/-- **C87** (the curve) black is 0, white is 1, and a larger byte is strictly brighter. -/
theorem c87_curve : linearValue 0 = 0 ∧ linearValue 255 = 1 ∧
    ∀ v w : ℕ, v < w → w ≤ 255 → linearValue v < linearValue w := by
  refine ⟨by simp [linearValue], by rw [linearValue_hi (by decide)]; unfold lev; norm_num, fun v w h hw => ?_⟩
  have hw' : (w : ℝ) ≤ 255 := by exact_mod_cast hw
  have hvw : (v : ℝ) + 1 ≤ w := by exact_mod_cast h
  rcases Nat.lt_or_ge 10 w with h2 | h2
  · rcases Nat.lt_or_ge 10 v with h1 | h1
    · rw [linearValue_hi h1, linearValue_hi h2]
      have h10 : (11 : ℝ) ≤ v := by exact_mod_cast h1
      have := lev_gap (v := v) (by linarith) (by linarith)
      have := lev_mono (a := (v : ℝ) + 1) (b := w) (by linarith) hvw
      linarith
    · rw [linearValue_hi h2]
      have h11 : (11 : ℝ) ≤ w := by exact_mod_cast h2
      have := lev_mono (a := 11) (by norm_num) h11
      have := lev_eleven
      have h10 : (v : ℝ) ≤ 10 := by exact_mod_cast h1
      unfold linearValue
      rw [if_pos h1]
      linarith
  · unfold linearValue
    rw [if_pos (by omega), if_pos h2]
    exact div_lt_div_of_pos_right (by linarith) (by norm_num)

theorem linearValue_unit {v : ℕ} (h : v ≤ 255) : 0 ≤ linearValue v ∧ linearValue v ≤ 1 := by
  obtain ⟨h0, h1, hm⟩ := c87_curve
  constructor
  · rcases Nat.eq_zero_or_pos v with rfl | hp
    · exact h0.ge
    · exact h0 ▸ (hm 0 v hp h).le
  · rcases Nat.lt_or_ge v 255 with hl | hl
    · exact h1 ▸ (hm v 255 hl (le_refl _)).le
    · rw [show v = 255 by omega]; exact h1.le

/-- **C87** (exact arithmetic) `linearize_srgb` applies the curve to every colour channel and keeps the alpha value. -/
theorem c87_linearize (P : Profile) (img : Image UInt8) (h : img.WF)
    (hc : img.info.alpha = true → 0 < img.info.channels) :
    ∃ out : Image ℝ, linearizeSrgb P img = .ok out ∧ out.Shows img.info fun x y =>
      ((img.info.colour (img.px x y)).map fun v => linearValue v.toNat) ++
        (img.info.alphaOf (img.px x y)).map fun v => (v.toNat : ℝ) := by
  obtain ⟨out, e, hs⟩ := linearize_CA (F := ℝ) P h hc
  refine ⟨out, e, hs.shows.congr fun x y _ _ => ?_⟩
  rw [show (fun v : UInt8 => linearValue v.toNat) = linearizeEntry (F := ℝ) from
    funext fun v => (linearizeEntry_real v).symm, show (fun v : UInt8 => (v.toNat : ℝ)) = ofU8 (F := ℝ) from
    funext fun v => (Ideal.ofU8_eq v).symm]

/-- **C87** (exact arithmetic) un-linearizing the linearized image gives the image back, for every u8 image. -/
theorem c87_round_trip (P : Profile) (img : Image UInt8) (h : img.WF)
    (hc : img.info.alpha = true → 0 < img.info.channels) :
    ∃ mid : Image ℝ, linearizeSrgb P img = .ok mid ∧ unlinearizeSrgb P mid = .ok img := by
  obtain ⟨o1, e1, h1⟩ := linearize_CA (F := ℝ) P h hc
  obtain ⟨o2, e2, h2⟩ := unlinearize_CA P h1 hc
  refine ⟨o1, e1, ?_⟩
  suffices heq : o2 = img by rw [e2, heq]
  refine Image.ext_px h2.wf h h2.info_eq fun x y hx hy => ?_
  rw [h2.info_eq] at hx hy
  rw [h2.shows.px_eq hx hy, alpha_back_real, List.map_map]
  have : (unlinearizeEntry ∘ linearizeEntry (F := ℝ)) = id := by
    funext v
    show unlinearizeEntry (linearizeEntry (F := ℝ) v) = v
    rw [linearizeEntry_real, unlinearize_exact]
  rw [this, List.map_id, img.info.colour_append]

/-! ## C88 -/

/-- spec: `o` is `v` or one level darker -/
def SameOrOneBelow (v o : UInt8) : Prop := o = v ∨ o.toNat + 1 = v.toNat

/-- spec: `out` has the header and the alpha channel of `img`, and every colour channel of every pixel is the same or one
level darker -/
def Image.LosesAtMostOne (img out : Image UInt8) : Prop :=
  out.WF ∧ out.info = img.info ∧ ∀ x y, x < img.info.width → y < img.info.height →
    img.info.alphaOf (out.px x y) = img.info.alphaOf (img.px x y) ∧
    List.Forall₂ SameOrOneBelow (img.info.colour (img.px x y)) (img.info.colour (out.px x y))

/-- what the two matrices leave of a colour -/
noncomputable def backAndForth (p : List UInt8) : List ℝ :=
  mat3 XYZ_TO_SRGB_MAT (mat3 SRGB_TO_XYZ_MAT (p.map (linearizeEntry (F := ℝ))))

theorem backAndForth_eq (a b c : UInt8) : ∃ r g b', backAndForth [a, b, c] = [r, g, b'] ∧
    |r - linearValue a.toNat| ≤ 1e-6 ∧ |g - linearValue b.toNat| ≤ 1e-6 ∧ |b' - linearValue c.toNat| ≤ 1e-6 := by
  have u : ∀ v : UInt8, |linearValue v.toNat| ≤ 1 := fun v => by
    have := linearValue_unit (v := v.toNat) (by have := v.toNat_lt; omega)
    rw [abs_of_nonneg this.1]; exact this.2
  obtain ⟨x, y, z, r, g, b', e1, e2, h1, h2, h3⟩ := c35_inverse _ _ _ 1 (u a) (u b) (u c)
  refine ⟨r, g, b', ?_, by simpa using h1, by simpa using h2, by simpa using h3⟩
  unfold backAndForth
  simp only [List.map_cons, List.map_nil, linearizeEntry_real]
  rw [(c35_exact_matrices _ _ _).1, e1, (c35_exact_matrices _ _ _).2, e2]

theorem backAndForth_near {p : List UInt8} (hp : p.length = 3) :
    List.Forall₂ SameOrOneBelow p ((backAndForth p).map unlinearizeEntry) := by
  match p, hp with
  | [a, b, c], _ =>
    obtain ⟨r, g, b', e, h1, h2, h3⟩ := backAndForth_eq a b c
    rw [e]
    exact .cons (unlinearize_near a h1) (.cons (unlinearize_near b h2) (.cons (unlinearize_near c h3) .nil))

theorem lab_xyz_real (white : White) (p : List ℝ) (hp : p.length = 3) : xyzOfLab white (labOfXyz white p) = p := by
  match p, hp with
  | [x, y, z], _ =>
    have := c36_xyz_round_trip white x y z
    rw [show xyzToLabPixel white [x, y, z] = .ok (labOfXyz white [x, y, z]) by cases white <;> rfl, ok_bind,
      show labToXyzPixel white (labOfXyz white [x, y, z]) = .ok (xyzOfLab white (labOfXyz white [x, y, z])) by
        cases white <;> rfl] at this
    injection this

theorem srgbOfLab_labOfSrgb (white : White) {p : List UInt8} :
    srgbOfLab white (labOfSrgb (F := ℝ) white p) = (backAndForth p).map unlinearizeEntry := by
  unfold srgbOfLab labOfSrgb backAndForth
  rw [lab_xyz_real white _ (by simp [mat3])]

theorem colour_len3 {img : Image UInt8} (h : img.WF) (h3 : img.info.colours = 3) {x y : Nat}
    (hx : x < img.info.width) (hy : y < img.info.height) : (img.info.colour (img.px x y)).length = 3 := by
  rw [← h3]; exact img.info.colour_length (Image.px_length h hx hy)

theorem loses_of_CA {img out : Image UInt8} (h : img.WF) (h3 : img.info.colours = 3)
    (hs : out.CA img.info (fun x y => (backAndForth (img.info.colour (img.px x y))).map unlinearizeEntry)
      (fun x y => ((img.info.alphaOf (img.px x y)).map ofU8).map fun a : ℝ => toU8 (FloatOps.round a))) :
    img.LosesAtMostOne out :=
  ⟨hs.wf, hs.info_eq, fun x y hx hy => ⟨by rw [hs.alpha x y hx hy, alpha_back_real], by
    rw [hs.colour x y hx hy]; exact backAndForth_near (colour_len3 h h3 hx hy)⟩⟩

/-- **C88** (exact arithmetic) sRGB to XYZ and back: no channel changes by more than one level, and only downwards. -/
theorem c88_xyz (P : Profile) (img : Image UInt8) (h : img.WF)
    (hpos : 0 < img.info.width ∧ 0 < img.info.height) (h3 : img.info.colours = 3) :
    ∃ (xyz : Image ℝ) (out : Image UInt8), srgbToXyz P img = .ok xyz ∧ xyzToSrgb P xyz = .ok out ∧
      img.LosesAtMostOne out := by
  obtain ⟨o1, e1, h1⟩ := linearize_CA (F := ℝ) P h (colours3 h3).2
  obtain ⟨o2, e2, h2⟩ := srgbLinToXyz_CA P h1 hpos h3
  obtain ⟨o4, e4, h4⟩ := xyzToSrgbLin_CA P h2 hpos h3
  obtain ⟨o5, e5, h5⟩ := unlinearize_CA P h4 (colours3 h3).2
  refine ⟨o2, o5, ?_, ?_, loses_of_CA h h3 h5⟩
  · unfold srgbToXyz; rw [e1, ok_bind, e2]
  · unfold xyzToSrgb; rw [e4, ok_bind, e5]

/-- **C88** (exact arithmetic) sRGB to CIELAB and back, for both reference whites. -/
theorem c88_lab (P : Profile) (white : White) (img : Image UInt8) (h : img.WF)
    (hpos : 0 < img.info.width ∧ 0 < img.info.height) (h3 : img.info.colours = 3) :
    ∃ (lab : Image ℝ) (out : Image UInt8), srgbToLab P img white = .ok lab ∧ labToSrgb P lab white = .ok out ∧
      img.LosesAtMostOne out := by
  obtain ⟨o1, e1, h1⟩ := srgbToLab_CA (F := ℝ) P white h hpos h3
  obtain ⟨o2, e2, h2⟩ := labToSrgb_CA P white h1 hpos h3
  refine ⟨o1, o2, e1, e2, loses_of_CA h h3 (h2.congr (fun x y hx hy => srgbOfLab_labOfSrgb white) fun _ _ _ _ => rfl)⟩

/-- **C88** (exact arithmetic) brightness by 0 in CIELAB mode -/
theorem c88_brightness_zero (P : Profile) (img : Image UInt8) (h : img.WF)
    (hpos : 0 < img.info.width ∧ 0 < img.info.height) (h3 : img.info.colours = 3) :
    ∃ out : Image UInt8, brightnessLab ℝ P img 0 = .ok out ∧ img.LosesAtMostOne out := by
  unfold brightnessLab
  rw [i16Abs_ok (by omega) (by omega), ok_bind, checkInRange_byte, if_neg (by decide), ok_bind]
  obtain ⟨o1, e1, h1⟩ := srgbToLab_CA (F := ℝ) P .d50 h hpos h3
  obtain ⟨o2, e2, h2⟩ := h1.edit P h3 (k := 0) (by decide)
    (f := fun n => .ok (n +. (FloatOps.ofInt 0 /. num 255 *. num 100 : ℝ)))
    (g := fun n => n) (fun _ _ _ _ n _ => by simp)
  obtain ⟨o3, e3, h3'⟩ := labToSrgb_CA P .d50 h2 hpos h3
  rw [e1, ok_bind]
  dsimp only
  rw [e2, ok_bind, e3]
  refine ⟨o3, rfl, loses_of_CA h h3 (h3'.congr (fun x y hx hy => ?_) fun _ _ _ _ => rfl)⟩
  rw [show (fun n : ℝ => n) = id from rfl, List.modify_id, srgbOfLab_labOfSrgb]

/-- **C88** (exact arithmetic) contrast by 1 in CIELAB mode -/
theorem c88_contrast_one (P : Profile) (img : Image UInt8) (h : img.WF)
    (hpos : 0 < img.info.width ∧ 0 < img.info.height) (h3 : img.info.colours = 3) :
    ∃ out : Image UInt8, contrastLab P img (1 : ℝ) = .ok out ∧ img.LosesAtMostOne out := by
  obtain ⟨o1, e1, h1⟩ := srgbToLab_CA (F := ℝ) P .d50 h hpos h3
  obtain ⟨o2, e2, h2⟩ := h1.edit P h3 (k := 0) (by decide)
    (f := fun n => .ok (n *. (1 : ℝ))) (g := fun n => n) (fun _ _ _ _ n _ => by simp)
  obtain ⟨o3, e3, h3'⟩ := labToSrgb_CA P .d50 h2 hpos h3
  refine ⟨o3, ?_, loses_of_CA h h3 (h3'.congr (fun x y hx hy => ?_) fun _ _ _ _ => rfl)⟩
  · have c1 : ¬ ((1 : ℝ) <. (ofU8 0 : ℝ)) = true := by rw [Ideal.lt_eq]; simp
    have c2 : ¬ (((1 : ℝ) <. (num 0 : ℝ)) || ((num 1 : ℝ) <. (1 : ℝ))) = true := by
      rw [Bool.or_eq_true, Ideal.lt_eq, Ideal.lt_eq]; simp
    unfold contrastLab checkNonNeg checkInRange
    show ((if ((1 : ℝ) <. (ofU8 0 : ℝ)) = true then invalidArg else .ok ()) >>= fun _ =>
      (if (((1 : ℝ) <. (num 0 : ℝ)) || ((num 1 : ℝ) <. (1 : ℝ))) = true then invalidArg else .ok ()) >>= fun _ => _) = _
    rw [if_neg c1, ok_bind, if_neg c2, ok_bind, e1, ok_bind, e2, ok_bind, e3]
  · rw [show (fun n : ℝ => n) = id from rfl, List.modify_id, srgbOfLab_labOfSrgb]

theorem white_back (white : White) :
    srgbOfLab white (labOfSrgb (F := ℝ) white [255, 255, 255]) = [254, 255, 254] := by
  rw [srgbOfLab_labOfSrgb]
  have w : linearValue (255 : UInt8).toNat = 1 := c87_curve.2.1
  unfold backAndForth
  simp only [List.map_cons, List.map_nil, linearizeEntry_real, w]
  rw [(c35_exact_matrices _ _ _).1]
  unfold xyzOfLinear
  rw [(c35_exact_matrices _ _ _).2]
  unfold linearOfXyz
  have key : ∀ n : ℝ, |n - 1| ≤ 1e-6 → unlinearizeEntry n = if 1 ≤ n then 255 else 254 := fun n hn => by
    have w' : linearValue 255 = 1 := c87_curve.2.1
    rcases unlinearize_bright (v := 255) (by decide) (by decide) (by rw [w']; exact hn) with ⟨h1, h2⟩ | ⟨h1, h2⟩
    · rw [w'] at h1; rw [if_pos h1, h2]; rfl
    · rw [w'] at h1; rw [if_neg (not_le.2 h1), h2]; rfl
  simp only [List.map_cons, List.map_nil]
  rw [key _ (by rw [abs_le]; norm_num), key _ (by rw [abs_le]; norm_num), key _ (by rw [abs_le]; norm_num),
    if_neg (by norm_num), if_pos (by norm_num), if_neg (by norm_num)]

/-- **C88** the loss does happen: every white pixel comes back as (254, 255, 254), because the published matrices are inverse
only up to seven digits and the conversion to bytes truncates. -/
theorem c88_white (P : Profile) (white : White) (img : Image UInt8) (h : img.WF) (h3 : img.info.colours = 3) {x y : Nat}
    (hx : x < img.info.width) (hy : y < img.info.height) (hw : img.info.colour (img.px x y) = [255, 255, 255]) :
    ∃ (lab : Image ℝ) (out : Image UInt8), srgbToLab P img white = .ok lab ∧ labToSrgb P lab white = .ok out ∧
      img.info.colour (out.px x y) = [254, 255, 254] := by
  obtain ⟨o1, e1, h1⟩ := srgbToLab_CA (F := ℝ) P white h ⟨by omega, by omega⟩ h3
  obtain ⟨o2, e2, h2⟩ := labToSrgb_CA P white h1 ⟨by omega, by omega⟩ h3
  exact ⟨o1, o2, e1, e2, by rw [h2.colour x y hx hy, hw, white_back]⟩

example (P : Profile) : ∃ (lab : Image ℝ) (out : Image UInt8),
    srgbToLab P (rgba1 255 255 255 7) .d50 = .ok lab ∧ labToSrgb P lab .d50 = .ok out ∧
      (rgba1 255 255 255 7 : Image UInt8).info.colour (out.px 0 0) = [254, 255, 254] :=
  c88_white P .d50 _ (rgba1_WF ..) rfl (x := 0) (y := 0) (by dims) (by dims) rfl

example (P : Profile) : (∃ mid : Image ℝ, linearizeSrgb P demoA = .ok mid ∧ unlinearizeSrgb P mid = .ok demoA) ∧
    ∃ (lab : Image ℝ) (out : Image UInt8), srgbToLab P demoA .d65 = .ok lab ∧ labToSrgb P lab .d65 = .ok out ∧
      demoA.LosesAtMostOne out :=
  ⟨c87_round_trip P demoA demoA_WF (fun _ => by decide), c88_lab P .d65 demoA demoA_WF (by decide) (by decide)⟩
end Imgproc

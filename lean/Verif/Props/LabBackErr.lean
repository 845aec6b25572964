import Verif.Props.UnlinErr
/-! Property C127: `lab_to_srgb` in exact arithmetic and in f32, brightness and contrast in CIELAB. -/
namespace Imgproc
open FloatOps

/-! ### Specification -/

/-- spec: the inverse of the CIELAB function -/
noncomputable def cieInv (t : ℝ) : ℝ := if 6 / 29 < t then t ^ 3 else 3 * (6 / 29) ^ 2 * (t - 4 / 29)

/-- spec: the XYZ coordinates of the CIELAB colour `(l, a, b)` -/
noncomputable def labXyz (white : White) (l a b : ℝ) : ℝ × ℝ × ℝ :=
  let n := (l + 16) / 116
  ((whitePoint white).1 * cieInv (n + a / 500) / 100, (whitePoint white).2.1 * cieInv n / 100,
   (whitePoint white).2.2 * cieInv (n - b / 200) / 100)

/-- spec: the linear red, green and blue of the CIELAB colour `(l, a, b)`, by the published matrix -/
noncomputable def labLinear (white : White) (l a b : ℝ) : List ℝ :=
  linearOfXyz (labXyz white l a b).1 (labXyz white l a b).2.1 (labXyz white l a b).2.2

/-- spec: `c` is the level of a linear value within `e` of `s`, up to rounding by 1/500 of a level before the truncation -/
def LevelOf (c : UInt8) (s e : ℝ) : Prop := ∃ x : ℝ, |x - s| ≤ e ∧ TruncTo c (srgbCurve x) (1 / 500)

/-! ### The inverse of the CIELAB function -/

theorem cieInv_cube {t : ℝ} (h : 6 / 29 ≤ t) : cieInv t = t ^ 3 := by
  unfold cieInv
  rcases h.eq_or_lt with rfl | h
  · norm_num
  · rw [if_pos h]

theorem cieInv_line {t : ℝ} (h : t ≤ 6 / 29) : cieInv t = 108 / 841 * (t - 4 / 29) := by
  unfold cieInv; rw [if_neg (not_lt.2 h)]; norm_num

/-- `cieInv` increases, with slope at most `3m²` up to `m` -/
theorem cieInv_lip {s t m : ℝ} (h : s ≤ t) (hm : t ≤ m) (h6 : 6 / 29 ≤ m) :
    0 ≤ cieInv t - cieInv s ∧ cieInv t - cieInv s ≤ 3 * m ^ 2 * (t - s) := by
  have cube : ∀ {s t : ℝ}, 6 / 29 ≤ s → s ≤ t → t ≤ m → 0 ≤ cieInv t - cieInv s ∧ cieInv t - cieInv s ≤ 3 * m ^ 2 * (t - s) := by
    intro s t hs h hm
    rw [cieInv_cube hs, cieInv_cube (hs.trans h), show t ^ 3 - s ^ 3 = (t * t + t * s + s * s) * (t - s) by ring]
    have s0 : 0 ≤ s := by linarith
    have t0 : 0 ≤ t := by linarith
    have m0 : 0 ≤ m := by linarith
    refine ⟨mul_nonneg (by positivity) (by linarith), mul_le_mul_of_nonneg_right ?_ (by linarith)⟩
    have a1 : t * t ≤ m * m := by gcongr
    have a2 : t * s ≤ m * m := by gcongr; linarith
    have a3 : s * s ≤ m * m := by gcongr <;> linarith
    nlinarith
  have line : ∀ {s t : ℝ}, t ≤ 6 / 29 → s ≤ t → 0 ≤ cieInv t - cieInv s ∧ cieInv t - cieInv s ≤ 3 * m ^ 2 * (t - s) := by
    intro s t ht h
    rw [cieInv_line ht, cieInv_line (h.trans ht)]
    have m0 : (6 / 29 : ℝ) ^ 2 ≤ m ^ 2 := by gcongr
    have : 0 ≤ (m ^ 2 - (6 / 29) ^ 2) * (t - s) := mul_nonneg (by linarith) (by linarith)
    constructor <;> nlinarith
  rcases le_total (6 / 29) s with hs | hs
  · exact cube hs h hm
  rcases le_total t (6 / 29) with ht | ht
  · exact line ht h
  · have a := cube (le_refl _) ht hm
    have b := line (le_refl _) hs
    constructor <;> nlinarith [a.1, a.2, b.1, b.2]

theorem cieInv_close {s t m e : ℝ} (h : |s - t| ≤ e) (hs : s ≤ m) (ht : t ≤ m) (h6 : 6 / 29 ≤ m) :
    |cieInv s - cieInv t| ≤ 3 * m ^ 2 * e := by
  have m0 : 0 ≤ 3 * m ^ 2 := by positivity
  rcases le_total s t with hst | hst
  · have := cieInv_lip hst ht h6
    rw [abs_sub_comm, abs_of_nonneg (by linarith)] at h
    rw [abs_sub_comm, abs_of_nonneg this.1]
    exact this.2.trans (mul_le_mul_of_nonneg_left h m0)
  · have := cieInv_lip hst hs h6
    rw [abs_of_nonneg (by linarith)] at h
    rw [abs_of_nonneg this.1]
    exact this.2.trans (mul_le_mul_of_nonneg_left h m0)

theorem cieInv_bound {t : ℝ} (h0 : -1 ≤ t) (h1 : t ≤ 1.2) : |cieInv t| ≤ 1.728 := by
  have a := (cieInv_lip h0 h1 (by norm_num)).1
  have b := (cieInv_lip h1 (le_refl _) (by norm_num)).1
  rw [cieInv_line (t := -1) (by norm_num)] at a
  rw [cieInv_cube (t := 1.2) (by norm_num)] at b
  rw [abs_le]
  norm_num at a b ⊢
  constructor <;> linarith

/-! ### Exact arithmetic -/

theorem labToXyzFn_real (n : ℝ) : labToXyzFn n = cieInv n := by
  unfold labToXyzFn cieInv
  simp only [gt_real, Ideal.div_eq, Ideal.mul_eq, Ideal.sub_eq, Ideal.num_eq]
  norm_num

/-- **C127** (exact arithmetic) `lab_to_srgb`, either white: every pixel `(l, a, b, alpha)` becomes the truncated levels of its linear
red, green and blue, followed by the rounded alpha. -/
theorem c127_exact (P : Profile) (white : White) (img : Image ℝ) (h : img.WF)
    (hpos : 0 < img.info.width ∧ 0 < img.info.height) (h3 : img.info.colours = 3) :
    ∃ out : Image UInt8, labToSrgb P img white = .ok out ∧ out.WF ∧ out.info = img.info ∧
      ∀ x y, x < img.info.width → y < img.info.height → ∃ l a b : ℝ, img.info.colour (img.px x y) = [l, a, b] ∧
        img.info.colour (out.px x y) = (labLinear white l a b).map (fun n => toU8 (srgbCurve n)) ∧
        img.info.alphaOf (out.px x y) = (img.info.alphaOf (img.px x y)).map (fun n => toU8 ((realRound n : ℤ) : ℝ)) := by
  obtain ⟨out, e, ho⟩ := labToSrgb_CA P white h.CA hpos h3
  refine ⟨out, e, ho.wf, ho.info_eq, fun x y hx hy => ?_⟩
  have hl : (img.info.colour (img.px x y)).length = 3 := by rw [← h3]; exact img.info.colour_length (Image.px_length h hx hy)
  match hc : img.info.colour (img.px x y), hl with
  | [l, a, b], _ =>
    refine ⟨l, a, b, rfl, ?_, by rw [ho.alpha x y hx hy]; rfl⟩
    rw [ho.colour x y hx hy, hc]
    unfold srgbOfLab xyzOfLab
    dsimp only
    rw [(c35_exact_matrices _ _ _).2]
    simp only [List.getD_cons_zero, List.getD_cons_succ, labToXyzFn_real, Ideal.div_eq, Ideal.mul_eq, Ideal.sub_eq, Ideal.add_eq, Ideal.num_eq]
    rw [List.map_congr_left fun n _ => unlinearize_curve n]
    unfold labLinear labXyz
    cases white <;> norm_num [xyzTristimulusVals, whitePoint, Ideal.lit_eq, Ideal.num_eq]

/-! ### Single precision -/
section
variable [Libm f32]

theorem linear_near' {n : F32} {ν : Rat} (hn : n.Is ν) (h0 : -1 ≤ (ν : ℝ)) (h1 : (ν : ℝ) ≤ 0.3) :
    Near (num 3 *. (num 6 /. num 29) *. (num 6 /. num 29) *. (n -. (num 4 /. num 29))) (108 / 841 * ((ν : ℝ) - 4 / 29)) 1e-7 := by
  have s : Near (n -. (num 4 /. num 29)) ((ν : ℝ) - 4 / 29) 9e-8 :=
    Near.sub (B := 1.14) (Near.exact hn) four_near (by norm_num) (by rw [abs_le]; constructor <;> linarith) (by norm_num) (by norm_num)
  exact Near.mul (B := 0.13) (C := 1.14) slope_near s (by norm_num [abs_of_pos]) (by rw [abs_le]; constructor <;> linarith) (by norm_num)
    (by norm_num) (by norm_num)

/-- `lab_to_xyz_fn` in f32 -/
theorem labInv_near (hp : PowAccurate) {n : F32} {ν : Rat} (hn : n.Is ν) (h0 : -1 ≤ (ν : ℝ)) (h1 : (ν : ℝ) ≤ 1.2) :
    Near (labToXyzFn n) (cieInv ν) 1e-6 := by
  obtain ⟨d, hd, d1⟩ := delta_near
  rw [abs_le] at d1
  have key : labToXyzFn n = if d < ν then FloatOps.pow n (num 3) else
      num 3 *. (num 6 /. num 29) *. (num 6 /. num 29) *. (n -. (num 4 /. num 29)) := by
    unfold labToXyzFn
    simp only
    rw [show (n >. (num 6 /. num 29 : F32)) = ((num 6 /. num 29 : F32) <. n) from rfl, lt_is hd hn]
    by_cases h : d < ν <;> simp [h]
  rw [key]
  by_cases hb : d < ν
  · rw [if_pos hb]
    have hb' : (d : ℝ) < ν := by exact_mod_cast hb
    refine (cube_near hp hn (by linarith) h1).trans (f := 1e-9) ?_ (by norm_num)
    rcases le_total (6 / 29) (ν : ℝ) with hr | hl
    · rw [cieInv_cube hr, sub_self]; norm_num
    · rw [cieInv_line hl, abs_sub_comm]
      exact tangent_close (by rw [abs_le]; constructor <;> linarith)
  · rw [if_neg hb]
    have hb' : (ν : ℝ) ≤ d := by exact_mod_cast not_lt.1 hb
    refine (linear_near' hn h0 (by linarith)).trans (f := 1e-9) ?_ (by norm_num)
    rcases le_total (6 / 29) (ν : ℝ) with hr | hl
    · rw [cieInv_cube hr]
      exact tangent_close (by rw [abs_le]; constructor <;> linarith)
    · rw [cieInv_line hl, sub_self]; norm_num

/-- one XYZ channel, from an argument disturbed by `e` that stays below `m` -/
theorem backChannel_near (hp : PowAccurate) {w n : F32} {W r e m e' : ℝ} (hw : WhiteNear w W) (hn : Near n r e) (h0 : -1 + e ≤ r)
    (h1 : r + e ≤ m) (hm : m ≤ 1.2) (h6 : 6 / 29 ≤ m) (he : 1.09 * (3 * m ^ 2 * e) + 1.7e-6 ≤ e') (hs : e ≤ 0.01) :
    Near (w *. labToXyzFn n /. num 100) (W * cieInv r / 100) e' ∧ |W * cieInv r / 100| ≤ 1.9 := by
  obtain ⟨hw, w0, w1⟩ := hw
  obtain ⟨ν, hν, ν1⟩ := hn
  have ν2 := abs_le.1 ν1
  have e0 : 0 ≤ e := le_trans (abs_nonneg _) ν1
  have c := cieInv_close (m := m) ν1 (by linarith) (by linarith) h6
  set K := 3 * m ^ 2 * e with hK
  have K0 : 0 ≤ K := by positivity
  have K1 : K ≤ 0.05 := by
    have : m ^ 2 ≤ 1.2 ^ 2 := by gcongr
    nlinarith
  have g : Near (labToXyzFn n) (cieInv r) (K + 1e-6) := (labInv_near hp hν (by linarith) (by linarith)).trans c (by linarith)
  have b := cieInv_bound (t := r) (by linarith) (by linarith)
  have m1 : Near (w *. labToXyzFn n) (W * cieInv r) (109.0001 * K + 1.38e-4) :=
    Near.mul (B := 109) (C := 1.728) hw g (by rw [abs_of_nonneg (by linarith)]; exact w1) b (by norm_num) (by linarith) (by linarith)
  have bb : |W * cieInv r / 100| ≤ 1.9 := by
    rw [abs_div, abs_mul, abs_of_pos (show (0 : ℝ) < W by linarith), abs_of_pos (show (0 : ℝ) < 100 by norm_num), div_le_iff₀ (by norm_num)]
    have : W * |cieInv r| ≤ 109 * 1.728 := mul_le_mul w1 b (abs_nonneg _) (by norm_num)
    linarith
  refine ⟨?_, bb⟩
  have := Near.div (L := 100) (B := 1.9) (e' := e') m1 (Near.num (n := 100) (by decide)) (by norm_num) (by norm_num) (by push_cast; exact bb) (by norm_num)
    (by norm_num; linarith) (by norm_num; linarith)
  exact this.of_eq (by push_cast; rfl)

/-- the matrix product back to linear light -/
theorem fromXyz_rows {x y z : F32} {X Y Z e : ℝ} (hx : Near x X e) (hy : Near y Y e) (hz : Near z Z e) (bx : |X| ≤ 1.9) (byy : |Y| ≤ 1.9)
    (bz : |Z| ≤ 1.9) (he : e ≤ 0.01) : ∃ r g b : F32, mat3 XYZ_TO_SRGB_MAT [x, y, z] = [r, g, b] ∧
      List.Forall₂ (fun n s => Near n s (5.28 * (e + 7e-7)) ∧ -11 ≤ s) [r, g, b] (linearOfXyz X Y Z) := by
  have cx := abs_le.1 bx
  have cy := abs_le.1 byy
  have cz := abs_le.1 bz
  have e0 : 0 ≤ e := by obtain ⟨a, _, h⟩ := hx; exact le_trans (abs_nonneg _) h
  refine ⟨_, _, _, rfl, .cons ⟨?_, by linarith⟩ (.cons ⟨?_, by linarith⟩ (.cons ⟨?_, by linarith⟩ .nil))⟩
  · refine ((row_near (M := 1.9) 3.2404542 1.5371385 0.4985314 ?_ ?_ ?_ hx hy hz bx byy bz ?_ ?_ ?_ ?_ ?_ ?_ ?_).mono ?_).of_eq ?_
    case refine_11 => norm_num; nlinarith
    case refine_12 => push_cast; ring
    all_goals norm_num [abs_of_pos]
    all_goals linarith
  · refine ((row_near (M := 1.9) 0.9692660 1.8760108 0.0415560 ?_ ?_ ?_ hx hy hz bx byy bz ?_ ?_ ?_ ?_ ?_ ?_ ?_).mono ?_).of_eq ?_
    case refine_11 => norm_num; nlinarith
    case refine_12 => push_cast; ring
    all_goals norm_num [abs_of_pos]
    all_goals linarith
  · refine ((row_near (M := 1.9) 0.0556434 0.2040259 1.0572252 ?_ ?_ ?_ hx hy hz bx byy bz ?_ ?_ ?_ ?_ ?_ ?_ ?_).mono ?_).of_eq ?_
    case refine_11 => norm_num; nlinarith
    case refine_12 => push_cast; ring
    all_goals norm_num [abs_of_pos]
    all_goals linarith

/-- from CIELAB coordinates known up to `eL`, `eA`, `eB` to linear light -/
theorem labBack_near (hp : PowAccurate) (white : White) {L A B : F32} {l a b eL eA eB d m e : ℝ} (hL : Near L l eL) (hA : Near A a eA)
    (hB : Near B b eB) (dA : eA / 500 ≤ d) (dB : eB / 200 ≤ d) (sL : eL ≤ 0.01) (sd : d ≤ 1e-3) (he : eL / 116 + d + 5e-7 ≤ e) (hs : e ≤ 2e-3)
    (y0 : -0.98 ≤ (l + 16) / 116) (x0 : -0.98 ≤ (l + 16) / 116 + a / 500) (z0 : -0.98 ≤ (l + 16) / 116 - b / 200)
    (y1 : (l + 16) / 116 + e ≤ m) (x1 : (l + 16) / 116 + a / 500 + e ≤ m) (z1 : (l + 16) / 116 - b / 200 + e ≤ m) (hm : m ≤ 1.2) (h6 : 6 / 29 ≤ m) :
    ∃ r g b' : F32, mat3 XYZ_TO_SRGB_MAT (xyzOfLab white [L, A, B]) = [r, g, b'] ∧
      List.Forall₂ (fun n s => Near n s (5.28 * (1.09 * (3 * m ^ 2 * e) + 2.4e-6)) ∧ -11 ≤ s) [r, g, b'] (labLinear white l a b) := by
  have eL0 : 0 ≤ eL := by obtain ⟨_, _, h⟩ := hL; exact le_trans (abs_nonneg _) h
  have eA0 : 0 ≤ eA := by obtain ⟨_, _, h⟩ := hA; exact le_trans (abs_nonneg _) h
  have eB0 : 0 ≤ eB := by obtain ⟨_, _, h⟩ := hB; exact le_trans (abs_nonneg _) h
  have e0 : 0 ≤ e := by have : 0 ≤ eL / 116 := by positivity
                        have : 0 ≤ eA / 500 := by positivity
                        linarith
  have dA' : eA ≤ 500 * d := by linarith
  have dB' : eB ≤ 200 * d := by linarith
  obtain ⟨w1, w2, w3⟩ := whitePoint_near white
  have n16 : Near (num 16 : F32) 16 0 := (Near.num (n := 16) (by decide)).of_eq (by norm_num)
  have n116 : Near (num 116 : F32) 116 0 := (Near.num (n := 116) (by decide)).of_eq (by norm_num)
  have n500 : Near (num 500 : F32) 500 0 := (Near.num (n := 500) (by decide)).of_eq (by norm_num)
  have n200 : Near (num 200 : F32) 200 0 := (Near.num (n := 200) (by decide)).of_eq (by norm_num)
  have bl : |l + 16| ≤ 140 := by
    rw [le_div_iff₀ (by norm_num)] at y0
    have : (l + 16) / 116 ≤ 1.2 := by linarith
    rw [div_le_iff₀ (by norm_num)] at this
    rw [abs_le]; constructor <;> linarith
  have s1 : Near (L +. num 16) (l + 16) (eL + 8.4e-6) :=
    Near.add (B := 140) hL n16 (by norm_num) bl (by linarith) (by linarith)
  have by' : |(l + 16) / 116| ≤ 1.2 := by rw [abs_le]; constructor <;> linarith
  have hy : Near ((L +. num 16) /. num 116) ((l + 16) / 116) (eL / 116 + 1.5e-7) :=
    Near.div (L := 116) (B := 1.2) s1 n116 (le_refl _) (by norm_num) by' (by norm_num) (by norm_num; linarith) (by norm_num; linarith)
  have ba : |a / 500| ≤ 2.2 := by rw [abs_le]; constructor <;> linarith
  have bb : |b / 200| ≤ 2.2 := by rw [abs_le]; constructor <;> linarith
  have ha : Near (A /. num 500) (a / 500) (d + 1.4e-7) :=
    Near.div (L := 500) (B := 2.2) hA n500 (le_refl _) (by norm_num) ba (by norm_num) (by norm_num; linarith) (by norm_num; linarith)
  have hb : Near (B /. num 200) (b / 200) (d + 1.4e-7) :=
    Near.div (L := 200) (B := 2.2) hB n200 (le_refl _) (by norm_num) bb (by norm_num) (by norm_num; linarith) (by norm_num; linarith)
  have hx : Near ((L +. num 16) /. num 116 +. A /. num 500) ((l + 16) / 116 + a / 500) e :=
    Near.add (B := 1.2) hy ha (by norm_num) (by rw [abs_le]; constructor <;> linarith) (by linarith) (by linarith)
  have hz : Near ((L +. num 16) /. num 116 -. B /. num 200) ((l + 16) / 116 - b / 200) e :=
    Near.sub (B := 1.2) hy hb (by norm_num) (by rw [abs_le]; constructor <;> linarith) (by linarith) (by linarith)
  have d0 : 0 ≤ d := le_trans (by positivity) dA
  have hy' : Near ((L +. num 16) /. num 116) ((l + 16) / 116) e := hy.mono (by linarith)
  have K : 3 * m ^ 2 * e ≤ 0.009 := by
    have : m ^ 2 ≤ 1.2 ^ 2 := by gcongr
    nlinarith
  obtain ⟨cx, bx⟩ := backChannel_near hp w1 hx (by linarith) x1 hm h6 (le_refl _) (by linarith)
  obtain ⟨cy, byy⟩ := backChannel_near hp w2 hy' (by linarith) y1 hm h6 (le_refl _) (by linarith)
  obtain ⟨cz, bz⟩ := backChannel_near hp w3 hz (by linarith) z1 hm h6 (le_refl _) (by linarith)
  obtain ⟨r, g, b', eq, hf⟩ := fromXyz_rows cx cy cz bx byy bz (by linarith)
  exact ⟨r, g, b', eq, hf.imp fun _ _ hn => ⟨hn.1.mono (by linarith), hn.2⟩⟩

/-- `unlinearize_srgb_f32` on any number up to 1.9, also right at the threshold -/
theorem unlinearize_any (hp : PowAccurate) {n : F32} {a : Rat} (ha : n.Is a) (h0 : -20 ≤ (a : ℝ)) (h1 : (a : ℝ) ≤ 1.9) :
    ∃ x : ℝ, |x - a| ≤ 1e-8 ∧ TruncTo (unlinearizeEntry n) (srgbCurve x) (1 / 500) := by
  obtain ⟨t, ht, t1⟩ := threshold_near
  have t2 := abs_le.1 t1
  rcases lt_or_ge (a : ℝ) (-2) with hn | hn
  · refine ⟨a, by norm_num, ?_⟩
    unfold unlinearizeEntry
    rw [le_is ha ht, if_pos (decide_eq_true (by
      have : (a : ℝ) ≤ t := by linarith
      exact_mod_cast this)), srgbCurve_dark (by linarith)]
    obtain ⟨q, hq, q1⟩ : Near (lit 3294.6 : F32) 3294.6 2e-4 :=
      ((Near.lit (q := 3294.6) (B := 3294.6) (by norm_num) (by norm_num [abs_of_pos]) (by norm_num)).of_eq (by norm_num)).mono
        (by norm_num)
    have q2 := abs_le.1 q1
    have q0 : 0 ≤ q := by rw [← Rat.cast_le (K := ℝ)]; push_cast; linarith
    have q3 : q ≤ 3295 := by rw [← Rat.cast_le (K := ℝ)]; push_cast; linarith
    have a0 : a ≤ 0 := by rw [← Rat.cast_le (K := ℝ)]; push_cast; linarith
    have a1 : -20 ≤ a := by rw [← Rat.cast_le (K := ℝ)]; push_cast; linarith
    have hm := mul_is (f := f32) ha hq (f32_ovf (by
      rw [abs_le]; constructor
      · calc -(2 ^ 100 : Rat) ≤ -20 * 3295 := by norm_num
          _ ≤ a * q := by nlinarith
      · exact (mul_nonpos_of_nonpos_of_nonneg a0 q0).trans (by norm_num)))
    have le : f32.rnd (a * q) ≤ 0 := by
      have := rndQ_mono (f := f32.toRFmt) (mul_nonpos_of_nonpos_of_nonneg a0 q0)
      rwa [rndQ_zero] at this
    have le' : ((f32.rnd (a * q) : Rat) : ℝ) ≤ 0 := by exact_mod_cast le
    obtain ⟨k1, -⟩ := toU8_trunc hm
    rw [add_zero, max_eq_left ((min_le_right _ _).trans le')] at k1
    refine ⟨k1.trans (le_max_left _ _), ?_⟩
    rw [max_eq_left ((min_le_right _ _).trans (by linarith))]
    positivity
  rcases le_or_gt (a : ℝ) 0.0031308 with h | h
  · have := (unlinearize_f32 hp ha hn h1 (.inl h)).widen (y := srgbCurve a) (f := 1 / 1000) (by norm_num)
    exact ⟨a, by norm_num, by norm_num at this ⊢; exact this⟩
  rcases le_or_gt 0.00313081 (a : ℝ) with h' | h'
  · have := (unlinearize_f32 hp ha hn h1 (.inr h')).widen (y := srgbCurve a) (f := 1 / 1000) (by norm_num)
    exact ⟨a, by norm_num, by norm_num at this ⊢; exact this⟩
  unfold unlinearizeEntry
  rw [le_is ha ht]
  by_cases hb : a ≤ t
  · rw [if_pos (decide_eq_true hb)]
    refine ⟨0.0031308, by rw [abs_le]; constructor <;> linarith, ?_⟩
    rw [srgbCurve_dark (le_refl _)]
    have := (unlin_dark ha hn h1).widen (y := 3294.6 * 0.0031308) (f := 1 / 1000) (by rw [abs_le]; constructor <;> linarith)
    norm_num at this ⊢; exact this
  · rw [if_neg (by rwa [decide_eq_true_eq])]
    refine ⟨a, by norm_num, ?_⟩
    rw [srgbCurve_bright h]
    have := (unlin_bright hp ha (by linarith) h1).widen (y := 269.025 * (a : ℝ) ^ (1 / 2.2 : ℝ) - 14.025) (f := 1 / 1000) (by norm_num)
    norm_num at this ⊢; exact this

/-- from CIELAB coordinates known up to `eL`, `eA`, `eB` to bytes -/
theorem labBack_levels (hp : PowAccurate) (white : White) {L A B : F32} {l a b eL eA eB d m e E : ℝ} (hL : Near L l eL) (hA : Near A a eA)
    (hB : Near B b eB) (dA : eA / 500 ≤ d) (dB : eB / 200 ≤ d) (sL : eL ≤ 0.01) (sd : d ≤ 1e-3) (he : eL / 116 + d + 5e-7 ≤ e) (hs : e ≤ 1e-4)
    (y0 : -0.98 ≤ (l + 16) / 116) (x0 : -0.98 ≤ (l + 16) / 116 + a / 500) (z0 : -0.98 ≤ (l + 16) / 116 - b / 200)
    (y1 : (l + 16) / 116 + e ≤ m) (x1 : (l + 16) / 116 + a / 500 + e ≤ m) (z1 : (l + 16) / 116 - b / 200 + e ≤ m) (hm : m ≤ 1.2) (h6 : 6 / 29 ≤ m)
    (hE : 5.28 * (1.09 * (3 * m ^ 2 * e) + 2.4e-6) + 1e-8 ≤ E) (hE' : E ≤ 0.01) :
    List.Forall₂ (fun c s => s ≤ 1.89 → LevelOf c s E) (srgbOfLab white [L, A, B]) (labLinear white l a b) := by
  obtain ⟨r, g, b', eq, hf⟩ := labBack_near hp white hL hA hB dA dB sL sd he (by linarith) y0 x0 z0 y1 x1 z1 hm h6
  unfold srgbOfLab
  rw [eq, List.forall₂_map_left_iff]
  refine hf.imp fun n s hn s1 => ?_
  obtain ⟨⟨q, hq, q1⟩, s0⟩ := hn
  have q2 := abs_le.1 q1
  obtain ⟨x, x1, hx⟩ := unlinearize_any hp hq (by linarith) (by linarith)
  refine ⟨x, ?_, hx⟩
  have := abs_add_le (x - q) ((q : ℝ) - s)
  rw [sub_add_sub_cancel] at this
  linarith

/-- **C127** (f32) `lab_to_srgb` of every image of floats, either white: it succeeds and keeps the shape; every pixel holding numbers
`l, a, b` whose three CIELAB arguments are between -0.98 and 1.19 becomes the levels of linear values within 3e-5 of its linear red,
green and blue (as long as these are at most 1.89); alpha is rounded to the nearest byte. -/
theorem c127_f32 (hp : PowAccurate) (P : Profile) (white : White) (img : Image F32) (h : img.WF)
    (hpos : 0 < img.info.width ∧ 0 < img.info.height) (h3 : img.info.colours = 3) :
    ∃ out : Image UInt8, labToSrgb P img white = .ok out ∧ out.WF ∧ out.info = img.info ∧
      ∀ x y, x < img.info.width → y < img.info.height → ∃ L A B : F32, img.info.colour (img.px x y) = [L, A, B] ∧
        (∀ l a b : Rat, L.Is l → A.Is a → B.Is b →
          (∀ t ∈ [((l : ℝ) + 16) / 116 + a / 500, ((l : ℝ) + 16) / 116, ((l : ℝ) + 16) / 116 - b / 200], -0.98 ≤ t ∧ t ≤ 1.19) →
          List.Forall₂ (fun c s => s ≤ 1.89 → LevelOf c s 3e-5) (img.info.colour (out.px x y)) (labLinear white l a b)) ∧
        List.Forall₂ (fun (c : UInt8) (n : F32) => U8OfFloat n.val c.toNat)
          (img.info.alphaOf (out.px x y)) (img.info.alphaOf (img.px x y)) := by
  obtain ⟨out, e, ho⟩ := labToSrgb_CA P white h.CA hpos h3
  refine ⟨out, e, ho.wf, ho.info_eq, fun x y hx hy => ?_⟩
  have hl : (img.info.colour (img.px x y)).length = 3 := by rw [← h3]; exact img.info.colour_length (Image.px_length h hx hy)
  · obtain ⟨L, A, B, hc⟩ := List.length_eq_three.1 hl
    refine ⟨L, A, B, hc, fun l a b hL hA hB ht => ?_, ?_⟩
    · rw [ho.colour x y hx hy, hc]
      have t1 := ht _ (List.mem_cons_self ..)
      have t2 := ht _ (List.mem_cons_of_mem _ (List.mem_cons_self ..))
      have t3 := ht _ (List.mem_cons_of_mem _ (List.mem_cons_of_mem _ (List.mem_cons_self ..)))
      exact labBack_levels hp white (d := 0) (m := 1.2) (e := 5e-7) (Near.exact hL) (Near.exact hA) (Near.exact hB) (by norm_num) (by norm_num)
        (by norm_num) (by norm_num) (by norm_num) (by norm_num) t2.1 t1.1 t3.1 (by linarith) (by linarith) (by linarith) (by norm_num) (by norm_num)
        (by norm_num) (by norm_num)
    · rw [ho.alpha x y hx hy]
      exact forall₂_map_left' _ fun n _ => toU8_round_spec (by decide) (by decide) n

omit [Libm f32] in
/-- the three CIELAB arguments of an sRGB colour -/
theorem exactLab_args (white : White) (a b c : UInt8) :
    (4 / 29 ≤ ((exactLab white a b c).1 + 16) / 116 + (exactLab white a b c).2.1 / 500 ∧
      ((exactLab white a b c).1 + 16) / 116 + (exactLab white a b c).2.1 / 500 ≤ 1.1) ∧
    (4 / 29 ≤ ((exactLab white a b c).1 + 16) / 116 ∧ ((exactLab white a b c).1 + 16) / 116 ≤ 1.1) ∧
    (4 / 29 ≤ ((exactLab white a b c).1 + 16) / 116 - (exactLab white a b c).2.2 / 200 ∧
      ((exactLab white a b c).1 + 16) / 116 - (exactLab white a b c).2.2 / 200 ≤ 1.1) := by
  obtain ⟨⟨x0, x1⟩, ⟨y0, y1⟩, z0, z1⟩ := exactXyz_bound a b c
  have w : ∀ W, W = (whitePoint white).1 ∨ W = (whitePoint white).2.1 ∨ W = (whitePoint white).2.2 → 82.5 ≤ W := by
    rintro W (rfl | rfl | rfl) <;> cases white <;> norm_num [whitePoint]
  have bd : ∀ X W : ℝ, 82.5 ≤ W → 0 ≤ X → X ≤ 1.089 → 4 / 29 ≤ cieF (X * 100 / W) ∧ cieF (X * 100 / W) ≤ 1.1 := fun X W hW h0 h1 => by
    refine cieF_bounds (div_nonneg (by linarith) (by linarith)) ?_
    rw [div_le_iff₀ (by linarith)]; linarith
  have bx := bd (exactXyz a b c).1 (whitePoint white).1 (w _ (.inl rfl)) x0 (by linarith)
  have b2 := bd (exactXyz a b c).2.1 (whitePoint white).2.1 (w _ (.inr (.inl rfl))) y0 (by linarith)
  have bz := bd (exactXyz a b c).2.2 (whitePoint white).2.2 (w _ (.inr (.inr rfl))) z0 (by linarith)
  unfold exactLab
  dsimp only
  refine ⟨⟨?_, ?_⟩, ⟨?_, ?_⟩, ?_, ?_⟩ <;> linarith [bx.1, bx.2, b2.1, b2.2, bz.1, bz.2]

/-- **C127** (f32) brightness in CIELAB mode: every pixel becomes the levels of the linear colour whose lightness is that of the pixel
plus `bias * 100 / 255` and whose other two coordinates are those of the pixel, with an error of at most `0.00145 m² + 2e-5` in linear
light, where `m` bounds the three CIELAB arguments of the new colour (so 0.0022 at most, and 9e-5 near black). Alpha is kept. -/
theorem c127_brightness (hp : PowAccurate) (P : Profile) (img : Image UInt8) (h : img.WF)
    (hpos : 0 < img.info.width ∧ 0 < img.info.height) (h3 : img.info.colours = 3) (bias : Int) (hb : -255 ≤ bias ∧ bias ≤ 255) :
    ∃ out : Image UInt8, brightnessLab F32 P img bias = .ok out ∧ out.WF ∧ out.info = img.info ∧
      ∀ x y, x < img.info.width → y < img.info.height →
        img.info.alphaOf (out.px x y) = img.info.alphaOf (img.px x y) ∧
        ∃ p q r : UInt8, img.info.colour (img.px x y) = [p, q, r] ∧ ∀ l a b m : ℝ, exactLab .d50 p q r = (l, a, b) →
          6 / 29 ≤ m → m ≤ 1.2 → (l + bias * 100 / 255 + 16) / 116 + a / 500 + 1e-4 ≤ m → (l + bias * 100 / 255 + 16) / 116 + 1e-4 ≤ m →
          (l + bias * 100 / 255 + 16) / 116 - b / 200 + 1e-4 ≤ m →
          List.Forall₂ (fun c s => s ≤ 1.89 → LevelOf c s (0.00145 * m ^ 2 + 2e-5)) (img.info.colour (out.px x y))
            (labLinear .d50 (l + bias * 100 / 255) a b) := by
  obtain ⟨out, e, hwf, hi, ho⟩ := c28_brightness_lab P img h hpos h3 bias hb
  refine ⟨out, e, hwf, hi, fun x y hx hy => ?_⟩
  obtain ⟨ha, hc⟩ := ho x y hx hy
  obtain ⟨p, q, r, ep⟩ := three_of_length (colour_len3 h h3 hx hy)
  refine ⟨ha, p, q, r, ep, fun l a b m el h6 hm x1 y1 z1 => ?_⟩
  obtain ⟨L, A, B, eL, nL, nA, nB⟩ := labOfSrgb_near hp .d50 p q r
  have args := exactLab_args .d50 p q r
  rw [el] at nL nA nB args
  obtain ⟨⟨ax, -⟩, ⟨ay, ay'⟩, az, -⟩ := args
  dsimp only at nL nA nB ax ay az ay'
  rw [hc, ep, eL]
  have b0 : (-255 : ℝ) ≤ bias := by exact_mod_cast hb.1
  have b1 : (bias : ℝ) ≤ 255 := by exact_mod_cast hb.2
  have nb : Near (FloatOps.ofInt bias : F32) (bias : ℝ) 0 := by
    have := Near.exact (ofInt_exact (f := f32) (n := bias) (f32_int (by rw [abs_le]; omega)))
    simpa using this
  have n255 : Near (num 255 : F32) 255 0 := (Near.num (n := 255) (by decide)).of_eq (by norm_num)
  have n100 : Near (num 100 : F32) 100 0 := (Near.num (n := 100) (by decide)).of_eq (by norm_num)
  have u : |(bias : ℝ) / 255| ≤ 1 := by rw [abs_div, abs_of_pos (show (0 : ℝ) < 255 by norm_num), div_le_one (by norm_num), abs_le]; exact ⟨b0, b1⟩
  have nd : Near (FloatOps.ofInt bias /. num 255 : F32) ((bias : ℝ) / 255) 6e-8 :=
    Near.div (L := 255) (B := 1) nb n255 (le_refl _) (by norm_num) u (by norm_num) (by norm_num) (by norm_num)
  have nm : Near (FloatOps.ofInt bias /. num 255 *. num 100 : F32) ((bias : ℝ) / 255 * 100) 1.2e-5 :=
    Near.mul (B := 1) (C := 100) nd n100 u (by norm_num) (by norm_num) (by norm_num) (by norm_num)
  have l1 : l ≤ 112 := by linarith
  have l0 : 0 ≤ l := by linarith
  have ub := abs_le.1 u
  have nl : Near (L +. FloatOps.ofInt bias /. num 255 *. num 100) (l + (bias : ℝ) / 255 * 100) 0.00303 :=
    Near.add (B := 212) nL nm (by norm_num) (by rw [abs_le]; constructor <;> linarith) (by norm_num) (by norm_num)
  have nl' : Near (L +. FloatOps.ofInt bias /. num 255 *. num 100) (l + bias * 100 / 255) 0.00303 := nl.of_eq (by ring)
  have eb : (bias : ℝ) * 100 / 255 = (bias : ℝ) / 255 * 100 := by ring
  have m2 : m ^ 2 ≤ 1.2 ^ 2 := by gcongr
  exact labBack_levels hp .d50 (d := 5.5e-5) (m := m) (e := 8.3e-5) nl' nA nB (by norm_num) (by norm_num)
        (by norm_num) (by norm_num) (by norm_num) (by norm_num) (by rw [eb]; linarith) (by rw [eb]; linarith) (by rw [eb]; linarith) (by linarith) (by linarith) (by linarith) hm h6
        (by linarith [sq_nonneg m]) (by linarith)

omit [Libm f32] in
/-- on either side of the threshold the curve has slope at most 3294.6 -/
theorem srgbCurve_lip {x y : ℝ} (h : x ≤ y) (hs : y ≤ 0.0031308 ∨ 0.0031308 < x) :
    0 ≤ srgbCurve y - srgbCurve x ∧ srgbCurve y - srgbCurve x ≤ 3294.6 * (y - x) := by
  refine ⟨sub_nonneg.2 (c126_curve.1 x y h hs), ?_⟩
  rcases hs with hs | hs
  · rw [srgbCurve_dark hs, srgbCurve_dark (h.trans hs)]; linarith
  · rw [srgbCurve_bright hs, srgbCurve_bright (lt_of_lt_of_le hs h)]
    have x0 : 0 < x := by linarith
    have root : x ^ (1 / 2.2 : ℝ) ≤ 24 * x := curve_root_le x0.le (by linarith) (by
      have : (1 : ℝ) ≤ 24 ^ 11 * x ^ 6 := by
        calc (1 : ℝ) ≤ 24 ^ 11 * 0.0031308 ^ 6 := by norm_num
          _ ≤ _ := by gcongr
      calc x ^ 5 ≤ x ^ 5 * (24 ^ 11 * x ^ 6) := le_mul_of_one_le_right (by positivity) this
        _ = _ := by ring)
    have r0 : 0 ≤ x ^ (1 / 2.2 : ℝ) := by positivity
    have ey : y = x * (1 + (y - x) / x) := by field_simp; ring
    have d0 : 0 ≤ (y - x) / x := div_nonneg (by linarith) x0.le
    have k : (1 + (y - x) / x) ^ (1 / 2.2 : ℝ) ≤ 1 + 1 / 2.2 * ((y - x) / x) :=
      rpow_one_add_le_one_add_mul_self (by linarith) (by norm_num) (by norm_num)
    have e1 : y ^ (1 / 2.2 : ℝ) = x ^ (1 / 2.2 : ℝ) * (1 + (y - x) / x) ^ (1 / 2.2 : ℝ) := by
      rw [← Real.mul_rpow x0.le (by linarith), ← ey]
    have k2 : x ^ (1 / 2.2 : ℝ) * (1 + (y - x) / x) ^ (1 / 2.2 : ℝ) ≤ x ^ (1 / 2.2 : ℝ) * (1 + 1 / 2.2 * ((y - x) / x)) :=
      mul_le_mul_of_nonneg_left k r0
    have k3 : x ^ (1 / 2.2 : ℝ) * ((y - x) / x) ≤ 24 * x * ((y - x) / x) := mul_le_mul_of_nonneg_right root d0
    have e2 : 24 * x * ((y - x) / x) = 24 * (y - x) := by field_simp
    rw [e2] at k3
    rw [e1]
    nlinarith

omit [Libm f32] in
/-- **C127** (in levels) A level of a linear value known up to `e` is, away from the threshold, the level of that value up to
`3294.6 e + 1/500` before the truncation: a tenth of a level for the 3e-5 of `c127_f32`. -/
theorem c127_levels {c : UInt8} {s e : ℝ} (h : LevelOf c s e) (hs : e < |s - 0.0031308|) : TruncTo c (srgbCurve s) (1 / 500 + 3294.6 * e) := by
  obtain ⟨x, hx, ht⟩ := h
  refine ht.widen ?_
  have hx' := abs_le.1 hx
  have side : (x ≤ 0.0031308 ∧ s ≤ 0.0031308) ∨ (0.0031308 < x ∧ 0.0031308 < s) := by
    rcases le_total s 0.0031308 with h | h
    · rw [abs_of_nonpos (by linarith)] at hs; left; constructor <;> linarith
    · rw [abs_of_nonneg (by linarith)] at hs
      right; constructor <;> linarith [abs_nonneg (x - s)]
  rcases le_total x s with h | h
  · have := srgbCurve_lip h (side.imp (·.2) (·.1))
    rw [abs_sub_comm, abs_of_nonneg this.1]; linarith [this.2]
  · have := srgbCurve_lip h (side.imp (·.1) (·.2))
    rw [abs_of_nonneg this.1]; linarith [this.2]

/-- **C127** (f32) contrast in CIELAB mode with a gain between 0 and 1: every pixel becomes the levels of the linear colour whose
lightness is that of the pixel times the gain and whose other two coordinates are those of the pixel, with an error of at most
`0.00145 m² + 2e-5` in linear light, where `m` bounds the three CIELAB arguments of the pixel (1.2 always does). Alpha is kept. -/
theorem c127_contrast (hp : PowAccurate) (P : Profile) (img : Image UInt8) (h : img.WF)
    (hpos : 0 < img.info.width ∧ 0 < img.info.height) (h3 : img.info.colours = 3) (gain : F32) (g : Rat) (hg : gain.Is g)
    (g0 : 0 ≤ g) (g1 : g ≤ 1) :
    ∃ out : Image UInt8, contrastLab P img gain = .ok out ∧ out.WF ∧ out.info = img.info ∧
      ∀ x y, x < img.info.width → y < img.info.height →
        img.info.alphaOf (out.px x y) = img.info.alphaOf (img.px x y) ∧
        ∃ p q r : UInt8, img.info.colour (img.px x y) = [p, q, r] ∧ ∀ l a b m : ℝ, exactLab .d50 p q r = (l, a, b) →
          6 / 29 ≤ m → m ≤ 1.2 → (m = 1.2 ∨ ((l * g + 16) / 116 + a / 500 + 1e-4 ≤ m ∧ (l * g + 16) / 116 + 1e-4 ≤ m ∧
            (l * g + 16) / 116 - b / 200 + 1e-4 ≤ m)) →
          List.Forall₂ (fun c s => s ≤ 1.89 → LevelOf c s (0.00145 * m ^ 2 + 2e-5)) (img.info.colour (out.px x y))
            (labLinear .d50 (l * g) a b) := by
  have hout : ¬ OutsideUnit gain := by
    unfold OutsideUnit
    have hg' : gain.val.toQ? = some g := hg
    rcases FP.toQ?_cases hg' with e | ⟨e, -⟩ <;> rw [e]
    · exact fun h => by rcases h with h | h <;> linarith
    · exact fun h => h
  obtain ⟨out, e, hwf, hi, ho⟩ := c28_contrast_lab P img h hpos h3 gain hout
  refine ⟨out, e, hwf, hi, fun x y hx hy => ?_⟩
  obtain ⟨ha, hc⟩ := ho x y hx hy
  obtain ⟨p, q, r, ep⟩ := three_of_length (colour_len3 h h3 hx hy)
  refine ⟨ha, p, q, r, ep, fun l a b m el h6 hm hx1 => ?_⟩
  obtain ⟨L, A, B, eL, nL, nA, nB⟩ := labOfSrgb_near hp .d50 p q r
  have args := exactLab_args .d50 p q r
  rw [el] at nL nA nB args
  obtain ⟨⟨ax, ax'⟩, ⟨ay, ay'⟩, az, az'⟩ := args
  dsimp only at nL nA nB ax ay az ay' ax' az'
  rw [hc, ep, eL]
  have l1 : l ≤ 112 := by linarith
  have l0 : 0 ≤ l := by linarith
  have r0 : (0 : ℝ) ≤ g := by exact_mod_cast g0
  have r1 : (g : ℝ) ≤ 1 := by exact_mod_cast g1
  have lg : l * g ≤ l := mul_le_of_le_one_right l0 r1
  have lg0 : 0 ≤ l * g := mul_nonneg l0 r0
  have nl : Near (L *. gain) (l * g) 0.00303 :=
    Near.mul (B := 112) (C := 1) nL (Near.exact hg) (by rw [abs_of_nonneg l0]; exact l1) (by rw [abs_of_nonneg r0]; exact r1)
      (by norm_num) (by norm_num) (by norm_num)
  have m2 : m ^ 2 ≤ 1.2 ^ 2 := by gcongr
  obtain ⟨x1, y1, z1⟩ : (l * g + 16) / 116 + a / 500 + 1e-4 ≤ m ∧ (l * g + 16) / 116 + 1e-4 ≤ m ∧ (l * g + 16) / 116 - b / 200 + 1e-4 ≤ m := by
    rcases hx1 with rfl | h
    · refine ⟨?_, ?_, ?_⟩ <;> linarith
    · exact h
  exact labBack_levels hp .d50 (d := 5.5e-5) (m := m) (e := 8.3e-5) nl nA nB (by norm_num) (by norm_num)
        (by norm_num) (by norm_num) (by norm_num) (by norm_num) (by linarith) (by linarith) (by linarith) (by linarith) (by linarith) (by linarith) hm h6
        (by linarith [sq_nonneg m]) (by linarith)

omit [Libm f32] in
/-- the linear colour of a pixel of level 10, brightened by one level -/
theorem tenLinear : ∃ l a b : ℝ, exactLab .d50 10 10 10 = (l, a, b) ∧ (l + (1 : Int) * 100 / 255 + 16) / 116 + a / 500 ≤ 0.18 ∧
    (l + (1 : Int) * 100 / 255 + 16) / 116 ≤ 0.18 ∧ (l + (1 : Int) * 100 / 255 + 16) / 116 - b / 200 ≤ 0.18 ∧
    ∀ s ∈ labLinear .d50 (l + (1 : Int) * 100 / 255) a b, 0.00334 ≤ s ∧ s ≤ 0.00355 := by
  have v : linearValue (UInt8.toNat 10) = 10 / 3294 := by rw [show UInt8.toNat 10 = 10 from rfl]; unfold linearValue; norm_num
  have fx : cieF ((exactXyz 10 10 10).1 * 100 / (whitePoint .d50).1) = 841 / 108 * ((exactXyz 10 10 10).1 * 100 / (whitePoint .d50).1) + 4 / 29 :=
    cieF_line (by norm_num [exactXyz, whitePoint, v])
  have fy : cieF ((exactXyz 10 10 10).2.1 * 100 / (whitePoint .d50).2.1) = 841 / 108 * ((exactXyz 10 10 10).2.1 * 100 / (whitePoint .d50).2.1) + 4 / 29 :=
    cieF_line (by norm_num [exactXyz, whitePoint, v])
  have fz : cieF ((exactXyz 10 10 10).2.2 * 100 / (whitePoint .d50).2.2) = 841 / 108 * ((exactXyz 10 10 10).2.2 * 100 / (whitePoint .d50).2.2) + 4 / 29 :=
    cieF_line (by norm_num [exactXyz, whitePoint, v])
  refine ⟨_, _, _, rfl, ?_, ?_, ?_, ?_⟩
  · rw [fx, fy]; norm_num [exactXyz, whitePoint, v]
  · rw [fy]; norm_num [exactXyz, whitePoint, v]
  · rw [fz, fy]; norm_num [exactXyz, whitePoint, v]
  · unfold labLinear labXyz
    dsimp only
    rw [fx, fy, fz, cieInv_line, cieInv_line, cieInv_line]
    · unfold linearOfXyz
      intro s hs
      simp only [List.mem_cons, List.not_mem_nil, or_false] at hs
      rcases hs with rfl | rfl | rfl <;> norm_num [exactXyz, whitePoint, v]
    all_goals norm_num [exactXyz, whitePoint, v]

/-- **C127** (f32, defect) Increasing the brightness in CIELAB mode by one level darkens: every pixel `(10, 10, 10)` of every image gets
colour channels of at most 6. -/
theorem c127_darkens (hp : PowAccurate) (P : Profile) (img : Image UInt8) (h : img.WF)
    (hpos : 0 < img.info.width ∧ 0 < img.info.height) (h3 : img.info.colours = 3) :
    ∃ out : Image UInt8, brightnessLab F32 P img 1 = .ok out ∧ out.info = img.info ∧
      ∀ x y, x < img.info.width → y < img.info.height → img.info.colour (img.px x y) = [10, 10, 10] →
        ∀ c ∈ img.info.colour (out.px x y), c.toNat ≤ 6 := by
  obtain ⟨out, e, -, hi, ho⟩ := c127_brightness hp P img h hpos h3 1 (by decide)
  refine ⟨out, e, hi, fun x y hx hy hten c hc => ?_⟩
  obtain ⟨-, p, q, r, ep, hf⟩ := ho x y hx hy
  rw [hten] at ep
  simp only [List.cons.injEq, and_true] at ep
  obtain ⟨rfl, rfl, rfl⟩ := ep
  obtain ⟨l, a, b, el, x1, y1, z1, hs⟩ := tenLinear
  have hf := hf l a b (6 / 29) el (le_refl _) (by norm_num) (by linarith) (by linarith) (by linarith)
  obtain ⟨s, hsm, hl⟩ : ∃ s ∈ labLinear .d50 (l + (1 : Int) * 100 / 255) a b, s ≤ 1.89 → LevelOf c s (0.00145 * (6 / 29) ^ 2 + 2e-5) :=
    by
      obtain ⟨i, hi, rfl⟩ := List.getElem_of_mem hc
      have hlen := hf.length_eq
      exact ⟨_, List.getElem_mem (n := i) (by omega), List.Forall₂.get hf hi (by omega)⟩
  have s2 := hs s hsm
  obtain ⟨x', hx', k1, -⟩ := hl (by linarith)
  have b := abs_le.1 hx'
  norm_num at b
  have r1 := curve_root_le (x := x') (u := 0.0781) (by linarith) (by norm_num) (by
      calc x' ^ 5 ≤ (0.00364 : ℝ) ^ 5 := by
            have : 0 ≤ x' := by linarith
            gcongr; linarith
        _ ≤ _ := by norm_num)
  rw [srgbCurve_bright (by linarith)] at k1
  have u : (c.toNat : ℝ) < ((7 : ℕ) : ℝ) := lt_of_le_of_lt k1 (max_lt (by norm_num) (lt_of_le_of_lt (min_le_right _ _) (by push_cast; linarith)))
  have u' : c.toNat < 7 := by exact_mod_cast u
  omega
end

/-- a picture with such a pixel, and a math library that meets the hypotheses -/
example (P : Profile) : letI := accurateLibm
    ∃ out : Image UInt8, brightnessLab F32 P (rgba1 10 10 10 200) 1 = .ok out ∧ ∀ c ∈ out.info.colour (out.px 0 0), c.toNat ≤ 6 := by
  let := accurateLibm
  obtain ⟨out, e, ei, ho⟩ := c127_darkens accurateLibm_spec P (rgba1 10 10 10 200) (rgba1_WF ..) (by dims) (by dims)
  exact ⟨out, e, by rw [ei]; exact ho 0 0 (by dims) (by dims) rfl⟩
end Imgproc

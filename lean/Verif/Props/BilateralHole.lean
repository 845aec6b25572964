import Verif.Props.BilateralErr3
import Verif.Props.Bilateral3
import Verif.Props.LabErr
/-! Property C120: in f32 the bilateral filter turns a pixel black when its lightness is far from that of every neighbour. -/
namespace Imgproc
open FloatOps

/-- spec: the exact CIELAB lightness of a pixel (first three channels) -/
noncomputable def Image.exactLight (img : Image UInt8) (x y : Nat) : ℝ :=
  match img.px x y with
  | a :: b :: c :: _ => (exactLab .d65 a b c).1
  | _ => 0

section
variable [Libm f32]

/-- what the platform's `powf` does for powers of e below the smallest float: `e^-110 < 2^-158` underflows to 0 -/
def PowUnderflow : Prop := ∀ (y : F32) (q : Rat), y.Is q → q ≤ -110 → (FloatOps.pow FloatOps.e y : F32).Is 0

theorem zn_foldl {f : Nat → F32} : ∀ (l : List Nat), (∀ i ∈ l, (f i).ZeroOrNaN) → ∀ {a : F32}, a.ZeroOrNaN →
    (l.foldl (fun acc i => acc +. f i) a).ZeroOrNaN
  | [], _, _, ha => ha
  | i :: l, h, _, ha => zn_foldl l (fun j hj => h j (List.mem_cons_of_mem _ hj)) (zn_add ha (h i List.mem_cons_self))

/-- the range weight of a difference of at least 15.9 `range` is 0 -/
theorem gaussOf_zero (hu : PowUnderflow) {sigma x : F32} {s q : Rat} {r : ℝ} (hs : sigma.Is s) (s0 : 1 / 16 ≤ s) (s1 : s ≤ 1000)
    (hx : x.Is q) (r1 : |r| ≤ 4096) (hr : |(q : ℝ) - r| ≤ 2 / 16777216 * |r| + 1 / 2 ^ 140) (far : 15.9 * (s : ℝ) ≤ |r|) :
    (gaussOf x sigma).Is 0 := by
  obtain ⟨r0, r1'⟩ := sigma_real s0 s1
  obtain ⟨b, hb, b0, eb⟩ := exponent_err hs s0 s1 hx r1 hr
  obtain ⟨A', hA', -⟩ := gauss_factor' hs s0 s1
  have z : 120 ≤ r ^ 2 / (2 * (s : ℝ) ^ 2) := by
    rw [le_div_iff₀ (by positivity), ← sq_abs r]
    have := pow_le_pow_left₀ (by positivity) far 2
    nlinarith
  have hb' : b ≤ -110 := by
    have := (abs_le.1 eb).2
    rw [← Rat.cast_le (K := ℝ)]; push_cast
    norm_num at this ⊢
    linarith
  have := mul_exact hA' (hu _ b hb hb') (by rw [mul_zero]; exact Fmt.Exact.zero)
  rw [mul_zero] at this
  exact this

/-- **C120** (defect, f32) With a `powf` that underflows to 0, every pixel whose exact lightness differs from the lightness of each
other pixel of its window by at least `16 range + 0.01` comes out black, whatever its colour: all weights are 0, and so the mean is 0/0. -/
theorem c120_isolated_black (hp : PowGood) (hu : PowUnderflow) (hn : PowNaN) (P : Profile) {img : Image UInt8} {range spatial : F32}
    {ρ σ : Rat} {size : Nat} (h : BilateralInput32 img range spatial ρ σ size) :
    ∃ out : Image UInt8, bilateralFilter P img range spatial = .ok out ∧ out.WF ∧ out.info = img.info ∧
      ∀ x y, x < img.info.width → y < img.info.height →
        (∀ i j, i < size → j < size → ¬ (i = size / 2 ∧ j = size / 2) → 16 * (ρ : ℝ) + 0.01 ≤
          |img.exactLight (padCoord img.info.width x ((x : Int) - (size / 2 : Nat) + j))
            (padCoord img.info.height y ((y : Int) - (size / 2 : Nat) + i)) - img.exactLight x y|) →
        ∃ alpha, out.getPixel P x y = .ok ([0, 0, 0] ++ alpha) := by
  obtain ⟨mat, em, hml, hmid, hmat⟩ := c118_spatial_value h.spatial_is h.spatial_low h.spatial_high hp P size h.odd (by have := h.small; omega)
  obtain ⟨out, lab, filtered, e, owf, oi, el, hl, hf, eo, ho⟩ := bilateral_core P img h.wf range spatial
    (nonNeg_ok (not_negative h.range_is h.range_low)) (nonNeg_ok (not_negative h.spatial_is h.spatial_low)) size h.size_eq
    (by have := h.big; omega) (by have := h.small; omega) em hml h.pos h.three h.width h.height
  have hli := hl.info_eq
  refine ⟨out, e, owf, oi, ?_⟩
  intro x y hx hy far
  have n3 := h.big
  have hp0 : 0 < size := by omega
  have zero32 : (num 0 : F32).Is 0 := by simpa using num32 (n := 0) (by decide)
  have three := h.three
  have ch3 : 3 ≤ img.info.channels := by
    have := (colours3 three).1
    omega
  -- the lightness of each pixel
  have light : ∀ x y, x < img.info.width → y < img.info.height → ∃ q : Rat, ((lab.px x y).getD 0 (num 0)).Is q ∧
      |(q : ℝ) - img.exactLight x y| ≤ 0.003 ∧ |q| ≤ 101 := by
    intro x y hx hy
    obtain ⟨a, b, c, ec⟩ := three_of_length (colour_len3 h.wf h.three hx hy)
    have happ := img.info.colour_append (img.px x y)
    rw [ec] at happ
    obtain ⟨L, A, B, eLab, ⟨q, hq, bq⟩, -, -⟩ := labOfSrgb_near hp.accurate .d65 a b c
    have hpx := hl.shows.px_eq hx hy
    rw [ec, eLab] at hpx
    have hL : img.exactLight x y = (exactLab .d65 a b c).1 := by
      unfold Image.exactLight; rw [← happ]; rfl
    obtain ⟨-, -, l0, l1, -⟩ := c119_exact_lightness .d65 (UInt8.le_refl a) (UInt8.le_refl b) (UInt8.le_refl c)
    have b2 := abs_le.1 bq
    refine ⟨q, by rw [hpx]; exact hq, by rw [hL]; exact bq, ?_⟩
    rw [← Rat.cast_le (K := ℝ)]; push_cast; rw [abs_le]; constructor <;> linarith
  obtain ⟨q0, hq0, e0, b0⟩ := light x y hx hy
  -- every weight of the lightness channel is zero
  have wt : ∀ k < size * size, (bilateralWeight range mat (window2d lab x y size) 0 ((lab.px x y).getD 0 (num 0)) k).ZeroOrNaN := by
    intro k hk
    have h1 : k / size < size := Nat.div_lt_of_lt_mul hk
    have h2 : k % size < size := Nat.mod_lt _ hp0
    have h3 : k / size * size + k % size = k := Nat.div_add_mod' k size
    unfold bilateralWeight
    by_cases hm : k / size = size / 2 ∧ k % size = size / 2
    · rw [hm.1, hm.2] at h3
      rw [h3] at hmid
      rw [List.getD_eq_getElem?_getD, hmid, Option.getD_some]
      exact zn_mul (.inl zero32) _
    · obtain ⟨s, a, hs, ha, -, -⟩ := hmat _ _ h1 h2 hm
      rw [h3] at hs
      rw [List.getD_eq_getElem?_getD, hs, Option.getD_some]
      have hwin := window2d_getD lab x y size h1 h2
      rw [h3] at hwin
      rw [hwin, hli]
      obtain ⟨q1, hq1, e1, b1⟩ := light _ _ (padCoord_lt (o := (x : Int) - (size / 2 : Nat) + (k % size : Nat)) hx)
        (padCoord_lt (o := (y : Int) - (size / 2 : Nat) + (k / size : Nat)) hy)
      have hfar := far _ _ h1 h2 hm
      have ov : |f32.rnd (q0 - q1)| < pow2 f32.emax := by
        refine f32_ovf ((abs_sub _ _).trans ?_)
        norm_num; linarith
      have df := abs_is (sub_is hq0 hq1 ov)
      have r := (Rat.cast_le (K := ℝ)).2 (rnd_err_add (q0 - q1))
      have tri := abs_abs_sub_abs_le (f32.rnd (q0 - q1)) (q0 - q1)
      have tri' := (Rat.cast_le (K := ℝ)).2 tri
      generalize f32.rnd (q0 - q1) = t at *
      push_cast at r tri'
      have gz := gaussOf_zero hu h.range_is h.range_low h.range_high (r := |(q0 : ℝ) - q1|) df (by
        have c0 : |(q0 : ℝ)| ≤ 101 := by exact_mod_cast b0
        have c1 : |(q1 : ℝ)| ≤ 101 := by exact_mod_cast b1
        rw [abs_abs]
        linarith [abs_sub (q0 : ℝ) q1]) (by
        push_cast
        rw [abs_abs]
        refine (tri'.trans r).trans ?_
        norm_num
        have := abs_nonneg ((q0 : ℝ) - q1)
        linarith) (by
        rw [abs_abs]
        obtain ⟨ρ0, -⟩ := sigma_real h.range_low h.range_high
        have a1 := abs_le.1 e0
        have a2 := abs_le.1 e1
        rcases le_abs.1 hfar with g | g
        · rw [abs_sub_comm]; refine le_trans ?_ (le_abs_self _); linarith
        · refine le_trans ?_ (le_abs_self _); linarith)
      have := mul_exact ha gz (by rw [mul_zero]; exact Fmt.Exact.zero)
      rw [mul_zero] at this
      exact .inl this
  have nan : (bilateralMean range mat (window2d lab x y size) 0 ((lab.px x y).getD 0 (num 0))).NaN := by
    unfold bilateralMean
    rw [window2d_length]
    exact zn_div (zn_foldl _ (fun i hi => zn_mul (wt i (List.mem_range.1 hi)) _) (.inl zero32))
      (zn_foldl _ (fun i hi => wt i (List.mem_range.1 hi)) (.inl zero32))
  -- the filtered pixel
  have hpx := hf.px_eq hx hy
  have hlen : (filtered.px x y).length = img.info.channels := by rw [hpx]; simp
  obtain ⟨a, b, c, hc⟩ := List.length_eq_three.1 (show (img.info.colour (filtered.px x y)).length = 3 by
    rw [img.info.colour_length hlen, h.three])
  have happ := img.info.colour_append (filtered.px x y)
  rw [hc] at happ
  have ha : a.NaN := by
    have : (filtered.px x y).getD 0 (num 0) = a := by rw [← happ]; rfl
    rw [← this, hpx, List.getD_eq_getElem?_getD, List.getElem?_map, List.getElem?_range (by omega)]
    exact nan
  refine ⟨(img.info.alphaOf (filtered.px x y)).map fun a => toU8 (FloatOps.round a), ?_⟩
  rw [Image.getPixel_eq P owf (by rw [oi]; exact hx) (by rw [oi]; exact hy), ho.shows.px_eq hx hy, hc, srgbOfLab_nan hn .d65 ha]
end

open Classical in
/-- a math library whose `powf` is accurate, underflows to 0 and propagates NaN -/
@[instance_reducible] noncomputable def flushLibm : Libm f32 where
  pow x y := if x.NaN then x else if x.Is (11401300 / 4194304) ∧ ∃ q : Rat, y.Is q ∧ q ≤ -110 then Flt.ofRat f32 0 else goodLibm.pow x y
  sin := id
  cos := id

theorem zero_of_rat : (Flt.ofRat f32 0 : F32).Is 0 := by
  have := Flt.ofRat_is (f := f32) (q := 0) (by rw [show f32.rnd 0 = 0 by decide +kernel]; decide +kernel)
  rwa [show f32.rnd 0 = 0 by decide +kernel] at this

theorem flushLibm_spec : @PowGood flushLibm ∧ @PowUnderflow flushLibm ∧ @PowNaN flushLibm := by
  have notNaN : ∀ {x : F32} {a : Rat}, x.Is a → ¬ x.NaN := fun {x a} h n => by
    have h : x.val.toQ? = some a := h
    rw [show x.val = .nan from n] at h
    simp [FP.toQ?] at h
  refine ⟨?_, ?_, ?_⟩
  · intro x y a b hx hy h1 h2
    by_cases hc : x.Is (11401300 / 4194304) ∧ ∃ q : Rat, y.Is q ∧ q ≤ -110
    · have e : flushLibm.pow x y = Flt.ofRat f32 0 := by
        unfold flushLibm; simp only [if_neg (notNaN hx), if_pos hc]
      obtain ⟨hxa, q, hq, q1⟩ := hc
      refine ⟨0, ?_, le_rfl, ?_⟩
      · show (flushLibm.pow x y : F32).Is 0
        rw [e]; exact zero_of_rat
      · obtain rfl := hx.unique hxa
        obtain rfl := hy.unique hq
        have q1' : (b : ℝ) ≤ -110 := by exact_mod_cast q1
        have base : (1 : ℝ) ≤ ((11401300 / 4194304 : Rat) : ℝ) := by norm_num
        have := Real.rpow_le_rpow_of_exponent_le base q1'
        have pos := Real.rpow_pos_of_pos (show (0 : ℝ) < ((11401300 / 4194304 : Rat) : ℝ) by norm_num) (b : ℝ)
        have small : (((11401300 / 4194304 : Rat) : ℝ)) ^ (-110 : ℝ) ≤ 1 / 2 ^ 140 := by
          rw [Real.rpow_neg (by linarith), ← one_div]
          refine one_div_le_one_div_of_le (by norm_num) ?_
          rw [show (110 : ℝ) = ((110 : ℕ) : ℝ) by norm_num, Real.rpow_natCast]
          have h25 : (2.5 : ℝ) ≤ ((11401300 / 4194304 : Rat) : ℝ) := by norm_num
          exact le_trans (by norm_num) (pow_le_pow_left₀ (by norm_num) h25 110)
        rw [Rat.cast_zero, zero_sub, abs_neg, abs_of_pos pos]
        have : 0 ≤ (((11401300 / 4194304 : Rat) : ℝ)) ^ (b : ℝ) / 2 ^ 22 := by positivity
        linarith
    · have e : flushLibm.pow x y = goodLibm.pow x y := by
        unfold flushLibm; simp only [if_neg (notNaN hx), if_neg hc]
      obtain ⟨c, hc, r⟩ := goodLibm_spec x y a b hx hy h1 h2
      refine ⟨c, ?_, r⟩
      show (flushLibm.pow x y : F32).Is c
      rw [e]; exact hc
  · intro y q hy hq
    let := flushLibm
    have he : (FloatOps.e : F32).Is (11401300 / 4194304) := by
      have : f32.Exact (11401300 / 4194304 : Rat) := by
        have := f32_dy (m := 11401300) (k := 22) (by decide) (by decide)
        norm_num at this ⊢
        exact this
      exact lit_exact this
    show (flushLibm.pow (FloatOps.e : F32) y : F32).Is 0
    have e : flushLibm.pow (FloatOps.e : F32) y = Flt.ofRat f32 0 := by
      unfold flushLibm; simp only [if_neg (notNaN he)]; exact if_pos ⟨he, q, hy, hq⟩
    rw [e]; exact zero_of_rat
  · intro x hx
    let := flushLibm
    show (flushLibm.pow x (num 1 /. GAMMA) : F32).NaN
    have e : flushLibm.pow x (num 1 /. GAMMA) = x := by
      unfold flushLibm; simp only [if_pos hx]
    rw [e]; exact hx

/-- a grey pixel in the middle of a white 3 x 3 image -/
def hole9 (g : UInt8) : Image UInt8 := Image.fromVec 3 3 3 false (List.replicate 12 255 ++ [g, g, g] ++ List.replicate 12 255)

theorem hole9_WF (g : UInt8) : (hole9 g).WF :=
  ⟨show 3 < _ by decide, show 3 < _ by decide, show 3 < _ by decide, show 3 * 3 < _ by decide, show 3 * 3 * 3 < _ by decide, rfl⟩

/-- mid grey is darker than lightness 70 -/
theorem exactLab_mid : (exactLab .d65 128 128 128).1 ≤ 70 := by
  have z : linearValue 128 ≤ 0.34 := by
    rw [linearValue_hi (by decide)]
    unfold lev
    refine le_trans (Real.rpow_le_rpow_of_exponent_ge (by norm_num) (by norm_num) (show (2 : ℝ) ≤ 2.2 by norm_num)) ?_
    rw [show (2 : ℝ) = ((2 : ℕ) : ℝ) by norm_num, Real.rpow_natCast]
    norm_num
  have z0 := (linearValue_unit (v := 128) (by decide)).1
  have w : (whitePoint .d65).2.1 = 100 := rfl
  have le : (exactXyz 128 128 128).2.1 * 100 / 100 ≤ 0.343 := by
    unfold exactXyz; simp only [show (128 : UInt8).toNat = 128 from rfl]; linarith
  have := (cieF_lip le).1
  obtain ⟨c, ec, c3, c0⟩ := cieF_root (t := (0.343 : ℝ)) (by norm_num)
  have : c ≤ 0.7 := by
    by_contra hh
    push Not at hh
    have : (0.7 : ℝ) ^ 3 < c ^ 3 := by gcongr
    rw [c3] at this; norm_num at this
  unfold exactLab
  simp only [w]
  linarith

/-- **C120** the defect on a concrete image: a pixel of any grey level up to 128 on white, filtered with range 1 and spatial 1/2 (a
3 x 3 window), comes out black, although its whole neighbourhood is lighter than it. -/
theorem c120_grey_on_white (P : Profile) (g : UInt8) (hg : g ≤ 128) : letI := flushLibm
    ∃ out : Image UInt8, bilateralFilter P (hole9 g) (num 1 : F32) (lit (1 / 2)) = .ok out ∧ out.getPixel P 1 1 = .ok [0, 0, 0] := by
  let := flushLibm
  have h1 : (num 1 : F32).Is 1 := by simpa using num32 (n := 1) (by decide)
  have hq : (lit (1 / 2) : F32).Is (1 / 2) := lit_exact (by
    have := f32_dyadic (m := 128) (by decide)
    rwa [show (((128 : Int) : Rat) / 256) = 1 / 2 by norm_num] at this)
  have i : BilateralInput32 (hole9 g) (num 1) (lit (1 / 2)) 1 (1 / 2) 3 :=
    ⟨hole9_WF g, ⟨show 0 < 3 by decide, show 0 < 3 by decide⟩, rfl, h1, by norm_num, by norm_num, hq, by norm_num, by norm_num,
      bilateralSize_quarter (k := 2) (by decide) (by norm_num; exact hq), rfl, by decide, by decide, show 3 + 3 ≤ _ by decide, show 3 + 3 ≤ _ by decide⟩
  obtain ⟨g1, g2, g3⟩ := flushLibm_spec
  obtain ⟨out, e, wf, oi, hh⟩ := c120_isolated_black g1 g2 g3 P i
  obtain ⟨alpha, ha⟩ := hh 1 1 (show 1 < 3 by decide) (show 1 < 3 by decide) (by
    have own : (hole9 g).exactLight 1 1 = (exactLab .d65 g g g).1 := rfl
    have dark : (exactLab .d65 g g g).1 ≤ 70 := (c119_exact_lightness .d65 hg hg hg).1.trans exactLab_mid
    have wh := (exactLab_white .d65).1
    intro i j hi hj hne
    have other : (hole9 g).exactLight (padCoord 3 1 ((1 : Int) - (3 / 2 : Nat) + j)) (padCoord 3 1 ((1 : Int) - (3 / 2 : Nat) + i)) =
        (exactLab .d65 255 255 255).1 := by
      interval_cases i <;> interval_cases j <;> first | rfl | exact absurd ⟨rfl, rfl⟩ hne
    have other' : (hole9 g).exactLight (padCoord (hole9 g).info.width 1 (((1 : Nat) : Int) - (3 / 2 : Nat) + j)) (padCoord (hole9 g).info.height 1 (((1 : Nat) : Int) - (3 / 2 : Nat) + i)) =
        (exactLab .d65 255 255 255).1 := other
    rw [own, other', abs_of_nonneg (by linarith)]
    norm_num
    linarith)
  refine ⟨out, e, ?_⟩
  have hl : ([0, 0, 0] ++ alpha : List UInt8).length = 3 := by
    rw [Image.getPixel_eq P wf (by rw [oi]; exact show 1 < 3 by decide) (by rw [oi]; exact show 1 < 3 by decide)] at ha
    rw [← Except.ok.inj ha, Image.px_length wf (by rw [oi]; exact show 1 < 3 by decide) (by rw [oi]; exact show 1 < 3 by decide), oi]
    rfl
  have : alpha = [] := List.eq_nil_of_length_eq_zero (by simpa using hl)
  rw [ha, this]; rfl
end Imgproc

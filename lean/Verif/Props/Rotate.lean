import Verif.Props.Shear
import Mathlib.Analysis.SpecialFunctions.Trigonometric.Basic
import Mathlib.Tactic.NormNum
import Mathlib.Tactic.SplitIfs
/-! Properties C71 and C79: rotate, in exact arithmetic. -/
namespace Imgproc
open FloatOps

theorem real_max3 (x y z : ℝ) : max3 x y z = max x (max y z) := by
  unfold max3
  simp only [FloatOps.gt, Ideal.lt_eq]
  simp only [max_def]
  split_ifs <;> linarith

theorem real_min3 (x y z : ℝ) : min3 x y z = min x (min y z) := by
  unfold min3
  simp only [Ideal.lt_eq]
  simp only [min_def]
  split_ifs <;> linarith

theorem real_max4 (w x y z : ℝ) : max4 w x y z = max (max w x) (max y z) := by
  unfold max4
  simp only [real_max3, FloatOps.gt, Ideal.lt_eq]
  simp only [max_def]
  split_ifs <;> linarith

theorem real_min4 (w x y z : ℝ) : min4 w x y z = min (min w x) (min y z) := by
  unfold min4
  simp only [real_min3, Ideal.lt_eq]
  simp only [min_def]
  split_ifs <;> linarith

theorem vectorMul_2 {F : Type} [FloatOps F] (P : Profile) (m1 m2 m3 m4 a b : F) :
    vectorMul P FloatOps.rnum [m1, m2, m3, m4] [a, b] =
      .ok [ofU8 0 +. m1 *. a +. m2 *. b, ofU8 0 +. m3 *. a +. m4 *. b] :=
  c41_vector_mul_total P FloatOps.rnum FloatOps.add FloatOps.mul (fun _ _ => rfl) (fun _ _ => rfl)
    [m1, m2, m3, m4] [a, b] (by simp) (by simp only [List.length_cons, List.length_nil]; decide) (by simp)

/-- the angle, in radians as the code computes it (with the f32 constant for pi) -/
noncomputable def rotAngle (deg : ℝ) : ℝ := FloatOps.toRadians deg

/-- extent of the rotated rectangle: `u` ranges over `{-x, W - x}`, `v` over `{y - H, y}`, value `c u - s v` -/
noncomputable def rotMax (c s u1 u2 v1 v2 : ℝ) : ℝ :=
  max (max (c * u1 - s * v1) (c * u2 - s * v1)) (max (c * u1 - s * v2) (c * u2 - s * v2))
noncomputable def rotMin (c s u1 u2 v1 v2 : ℝ) : ℝ :=
  min (min (c * u1 - s * v1) (c * u2 - s * v1)) (min (c * u1 - s * v2) (c * u2 - s * v2))

theorem rotExtent {c s u1 u2 v1 v2 : ℝ} (hu : u1 ≤ u2) (hv : v2 ≤ v1) :
    rotMax c s u1 u2 v1 v2 - rotMin c s u1 u2 v1 v2 = (u2 - u1) * |c| + (v1 - v2) * |s| := by
  have key : ∀ {a b d e m : ℝ}, a ≤ m → b ≤ m → d ≤ m → e ≤ m → (m = a ∨ m = b ∨ m = d ∨ m = e) →
      max (max a b) (max d e) = m := by
    intro a b d e m h1 h2 h3 h4 h5
    apply le_antisymm
    · exact max_le (max_le h1 h2) (max_le h3 h4)
    · rcases h5 with h | h | h | h <;> rw [h] <;> simp
  have key' : ∀ {a b d e m : ℝ}, m ≤ a → m ≤ b → m ≤ d → m ≤ e → (m = a ∨ m = b ∨ m = d ∨ m = e) →
      min (min a b) (min d e) = m := by
    intro a b d e m h1 h2 h3 h4 h5
    apply le_antisymm
    · rcases h5 with h | h | h | h <;> rw [h] <;> simp
    · exact le_min (le_min h1 h2) (le_min h3 h4)
  unfold rotMax rotMin
  rcases le_total 0 c with hc | hc <;> rcases le_total 0 s with hs | hs
  · rw [key (m := c * u2 - s * v2) (by nlinarith) (by nlinarith) (by nlinarith) le_rfl (by simp),
      key' (m := c * u1 - s * v1) le_rfl (by nlinarith) (by nlinarith) (by nlinarith) (by simp), abs_of_nonneg hc, abs_of_nonneg hs]
    ring
  · rw [key (m := c * u2 - s * v1) (by nlinarith) le_rfl (by nlinarith) (by nlinarith) (by simp),
      key' (m := c * u1 - s * v2) (by nlinarith) (by nlinarith) le_rfl (by nlinarith) (by simp), abs_of_nonneg hc, abs_of_nonpos hs]
    ring
  · rw [key (m := c * u1 - s * v2) (by nlinarith) (by nlinarith) le_rfl (by nlinarith) (by simp),
      key' (m := c * u2 - s * v1) (by nlinarith) le_rfl (by nlinarith) (by nlinarith) (by simp), abs_of_nonpos hc, abs_of_nonneg hs]
    ring
  · rw [key (m := c * u1 - s * v1) le_rfl (by nlinarith) (by nlinarith) (by nlinarith) (by simp),
      key' (m := c * u2 - s * v2) (by nlinarith) (by nlinarith) (by nlinarith) le_rfl (by simp), abs_of_nonpos hc, abs_of_nonpos hs]
    ring

/-- every point of the rectangle rotates to at least the minimum -/
theorem rotMin_le {c s u1 u2 v1 v2 u v : ℝ} (h1 : u1 ≤ u) (h2 : u ≤ u2) (h3 : v2 ≤ v) (h4 : v ≤ v1) :
    rotMin c s u1 u2 v1 v2 ≤ c * u - s * v := by
  unfold rotMin
  rcases le_total 0 c with hc | hc <;> rcases le_total 0 s with hs | hs
  · exact (min_le_left _ _).trans ((min_le_left _ _).trans (by nlinarith))
  · exact (min_le_right _ _).trans ((min_le_left _ _).trans (by nlinarith))
  · exact (min_le_left _ _).trans ((min_le_right _ _).trans (by nlinarith))
  · exact (min_le_right _ _).trans ((min_le_right _ _).trans (by nlinarith))

theorem toU32_lt_real {z D : ℝ} (h : z + 1 ≤ D) (h1 : 1 ≤ D) (hD : ⌊D⌋₊ < 4294967296) : toU32 z < ⌊D⌋₊ := by
  have hD1 : 1 ≤ ⌊D⌋₊ := Nat.le_floor (by simpa using h1)
  rcases le_or_gt 0 z with h0 | h0
  · have hle : ⌊z⌋₊ + 1 ≤ ⌊D⌋₊ := by
      rw [← Nat.floor_add_one h0]; exact Nat.floor_le_floor h
    rw [toU32_real h0 (by omega)]; omega
  · unfold toU32
    rw [Ideal.toInt_eq]
    unfold realTrunc
    rw [if_neg (not_le.2 h0)]
    have : ⌈z⌉ ≤ 0 := by rw [Int.ceil_le]; simpa using h0.le
    omega

/-- the size of the rotated image -/
noncomputable def rotDim (a b θ : ℝ) : Nat := ⌊a * |Real.cos θ| + b * |Real.sin θ|⌋₊

section
variable {F : Type} [FloatOps F]

/-- what `rotate` does with the input pixel `(i, j)` -/
def rotateStep (P : Profile) (img : Image F) (cx cy : F) (i j : Nat) (output : Image F) : Res (Image F) := do
  let p ← img.getPixel P i j
  let output ← output.setPixel P (toU32 cx) (toU32 cy) p
  if cx >=. num 1 then
    let xm ← u32Sub P (toU32 cx) 1
    let p ← img.getPixel P i j
    output.setPixel P xm (toU32 cy) p
  else .ok output

/-- coordinates of a rotated point -/
def rotPtX (c s u v : F) : F := ofU8 0 +. c *. u +. FloatOps.neg s *. v
def rotPtY (c s u v : F) : F := ofU8 0 +. s *. u +. c *. v

/-- the two loops of `rotate` -/
def rotateLoops (P : Profile) (img : Image F) (c s xMax yMax : F) (output : Image F) : Res (Image F) :=
  forRange 0 img.info.height output fun j output =>
    forRange 0 img.info.width output fun i output =>
      rotateStep P img
        (rotPtX c s (ofNat (F := F) i -. ofNat (img.info.width / 2)) (ofNat (F := F) (img.info.height / 2) -. ofNat j) +. (xMax -. num 1))
        (yMax -. rotPtY c s (ofNat (F := F) i -. ofNat (img.info.width / 2)) (ofNat (F := F) (img.info.height / 2) -. ofNat j) -. num 1)
        i j output

theorem rotate_eq (P : Profile) (img : Image F) (deg : F) :
    rotate P img deg =
      (let c := FloatOps.cos (FloatOps.toRadians deg); let s := FloatOps.sin (FloatOps.toRadians deg)
       let u1 := FloatOps.neg (ofNat (F := F) (img.info.width / 2)); let u2 := ofNat (F := F) (img.info.width - img.info.width / 2)
       let v1 := ofNat (F := F) (img.info.height / 2)
       let v2 := ofNat (F := F) (img.info.height / 2) -. ofNat (F := F) img.info.height
       let xM := max4 (rotPtX c s u1 v1) (rotPtX c s u2 v1) (rotPtX c s u1 v2) (rotPtX c s u2 v2)
       let xm := min4 (rotPtX c s u1 v1) (rotPtX c s u2 v1) (rotPtX c s u1 v2) (rotPtX c s u2 v2)
       let yM := max4 (rotPtY c s u1 v1) (rotPtY c s u2 v1) (rotPtY c s u1 v2) (rotPtY c s u2 v2)
       let ym := min4 (rotPtY c s u1 v1) (rotPtY c s u2 v1) (rotPtY c s u1 v2) (rotPtY c s u2 v2)
       Image.blank P FloatOps.rnum ⟨toU32 (xM -. xm), toU32 (yM -. ym), img.info.channels, img.info.alpha⟩ >>=
         rotateLoops P img c s xM yM) := by
  have i0 : ∀ a b : F, idx [a, b] 0 = .ok a := fun _ _ => rfl
  have i1 : ∀ a b : F, idx [a, b] 1 = .ok b := fun _ _ => rfl
  unfold rotate
  dsimp only
  rw [u32Sub_ok (by omega : img.info.width / 2 ≤ img.info.width), ok_bind, vectorMul_2, ok_bind, vectorMul_2, ok_bind, vectorMul_2, ok_bind,
    vectorMul_2, ok_bind, i0, ok_bind, i0, ok_bind, i0, ok_bind, i0, ok_bind, i1, ok_bind, i1, ok_bind, i1, ok_bind,
    i1, ok_bind]
  change (Image.blank P FloatOps.rnum _ >>= _) = (Image.blank P FloatOps.rnum _ >>= _)
  congr 1
  funext out
  unfold rotateLoops
  refine forRange_congr fun j o _ _ => forRange_congr fun i o _ _ => ?_
  rw [vectorMulMut_2, ok_bind, i0, ok_bind, i1, ok_bind]
  rfl
end

theorem rotPtX_real (c s u v : ℝ) : rotPtX c s u v = c * u - s * v := by
  unfold rotPtX
  simp only [Ideal.add_eq, Ideal.mul_eq, Ideal.neg_eq, Ideal.ofU8_eq]
  norm_num; ring
theorem rotPtY_real (c s u v : ℝ) : rotPtY c s u v = s * u - (-c) * v := by
  unfold rotPtY
  simp only [Ideal.add_eq, Ideal.mul_eq, Ideal.ofU8_eq]
  norm_num

/-- the sides of the rectangle, measured from the centre -/
noncomputable def rotU1 (w : Nat) : ℝ := -((w / 2 : Nat) : ℝ)
noncomputable def rotU2 (w : Nat) : ℝ := (w : ℝ) - ((w / 2 : Nat) : ℝ)
noncomputable def rotV1 (h : Nat) : ℝ := ((h / 2 : Nat) : ℝ)
noncomputable def rotV2 (h : Nat) : ℝ := ((h / 2 : Nat) : ℝ) - (h : ℝ)

/-- the code of `rotate`, with its real-number formulas spelled out -/
theorem rotate_real (P : Profile) (img : Image ℝ) (deg : ℝ) {c s xM xm yM ym : ℝ}
    (hc : c = Real.cos (rotAngle deg)) (hs : s = Real.sin (rotAngle deg))
    (hxM : xM = rotMax c s (rotU1 img.info.width) (rotU2 img.info.width) (rotV1 img.info.height) (rotV2 img.info.height))
    (hxm : xm = rotMin c s (rotU1 img.info.width) (rotU2 img.info.width) (rotV1 img.info.height) (rotV2 img.info.height))
    (hyM : yM = rotMax s (-c) (rotU1 img.info.width) (rotU2 img.info.width) (rotV1 img.info.height) (rotV2 img.info.height))
    (hym : ym = rotMin s (-c) (rotU1 img.info.width) (rotU2 img.info.width) (rotV1 img.info.height) (rotV2 img.info.height)) :
    rotate P img deg = (Image.blank P FloatOps.rnum ⟨toU32 (xM - xm), toU32 (yM - ym), img.info.channels, img.info.alpha⟩ >>=
        rotateLoops P img c s xM yM) := by
  have hcast : (ofNat (F := ℝ) (img.info.width - img.info.width / 2)) = rotU2 img.info.width := by
    rw [Ideal.ofNat_eq]; exact Nat.cast_sub (by omega)
  have h1 : FloatOps.neg (ofNat (F := ℝ) (img.info.width / 2)) = rotU1 img.info.width := by
    rw [Ideal.neg_eq, Ideal.ofNat_eq]; rfl
  have h2 : ofNat (F := ℝ) (img.info.height / 2) -. ofNat (F := ℝ) img.info.height = rotV2 img.info.height := by
    rw [Ideal.sub_eq, Ideal.ofNat_eq, Ideal.ofNat_eq]; rfl
  have h3 : ofNat (F := ℝ) (img.info.height / 2) = rotV1 img.info.height := by rw [Ideal.ofNat_eq]; rfl
  have ec : FloatOps.cos (FloatOps.toRadians deg) = c := hc.symm
  have es : FloatOps.sin (FloatOps.toRadians deg) = s := hs.symm
  rw [rotate_eq]
  dsimp only
  rw [h2, hcast, h1, h3, ec, es, real_max4, real_max4, real_min4, real_min4]
  simp only [rotPtX_real, rotPtY_real, Ideal.sub_eq]
  rw [hxM, hxm, hyM, hym]
  rfl

/-- position of the pixel `(i, j)` relative to the centre -/
theorem rot_centre {w i : Nat} (hi : i < w) : |(i : ℝ) - ((w / 2 : Nat) : ℝ)| ≤ ((w / 2 : Nat) : ℝ) := by
  have h1 : (i : ℝ) ≤ ((w / 2 : Nat) : ℝ) + ((w / 2 : Nat) : ℝ) := by exact_mod_cast (by omega : i ≤ w / 2 + w / 2)
  have h2 : (0 : ℝ) ≤ i := by positivity
  rw [abs_le]; constructor <;> linarith

/-- the exact positions -/
noncomputable def rotCx (c s xM : ℝ) (w h i j : Nat) : ℝ :=
  c * ((i : ℝ) - ((w / 2 : Nat) : ℝ)) - s * (((h / 2 : Nat) : ℝ) - (j : ℝ)) + (xM - 1)
noncomputable def rotCy (c s yM : ℝ) (w h i j : Nat) : ℝ :=
  yM - (s * ((i : ℝ) - ((w / 2 : Nat) : ℝ)) - (-c) * (((h / 2 : Nat) : ℝ) - (j : ℝ))) - 1

theorem rotateLoops_real (P : Profile) (img : Image ℝ) (c s xM yM : ℝ) (out : Image ℝ) :
    rotateLoops P img c s xM yM out = forRange 0 img.info.height out fun j output =>
      forRange 0 img.info.width output fun i output =>
        rotateStep P img (rotCx c s xM img.info.width img.info.height i j) (rotCy c s yM img.info.width img.info.height i j)
          i j output := by
  unfold rotateLoops
  refine forRange_congr fun j o _ _ => forRange_congr fun i o _ _ => ?_
  simp only [rotPtX_real, rotPtY_real, Ideal.sub_eq, Ideal.add_eq, Ideal.ofNat_eq, Ideal.num_eq, Int.cast_one]
  rfl

/-- one step of the loops, when both coordinates are inside -/
theorem rotateStep_ok (P : Profile) {img out : Image ℝ} (h : img.WF) {i j : Nat} (hi : i < img.info.width)
    (hj : j < img.info.height) (ho : out.WF) (hch : out.info.channels = img.info.channels) {cx cy : ℝ}
    (hx : toU32 cx < out.info.width) (hy : toU32 cy < out.info.height) :
    ∃ out', rotateStep P img cx cy i j out = .ok out' ∧ out'.WF ∧ out'.info = out.info ∧
      ∀ x' y', x' < out.info.width → y' < out.info.height →
        out'.px x' y' = if y' = toU32 cy ∧ (x' = toU32 cx ∨ (1 ≤ cx ∧ x' = toU32 cx - 1)) then img.px i j else out.px x' y' := by
  have hl : (img.px i j).length = out.info.channels := by rw [hch]; exact Image.px_length h hi hj
  unfold rotateStep
  rw [Image.getPixel_eq P h hi hj, ok_bind, Image.setPixel_eq P ho hx hy hl, ok_bind]
  have w1 := Image.write_WF ho (row_lt hx hy) hl
  have p1 := fun x' y' (hx' : x' < out.info.width) (hy' : y' < out.info.height) => Image.px_write ho hx hy hx' hy' hl
  by_cases h1 : 1 ≤ cx
  · have e : (cx >=. num 1) = true := by
      show (num 1 <=. cx) = true
      rw [Ideal.le_eq]; simpa using h1
    have hge : 1 ≤ toU32 cx := by
      unfold toU32
      rw [Ideal.toInt_eq]
      unfold realTrunc
      rw [if_pos (by linarith)]
      have : (1 : ℤ) ≤ ⌊cx⌋ := by rw [Int.le_floor]; simpa using h1
      omega
    rw [if_pos e, u32Sub_ok hge, ok_bind, ok_bind]
    have hx2 : toU32 cx - 1 < (out.write (toU32 cy * out.info.width + toU32 cx) (img.px i j)).info.width := by
      show toU32 cx - 1 < out.info.width; omega
    refine ⟨_, Image.setPixel_eq P w1 hx2 hy hl, Image.write_WF w1 (row_lt hx2 hy) hl, rfl, ?_⟩
    intro x' y' hx' hy'
    rw [Image.px_write w1 hx2 hy hx' hy' hl, p1 x' y' hx' hy']
    split_ifs <;> first | rfl | (exfalso; omega) | (exfalso; simp_all)
  · have e : ¬ (cx >=. num 1) = true := by
      show ¬ (num 1 <=. cx) = true
      rw [Ideal.le_eq]; simpa using h1
    rw [if_neg e]
    refine ⟨_, rfl, w1, rfl, ?_⟩
    intro x' y' hx' hy'
    rw [p1 x' y' hx' hy']
    simp only [h1, false_and, or_false]
    split_ifs <;> first | rfl | (exfalso; omega)

/-- a non-empty image whose rotation fits the machine types -/
structure RotateInput (img : Image ℝ) (deg : ℝ) : Prop where
  wf : img.WF
  wpos : 0 < img.info.width
  hpos : 0 < img.info.height
  info : ImageInfo.WF ⟨rotDim img.info.width img.info.height (rotAngle deg), rotDim img.info.height img.info.width (rotAngle deg),
    img.info.channels, img.info.alpha⟩

theorem one_le_extent {a b : ℝ} (ha : 1 ≤ a) (hb : 1 ≤ b) (θ : ℝ) : 1 ≤ a * |Real.cos θ| + b * |Real.sin θ| := by
  have h1 := Real.cos_sq_add_sin_sq θ
  have h2 := Real.abs_cos_le_one θ
  have h3 := Real.abs_sin_le_one θ
  have h4 := abs_nonneg (Real.cos θ)
  have h5 := abs_nonneg (Real.sin θ)
  rw [← sq_abs (Real.cos θ), ← sq_abs (Real.sin θ)] at h1
  nlinarith

/-- **C79** (exact arithmetic): rotate never panics, for any angle and any non-empty image whose rotated size is
representable; the result has `floor(W |cos| + H |sin|)` columns and `floor(H |cos| + W |sin|)` rows. -/
theorem c79_rotate_ok (P : Profile) {img : Image ℝ} {deg : ℝ} (h : RotateInput img deg) :
    ∃ out, rotate P img deg = .ok out ∧ out.WF ∧
      out.info = ⟨rotDim img.info.width img.info.height (rotAngle deg), rotDim img.info.height img.info.width (rotAngle deg),
        img.info.channels, img.info.alpha⟩ := by
  set w := img.info.width with hw
  set hh := img.info.height with hhh
  set c := Real.cos (rotAngle deg) with hc
  set s := Real.sin (rotAngle deg) with hs
  set xM := rotMax c s (rotU1 w) (rotU2 w) (rotV1 hh) (rotV2 hh) with hxM
  set xm := rotMin c s (rotU1 w) (rotU2 w) (rotV1 hh) (rotV2 hh) with hxm
  set yM := rotMax s (-c) (rotU1 w) (rotU2 w) (rotV1 hh) (rotV2 hh) with hyM
  set ym := rotMin s (-c) (rotU1 w) (rotU2 w) (rotV1 hh) (rotV2 hh) with hym
  have hw1 : (1 : ℝ) ≤ w := by exact_mod_cast h.wpos
  have hh1 : (1 : ℝ) ≤ hh := by exact_mod_cast h.hpos
  have hu : rotU1 w ≤ rotU2 w := by unfold rotU1 rotU2; linarith
  have hv : rotV2 hh ≤ rotV1 hh := by unfold rotV1 rotV2; linarith
  have ex : xM - xm = (w : ℝ) * |c| + hh * |s| := by
    rw [hxM, hxm, rotExtent hu hv]; unfold rotU1 rotU2 rotV1 rotV2; ring
  have ey : yM - ym = (hh : ℝ) * |c| + w * |s| := by
    rw [hyM, hym, rotExtent hu hv, abs_neg]; unfold rotU1 rotU2 rotV1 rotV2; ring
  have dx1 : 1 ≤ xM - xm := by rw [ex]; exact one_le_extent hw1 hh1 _
  have dy1 : 1 ≤ yM - ym := by rw [ey]; exact one_le_extent hh1 hw1 _
  have fx : ⌊xM - xm⌋₊ = rotDim w hh (rotAngle deg) := by rw [ex]; rfl
  have fy : ⌊yM - ym⌋₊ = rotDim hh w (rotAngle deg) := by rw [ey]; rfl
  have wx : ⌊xM - xm⌋₊ < 4294967296 := by rw [fx]; exact h.info.width
  have wy : ⌊yM - ym⌋₊ < 4294967296 := by rw [fy]; exact h.info.height
  obtain ⟨b, eb, hb⟩ := Image.blank_eq P (FloatOps.rnum (F := ℝ)) h.info
  have hbi := hb.info_eq
  rw [rotate_real P img deg hc hs hxM hxm hyM hym, toU32_real (by linarith) wx, toU32_real (by linarith) wy, fx, fy, eb, ok_bind,
    rotateLoops_real]
  obtain ⟨out, e, ho, hi⟩ := nested_rule (W := w) (H := hh) (s := b)
    (f := fun j i output => rotateStep P img (rotCx c s xM w hh i j) (rotCy c s yM w hh i j) i j output)
    (fun _ _ (o : Image ℝ) => o.WF ∧ o.info = b.info) ⟨hb.WF, rfl⟩ (fun _ _ _ h => h)
    (by
      rintro j i o hj hi ⟨ow, oi⟩
      have bi := rot_centre hi
      have bj := rot_centre hj
      rw [abs_le] at bi bj
      have w2 : ((w / 2 : Nat) : ℝ) + ((w / 2 : Nat) : ℝ) ≤ w := by exact_mod_cast (by omega : w / 2 + w / 2 ≤ w)
      have h2 : ((hh / 2 : Nat) : ℝ) + ((hh / 2 : Nat) : ℝ) ≤ hh := by exact_mod_cast (by omega : hh / 2 + hh / 2 ≤ hh)
      have m1 : xm ≤ c * (-((i : ℝ) - ((w / 2 : Nat) : ℝ))) - s * (-(((hh / 2 : Nat) : ℝ) - (j : ℝ))) := by
        apply rotMin_le <;> unfold rotU1 rotU2 rotV1 rotV2 at * <;> linarith
      have m2 : ym ≤ s * ((i : ℝ) - ((w / 2 : Nat) : ℝ)) - (-c) * (((hh / 2 : Nat) : ℝ) - (j : ℝ)) := by
        apply rotMin_le <;> unfold rotU1 rotU2 rotV1 rotV2 at * <;> linarith
      have cx : rotCx c s xM w hh i j + 1 ≤ xM - xm := by unfold rotCx; linarith
      have cy : rotCy c s yM w hh i j + 1 ≤ yM - ym := by unfold rotCy; linarith
      have lx := toU32_lt_real cx dx1 wx
      have ly := toU32_lt_real cy dy1 wy
      rw [fx] at lx
      rw [fy] at ly
      obtain ⟨o', e', w', i', _⟩ := rotateStep_ok P h.wf hi hj ow (by rw [oi, hbi]) (by rw [oi, hbi]; exact lx)
        (by rw [oi, hbi]; exact ly)
      exact ⟨o', e', w', by rw [i', oi]⟩)
  exact ⟨out, e, ho, by rw [hi, hbi]⟩

/-! ### no rotation -/

theorem rotAngle_zero : rotAngle 0 = 0 := by
  unfold rotAngle FloatOps.toRadians
  simp

/-- **Specification of what rotate(img, 0) does**: the input column shown in output column `x'` ... -/
def rot0Col (w x' : Nat) : Option Nat :=
  if w % 2 = 1 then some (min (x' + 1) (w - 1))
  else if x' + 1 < w then some (min (x' + 2) (w - 1)) else none
/-- ... and the input row shown in output row `y'` -/
def rot0Row (h y' : Nat) : Option Nat :=
  if h = 1 then some 0 else if y' + 1 < h then some (y' + 1) else none

/-- columns and rows after part of the loops (`d = 0` for odd, `1` for even widths) -/
def rot0ColAt (d i x' : Nat) : Option Nat :=
  if x' + d + 1 < i then some (x' + d + 1) else if x' + d < i then some (x' + d)
  else if d = 1 ∧ x' = 0 ∧ 0 < i then some 0 else none
def rot0RowAt (j y' : Nat) : Option Nat :=
  if y' + 1 < j then some (y' + 1) else if y' = 0 ∧ 0 < j then some 0 else none

theorem rot0ColAt_end {w x' : Nat} (hx : x' < w) : rot0ColAt (1 - w % 2) w x' = rot0Col w x' := by
  unfold rot0ColAt rot0Col
  rcases Nat.mod_two_eq_zero_or_one w with h | h <;> rw [h] <;> split_ifs <;> first | (exfalso; omega) | (congr 1; omega) | rfl

theorem rot0RowAt_end {h y' : Nat} (hy : y' < h) : rot0RowAt h y' = rot0Row h y' := by
  unfold rot0RowAt rot0Row
  split_ifs <;> (try simp) <;> omega

theorem rot0ColAt_succ (d i x' : Nat) (hd : d ≤ 1) :
    rot0ColAt d (i + 1) x' = if x' = i - d ∨ (1 ≤ i - d ∧ x' = i - d - 1) then some i else rot0ColAt d i x' := by
  unfold rot0ColAt
  split_ifs <;> (try simp) <;> omega

theorem rot0RowAt_succ (j y' : Nat) :
    rot0RowAt (j + 1) y' = if y' = j - 1 then some j else rot0RowAt j y' := by
  unfold rot0RowAt
  split_ifs <;> (try simp) <;> omega

/-- the pixel shown for given source column and row (zero if there is none) -/
def rot0Pixel (img : Image ℝ) (col row : Option Nat) : List ℝ :=
  match col, row with
  | some k, some r => img.px k r
  | _, _ => List.replicate img.info.channels 0

/-- **C71, what rotate(img, 0) returns** (exact arithmetic): an image of the same size, shifted up by one row and left by
one or two columns; the last row (if there is more than one) and, for even widths, the last column are zero. -/
theorem c71_describe_partial (P : Profile) {img : Image ℝ} (h : img.WF) (hw : 0 < img.info.width) (hh : 0 < img.info.height) :
    ∃ out, rotate P img 0 = .ok out ∧ out.WF ∧ out.info = img.info ∧
      ∀ x' y', x' < img.info.width → y' < img.info.height →
        out.px x' y' = rot0Pixel img (rot0Col img.info.width x') (rot0Row img.info.height y') := by
  have w0 : (0 : ℝ) ≤ img.info.width := by positivity
  have h0 : (0 : ℝ) ≤ img.info.height := by positivity
  have wd : ((img.info.width / 2 : Nat) : ℝ) ≤ img.info.width := by exact_mod_cast Nat.div_le_self _ _
  have hd : ((img.info.height / 2 : Nat) : ℝ) ≤ img.info.height := by exact_mod_cast Nat.div_le_self _ _
  have wd0 : (0 : ℝ) ≤ ((img.info.width / 2 : Nat) : ℝ) := by positivity
  have hd0 : (0 : ℝ) ≤ ((img.info.height / 2 : Nat) : ℝ) := by positivity
  have exM : rotU2 img.info.width = rotMax 1 0 (rotU1 img.info.width) (rotU2 img.info.width) (rotV1 img.info.height) (rotV2 img.info.height) := by
    unfold rotMax rotU1 rotU2
    rw [eq_comm]
    simp only [zero_mul, one_mul, sub_zero]
    rw [max_eq_right (by linarith : -((img.info.width / 2 : Nat) : ℝ) ≤ (img.info.width : ℝ) - ((img.info.width / 2 : Nat) : ℝ)), max_self]
  have exm : rotU1 img.info.width = rotMin 1 0 (rotU1 img.info.width) (rotU2 img.info.width) (rotV1 img.info.height) (rotV2 img.info.height) := by
    unfold rotMin rotU1 rotU2
    rw [eq_comm]
    simp only [zero_mul, one_mul, sub_zero]
    rw [min_eq_left (by linarith : -((img.info.width / 2 : Nat) : ℝ) ≤ (img.info.width : ℝ) - ((img.info.width / 2 : Nat) : ℝ)), min_self]
  have eyM : rotV1 img.info.height = rotMax 0 (-1) (rotU1 img.info.width) (rotU2 img.info.width) (rotV1 img.info.height) (rotV2 img.info.height) := by
    unfold rotMax rotV1 rotV2
    rw [eq_comm]
    simp only [zero_mul, zero_sub, neg_mul, one_mul, neg_neg, max_self]
    rw [max_eq_left (by linarith)]
  have eym : rotV2 img.info.height = rotMin 0 (-1) (rotU1 img.info.width) (rotU2 img.info.width) (rotV1 img.info.height) (rotV2 img.info.height) := by
    unfold rotMin rotV1 rotV2
    rw [eq_comm]
    simp only [zero_mul, zero_sub, neg_mul, one_mul, neg_neg, min_self]
    rw [min_eq_right (by linarith)]
  obtain ⟨b, eb, hb⟩ := Image.blank_eq P (FloatOps.rnum (F := ℝ)) h.infoWF
  have hbi := hb.info_eq
  have tw : toU32 (rotU2 img.info.width - rotU1 img.info.width) = img.info.width := by
    rw [show rotU2 img.info.width - rotU1 img.info.width = (img.info.width : ℝ) by unfold rotU1 rotU2; ring]
    exact real_toU32 _ h.width
  have th : toU32 (rotV1 img.info.height - rotV2 img.info.height) = img.info.height := by
    rw [show rotV1 img.info.height - rotV2 img.info.height = (img.info.height : ℝ) by unfold rotV1 rotV2; ring]
    exact real_toU32 _ h.height
  rw [rotate_real P img 0 (c := 1) (s := 0) (by rw [rotAngle_zero, Real.cos_zero]) (by rw [rotAngle_zero, Real.sin_zero])
    exM exm eyM eym, tw, th, eb, ok_bind, rotateLoops_real]
  generalize hdd : 1 - img.info.width % 2 = d
  have hd1 : d ≤ 1 := by omega
  have hwd : img.info.width + d = 2 * (img.info.width / 2) + 1 := by omega
  have hwd' : (img.info.width : ℝ) + d = 2 * ((img.info.width / 2 : Nat) : ℝ) + 1 := by exact_mod_cast hwd
  have ecx : ∀ i j : Nat, rotCx 1 0 (rotU2 img.info.width) img.info.width img.info.height i j = (((i : ℤ) - (d : ℤ) : ℤ) : ℝ) := by
    intro i j
    unfold rotCx rotU2
    push_cast
    linarith
  have ecy : ∀ i j : Nat, rotCy 1 0 (rotV1 img.info.height) img.info.width img.info.height i j = (((j : ℤ) - 1 : ℤ) : ℝ) := by
    intro i j
    unfold rotCy rotV1
    push_cast
    ring
  have tz : ∀ z : ℤ, z < 4294967296 → toU32 (z : ℝ) = z.toNat := by
    intro z hz
    unfold toU32
    rw [Ideal.toInt_eq, realTrunc_int]
    omega
  have hw32 : img.info.width < 4294967296 := h.width
  have hh32 : img.info.height < 4294967296 := h.height
  obtain ⟨out, e, ho, hi, hv⟩ := nested_rule (W := img.info.width) (H := img.info.height) (s := b)
    (f := fun j i output => rotateStep P img (rotCx 1 0 (rotU2 img.info.width) img.info.width img.info.height i j)
      (rotCy 1 0 (rotV1 img.info.height) img.info.width img.info.height i j) i j output)
    (fun j i (o : Image ℝ) => o.WF ∧ o.info = img.info ∧ ∀ x' y', x' < img.info.width → y' < img.info.height →
      o.px x' y' = if y' = j - 1 ∧ (rot0ColAt d i x').isSome then rot0Pixel img (rot0ColAt d i x') (some j)
        else rot0Pixel img (rot0ColAt d img.info.width x') (rot0RowAt j y'))
    ⟨hb.WF, hbi, fun x' y' hx hy => by
      rw [hb.px_eq hx hy]
      have e1 : rot0ColAt d 0 x' = none := by unfold rot0ColAt; split_ifs <;> first | rfl | omega
      have e2 : rot0RowAt 0 y' = none := by unfold rot0RowAt; split_ifs <;> first | rfl | omega
      rw [e1, e2, if_neg (by simp)]
      have e3 : (FloatOps.rnum (F := ℝ)).ofU8 0 = 0 := by show (FloatOps.ofU8 0 : ℝ) = 0; simp
      rw [e3]
      cases rot0ColAt d img.info.width x' <;> rfl⟩
    (by
      rintro j o hj ⟨ow, oi, ov⟩
      refine ⟨ow, oi, fun x' y' hx hy => ?_⟩
      rw [ov x' y' hx hy, rot0RowAt_succ]
      have e1 : rot0ColAt d 0 x' = none := by unfold rot0ColAt; split_ifs <;> first | rfl | omega
      rw [e1, if_neg (by simp : ¬ (y' = j + 1 - 1 ∧ (none : Option Nat).isSome))]
      by_cases hy' : y' = j - 1
      · rw [if_pos hy']
        rcases hcol : rot0ColAt d img.info.width x' with _ | k
        · rw [if_neg (by simp)]
          cases rot0RowAt j y' <;> rfl
        · rw [if_pos ⟨hy', rfl⟩]
      · rw [if_neg hy', if_neg (fun hc => hy' hc.1)])
    (by
      rintro j i o hj hi ⟨ow, oi, ov⟩
      have lx : toU32 (rotCx 1 0 (rotU2 img.info.width) img.info.width img.info.height i j) = i - d := by
        rw [ecx, tz _ (by omega)]; omega
      have ly : toU32 (rotCy 1 0 (rotV1 img.info.height) img.info.width img.info.height i j) = j - 1 := by
        rw [ecy, tz _ (by omega)]; omega
      have l1 : 1 ≤ rotCx 1 0 (rotU2 img.info.width) img.info.width img.info.height i j ↔ 1 ≤ i - d := by
        rw [ecx]
        constructor
        · intro hc
          have : (1 : ℤ) ≤ (i : ℤ) - d := by exact_mod_cast hc
          omega
        · intro hc
          have : (1 : ℤ) ≤ (i : ℤ) - d := by omega
          exact_mod_cast this
      obtain ⟨o', e', w', i', v'⟩ := rotateStep_ok P h hi hj ow (by rw [oi]) (cx := rotCx 1 0 (rotU2 img.info.width) img.info.width img.info.height i j)
        (cy := rotCy 1 0 (rotV1 img.info.height) img.info.width img.info.height i j) (by rw [lx, oi]; omega) (by rw [ly, oi]; omega)
      refine ⟨o', e', w', by rw [i', oi], fun x' y' hx hy => ?_⟩
      rw [v' x' y' (by rw [oi]; exact hx) (by rw [oi]; exact hy), lx, ly, ov x' y' hx hy, rot0ColAt_succ d i x' hd1]
      simp only [l1]
      by_cases hy' : y' = j - 1
      · by_cases hx' : x' = i - d ∨ (1 ≤ i - d ∧ x' = i - d - 1)
        · rw [if_pos ⟨hy', hx'⟩, if_pos hx', if_pos ⟨hy', rfl⟩]; rfl
        · rw [if_neg (fun hc => hx' hc.2), if_neg hx']
      · rw [if_neg (fun hc => hy' hc.1), if_neg (fun hc => hy' hc.1), if_neg (fun hc => hy' hc.1)])
  refine ⟨out, e, ho, hi, fun x' y' hx hy => ?_⟩
  rw [hv x' y' hx hy]
  have e1 : rot0ColAt d 0 x' = none := by unfold rot0ColAt; split_ifs <;> first | rfl | omega
  rw [e1, if_neg (by simp), ← hdd, rot0ColAt_end hx, rot0RowAt_end hy]

/-- **C71, one pixel** (exact arithmetic): a 1 x 1 image is returned unchanged. -/
theorem c71_single_partial (P : Profile) {img : Image ℝ} (h : img.WF) (hw : img.info.width = 1) (hh : img.info.height = 1) :
    rotate P img 0 = .ok img := by
  obtain ⟨out, e, wf, inf, hv⟩ := c71_describe_partial P h (by omega) (by omega)
  rw [e]
  congr 1
  refine Image.ext_px wf h inf ?_
  intro x y hx hy
  rw [inf] at hx hy
  rw [hv x y hx hy, hw, hh]
  have : x = 0 := by omega
  have : y = 0 := by omega
  subst x y
  rfl

/-- **C71 is violated** by every image with at least two rows whose last row is not zero: the last row of
rotate(img, 0) is zero. (Likewise the last column for even widths: `c71_describe_partial`.) -/
theorem c71_violated (P : Profile) {img : Image ℝ} (h : img.WF) (hh : 2 ≤ img.info.height) {x : Nat} (hx : x < img.info.width)
    (hne : img.px x (img.info.height - 1) ≠ List.replicate img.info.channels 0) : rotate P img 0 ≠ .ok img := by
  intro hc
  obtain ⟨out, e, wf, inf, hv⟩ := c71_describe_partial P h (by omega) (by omega)
  rw [e] at hc
  injection hc with hc
  subst hc
  apply hne
  rw [hv x (out.info.height - 1) hx (by omega)]
  have : rot0Row out.info.height (out.info.height - 1) = none := by
    unfold rot0Row; split_ifs <;> first | rfl | omega
  rw [this]
  cases rot0Col out.info.width x <;> rfl

/-- a column of two white pixels satisfies the hypotheses -/
example (P : Profile) : rotate P ⟨⟨1, 2, 1, false⟩, [1, 1]⟩ (0 : ℝ) ≠ .ok ⟨⟨1, 2, 1, false⟩, [1, 1]⟩ := by
  refine c71_violated P ?_ ?_ (x := 0) Nat.zero_lt_one ?_
  · exact ⟨show 1 < 4294967296 by decide, show 2 < 4294967296 by decide, show 1 < 256 by decide,
      show 1 * 2 < 4294967296 by decide, show 1 * 2 * 1 < 4294967296 by decide, rfl⟩
  · exact le_rfl
  · simp [Image.px]
end Imgproc

import Verif.Props.Scale5
import Mathlib.Analysis.Real.Pi.Bounds
import Mathlib.Analysis.SpecialFunctions.Trigonometric.Bounds
/-! Property C84: Lanczos scaling. -/
namespace Imgproc
open FloatOps
open Finset (range)

/-- **Specification**: the number the code uses for pi, the f32 nearest to it -/
noncomputable def f32Pi : ℝ := 13176795 / 4194304
/-- **Specification**: the normalised sinc function -/
noncomputable def normSinc (x : ℝ) : ℝ := if x = 0 then 1 else Real.sin (f32Pi * x) / (f32Pi * x)
/-- **Specification**: the Lanczos kernel of size `a` -/
noncomputable def lanczosWindow (a : Nat) (x : ℝ) : ℝ := if |x| < a then normSinc x * normSinc (x / a) else 0
/-- weight of the `i`-th column, `i = 0, ..., 2a - 1` (offset `i + 1 - a`), at output column `x` for factor `f`: the kernel
at the distance between the column and the position -/
noncomputable def lanczosTap (a : Nat) (f : ℝ) (x i : Nat) : ℝ := lanczosWindow a (fracCol f x - ((i : ℝ) + 1 - a))

theorem f32Pi_pos : 0 < f32Pi := by unfold f32Pi; norm_num

theorem f32Pi_near : |f32Pi - Real.pi| ≤ 8.75e-8 := by
  have h1 := Real.pi_gt_d20
  have h2 := Real.pi_lt_d20
  unfold f32Pi
  rw [abs_le]
  constructor <;> norm_num at * <;> linarith

theorem sincNorm_real (x : ℝ) : sincNorm x = normSinc x := by
  unfold sincNorm normSinc
  have h0 : (num 0 : ℝ) = 0 := by simp
  by_cases h : x = 0
  · rw [if_pos (by rw [Ideal.eq_eq, h0]; exact h), if_pos h]; simp
  · rw [if_neg (by rw [Ideal.eq_eq, h0]; exact h), if_neg h]
    have hp : (FloatOps.pi : ℝ) = f32Pi := by unfold FloatOps.pi f32Pi; simp
    simp only [hp]
    rfl

theorem lanczosKernel_real (x : ℝ) (a : Nat) : lanczosKernel x (ofNat a) = lanczosWindow a x := by
  unfold lanczosKernel lanczosWindow
  have e : ((x >. FloatOps.neg (ofNat (F := ℝ) a) && x <. ofNat (F := ℝ) a) = true) ↔ |x| < a := by
    rw [Bool.and_eq_true, FloatOps.gt, Ideal.lt_eq, Ideal.lt_eq, abs_lt]
    simp
  by_cases h : |x| < a
  · rw [if_pos (e.2 h), if_pos h, sincNorm_real, sincNorm_real]; simp
  · rw [if_neg (fun hh => h (e.1 hh)), if_neg h]; simp

theorem abs_sin_le' (x : ℝ) : |Real.sin x| ≤ |x| := by
  by_cases h : x = 0
  · subst h; simp
  · exact (Real.abs_sin_lt_abs h).le

theorem normSinc_neg (x : ℝ) : normSinc (-x) = normSinc x := by
  unfold normSinc
  by_cases h : x = 0
  · subst h; simp
  · rw [if_neg (by simpa using h), if_neg h, mul_neg, Real.sin_neg, neg_div_neg_eq]

theorem abs_normSinc_le (x : ℝ) : |normSinc x| ≤ 1 := by
  unfold normSinc
  split
  · simp
  · rename_i h
    rw [abs_div]
    exact div_le_one_of_le₀ (abs_sin_le' _) (abs_nonneg _)

theorem abs_normSinc_int {n : ℤ} (h : n ≠ 0) : |normSinc n| ≤ 2.8e-8 := by
  have hn : (n : ℝ) ≠ 0 := by exact_mod_cast h
  unfold normSinc
  rw [if_neg hn, abs_div, abs_mul, abs_of_pos f32Pi_pos]
  have hs : |Real.sin (f32Pi * n)| ≤ 8.75e-8 * |(n : ℝ)| := by
    have e := Real.sin_sub_int_mul_pi (f32Pi * n) n
    have e2 : |Real.sin (f32Pi * n)| = |Real.sin (f32Pi * n - n * Real.pi)| := by
      rw [e, abs_mul, abs_zpow, abs_neg, abs_one, one_zpow, one_mul]
    rw [e2]
    refine (abs_sin_le' _).trans ?_
    rw [show f32Pi * (n : ℝ) - n * Real.pi = (f32Pi - Real.pi) * n by ring, abs_mul]
    exact mul_le_mul_of_nonneg_right f32Pi_near (abs_nonneg _)
  have hp : 0 < f32Pi * |(n : ℝ)| := mul_pos f32Pi_pos (abs_pos.2 hn)
  rw [div_le_iff₀ hp]
  refine hs.trans ?_
  rw [← mul_assoc]
  refine mul_le_mul_of_nonneg_right ?_ (abs_nonneg _)
  unfold f32Pi
  norm_num

/-- **C84, the kernel** is even, 1 at 0, at most 1 in absolute value, 0 outside `(-a, a)`, and at most `2.8e-8` at the
other integers (not 0: the code uses the f32 nearest to pi). -/
theorem c84_kernel (a : Nat) :
    (∀ x, lanczosWindow a (-x) = lanczosWindow a x) ∧ (0 < a → lanczosWindow a 0 = 1) ∧ (∀ x, |lanczosWindow a x| ≤ 1) ∧
    (∀ x : ℝ, a ≤ |x| → lanczosWindow a x = 0) ∧ ∀ n : ℤ, n ≠ 0 → |lanczosWindow a n| ≤ 2.8e-8 := by
  refine ⟨fun x => ?_, fun h => ?_, fun x => ?_, fun x h => ?_, fun n h => ?_⟩
  · unfold lanczosWindow; rw [abs_neg, normSinc_neg, neg_div, normSinc_neg]
  · unfold lanczosWindow normSinc
    rw [if_pos (by simpa using h), zero_div, if_pos rfl, one_mul]
  · unfold lanczosWindow
    split
    · rw [abs_mul]; exact mul_le_one₀ (abs_normSinc_le _) (abs_nonneg _) (abs_normSinc_le _)
    · simp
  · unfold lanczosWindow; rw [if_neg (not_lt.2 h)]
  · unfold lanczosWindow
    split
    · rw [abs_mul]
      calc _ ≤ 2.8e-8 * 1 := mul_le_mul (abs_normSinc_int h) (abs_normSinc_le _) (abs_nonneg _) (by norm_num)
        _ = _ := by norm_num
    · norm_num

section
variable {F : Type} [FloatOps F]

/-- a scale_lanczos call whose interpolation succeeds everywhere -/
theorem scaleLanczos_core (P : Profile) {img : Image F} {xf yf : F} {size : Nat} {W H : Nat}
    (hx : checkNonNeg (FloatOps.rnum (F := F)) xf = .ok ()) (hy : checkNonNeg (FloatOps.rnum (F := F)) yf = .ok ())
    (hW : scaleDim img.info.width xf = W) (hH : scaleDim img.info.height yf = H)
    (hi : ImageInfo.WF ⟨W, H, img.info.channels, img.info.alpha⟩) (G : Nat → Nat → List F)
    (hlen : ∀ x y, x < W → y < H → (G x y).length = img.info.channels)
    (hG : ∀ x y, x < W → y < H → interpolateLanczos P img xf yf size x y = .ok (G x y)) :
    ∃ out, scaleLanczos P img xf yf size = .ok out ∧ out.Shows ⟨W, H, img.info.channels, img.info.alpha⟩ G := by
  obtain ⟨b, out, eb, hbi, e, ho⟩ := Image.fillAll_set P (FloatOps.rnum (F := F)) hi G hlen
    (fun y x => interpolateLanczos P img xf yf size x y) (fun x y h1 h2 => hG x y h1 h2)
  refine ⟨out, ?_, ho⟩
  unfold scaleLanczos
  have hs : checkNonNeg u32Num size = .ok () := by
    unfold checkNonNeg
    have : u32Num.lt size (u32Num.ofU8 0) = false := by simp [u32Num]
    rw [if_neg (by rw [this]; decide)]
  rw [hx, ok_bind, hy, ok_bind, hs, ok_bind, hW, hH, eb, ok_bind]
  unfold scaleLoop
  rw [hbi]
  have := fill_bound_congr (out0 := b) (x0 := 0) (y0 := 0) (y1 := H) (x1 := W) (fun o => o.info.width)
    (fun o ho => by rw [ho, hbi]) (fun j i o => do
      let p ← interpolateLanczos P img xf yf size i j
      o.setPixel P i j p) (by
        intro j i o o' h
        obtain ⟨_, _, h⟩ := bind_eq_ok h
        exact Image.setPixel_info h)
  exact this.trans e
end

/-- what Lanczos scaling with size `a` should return: each output pixel is the sum of the `2a x 2a` neighbouring pixels
(clamped to the image) weighted by the kernel in both directions -/
def LanczosOf (img : Image ℝ) (xf yf : ℝ) (a : Nat) (out : Image ℝ) : Prop :=
  out.WF ∧
  out.info = ⟨scaledDim img.info.width xf, scaledDim img.info.height yf, img.info.channels, img.info.alpha⟩ ∧
  ∀ x y c, x < out.info.width → y < out.info.height → c < out.info.channels →
    out.rchan x y c = ∑ i ∈ range (2 * a), ∑ j ∈ range (2 * a),
      img.rchan (clampCol img.info.width ((leftCol xf x : ℤ) + (i + 1 - a)))
        (clampCol img.info.height ((leftCol yf y : ℤ) + (j + 1 - a))) c * (lanczosTap a xf x i * lanczosTap a yf y j)

/-- the interpolation, at every position -/
theorem lanczos_real (P : Profile) {img : Image ℝ} {xf yf : ℝ} (h : BicubicInput img xf yf) {a : Nat} (ha : a < 2147483647)
    (x y : Nat) : interpolateLanczos P img xf yf a x y = .ok ((List.range img.info.channels).map fun c =>
      ∑ i ∈ range (2 * a), ∑ j ∈ range (2 * a),
      img.rchan (clampCol img.info.width ((leftCol xf x : ℤ) + (i + 1 - a)))
        (clampCol img.info.height ((leftCol yf y : ℤ) + (j + 1 - a))) c * (lanczosTap a xf x i * lanczosTap a yf y j)) := by
  have hfl : ∀ {f : ℝ}, 0 < f → ∀ x : Nat, ⌊(ofNat (F := ℝ) x /. f : ℝ)⌋ = (leftCol f x : ℤ) := by
    intro f hf x
    simp only [Ideal.ofNat_eq, Ideal.div_eq]
    unfold leftCol
    rw [Int.natCast_floor_eq_floor (by positivity)]
  unfold interpolateLanczos
  dsimp only
  rw [toI32_of_lt (by omega), i32Sub_ok (by omega) (by omega), ok_bind, i32Add_ok (by omega) (by omega), ok_bind]
  refine (taps_ok P h.wf _ _ _ _ _ (fun i => clampCol img.info.width (⌊(ofNat (F := ℝ) x /. xf : ℝ)⌋ + i))
    (fun i => clampCol img.info.height (⌊(ofNat (F := ℝ) y /. yf : ℝ)⌋ + i))
    (fun i => clampCol_lt h.wpos _) (fun i => clampCol_lt h.hpos _)
    (fun i => clampCol_real h.wpos h.wf.width i) (fun i => clampCol_real h.hpos h.wf.height i)).trans ?_
  congr 1
  refine List.map_congr_left fun c _ => ?_
  rw [tapFold_real, show (((a : ℤ) + 1 - (1 - (a : ℤ))).toNat) = 2 * a by omega]
  refine Finset.sum_congr rfl fun m hm => Finset.sum_congr rfl fun n hn => ?_
  have tap : ∀ {f : ℝ}, 0 < f → ∀ x m : Nat, lanczosKernel (ofNat (F := ℝ) x /. f -. FloatOps.floor (ofNat (F := ℝ) x /. f) -.
      FloatOps.ofInt (1 - (a : ℤ) + (m : ℤ))) (ofNat (F := ℝ) a) = lanczosTap a f x m := by
    intro f hf x m
    rw [lanczosKernel_real]
    unfold lanczosTap
    simp only [Ideal.sub_eq, Ideal.ofNat_eq, Ideal.div_eq, Ideal.floor_eq, Ideal.ofInt_eq]
    rw [fract_real hf]
    congr 1; push_cast; ring
  rw [tap h.xpos, tap h.ypos, hfl h.xpos, hfl h.ypos, Ideal.mul_eq]
  congr 1
  unfold Image.rchan
  rw [Ideal.num_eq, Int.cast_zero,
    show (leftCol xf x : ℤ) + (1 - (a : ℤ) + (m : ℤ)) = (leftCol xf x : ℤ) + ((m : ℤ) + 1 - a) by ring,
    show (leftCol yf y : ℤ) + (1 - (a : ℤ) + (n : ℤ)) = (leftCol yf y : ℤ) + ((n : ℤ) + 1 - a) by ring]

/-- **C84, scale_lanczos** (exact arithmetic), for every non-empty image, positive factors with a representable output and
every size below `2^31 - 1` -/
theorem c84_scale_lanczos (P : Profile) {img : Image ℝ} {xf yf : ℝ} (h : BicubicInput img xf yf) {a : Nat}
    (ha : a < 2147483647) : ∃ out, scaleLanczos P img xf yf a = .ok out ∧ LanczosOf img xf yf a out := by
  obtain ⟨out, e, ho⟩ := scaleLanczos_core P (nonNeg_real h.xpos.le) (nonNeg_real h.ypos.le)
    (scaleDim_real h.xpos.le h.width) (scaleDim_real h.ypos.le h.height) h.info
    (size := a) _ (fun x y h1 h2 => by simp) (fun x y _ _ => lanczos_real P h ha x y)
  refine ⟨out, e, ho.1, ho.2.1, ?_⟩
  intro x y c hx hy hc
  rw [ho.2.1] at hx hy hc
  conv_lhs => unfold Image.rchan
  rw [ho.px_eq hx hy]
  dsimp only at hc
  rw [List.getD_eq_getElem?_getD, List.getElem?_map, List.getElem?_range hc]
  rfl

/-- **C84, scale with the Lanczos method** uses size 3. -/
theorem c84_scale (P : Profile) {img : Image ℝ} {xf yf : ℝ} (h : BicubicInput img xf yf) :
    ∃ out, scale P img xf yf .lanczos = .ok out ∧ LanczosOf img xf yf 3 out := by
  obtain ⟨out, e, ho⟩ := scale_core P (nonNeg_real h.xpos.le) (nonNeg_real h.ypos.le)
    (scaleDim_real h.xpos.le h.width) (scaleDim_real h.ypos.le h.height) h.info
    (m := .lanczos) _ (fun x y h1 h2 => by simp) (fun x y _ _ => lanczos_real P h (a := 3) (by decide) x y)
  refine ⟨out, e, ho.1, ho.2.1, ?_⟩
  intro x y c hx hy hc
  rw [ho.2.1] at hx hy hc
  conv_lhs => unfold Image.rchan
  rw [ho.px_eq hx hy]
  dsimp only at hc
  rw [List.getD_eq_getElem?_getD, List.getElem?_map, List.getElem?_range hc]
  rfl

/-- **C84, size 0** gives an image of zeros. -/
theorem c84_size_zero (P : Profile) {img : Image ℝ} {xf yf : ℝ} (h : BicubicInput img xf yf) :
    ∃ out, scaleLanczos P img xf yf 0 = .ok out ∧
      out.info = ⟨scaledDim img.info.width xf, scaledDim img.info.height yf, img.info.channels, img.info.alpha⟩ ∧
      ∀ x y c, x < out.info.width → y < out.info.height → c < out.info.channels → out.rchan x y c = 0 := by
  obtain ⟨out, e, _, hi, hv⟩ := c84_scale_lanczos P h (a := 0) (by decide)
  exact ⟨out, e, hi, fun x y c hx hy hc => by rw [hv x y c hx hy hc]; simp⟩

section
variable [Libm f32]
/-- **C84, no panic** (IEEE f32): scale_lanczos returns an image of the computed size for every non-empty image with sides
up to `2^24`, every pair of factors that passes the check (also NaN and infinity) with a representable output size, and
every size below `2^31 - 1`. -/
theorem c84_total (P : Profile) {img : Image F32} (h : ScaleInput img) {xf yf : F32} {a : Nat} (ha : a < 2147483647)
    (hx : (xf <. num 0) = false) (hy : (yf <. num 0) = false) (hout : OutFits img xf yf) :
    ∃ out, scaleLanczos P img xf yf a = .ok out ∧ out.WF ∧
      out.info = ⟨scaleDim img.info.width xf, scaleDim img.info.height yf, img.info.channels, img.info.alpha⟩ := by
  choose G hG hl using fun x y => lanczos_ok P h xf yf ha x y
  have chk : ∀ z : F32, (z <. num 0) = false → checkNonNeg (FloatOps.rnum (F := F32)) z = .ok () := by
    intro z hz
    unfold checkNonNeg
    have : (FloatOps.rnum (F := F32)).lt z ((FloatOps.rnum (F := F32)).ofU8 0) = false := hz
    rw [if_neg (by rw [this]; decide)]
  obtain ⟨out, e, ho⟩ := scaleLanczos_core P (chk xf hx) (chk yf hy) rfl rfl (hout.info h.wf.channels) G
    (fun x y _ _ => hl x y) (fun x y _ _ => hG x y)
  exact ⟨out, e, ho.1, ho.2.1⟩
end

/-- **C84, no panic fails for huge sizes**: with overflow checks, scale_lanczos panics for the sizes `2^31 - 1`, `2^31` and
`2^31 + 1` on every image with a non-empty output, whatever the numbers. -/
theorem c84_violated_size {F : Type} [FloatOps F] {img : Image F} {xf yf : F} {a : Nat}
    (ha : 2147483647 ≤ a) (ha' : a ≤ 2147483649)
    (hx : checkNonNeg (FloatOps.rnum (F := F)) xf = .ok ()) (hy : checkNonNeg (FloatOps.rnum (F := F)) yf = .ok ())
    (hi : ImageInfo.WF ⟨scaleDim img.info.width xf, scaleDim img.info.height yf, img.info.channels, img.info.alpha⟩)
    (hw : 0 < scaleDim img.info.width xf) (hh : 0 < scaleDim img.info.height yf) :
    Res.Panics (scaleLanczos .debug img xf yf a) := by
  obtain ⟨b, eb, hb⟩ := Image.blank_eq .debug (FloatOps.rnum (F := F)) hi
  have hs : checkNonNeg u32Num a = .ok () := by
    unfold checkNonNeg
    have : u32Num.lt a (u32Num.ofU8 0) = false := by simp [u32Num]
    rw [if_neg (by rw [this]; decide)]
  have hp : interpolateLanczos .debug img xf yf a 0 0 = .error (.panic .overflow) := by
    unfold interpolateLanczos
    dsimp only
    rcases (by omega : a = 2147483647 ∨ a = 2147483648 ∨ a = 2147483649) with rfl | rfl | rfl <;> rfl
  refine ⟨.overflow, ?_⟩
  unfold scaleLanczos
  rw [hx, ok_bind, hy, ok_bind, hs, ok_bind, eb, ok_bind]
  unfold scaleLoop
  rw [hb.2.1]
  dsimp only
  rw [forRange_cons hh, hb.2.1, forRange_cons hw, hp]
  rfl

/-- ...and it does for a 2 x 1 image enlarged four times -/
example : Res.Panics (scaleLanczos .debug ramp 4 1 2147483647) := by
  have h := ramp_input
  have e1 : scaleDim ramp.info.width (4 : ℝ) = 8 := by
    rw [scaleDim_real (by norm_num) h.width]
    show scaledDim 2 4 = 8
    unfold scaledDim; rw [Nat.floor_eq_iff (by positivity)]; constructor <;> norm_num
  have e2 : scaleDim ramp.info.height (1 : ℝ) = 1 := by
    rw [scaleDim_real (by norm_num) h.height]
    show scaledDim 1 1 = 1
    unfold scaledDim; rw [Nat.floor_eq_iff (by positivity)]; constructor <;> norm_num
  refine c84_violated_size (by decide) (by decide) (nonNeg_real (by norm_num)) (nonNeg_real (by norm_num)) ?_ ?_ ?_
  · have := h.info
    rwa [scaleDim_real (by norm_num) h.width, scaleDim_real (by norm_num) h.height]
  · rw [e1]; decide
  · rw [e2]; decide

example : BicubicInput ramp 4 1 := ⟨ramp_input, by decide, by decide⟩
end Imgproc

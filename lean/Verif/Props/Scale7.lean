import Verif.Props.Scale6
/-! Properties C85 (scaling by 1) and C86 (scaling constant images). -/
namespace Imgproc
open FloatOps
open Finset (range)

/-- channel `c` of every pixel is `v` -/
def Image.ConstChan (img : Image ℝ) (c : Nat) (v : ℝ) : Prop :=
  ∀ x y, x < img.info.width → y < img.info.height → img.rchan x y c = v

theorem leftCol_one (x : Nat) : leftCol 1 x = x := by unfold leftCol; simp
theorem fracCol_one (x : Nat) : fracCol 1 x = 0 := by unfold fracCol; rw [leftCol_one]; simp
theorem scaledDim_one (w : Nat) : scaledDim w 1 = w := by
  unfold scaledDim
  rw [mul_one, Nat.floor_eq_iff (by positivity)]
  constructor <;> linarith

/-- factor 1 is a possible input for every non-empty image -/
theorem unitScale_input {img : Image ℝ} (h : img.WF) (hw : 0 < img.info.width) (hh : 0 < img.info.height) :
    BicubicInput img 1 1 := by
  refine ⟨⟨h, one_pos, one_pos, by rw [scaledDim_one]; exact h.width, by rw [scaledDim_one]; exact h.height, ?_⟩, hw, hh⟩
  rw [scaledDim_one, scaledDim_one]
  have h1 : img.info.width * img.info.height < 4294967296 := h.size
  have h2 : img.info.width * img.info.height * img.info.channels < 4294967296 := h.full
  rcases Nat.le_total 1 img.info.channels with h3 | h3
  · rw [max_eq_right h3]; exact h2
  · rw [max_eq_left h3]; omega

/-- **C85, bilinear** -/
theorem c85_bilinear_partial (P : Profile) {img : Image ℝ} (h : img.WF) : scale P img 1 1 .bilinear = .ok img :=
  c68_identity_partial P h

theorem lanczosTap_one_center {a : Nat} (ha : 0 < a) (x : Nat) : lanczosTap a 1 x (a - 1) = 1 := by
  unfold lanczosTap
  rw [fracCol_one, Nat.cast_sub (by omega), Nat.cast_one, show (0 : ℝ) - ((a : ℝ) - 1 + 1 - a) = 0 by ring]
  exact (c84_kernel a).2.1 ha

theorem lanczosTap_one_other {a : Nat} (x : Nat) {i : Nat} (hi : i ≠ a - 1) (ha : 0 < a) : |lanczosTap a 1 x i| ≤ 2.8e-8 := by
  unfold lanczosTap
  rw [fracCol_one]
  have e : (0 : ℝ) - ((i : ℝ) + 1 - a) = (((a : ℤ) - 1 - i : ℤ) : ℝ) := by push_cast; ring
  rw [e]
  exact (c84_kernel a).2.2.2.2 _ (by omega)

/-- sum of the weights at factor 1, in absolute value -/
theorem lanczosTap_one_sum {a : Nat} (ha : 0 < a) (x : Nat) :
    ∑ i ∈ range (2 * a), |lanczosTap a 1 x i| ≤ 1 + (2 * a - 1) * 2.8e-8 := by
  have hm : a - 1 ∈ range (2 * a) := Finset.mem_range.2 (by omega)
  rw [← Finset.add_sum_erase _ _ hm, lanczosTap_one_center ha, abs_one]
  gcongr
  calc ∑ i ∈ (range (2 * a)).erase (a - 1), |lanczosTap a 1 x i| ≤ ∑ i ∈ (range (2 * a)).erase (a - 1), (2.8e-8 : ℝ) :=
        Finset.sum_le_sum fun i hi => lanczosTap_one_other x (Finset.ne_of_mem_erase hi) ha
    _ = _ := by
        rw [Finset.sum_const, Finset.card_erase_of_mem hm, Finset.card_range, nsmul_eq_mul, Nat.cast_sub (by omega)]
        push_cast; ring

theorem clampCol_self {w x : Nat} (h : x < w) : clampCol w (x : ℤ) = x := by unfold clampCol; omega

/-- a weighted sum whose weights are 1 at `(k, k)` and small elsewhere is close to the value at `(k, k)` -/
theorem tap_sum_near {n k : Nat} {w1 w2 : Nat → ℝ} {g : Nat → Nat → ℝ} {M S : ℝ} (hk : k < n) (h1 : w1 k = 1) (h2 : w2 k = 1)
    (hM : ∀ i j, |g i j| ≤ M) (s1 : ∑ i ∈ range n, |w1 i| ≤ S) (s2 : ∑ i ∈ range n, |w2 i| ≤ S) :
    |(∑ i ∈ range n, ∑ j ∈ range n, g i j * (w1 i * w2 j)) - g k k| ≤ M * (S ^ 2 - 1) := by
  have hM0 : 0 ≤ M := (abs_nonneg _).trans (hM 0 0)
  have e : (∑ i ∈ range n, ∑ j ∈ range n, g i j * (w1 i * w2 j)) - g k k =
      ∑ p ∈ (range n ×ˢ range n).erase (k, k), g p.1 p.2 * (w1 p.1 * w2 p.2) := by
    rw [← Finset.sum_product', ← Finset.add_sum_erase _ _ (show (k, k) ∈ range n ×ˢ range n by simp [hk])]
    simp only [h1, h2]; ring
  have e2 : ∑ p ∈ (range n ×ˢ range n).erase (k, k), |w1 p.1| * |w2 p.2| =
      (∑ i ∈ range n, |w1 i|) * (∑ i ∈ range n, |w2 i|) - 1 := by
    rw [Finset.sum_mul_sum, ← Finset.sum_product',
      ← Finset.add_sum_erase _ _ (show (k, k) ∈ range n ×ˢ range n by simp [hk])]
    simp only [h1, h2]; simp
  rw [e]
  refine (Finset.abs_sum_le_sum_abs _ _).trans ?_
  calc _ ≤ ∑ p ∈ (range n ×ˢ range n).erase (k, k), M * (|w1 p.1| * |w2 p.2|) := by
        refine Finset.sum_le_sum fun p _ => ?_
        rw [abs_mul, abs_mul]
        exact mul_le_mul_of_nonneg_right (hM _ _) (by positivity)
    _ = M * ((∑ i ∈ range n, |w1 i|) * (∑ i ∈ range n, |w2 i|) - 1) := by rw [← Finset.mul_sum, e2]
    _ ≤ _ := by
        have n1 : 0 ≤ ∑ i ∈ range n, |w1 i| := Finset.sum_nonneg fun _ _ => abs_nonneg _
        have n2 : 0 ≤ ∑ i ∈ range n, |w2 i| := Finset.sum_nonneg fun _ _ => abs_nonneg _
        have := mul_le_mul s1 s2 n2 (n1.trans s1)
        gcongr
        rw [pow_two]; exact this

theorem lanczosOf_near {img out : Image ℝ} {a : Nat} (ha : 0 < a) (h : img.WF) (ho : LanczosOf img 1 1 a out) {M : ℝ}
    (hM : ∀ x y c, x < img.info.width → y < img.info.height → c < img.info.channels → |img.rchan x y c| ≤ M) :
    out.info = img.info ∧ ∀ x y c, x < img.info.width → y < img.info.height → c < img.info.channels →
      |out.rchan x y c - img.rchan x y c| ≤ M * ((1 + (2 * a - 1) * 2.8e-8) ^ 2 - 1) := by
  have hi : out.info = img.info := by rw [ho.2.1, scaledDim_one, scaledDim_one]
  refine ⟨hi, ?_⟩
  intro x y c hx hy hc
  rw [ho.2.2 x y c (by rwa [hi]) (by rwa [hi]) (by rwa [hi])]
  rw [leftCol_one, leftCol_one]
  have := tap_sum_near (n := 2 * a) (k := a - 1) (w1 := lanczosTap a 1 x) (w2 := lanczosTap a 1 y)
    (g := fun i j => img.rchan (clampCol img.info.width ((x : ℤ) + (i + 1 - a))) (clampCol img.info.height ((y : ℤ) + (j + 1 - a))) c)
    (M := M) (S := 1 + (2 * a - 1) * 2.8e-8) (by omega) (lanczosTap_one_center ha x) (lanczosTap_one_center ha y)
    (fun i j => hM _ _ _ (clampCol_lt (by omega) _) (clampCol_lt (by omega) _) hc)
    (lanczosTap_one_sum ha x) (lanczosTap_one_sum ha y)
  have e : (((a - 1 : Nat) : ℤ) + 1 - a) = 0 := by omega
  rw [e, add_zero, add_zero, clampCol_self hx, clampCol_self hy] at this
  exact this

/-- **C85, Lanczos** (exact arithmetic): scaling by 1 changes no channel by more than `3e-7` of the largest value. (It is
not the identity because the code's pi is the f32 nearest to pi.) -/
theorem c85_lanczos_partial (P : Profile) {img : Image ℝ} (h : img.WF) (hw : 0 < img.info.width) (hh : 0 < img.info.height) {M : ℝ}
    (hM : ∀ x y c, x < img.info.width → y < img.info.height → c < img.info.channels → |img.rchan x y c| ≤ M) :
    ∃ out, scale P img 1 1 .lanczos = .ok out ∧ out.info = img.info ∧
      ∀ x y c, x < img.info.width → y < img.info.height → c < img.info.channels →
        |out.rchan x y c - img.rchan x y c| ≤ 3e-7 * M := by
  obtain ⟨out, e, ho⟩ := c84_scale P (unitScale_input h hw hh)
  obtain ⟨hi, hv⟩ := lanczosOf_near (by decide) h ho hM
  refine ⟨out, e, hi, fun x y c hx hy hc => (hv x y c hx hy hc).trans ?_⟩
  have hM0 : 0 ≤ M := (abs_nonneg _).trans (hM x y c hx hy hc)
  rw [mul_comm]
  refine mul_le_mul_of_nonneg_right ?_ hM0
  norm_num

/-- **C85, scale_lanczos** of any size `a > 0` (exact arithmetic) -/
theorem c85_scale_lanczos_partial (P : Profile) {img : Image ℝ} (h : img.WF) (hw : 0 < img.info.width) (hh : 0 < img.info.height)
    {M : ℝ} {a : Nat} (ha : 0 < a) (ha' : a < 2147483647)
    (hM : ∀ x y c, x < img.info.width → y < img.info.height → c < img.info.channels → |img.rchan x y c| ≤ M) :
    ∃ out, scaleLanczos P img 1 1 a = .ok out ∧ out.info = img.info ∧
      ∀ x y c, x < img.info.width → y < img.info.height → c < img.info.channels →
        |out.rchan x y c - img.rchan x y c| ≤ M * ((1 + (2 * a - 1) * 2.8e-8) ^ 2 - 1) := by
  obtain ⟨out, e, ho⟩ := c84_scale_lanczos P (unitScale_input h hw hh) ha'
  obtain ⟨hi, hv⟩ := lanczosOf_near ha h ho hM
  exact ⟨out, e, hi, hv⟩

/-- **C85, bicubic: what scaling by 1 does** (exact arithmetic): it blurs with the weights 1/6, 4/6, 1/6 in both
directions. -/
theorem c85_bicubic (P : Profile) {img : Image ℝ} (h : img.WF) (hw : 0 < img.info.width) (hh : 0 < img.info.height) :
    ∃ out, scale P img 1 1 .bicubic = .ok out ∧ out.info = img.info ∧
      ∀ x y c, x < img.info.width → y < img.info.height → c < img.info.channels →
        out.rchan x y c = ∑ m ∈ range 3, ∑ n ∈ range 3,
          img.rchan (clampCol img.info.width ((x : ℤ) - 1 + m)) (clampCol img.info.height ((y : ℤ) - 1 + n)) c *
            ((if m = 1 then 4 else 1) * (if n = 1 then 4 else 1) / 36) := by
  obtain ⟨out, e, _, hi, hv⟩ := c69_value P (unitScale_input h hw hh)
  have hi' : out.info = img.info := by rw [hi, scaledDim_one, scaledDim_one]
  refine ⟨out, e, hi', ?_⟩
  intro x y c hx hy hc
  rw [hv x y c (by rwa [hi']) (by rwa [hi']) (by rwa [hi']), leftCol_one, leftCol_one]
  have t : ∀ x, cubicTap 1 x 0 = 1 / 6 ∧ cubicTap 1 x 1 = 4 / 6 ∧ cubicTap 1 x 2 = 1 / 6 ∧ cubicTap 1 x 3 = 0 := by
    intro x
    unfold cubicTap cubicBSpline
    rw [fracCol_one]
    norm_num
  obtain ⟨a0, a1, a2, a3⟩ := t x
  obtain ⟨b0, b1, b2, b3⟩ := t y
  simp only [Finset.sum_range_succ, Finset.sum_range_zero, a0, a1, a2, a3, b0, b1, b2, b3]
  norm_num

/-- **C85 is violated by the bicubic method**: scaling the row `0, 100` by 1 gives `100 / 6` instead of 0. -/
theorem c85_violated (P : Profile) : ∃ out, scale P ramp 1 1 .bicubic = .ok out ∧ out.rchan 0 0 0 = 100 / 6 ∧
    ramp.rchan 0 0 0 = 0 := by
  obtain ⟨out, e, _, hv⟩ := c85_bicubic P ramp_input.wf (by decide) (by decide)
  have c0 : ramp.rchan 0 0 0 = 0 := by simp [Image.rchan, Image.px, ramp]
  have c1 : ramp.rchan 1 0 0 = 100 := by simp [Image.rchan, Image.px, ramp]
  refine ⟨out, e, ?_, c0⟩
  rw [hv 0 0 0 (by decide) (by decide) (by decide)]
  have k0 : clampCol ramp.info.width (-1) = 0 := rfl
  have k1 : clampCol ramp.info.width 0 = 0 := rfl
  have k2 : clampCol ramp.info.width 1 = 1 := rfl
  have l0 : clampCol ramp.info.height (-1) = 0 := rfl
  have l1 : clampCol ramp.info.height 0 = 0 := rfl
  have l2 : clampCol ramp.info.height 1 = 0 := rfl
  simp only [Finset.sum_range_succ, Finset.sum_range_zero]
  norm_num [k0, k1, k2, l0, l1, l2, c0, c1]

/-- **C86, bilinear and bicubic** (exact arithmetic) -/
theorem c86_bilinear_partial (P : Profile) {img : Image ℝ} {xf yf : ℝ} (h : BilinearInput img xf yf) {v : Nat → ℝ}
    (hv : ∀ c, c < img.info.channels → img.ConstChan c (v c)) :
    ∃ out, scale P img xf yf .bilinear = .ok out ∧ ∀ c, c < out.info.channels → out.ConstChan c (v c) := by
  obtain ⟨out, e, h⟩ := c68_constant_partial P h (v := v) (fun x y c hx hy hc => hv c hc x y hx hy)
  exact ⟨out, e, fun c hc x y hx hy => h x y c hx hy hc⟩

/-- **C86** (bicubic, exact arithmetic) a constant channel stays constant with the same value -/
theorem c86_bicubic_partial (P : Profile) {img : Image ℝ} {xf yf : ℝ} (h : BicubicInput img xf yf) {v : Nat → ℝ}
    (hv : ∀ c, c < img.info.channels → img.ConstChan c (v c)) :
    ∃ out, scale P img xf yf .bicubic = .ok out ∧ ∀ c, c < img.info.channels → out.ConstChan c (v c) := by
  obtain ⟨out, e, h⟩ := c69_range P h
  refine ⟨out, e, fun c hc x y hx hy => ?_⟩
  obtain ⟨h1, h2⟩ := h c (v c) (v c) hc (fun x y hx hy => by rw [hv c hc x y hx hy]; exact ⟨le_rfl, le_rfl⟩) x y hx hy
  exact le_antisymm h2 h1

/-- **C86, what Lanczos scaling does to a constant image**: it multiplies the value by the sums of the weights, which
depend on the position. -/
theorem c86_lanczos_value (P : Profile) {img : Image ℝ} {xf yf : ℝ} (h : BicubicInput img xf yf) {v : Nat → ℝ}
    (hv : ∀ c, c < img.info.channels → img.ConstChan c (v c)) :
    ∃ out, scale P img xf yf .lanczos = .ok out ∧
      out.info = ⟨scaledDim img.info.width xf, scaledDim img.info.height yf, img.info.channels, img.info.alpha⟩ ∧
      ∀ x y c, x < out.info.width → y < out.info.height → c < img.info.channels →
      out.rchan x y c = v c * (∑ i ∈ range 6, lanczosTap 3 xf x i) * (∑ j ∈ range 6, lanczosTap 3 yf y j) := by
  obtain ⟨out, e, ho⟩ := c84_scale P h
  refine ⟨out, e, ho.2.1, fun x y c hx hy hc => ?_⟩
  rw [ho.2.2 x y c hx hy (by rw [ho.2.1]; exact hc), mul_assoc, Finset.sum_mul_sum, Finset.mul_sum]
  refine Finset.sum_congr rfl fun i _ => ?_
  rw [Finset.mul_sum]
  refine Finset.sum_congr rfl fun j _ => ?_
  rw [hv c hc _ _ (clampCol_lt h.wpos _) (clampCol_lt h.hpos _)]

theorem lanczosWindow_half {x a : ℝ} {n : Nat} (hn : (n : ℝ) = a) (h0 : x ≠ 0) (ha : a ≠ 0) (h : |x| < a) :
    lanczosWindow n x = a * (Real.sin (f32Pi * x) * Real.sin (f32Pi * (x / a))) / (f32Pi ^ 2 * x ^ 2) := by
  have hp := f32Pi_pos.ne'
  unfold lanczosWindow normSinc
  rw [hn, if_pos h, if_neg h0, if_neg (div_ne_zero h0 ha)]
  field_simp

/-- a white pixel -/
noncomputable def whitePixel : Image ℝ := ⟨⟨1, 1, 1, false⟩, [1]⟩

theorem whitePixel_input : BicubicInput whitePixel 2 1 := by
  have e1 : scaledDim 1 2 = 2 := by
    unfold scaledDim; rw [Nat.floor_eq_iff (by positivity)]; constructor <;> norm_num
  refine ⟨⟨⟨show 1 < 4294967296 by decide, show 1 < 4294967296 by decide, show 1 < 256 by decide,
    show 1 * 1 < 4294967296 by decide, show 1 * 1 * 1 < 4294967296 by decide, rfl⟩, by norm_num, one_pos, ?_, ?_, ?_⟩,
    by decide, by decide⟩
  · show scaledDim 1 2 < _; rw [e1]; decide
  · show scaledDim 1 1 < _; rw [scaledDim_one]; decide
  · show scaledDim 1 2 * scaledDim 1 1 * max 1 1 < _; rw [e1, scaledDim_one]; decide

theorem sin_f32Pi_le (q : ℝ) (hq : |q| ≤ 3) : |Real.sin (f32Pi * q) - Real.sin (Real.pi * q)| ≤ 2.7e-7 := by
  have := Real.lipschitzWith_sin.dist_le_mul (f32Pi * q) (Real.pi * q)
  rw [Real.dist_eq, Real.dist_eq] at this
  refine this.trans ?_
  rw [show f32Pi * q - Real.pi * q = (f32Pi - Real.pi) * q by ring, abs_mul]
  calc _ ≤ (1 : ℝ) * (8.75e-8 * 3) := by
        have := mul_le_mul f32Pi_near hq (abs_nonneg _) (by norm_num)
        simpa using this
    _ ≤ _ := by norm_num

/-- **C86 is violated by the Lanczos method**: enlarging a white pixel twice gives a pixel darker by more than 0.5%. -/
theorem c86_violated (P : Profile) : ∃ out, scale P whitePixel 2 1 .lanczos = .ok out ∧ whitePixel.rchan 0 0 0 = 1 ∧
    1 < out.info.width ∧ out.rchan 1 0 0 < 0.995 := by
  have hc : whitePixel.rchan 0 0 0 = 1 := by simp [Image.rchan, Image.px, whitePixel]
  obtain ⟨out, e, hi, hv⟩ := c86_lanczos_value P whitePixel_input (v := fun _ => 1) (by
    intro c hc' x y hx hy
    have hc' : c < 1 := hc'
    have hx : x < 1 := hx
    have hy : y < 1 := hy
    obtain rfl : c = 0 := by omega
    obtain rfl : x = 0 := by omega
    obtain rfl : y = 0 := by omega
    exact hc)
  have e1 : scaledDim 1 2 = 2 := by
    unfold scaledDim; rw [Nat.floor_eq_iff (by positivity)]; constructor <;> norm_num
  have hi' : out.info = ⟨2, 1, 1, false⟩ := by
    rw [hi]; show (⟨scaledDim 1 2, scaledDim 1 1, 1, false⟩ : ImageInfo) = _; rw [e1, scaledDim_one]
  refine ⟨out, e, hc, by rw [hi']; decide, ?_⟩
  rw [hv 1 0 0 (by rw [hi']; decide) (by rw [hi']; decide) (by decide)]
  have l1 : leftCol 2 1 = 0 := by unfold leftCol; rw [Nat.floor_eq_zero]; norm_num
  have f1 : fracCol 2 1 = 1 / 2 := by unfold fracCol; rw [l1]; norm_num
  -- the weights in the y direction
  have hy : |∑ j ∈ range 6, lanczosTap 3 1 0 j| ≤ 1 + 5 * 2.8e-8 := by
    refine (Finset.abs_sum_le_sum_abs _ _).trans ((lanczosTap_one_sum (a := 3) (by decide) 0).trans ?_)
    norm_num
  -- the weights in the x direction
  have w1 : lanczosWindow 3 (1 / 2) = 12 * (Real.sin (f32Pi * (1 / 2)) * Real.sin (f32Pi * (1 / 6))) / f32Pi ^ 2 := by
    rw [lanczosWindow_half (a := 3) (by norm_num) (by norm_num) (by norm_num) (by rw [abs_of_pos] <;> norm_num)]
    have := f32Pi_pos.ne'
    rw [show (1 : ℝ) / 2 / 3 = 1 / 6 by norm_num]
    field_simp; try norm_num
    try ring
  have w2 : lanczosWindow 3 (3 / 2) = 4 / 3 * (Real.sin (f32Pi * (3 / 2)) * Real.sin (f32Pi * (1 / 2))) / f32Pi ^ 2 := by
    rw [lanczosWindow_half (a := 3) (by norm_num) (by norm_num) (by norm_num) (by rw [abs_of_pos] <;> norm_num)]
    have := f32Pi_pos.ne'
    rw [show (3 : ℝ) / 2 / 3 = 1 / 2 by norm_num]
    field_simp; norm_num; ring
  have w3 : lanczosWindow 3 (5 / 2) = 12 / 25 * (Real.sin (f32Pi * (5 / 2)) * Real.sin (f32Pi * (5 / 6))) / f32Pi ^ 2 := by
    rw [lanczosWindow_half (a := 3) (by norm_num) (by norm_num) (by norm_num) (by rw [abs_of_pos] <;> norm_num)]
    have := f32Pi_pos.ne'
    rw [show (5 : ℝ) / 2 / 3 = 5 / 6 by norm_num]
    field_simp; norm_num; ring
  have even := (c84_kernel 3).1
  have hx : ∑ i ∈ range 6, lanczosTap 3 2 1 i = 2 * (lanczosWindow 3 (1 / 2) + lanczosWindow 3 (3 / 2) + lanczosWindow 3 (5 / 2)) := by
    unfold lanczosTap
    simp only [Finset.sum_range_succ, Finset.sum_range_zero, f1]
    have a1 := even (1 / 2)
    have a2 := even (3 / 2)
    have a3 := even (5 / 2)
    norm_num at a1 a2 a3 ⊢
    rw [a1, a2, a3]; ring
  have s12 := abs_le.1 (sin_f32Pi_le (1 / 2) (by norm_num [abs_of_pos]))
  have s16 := abs_le.1 (sin_f32Pi_le (1 / 6) (by norm_num [abs_of_pos]))
  have s32 := abs_le.1 (sin_f32Pi_le (3 / 2) (by norm_num [abs_of_pos]))
  have s56 := abs_le.1 (sin_f32Pi_le (5 / 6) (by norm_num [abs_of_pos]))
  rw [show Real.pi * (1 / 2) = Real.pi / 2 by ring, Real.sin_pi_div_two] at s12
  rw [show Real.pi * (1 / 6) = Real.pi / 6 by ring, Real.sin_pi_div_six] at s16
  rw [show Real.pi * (3 / 2) = Real.pi / 2 + Real.pi by ring, Real.sin_add_pi, Real.sin_pi_div_two] at s32
  rw [show Real.pi * (5 / 6) = Real.pi - Real.pi / 6 by ring, Real.sin_pi_sub, Real.sin_pi_div_six] at s56
  have b12 := Real.sin_le_one (f32Pi * (1 / 2))
  have b52 := Real.sin_le_one (f32Pi * (5 / 2))
  have t1 : Real.sin (f32Pi * (1 / 2)) * Real.sin (f32Pi * (1 / 6)) ≤ 0.500001 := by
    have : 0 ≤ Real.sin (f32Pi * (1 / 6)) := by linarith [s16.1]
    calc _ ≤ 1 * Real.sin (f32Pi * (1 / 6)) := mul_le_mul_of_nonneg_right b12 this
      _ ≤ _ := by linarith [s16.2]
  have t2 : Real.sin (f32Pi * (3 / 2)) * Real.sin (f32Pi * (1 / 2)) ≤ -0.99999 := by
    nlinarith [s32.1, s32.2, s12.1, s12.2]
  have t3 : Real.sin (f32Pi * (5 / 2)) * Real.sin (f32Pi * (5 / 6)) ≤ 0.500001 := by
    have : 0 ≤ Real.sin (f32Pi * (5 / 6)) := by linarith [s56.1]
    calc _ ≤ 1 * Real.sin (f32Pi * (5 / 6)) := mul_le_mul_of_nonneg_right b52 this
      _ ≤ _ := by linarith [s56.2]
  have hX : ∑ i ∈ range 6, lanczosTap 3 2 1 i ≤ 0.9944 := by
    rw [hx, w1, w2, w3, ← add_div, ← add_div, ← mul_div_assoc, div_le_iff₀ (by have := f32Pi_pos; positivity)]
    have : (9.8696 : ℝ) ≤ f32Pi ^ 2 := by unfold f32Pi; norm_num
    linarith
  have hY0 : 0 ≤ ∑ j ∈ range 6, lanczosTap 3 1 0 j := by
    rw [← Finset.add_sum_erase _ _ (show 2 ∈ range 6 by decide), lanczosTap_one_center (a := 3) (by decide)]
    have h1 : |∑ j ∈ (range 6).erase 2, lanczosTap 3 1 0 j| ≤ ∑ j ∈ (range 6).erase 2, (2.8e-8 : ℝ) :=
      (Finset.abs_sum_le_sum_abs _ _).trans
        (Finset.sum_le_sum fun i hi => lanczosTap_one_other (a := 3) 0 (Finset.ne_of_mem_erase hi) (by decide))
    rw [Finset.sum_const, show ((range 6).erase 2).card = 5 from rfl] at h1
    have h2 := (abs_le.1 h1).1
    norm_num at h2 ⊢
    linarith
  have hY := (abs_le.1 hy).2
  rw [one_mul]
  calc _ ≤ 0.9944 * ∑ j ∈ range 6, lanczosTap 3 1 0 j := mul_le_mul_of_nonneg_right hX hY0
    _ ≤ 0.9944 * (1 + 5 * 2.8e-8) := mul_le_mul_of_nonneg_left hY (by norm_num)
    _ < _ := by norm_num

/-- a concrete image of the hypotheses of C85 -/
example : ∀ x y c, x < ramp.info.width → y < ramp.info.height → c < ramp.info.channels → |ramp.rchan x y c| ≤ 100 := by
  intro x y c hx hy hc
  have hx : x < 2 := hx
  have hy : y < 1 := hy
  have hc : c < 1 := hc
  obtain rfl : c = 0 := by omega
  obtain rfl : y = 0 := by omega
  have c0 : ramp.rchan 0 0 0 = 0 := by simp [Image.rchan, Image.px, ramp]
  have c1 : ramp.rchan 1 0 0 = 100 := by simp [Image.rchan, Image.px, ramp]
  rcases (by omega : x = 0 ∨ x = 1) with rfl | rfl
  · rw [c0]; norm_num
  · rw [c1]; norm_num
end Imgproc

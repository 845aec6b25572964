import Verif.Props.Mirror2
import Verif.Props.Gamma
import Verif.Props.Kernels
/-! Properties C98 and C99: what the gradient operators and the Laplacian of Gaussian compute, in exact arithmetic. -/
namespace Imgproc
open FloatOps

/-- spec: grey value `dx` columns to the right and `dy` rows below `(x, y)`, the border repeated outward -/
def near (img : Image ℝ) (x y : Nat) (dx dy : Int) : ℝ :=
  (img.px (clampCoord img.info.width (x + dx)) (clampCoord img.info.height (y + dy))).getD 0 0

/-- spec: horizontal difference of the columns left and right of `(x, y)`, the middle row weighted by `w` -/
def gradX (img : Image ℝ) (w : ℝ) (x y : Nat) : ℝ :=
  (near img x y 1 (-1) + w * near img x y 1 0 + near img x y 1 1) -
    (near img x y (-1) (-1) + w * near img x y (-1) 0 + near img x y (-1) 1)
/-- spec: vertical difference of the rows above and below `(x, y)`, the middle column weighted by `w` -/
def gradY (img : Image ℝ) (w : ℝ) (x y : Nat) : ℝ :=
  (near img x y (-1) 1 + w * near img x y 0 1 + near img x y 1 1) -
    (near img x y (-1) (-1) + w * near img x y 0 (-1) + near img x y 1 (-1))
/-- spec: the gradient magnitude -/
noncomputable def gradMag (img : Image ℝ) (w : ℝ) (x y : Nat) : ℝ := Real.sqrt (gradX img w x y ^ 2 + gradY img w x y ^ 2)

theorem padCoord_three {n x : Nat} (hx : x < n) {j : Nat} (hj : j < 3) :
    padCoord n x ((x : Int) - (3 / 2 : Nat) + j) = clampCoord n (x + ((j : Int) - 1)) := by
  unfold padCoord clampCoord
  split <;> omega

/-- the two separable passes with kernels `v` (down the columns) and `h` (along the rows) at one pixel -/
theorem separable3_px (P : Profile) (img : Image ℝ) (h : img.WF) (v0 v1 v2 h0 h1 h2 : ℝ)
    (hch : img.info.channels = 1)
    (hw : img.info.width + 3 ≤ 2147483648) (hh : img.info.height + 3 ≤ 2147483648) {g : Image ℝ}
    (e : separableFilter P img [v0, v1, v2] [h0, h1, h2] = .ok g) {x y : Nat} (hx : x < img.info.width) (hy : y < img.info.height) :
    (g.px x y).getD 0 0 =
      v0 * (h0 * near img x y (-1) (-1) + h1 * near img x y 0 (-1) + h2 * near img x y 1 (-1)) +
      v1 * (h0 * near img x y (-1) 0 + h1 * near img x y 0 0 + h2 * near img x y 1 0) +
      v2 * (h0 * near img x y (-1) 1 + h1 * near img x y 0 1 + h2 * near img x y 1 1) := by
  obtain ⟨o, eo, ho⟩ := separable_real P img h [v0, v1, v2] [h0, h1, h2] (by simp) (by simp) hw hh
  obtain rfl : g = o := by rw [e] at eo; injection eo
  rw [ho.px_eq hx hy, getD_map_range _ _ _ _ (by omega)]
  have key : ∀ i j : Nat, i < 3 → j < 3 →
      (img.px (padCoord img.info.width x ((x : Int) - (([v0, v1, v2] : List ℝ).length / 2 : Nat) + j))
        (padCoord img.info.height y ((y : Int) - (([v0, v1, v2] : List ℝ).length / 2 : Nat) + i))).getD 0 0 =
      near img x y ((j : Int) - 1) ((i : Int) - 1) := by
    intro i j hi hj
    unfold near
    rw [← padCoord_three hx hj, ← padCoord_three hy hi]; rfl
  show ∑ i ∈ Finset.range 3, ∑ j ∈ Finset.range 3, _ = _
  rw [Finset.sum_congr rfl fun i hi => Finset.sum_congr rfl fun j hj => by
    rw [key i j (Finset.mem_range.1 hi) (Finset.mem_range.1 hj)]]
  simp only [Finset.sum_range_succ, Finset.sum_range_zero, List.getD_cons_zero, List.getD_cons_succ]
  norm_num
  ring

/-- **C98** (exact arithmetic) On one-channel images `sobel_weighted(img, w)` is, at every pixel, the magnitude of the
gradient taken with middle weight `w`; `sobel` is the case `w = 2`, `prewitt` the case `w = 1`. -/
theorem c98_value (P : Profile) (img : Image ℝ) (h : img.WF) (hch : img.info.channels = 1) (ha : img.info.alpha = false)
    (hw : img.info.width + 3 ≤ 2147483648) (hh : img.info.height + 3 ≤ 2147483648) (weight : Nat) :
    (∃ out, sobelWeighted P img weight = .ok out ∧ out.Shows img.info fun x y => [gradMag img weight x y]) ∧
    (∃ out, sobel P img = .ok out ∧ out.Shows img.info fun x y => [gradMag img 2 x y]) ∧
    (∃ out, prewitt P img = .ok out ∧ out.Shows img.info fun x y => [gradMag img 1 x y]) := by
  have key : ∀ w : ℝ, ∃ out, derivativeMask P img [1, w, 1] [-1, 0, 1] = .ok out ∧
      out.Shows img.info fun x y => [gradMag img w x y] := by
    intro w
    obtain ⟨gx, gy, o, e1, e2, eo, ho⟩ := c54_derivative_mask_partial P img h [1, w, 1] [-1, 0, 1] hch ha (by simp) (by simp) hw hh
    refine ⟨o, eo, ho.congr fun x y hx hy => congrArg (fun v : ℝ => [v]) ?_⟩
    have n0 : (num 0 : ℝ) = 0 := by simp
    have n2 : (num 2 : ℝ) = ((2 : ℕ) : ℝ) := by simp
    rw [n0, separable3_px P img h _ _ _ _ _ _ hch hw hh e1 hx hy, separable3_px P img h _ _ _ _ _ _ hch hw hh e2 hx hy]
    simp only [n2, Ideal.pow_eq, Real.rpow_natCast, Ideal.add_eq, Ideal.sqrt_eq]
    unfold gradMag gradX gradY
    congr 2
    · congr 1; ring
    · congr 1; ring
  refine ⟨?_, ?_, ?_⟩
  · have := key weight
    unfold sobelWeighted K_SOBEL_1D_HORZ
    simpa using this
  · have := key 2
    unfold sobel K_SOBEL_1D_HORZ K_SOBEL_1D_VERT
    simpa using this
  · have := key 1
    unfold prewitt K_PREWITT_1D_HORZ K_PREWITT_1D_VERT
    simpa using this

theorem near_le {img : Image ℝ} {x y : Nat} (hx : x < img.info.width) (hy : y < img.info.height) (dx dy : Int) :
    ∃ a b, a < img.info.width ∧ b < img.info.height ∧ near img x y dx dy = (img.px a b).getD 0 0 :=
  ⟨_, _, by unfold clampCoord; omega, by unfold clampCoord; omega, rfl⟩

/-- Adding a constant to the image does not change the gradient magnitude, multiplying it by `a` multiplies it by
`|a|` (so a negative has the same edges), and a constant image has magnitude 0. -/
theorem gradMag_affine {img img' : Image ℝ} (hi : img'.info = img.info) (a k w : ℝ)
    (hv : ∀ x y, x < img.info.width → y < img.info.height → (img'.px x y).getD 0 0 = a * (img.px x y).getD 0 0 + k)
    {x y : Nat} (hx : x < img.info.width) (hy : y < img.info.height) : gradMag img' w x y = |a| * gradMag img w x y := by
  have hn : ∀ dx dy, near img' x y dx dy = a * near img x y dx dy + k := by
    intro dx dy
    unfold near
    rw [hi]
    exact hv _ _ (by unfold clampCoord; omega) (by unfold clampCoord; omega)
  have e1 : gradX img' w x y = a * gradX img w x y := by unfold gradX; simp only [hn]; ring
  have e2 : gradY img' w x y = a * gradY img w x y := by unfold gradY; simp only [hn]; ring
  unfold gradMag
  rw [e1, e2, mul_pow, mul_pow, ← mul_add, Real.sqrt_mul (sq_nonneg a), Real.sqrt_sq_eq_abs]

/-- On an inclined plane `a*x + b*y + k` the magnitude away from the border is `(2w + 4)` times the slope
`sqrt(a^2 + b^2)`: `8` times for Sobel, `6` times for Prewitt, whatever the direction. -/
theorem gradMag_ramp {img : Image ℝ} (a b k w : ℝ) (hw : 0 ≤ w)
    (hv : ∀ x y, x < img.info.width → y < img.info.height → (img.px x y).getD 0 0 = a * x + b * y + k)
    {x y : Nat} (hx0 : 0 < x) (hy0 : 0 < y) (hx : x + 1 < img.info.width) (hy : y + 1 < img.info.height) :
    gradMag img w x y = (2 * w + 4) * Real.sqrt (a ^ 2 + b ^ 2) := by
  have hn : ∀ dx dy : Int, -1 ≤ dx → dx ≤ 1 → -1 ≤ dy → dy ≤ 1 → near img x y dx dy = a * (x + dx) + b * (y + dy) + k := by
    intro dx dy h1 h2 h3 h4
    unfold near
    have ex : (clampCoord img.info.width (x + dx) : ℤ) = x + dx := by unfold clampCoord; omega
    have ey : (clampCoord img.info.height (y + dy) : ℤ) = y + dy := by unfold clampCoord; omega
    rw [hv _ _ (by omega) (by omega)]
    have ex' : ((clampCoord img.info.width (x + dx) : ℕ) : ℝ) = x + dx := by exact_mod_cast ex
    have ey' : ((clampCoord img.info.height (y + dy) : ℕ) : ℝ) = y + dy := by exact_mod_cast ey
    rw [ex', ey']
  have e1 : gradX img w x y = (2 * w + 4) * a := by
    unfold gradX
    rw [hn _ _ (by decide) (by decide) (by decide) (by decide), hn _ _ (by decide) (by decide) (by decide) (by decide),
      hn _ _ (by decide) (by decide) (by decide) (by decide), hn _ _ (by decide) (by decide) (by decide) (by decide),
      hn _ _ (by decide) (by decide) (by decide) (by decide), hn _ _ (by decide) (by decide) (by decide) (by decide)]
    push_cast; ring
  have e2 : gradY img w x y = (2 * w + 4) * b := by
    unfold gradY
    rw [hn _ _ (by decide) (by decide) (by decide) (by decide), hn _ _ (by decide) (by decide) (by decide) (by decide),
      hn _ _ (by decide) (by decide) (by decide) (by decide), hn _ _ (by decide) (by decide) (by decide) (by decide),
      hn _ _ (by decide) (by decide) (by decide) (by decide), hn _ _ (by decide) (by decide) (by decide) (by decide)]
    push_cast; ring
  unfold gradMag
  rw [e1, e2, mul_pow, mul_pow, ← mul_add, Real.sqrt_mul (sq_nonneg _), Real.sqrt_sq (by linarith)]

/-- For values between 0 and `m` the magnitude lies between 0 and `sqrt 2 * (w + 2) * m` (about 1443 for Sobel on
bytes: larger than 255). -/
theorem gradMag_range {img : Image ℝ} (m w : ℝ) (hw : 0 ≤ w)
    (hv : ∀ x y, x < img.info.width → y < img.info.height → 0 ≤ (img.px x y).getD 0 0 ∧ (img.px x y).getD 0 0 ≤ m)
    {x y : Nat} (hx : x < img.info.width) (hy : y < img.info.height) :
    0 ≤ gradMag img w x y ∧ gradMag img w x y ≤ Real.sqrt 2 * ((w + 2) * m) := by
  refine ⟨Real.sqrt_nonneg _, ?_⟩
  have hn : ∀ dx dy, 0 ≤ near img x y dx dy ∧ near img x y dx dy ≤ m := by
    intro dx dy
    obtain ⟨a, b, ha, hb, e⟩ := near_le hx hy dx dy
    rw [e]; exact hv a b ha hb
  have hn' : ∀ dx dy, 0 ≤ w * near img x y dx dy ∧ w * near img x y dx dy ≤ w * m := fun dx dy =>
    ⟨mul_nonneg hw (hn dx dy).1, mul_le_mul_of_nonneg_left (hn dx dy).2 hw⟩
  have hm : 0 ≤ (w + 2) * m := mul_nonneg (by linarith) (le_trans (hn 0 0).1 (hn 0 0).2)
  have b1 : |gradX img w x y| ≤ (w + 2) * m := by
    unfold gradX
    rw [abs_le]
    have := hn 1 (-1); have := hn' 1 0; have := hn 1 1; have := hn (-1) (-1); have := hn' (-1) 0; have := hn (-1) 1
    constructor <;> nlinarith
  have b2 : |gradY img w x y| ≤ (w + 2) * m := by
    unfold gradY
    rw [abs_le]
    have := hn (-1) 1; have := hn' 0 1; have := hn 1 1; have := hn (-1) (-1); have := hn' 0 (-1); have := hn 1 (-1)
    constructor <;> nlinarith
  unfold gradMag
  rw [Real.sqrt_le_left (by positivity), mul_pow, Real.sq_sqrt (by norm_num)]
  have := sq_le_sq' (abs_le.1 b1).1 (abs_le.1 b1).2
  have := sq_le_sq' (abs_le.1 b2).1 (abs_le.1 b2).2
  linarith

/-- **C98** `sobel` is `sobel_weighted` with weight 2 and `prewitt` is `sobel_weighted` with weight 1. -/
theorem c98_weights (P : Profile) (img : Image ℝ) (h : img.WF) (hch : img.info.channels = 1) (ha : img.info.alpha = false)
    (hw : img.info.width + 3 ≤ 2147483648) (hh : img.info.height + 3 ≤ 2147483648) :
    sobel P img = sobelWeighted P img 2 ∧ prewitt P img = sobelWeighted P img 1 := by
  obtain ⟨⟨o2, e2, h2⟩, ⟨o, e, h⟩, -⟩ := c98_value P img h hch ha hw hh 2
  obtain ⟨⟨o1, e1, h1⟩, -, ⟨o', e', h'⟩⟩ := c98_value P img ‹_› hch ha hw hh 1
  rw [e, e2, e', e1]
  exact ⟨congrArg Except.ok (h.ext (by exact_mod_cast h2)), congrArg Except.ok (h'.ext (by exact_mod_cast h1))⟩

/-- **C98** Scaling all values by `a` and adding `k` scales the result by `|a|`: the filters ignore the offset. -/
theorem c98_affine (P : Profile) {img img' : Image ℝ} (h : img.WF) (h' : img'.WF) (hch : img.info.channels = 1)
    (ha : img.info.alpha = false)
    (hw : img.info.width + 3 ≤ 2147483648) (hh : img.info.height + 3 ≤ 2147483648) (weight : Nat)
    (hi : img'.info = img.info) (a k : ℝ)
    (hv : ∀ x y, x < img.info.width → y < img.info.height → (img'.px x y).getD 0 0 = a * (img.px x y).getD 0 0 + k) :
    ∃ out out', sobelWeighted P img weight = .ok out ∧ sobelWeighted P img' weight = .ok out' ∧ out'.info = out.info ∧
      ∀ x y, x < img.info.width → y < img.info.height → out'.px x y = (out.px x y).map (|a| * ·) := by
  obtain ⟨⟨o, e, ho⟩, -⟩ := c98_value P img h hch ha hw hh weight
  obtain ⟨⟨o', e', ho'⟩, -⟩ := c98_value P img' h' (hi ▸ hch) (hi ▸ ha) (hi ▸ hw) (hi ▸ hh) weight
  refine ⟨o, o', e, e', by rw [ho'.info_eq, ho.info_eq, hi], fun x y hx hy => ?_⟩
  rw [ho'.px_eq (by rw [hi]; exact hx) (by rw [hi]; exact hy), ho.px_eq hx hy, gradMag_affine hi a k weight hv hx hy]
  rfl

/-- **C98** On an inclined plane `a*x + b*y + k` the result away from the border is `(2*weight + 4)` times the slope
`sqrt(a^2 + b^2)`, whatever the direction: `8` times for Sobel, `6` times for Prewitt. -/
theorem c98_ramp (P : Profile) {img : Image ℝ} (h : img.WF) (hch : img.info.channels = 1) (ha : img.info.alpha = false)
    (hw : img.info.width + 3 ≤ 2147483648) (hh : img.info.height + 3 ≤ 2147483648) (weight : Nat) (a b k : ℝ)
    (hv : ∀ x y, x < img.info.width → y < img.info.height → (img.px x y).getD 0 0 = a * x + b * y + k) :
    ∃ out, sobelWeighted P img weight = .ok out ∧ ∀ x y, 0 < x → 0 < y → x + 1 < img.info.width → y + 1 < img.info.height →
      out.px x y = [(2 * weight + 4) * Real.sqrt (a ^ 2 + b ^ 2)] := by
  obtain ⟨⟨o, e, ho⟩, -⟩ := c98_value P img h hch ha hw hh weight
  refine ⟨o, e, fun x y hx0 hy0 hx hy => ?_⟩
  rw [ho.px_eq (by omega) (by omega), gradMag_ramp a b k weight (by positivity) hv hx0 hy0 hx hy]

/-- **C98** For values between 0 and `m` the result lies between 0 and `sqrt 2 * (weight + 2) * m` (about 1443 for Sobel on
bytes: larger than 255). -/
theorem c98_range (P : Profile) {img : Image ℝ} (h : img.WF) (hch : img.info.channels = 1) (ha : img.info.alpha = false)
    (hw : img.info.width + 3 ≤ 2147483648) (hh : img.info.height + 3 ≤ 2147483648) (weight : Nat) (m : ℝ)
    (hv : ∀ x y, x < img.info.width → y < img.info.height → 0 ≤ (img.px x y).getD 0 0 ∧ (img.px x y).getD 0 0 ≤ m) :
    ∃ out, sobelWeighted P img weight = .ok out ∧ ∀ x y, x < img.info.width → y < img.info.height →
      ∃ v, out.px x y = [v] ∧ 0 ≤ v ∧ v ≤ Real.sqrt 2 * ((weight + 2) * m) := by
  obtain ⟨⟨o, e, ho⟩, -⟩ := c98_value P img h hch ha hw hh weight
  exact ⟨o, e, fun x y hx hy => ⟨_, ho.px_eq hx hy, gradMag_range m weight (by positivity) hv hx hy⟩⟩

/-- the hypotheses are met: a 3x2 image of any six values -/
example (P : Profile) (a b c d e f : ℝ) : ∃ out, sobel P (gray6 a b c d e f) = .ok out ∧
    out.px 1 0 = [gradMag (gray6 a b c d e f) 2 1 0] := by
  obtain ⟨-, ⟨out, e, h⟩, -⟩ := c98_value P _ (gray6_WF a b c d e f) rfl rfl (by show 3 + 3 ≤ _; omega) (by show 2 + 3 ≤ _; omega) 0
  exact ⟨out, e, h.px_eq (show 1 < 3 by decide) (show 0 < 2 by decide)⟩

/-! ### Laplacian of Gaussian -/

/-- spec: the Laplacian-of-Gaussian weight at squared distance `d` *as the code computes it* (`1 + d/2σ²` where the
mathematical formula has `1 - d/2σ²`), with the library's f32 constants for pi and e -/
noncomputable def logWeight (σ : ℝ) (d : ℤ) : ℝ :=
  -1 / (13176795 / 4194304 * σ ^ (4 : ℝ)) * (1 + d / (2 * σ * σ)) * (11401300 / 4194304 : ℝ) ^ (-(d : ℝ) / (2 * σ * σ))

theorem logWeight_neg {σ : ℝ} (h : 0 < σ) {d : ℤ} (hd : 0 ≤ d) : logWeight σ d < 0 := by
  unfold logWeight
  have : (0 : ℝ) ≤ d := by exact_mod_cast hd
  have p1 : 0 < 13176795 / 4194304 * σ ^ (4 : ℝ) := by positivity
  have p2 : (0 : ℝ) < 1 + d / (2 * σ * σ) := by positivity
  have p3 : (0 : ℝ) < (11401300 / 4194304 : ℝ) ^ (-(d : ℝ) / (2 * σ * σ)) := by positivity
  have p4 : -1 / (13176795 / 4194304 * σ ^ (4 : ℝ)) < 0 := div_neg_of_neg_of_pos (by norm_num) p1
  exact mul_neg_of_neg_of_pos (mul_neg_of_neg_of_pos p4 p2) p3

/-- **C99** (exact arithmetic) `laplacian_of_gaussian(img, size, sigma)` is the two-dimensional filter with the kernel
`logWeight`; even sizes are rejected. -/
theorem c99_value (P : Profile) (img : Image ℝ) (h : img.WF) (size : Nat) (σ : ℝ) (hodd : size % 2 = 1) (hs : size * size < 2147483648)
    (hw : img.info.width + size ≤ 2147483648) (hh : img.info.height + size ≤ 2147483648) :
    ∃ out, laplacianOfGaussian P img size σ = .ok out ∧ out.Shows img.info fun x y =>
      (List.range img.info.channels).map fun c => ∑ i ∈ Finset.range size, ∑ j ∈ Finset.range size,
        logWeight σ (centreDist2 size i j) *
          (img.px (padCoord img.info.width x ((x : Int) - (size / 2 : Nat) + j))
            (padCoord img.info.height y ((y : Int) - (size / 2 : Nat) + i))).getD c 0 := by
  obtain ⟨k, ek, hl, hk⟩ := c43_log P size σ hodd hs
  have hn : size < 65536 := by
    by_contra hc
    have : 65536 * 65536 ≤ size * size := Nat.mul_le_mul (by omega) (by omega)
    omega
  obtain ⟨o, eo, ho⟩ := unseparable_real P img h k size hodd hl hn hw hh
  refine ⟨o, ?_, ho.congr fun x y hx hy => List.map_congr_left fun c hc => ?_⟩
  · unfold laplacianOfGaussian
    rw [ek, ok_bind, eo]
  rw [response2d_real _ _ _ _ _ _ hl]
  refine Finset.sum_congr rfl fun i hi => Finset.sum_congr rfl fun j hj => ?_
  congr 1
  rw [List.getD_eq_getElem?_getD, hk i j (Finset.mem_range.1 hi) (Finset.mem_range.1 hj), Option.getD_some]
  unfold logWeight FloatOps.pi FloatOps.e
  simp only [Ideal.num_eq, Ideal.div_eq, Ideal.mul_eq, Ideal.lit_eq, Ideal.neg_eq, Ideal.pow_eq, Ideal.ofInt_eq, Ideal.sub_eq]
  norm_num
  rw [neg_div, sub_neg_eq_add]
  exact .inl (.inl rfl)

/-- **C99** even sizes are rejected -/
theorem c99_even (P : Profile) (img : Image ℝ) (size : Nat) (σ : ℝ) (he : size % 2 = 0) :
    laplacianOfGaussian P img size σ = .error (.err .invalidArg) := by
  unfold laplacianOfGaussian
  rw [(c43_even P size σ he).2]; rfl

/-- **C99 is violated**: a Laplacian vanishes on constant images, and its weights sum to zero. The sign slip makes every
weight negative, so the filter turns *every* image of positive values (in particular every constant one) into strictly
negative values, for every odd size and every sigma > 0. -/
theorem c99_violated (P : Profile) (img : Image ℝ) (h : img.WF) (size : Nat) (σ : ℝ) (hodd : size % 2 = 1) (hs : size * size < 2147483648)
    (hw : img.info.width + size ≤ 2147483648) (hh : img.info.height + size ≤ 2147483648) (hσ : 0 < σ)
    (hv : ∀ x y c, x < img.info.width → y < img.info.height → c < img.info.channels → 0 < (img.px x y).getD c 0) :
    ∃ out, laplacianOfGaussian P img size σ = .ok out ∧ out.info = img.info ∧
      ∀ x y c, x < img.info.width → y < img.info.height → c < img.info.channels → (out.px x y).getD c 0 < 0 := by
  obtain ⟨o, e, ho⟩ := c99_value P img h size σ hodd hs hw hh
  refine ⟨o, e, ho.info_eq, fun x y c hx hy hc => ?_⟩
  rw [ho.px_eq hx hy, getD_map_range _ _ _ _ hc]
  have neg : ∀ i j, logWeight σ (centreDist2 size i j) *
          (img.px (padCoord img.info.width x ((x : Int) - (size / 2 : Nat) + j))
            (padCoord img.info.height y ((y : Int) - (size / 2 : Nat) + i))).getD c 0 < 0 := fun i j =>
    mul_neg_of_neg_of_pos (logWeight_neg hσ (by unfold centreDist2; nlinarith [sq_nonneg ((i : Int) - ((size - 1) / 2 : Nat)), sq_nonneg ((j : Int) - ((size - 1) / 2 : Nat))]))
      (hv _ _ _ (padCoord_lt hx) (padCoord_lt hy) hc)
  have h0 : 0 < size := by omega
  exact Finset.sum_neg (fun i _ => Finset.sum_neg (fun j _ => neg i j) ⟨0, Finset.mem_range.2 h0⟩) ⟨0, Finset.mem_range.2 h0⟩

/-- a concrete violation: the constant image 1 -/
example (P : Profile) : ∃ out, laplacianOfGaussian P (gray6 1 1 1 1 1 1) 5 (1 : ℝ) = .ok out ∧ (out.px 1 1).getD 0 0 < 0 := by
  obtain ⟨o, e, -, h⟩ := c99_violated P _ (gray6_WF (1 : ℝ) 1 1 1 1 1) 5 1 rfl (by decide) (by show 3 + 5 ≤ _; omega)
    (by show 2 + 5 ≤ _; omega) one_pos (by
      intro x y c hx hy hc
      have hx : x < 3 := hx
      have hy : y < 2 := hy
      have hc : c < 1 := hc
      interval_cases x <;> interval_cases y <;> interval_cases c <;> simp [gray6, Image.fromVec, Image.px])
  exact ⟨o, e, h 1 1 0 (show 1 < 3 by decide) (show 1 < 2 by decide) (show 0 < 1 by decide)⟩
end Imgproc

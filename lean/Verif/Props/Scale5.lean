import Verif.Props.Scale4
import Mathlib.Algebra.BigOperators.Group.Finset.Basic
import Mathlib.Algebra.Order.BigOperators.Group.Finset
/-! Property C69: bicubic scaling, in exact arithmetic. -/
namespace Imgproc
open FloatOps
open Finset (range)

/-- **Specification**: the uniform cubic B-spline -/
noncomputable def cubicBSpline (x : ℝ) : ℝ :=
  if |x| < 1 then 2 / 3 - x ^ 2 + |x| ^ 3 / 2
  else if |x| < 2 then (2 - |x|) ^ 3 / 6
  else 0

theorem cubicBSpline_nonneg (x : ℝ) : 0 ≤ cubicBSpline x := by
  unfold cubicBSpline
  have ha := abs_nonneg x
  split
  · rename_i h
    rw [← sq_abs]
    nlinarith [mul_nonneg ha ha, pow_nonneg ha 3]
  · split
    · rename_i h
      have : 0 ≤ 2 - |x| := by linarith
      positivity
    · rfl

theorem cubicBSpline_neg (x : ℝ) : cubicBSpline (-x) = cubicBSpline x := by
  unfold cubicBSpline; rw [abs_neg, neg_sq]

theorem clampZero_cube (x : ℝ) : FloatOps.pow (clampZero x) (num 3) = if x ≤ 0 then 0 else x ^ 3 := by
  unfold clampZero
  rw [Ideal.pow_eq, Ideal.num_eq 3]
  have e : ((3 : ℤ) : ℝ) = ((3 : ℕ) : ℝ) := by norm_num
  rw [e, Real.rpow_natCast]
  by_cases h : x ≤ 0
  · have : (x <=. num 0) = true := by rw [Ideal.le_eq]; simpa using h
    rw [if_pos this, if_pos h]; simp
  · have : ¬ (x <=. num 0) = true := by rw [Ideal.le_eq]; simpa using h
    rw [if_neg this, if_neg h]

/-- `cubic_weighting_fn` is the cubic B-spline, up to its right end -/
theorem cubicWeighting_eq {x : ℝ} (h : x ≤ 2) : cubicWeightingFn x = cubicBSpline x := by
  unfold cubicWeightingFn
  simp only [clampZero_cube]
  simp only [Ideal.add_eq, Ideal.sub_eq, Ideal.mul_eq, Ideal.div_eq, Ideal.num_eq]
  push_cast
  unfold cubicBSpline
  rcases le_or_gt x (-2) with h1 | h1
  · rw [abs_of_nonpos (by linarith), if_pos (by linarith), if_pos (by linarith), if_pos (by linarith), if_pos (by linarith),
      if_neg (by linarith), if_neg (by linarith)]; ring
  rcases le_or_gt x (-1) with h2 | h2
  · rw [abs_of_nonpos (by linarith), if_neg (by linarith), if_pos (by linarith), if_pos (by linarith), if_pos (by linarith),
      if_neg (by linarith), if_pos (by linarith)]; ring
  rcases le_or_gt x 0 with h3 | h3
  · rw [abs_of_nonpos (by linarith), if_neg (by linarith), if_neg (by linarith), if_pos (by linarith), if_pos (by linarith),
      if_pos (by linarith)]; ring
  rcases lt_or_ge x 1 with h4 | h4
  · rw [abs_of_nonneg (by linarith), if_neg (by linarith), if_neg (by linarith), if_neg (by linarith), if_pos (by linarith),
      if_pos (by linarith)]; ring
  rcases lt_or_ge x 2 with h5 | h5
  · have e : (if x - 1 ≤ 0 then (0 : ℝ) else (x - 1) ^ 3) = (x - 1) ^ 3 := by
      split
      · have : x = 1 := by linarith
        subst this; norm_num
      · rfl
    rw [e, abs_of_nonneg (by linarith), if_neg (by linarith), if_neg (by linarith), if_neg (by linarith),
      if_neg (by linarith), if_pos (by linarith)]
    ring
  · have : x = 2 := le_antisymm h h5
    subst this; norm_num

/-- the four B-spline weights at a fraction `t` add up to one -/
theorem cubicBSpline_sum {t : ℝ} (h0 : 0 ≤ t) (h1 : t < 1) :
    cubicBSpline (-1 - t) + cubicBSpline (0 - t) + cubicBSpline (1 - t) + cubicBSpline (2 - t) = 1 := by
  rcases eq_or_lt_of_le h0 with rfl | h0
  · unfold cubicBSpline; norm_num
  · unfold cubicBSpline
    rw [abs_of_neg (by linarith : -1 - t < 0), abs_of_neg (by linarith : 0 - t < 0), abs_of_pos (by linarith : 0 < 1 - t),
      abs_of_pos (by linarith : 0 < 2 - t), if_neg (by linarith), if_pos (by linarith), if_pos (by linarith),
      if_pos (by linarith), if_neg (by linarith), if_pos (by linarith)]
    ring

/-- **Specification**: column `k`, or the first or last column if there is no such column -/
def clampCol (w : Nat) (k : ℤ) : Nat := (max 0 (min k ((w : ℤ) - 1))).toNat

theorem clampCol_lt {w : Nat} (h : 0 < w) (k : ℤ) : clampCol w k < w := by unfold clampCol; omega

theorem clampCol_real {w : Nat} (h : 0 < w) (hw : w < 4294967296) {z : ℝ} (m : ℤ) :
    ∃ r, FloatOps.clamp (z +. FloatOps.ofInt m) (num 0) (ofNat (F := ℝ) w -. num 1) = .ok r ∧ toU32 r = clampCol w (⌊z⌋ + m) := by
  have hle : ((num 0 : ℝ) <=. (ofNat (F := ℝ) w -. num 1)) = true := by
    rw [Ideal.le_eq]; simp only [Ideal.num_eq, Ideal.sub_eq, Ideal.ofNat_eq]; push_cast
    have : (1 : ℝ) ≤ w := by exact_mod_cast h
    linarith
  unfold FloatOps.clamp
  rw [if_pos hle]
  refine ⟨_, rfl, ?_⟩
  simp only [FloatOps.gt, Ideal.lt_eq]
  simp only [Ideal.num_eq, Ideal.sub_eq, Ideal.ofNat_eq, Ideal.add_eq, Ideal.ofInt_eq]
  push_cast
  have hw1 : (1 : ℝ) ≤ w := by exact_mod_cast h
  by_cases h1 : z + m < 0
  · rw [if_pos h1, if_neg (by linarith)]
    have : ⌊z⌋ + m < 0 := by
      have : ⌊z + m⌋ < 0 := by rw [Int.floor_lt]; simpa using h1
      rwa [Int.floor_add_intCast] at this
    have e := real_toU32_int 0 (by decide)
    simp only [Nat.cast_zero, Int.cast_zero] at e
    rw [e]
    unfold clampCol; omega
  · rw [if_neg h1]
    have hf : 0 ≤ ⌊z⌋ + m := by
      rw [← Int.floor_add_intCast]; exact Int.floor_nonneg.2 (not_lt.1 h1)
    by_cases h2 : (w : ℝ) - 1 < z + m
    · rw [if_pos h2]
      have : (w : ℤ) - 1 ≤ ⌊z⌋ + m := by
        rw [← Int.floor_add_intCast, Int.le_floor]; push_cast; exact h2.le
      have e := real_toU32_int (w - 1) (by omega)
      rw [show (((w - 1 : Nat) : ℤ) : ℝ) = (w : ℝ) - 1 by push_cast [Nat.cast_sub (by omega : 1 ≤ w)]; ring] at e
      rw [e]
      unfold clampCol; omega
    · rw [if_neg h2]
      have h3 : ⌊z⌋ + m ≤ (w : ℤ) - 1 := by
        rw [← Int.floor_add_intCast]
        have : ⌊z + m⌋ < (w : ℤ) := by rw [Int.floor_lt]; push_cast; linarith
        omega
      unfold toU32 clampCol
      rw [Ideal.toInt_eq]
      unfold realTrunc
      rw [if_pos (not_lt.1 h1), Int.floor_add_intCast]
      omega

theorem tapFold_real (K M : Nat) (v w : Nat → Nat → ℝ) :
    tapFold K M v w = ∑ m ∈ range K, ∑ n ∈ range M, v m n * w m n := by
  have inner : ∀ (M : Nat) (g : Nat → ℝ) (a : ℝ), (List.range M).foldl (fun acc n => acc +. g n) a = a + ∑ n ∈ range M, g n := by
    intro M g a
    induction M with
    | zero => simp
    | succ k ih => rw [List.range_succ, List.foldl_append, ih, Finset.sum_range_succ]; simp [add_assoc]
  unfold tapFold
  have h1 : ∀ (acc : ℝ) (m : Nat), (List.range M).foldl (fun acc n => acc +. v m n *. w m n) acc =
      acc +. ∑ n ∈ range M, v m n * w m n := by
    intro acc m
    exact inner M (fun n => v m n * w m n) acc
  simp only [h1]
  rw [inner K (fun m => ∑ n ∈ range M, v m n * w m n)]
  simp

/-- a non-empty image and positive factors whose output is representable -/
structure BicubicInput (img : Image ℝ) (xf yf : ℝ) : Prop extends BilinearInput img xf yf where
  wpos : 0 < img.info.width
  hpos : 0 < img.info.height

/-- weight of the `m`-th column, `m = 0, 1, 2, 3` (offset `m - 1`), at output column `x`: the B-spline at the distance
between the column and the position -/
noncomputable def cubicTap (f : ℝ) (x m : Nat) : ℝ := cubicBSpline ((m : ℝ) - 1 - fracCol f x)

/-- **C69** the 16 weights of every position are non-negative and add up to 1 -/
theorem c69_partition {xf yf : ℝ} (hx : 0 < xf) (hy : 0 < yf) (x y : Nat) :
    (∀ m n, 0 ≤ cubicTap xf x m * cubicTap yf y n) ∧
    ∑ m ∈ range 4, ∑ n ∈ range 4, cubicTap xf x m * cubicTap yf y n = 1 := by
  have one : ∀ {f : ℝ}, 0 < f → ∀ x, ∑ m ∈ range 4, cubicTap f x m = 1 := by
    intro f hf x
    have := cubicBSpline_sum (fracCol_bounds hf x).1 (fracCol_bounds hf x).2
    unfold cubicTap
    simp only [Finset.sum_range_succ, Finset.sum_range_zero]
    push_cast
    norm_num
    norm_num at this
    linarith
  refine ⟨fun m n => mul_nonneg (cubicBSpline_nonneg _) (cubicBSpline_nonneg _), ?_⟩
  rw [← Finset.sum_mul_sum, one hx, one hy, one_mul]

theorem fract_real {f : ℝ} (hf : 0 < f) (x : Nat) : (x : ℝ) / f - (⌊(x : ℝ) / f⌋ : ℤ) = fracCol f x := by
  unfold fracCol leftCol
  rw [← Int.natCast_floor_eq_floor (by positivity)]; push_cast; rfl

theorem bicubicWeight_real {xf yf : ℝ} (hx : 0 < xf) (hy : 0 < yf) (x y : Nat) {m n : Nat} (hm : m < 4) :
    bicubicWeight xf yf x y (-1 + (m : ℤ)) (-1 + (n : ℤ)) = cubicTap xf x m * cubicTap yf y n := by
  have bx := fracCol_bounds hx x
  have by' := fracCol_bounds hy y
  have hm' : (m : ℝ) ≤ 3 := by exact_mod_cast (by omega : m ≤ 3)
  have hn' : (0 : ℝ) ≤ n := by positivity
  unfold bicubicWeight cubicTap
  simp only [Ideal.sub_eq, Ideal.mul_eq, Ideal.ofNat_eq, Ideal.div_eq, Ideal.floor_eq, Ideal.ofInt_eq]
  rw [fract_real hx, fract_real hy, cubicWeighting_eq (by push_cast; linarith), cubicWeighting_eq (by push_cast; linarith)]
  congr 1
  · congr 1; push_cast; ring
  · rw [← cubicBSpline_neg]; congr 1; push_cast; ring

/-- **C69, what bicubic scaling computes** (exact arithmetic): for every non-empty image and all positive factors with a
representable output, scale returns an image of `round(W fx) x round(H fy)` pixels, whose value at `(x, y)` is the sum
over the 4 x 4 neighbouring pixels (clamped to the image) weighted by the cubic B-spline in both directions. -/
theorem c69_value (P : Profile) {img : Image ℝ} {xf yf : ℝ} (h : BicubicInput img xf yf) :
    ∃ out, scale P img xf yf .bicubic = .ok out ∧ out.WF ∧
      out.info = ⟨scaledDim img.info.width xf, scaledDim img.info.height yf, img.info.channels, img.info.alpha⟩ ∧
      ∀ x y c, x < out.info.width → y < out.info.height → c < out.info.channels →
        out.rchan x y c = ∑ m ∈ range 4, ∑ n ∈ range 4,
          img.rchan (clampCol img.info.width ((leftCol xf x : ℤ) - 1 + m))
            (clampCol img.info.height ((leftCol yf y : ℤ) - 1 + n)) c * (cubicTap xf x m * cubicTap yf y n) := by
  have hG := fun (x y : Nat) (_ : x < scaledDim img.info.width xf) (_ : y < scaledDim img.info.height yf) =>
    taps_ok P h.wf (-1) 3
    (fun i => FloatOps.clamp (ofNat (F := ℝ) x /. xf +. FloatOps.ofInt i) (num 0) (ofNat (F := ℝ) img.info.width -. num 1))
    (fun i => FloatOps.clamp (ofNat (F := ℝ) y /. yf +. FloatOps.ofInt i) (num 0) (ofNat (F := ℝ) img.info.height -. num 1))
    (bicubicWeight xf yf x y) (fun i => clampCol img.info.width (⌊(ofNat (F := ℝ) x /. xf : ℝ)⌋ + i))
    (fun i => clampCol img.info.height (⌊(ofNat (F := ℝ) y /. yf : ℝ)⌋ + i))
    (fun i => clampCol_lt h.wpos _) (fun i => clampCol_lt h.hpos _)
    (fun i => clampCol_real h.wpos h.wf.width i) (fun i => clampCol_real h.hpos h.wf.height i)
  obtain ⟨out, e, ho⟩ := scale_core P (nonNeg_real h.xpos.le) (nonNeg_real h.ypos.le)
    (scaleDim_real h.xpos.le h.width) (scaleDim_real h.ypos.le h.height) h.info
    (m := .bicubic) _ (fun x y h1 h2 => by simp) hG
  refine ⟨out, e, ho.1, ho.2.1, ?_⟩
  intro x y c hx hy hc
  rw [ho.2.1] at hx hy hc
  unfold Image.rchan
  rw [ho.px_eq hx hy]
  dsimp only at hc
  rw [List.getD_eq_getElem?_getD, List.getElem?_map, List.getElem?_range hc]
  simp only [Option.map_some, Option.getD_some]
  rw [tapFold_real]
  have hfl : ∀ {f : ℝ}, 0 < f → ∀ x : Nat, ⌊(ofNat (F := ℝ) x /. f : ℝ)⌋ = (leftCol f x : ℤ) := by
    intro f hf x
    simp only [Ideal.ofNat_eq, Ideal.div_eq]
    unfold leftCol
    rw [Int.natCast_floor_eq_floor (by positivity)]
  refine Finset.sum_congr rfl fun m hm => Finset.sum_congr rfl fun n hn => ?_
  have hm : m < 4 := Finset.mem_range.1 hm
  rw [bicubicWeight_real h.xpos h.ypos x y hm, hfl h.xpos, hfl h.ypos]
  congr 1
  · rw [Ideal.num_eq, Int.cast_zero]
    rw [show (leftCol xf x : ℤ) + (-1 + (m : ℤ)) = (leftCol xf x : ℤ) - 1 + m by ring,
      show (leftCol yf y : ℤ) + (-1 + (n : ℤ)) = (leftCol yf y : ℤ) - 1 + n by ring]

/-- **C69, range** (exact arithmetic): if channel `c` of every input pixel is in `[lo, hi]`, so it is in the result. In
particular (`lo = hi`) constant images stay constant. -/
theorem c69_range (P : Profile) {img : Image ℝ} {xf yf : ℝ} (h : BicubicInput img xf yf) :
    ∃ out, scale P img xf yf .bicubic = .ok out ∧
      ∀ (c : Nat) (lo hi : ℝ), c < img.info.channels →
        (∀ x y, x < img.info.width → y < img.info.height → lo ≤ img.rchan x y c ∧ img.rchan x y c ≤ hi) →
        ∀ x y, x < out.info.width → y < out.info.height → lo ≤ out.rchan x y c ∧ out.rchan x y c ≤ hi := by
  obtain ⟨out, e, _, hi', hv⟩ := c69_value P h
  refine ⟨out, e, ?_⟩
  intro c lo hi hc hin x y hx hy
  rw [hv x y c hx hy (by rw [hi']; exact hc)]
  obtain ⟨w0, w1⟩ := c69_partition h.xpos h.ypos x y
  have b := fun m n : Nat => hin (clampCol img.info.width ((leftCol xf x : ℤ) - 1 + m))
    (clampCol img.info.height ((leftCol yf y : ℤ) - 1 + n)) (clampCol_lt h.wpos _) (clampCol_lt h.hpos _)
  constructor
  · calc lo = ∑ m ∈ range 4, ∑ n ∈ range 4, lo * (cubicTap xf x m * cubicTap yf y n) := by
          simp only [← Finset.mul_sum]; rw [show (∑ i ∈ range 4, cubicTap xf x i * ∑ i ∈ range 4, cubicTap yf y i) = 1 by
            rw [← w1]; simp only [Finset.mul_sum]]; ring
      _ ≤ _ := Finset.sum_le_sum fun m _ => Finset.sum_le_sum fun n _ => mul_le_mul_of_nonneg_right (b m n).1 (w0 m n)
  · calc _ ≤ ∑ m ∈ range 4, ∑ n ∈ range 4, hi * (cubicTap xf x m * cubicTap yf y n) :=
          Finset.sum_le_sum fun m _ => Finset.sum_le_sum fun n _ => mul_le_mul_of_nonneg_right (b m n).2 (w0 m n)
      _ = hi := by
          simp only [← Finset.mul_sum]; rw [show (∑ i ∈ range 4, cubicTap xf x i * ∑ i ∈ range 4, cubicTap yf y i) = 1 by
            rw [← w1]; simp only [Finset.mul_sum]]; ring

example : BicubicInput ramp 4 1 := ⟨ramp_input, by decide, by decide⟩
end Imgproc

import Verif.Props.Bilateral
import Verif.Props.Lab2
import Verif.Props.Scale4
/-! Property C90: what the bilateral filter computes in exact arithmetic. -/
namespace Imgproc
open FloatOps

/-- spec: the Gaussian, with the library's f32 constants for pi and e -/
noncomputable def gaussR (x σ : ℝ) : ℝ :=
  1 / (2 * (13176795 / 4194304) * (σ * σ)) * (11401300 / 4194304 : ℝ) ^ (-(x * x) / (2 * (σ * σ)))

theorem gaussR_pos (x : ℝ) {σ : ℝ} (h : 0 < σ) : 0 < gaussR x σ := by unfold gaussR; positivity

theorem gaussOf_real (x σ : ℝ) : gaussOf x σ = gaussR x σ := by
  unfold gaussOf gaussR FloatOps.pi FloatOps.e
  simp only [Ideal.num_eq, Ideal.div_eq, Ideal.mul_eq, Ideal.lit_eq, Ideal.neg_eq, Ideal.pow_eq]
  norm_num

/-- spec: weight of the cell `(i, j)` (row, column) of a `size x size` window whose value differs from the pixel's own value
by `d`: Gaussian of the distance to the middle times Gaussian of `d`; the middle itself has weight 0 -/
noncomputable def cellWeight (size : Nat) (spatial range : ℝ) (i j : Nat) (d : ℝ) : ℝ :=
  if i = size / 2 ∧ j = size / 2 then 0
  else gaussR (Real.sqrt (((size / 2 : Nat) - j : ℝ) * ((size / 2 : Nat) - j) + ((size / 2 : Nat) - i : ℝ) * ((size / 2 : Nat) - i))) spatial *
    gaussR d range

/-- spec: channel `c` of the padded window cell `(i, j)` around `(x, y)` -/
def cellValue (img : Image ℝ) (x y size c i j : Nat) : ℝ :=
  (img.px (padCoord img.info.width x ((x : Int) - (size / 2 : Nat) + j))
    (padCoord img.info.height y ((y : Int) - (size / 2 : Nat) + i))).getD c 0

/-- spec: the weighted mean over the window -/
noncomputable def smoothed (img : Image ℝ) (size : Nat) (spatial range : ℝ) (x y c : Nat) : ℝ :=
  (∑ i ∈ Finset.range size, ∑ j ∈ Finset.range size,
      cellWeight size spatial range i j |(img.px x y).getD c 0 - cellValue img x y size c i j| * cellValue img x y size c i j) /
    ∑ i ∈ Finset.range size, ∑ j ∈ Finset.range size,
      cellWeight size spatial range i j |(img.px x y).getD c 0 - cellValue img x y size c i j|

theorem foldl_sum_real (n : Nat) (f : Nat → ℝ) :
    (List.range n).foldl (fun acc i => acc +. f i) (num 0) = ∑ i ∈ Finset.range n, f i := by
  induction n with
  | zero => simp
  | succ n ih => rw [List.range_succ, List.foldl_append, ih, Finset.sum_range_succ]; rfl

theorem distance_real (c x y : Nat) : (distance c c x y : ℝ) =
    Real.sqrt (((c : ℝ) - x) * ((c : ℝ) - x) + ((c : ℝ) - y) * ((c : ℝ) - y)) := by
  unfold distance
  simp only [Ideal.ofNat_eq, Ideal.sub_eq, Ideal.mul_eq, Ideal.add_eq, Ideal.sqrt_eq]

theorem sq_of_absDiff {a b c : Nat} (h : absDiff a c = absDiff b c) :
    ((c : ℝ) - a) * ((c : ℝ) - a) = ((c : ℝ) - b) * ((c : ℝ) - b) := by
  have : ((c : ℤ) - a) = (c : ℤ) - b ∨ ((c : ℤ) - a) = -((c : ℤ) - b) := by unfold absDiff at h; omega
  have : ((c : ℤ) - a) * ((c : ℤ) - a) = ((c : ℤ) - b) * ((c : ℤ) - b) := by
    rcases this with h | h
    · rw [h]
    · rw [h]; ring
  exact_mod_cast this

theorem spatialMat_real (P : Profile) {size : Nat} (hodd : size % 2 = 1) (hs : size < 65536) {spatial : ℝ} (hsp : 0 ≤ spatial) :
    generateSpatialMat P size spatial = .ok (matrixOf size fun y x => if y = size / 2 ∧ x = size / 2 then 0 else
      gaussR (Real.sqrt (((size / 2 : Nat) - x : ℝ) * ((size / 2 : Nat) - x) + ((size / 2 : Nat) - y : ℝ) * ((size / 2 : Nat) - y))) spatial) := by
  obtain ⟨c, rfl⟩ : ∃ c, size = 2 * c + 1 := ⟨size / 2, by omega⟩
  have hc : (2 * c + 1) / 2 = c := by omega
  have hs' : (2 * c + 1) * (2 * c + 1) < U32SIZE := by
    have : (2 * c + 1) * (2 * c + 1) ≤ 65535 * 65535 := Nat.mul_le_mul (by omega) (by omega)
    show _ < 4294967296
    omega
  rw [spatialMat_eq P hs' spatial (fun y x => gaussOf (distance c c x y) spatial) (by rw [Ideal.eq_eq])
    (fun y x _ _ => gaussianFn_gen (nonNeg_real hsp) _) ?_, hc]
  · congr 1
    refine matrixOf_congr fun i j _ _ => ?_
    simp only [gaussOf_real, distance_real, Ideal.num_eq, Int.cast_zero]
  · intro y x y' x' _ _ _ _ h
    simp only [distance_real]
    rcases h with ⟨h1, h2⟩ | ⟨h1, h2⟩
    · rw [sq_of_absDiff h1, sq_of_absDiff h2]
    · rw [sq_of_absDiff h1, sq_of_absDiff h2, add_comm]

theorem bilateralMean_real (img : Image ℝ) {size : Nat} (spatial range : ℝ) (x y c : Nat) :
    bilateralMean range (matrixOf size fun y x => if y = size / 2 ∧ x = size / 2 then 0 else
      gaussR (Real.sqrt (((size / 2 : Nat) - x : ℝ) * ((size / 2 : Nat) - x) + ((size / 2 : Nat) - y : ℝ) * ((size / 2 : Nat) - y))) spatial)
      (window2d img x y size) c ((img.px x y).getD c (num 0)) = smoothed img size spatial range x y c := by
  unfold bilateralMean smoothed
  rw [foldl_sum_real, foldl_sum_real, window2d_length, sum_range_mul, sum_range_mul, Ideal.div_eq]
  have key : ∀ i ∈ Finset.range size, ∀ j ∈ Finset.range size,
      bilateralWeight range (matrixOf size fun y x => if y = size / 2 ∧ x = size / 2 then 0 else
        gaussR (Real.sqrt (((size / 2 : Nat) - x : ℝ) * ((size / 2 : Nat) - x) + ((size / 2 : Nat) - y : ℝ) * ((size / 2 : Nat) - y))) spatial)
        (window2d img x y size) c ((img.px x y).getD c (num 0)) (i * size + j) =
      cellWeight size spatial range i j |(img.px x y).getD c 0 - cellValue img x y size c i j| ∧
      ((window2d img x y size).getD (i * size + j) []).getD c (num 0) = cellValue img x y size c i j := by
    intro i hi j hj
    have hi := Finset.mem_range.1 hi
    have hj := Finset.mem_range.1 hj
    have hv : ((window2d img x y size).getD (i * size + j) []).getD c (num 0) = cellValue img x y size c i j := by
      rw [window2d_getD _ _ _ _ hi hj]; simp [cellValue]
    refine ⟨?_, hv⟩
    unfold bilateralWeight cellWeight
    rw [hv, gaussOf_real, List.getD_eq_getElem?_getD, matrixOf_get hi hj]
    simp only [Option.getD_some, Ideal.mul_eq, Ideal.abs_eq, Ideal.sub_eq, Ideal.num_eq, Int.cast_zero]
    split
    · simp
    · rfl
  congr 1
  · exact Finset.sum_congr rfl fun i hi => Finset.sum_congr rfl fun j hj => by
      rw [(key i hi j hj).1, (key i hi j hj).2]; rfl
  · exact Finset.sum_congr rfl fun i hi => Finset.sum_congr rfl fun j hj => (key i hi j hj).1

/-- the window size for a spatial parameter, in exact arithmetic: `4 * spatial + 1` rounded down -/
theorem bilateralSize_real {spatial : ℝ} (h : 0 ≤ spatial) {size : Nat} (h1 : (size : ℝ) ≤ 4 * spatial + 1)
    (h2 : 4 * spatial + 1 < size + 1) (hs : size < 65536) : bilateralSize spatial = size := by
  unfold bilateralSize toU32
  have e : ((spatial *. num 4) +. num 1 : ℝ) = 4 * spatial + 1 := by simp; ring
  rw [e, Ideal.toInt_eq]
  unfold realTrunc
  have hf : ⌊4 * spatial + 1⌋ = (size : ℤ) := by
    rw [Int.floor_eq_iff]; push_cast; exact ⟨h1, h2⟩
  rw [if_pos (by linarith), hf]
  omega

/-- inputs of the exact-arithmetic theorems: a non-empty image with three colour channels, positive parameters, and a window
`size = floor(4 * spatial + 1)` that is odd and larger than 1 -/
structure BilateralInput (img : Image UInt8) (range spatial : ℝ) (size : Nat) : Prop where
  wf : img.WF
  pos : 0 < img.info.width ∧ 0 < img.info.height
  three : img.info.colours = 3
  range_pos : 0 < range
  spatial_pos : 0 < spatial
  lower : (size : ℝ) ≤ 4 * spatial + 1
  upper : 4 * spatial + 1 < size + 1
  odd : size % 2 = 1
  big : 3 ≤ size
  small : size < 65536
  width : img.info.width + size ≤ 2147483648
  height : img.info.height + size ≤ 2147483648

/-- **C90** (exact arithmetic) `bilateral_filter` converts to CIELAB, replaces every channel of every pixel (alpha included) by
the weighted mean of its window, and converts back. -/
theorem c90_value (P : Profile) {img : Image UInt8} {range spatial : ℝ} {size : Nat} (h : BilateralInput img range spatial size) :
    ∃ (out : Image UInt8) (lab filtered : Image ℝ),
      bilateralFilter P img range spatial = .ok out ∧ out.WF ∧ out.info = img.info ∧
      srgbToLab P img .d65 = .ok lab ∧
      filtered.Shows img.info (fun x y => (List.range img.info.channels).map fun c => smoothed lab size spatial range x y c) ∧
      labToSrgb P filtered .d65 = .ok out := by
  obtain ⟨out, lab, filtered, e, hw, hi, el, -, hf, eo, -⟩ := bilateral_core P img h.wf range spatial
    (nonNeg_real h.range_pos.le) (nonNeg_real h.spatial_pos.le) size
    (bilateralSize_real h.spatial_pos.le h.lower h.upper h.small) (by have := h.big; omega) h.small
    (spatialMat_real P h.odd h.small h.spatial_pos.le) (matrixOf_length _ _) h.pos h.three h.width h.height
  refine ⟨out, lab, filtered, e, hw, hi, el, hf.congr fun x y _ _ => ?_, eo⟩
  exact List.map_congr_left fun c _ => bilateralMean_real lab spatial range x y c

theorem cellWeight_nonneg {size : Nat} {spatial range : ℝ} (hr : 0 < range) (hs : 0 < spatial) (i j : Nat) (d : ℝ) :
    0 ≤ cellWeight size spatial range i j d := by
  unfold cellWeight
  split
  · exact le_refl _
  · exact (mul_pos (gaussR_pos _ hs) (gaussR_pos _ hr)).le

theorem total_pos {img : Image ℝ} {size : Nat} {spatial range : ℝ} (hr : 0 < range) (hs : 0 < spatial) (hb : 3 ≤ size)
    (x y c : Nat) : 0 < ∑ i ∈ Finset.range size, ∑ j ∈ Finset.range size,
      cellWeight size spatial range i j |(img.px x y).getD c 0 - cellValue img x y size c i j| := by
  refine Finset.sum_pos' (fun i _ => Finset.sum_nonneg fun j _ => cellWeight_nonneg hr hs i j _)
    ⟨0, Finset.mem_range.2 (by omega), ?_⟩
  refine Finset.sum_pos' (fun j _ => cellWeight_nonneg hr hs 0 j _) ⟨0, Finset.mem_range.2 (by omega), ?_⟩
  unfold cellWeight
  rw [if_neg (by omega)]
  exact mul_pos (gaussR_pos _ hs) (gaussR_pos _ hr)

/-- **C90** the mean lies between any bounds that hold for the cells of the window other than the middle one; the middle one does
not count. -/
theorem c90_between {img : Image ℝ} {size : Nat} {spatial range : ℝ} (hr : 0 < range) (hs : 0 < spatial) (hb : 3 ≤ size)
    (x y c : Nat) (lo hi : ℝ)
    (hv : ∀ i j, i < size → j < size → (i, j) ≠ (size / 2, size / 2) →
      lo ≤ cellValue img x y size c i j ∧ cellValue img x y size c i j ≤ hi) :
    lo ≤ smoothed img size spatial range x y c ∧ smoothed img size spatial range x y c ≤ hi := by
  have ht := total_pos (img := img) hr hs hb x y c
  unfold smoothed
  constructor
  · rw [le_div_iff₀ ht, Finset.mul_sum]
    refine Finset.sum_le_sum fun i hi' => ?_
    rw [Finset.mul_sum]
    refine Finset.sum_le_sum fun j hj => ?_
    by_cases hc : i = size / 2 ∧ j = size / 2
    · unfold cellWeight; rw [if_pos hc]; simp
    · have := (hv i j (Finset.mem_range.1 hi') (Finset.mem_range.1 hj) (fun h => hc (by simpa using h))).1
      rw [mul_comm]
      exact mul_le_mul_of_nonneg_left this (cellWeight_nonneg hr hs _ _ _)
  · rw [div_le_iff₀ ht, Finset.mul_sum]
    refine Finset.sum_le_sum fun i hi' => ?_
    rw [Finset.mul_sum]
    refine Finset.sum_le_sum fun j hj => ?_
    by_cases hc : i = size / 2 ∧ j = size / 2
    · unfold cellWeight; rw [if_pos hc]; simp
    · have := (hv i j (Finset.mem_range.1 hi') (Finset.mem_range.1 hj) (fun h => hc (by simpa using h))).2
      rw [mul_comm hi]
      exact mul_le_mul_of_nonneg_left this (cellWeight_nonneg hr hs _ _ _)

/-- **C90** (exact arithmetic) an image of one colour comes back, at most one level darker. -/
theorem c90_constant (P : Profile) {img : Image UInt8} {range spatial : ℝ} {size : Nat} (h : BilateralInput img range spatial size)
    (p : List UInt8) (hp : ∀ x y, x < img.info.width → y < img.info.height → img.px x y = p) :
    ∃ out, bilateralFilter P img range spatial = .ok out ∧ img.LosesAtMostOne out := by
  obtain ⟨out, lab, filtered, e, hw, hi, el, hl, hf, eo, ho⟩ := bilateral_core P img h.wf range spatial
    (nonNeg_real h.range_pos.le) (nonNeg_real h.spatial_pos.le) size
    (bilateralSize_real h.spatial_pos.le h.lower h.upper h.small) (by have := h.big; omega) h.small
    (spatialMat_real P h.odd h.small h.spatial_pos.le) (matrixOf_length _ _) h.pos h.three h.width h.height
  refine ⟨out, e, ?_⟩
  have hli := hl.info_eq
  have hlp : ∀ x y, x < img.info.width → y < img.info.height → lab.px x y =
      labOfSrgb .d65 (img.info.colour p) ++ (img.info.alphaOf p).map ofU8 := fun x y hx hy => by
    rw [hl.shows.px_eq hx hy, hp x y hx hy]
  have hfp : ∀ x y, x < img.info.width → y < img.info.height → filtered.px x y = lab.px x y := by
    intro x y hx hy
    rw [hf.px_eq hx hy]
    have hll : (lab.px x y).length = img.info.channels := by
      rw [← hli]; exact Image.px_length hl.wf (by rw [hli]; exact hx) (by rw [hli]; exact hy)
    apply List.ext_getElem
    · simp [hll]
    · intro c h1 h2
      rw [List.getElem_map, List.getElem_range, bilateralMean_real lab spatial range x y c]
      have := c90_between (img := lab) h.range_pos h.spatial_pos h.big x y c ((lab.px x y).getD c 0) ((lab.px x y).getD c 0)
        (fun i j hi' hj' _ => by
          have hx' : padCoord lab.info.width x ((x : Int) - (size / 2 : Nat) + j) < img.info.width := by
            rw [hli]; exact padCoord_lt hx
          have hy' : padCoord lab.info.height y ((y : Int) - (size / 2 : Nat) + i) < img.info.height := by
            rw [hli]; exact padCoord_lt hy
          have : cellValue lab x y size c i j = (lab.px x y).getD c 0 := by
            unfold cellValue
            rw [hlp _ _ hx' hy', hlp x y hx hy]
          rw [this]; exact ⟨le_refl _, le_refl _⟩)
      rw [le_antisymm this.2 this.1, List.getD_eq_getElem?_getD, List.getElem?_eq_getElem h2]; rfl
  refine loses_of_CA h.wf h.three (ho.congr (fun x y hx hy => ?_) fun x y hx hy => ?_)
  · rw [hfp x y hx hy, hl.colour x y hx hy, srgbOfLab_labOfSrgb]
  · rw [hfp x y hx hy, hl.alpha x y hx hy]

/-- a concrete input: spatial 1 gives a 5 x 5 window -/
theorem bilateralInput_demo (a b c d : UInt8) : BilateralInput (rgba1 a b c d) 10 1 5 :=
  ⟨rgba1_WF .., by dims, rfl, by norm_num, by norm_num, by norm_num, by norm_num, by decide, by decide, by decide, by dims, by dims⟩

example (P : Profile) (a b c d : UInt8) : ∃ out, bilateralFilter P (rgba1 a b c d) (10 : ℝ) 1 = .ok out ∧
    (rgba1 a b c d).LosesAtMostOne out :=
  c90_constant P (bilateralInput_demo a b c d) [a, b, c, d] (fun x y hx hy => by
    have hx : x = 0 := by
      have : x < 1 := hx
      omega
    have hy : y = 0 := by
      have : y < 1 := hy
      omega
    subst hx hy; rfl)
end Imgproc

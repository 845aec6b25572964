import Verif.Props.Edge
import Verif.Props.Dyadic
import Verif.Proofs.ErrSum
/-! Property C111: the gradient operators in IEEE f32 on images of bytes. -/
namespace Imgproc
open FloatOps

section
variable [Libm f32]

/-- the f32 square root of a number of at least one is within `2^-23` of the real root, relatively -/
theorem sqrt_near {x : F32} {q : Rat} (hx : x.Is q) (h1 : 1 ≤ q) (h2 : q ≤ 2 ^ 100) :
    ∃ a : Rat, (FloatOps.sqrt x).Is a ∧ 0 < a ∧ |(a : ℝ) - Real.sqrt (q : ℝ)| ≤ Real.sqrt (q : ℝ) / 2 ^ 23 := by
  have hq : 0 < q := by linarith
  set s := Real.sqrt (q : ℝ) with hs
  have hq' : (1 : ℝ) ≤ q := by exact_mod_cast h1
  have s1 : 1 ≤ s := by rw [hs]; exact Real.one_le_sqrt.2 hq'
  have s2 : s ^ 2 = q := Real.sq_sqrt (by linarith)
  set E := pow2 (sqrtExp f32 q) with hE
  have Ep : 0 < E := pow2_pos _
  have Ep' : (0 : ℝ) < (E : ℝ) := by exact_mod_cast Ep
  -- the grid is fine compared with the root
  have hEs : (E : ℝ) ≤ s / 2 ^ 25 := by
    have e1 : E = pow2 (ilog2 q / 2) / 2 ^ 25 := by
      rw [hE]; unfold sqrtExp
      rw [f32_p, pow2_sub]; congr 1
    have e2 : pow2 (ilog2 q / 2) * pow2 (ilog2 q / 2) ≤ q := by
      rw [← pow2_add]
      exact le_trans (pow2_le.2 (by omega)) (ilog2_spec hq).1
    have e3 : ((pow2 (ilog2 q / 2) : Rat) : ℝ) ≤ s := by
      rw [hs]
      refine Real.le_sqrt_of_sq_le ?_
      rw [sq]; exact_mod_cast e2
    rw [e1]; push_cast
    exact div_le_div_of_nonneg_right e3 (by norm_num)
  have happ : |((FP.sqrtApprox f32 q : Rat) : ℝ) - s| ≤ E := by
    obtain ⟨t, ⟨h3, h4⟩ | ⟨h3, h4, h5⟩⟩ := sqrtApprox_cases (f := f32) hq
    · rw [h4, ← hE]
      have : s = (t : ℝ) * (E : ℝ) := by
        rw [hs, ← h3, ← hE]
        push_cast
        exact Real.sqrt_sq (by positivity)
      rw [this]; push_cast; simp [Ep'.le]
    · rw [h5, ← hE]
      rw [← hE] at h3 h4
      have a1 : (t : ℝ) * (E : ℝ) ≤ s := by
        rw [hs]; refine Real.le_sqrt_of_sq_le ?_; exact_mod_cast h3.le
      have a2 : s ≤ ((t : ℝ) + 1) * (E : ℝ) := by
        rw [hs]; refine Real.sqrt_le_iff.2 ⟨by positivity, ?_⟩; exact_mod_cast h4.le
      push_cast
      rw [abs_le]; constructor <;> nlinarith
  have happ2 : |((FP.sqrtApprox f32 q : Rat) : ℝ)| ≤ s + E := by
    have := abs_add_le (((FP.sqrtApprox f32 q : Rat) : ℝ) - s) s
    rw [sub_add_cancel, abs_of_pos (show 0 < s by linarith)] at this
    linarith
  have hs100 : s ≤ 2 ^ 50 := by
    rw [hs]; refine Real.sqrt_le_iff.2 ⟨by positivity, ?_⟩
    have : (q : ℝ) ≤ ((2 ^ 100 : Rat) : ℝ) := by exact_mod_cast h2
    refine le_trans this ?_
    norm_num
  have hfin := sqrt_is hx hq (f32_ovf (by
    have : |((FP.sqrtApprox f32 q : Rat) : ℝ)| ≤ ((2 ^ 100 : Rat) : ℝ) := by
      refine le_trans happ2 ?_
      push_cast
      have : (2 : ℝ) ^ 50 + 2 ^ 50 ≤ 2 ^ 100 := by norm_num
      have : s / 2 ^ 25 ≤ s := div_le_self (by linarith) (by norm_num)
      linarith
    exact_mod_cast this))
  have her : |((f32.rnd (FP.sqrtApprox f32 q) : Rat) : ℝ) - (FP.sqrtApprox f32 q : Rat)| ≤
      |((FP.sqrtApprox f32 q : Rat) : ℝ)| / 2 ^ 24 + 1 / 2 ^ 150 := by
    have := (Rat.cast_le (K := ℝ)).2 (rnd_err_add (FP.sqrtApprox f32 q))
    push_cast at this
    exact this
  have key : |((f32.rnd (FP.sqrtApprox f32 q) : Rat) : ℝ) - s| ≤ s / 2 ^ 23 := by
    have tri := abs_add_le (((f32.rnd (FP.sqrtApprox f32 q) : Rat) : ℝ) - (FP.sqrtApprox f32 q : Rat)) (((FP.sqrtApprox f32 q : Rat) : ℝ) - s)
    rw [sub_add_sub_cancel] at tri
    have : (1 : ℝ) / 2 ^ 150 ≤ s / 2 ^ 30 := by
      refine le_trans (by norm_num : (1 : ℝ) / 2 ^ 150 ≤ 1 / 2 ^ 30) (div_le_div_of_nonneg_right s1 (by norm_num))
    linarith
  refine ⟨_, hfin, ?_, key⟩
  have : (0 : ℝ) < ((f32.rnd (FP.sqrtApprox f32 q) : Rat) : ℝ) := by
    rw [abs_le] at key
    have : s / 2 ^ 23 ≤ s / 2 := div_le_div_of_nonneg_left (by linarith) (by norm_num) (by norm_num)
    linarith [key.1]
  exact_mod_cast this

/-- spec: the value `dx` columns to the right and `dy` rows below `(x, y)`, the border repeated outward -/
def intNear (info : ImageInfo) (v : Nat → Nat → Nat → Int) (x y : Nat) (dx dy : Int) : Int :=
  v (clampCoord info.width (x + dx)) (clampCoord info.height (y + dy)) 0
/-- spec: horizontal difference of the columns left and right of `(x, y)`, the middle row weighted by `w` -/
def intGradX (info : ImageInfo) (v : Nat → Nat → Nat → Int) (w : Int) (x y : Nat) : Int :=
  (intNear info v x y 1 (-1) + w * intNear info v x y 1 0 + intNear info v x y 1 1) -
    (intNear info v x y (-1) (-1) + w * intNear info v x y (-1) 0 + intNear info v x y (-1) 1)
/-- spec: vertical difference of the rows above and below `(x, y)`, the middle column weighted by `w` -/
def intGradY (info : ImageInfo) (v : Nat → Nat → Nat → Int) (w : Int) (x y : Nat) : Int :=
  (intNear info v x y (-1) 1 + w * intNear info v x y 0 1 + intNear info v x y 1 1) -
    (intNear info v x y (-1) (-1) + w * intNear info v x y 0 (-1) + intNear info v x y 1 (-1))

/-- spec: the platform's `powf` squares the integers up to 4096 in size exactly -/
def SquareExact : Prop := ∀ (x : F32) (n : Int), |n| ≤ 4096 → x.Is (n : Rat) → (FloatOps.pow x (num 2 : F32)).Is ((n * n : Int) : Rat)

omit [Libm f32] in
/-- the two passes with three weights each, at one pixel -/
theorem intResponse3 (info : ImageInfo) (v0 v1 v2 h0 h1 h2 : Int) (v : Nat → Nat → Nat → Int) {x y : Nat}
    (hx : x < info.width) (hy : y < info.height) :
    intResponse1d info (fun i => [h0, h1, h2].getD i 0) 3 false (intResponse1d info (fun i => [v0, v1, v2].getD i 0) 3 true v) x y 0 =
      v0 * (h0 * intNear info v x y (-1) (-1) + h1 * intNear info v x y 0 (-1) + h2 * intNear info v x y 1 (-1)) +
      v1 * (h0 * intNear info v x y (-1) 0 + h1 * intNear info v x y 0 0 + h2 * intNear info v x y 1 0) +
      v2 * (h0 * intNear info v x y (-1) 1 + h1 * intNear info v x y 0 1 + h2 * intNear info v x y 1 1) := by
  have key : ∀ i j : Nat, i < 3 → j < 3 → v (padCoord info.width x ((x : Int) - (3 / 2 : Nat) + j))
        (padCoord info.height y ((y : Int) - (3 / 2 : Nat) + i)) 0 = intNear info v x y ((j : Int) - 1) ((i : Int) - 1) := by
    intro i j hi hj
    unfold intNear
    rw [← padCoord_three hx hj, ← padCoord_three hy hi]
  unfold intResponse1d
  simp only [Bool.false_eq_true, if_false, if_true]
  simp only [Finset.mul_sum]
  rw [Finset.sum_congr rfl fun j hj => Finset.sum_congr rfl fun i hi => by
    rw [key i j (Finset.mem_range.1 hi) (Finset.mem_range.1 hj)]]
  simp only [Finset.sum_range_succ, Finset.sum_range_zero, List.getD_cons_zero, List.getD_cons_succ]
  norm_num
  ring

omit [Libm f32] in
theorem intNear_range {info : ImageInfo} {v : Nat → Nat → Nat → Int}
    (hv : ∀ x y c, x < info.width → y < info.height → c < info.channels → 0 ≤ v x y c ∧ v x y c ≤ 255) (hc : 0 < info.channels)
    {x y : Nat} (hx : x < info.width) (hy : y < info.height) (dx dy : Int) :
    0 ≤ intNear info v x y dx dy ∧ intNear info v x y dx dy ≤ 255 :=
  hv _ _ _ (by unfold clampCoord; omega) (by unfold clampCoord; omega) hc

omit [Libm f32] in
theorem intGrad_le {info : ImageInfo} {v : Nat → Nat → Nat → Int}
    (hv : ∀ x y c, x < info.width → y < info.height → c < info.channels → 0 ≤ v x y c ∧ v x y c ≤ 255) (hc : 0 < info.channels)
    {x y : Nat} (hx : x < info.width) (hy : y < info.height) {w : Nat} :
    |intGradX info v w x y| ≤ (w + 2) * 255 ∧ |intGradY info v w x y| ≤ (w + 2) * 255 := by
  have n := intNear_range hv hc hx hy
  have n' : ∀ dx dy, 0 ≤ (w : Int) * intNear info v x y dx dy ∧ (w : Int) * intNear info v x y dx dy ≤ w * 255 := fun dx dy =>
    ⟨mul_nonneg (by positivity) (n dx dy).1, mul_le_mul_of_nonneg_left (n dx dy).2 (by positivity)⟩
  unfold intGradX intGradY
  constructor <;> rw [abs_le]
  · have a := n 1 (-1); have b := n' 1 0; have c := n 1 1; have d := n (-1) (-1); have e := n' (-1) 0; have f := n (-1) 1
    constructor <;> linarith [a.1, a.2, b.1, b.2, c.1, c.2, d.1, d.2, e.1, e.2, f.1, f.2]
  · have a := n (-1) 1; have b := n' 0 1; have c := n 1 1; have d := n (-1) (-1); have e := n' 0 (-1); have f := n 1 (-1)
    constructor <;> linarith [a.1, a.2, b.1, b.2, c.1, c.2, d.1, d.2, e.1, e.2, f.1, f.2]

theorem list3_getD {l : List F32} {a b c : Int} {x y z : F32} (hl : l = [x, y, z]) (hx : x.Is (a : Rat)) (hy : y.Is (b : Rat))
    (hz : z.Is (c : Rat)) : ∀ i < l.length, (l.getD i (num 0)).Is (([a, b, c].getD i 0 : Int) / 2 ^ 0 : Rat) := by
  subst hl
  intro i hi
  rw [pow_zero, div_one]
  match i, hi with
  | 0, _ => exact hx
  | 1, _ => exact hy
  | 2, _ => exact hz

theorem sobel_f32 (hsq : SquareExact) (P : Profile) {img : Image F32} {v : Nat → Nat → Nat → Int}
    (h : img.ShowsValues img.info fun x y c => (v x y c : Rat))
    (hv : ∀ x y c, x < img.info.width → y < img.info.height → c < img.info.channels → 0 ≤ v x y c ∧ v x y c ≤ 255)
    (hch : img.info.channels = 1) (ha : img.info.alpha = false)
    (hw : img.info.width + 3 ≤ 2147483648) (hh : img.info.height + 3 ≤ 2147483648) (weight : Nat) (hwt : weight ≤ 9)
    (m : F32) (hm : m.Is (weight : Rat)) :
    ∃ out a, derivativeMask P img [num 1, m, num 1] [num (-1), num 0, num 1] = .ok out ∧ out.ShowsValues img.info a ∧
      ∀ x y, x < img.info.width → y < img.info.height →
        0 ≤ a x y 0 ∧
        |(a x y 0 : ℝ) - Real.sqrt ((intGradX img.info v weight x y : ℝ) ^ 2 + (intGradY img.info v weight x y : ℝ) ^ 2)| ≤
          Real.sqrt ((intGradX img.info v weight x y : ℝ) ^ 2 + (intGradY img.info v weight x y : ℝ) ^ 2) / 2 ^ 23 ∧
        (a x y 0 = 0 ↔ intGradX img.info v weight x y = 0 ∧ intGradY img.info v weight x y = 0) ∧
        ∀ k : Nat, intGradX img.info v weight x y ^ 2 + intGradY img.info v weight x y ^ 2 = k ^ 2 → a x y 0 = k := by
  obtain ⟨gx, gy, out, ex, ey, eo, so⟩ := c54_derivative_mask_partial P img h.1 [num 1, m, num 1] [num (-1), num 0, num 1] hch ha
    (by simp) (by simp) hw hh
  have n1 : (num 1 : F32).Is ((1 : Int) : Rat) := num32 (by decide)
  have n0 : (num 0 : F32).Is ((0 : Int) : Rat) := num32 (by decide)
  have nm : (num (-1) : F32).Is ((-1 : Int) : Rat) := num32 (by decide)
  have hm' : m.Is ((weight : Int) : Rat) := by exact_mod_cast hm
  have h' : img.ShowsValues img.info fun x y c => (v x y c : Rat) / 2 ^ 0 := by simpa using h
  have hvB : ∀ x y c, x < img.info.width → y < img.info.height → c < img.info.channels → |v x y c| ≤ 255 := by
    intro x y c hx hy hc
    have := hv x y c hx hy hc
    rw [abs_le]; constructor <;> linarith [this.1, this.2]
  have hwt' : ((weight : Int)) ≤ 9 := by exact_mod_cast hwt
  have w0 : (0 : Int) ≤ weight := by positivity
  have kv := list3_getD (l := [num 1, m, num 1]) rfl n1 hm' n1
  have kh := list3_getD (l := [num (-1), num 0, num 1]) rfl nm n0 n1
  have sv : ∑ i ∈ Finset.range 3, |([1, (weight : Int), 1].getD i 0 : Int)| = weight + 2 := by
    simp [Finset.sum_range_succ, abs_of_nonneg w0]; ring
  have sh : ∑ i ∈ Finset.range 3, |([-1, 0, 1].getD i 0 : Int)| = 2 := by
    simp [Finset.sum_range_succ]
  obtain ⟨gx', ex', sx⟩ := separable_dy P (s := 0) (t := 0) (u := 0) (by omega) h' [num 1, m, num 1] [num (-1), num 0, num 1]
    (fun i => [1, (weight : Int), 1].getD i 0) (fun i => [-1, 0, 1].getD i 0) 255 (by simp) (by simp) kv kh hvB
    (by show (∑ i ∈ Finset.range 3, _) * _ ≤ _; rw [sv]; linarith)
    (by show (∑ i ∈ Finset.range 3, _) * ((∑ i ∈ Finset.range 3, _) * _) ≤ _; rw [sv, sh]; linarith) hw hh
  obtain ⟨gy', ey', sy⟩ := separable_dy P (s := 0) (t := 0) (u := 0) (by omega) h' [num (-1), num 0, num 1] [num 1, m, num 1]
    (fun i => [-1, 0, 1].getD i 0) (fun i => [1, (weight : Int), 1].getD i 0) 255 (by simp) (by simp) kh kv hvB
    (by show (∑ i ∈ Finset.range 3, _) * _ ≤ _; rw [sh]; norm_num)
    (by show (∑ i ∈ Finset.range 3, _) * ((∑ i ∈ Finset.range 3, _) * _) ≤ _; rw [sv, sh]; linarith) hw hh
  rw [ex] at ex'; cases ex'
  rw [ey] at ey'; cases ey'
  -- one pixel
  have px : ∀ x y, x < img.info.width → y < img.info.height → ∃ a : Rat,
      (FloatOps.sqrt (FloatOps.pow ((gx.px x y).getD 0 (num 0)) (num 2) +. FloatOps.pow ((gy.px x y).getD 0 (num 0)) (num 2)) : F32).Is a ∧
        0 ≤ a ∧
        |(a : ℝ) - Real.sqrt ((intGradX img.info v weight x y : ℝ) ^ 2 + (intGradY img.info v weight x y : ℝ) ^ 2)| ≤
          Real.sqrt ((intGradX img.info v weight x y : ℝ) ^ 2 + (intGradY img.info v weight x y : ℝ) ^ 2) / 2 ^ 23 ∧
        (a = 0 ↔ intGradX img.info v weight x y = 0 ∧ intGradY img.info v weight x y = 0) ∧
        ∀ k : Nat, intGradX img.info v weight x y ^ 2 + intGradY img.info v weight x y ^ 2 = k ^ 2 → a = k := by
    intro x y hx hy
    have hx1 := sx.values.px hx hy (c := 0) (by rw [hch]; decide) (num 0)
    have hy1 := sy.values.px hx hy (c := 0) (by rw [hch]; decide) (num 0)
    have e1 := intResponse3 img.info 1 weight 1 (-1) 0 1 v hx hy
    have e2 := intResponse3 img.info (-1) 0 1 1 weight 1 v hx hy
    simp only [List.length_cons, List.length_nil, Nat.zero_add, Nat.add_zero, Nat.reduceAdd, pow_zero, div_one] at hx1 hy1
    rw [e1] at hx1
    rw [e2] at hy1
    have hX : (gx.px x y).getD 0 (num 0) |>.Is ((intGradX img.info v weight x y : Int) : Rat) := by
      convert hx1 using 2; unfold intGradX; ring
    have hY : (gy.px x y).getD 0 (num 0) |>.Is ((intGradY img.info v weight x y : Int) : Rat) := by
      convert hy1 using 2; unfold intGradY; ring
    obtain ⟨bX, bY⟩ := intGrad_le hv (by rw [hch]; decide) hx hy (w := weight)
    generalize intGradX img.info v weight x y = X at *
    generalize intGradY img.info v weight x y = Y at *
    have bX' : |X| ≤ 2805 := by linarith
    have bY' : |Y| ≤ 2805 := by linarith
    have sX : X * X ≤ 2805 * 2805 := by rw [← abs_mul_abs_self X]; exact mul_le_mul bX' bX' (abs_nonneg _) (by norm_num)
    have sY : Y * Y ≤ 2805 * 2805 := by rw [← abs_mul_abs_self Y]; exact mul_le_mul bY' bY' (abs_nonneg _) (by norm_num)
    have pX := mul_self_nonneg X
    have pY := mul_self_nonneg Y
    have hp1 := hsq _ X (by linarith) hX
    have hp2 := hsq _ Y (by linarith) hY
    have hs : (FloatOps.pow ((gx.px x y).getD 0 (num 0)) (num 2) +. FloatOps.pow ((gy.px x y).getD 0 (num 0)) (num 2) : F32).Is ((X * X + Y * Y : Int) : Rat) := by
      have := add_exact hp1 hp2 (by
        have := f32_int (n := X * X + Y * Y) (by rw [abs_of_nonneg (by linarith)]; linarith)
        rw [Int.cast_add] at this; exact this)
      rw [Int.cast_add]; exact this
    have cast : ((X : ℝ) ^ 2 + (Y : ℝ) ^ 2) = ((((X * X + Y * Y : Int) : Rat)) : ℝ) := by push_cast; ring
    rw [cast]
    have perf : ∀ k : Nat, X ^ 2 + Y ^ 2 = k ^ 2 → (FloatOps.sqrt (FloatOps.pow ((gx.px x y).getD 0 (num 0)) (num 2) +. FloatOps.pow ((gy.px x y).getD 0 (num 0)) (num 2)) : F32).Is (k : Rat) := by
      intro k hk
      have hk' : X * X + Y * Y = ((k * k : Nat) : Int) := by push_cast; linarith
      refine sqrt_square ?_ (by rw [hk'] at hs; exact_mod_cast hs)
      by_contra hlt
      have : 4097 * 4097 ≤ k * k := Nat.mul_le_mul (by omega) (by omega)
      have : (4097 * 4097 : Int) ≤ ((k * k : Nat) : Int) := by exact_mod_cast this
      linarith
    by_cases hz : X = 0 ∧ Y = 0
    · obtain ⟨rfl, rfl⟩ := hz
      have := perf 0 (by norm_num)
      refine ⟨0, by exact_mod_cast this, le_rfl, by simp, by simp, fun k hk => ?_⟩
      have : k = 0 := by
        have : (k : Int) ^ 2 = 0 := by rw [← hk]; norm_num
        exact_mod_cast pow_eq_zero_iff (two_ne_zero) |>.1 this
      rw [this]; simp
    · have h1 : 1 ≤ X * X + Y * Y := by
        by_contra hlt
        have hX0 : X * X = 0 := by linarith
        have hY0 : Y * Y = 0 := by linarith
        exact hz ⟨mul_self_eq_zero.1 hX0, mul_self_eq_zero.1 hY0⟩
      have h1' : (1 : Rat) ≤ ((X * X + Y * Y : Int) : Rat) := by exact_mod_cast h1
      have h2' : ((X * X + Y * Y : Int) : Rat) ≤ 2 ^ 100 := by
        have : X * X + Y * Y ≤ 16777216 := by linarith
        have : ((X * X + Y * Y : Int) : Rat) ≤ 16777216 := by exact_mod_cast this
        exact le_trans this (by norm_num)
      obtain ⟨a, ha', apos, hae⟩ := sqrt_near hs h1' h2'
      refine ⟨a, ha', apos.le, hae, ⟨fun h => absurd h apos.ne', fun h => absurd h hz⟩, fun k hk => (ha'.unique (perf k hk))⟩
  have : ∀ x y, ∃ a : Rat, (x < img.info.width → y < img.info.height →
      (FloatOps.sqrt (FloatOps.pow ((gx.px x y).getD 0 (num 0)) (num 2) +. FloatOps.pow ((gy.px x y).getD 0 (num 0)) (num 2)) : F32).Is a ∧
        0 ≤ a ∧
        |(a : ℝ) - Real.sqrt ((intGradX img.info v weight x y : ℝ) ^ 2 + (intGradY img.info v weight x y : ℝ) ^ 2)| ≤
          Real.sqrt ((intGradX img.info v weight x y : ℝ) ^ 2 + (intGradY img.info v weight x y : ℝ) ^ 2) / 2 ^ 23 ∧
        (a = 0 ↔ intGradX img.info v weight x y = 0 ∧ intGradY img.info v weight x y = 0) ∧
        ∀ k : Nat, intGradX img.info v weight x y ^ 2 + intGradY img.info v weight x y ^ 2 = k ^ 2 → a = k) := by
    intro x y
    by_cases hxy : x < img.info.width ∧ y < img.info.height
    · obtain ⟨a, ha⟩ := px x y hxy.1 hxy.2
      exact ⟨a, fun _ _ => ha⟩
    · exact ⟨0, fun h1 h2 => absurd ⟨h1, h2⟩ hxy⟩
  choose a hA using this
  refine ⟨out, fun x y _ => a x y, eo, so.values (fun _ _ _ _ => by rw [hch]; rfl) ?_, fun x y hx hy => (hA x y hx hy).2⟩
  intro x y c hx hy hc
  obtain rfl : c = 0 := by omega
  exact ⟨_, rfl, (hA x y hx hy).1⟩

/-- spec: `out` is, to f32 accuracy, the gradient magnitude of the integer image `v` with middle weight `w`: within `2^-23`
(relatively) of the real root, zero exactly where both differences are zero, and exact where the root is an integer -/
def ShowsGradient (out : Image F32) (info : ImageInfo) (v : Nat → Nat → Nat → Int) (w : Nat) : Prop :=
  ∃ a, out.ShowsValues info a ∧ ∀ x y, x < info.width → y < info.height →
    0 ≤ a x y 0 ∧
    |(a x y 0 : ℝ) - Real.sqrt ((intGradX info v w x y : ℝ) ^ 2 + (intGradY info v w x y : ℝ) ^ 2)| ≤
      Real.sqrt ((intGradX info v w x y : ℝ) ^ 2 + (intGradY info v w x y : ℝ) ^ 2) / 2 ^ 23 ∧
    (a x y 0 = 0 ↔ intGradX info v w x y = 0 ∧ intGradY info v w x y = 0) ∧
    ∀ k : Nat, intGradX info v w x y ^ 2 + intGradY info v w x y ^ 2 = k ^ 2 → a x y 0 = k

/-- **C111** On every one-channel image of bytes, the f32 `sobel`, `prewitt` and `sobel_weighted` (weight at most 9) compute the
gradient magnitude to f32 accuracy; the only assumption on the platform is that `powf(n, 2.0)` is exact for integers up to
4096. -/
theorem c111_gradient (hsq : SquareExact) (P : Profile) {img : Image F32} {v : Nat → Nat → Nat → Int}
    (h : img.ShowsValues img.info fun x y c => (v x y c : Rat))
    (hv : ∀ x y c, x < img.info.width → y < img.info.height → c < img.info.channels → 0 ≤ v x y c ∧ v x y c ≤ 255)
    (hch : img.info.channels = 1) (ha : img.info.alpha = false)
    (hw : img.info.width + 3 ≤ 2147483648) (hh : img.info.height + 3 ≤ 2147483648) (weight : Nat) (hwt : weight ≤ 9) :
    (∃ out, sobelWeighted P img weight = .ok out ∧ ShowsGradient out img.info v weight) ∧
    (∃ out, sobel P img = .ok out ∧ ShowsGradient out img.info v 2) ∧
    (∃ out, prewitt P img = .ok out ∧ ShowsGradient out img.info v 1) := by
  refine ⟨?_, ?_, ?_⟩
  · obtain ⟨out, a, e, s, r⟩ := sobel_f32 hsq P h hv hch ha hw hh weight hwt (FloatOps.ofNat weight) (nat32 (by omega))
    exact ⟨out, e, a, s, r⟩
  · obtain ⟨out, a, e, s, r⟩ := sobel_f32 hsq P h hv hch ha hw hh 2 (by decide) (num 2) (by simpa using num32 (n := 2) (by decide))
    exact ⟨out, e, a, s, r⟩
  · obtain ⟨out, a, e, s, r⟩ := sobel_f32 hsq P h hv hch ha hw hh 1 (by decide) (num 1) (by simpa using num32 (n := 1) (by decide))
    exact ⟨out, e, a, s, r⟩

/-- a math library whose `powf` is a multiplication squares integers exactly -/
def squareLibm : Libm f32 where
  pow x _ := letI := trivialLibm f32; x *. x
  sin := id
  cos := id

/-- the assumption on `powf` is satisfiable -/
theorem squareLibm_spec : @SquareExact squareLibm := by
  intro x n hn hx
  letI := trivialLibm f32
  have hnn : |n * n| ≤ 16777216 := by
    rw [abs_mul]
    calc |n| * |n| ≤ 4096 * 4096 := mul_le_mul hn hn (abs_nonneg _) (by norm_num)
      _ = 16777216 := by norm_num
  have := mul_exact hx hx (by have := f32_int hnn; rw [Int.cast_mul] at this; exact this)
  rw [Int.cast_mul]
  exact this

/-- C111 applies to every 3x2 image of bytes -/
example (P : Profile) (a b c d e f : UInt8) : letI := squareLibm
    ∃ (g out : Image F32), imageU8ToFloat P (gray6 a b c d e f) = .ok g ∧ sobel P g = .ok out ∧
      ShowsGradient out g.info (fun x y c' => ((((gray6 a b c d e f).px x y).getD c' 0).toNat : Int)) 2 := by
  letI := squareLibm
  obtain ⟨g, eg, hg⟩ := imageU8ToFloat_values P (gray6_WF a b c d e f)
  have hi : g.info = (gray6 a b c d e f).info := hg.2.1
  rw [← hi] at hg
  obtain ⟨out, e1, e2⟩ := (c111_gradient squareLibm_spec P hg
    (fun x y c' _ _ _ => by
      have := (((gray6 a b c d e f).px x y).getD c' 0).toNat_lt
      show (0 : Int) ≤ ((((gray6 a b c d e f).px x y).getD c' 0).toNat : Int) ∧ ((((gray6 a b c d e f).px x y).getD c' 0).toNat : Int) ≤ 255
      omega)
    (by rw [hi]; rfl) (by rw [hi]; rfl) (by rw [hi]; dims) (by rw [hi]; dims) 2 (by decide)).2.1
  exact ⟨g, out, eg, e1, e2⟩
end
end Imgproc

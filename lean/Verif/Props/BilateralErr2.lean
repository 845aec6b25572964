import Verif.Props.BilateralErr
import Verif.Props.MeanErr
import Verif.Props.Trip3
/-! Property C118, continued: the spatial matrix and the means of the bilateral filter in f32. -/
namespace Imgproc
open FloatOps

/-- spec: channel `c` of the window cell in row `i`, column `j` of the `n x n` window around `(x, y)`, padded (see C12) -/
def padValue (info : ImageInfo) (v : Nat → Nat → Nat → Rat) (n x y c i j : Nat) : Rat :=
  v (padCoord info.width x ((x : Int) - (n / 2 : Nat) + j)) (padCoord info.height y ((y : Int) - (n / 2 : Nat) + i)) c

/-- spec: weight of the window cell `(i, j)` of value `b` for a pixel of value `a`: a Gaussian of the distance times a Gaussian of the
difference; the middle cell has weight 0 (see C44) -/
noncomputable def bilateralCell (n : Nat) (σ ρ : ℝ) (a b : Rat) (i j : Nat) : ℝ :=
  if i = n / 2 ∧ j = n / 2 then 0 else gaussian2 σ (centreDist2 n i j) * gaussian2 ρ ((a - b : ℝ) ^ 2)

/-- spec: the weighted mean of the window -/
noncomputable def bilateralAverage (info : ImageInfo) (v : Nat → Nat → Nat → Rat) (n : Nat) (σ ρ : ℝ) (x y c : Nat) : ℝ :=
  (∑ i ∈ Finset.range n, ∑ j ∈ Finset.range n,
      bilateralCell n σ ρ (v x y c) (padValue info v n x y c i j) i j * (padValue info v n x y c i j : ℝ)) /
    ∑ i ∈ Finset.range n, ∑ j ∈ Finset.range n, bilateralCell n σ ρ (v x y c) (padValue info v n x y c i j) i j

section
variable [Libm f32]

theorem PowGood.accurate (hp : PowGood) : PowAccurate := by
  intro x y a b hx hy a0 a1 b0 b1
  have a0' : (1 / 2 ^ 20 : ℝ) ≤ a := by
    have := (Rat.cast_le (K := ℝ)).2 a0; push_cast at this; exact this
  have a1' : (a : ℝ) ≤ 2 := by exact_mod_cast a1
  have b0' : (0 : ℝ) ≤ b := by exact_mod_cast b0.le
  have b1' : (b : ℝ) ≤ 4 := by exact_mod_cast b1
  have up : (a : ℝ) ^ (b : ℝ) ≤ 2 ^ 100 := by
    calc (a : ℝ) ^ (b : ℝ) ≤ 2 ^ (b : ℝ) := Real.rpow_le_rpow (by linarith [show (0 : ℝ) < 1 / 2 ^ 20 by norm_num]) a1' b0'
      _ ≤ 2 ^ (4 : ℝ) := Real.rpow_le_rpow_of_exponent_le (by norm_num) b1'
      _ ≤ 2 ^ 100 := by rw [show (4 : ℝ) = ((4 : ℕ) : ℝ) by norm_num, Real.rpow_natCast]; norm_num
  have low : (1 / 2 ^ 80 : ℝ) ≤ (a : ℝ) ^ (b : ℝ) := by
    calc (1 / 2 ^ 80 : ℝ) = (1 / 2 ^ 20) ^ (4 : ℝ) := by rw [show (4 : ℝ) = ((4 : ℕ) : ℝ) by norm_num, Real.rpow_natCast]; norm_num
      _ ≤ (1 / 2 ^ 20) ^ (b : ℝ) := Real.rpow_le_rpow_of_exponent_ge (by norm_num) (by norm_num) b1'
      _ ≤ (a : ℝ) ^ (b : ℝ) := Real.rpow_le_rpow (by norm_num) a0' b0'
  obtain ⟨c, hc, -, ec⟩ := hp x y a b hx hy (lt_of_lt_of_le (by norm_num) a0) up
  refine ⟨c, hc, ec.trans ?_⟩
  generalize (a : ℝ) ^ (b : ℝ) = r at *
  norm_num at low ⊢
  linarith

/-- the distance of the cell `(i, j)` from the middle -/
theorem distance_err {c x y : Nat} (hc : c ≤ 2047) (hx : x ≤ 2 * c) (hy : y ≤ 2 * c) (hne : ¬ (y = c ∧ x = c)) :
    ∃ a : Rat, (distance c c x y : F32).Is a ∧
      |(a : ℝ) - Real.sqrt (((y : Int) - c) ^ 2 + ((x : Int) - c) ^ 2 : Int)| ≤
        2 / 16777216 * |Real.sqrt (((y : Int) - c) ^ 2 + ((x : Int) - c) ^ 2 : Int)| + 1 / 2 ^ 140 := by
  have h1 : |(c : Int) - x| ≤ 2047 := by rw [abs_le]; omega
  have h2 : |(c : Int) - y| ≤ 2047 := by rw [abs_le]; omega
  have s1 := sq_le_sq' (abs_le.1 h1).1 (abs_le.1 h1).2
  have s2 := sq_le_sq' (abs_le.1 h2).1 (abs_le.1 h2).2
  have hci := nat32 (n := c) (by omega)
  have hxi := nat32 (n := x) (by omega)
  have hyi := nat32 (n := y) (by omega)
  have ex : ∀ n : Int, |n| ≤ 16777216 → f32.Exact (n : Rat) := fun n h => f32_int h
  have dx : (ofNat c -. ofNat x : F32).Is (((c : Int) - x : Int) : Rat) := by
    have e : ((c : Rat) - x) = (((c : Int) - x : Int) : Rat) := by push_cast; rfl
    have := sub_exact hci hxi (by rw [e]; exact ex _ (by omega))
    rwa [e] at this
  have dy : (ofNat c -. ofNat y : F32).Is (((c : Int) - y : Int) : Rat) := by
    have e : ((c : Rat) - y) = (((c : Int) - y : Int) : Rat) := by push_cast; rfl
    have := sub_exact hci hyi (by rw [e]; exact ex _ (by omega))
    rwa [e] at this
  have n1 := sq_nonneg ((c : Int) - x)
  have n2 := sq_nonneg ((c : Int) - y)
  have mx := mul_exact dx dx (by rw [← Int.cast_mul, ← sq]; exact ex _ (by rw [abs_of_nonneg n1]; omega))
  have my := mul_exact dy dy (by rw [← Int.cast_mul, ← sq]; exact ex _ (by rw [abs_of_nonneg n2]; omega))
  rw [← Int.cast_mul, ← sq] at mx my
  have ad := add_exact mx my (by rw [← Int.cast_add]; exact ex _ (by rw [abs_of_nonneg (by omega)]; omega))
  rw [← Int.cast_add] at ad
  have e : ((y : Int) - c) ^ 2 + ((x : Int) - c) ^ 2 = ((c : Int) - x) ^ 2 + ((c : Int) - y) ^ 2 := by ring
  have pos : 1 ≤ ((c : Int) - x) ^ 2 + ((c : Int) - y) ^ 2 := by
    by_cases h : (c : Int) - x = 0
    · have : (c : Int) - y ≠ 0 := by omega
      have : 0 < ((c : Int) - y) ^ 2 := by positivity
      omega
    · have : 0 < ((c : Int) - x) ^ 2 := by positivity
      omega
  rw [e]
  have up : ((c : Int) - x) ^ 2 + ((c : Int) - y) ^ 2 ≤ 16777216 := by omega
  generalize ((c : Int) - x) ^ 2 + ((c : Int) - y) ^ 2 = d at *
  obtain ⟨a, ha, -, ea⟩ := sqrt_near ad (by exact_mod_cast pos) (by
    have : d ≤ 2 ^ 100 := by omega
    exact_mod_cast this)
  refine ⟨a, ha, ?_⟩
  rw [Rat.cast_intCast] at ea
  rw [abs_of_nonneg (Real.sqrt_nonneg _)]
  refine ea.trans ?_
  have := Real.sqrt_nonneg (d : ℝ)
  norm_num
  linarith

section
variable {spatial : F32} {σ : Rat} (hσ : spatial.Is σ) (σ0 : 1 / 16 ≤ σ) (σ1 : σ ≤ 1000)
include hσ σ0 σ1

omit σ1 in
theorem not_negative : ¬ Negative spatial := by
  rw [← lt_zero_iff Fmt.Exact.zero, lt_is hσ (ofU8_is 0)]
  simp
  linarith

/-- **C118** `generate_spatial_mat(size, spatial)` in f32, for every odd size up to 4095 and every spatial parameter from 1/16 to
1000: the middle entry is 0, and every other entry is a non-negative number within a relative error of `(1 + d / 2σ²) / 2^20` of the
Gaussian of the distance to the middle (plus 2^-130), `d` being the squared distance. -/
theorem c118_spatial_value (hp : PowGood) (P : Profile) (size : Nat) (hodd : size % 2 = 1) (hsz : size ≤ 4095) :
    ∃ out, generateSpatialMat P size spatial = .ok out ∧ out.length = size * size ∧
      out[size / 2 * size + size / 2]? = some (num 0) ∧
      ∀ i j, i < size → j < size → ¬ (i = size / 2 ∧ j = size / 2) → ∃ x w, out[i * size + j]? = some x ∧ Flt.Is x w ∧ 0 ≤ w ∧
        |(w : ℝ) - gaussian2 σ (centreDist2 size i j)| ≤
          (1 + centreDist2 size i j / (2 * (σ : ℝ) ^ 2)) * gaussian2 σ (centreDist2 size i j) / 2 ^ 20 + 1 / 2 ^ 130 := by
  have hn := not_negative hσ σ0
  obtain ⟨out, e, hl, h, hm⟩ := c44_spatial_mat_partial P size spatial hodd (by omega) hn
  refine ⟨out, e, hl, hm, fun i j hi hj hne => ?_⟩
  obtain ⟨g, eg, hg⟩ := h i j hi hj (fun h => hne (by simpa using h))
  rw [gaussianFn_gen (nonNeg_ok hn)] at eg
  obtain ⟨a, ha, ea⟩ := distance_err (c := size / 2) (x := j) (y := i) (by omega) (by omega) (by omega) hne
  obtain ⟨d0, d1⟩ := centreDist2_bounds hsz hi hj
  have ed : ((i : Int) - (size / 2 : Nat)) ^ 2 + ((j : Int) - (size / 2 : Nat)) ^ 2 = centreDist2 size i j := by
    unfold centreDist2
    rw [show (size - 1) / 2 = size / 2 by omega]
  rw [ed] at ea
  have d0' : (0 : ℝ) ≤ (centreDist2 size i j : ℝ) := by exact_mod_cast d0
  have d1' : (centreDist2 size i j : ℝ) ≤ 16777216 := by exact_mod_cast d1
  obtain ⟨w, hw, w0, ew⟩ := gaussOf_err hσ σ0 σ1 hp ha (by
    rw [abs_of_nonneg (Real.sqrt_nonneg _), Real.sqrt_le_left (by norm_num)]; norm_num; exact d1') ea
  rw [Real.sq_sqrt d0'] at ew
  cases eg
  exact ⟨_, w, hg, hw, w0, ew⟩
end

/-- the product of the two Gaussians -/
theorem weight_err {x y : F32} {a b : Rat} {S R zs zr : ℝ} (hx : x.Is a) (hy : y.Is b) (a0 : 0 ≤ a) (b0 : 0 ≤ b)
    (ea : |(a : ℝ) - S| ≤ (1 + zs) * S / 2 ^ 20 + 1 / 2 ^ 130) (eb : |(b : ℝ) - R| ≤ (1 + zr) * R / 2 ^ 20 + 1 / 2 ^ 130)
    (S0 : 1 / 2 ^ 32 ≤ S) (S1 : S ≤ 43) (R0 : 1 / 2 ^ 71 ≤ R) (R1 : R ≤ 43) (_zs0 : 0 ≤ zs) (zs1 : zs ≤ 4.1) (_zr0 : 0 ≤ zr) (zr1 : zr ≤ 32) :
    ∃ w : Rat, (x *. y).Is w ∧ 0 ≤ w ∧ |(w : ℝ) - S * R| ≤ 39 / 2 ^ 20 * (S * R) := by
  have Sp : 0 < S := lt_of_lt_of_le (by norm_num) S0
  have Rp : 0 < R := lt_of_lt_of_le (by norm_num) R0
  have ea' : |(a : ℝ) - S| ≤ 5.11 / 2 ^ 20 * S := by
    refine ea.trans ?_
    have : zs * S ≤ 4.1 * S := mul_le_mul_of_nonneg_right zs1 Sp.le
    have e : (1 + zs) * S = S + zs * S := by ring
    rw [e]
    norm_num at this S0 ⊢; linarith
  have eb' : |(b : ℝ) - R| ≤ 33.01 / 2 ^ 20 * R := by
    refine eb.trans ?_
    have : zr * R ≤ 32 * R := mul_le_mul_of_nonneg_right zr1 Rp.le
    have e : (1 + zr) * R = R + zr * R := by ring
    rw [e]
    norm_num at this R0 ⊢; linarith
  have SR : 1 / 2 ^ 103 ≤ S * R := by
    have := mul_le_mul S0 R0 (by norm_num) Sp.le
    norm_num at this ⊢; linarith
  have SR1 : S * R ≤ 43 * 43 := mul_le_mul S1 R1 Rp.le (by norm_num)
  have e : |((a * b : Rat) : ℝ) - S * R| ≤ 38.2 / 2 ^ 20 * (S * R) := by
    push_cast
    rw [show (a : ℝ) * b - S * R = (a - S) * R + S * (b - R) + (a - S) * (b - R) by ring]
    refine (abs_add_three _ _ _).trans ?_
    rw [abs_mul, abs_mul, abs_mul, abs_of_pos Sp, abs_of_pos Rp]
    have t1 := mul_le_mul_of_nonneg_right ea' Rp.le
    have t2 := mul_le_mul_of_nonneg_left eb' Sp.le
    have t3 := mul_le_mul ea' eb' (abs_nonneg _) (by positivity)
    have e1 : 5.11 / 2 ^ 20 * S * R = 5.11 / 2 ^ 20 * (S * R) := by ring
    have e2 : S * (33.01 / 2 ^ 20 * R) = 33.01 / 2 ^ 20 * (S * R) := by ring
    have e3 : 5.11 / 2 ^ 20 * S * (33.01 / 2 ^ 20 * R) = 5.11 / 2 ^ 20 * (33.01 / 2 ^ 20) * (S * R) := by ring
    rw [e1] at t1
    rw [e2] at t2
    rw [e3] at t3
    generalize S * R = Y at *
    norm_num at *
    linarith
  have q := abs_add_le (((a * b : Rat) : ℝ) - S * R) (S * R)
  rw [sub_add_cancel, abs_of_pos (by positivity : 0 < S * R)] at q
  have ov : |f32.rnd (a * b)| < pow2 f32.emax := by
    refine f32_ovf ?_
    have : |((a * b : Rat) : ℝ)| ≤ ((2 ^ 100 : Rat) : ℝ) := by
      push_cast at q e ⊢
      generalize S * R = Y at *
      norm_num at *
      linarith
    rw [← Rat.cast_abs] at this
    exact_mod_cast this
  have z : f32.Exact 0 := by simpa using f32_int (n := 0) (by decide)
  refine ⟨_, mul_is hx hy ov, le_rndQ z.1 (mul_nonneg a0 b0), ?_⟩
  have r := (Rat.cast_le (K := ℝ)).2 (rnd_err_add (a * b))
  rw [Rat.cast_abs, Rat.cast_sub] at r
  generalize f32.rnd (a * b) = w at *
  generalize a * b = ab at *
  push_cast at r
  have t := abs_sub_le (w : ℝ) (ab : ℝ) (S * R)
  generalize S * R = Y at *
  generalize (ab : ℝ) = A at *
  norm_num at *
  linarith

omit [Libm f32] in
theorem gaussian2_bounds {s d : ℝ} (s0 : 1 / 16 ≤ s) (s1 : s ≤ 1000) (d0 : 0 ≤ d) : gaussian2 s d ≤ 43 ∧
    (d / (2 * s ^ 2) ≤ 6 → 1 / 2 ^ 32 ≤ gaussian2 s d) ∧ (d / (2 * s ^ 2) ≤ 32 → 1 / 2 ^ 71 ≤ gaussian2 s d) := by
  have p1 := Real.pi_gt_three
  have p2 := Real.pi_lt_four
  have sp : 0 < s := by linarith
  have q0 : (1 / 256 : ℝ) ≤ s ^ 2 := by nlinarith
  have q1 : (s : ℝ) ^ 2 ≤ 1000000 := by nlinarith
  have A0 : 1 / 2 ^ 23 ≤ 1 / (2 * Real.pi * s ^ 2) := by
    refine one_div_le_one_div_of_le (by positivity) ?_
    have : Real.pi * s ^ 2 ≤ 4 * 1000000 := mul_le_mul p2.le q1 (by positivity) (by norm_num)
    norm_num at this ⊢; linarith
  have A1 : 1 / (2 * Real.pi * s ^ 2) ≤ 43 := by
    rw [div_le_iff₀ (by positivity)]
    have : 3 * (1 / 256) ≤ Real.pi * s ^ 2 := mul_le_mul p1.le q0 (by norm_num) (by positivity)
    norm_num at this ⊢; linarith
  have z0 : 0 ≤ d / (2 * s ^ 2) := by positivity
  unfold gaussian2
  have e2 : Real.exp 2 ≤ 8 := by
    have l := Real.exp_one_lt_d9
    rw [show (2 : ℝ) = 1 + 1 by norm_num, Real.exp_add]
    have := Real.exp_pos 1
    norm_num at l; nlinarith
  have low : ∀ k : ℕ, d / (2 * s ^ 2) ≤ k * 2 → 1 / 8 ^ k ≤ Real.exp (-(d / (2 * s ^ 2))) := fun k hk => by
    rw [Real.exp_neg, ← one_div]
    refine one_div_le_one_div_of_le (Real.exp_pos _) ?_
    calc Real.exp (d / (2 * s ^ 2)) ≤ Real.exp (k * 2) := Real.exp_le_exp.2 hk
      _ = Real.exp 2 ^ k := Real.exp_nat_mul _ _
      _ ≤ 8 ^ k := pow_le_pow_left₀ (Real.exp_pos _).le e2 _
  refine ⟨?_, fun h => ?_, fun h => ?_⟩
  · have : Real.exp (-(d / (2 * s ^ 2))) ≤ 1 := Real.exp_le_one_iff.2 (by linarith)
    exact (mul_le_mul A1 this (Real.exp_pos _).le (by norm_num)).trans (by norm_num)
  · have := mul_le_mul A0 (low 3 (by push_cast; linarith)) (by norm_num) (by positivity)
    exact le_trans (by norm_num) this
  · have := mul_le_mul A0 (low 16 (by push_cast; linarith)) (by norm_num) (by positivity)
    exact le_trans (by norm_num) this

/-- the values of a converted pixel -/
theorem lab_numbers (hp : PowAccurate) (white : White) (a b c : UInt8) : ∃ (L A B : F32) (l p q : Rat),
    labOfSrgb white [a, b, c] = [L, A, B] ∧ L.Is l ∧ A.Is p ∧ B.Is q ∧ |l| ≤ 500 ∧ |p| ≤ 500 ∧ |q| ≤ 500 := by
  obtain ⟨W1, W2, W3, w1, w2, w3⟩ := white_near white
  obtain ⟨⟨x0, x1⟩, ⟨y0, y1⟩, z0, z1⟩ := exactXyz_bound a b c
  obtain ⟨x, y, z, e, hx, hy, hz⟩ := toXyz_near hp a b c
  obtain ⟨p, hp', p0, p1, bp⟩ := channel_trip hp w1 hx x0 (by linarith)
  obtain ⟨q, hq', q0, q1, bq⟩ := channel_trip hp w2 hy y0 (by linarith)
  obtain ⟨r, hr', r0, r1, br⟩ := channel_trip hp w3 hz z0 (by linarith)
  have m : Near (num 116 *. xyzToLabFn (y *. num 100 /. (xyzTristimulusVals (F := F32) white).2.1)) (116 * (q : ℝ)) 8e-6 :=
    (Near.mul (B := 116) (C := 1.11) (Near.num (n := 116) (by decide)) (Near.exact hq') (by norm_num) (by rw [abs_of_nonneg (by linarith)]; exact q1)
      (by norm_num) (by norm_num) (by norm_num)).of_eq (by norm_num)
  obtain ⟨t, ht, et⟩ := Near.sub (B := 113) (e' := 1.5e-5) m (Near.num (n := 16) (by decide)) (by norm_num)
    (by push_cast; rw [abs_le]; constructor <;> linarith) (by norm_num) (by norm_num)
  have pq : |(p : ℝ) - q| ≤ 0.98 := by rw [abs_le]; constructor <;> linarith
  have qr : |(q : ℝ) - r| ≤ 0.98 := by rw [abs_le]; constructor <;> linarith
  have d1 := Near.sub (B := 0.98) (e' := 1e-6) (Near.exact hp') (Near.exact hq') (by norm_num) pq (by norm_num) (by norm_num)
  have d2 := Near.sub (B := 0.98) (e' := 1e-6) (Near.exact hq') (Near.exact hr') (by norm_num) qr (by norm_num) (by norm_num)
  obtain ⟨A, hA, eA⟩ := Near.mul (B := 500) (C := 0.98) (e' := 1) (Near.num (n := 500) (by decide)) d1 (by norm_num) pq (by norm_num) (by norm_num) (by norm_num)
  obtain ⟨B, hB, eB⟩ := Near.mul (B := 200) (C := 0.98) (e' := 1) (Near.num (n := 200) (by decide)) d2 (by norm_num) qr (by norm_num) (by norm_num) (by norm_num)
  have bd : ∀ {u : Rat}, (-500 : ℝ) ≤ u → (u : ℝ) ≤ 500 → |u| ≤ 500 := fun h1 h2 => by
    rw [abs_le]; exact ⟨by exact_mod_cast h1, by exact_mod_cast h2⟩
  refine ⟨_, _, _, t, A, B, by unfold labOfSrgb; rw [List.map_cons, List.map_cons, List.map_cons, List.map_nil, e]; rfl, ht, hA, hB, ?_, ?_, ?_⟩
  · have := abs_le.1 et
    push_cast at this
    exact bd (by linarith) (by linarith)
  · have := abs_le.1 eA
    have h := abs_le.1 pq
    push_cast at this
    exact bd (by linarith) (by linarith)
  · have := abs_le.1 eB
    have h := abs_le.1 qr
    push_cast at this
    exact bd (by linarith) (by linarith)
end
end Imgproc

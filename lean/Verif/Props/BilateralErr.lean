import Verif.Props.GaussErr
import Verif.Props.EdgeF32
import Verif.Props.Bilateral2
/-! Property C118: the bilateral filter's weights and means in f32. -/
namespace Imgproc
open FloatOps
section
variable [Libm f32]

/-- `E.powf(x)` for an exponent known up to a few roundings, or nearly 0 -/
theorem exp_err' (hp : PowGood) {x : F32} {b : Rat} {z : ℝ} (hx : x.Is b) (z0 : 0 ≤ z) (b0 : b ≤ 0)
    (h : |(b : ℝ) - -z| ≤ 8.2 / 16777216 * z + 1 / 67108864) :
    ∃ c : Rat, (FloatOps.pow FloatOps.e x).Is c ∧ 0 ≤ c ∧ |(c : ℝ) - Real.exp (-z)| ≤ 9 / 16777216 * ((1 + z) * Real.exp (-z)) + 1 / 2 ^ 139 := by
  have he : (FloatOps.e : F32).Is (11401300 / 4194304) := by
    have : f32.Exact (11401300 / 4194304 : Rat) := by
      have := f32_dy (m := 11401300) (k := 22) (by decide) (by decide)
      norm_num at this ⊢
      exact this
    exact lit_exact this
  have b0 : (b : ℝ) ≤ 0 := by exact_mod_cast b0
  have hL := log_e32
  set L := Real.log ((11401300 / 4194304 : Rat) : ℝ) with hLd
  have hL' := abs_le.1 hL
  have hpw : (((11401300 / 4194304 : Rat)) : ℝ) ^ (b : ℝ) = Real.exp (b * L) := by
    rw [Real.rpow_def_of_pos (by norm_num), mul_comm]
  have bL : (b : ℝ) * L ≤ 0 := mul_nonpos_of_nonpos_of_nonneg b0 (by linarith)
  obtain ⟨c, hc, c0, ec⟩ := hp _ _ _ _ he hx (by norm_num) (by
    rw [hpw]
    exact (Real.exp_le_one_iff.2 bL).trans (by norm_num))
  rw [hpw] at ec
  refine ⟨c, hc, c0, ?_⟩
  have t : |(b : ℝ) * L + z| ≤ 8.76 / 16777216 * z + 0.251 / 16777216 := by
    rw [show (b : ℝ) * L + z = (b - -z) * L - z * (L - 1) by ring]
    refine (abs_sub _ _).trans ?_
    rw [abs_mul, abs_mul, abs_of_nonneg z0]
    have t1 : |(b : ℝ) - -z| * |L| ≤ (8.2 / 16777216 * z + 1 / 67108864) * (1 + 0.55 / 16777216) := by
      refine mul_le_mul h ?_ (abs_nonneg _) (by positivity)
      rw [abs_of_nonneg (by linarith)]
      linarith
    have t2 := mul_le_mul_of_nonneg_left hL z0
    norm_num at t1 t2 ⊢
    linarith
  have E0 := Real.exp_pos (-z)
  set E := Real.exp (-z) with hE
  rcases le_or_gt z 32768 with hz | hz
  · set τ := (b : ℝ) * L + z with hτ
    have τ1 : |τ| ≤ 0.0179 := t.trans (by norm_num; linarith)
    have e1 : Real.exp (b * L) = E * Real.exp τ := by rw [hE, ← Real.exp_add]; congr 1; rw [hτ]; ring
    have e2 : |Real.exp τ - 1| ≤ 8.95 / 16777216 * z + 0.26 / 16777216 := by
      have := Real.abs_exp_sub_one_sub_id_le (x := τ) (by linarith)
      have e := abs_add_le (Real.exp τ - 1 - τ) τ
      rw [sub_add_cancel] at e
      have : τ ^ 2 ≤ 0.0179 * |τ| := by
        rw [← sq_abs, sq]; exact mul_le_mul_of_nonneg_right τ1 (abs_nonneg _)
      norm_num at t τ1 this e ⊢
      linarith
    have e3 : |Real.exp (b * L) - E| ≤ (8.95 / 16777216 * z + 0.26 / 16777216) * E := by
      rw [e1, show E * Real.exp τ - E = (Real.exp τ - 1) * E by ring, abs_mul, abs_of_pos E0]
      exact mul_le_mul_of_nonneg_right e2 E0.le
    have e4 : Real.exp (b * L) ≤ (1 + (8.95 / 16777216 * z + 0.26 / 16777216)) * E := by linarith [(abs_le.1 e3).2]
    have zE : 0 ≤ z * E := by positivity
    have := abs_sub_le (c : ℝ) (Real.exp (b * L)) E
    norm_num at ec e3 e4 this ⊢
    nlinarith
  · have s1 : Real.exp (b * L) ≤ 1 / 2 ^ 200 := by
      have := exp_neg_small (z := -(b * L)) (by linarith [(abs_le.1 t).2])
      rwa [neg_neg] at this
    have s2 : E ≤ 1 / 2 ^ 200 := exp_neg_small (by linarith)
    have := abs_le.1 ec
    have p1 := Real.exp_pos ((b : ℝ) * L)
    have zE : 0 ≤ (1 + z) * E := by positivity
    have c0' : (0 : ℝ) ≤ c := by exact_mod_cast c0
    rw [abs_le]
    norm_num at this s1 s2 ⊢
    constructor <;> linarith

section
variable {sigma : F32} {s : Rat} (hs : sigma.Is s) (s0 : 1 / 16 ≤ s) (s1 : s ≤ 1000)
include hs s0 s1

theorem sigma_sq : Rel (sigma *. sigma) ((s : ℝ) ^ 2) (1.001 / 16777216) := by
  obtain ⟨r0, r1⟩ := sigma_real s0 s1
  have sg : Rel sigma (s : ℝ) 0 := Rel.exact hs
  have q0 : (1 / 256 : ℝ) ≤ s ^ 2 := by nlinarith
  have q1 : (s : ℝ) ^ 2 ≤ 1000000 := by nlinarith
  have b1 : |(s : ℝ) * s| = s ^ 2 := by rw [abs_of_nonneg (by positivity)]; ring
  have := Rel.mul (K := 1.001 / 16777216) sg sg le_rfl le_rfl (by rw [b1]; norm_num; linarith) (by rw [b1]; norm_num; linarith) (by norm_num) (by norm_num)
  rwa [← sq] at this

/-- the factor 1 / (2 pi (s s)) -/
theorem gauss_factor' : Rel (num 1 /. (num 2 *. FloatOps.pi *. (sigma *. sigma)) : F32) (1 / (2 * Real.pi * (s : ℝ) ^ 2)) (4.6 / 16777216) := by
  obtain ⟨r0, r1⟩ := sigma_real s0 s1
  have p1 := Real.pi_gt_three
  have p2 := Real.pi_lt_four
  have two := rel_num (n := 2) (by decide)
  have one := rel_num (n := 1) (by decide)
  have sq := sigma_sq hs s0 s1
  have q0 : (1 / 256 : ℝ) ≤ s ^ 2 := by nlinarith
  have q1 : (s : ℝ) ^ 2 ≤ 1000000 := by nlinarith
  have b1 : |((2 : Int) : ℝ) * Real.pi| = 2 * Real.pi := abs_of_pos (by push_cast; linarith)
  have m1 := Rel.mul (K := 1.51 / 16777216) two rel_pi le_rfl (by norm_num) (by rw [b1]; norm_num; linarith) (by rw [b1]; norm_num; linarith) (by norm_num) (by norm_num)
  have b3 : |((2 : Int) : ℝ) * Real.pi * (s : ℝ) ^ 2| = 2 * Real.pi * s ^ 2 := by rw [abs_of_nonneg (by push_cast; positivity)]; push_cast; ring
  have m3 := Rel.mul (K := 3.53 / 16777216) m1 sq (by norm_num) (by norm_num) (by rw [b3]; norm_num; nlinarith) (by rw [b3]; norm_num; nlinarith) (by norm_num) (by norm_num)
  have b4 : |((1 : Int) : ℝ) / (((2 : Int) : ℝ) * Real.pi * (s : ℝ) ^ 2)| = 1 / (2 * Real.pi * s ^ 2) := by
    rw [abs_div, b3]; simp
  have e : 1 / (2 * Real.pi * (s : ℝ) ^ 2) = ((1 : Int) : ℝ) / (((2 : Int) : ℝ) * Real.pi * (s : ℝ) ^ 2) := by push_cast; ring
  rw [e]
  refine Rel.div one m3 le_rfl (by norm_num) (by norm_num) (by push_cast; positivity) ?_ ?_ (by norm_num) (by norm_num)
  · rw [b4, le_div_iff₀ (by positivity)]; norm_num; nlinarith
  · rw [b4, div_le_iff₀ (by positivity)]; norm_num; nlinarith

/-- the exponent -(x x) / (2 (s s)), for an argument known up to two roundings -/
theorem exponent_err {x : F32} {q : Rat} {r : ℝ} (hx : x.Is q) (r1 : |r| ≤ 4096) (hr : |(q : ℝ) - r| ≤ 2 / 16777216 * |r| + 1 / 2 ^ 140) :
    ∃ b : Rat, (FloatOps.neg (x *. x) /. (num 2 *. (sigma *. sigma)) : F32).Is b ∧ b ≤ 0 ∧
      |(b : ℝ) - -(r ^ 2 / (2 * (s : ℝ) ^ 2))| ≤ 8.2 / 16777216 * (r ^ 2 / (2 * (s : ℝ) ^ 2)) + 1 / 67108864 := by
  obtain ⟨t0, t1⟩ := sigma_real s0 s1
  have q0 : (1 / 256 : ℝ) ≤ s ^ 2 := by nlinarith
  have q1 : (s : ℝ) ^ 2 ≤ 1000000 := by nlinarith
  have two := rel_num (n := 2) (by decide)
  have b2 : |((2 : Int) : ℝ) * (s : ℝ) ^ 2| = 2 * s ^ 2 := by rw [abs_of_nonneg (by push_cast; positivity)]; push_cast; ring
  have m2 := Rel.mul (K := 2.01 / 16777216) two (sigma_sq hs s0 s1) le_rfl (by norm_num) (by rw [b2]; norm_num; linarith) (by rw [b2]; norm_num; linarith) (by norm_num) (by norm_num)
  obtain ⟨D, hD, eD⟩ := m2
  have D0 : (0 : ℝ) < D := by
    rw [b2] at eD
    have := (abs_le.1 eD).1
    push_cast at this
    norm_num at this
    nlinarith
  have D0' : (0 : Rat) < D := by exact_mod_cast D0
  have z : f32.Exact 0 := by simpa using f32_int (n := 0) (by decide)
  have q1' : |(q : ℝ)| ≤ 5000 := by
    have := abs_add_le ((q : ℝ) - r) r
    rw [sub_add_cancel] at this
    norm_num at hr this ⊢
    linarith
  have qq0 : 0 ≤ q * q := mul_self_nonneg q
  have qq1 : |((q * q : Rat) : ℝ)| ≤ 25000000 := by
    push_cast
    rw [abs_mul]
    have := mul_le_mul q1' q1' (abs_nonneg _) (by norm_num)
    norm_num at this ⊢; linarith
  have ovq : |f32.rnd (q * q)| < pow2 f32.emax := by
    refine f32_ovf ?_
    have : |((q * q : Rat) : ℝ)| ≤ ((2 ^ 100 : Rat) : ℝ) := qq1.trans (by norm_num)
    rw [← Rat.cast_abs] at this
    exact_mod_cast this
  have hm := mul_is hx hx ovq
  have hn : (FloatOps.neg (x *. x) : F32).Is (-(f32.rnd (q * q))) := FP.neg_is hm
  have rn0 : 0 ≤ f32.rnd (q * q) := le_rndQ z.1 qq0
  have rr := (Rat.cast_le (K := ℝ)).2 (rnd_err_add (q * q))
  rw [Rat.cast_abs, Rat.cast_sub] at rr
  push_cast at rr
  have sgn : -(f32.rnd (q * q)) / D ≤ 0 := div_nonpos_of_nonpos_of_nonneg (by linarith) D0'.le
  rcases le_or_gt (1 / 131072) |r| with hlo | hlo
  · have rn : r ≠ 0 := by rintro rfl; norm_num at hlo
    have xr : Rel x r (2.001 / 16777216) := ⟨q, hx, hr.trans (by norm_num at hlo ⊢; linarith)⟩
    have rr2 : |r * r| = r ^ 2 := by rw [abs_of_nonneg (mul_self_nonneg r)]; ring
    have w0 : (1 / 131072) ^ 2 ≤ r ^ 2 := by rw [← sq_abs r]; exact pow_le_pow_left₀ (by norm_num) hlo 2
    have w1 : r ^ 2 ≤ 4096 ^ 2 := by rw [← sq_abs r]; exact pow_le_pow_left₀ (abs_nonneg _) r1 2
    have mm := Rel.mul (K := 5.1 / 16777216) xr xr (by norm_num) (by norm_num) (by rw [rr2]; norm_num at w0 ⊢; linarith) (by rw [rr2]; norm_num at w1 ⊢; linarith) (by norm_num) (by norm_num)
    obtain ⟨a, ha, ea⟩ := mm
    have hna : (FloatOps.neg (x *. x) : F32).Is (-a) := FP.neg_is ha
    have nn : Rel (FloatOps.neg (x *. x) : F32) (-(r * r)) (5.1 / 16777216) := by
      refine ⟨_, hna, ?_⟩
      rw [abs_neg]; push_cast
      rw [show -(a : ℝ) - -(r * r) = -(a - r * r) by ring, abs_neg]
      exact ea
    have b3 : |-(r * r) / (((2 : Int) : ℝ) * (s : ℝ) ^ 2)| = r ^ 2 / (2 * s ^ 2) := by
      rw [abs_div, b2, abs_neg, rr2]
    have dd := Rel.div (K := 8.2 / 16777216) nn ⟨D, hD, eD⟩ (by norm_num) (by norm_num) (by norm_num) (by push_cast; positivity)
      (by rw [b3, le_div_iff₀ (by positivity)]; norm_num at w0 ⊢; linarith)
      (by rw [b3, div_le_iff₀ (by positivity)]; norm_num at w1 ⊢; linarith) (by norm_num) (by norm_num)
    obtain ⟨b, hb, eb⟩ := dd
    rw [b3] at eb
    refine ⟨b, hb, ?_, ?_⟩
    · have := div_is hn hD D0'.ne' (by
        refine f32_ovf ?_
        have h1 : |((-(f32.rnd (q * q)) / D : Rat) : ℝ)| ≤ ((2 ^ 100 : Rat) : ℝ) := by
          push_cast
          rw [abs_div, abs_neg, abs_of_pos D0, div_le_iff₀ D0]
          have := abs_add_le ((f32.rnd (q * q) : ℝ) - q * q) (q * q)
          rw [sub_add_cancel] at this
          push_cast at qq1
          have hD1 : (1 / 256 : ℝ) ≤ D := by
            rw [b2] at eD
            have := (abs_le.1 eD).1
            push_cast at this
            norm_num at this ⊢
            nlinarith
          norm_num at rr qq1 this hD1 ⊢
          linarith
        rw [← Rat.cast_abs] at h1
        exact_mod_cast h1)
      rw [hb.unique this]
      exact rndQ_le z.1 sgn
    · rw [show -(r ^ 2 / (2 * (s : ℝ) ^ 2)) = -(r * r) / (((2 : Int) : ℝ) * (s : ℝ) ^ 2) by push_cast; ring]
      exact eb.trans (le_add_of_nonneg_right (by norm_num))
  · have hD1 : (1 / 129 : ℝ) ≤ D := by
      rw [b2] at eD
      have := (abs_le.1 eD).1
      push_cast at this
      norm_num at this ⊢
      nlinarith
    have w1 : r ^ 2 ≤ (1 / 131072) ^ 2 := by rw [← sq_abs r]; exact pow_le_pow_left₀ (abs_nonneg _) hlo.le 2
    have zz : r ^ 2 / (2 * (s : ℝ) ^ 2) ≤ 1 / 134217728 := by
      rw [div_le_iff₀ (by positivity)]; norm_num at w1 ⊢; nlinarith
    have zz0 : 0 ≤ r ^ 2 / (2 * (s : ℝ) ^ 2) := by positivity
    have qs : |(q : ℝ)| ≤ 1 / 131072 * 1.001 := by
      have := abs_add_le ((q : ℝ) - r) r
      rw [sub_add_cancel] at this
      norm_num at hr this ⊢
      linarith
    have qq2 : (q : ℝ) * q ≤ 1 / 131072 * 1.001 * (1 / 131072 * 1.001) := by
      have := mul_le_mul qs qs (abs_nonneg _) (by norm_num)
      rwa [← abs_mul, abs_of_nonneg (mul_self_nonneg _)] at this
    have qq3 : (0 : ℝ) ≤ q * q := mul_self_nonneg _
    rw [abs_of_nonneg qq3] at rr
    have rrn : (f32.rnd (q * q) : ℝ) ≤ 1.003 / 17179869184 := by
      have := (abs_le.1 rr).2
      norm_num at this qq2 ⊢
      linarith
    have rrn0 : (0 : ℝ) ≤ f32.rnd (q * q) := by exact_mod_cast rn0
    have dq : ((f32.rnd (q * q) : ℝ)) / D ≤ 1.02 / 134217728 := by
      rw [div_le_iff₀ D0]; norm_num at rrn hD1 ⊢; nlinarith
    have dq0 : 0 ≤ ((f32.rnd (q * q) : ℝ)) / D := by positivity
    have hb := div_is hn hD D0'.ne' (by
      refine f32_ovf ?_
      have h1 : |((-(f32.rnd (q * q)) / D : Rat) : ℝ)| ≤ ((2 ^ 100 : Rat) : ℝ) := by
        push_cast
        rw [neg_div, abs_neg, abs_of_nonneg dq0]
        norm_num at dq ⊢
        linarith
      rw [← Rat.cast_abs] at h1
      exact_mod_cast h1)
    refine ⟨_, hb, rndQ_le z.1 sgn, ?_⟩
    have r3 := (Rat.cast_le (K := ℝ)).2 (rnd_err_add (-(f32.rnd (q * q)) / D))
    rw [Rat.cast_abs, Rat.cast_sub] at r3
    generalize f32.rnd (-(f32.rnd (q * q)) / D) = Bq at r3 ⊢
    push_cast at r3
    rw [show -(f32.rnd (q * q) : ℝ) / D = -((f32.rnd (q * q) : ℝ) / D) from neg_div _ _, abs_neg, abs_of_nonneg dq0] at r3
    have r4 := abs_le.1 r3
    rw [abs_le]
    generalize (Bq : ℝ) = B at *
    generalize r ^ 2 / (2 * (s : ℝ) ^ 2) = Z at *
    generalize ((f32.rnd (q * q) : ℝ)) / D = Y at *
    norm_num at r4 dq zz ⊢
    constructor <;> linarith

/-- `gaussian_fn` at an argument known up to two roundings -/
theorem gaussOf_err (hp : PowGood) {x : F32} {q : Rat} {r : ℝ} (hx : x.Is q) (r1 : |r| ≤ 4096) (hr : |(q : ℝ) - r| ≤ 2 / 16777216 * |r| + 1 / 2 ^ 140) :
    ∃ w : Rat, (gaussOf x sigma).Is w ∧ 0 ≤ w ∧
      |(w : ℝ) - gaussian2 s (r ^ 2)| ≤ (1 + r ^ 2 / (2 * (s : ℝ) ^ 2)) * gaussian2 s (r ^ 2) / 2 ^ 20 + 1 / 2 ^ 130 := by
  obtain ⟨r0, r1'⟩ := sigma_real s0 s1
  have p1 := Real.pi_gt_three
  obtain ⟨b, hb, b0, eb⟩ := exponent_err hs s0 s1 hx r1 hr
  obtain ⟨A', hA', eA⟩ := gauss_factor' hs s0 s1
  have z0 : 0 ≤ r ^ 2 / (2 * (s : ℝ) ^ 2) := by positivity
  have hG : gaussian2 s (r ^ 2) = 1 / (2 * Real.pi * (s : ℝ) ^ 2) * Real.exp (-(r ^ 2 / (2 * (s : ℝ) ^ 2))) := rfl
  rw [hG]
  set z := r ^ 2 / (2 * (s : ℝ) ^ 2) with hz
  obtain ⟨c, hc, c0, ec⟩ := exp_err' hp hb z0 b0 eb
  have q0 : (1 / 256 : ℝ) ≤ s ^ 2 := by nlinarith
  have A0 : 0 < 1 / (2 * Real.pi * (s : ℝ) ^ 2) := by positivity
  have A1 : 1 / (2 * Real.pi * (s : ℝ) ^ 2) ≤ 43 := by
    rw [div_le_iff₀ (by positivity)]; nlinarith
  set A := 1 / (2 * Real.pi * (s : ℝ) ^ 2) with hA
  have E0 := Real.exp_pos (-z)
  have M1 : (1 + z) * Real.exp (-z) ≤ 1 := by
    rw [Real.exp_neg, ← div_eq_mul_inv, div_le_one (Real.exp_pos z)]
    linarith [Real.add_one_le_exp z]
  have M2 : |Real.exp (-z)| ≤ (1 + z) * Real.exp (-z) := by
    rw [abs_of_pos E0]; exact le_mul_of_one_le_left E0.le (by linarith)
  have aA : |A| = A := abs_of_pos A0
  obtain ⟨w, hw, w0, -, ew⟩ := scaled_round hA' hc eA ec M2 (by norm_num) (by norm_num) (by norm_num) (by norm_num) (by norm_num) (by norm_num)
    (by rw [aA]; exact le_trans (mul_le_mul A1 M1 (by positivity) (by norm_num)) (by norm_num)) (by rw [aA]; exact le_trans A1 (by norm_num))
  refine ⟨w, hw, w0 ?_ c0, ew.trans ?_⟩
  · rw [aA] at eA
    have := (abs_le.1 eA).1
    have : (0 : ℝ) ≤ A' := by norm_num at this; linarith
    exact_mod_cast this
  · rw [aA]
    have : 0 ≤ A * ((1 + z) * Real.exp (-z)) := by positivity
    have e : (1 + z) * (A * Real.exp (-z)) = A * ((1 + z) * Real.exp (-z)) := by ring
    rw [e]
    norm_num at this ⊢
    linarith
end
end
end Imgproc

import Verif.Proofs.ApproxR
import Verif.Props.TrimMean2
/-! Property C106: with f32 arithmetic and an accurate `powf`, un-linearizing a linearized image and the trip through XYZ lose
at most one level per channel. -/
namespace Imgproc
open FloatOps

theorem log_bound {r : ℝ} {k : ℕ} (h1 : r ≤ 2) (hk : 1 ≤ k) (h0 : (1 / 2.7) ^ k ≤ r) : |Real.log r| ≤ k := by
  have rpos : 0 < r := lt_of_lt_of_le (by positivity) h0
  have kk : (1 : ℝ) ≤ k := by exact_mod_cast hk
  rw [abs_le]
  constructor
  · rw [Real.le_log_iff_exp_le rpos, Real.exp_neg]
    refine le_trans ?_ h0
    rw [one_div, inv_pow, ← Real.exp_one_rpow, Real.rpow_natCast]
    gcongr
    linarith [Real.exp_one_gt_d9]
  · have := Real.log_le_sub_one_of_pos rpos; linarith

theorem rpow_twelve {x : ℝ} (h : 0.0893 ≤ x) : 0.05 ≤ x ^ (1.2 : ℝ) := by
  refine le_trans ?_ (Real.rpow_le_rpow (by norm_num) h (by norm_num))
  refine le_of_pow_le_pow_left₀ (n := 5) (by decide) (by positivity) ?_
  rw [← Real.rpow_natCast ((0.0893 : ℝ) ^ (1.2 : ℝ)), ← Real.rpow_mul (by norm_num),
    show (1.2 : ℝ) * ((5 : ℕ) : ℝ) = ((6 : ℕ) : ℝ) by norm_num, Real.rpow_natCast]
  norm_num

theorem lev_half {v : ℝ} (h : 10 ≤ v) : (lev v) ^ (2.2 : ℝ) + 2e-4 ≤ (lev (v + 1 / 2)) ^ (2.2 : ℝ) := by
  have s0 : 0.0893 ≤ lev v := by unfold lev; rw [le_div_iff₀ (by norm_num)]; linarith
  have e : lev (v + 1 / 2) = lev v * (1 + (0.5 / 269.025) / lev v) := by
    have : lev v ≠ 0 := by linarith
    field_simp
    unfold lev; ring
  rw [e, Real.mul_rpow (by linarith) (by positivity)]
  have b : 1 + 2.2 * ((0.5 / 269.025) / lev v) ≤ (1 + (0.5 / 269.025) / lev v) ^ (2.2 : ℝ) := by
    refine one_add_mul_self_le_rpow_one_add ?_ (by norm_num)
    have : 0 ≤ (0.5 / 269.025) / lev v := by positivity
    linarith
  have p0 : 0 ≤ lev v ^ (2.2 : ℝ) := by positivity
  have c : 2e-4 ≤ lev v ^ (2.2 : ℝ) * (2.2 * ((0.5 / 269.025) / lev v)) := by
    have : lev v ^ (2.2 : ℝ) = lev v ^ (1.2 : ℝ) * lev v := by
      rw [← Real.rpow_add_one (by linarith)]; norm_num
    rw [this]
    have e2 : lev v ^ (1.2 : ℝ) * lev v * (2.2 * ((0.5 / 269.025) / lev v)) = lev v ^ (1.2 : ℝ) * (1.1 / 269.025) := by
      field_simp; norm_num
    rw [e2]
    have := rpow_twelve s0
    linarith
  nlinarith [mul_le_mul_of_nonneg_left b p0]

theorem lev_eleven' : 0.005 < (lev 11) ^ (2.2 : ℝ) := by
  have h0 : (0 : ℝ) ≤ lev 11 := by unfold lev; norm_num
  refine lt_of_pow_lt_pow_left₀ 5 (by positivity) ?_
  rw [← Real.rpow_natCast ((lev 11) ^ (2.2 : ℝ)), ← Real.rpow_mul h0,
    show (2.2 : ℝ) * ((5 : ℕ) : ℝ) = ((11 : ℕ) : ℝ) by norm_num, Real.rpow_natCast]
  unfold lev
  norm_num

section
variable [Libm f32]

theorem gamma_near : Near (GAMMA : F32) 2.2 1.4e-7 := by
  have := Near.lit (q := 2.2) (B := 2.2) (by norm_num) (by norm_num [abs_of_pos]) (by norm_num)
  refine (this.of_eq (by norm_num)).mono (by norm_num)

theorem invGamma_near : Near (num 1 /. GAMMA : F32) (1 / 2.2) 1e-7 := by
  have := Near.div (L := 2.2) (B := 0.5) (e' := 1e-7) (Near.num (n := 1) (by decide)) gamma_near (by norm_num) (by norm_num)
    (by norm_num [abs_of_pos]) (by norm_num) (by norm_num) (by norm_num)
  exact this.of_eq (by norm_num)

theorem entry_le_ten (v : UInt8) : (ofU8 v <=. (num 10 : F32)) = decide (v.toNat ≤ 10) := by
  rw [le_is (ofU8_is v) (num32 (n := 10) (by decide))]
  rw [decide_eq_decide]; norm_cast

/-- every entry of the f32 table of `linearize_srgb_f32` is within 1.5e-6 of the curve -/
theorem linearize_near (hp : PowAccurate) (v : UInt8) : Near (linearizeEntry v : F32) (linearValue v.toNat) 1.5e-6 := by
  have hv : v.toNat ≤ 255 := by have := v.toNat_lt; omega
  have hv' : (v.toNat : ℝ) ≤ 255 := by exact_mod_cast hv
  have v0 : (0 : ℝ) ≤ v.toNat := Nat.cast_nonneg _
  unfold linearizeEntry linearValue
  simp only
  rw [entry_le_ten]
  by_cases h : v.toNat ≤ 10
  · rw [if_pos (by simpa using h), if_pos h]
    have h' : (v.toNat : ℝ) ≤ 10 := by exact_mod_cast h
    have := Near.div (L := 3294) (B := 1) (e' := 1.5e-6) (Near.byte v) (Near.num (n := 3294) (by decide)) (by norm_num) (by norm_num)
      (by rw [abs_of_nonneg (by positivity), div_le_iff₀ (by norm_num)]; push_cast; linarith)
      (by norm_num) (by norm_num) (by norm_num)
    exact this.of_eq (by norm_num)
  · rw [if_neg (by simpa using h), if_neg h]
    have h' : (11 : ℝ) ≤ v.toNat := by exact_mod_cast (by omega : 11 ≤ v.toNat)
    have hl : linearValue v.toNat ≤ 1 := (linearValue_unit hv).2
    rw [linearValue_hi (by omega)] at hl
    have r0 : 0.09 ≤ lev v.toNat := by unfold lev; rw [le_div_iff₀ (by norm_num)]; linarith
    have r1 : lev v.toNat ≤ 1 := by unfold lev; rw [div_le_one (by norm_num)]; linarith
    have n1 : Near (ofU8 v +. lit 14.025 : F32) ((v.toNat : ℝ) + 14.025) (1.6 / 16777216 * ((v.toNat : ℝ) + 14.025)) := by
      have l := (Near.lit (q := 14.025) (B := 14.025) (by norm_num) (by norm_num [abs_of_pos]) (by norm_num))
      have := Near.add (B := (v.toNat : ℝ) + 14.025) (e' := 1.6 / 16777216 * ((v.toNat : ℝ) + 14.025)) (Near.byte v) l (by linarith)
        (by rw [abs_of_nonneg (by positivity)]; norm_num) (by linarith) (by linarith)
      exact this.of_eq (by norm_num)
    have l2 : Near (lit 269.025 : F32) 269.025 (269.025 / 16777216) :=
      (Near.lit (q := 269.025) (B := 269.025) (by norm_num) (by norm_num [abs_of_pos]) (by norm_num)).of_eq (by norm_num)
    have n2 : Near ((ofU8 v +. lit 14.025) /. lit 269.025 : F32) (lev v.toNat) (2.4e-7 * lev v.toNat) := by
      have e1 : (v.toNat : ℝ) + 14.025 = 269.025 * lev v.toNat := by unfold lev; field_simp
      rw [e1] at n1
      have := Near.div (L := 269.025) (B := lev v.toNat) (e' := 2.4e-7 * lev v.toNat) n1 l2 (le_refl _) (by norm_num)
        (by rw [mul_div_cancel_left₀ _ (by norm_num), abs_of_nonneg (by linarith)]) (by linarith)
        (by rw [show (269.025 : ℝ) - 269.025 / 16777216 = 269.025 * (1 - 1 / 16777216) by ring]
            have : (1.6 / 16777216 * (269.025 * lev v.toNat) + lev v.toNat * (269.025 / 16777216)) / (269.025 * (1 - 1 / 16777216)) =
              2.6 / 16777215 * lev v.toNat := by field_simp; ring
            rw [this]; linarith)
        (by rw [show (269.025 : ℝ) - 269.025 / 16777216 = 269.025 * (1 - 1 / 16777216) by ring]
            have : (1.6 / 16777216 * (269.025 * lev v.toNat) + lev v.toNat * (269.025 / 16777216)) / (269.025 * (1 - 1 / 16777216)) =
              2.6 / 16777215 * lev v.toNat := by field_simp; ring
            rw [this]; linarith)
      exact this.of_eq (mul_div_cancel_left₀ _ (by norm_num))
    have := Near.pow hp (S := 2.201) (κ := 0.96e-6) (Λ := (3 : ℕ)) n2 gamma_near (by norm_num; linarith) (by linarith) (by norm_num)
      (by norm_num) (by norm_num) (by norm_num) (log_bound (by linarith) (by norm_num) (by norm_num; linarith))
      (by norm_num) (by norm_num)
    refine (this.mono (e' := 1.5e-6) ?_).of_eq rfl
    have : (0 : ℝ) ≤ lev v.toNat ^ (2.2 : ℝ) := Real.rpow_nonneg (by linarith) _
    nlinarith

theorem SameOrOneBelow.of {v o : UInt8} (h : o.toNat ≤ v.toNat ∧ v.toNat ≤ o.toNat + 1) : SameOrOneBelow v o := by
  rcases Nat.lt_or_ge o.toNat v.toNat with hc | hc
  · right; omega
  · left; exact UInt8.toNat_inj.1 (by omega)

theorem threshold_near : Near (lit 0.0031308 : F32) 0.0031308 1e-9 :=
  ((Near.lit (q := 0.0031308) (B := 0.0031308) (by norm_num) (by norm_num [abs_of_pos]) (by norm_num)).of_eq (by norm_num)).mono
    (by norm_num)

/-- the branch taken by `unlinearize_srgb_f32` -/
theorem unlinearize_branch {n : F32} {a : Rat} (ha : n.Is a) :
    ((a : ℝ) ≤ 0.00313 → unlinearizeEntry n = toU8 (n *. lit 3294.6)) ∧
    (0.00314 ≤ (a : ℝ) → unlinearizeEntry n = toU8 (lit 269.025 *. FloatOps.pow n (num 1 /. GAMMA) -. lit 14.025)) := by
  obtain ⟨t, ht, t1⟩ := threshold_near
  rw [abs_le] at t1
  unfold unlinearizeEntry
  rw [le_is ha ht]
  constructor <;> intro h
  · rw [if_pos]
    have : (a : ℝ) ≤ t := by linarith
    exact decide_eq_true (by exact_mod_cast this)
  · rw [if_neg]
    have : ¬ (a : ℝ) ≤ t := by rw [not_le]; linarith
    rw [decide_eq_true_eq]; exact_mod_cast this

theorem unlinearize_dark32 {v : UInt8} (hv : v.toNat ≤ 10) {n : F32} {e : ℝ} (h : Near n ((v.toNat : ℝ) / 3294) e) (he : e ≤ 9e-5) :
    ∃ r : F32, unlinearizeEntry n = toU8 r ∧ Near r ((v.toNat : ℝ) / 3294 * 3294.6) (3295 * e + 2e-6) := by
  have hv' : (v.toNat : ℝ) ≤ 10 := by exact_mod_cast hv
  have v0 : (0 : ℝ) ≤ v.toNat := Nat.cast_nonneg _
  have h0 := h
  obtain ⟨a, ha, a1⟩ := h
  have e0 : 0 ≤ e := le_trans (abs_nonneg _) a1
  have a2 := abs_le.1 a1
  refine ⟨_, (unlinearize_branch ha).1 (by linarith), ?_⟩
  have l : Near (lit 3294.6 : F32) 3294.6 2e-4 :=
    ((Near.lit (q := 3294.6) (B := 3294.6) (by norm_num) (by norm_num [abs_of_pos]) (by norm_num)).of_eq (by norm_num)).mono
      (by norm_num)
  refine Near.mul (B := 10 / 3294) (C := 3294.6) h0 l (by rw [abs_of_nonneg (by positivity)]; linarith) (by norm_num [abs_of_pos])
    (by norm_num) (by nlinarith) (by nlinarith)

theorem unlinearize_bright32 (hp : PowAccurate) {v : UInt8} (hv : 11 ≤ v.toNat) {n : F32} (h : Near n (linearValue v.toNat) 9e-5) :
    ∃ r : F32, unlinearizeEntry n = toU8 r ∧ Near r v.toNat (1 / 2 + 1e-3) := by
  have hv2 : v.toNat ≤ 255 := by have := v.toNat_lt; omega
  have hv' : (v.toNat : ℝ) ≤ 255 := by exact_mod_cast hv2
  have h11 : (11 : ℝ) ≤ v.toNat := by exact_mod_cast hv
  have hl : linearValue v.toNat ≤ 1 := (linearValue_unit hv2).2
  rw [linearValue_hi hv] at h hl
  obtain ⟨a, ha, a1⟩ := h
  have a2 := abs_le.1 a1
  have m := lev_mono (by norm_num) h11
  have t := lev_eleven'
  have alo : 0.004 ≤ (a : ℝ) := by linarith
  have ahi : (a : ℝ) ≤ 1.0001 := by linarith
  refine ⟨_, (unlinearize_branch ha).2 (by linarith), ?_⟩
  set T : ℝ := (a : ℝ) ^ (1 / 2.2 : ℝ) with hT
  have T0 : 0 ≤ T := Real.rpow_nonneg (by linarith) _
  have T1 : T ≤ 1.001 := by
    have h1 := Real.rpow_le_rpow (by linarith) ahi (show (0 : ℝ) ≤ 1 / 2.2 by norm_num)
    have h2 := Real.rpow_le_rpow_of_exponent_le (x := 1.0001) (by norm_num) (show (1 / 2.2 : ℝ) ≤ 1 by norm_num)
    rw [Real.rpow_one] at h2
    linarith
  have np : Near (FloatOps.pow n (num 1 /. GAMMA)) T 1.3e-6 := by
    have n0 : Near n (a : ℝ) (0 * a) := by rw [zero_mul]; exact Near.exact ha
    have := Near.pow hp (S := 1) (κ := 6e-7) (Λ := (6 : ℕ)) n0 invGamma_near (by norm_num; linarith) (by linarith) (by norm_num)
      (by norm_num) (by norm_num) (by norm_num) (log_bound (by linarith) (by norm_num) (by norm_num; linarith))
      (by norm_num) (by norm_num)
    refine this.mono ?_
    rw [← hT]; nlinarith
  have l2 : Near (lit 269.025 : F32) 269.025 (269.025 / 16777216) :=
    (Near.lit (q := 269.025) (B := 269.025) (by norm_num) (by norm_num [abs_of_pos]) (by norm_num)).of_eq (by norm_num)
  have nm : Near (lit 269.025 *. FloatOps.pow n (num 1 /. GAMMA)) (269.025 * T) 5e-4 :=
    Near.mul (B := 269.025) (C := 1.001) l2 np (by norm_num [abs_of_pos]) (by rw [abs_of_nonneg T0]; exact T1)
      (by norm_num) (by norm_num) (by norm_num)
  have l3 : Near (lit 14.025 : F32) 14.025 (14.025 / 16777216) :=
    (Near.lit (q := 14.025) (B := 14.025) (by norm_num) (by norm_num [abs_of_pos]) (by norm_num)).of_eq (by norm_num)
  have ns : Near (lit 269.025 *. FloatOps.pow n (num 1 /. GAMMA) -. lit 14.025) (269.025 * T - 14.025) 1e-3 :=
    Near.sub (B := 300) nm l3 (by norm_num) (by rw [abs_le]; constructor <;> linarith) (by norm_num) (by norm_num)
  have lo : (v.toNat : ℝ) - 1 / 2 ≤ 269.025 * T - 14.025 := by
    have g := lev_half (v := (v.toNat : ℝ) - 1 / 2) (by linarith)
    rw [sub_add_cancel] at g
    have b := Real.rpow_le_rpow (Real.rpow_nonneg (by unfold lev; apply div_nonneg <;> linarith) _) (show lev ((v.toNat : ℝ) - 1 / 2) ^ (2.2 : ℝ) ≤ a by linarith)
      (show (0 : ℝ) ≤ 1 / 2.2 by norm_num)
    have e1 := lev_root (v := (v.toNat : ℝ) - 1 / 2) (by linarith)
    linarith
  have hi : 269.025 * T - 14.025 ≤ (v.toNat : ℝ) + 1 / 2 := by
    have g := lev_half (v := (v.toNat : ℝ)) (by linarith)
    have b := Real.rpow_le_rpow (by linarith) (show (a : ℝ) ≤ lev ((v.toNat : ℝ) + 1 / 2) ^ (2.2 : ℝ) by linarith)
      (show (0 : ℝ) ≤ 1 / 2.2 by norm_num)
    have e1 := lev_root (v := (v.toNat : ℝ) + 1 / 2) (by linarith)
    linarith
  obtain ⟨b, hb, b1⟩ := ns
  refine ⟨b, hb, ?_⟩
  rw [abs_le] at *
  constructor <;> linarith

/-- in f32, a number within 9e-5 of a level of the curve comes back as that level or the one below it -/
theorem unlinearize_near32 (hp : PowAccurate) (v : UInt8) {n : F32} (h : Near n (linearValue v.toNat) 9e-5) :
    SameOrOneBelow v (unlinearizeEntry n) := by
  have hv := v.toNat_lt
  rcases Nat.lt_or_ge 10 v.toNat with hc | hc
  · obtain ⟨r, e, hr⟩ := unlinearize_bright32 hp hc h
    rw [e]
    exact .of (hr.toU8 (by norm_num) (by omega))
  · have el : linearValue v.toNat = (v.toNat : ℝ) / 3294 := by unfold linearValue; rw [if_pos hc]
    rw [el] at h
    obtain ⟨r, e, b, hb, b1⟩ := unlinearize_dark32 hc h (le_refl _)
    rw [e]
    refine .of (Near.toU8 (e := 0.5) ⟨b, hb, ?_⟩ (by norm_num) (by omega))
    have hv' : (v.toNat : ℝ) ≤ 10 := by exact_mod_cast hc
    have v0 : (0 : ℝ) ≤ v.toNat := Nat.cast_nonneg _
    rw [abs_le] at *
    constructor <;> linarith

/-- in f32 the darkest eleven levels come back exactly -/
theorem unlinearize_dark_exact32 {v : UInt8} (hc : v.toNat ≤ 10) : unlinearizeEntry (linearizeEntry v : F32) = v := by
  have key : ∀ k : Nat, k ≤ 10 → unlinearizeEntry (linearizeEntry (UInt8.ofNat k) : F32) = UInt8.ofNat k := by
    intro k hk
    have : k = 0 ∨ k = 1 ∨ k = 2 ∨ k = 3 ∨ k = 4 ∨ k = 5 ∨ k = 6 ∨ k = 7 ∨ k = 8 ∨ k = 9 ∨ k = 10 := by omega
    rcases this with rfl | rfl | rfl | rfl | rfl | rfl | rfl | rfl | rfl | rfl | rfl <;>
    · rw [← beq_iff_eq]; kernel_eval
  have := key v.toNat hc
  simpa using this

theorem product_near {q : Rat} {x : F32} {p e Q M : ℝ} (hq : |(q : ℝ)| ≤ Q) (hp : |p| ≤ M) (hx : Near x p e) (he : e ≤ M / 100)
    (h1 : 1 / 1000000 ≤ Q) (h2 : 1 / 1000000 ≤ Q * M) (h3 : Q ≤ 10) (h4 : M ≤ 100) :
    Near (lit q *. x) ((q : ℝ) * p) (Q * e + 2.1 * (Q * M) / 16777216) := by
  have e0 : 0 ≤ e := by obtain ⟨a, _, h⟩ := hx; exact le_trans (abs_nonneg _) h
  have Q0 : 0 ≤ Q := le_trans (abs_nonneg _) hq
  have k : Q * e ≤ Q * M / 100 := by nlinarith
  have k0 : 0 ≤ Q * e := by positivity
  refine Near.mul (B := Q) (C := M) (Near.lit h1 hq (by linarith)) hx hq hp h2 ?_ ?_
  · nlinarith
  · have : M * (Q / 16777216) = Q * M / 16777216 := by ring
    have : Q / 16777216 * e = Q * e / 16777216 := by ring
    linarith

/-- one row of a matrix product -/
theorem row_near {q1 q2 q3 : Rat} {x y z : F32} {p1 p2 p3 e M : ℝ} (Q1 Q2 Q3 : ℝ) (hq1 : |(q1 : ℝ)| ≤ Q1) (hq2 : |(q2 : ℝ)| ≤ Q2)
    (hq3 : |(q3 : ℝ)| ≤ Q3) (hx : Near x p1 e) (hy : Near y p2 e) (hz : Near z p3 e) (h1 : |p1| ≤ M) (h2 : |p2| ≤ M) (h3 : |p3| ≤ M)
    (he : e ≤ M / 100) (hM : 1 ≤ M) (hM' : M ≤ 100) (b1 : 1 / 1000000 ≤ Q1) (b2 : 1 / 1000000 ≤ Q2) (b3 : 1 / 1000000 ≤ Q3)
    (hQ : Q1 + Q2 + Q3 ≤ 10) :
    Near (((ofU8 0 +. lit q1 *. x) +. lit q2 *. y) +. lit q3 *. z) ((q1 : ℝ) * p1 + q2 * p2 + q3 * p3)
      ((Q1 + Q2 + Q3) * (e + 6 * M / 16777216)) := by
  have e0 : 0 ≤ e := by obtain ⟨a, _, h⟩ := hx; exact le_trans (abs_nonneg _) h
  have lo : ∀ Q : ℝ, 1 / 1000000 ≤ Q → 1 / 1000000 ≤ Q * M := fun Q h => by nlinarith
  have n1 := product_near hq1 h1 hx he b1 (lo _ b1) (by linarith) hM'
  have n2 := product_near hq2 h2 hy he b2 (lo _ b2) (by linarith) hM'
  have n3 := product_near hq3 h3 hz he b3 (lo _ b3) (by linarith) hM'
  have bd : ∀ {q : Rat} {p Q : ℝ}, |(q : ℝ)| ≤ Q → |p| ≤ M → |(q : ℝ) * p| ≤ Q * M := fun hq hp => by
    rw [abs_mul]; exact mul_le_mul hq hp (abs_nonneg _) (le_trans (abs_nonneg _) hq)
  have c1 := bd hq1 h1
  have c2 := bd hq2 h2
  have c3 := bd hq3 h3
  have k : ∀ Q : ℝ, 1 / 1000000 ≤ Q → Q * e ≤ Q * M / 100 ∧ 0 ≤ Q * e := fun Q h => ⟨by nlinarith, by
    have : (0 : ℝ) ≤ Q := by linarith
    positivity⟩
  have k1 := k _ b1
  have k2 := k _ b2
  have k3 := k _ b3
  have l1 := lo _ b1
  have l2 := lo _ b2
  have l3 := lo _ b3
  have hQM : Q1 * M + Q2 * M + Q3 * M ≤ 1000 := by nlinarith
  have z0 : Near (ofU8 0 : F32) 0 0 := by simpa using Near.byte 0
  have s1 : Near (ofU8 0 +. lit q1 *. x) (0 + (q1 : ℝ) * p1) (Q1 * e + 3.2 * (Q1 * M) / 16777216) :=
    Near.add (B := Q1 * M) z0 n1 l1 (by simpa using c1) (by linarith) (by linarith)
  rw [zero_add] at s1
  have a12 := abs_add_le ((q1 : ℝ) * p1) (q2 * p2)
  have s2 : Near ((ofU8 0 +. lit q1 *. x) +. lit q2 *. y) ((q1 : ℝ) * p1 + q2 * p2)
      (Q1 * e + Q2 * e + 4.3 * (Q1 * M + Q2 * M) / 16777216) :=
    Near.add (B := Q1 * M + Q2 * M) s1 n2 (by linarith) (by linarith) (by linarith) (by linarith)
  have a123 := abs_add_le ((q1 : ℝ) * p1 + q2 * p2) (q3 * p3)
  have s3 := Near.add (B := Q1 * M + Q2 * M + Q3 * M) (e' := (Q1 + Q2 + Q3) * (e + 6 * M / 16777216)) s2 n3 (by linarith) (by linarith)
    (by linarith) (by
      have : (Q1 + Q2 + Q3) * (e + 6 * M / 16777216) = Q1 * e + Q2 * e + Q3 * e + 6 * (Q1 * M + Q2 * M + Q3 * M) / 16777216 := by ring
      rw [this]; linarith)
  exact s3

/-- the XYZ coordinates of a colour given by its bytes, in exact arithmetic -/
noncomputable def exactXyz (a b c : UInt8) : ℝ × ℝ × ℝ :=
  (0.4124564 * linearValue a.toNat + 0.3575761 * linearValue b.toNat + 0.1804375 * linearValue c.toNat,
   0.2126729 * linearValue a.toNat + 0.7151522 * linearValue b.toNat + 0.0721750 * linearValue c.toNat,
   0.0193339 * linearValue a.toNat + 0.1191920 * linearValue b.toNat + 0.9503041 * linearValue c.toNat)

omit [Libm f32] in
theorem linearValue_byte (v : UInt8) : 0 ≤ linearValue v.toNat ∧ linearValue v.toNat ≤ 1 :=
  linearValue_unit (by have := v.toNat_lt; omega)

omit [Libm f32] in
theorem exactXyz_bound (a b c : UInt8) : (0 ≤ (exactXyz a b c).1 ∧ (exactXyz a b c).1 ≤ 0.9505) ∧
    (0 ≤ (exactXyz a b c).2.1 ∧ (exactXyz a b c).2.1 ≤ 1.0001) ∧ 0 ≤ (exactXyz a b c).2.2 ∧ (exactXyz a b c).2.2 ≤ 1.089 := by
  have ha := linearValue_byte a
  have hb := linearValue_byte b
  have hc := linearValue_byte c
  unfold exactXyz
  dsimp only
  refine ⟨⟨?_, ?_⟩, ⟨?_, ?_⟩, ?_, ?_⟩ <;> linarith

/-- the f32 XYZ coordinates of a colour -/
theorem toXyz_near (hp : PowAccurate) (a b c : UInt8) : ∃ x y z : F32,
    mat3 SRGB_TO_XYZ_MAT [linearizeEntry a, linearizeEntry b, linearizeEntry c] = [x, y, z] ∧
      Near x (exactXyz a b c).1 2.1e-6 ∧ Near y (exactXyz a b c).2.1 2.1e-6 ∧ Near z (exactXyz a b c).2.2 2.1e-6 := by
  have u : ∀ v : UInt8, |linearValue v.toNat| ≤ 1 := fun v => by
    rw [abs_of_nonneg (linearValue_byte v).1]; exact (linearValue_byte v).2
  refine ⟨_, _, _, rfl, ?_, ?_, ?_⟩
  · refine ((row_near (M := 1) 0.4124564 0.3575761 0.1804375 ?_ ?_ ?_ (linearize_near hp a) (linearize_near hp b) (linearize_near hp c)
      (u a) (u b) (u c) ?_ ?_ ?_ ?_ ?_ ?_ ?_).mono ?_).of_eq ?_
    all_goals norm_num [abs_of_pos, exactXyz]
  · refine ((row_near (M := 1) 0.2126729 0.7151522 0.0721750 ?_ ?_ ?_ (linearize_near hp a) (linearize_near hp b) (linearize_near hp c)
      (u a) (u b) (u c) ?_ ?_ ?_ ?_ ?_ ?_ ?_).mono ?_).of_eq ?_
    all_goals norm_num [abs_of_pos, exactXyz]
  · refine ((row_near (M := 1) 0.0193339 0.1191920 0.9503041 ?_ ?_ ?_ (linearize_near hp a) (linearize_near hp b) (linearize_near hp c)
      (u a) (u b) (u c) ?_ ?_ ?_ ?_ ?_ ?_ ?_).mono ?_).of_eq ?_
    all_goals norm_num [abs_of_pos, exactXyz]

/-- f32 numbers within 1.5e-5 of the XYZ coordinates of a colour are converted to that colour, up to one level -/
theorem fromXyz_near (hp : PowAccurate) (a b c : UInt8) {x y z : F32} (hx : Near x (exactXyz a b c).1 1.5e-5)
    (hy : Near y (exactXyz a b c).2.1 1.5e-5) (hz : Near z (exactXyz a b c).2.2 1.5e-5) :
    List.Forall₂ SameOrOneBelow [a, b, c] ((mat3 XYZ_TO_SRGB_MAT [x, y, z]).map unlinearizeEntry) := by
  obtain ⟨⟨x0, x1⟩, ⟨y0, y1⟩, z0, z1⟩ := exactXyz_bound a b c
  have ux : |(exactXyz a b c).1| ≤ 1.09 := by rw [abs_of_nonneg x0]; linarith
  have uy : |(exactXyz a b c).2.1| ≤ 1.09 := by rw [abs_of_nonneg y0]; linarith
  have uz : |(exactXyz a b c).2.2| ≤ 1.09 := by rw [abs_of_nonneg z0]; linarith
  have ha := linearValue_byte a
  have hb := linearValue_byte b
  have hc := linearValue_byte c
  have shift : ∀ {w : F32} {r s : ℝ}, Near w r 8.5e-5 → |r - s| ≤ 1e-6 → Near w s 9e-5 := by
    rintro w r s ⟨q, hq, h1⟩ h2
    refine ⟨q, hq, ?_⟩
    have := abs_add_le ((q : ℝ) - r) (r - s)
    rw [sub_add_sub_cancel] at this
    linarith
  refine .cons (unlinearize_near32 hp a (shift (r := 3.2404542 * (exactXyz a b c).1 + -1.5371385 * (exactXyz a b c).2.1 + -0.4985314 * (exactXyz a b c).2.2) ?_ ?_))
    (.cons (unlinearize_near32 hp b (shift (r := -0.9692660 * (exactXyz a b c).1 + 1.8760108 * (exactXyz a b c).2.1 + 0.0415560 * (exactXyz a b c).2.2) ?_ ?_))
    (.cons (unlinearize_near32 hp c (shift (r := 0.0556434 * (exactXyz a b c).1 + -0.2040259 * (exactXyz a b c).2.1 + 1.0572252 * (exactXyz a b c).2.2) ?_ ?_)) .nil))
  · refine ((row_near (M := 1.09) 3.2404542 1.5371385 0.4985314 ?_ ?_ ?_ hx hy hz ux uy uz ?_ ?_ ?_ ?_ ?_ ?_ ?_).mono ?_).of_eq ?_
    all_goals norm_num [abs_of_pos]
  · unfold exactXyz; dsimp only; rw [abs_le]; constructor <;> linarith
  · refine ((row_near (M := 1.09) 0.9692660 1.8760108 0.0415560 ?_ ?_ ?_ hx hy hz ux uy uz ?_ ?_ ?_ ?_ ?_ ?_ ?_).mono ?_).of_eq ?_
    all_goals norm_num [abs_of_pos]
  · unfold exactXyz; dsimp only; rw [abs_le]; constructor <;> linarith
  · refine ((row_near (M := 1.09) 0.0556434 0.2040259 1.0572252 ?_ ?_ ?_ hx hy hz ux uy uz ?_ ?_ ?_ ?_ ?_ ?_ ?_).mono ?_).of_eq ?_
    all_goals norm_num [abs_of_pos]
  · unfold exactXyz; dsimp only; rw [abs_le]; constructor <;> linarith
end
end Imgproc

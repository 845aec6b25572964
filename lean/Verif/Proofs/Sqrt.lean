import Verif.Proofs.IEEE
import Verif.Proofs.Loops
import Mathlib.Data.Nat.Sqrt
import Mathlib.Tactic.IntervalCases
/-! The IEEE square root on integers: exact on perfect squares, never an integer otherwise. -/
namespace Imgproc
open FloatOps

section
variable {f : Fmt}

/-- the grid exponent of `sqrtApprox` -/
def sqrtExp (f : Fmt) (q : Rat) : Int := (ilog2 q) / 2 - (f.p + 1)

theorem sqrtApprox_cases {q : Rat} (hq : 0 < q) :
    ∃ t : Nat, (((t : Rat) * pow2 (sqrtExp f q)) ^ 2 = q ∧ FP.sqrtApprox f q = t * pow2 (sqrtExp f q)) ∨
      (((t : Rat) * pow2 (sqrtExp f q)) ^ 2 < q ∧ q < (((t : Rat) + 1) * pow2 (sqrtExp f q)) ^ 2 ∧
        FP.sqrtApprox f q = ((t : Rat) + 1 / 2) * pow2 (sqrtExp f q)) := by
  unfold FP.sqrtApprox
  change ∃ t : Nat, _ ∨ _
  generalize hE : pow2 (sqrtExp f q) = E
  have hE' : pow2 (ilog2 q / 2 - ((f.p : Int) + 1)) = E := hE
  simp only [hE']
  have hEp : 0 < E := by rw [← hE]; exact pow2_pos _
  have hQ : 0 < q / (E * E) := by positivity
  have hT : 0 ≤ (q / (E * E)).floor := rat_le_floor.2 (by simpa using hQ.le)
  obtain ⟨T, hT'⟩ := Int.eq_ofNat_of_zero_le hT
  rw [hT', Int.toNat_natCast]
  refine ⟨Nat.sqrt T, ?_⟩
  have h1 : (T : Rat) ≤ q / (E * E) := by
    have := rat_floor_le (q / (E * E)); rw [hT'] at this; exact_mod_cast this
  have h2 : q / (E * E) < (T : Rat) + 1 := by
    have := rat_lt_floor (q / (E * E)); rw [hT'] at this; exact_mod_cast this
  have h3 : Nat.sqrt T * Nat.sqrt T ≤ T := Nat.sqrt_le T
  have h4 : T + 1 ≤ (Nat.sqrt T + 1) * (Nat.sqrt T + 1) := Nat.succ_le_of_lt (Nat.lt_succ_sqrt T)
  generalize Nat.sqrt T = t at *
  have h3' : (t : Rat) * t ≤ T := by exact_mod_cast h3
  have h4' : (T : Rat) + 1 ≤ ((t : Rat) + 1) * (t + 1) := by exact_mod_cast h4
  have e1 : q / (E * E) * (E * E) = q := div_mul_cancel₀ _ (by positivity)
  by_cases hc : (t : Rat) * t * (E * E) = q
  · left
    rw [if_pos hc]
    exact ⟨by rw [← hc]; ring, rfl⟩
  · right
    rw [if_neg hc]
    have h5 : (t : Rat) * t * (E * E) ≤ q := by
      rw [← e1]; exact mul_le_mul_of_nonneg_right (h3'.trans h1) (by positivity)
    refine ⟨?_, ?_, rfl⟩
    · rw [show ((t : Rat) * E) ^ 2 = (t : Rat) * t * (E * E) by ring]
      exact lt_of_le_of_ne h5 hc
    · rw [show (((t : Rat) + 1) * E) ^ 2 = (((t : Rat) + 1) * (t + 1)) * (E * E) by ring, ← e1]
      exact mul_lt_mul_of_pos_right (h2.trans_le h4') (by positivity)

theorem sq_lt_iff {a b E : Rat} (ha : 0 ≤ a) (hb : 0 ≤ b) (hE : 0 < E) : (a * E) ^ 2 < (b * E) ^ 2 ↔ a < b := by
  rw [pow_lt_pow_iff_left₀ (by positivity) (by positivity) (by decide)]
  exact mul_lt_mul_iff_left₀ hE

/-- comparison of the approximate root with a point of its grid -/
theorem sqrtApprox_lt {q : Rat} (hq : 0 < q) (k : Nat) (h : ((k : Rat) * pow2 (sqrtExp f q)) ^ 2 < q) :
    (k : Rat) * pow2 (sqrtExp f q) < FP.sqrtApprox f q := by
  have hEp := pow2_pos (sqrtExp f q)
  obtain ⟨t, ht⟩ := sqrtApprox_cases (f := f) hq
  generalize pow2 (sqrtExp f q) = E at *
  obtain ⟨h1, h2⟩ | ⟨h1, h2, h3⟩ := ht
  · rw [h2]
    rw [← h1] at h
    exact mul_lt_mul_of_pos_right ((sq_lt_iff (Nat.cast_nonneg _) (by positivity) hEp).1 h) hEp
  · rw [h3]
    have := (sq_lt_iff (Nat.cast_nonneg _) (by positivity) hEp).1 (h.trans h2)
    have : k < t + 1 := by exact_mod_cast this
    have : (k : Rat) ≤ t := by exact_mod_cast Nat.lt_succ_iff.1 this
    exact mul_lt_mul_of_pos_right (by linarith) hEp

theorem lt_sqrtApprox {q : Rat} (hq : 0 < q) (k : Nat) (h : q < ((k : Rat) * pow2 (sqrtExp f q)) ^ 2) :
    FP.sqrtApprox f q < (k : Rat) * pow2 (sqrtExp f q) := by
  have hEp := pow2_pos (sqrtExp f q)
  obtain ⟨t, ht⟩ := sqrtApprox_cases (f := f) hq
  generalize pow2 (sqrtExp f q) = E at *
  obtain ⟨h1, h2⟩ | ⟨h1, h2, h3⟩ := ht
  · rw [h2]
    rw [← h1] at h
    exact mul_lt_mul_of_pos_right ((sq_lt_iff (Nat.cast_nonneg _) (by positivity) hEp).1 h) hEp
  · rw [h3]
    have := (sq_lt_iff (Nat.cast_nonneg _) (by positivity) hEp).1 (h1.trans h)
    have : t < k := by exact_mod_cast this
    have : (t : Rat) + 1 ≤ k := by exact_mod_cast this
    exact mul_lt_mul_of_pos_right (by linarith) hEp

theorem sqrtApprox_sq {q : Rat} (hq : 0 < q) (k : Nat) (h : ((k : Rat) * pow2 (sqrtExp f q)) ^ 2 = q) :
    FP.sqrtApprox f q = (k : Rat) * pow2 (sqrtExp f q) := by
  have hEp := pow2_pos (sqrtExp f q)
  obtain ⟨t, ht⟩ := sqrtApprox_cases (f := f) hq
  generalize pow2 (sqrtExp f q) = E at *
  obtain ⟨h1, h2⟩ | ⟨h1, h2, h3⟩ := ht
  · rw [h2]
    rw [← h1] at h
    rw [pow_left_inj₀ (by positivity) (by positivity) (by decide)] at h
    exact h.symm
  · rw [← h] at h1 h2
    have a1 := (sq_lt_iff (Nat.cast_nonneg _) (by positivity) hEp).1 h1
    have a2 := (sq_lt_iff (Nat.cast_nonneg k) (by positivity) hEp).1 h2
    have a1 : t < k := by exact_mod_cast a1
    have a2 : k < t + 1 := by exact_mod_cast a2
    omega

/-- the same for any nonnegative multiple `m * 2^d` with `d` at least the grid exponent -/
theorem grid_mul {e d : Int} (h : e ≤ d) (m : Nat) : ∃ k : Nat, (m : Rat) * pow2 d = (k : Rat) * pow2 e := by
  refine ⟨m * 2 ^ (d - e).toNat, ?_⟩
  have : pow2 d = pow2 (d - e) * pow2 e := by rw [← pow2_add]; congr 1; omega
  rw [this, pow2_int (by omega)]
  push_cast; ring

theorem ilog2_lt {q : Rat} (hq : 0 < q) {n : Int} (h : q < pow2 n) : ilog2 q < n :=
  pow2_lt.1 (lt_of_le_of_lt (ilog2_spec hq).1 h)

theorem sqrt_is [Libm f] {x : Flt f} {q : Rat} (hx : x.Is q) (hq : 0 < q)
    (h : |f.rnd (FP.sqrtApprox f q)| < pow2 f.emax) : (FloatOps.sqrt x).Is (f.rnd (FP.sqrtApprox f q)) := by
  show (FP.sqrt f x.val).toQ? = _
  rw [hx.eq_fin hq.ne']
  unfold FP.sqrt
  simp only
  rw [if_neg (by linarith), if_neg hq.ne']
  exact FP.round_is h

theorem sqrt_zero_is [Libm f] {x : Flt f} (hx : x.Is 0) : (FloatOps.sqrt x).Is 0 := by
  show (FP.sqrt f x.val).toQ? = _
  rcases FP.toQ?_cases hx with h | ⟨h, -⟩ <;> rw [h] <;> unfold FP.sqrt
  · simp [FP.toQ?]
  · rfl
end

variable [Libm f32]

omit [Libm f32] in
theorem f32_p : (f32.p : Int) = 24 := rfl

omit [Libm f32] in
theorem sqrtExp_le {q : Rat} (hq : 0 < q) (h : q < 2 ^ 26) : sqrtExp f32 q ≤ -13 := by
  have := ilog2_lt (n := 26) hq (by rw [pow2_eq]; exact_mod_cast h)
  unfold sqrtExp
  rw [f32_p]; omega

/-- f32 square roots of perfect squares up to 2^24 are exact -/
theorem sqrt_square {x : F32} {k : Nat} (hk : k ≤ 4096) (hx : x.Is ((k * k : Nat) : Rat)) :
    (FloatOps.sqrt x).Is (k : Rat) := by
  rcases Nat.eq_zero_or_pos k with rfl | h0
  · rw [Nat.mul_zero] at hx; exact_mod_cast sqrt_zero_is (by exact_mod_cast hx)
  have hq : (0 : Rat) < ((k * k : Nat) : Rat) := by exact_mod_cast Nat.mul_pos h0 h0
  have hq2 : ((k * k : Nat) : Rat) < 2 ^ 26 := by
    have : k * k ≤ 4096 * 4096 := Nat.mul_le_mul hk hk
    have : k * k < 2 ^ 26 := by omega
    exact_mod_cast this
  obtain ⟨m, hm⟩ := grid_mul (d := 0) (show sqrtExp f32 ((k * k : Nat) : Rat) ≤ 0 by
    have := sqrtExp_le hq hq2; omega) k
  rw [show pow2 0 = 1 by decide +kernel, mul_one] at hm
  have e := sqrtApprox_sq (f := f32) hq m (by rw [← hm]; push_cast; ring)
  rw [← hm] at e
  have hex : f32.Exact ((k : Nat) : Rat) := f32_nat (by omega)
  have := sqrt_is hx hq (by rw [e, hex.rnd]; exact hex.2)
  rwa [e, hex.rnd] at this

/-- between two consecutive squares the f32 root lies strictly between the two integers -/
theorem sqrt_nonsquare {x : F32} {n m : Nat} (hx : x.Is (n : Rat)) (hm : m ≤ 4095) (h1 : m * m < n)
    (h2 : n < (m + 1) * (m + 1)) :
    ∃ r : Rat, (FloatOps.sqrt x).Is r ∧ (m : Rat) < r ∧ r < m + 1 := by
  have hq : (0 : Rat) < (n : Rat) := by exact_mod_cast (show 0 < n by omega)
  have hmm : m * m ≤ 4095 * 4095 := Nat.mul_le_mul hm hm
  have hq2 : (n : Rat) < 2 ^ 26 := by
    have : (m + 1) * (m + 1) ≤ 4096 * 4096 := Nat.mul_le_mul (by omega) (by omega)
    have : n < 2 ^ 26 := by omega
    exact_mod_cast this
  have hm' : (m : Rat) ≤ 4095 := by exact_mod_cast hm
  have hm0 : (0 : Rat) ≤ m := by positivity
  have h1' : (m : Rat) * m + 1 ≤ n := by exact_mod_cast h1
  have h2' : (n : Rat) + 1 ≤ (m + 1) * (m + 1) := by exact_mod_cast h2
  have he := sqrtExp_le hq hq2
  have p13 : pow2 (-13) = 1 / 8192 := by decide +kernel
  have lo : (m : Rat) + 1 / 8192 < FP.sqrtApprox f32 n := by
    obtain ⟨k, hk⟩ := grid_mul he (m * 8192 + 1)
    rw [p13] at hk
    have := sqrtApprox_lt (f := f32) hq k (by rw [← hk]; push_cast; nlinarith)
    rw [← hk] at this; push_cast at this; linarith
  have hi : FP.sqrtApprox f32 n < (m : Rat) + 1 - 1 / 8192 := by
    obtain ⟨k, hk⟩ := grid_mul he (m * 8192 + 8191)
    rw [p13] at hk
    have := lt_sqrtApprox (f := f32) hq k (by rw [← hk]; push_cast; nlinarith)
    rw [← hk] at this; push_cast at this; linarith
  have his := fun h => sqrt_is (f := f32) hx hq h
  generalize FP.sqrtApprox f32 n = v at *
  have p12 : pow2 (-12) = 1 / 4096 := by decide +kernel
  have rep : ∀ j : Nat, j ≤ 2 ^ 24 → RepQ f32.toRFmt ((j : Rat) / 4096) := by
    intro j hj
    have := RepQ.dyadic (f := f32.toRFmt) (m := (j : Int)) (e := -12) (by
      rw [abs_of_nonneg (by positivity)]; exact_mod_cast hj) (by decide)
    rw [p12] at this
    rwa [show ((j : Nat) : Int) * (1 / 4096 : Rat) = (j : Rat) / 4096 by push_cast; ring] at this
  have rl := rep (m * 4096 + 1) (by omega)
  have rh := rep (m * 4096 + 4095) (by omega)
  have r0 := rep (m * 4096) (by omega)
  have r1 := rep ((m + 1) * 4096) (by omega)
  push_cast at rl rh r0 r1
  have nl := rndQ_nearest (f := f32.toRFmt) v rl
  have nh := rndQ_nearest (f := f32.toRFmt) v rh
  have g0 := le_rndQ (f := f32.toRFmt) r0 (show ((m : Rat) * 4096) / 4096 ≤ v by linarith)
  have g1 := rndQ_le (f := f32.toRFmt) r1 (show v ≤ (((m : Rat) + 1) * 4096) / 4096 by linarith)
  have hov : |f32.rnd v| < pow2 f32.emax := f32_ovf (by rw [abs_of_nonneg (by linarith)]; linarith)
  refine ⟨_, his hov, lt_of_le_of_ne (by show (m : Rat) ≤ rndQ f32.toRFmt v; linarith) fun hc => ?_, lt_of_le_of_ne (by show rndQ f32.toRFmt v ≤ _; linarith) fun hc => ?_⟩
  · have hc' : rndQ f32.toRFmt v = m := hc.symm
    rw [hc', abs_of_neg (show (m : Rat) - v < 0 by linarith)] at nl
    rcases abs_cases (((m : Rat) * 4096 + 1) / 4096 - v) with ⟨e, _⟩ | ⟨e, _⟩ <;> rw [e] at nl <;> linarith
  · have hc' : rndQ f32.toRFmt v = m + 1 := hc
    rw [hc', abs_of_pos (show 0 < (m : Rat) + 1 - v by linarith)] at nh
    rcases abs_cases (((m : Rat) * 4096 + 4095) / 4096 - v) with ⟨e, _⟩ | ⟨e, _⟩ <;> rw [e] at nh <;> linarith

omit [Libm f32] in
theorem truncQ_between {r : Rat} {m : Nat} (h1 : (m : Rat) < r) (h2 : r < m + 1) : FP.truncQ r = m := by
  have : (0 : Rat) ≤ m := by positivity
  rw [truncQ_nonneg (by linarith)]
  exact rat_floor_eq_iff.2 ⟨by exact_mod_cast h1.le, by exact_mod_cast h2⟩

/-- `r - trunc r` cannot be rounded to zero when `r` is not an integer (f32) -/
theorem rem_one_ne {x : F32} {r : Rat} {m : Nat} (hx : x.Is r) (h1 : (m : Rat) < r) (h2 : r < m + 1) :
    (FloatOps.rem x (num 1) ==. num 0) = false := by
  have e : r - (FP.truncQ (r / ((1 : Int) : Rat)) : Rat) * ((1 : Int) : Rat) = r - m := by
    rw [Int.cast_one, div_one, mul_one, truncQ_between h1 h2]; push_cast; ring
  have hpos : 0 < r - m := by linarith
  have hr := rem_is hx (num32 (n := 1) (by decide)) (by norm_num) (by
    rw [e]; exact f32_ovf (by rw [abs_of_pos hpos]; linarith))
  rw [e] at hr
  rw [eq_is hr (num32 (n := 0) (by decide))]
  simp only [Int.cast_zero, decide_eq_false_iff_not]
  -- r - m is a positive multiple of 2^emin, hence on the grid or larger than the least positive value
  have hrep := hx.exact.1
  obtain ⟨k, e', hr', hk, he⟩ := hrep
  have hge : pow2 f32.emin ≤ r - m := by
    have hmul : ∃ z : Int, r - m = z * pow2 f32.emin := by
      refine ⟨k * 2 ^ (e' - f32.emin).toNat - m * 2 ^ (-f32.emin).toNat, ?_⟩
      have a1 : pow2 e' = pow2 (e' - f32.emin) * pow2 f32.emin := by rw [← pow2_add]; congr 1; omega
      have a2 : pow2 (-f32.emin) * pow2 f32.emin = 1 := by rw [← pow2_add]; simp [pow2]
      rw [hr', a1, pow2_int (show 0 ≤ e' - f32.emin by omega)]
      rw [pow2_int (show 0 ≤ -f32.emin by decide)] at a2
      push_cast at a2 ⊢
      rw [sub_mul, mul_assoc (m : Rat), a2]; ring
    obtain ⟨z, hz⟩ := hmul
    have hp := pow2_pos f32.emin
    have : 0 < z := by
      rw [hz] at hpos
      have := (mul_pos_iff_of_pos_right hp).1 hpos
      exact_mod_cast this
    have : (1 : Rat) ≤ z := by exact_mod_cast this
    rw [hz]; nlinarith
  have := le_rndQ (f := f32.toRFmt) (q := r - m) (RepQ.dyadic (f := f32.toRFmt) (m := 1) (e := f32.emin) (by decide) (le_refl _))
    (by rw [Int.cast_one, one_mul]; exact hge)
  rw [Int.cast_one, one_mul] at this
  have hp := pow2_pos f32.emin
  exact (lt_of_lt_of_le hp this).ne'

/-- **`check_square`** accepts exactly the perfect squares (up to 2^24) -/
theorem checkSquare_sq {k : Nat} (hk : k ≤ 4096) : checkSquare (ofNat (k * k) : F32) = .ok () := by
  have hkk : k * k ≤ 4096 * 4096 := Nat.mul_le_mul hk hk
  have h := sqrt_square hk (nat32 (n := k * k) (by omega))
  unfold checkSquare
  have e : (k : Rat) - (FP.truncQ ((k : Rat) / ((1 : Int) : Rat)) : Rat) * ((1 : Int) : Rat) = 0 := by
    rw [Int.cast_one, div_one, mul_one, truncQ_nat]; push_cast; ring
  have hr := rem_is h (num32 (n := 1) (by decide)) (by norm_num) (by rw [e]; exact f32_ovf (by norm_num))
  rw [e, Fmt.rnd, rndQ_zero] at hr
  rw [eq_is hr (num32 (n := 0) (by decide))]
  simp

theorem checkSquare_nonsq {n : Nat} (hn : n ≤ 16777216) (h : ∀ k : Nat, k * k ≠ n) :
    checkSquare (ofNat n : F32) = invalidArg := by
  have h1 : Nat.sqrt n * Nat.sqrt n < n := lt_of_le_of_ne (Nat.sqrt_le n) (h _)
  have h2 : n < (Nat.sqrt n + 1) * (Nat.sqrt n + 1) := Nat.lt_succ_sqrt n
  have hm : Nat.sqrt n ≤ 4095 := by
    by_contra hc
    have : 4096 * 4096 ≤ Nat.sqrt n * Nat.sqrt n := Nat.mul_le_mul (by omega) (by omega)
    omega
  obtain ⟨r, hr, a, b⟩ := sqrt_nonsquare (nat32 (n := n) hn) hm h1 h2
  unfold checkSquare
  rw [rem_one_ne hr a b]; rfl

theorem toU32_sqrt {k : Nat} (hk : k ≤ 4096) : toU32 (FloatOps.sqrt (ofNat (k * k) : F32)) = k := by
  have hkk : k * k ≤ 4096 * 4096 := Nat.mul_le_mul hk hk
  have h := sqrt_square hk (nat32 (n := k * k) (by omega))
  unfold toU32
  rw [toInt_is h, truncQ_nat]; omega
theorem toUsize_sqrt {k : Nat} (hk : k ≤ 4096) : toUsize (FloatOps.sqrt (ofNat (k * k) : F32)) = k := by
  have hkk : k * k ≤ 4096 * 4096 := Nat.mul_le_mul hk hk
  have h := sqrt_square hk (nat32 (n := k * k) (by omega))
  unfold toUsize
  rw [toInt_is h, truncQ_nat]; omega
end Imgproc

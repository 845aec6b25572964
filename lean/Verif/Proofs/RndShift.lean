import Verif.Props.Dyadic
/-! Rounding to f32 across integers. -/
namespace Imgproc
open FloatOps

/-! ### rounding near integers -/

theorem le_roundHalfEven {x : Rat} {M : Int} (hM : M % 2 = 0) (h : (M : Rat) - 1 / 2 ≤ x) : M ≤ roundHalfEven x := by
  have h1 := rat_floor_le x
  have h2 := rat_lt_floor x
  have hf : M - 1 ≤ x.floor := by
    have : ((M - 1 : Int) : Rat) ≤ x := by push_cast; linarith
    exact rat_le_floor.2 this
  unfold roundHalfEven
  dsimp only
  rcases eq_or_lt_of_le hf with e | hlt
  · rw [← e]
    push_cast
    rw [if_neg (by linarith)]
    split
    · omega
    · rw [if_neg (by omega)]; omega
  · split
    · omega
    · split
      · omega
      · split <;> omega

/-- numbers at most half a unit below a multiple of two units are not rounded below it -/
theorem rnd_up_even {q : Rat} {k M : Int} (hk : -149 ≤ k) (h1 : pow2 (k + 23) ≤ q) (h2 : q < pow2 (k + 24)) (hM : M % 2 = 0)
    (h : ((M : Rat) - 1 / 2) * pow2 k ≤ q) : (M : Rat) * pow2 k ≤ f32.rnd q := by
  have q0 : 0 < q := lt_of_lt_of_le (pow2_pos _) h1
  obtain ⟨s1, s2⟩ := ilog2_spec q0
  have a1 := pow2_lt.1 (lt_of_le_of_lt s1 h2)
  have a2 := pow2_lt.1 (lt_of_le_of_lt h1 s2)
  have hu : ulpExp f32.toRFmt q = k := by
    unfold ulpExp
    rw [abs_of_pos q0]
    show max (ilog2 q - ((24 : Nat) - 1)) (-149) = k
    push_cast
    omega
  have kp := pow2_pos k
  show _ ≤ rndQ f32.toRFmt q
  unfold rndQ
  rw [if_neg q0.ne']
  dsimp only
  rw [hu]
  refine mul_le_mul_of_nonneg_right ?_ kp.le
  have : M ≤ roundHalfEven (q / pow2 k) := le_roundHalfEven hM (by rw [le_div_iff₀ kp]; exact h)
  exact_mod_cast this

/-- numbers more than half a unit below `r` are rounded below it -/
theorem rnd_dn {q r u : Rat} (hu : 0 < u) (hr : f32.Exact (r - u)) (h : q < r - u / 2) : f32.rnd q < r := by
  rcases le_or_gt q (r - u) with hq | hq
  · have : f32.rnd q ≤ r - u := rndQ_le hr.1 hq
    linarith
  · have := rndQ_nearest (f := f32.toRFmt) q hr.1
    rw [abs_of_nonpos (show r - u - q ≤ 0 by linarith)] at this
    have h2 := le_abs_self (rndQ f32.toRFmt q - q)
    show rndQ f32.toRFmt q < r
    linarith

theorem pow2_neg_nat (t : Nat) : pow2 (-(t : Int)) = 1 / 2 ^ t := by
  rw [pow2_eq, zpow_neg, zpow_natCast, one_div]

/-- one more before rounding is at least one more after, across integers -/
theorem rnd_shift {q : Rat} {m : Nat} (h1 : 1 ≤ m) (hm : m ≤ 4194304) (h : (m : Rat) ≤ f32.rnd (q - 1)) :
    (m : Rat) + 1 ≤ f32.rnd q := by
  have hN : f32.Exact ((m : Rat) + 1) := by
    have := f32_nat (n := m + 1) (by omega)
    push_cast at this; exact this
  rcases le_or_gt ((m : Rat) + 1) q with hq | hq
  · exact le_rndQ hN.1 hq
  obtain ⟨j, t, ht, hj1, hj2, ht1⟩ : ∃ j t : Nat, j + t = 23 ∧ 2 ^ j ≤ m ∧ m < 2 ^ (j + 1) ∧ 1 ≤ t := by
    have a := Nat.log2_self_le (n := m) (by omega)
    have b := Nat.lt_log2_self (n := m)
    have c : Nat.log2 m ≤ 22 := by
      by_contra hc
      have : 2 ^ 23 ≤ 2 ^ Nat.log2 m := Nat.pow_le_pow_right (by omega) (by omega)
      omega
    exact ⟨Nat.log2 m, 23 - Nat.log2 m, by omega, a, b, by omega⟩
  have p0 : (0 : Rat) < 2 ^ t := by positivity
  have p1 : (1 : Rat) ≤ 2 ^ t := one_le_pow₀ (by norm_num)
  have u0 : (0 : Rat) < 1 / 2 ^ t := by positivity
  have u1 : (1 : Rat) / 2 ^ t ≤ 1 := (div_le_one p0).2 p1
  rcases lt_or_ge q ((m : Rat) + 1 - 1 / 2 ^ t / 2) with hlow | hhigh
  · exfalso
    have hr : f32.Exact ((m : Rat) - 1 / 2 ^ t) := by
      have e : (m : Rat) - 1 / 2 ^ t = ((m * 2 ^ t - 1 : Int) : Rat) / 2 ^ t := by
        push_cast; field_simp
      rw [e]
      refine f32_dy ?_ (by omega)
      have h3 : m * 2 ^ t < 2 ^ (j + 1) * 2 ^ t := Nat.mul_lt_mul_of_pos_right hj2 (by positivity)
      rw [← pow_add, show j + 1 + t = 24 by omega] at h3
      have h4 : (1 : Nat) * 1 ≤ m * 2 ^ t := Nat.mul_le_mul h1 Nat.one_le_two_pow
      have h5 : ((m * 2 ^ t : Nat) : Int) = (m : Int) * 2 ^ t := by push_cast; ring
      rw [abs_of_nonneg (by omega)]
      omega
    have := rnd_dn (q := q - 1) u0 hr (by linarith)
    linarith
  · have hk : ((-(t : Int)) + 23) = (j : Int) := by omega
    have hk' : ((-(t : Int)) + 24) = ((j + 1 : Nat) : Int) := by omega
    have m' : ((2 ^ j : Nat) : Rat) ≤ m := by exact_mod_cast hj1
    have m'' : (m : Rat) + 1 ≤ ((2 ^ (j + 1) : Nat) : Rat) := by exact_mod_cast hj2
    have := rnd_up_even (q := q) (k := -(t : Int)) (M := (m + 1) * 2 ^ t) (by omega) (by rw [hk, pow2_natCast]; linarith)
      (by rw [hk', pow2_natCast]; linarith)
      (by obtain ⟨s, rfl⟩ : ∃ s, t = s + 1 := ⟨t - 1, by omega⟩
          rw [pow_succ, ← mul_assoc]; omega)
      (by rw [pow2_neg_nat]; push_cast
          have : (((m : Rat) + 1) * 2 ^ t - 1 / 2) * (1 / 2 ^ t) = (m : Rat) + 1 - 1 / 2 ^ t / 2 := by field_simp
          rw [this]; exact hhigh)
    rw [pow2_neg_nat] at this
    push_cast at this
    rwa [mul_assoc, mul_one_div, div_self p0.ne', mul_one] at this

/-- the same with a little slack, for one and two -/
theorem rnd_shift_small {q q' : Rat} {m : Nat} (hm : m = 1 ∨ m = 2) (h : (m : Rat) ≤ f32.rnd q') (hq : q' ≤ q - 1 + 1 / 2 ^ 25) :
    (m : Rat) + 1 ≤ f32.rnd q := by
  rcases hm with rfl | rfl
  · have h1 : (1 : Rat) - 1 / 2 ^ 24 / 2 ≤ q' := by
      by_contra hc
      have := rnd_dn (q := q') (r := 1) (u := 1 / 2 ^ 24) (by norm_num)
        (by have := f32_dy (m := 16777215) (k := 24) (by decide) (by omega); norm_num at this ⊢; exact this) (by linarith)
      push_cast at h; linarith
    rcases le_or_gt (2 : Rat) q with h2 | h2
    · push_cast
      have : (2 : Rat) ≤ f32.rnd q := le_rndQ (by simpa using (f32_nat (n := 2) (by omega)).1) h2
      linarith
    · have := rnd_up_even (q := q) (k := -23) (M := 16777216) (by omega) (by norm_num [pow2]; norm_num at h1 hq; linarith)
        (by norm_num [pow2]; exact h2) (by decide) (by rw [show pow2 (-23) = 1 / 8388608 by rw [pow2_eq]; norm_num]; norm_num at h1 hq ⊢; linarith)
      rw [show pow2 (-23) = 1 / 8388608 by rw [pow2_eq]; norm_num] at this
      norm_num at this ⊢
      linarith
  · have h1 : (2 : Rat) - 1 / 2 ^ 23 / 2 ≤ q' := by
      by_contra hc
      have := rnd_dn (q := q') (r := 2) (u := 1 / 2 ^ 23) (by norm_num)
        (by have := f32_dy (m := 16777215) (k := 23) (by decide) (by omega); norm_num at this ⊢; exact this) (by linarith)
      push_cast at h; linarith
    rcases le_or_gt (3 : Rat) q with h2 | h2
    · push_cast
      have : (3 : Rat) ≤ f32.rnd q := le_rndQ (by simpa using (f32_nat (n := 3) (by omega)).1) h2
      linarith
    · have := rnd_up_even (q := q) (k := -22) (M := 12582912) (by omega) (by norm_num [pow2]; norm_num at h1 hq; linarith)
        (by norm_num [pow2]; linarith) (by decide) (by rw [show pow2 (-22) = 1 / 4194304 by rw [pow2_eq]; norm_num]; norm_num at h1 hq ⊢; linarith)
      rw [show pow2 (-22) = 1 / 4194304 by rw [pow2_eq]; norm_num] at this
      norm_num at this ⊢
      linarith

/-- subtracting one from a number of at least one half is exact -/
theorem sub_one_exact {x : Rat} (h : f32.Exact x) (h1 : 1 / 2 ≤ x) (h2 : x ≤ 16777216) : f32.Exact (x - 1) := by
  obtain ⟨⟨m, e, rfl, hm, -⟩, -⟩ := h
  have hm' : |m| ≤ 16777216 := by simpa [f32] using hm
  rcases le_or_gt 0 e with he | he
  · rw [pow2_int he] at *
    have := f32_int (n := m * 2 ^ e.toNat - 1) (by
      have a1 : (1 : Rat) / 2 ≤ ((m * 2 ^ e.toNat : Int) : Rat) := by push_cast; push_cast at h1; exact h1
      have a2 : ((m * 2 ^ e.toNat : Int) : Rat) ≤ (16777216 : Int) := by push_cast; push_cast at h2; exact h2
      have a3 : (0 : Rat) < ((m * 2 ^ e.toNat : Int) : Rat) := lt_of_lt_of_le (by norm_num) a1
      have a4 : 0 < m * 2 ^ e.toNat := by exact_mod_cast a3
      have a5 : m * 2 ^ e.toNat ≤ 16777216 := by exact_mod_cast a2
      rw [abs_le]; omega)
    push_cast at this ⊢
    exact this
  · obtain ⟨t, rfl⟩ : ∃ t : Nat, e = -(t : Int) := ⟨(-e).toNat, by omega⟩
    rw [pow2_neg_nat] at *
    have p0 : (0 : Rat) < 2 ^ t := by positivity
    have h3 : (2 : Rat) ^ t ≤ 2 * m := by
      rw [mul_one_div, le_div_iff₀ p0] at h1
      linarith
    have h4 : (2 : Int) ^ t ≤ 2 * m := by exact_mod_cast h3
    have ht : t ≤ 100 := by
      by_contra hc
      have : (2 : Int) ^ 101 ≤ 2 ^ t := pow_le_pow_right₀ (by norm_num) (by omega)
      rw [abs_le] at hm'
      norm_num at this
      omega
    have e : (m : Rat) * (1 / 2 ^ t) - 1 = ((m - 2 ^ t : Int) : Rat) / 2 ^ t := by
      push_cast; field_simp
    rw [e]
    refine f32_dy ?_ ht
    have : (0 : Int) < 2 ^ t := by positivity
    rw [abs_le] at hm' ⊢
    omega

/-- subtracting one from a number between zero and one is accurate to `2^-25` -/
theorem sub_one_near {x : Rat} (h0 : 0 ≤ x) (h1 : x ≤ 1) : |f32.rnd (x - 1) - (x - 1)| ≤ 1 / 2 ^ 25 := by
  rcases eq_or_lt_of_le h0 with rfl | hpos
  · have : f32.rnd (0 - 1) = 0 - 1 := by
      have := (f32_int (n := -1) (by decide)).rnd
      norm_num at this ⊢; exact this
    rw [this]; norm_num
  rcases eq_or_lt_of_le h1 with rfl | hlt
  · rw [sub_self, show f32.rnd 0 = 0 from rndQ_zero _]; norm_num
  have hne : x - 1 ≠ 0 := by linarith [hlt] |> fun h : x - 1 < 0 => h.ne
  refine le_trans (rndQ_err_ulp (f := f32.toRFmt) hne) ?_
  have e : (1 : Rat) / 2 ^ 25 = pow2 (-25) := by rw [pow2_eq]; norm_num
  rw [e, pow2_le]
  have := (ilog2_spec (abs_pos.2 hne)).1
  have h2 : |x - 1| < pow2 0 := by
    rw [abs_of_neg (by linarith)]; norm_num [pow2]; exact hpos
  have := pow2_lt.1 (lt_of_le_of_lt this h2)
  unfold ulpExp
  show max (ilog2 |x - 1| - ((24 : Nat) - 1)) (-149) - 1 ≤ -25
  push_cast
  omega
end Imgproc

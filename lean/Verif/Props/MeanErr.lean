import Verif.Props.GaussErr
/-! Weighted means in f32: two running sums and a quotient. -/
namespace Imgproc
open FloatOps
section
variable [Libm f32]

/-- a running sum of numbers -/
theorem sum_err (x : Nat → F32) (m : Nat → Rat) : ∀ n : Nat, n ≤ 2 ^ 23 → (∀ i < n, (x i).Is (m i)) → ∑ i ∈ Finset.range n, |m i| ≤ 2 ^ 97 →
    ∃ b, ((List.range n).foldl (fun acc i => acc +. x i) (num 0)).Is b ∧
      |b - ∑ i ∈ Finset.range n, m i| ≤ ((1 + 1 / 2 ^ 24) ^ n - 1) * ∑ i ∈ Finset.range n, |m i| + n / 2 ^ 148 := by
  intro n
  induction n with
  | zero => exact fun _ _ _ => ⟨0, by simpa using num32 (n := 0) (by decide), by simp⟩
  | succ n ih =>
    intro hn hx hb
    rw [Finset.sum_range_succ] at hb
    obtain ⟨b, hb1, e⟩ := ih (by omega) (fun i hi => hx i (by omega)) (by linarith [abs_nonneg (m n)])
    rw [List.range_succ, List.foldl_append, Finset.sum_range_succ, Finset.sum_range_succ]
    have hm := hx n (by omega)
    set s := ∑ i ∈ Finset.range n, m i
    set S := ∑ i ∈ Finset.range n, |m i|
    have S0 : 0 ≤ S := Finset.sum_nonneg fun _ _ => abs_nonneg _
    have sS : |s| ≤ S := Finset.abs_sum_le_sum_abs _ _
    have g := pow_le_lin n (by omega)
    have g0 : (1 : Rat) ≤ (1 + 1 / 2 ^ 24) ^ n := one_le_pow₀ (by norm_num)
    have n1 : (n : Rat) ≤ 2 ^ 23 := by exact_mod_cast (by omega : n ≤ 2 ^ 23)
    set p : Rat := (1 + 1 / 2 ^ 24) ^ n with hp
    have p2 : p - 1 ≤ 1 := by
      have : (n : Rat) / 2 ^ 23 ≤ 1 := by rw [div_le_one (by norm_num)]; exact n1
      linarith
    have pS : (p - 1) * S ≤ S := by nlinarith
    have hbs : |b + m n| ≤ S + |m n| + ((p - 1) * S + n / 2 ^ 148) := by
      rw [show b + m n = s + m n + (b - s) by ring]
      exact (abs_add_three _ _ _).trans (by linarith)
    have nn : (n : Rat) / 2 ^ 148 ≤ 1 := by rw [div_le_one (by norm_num)]; linarith [show (2 : Rat) ^ 23 ≤ 2 ^ 148 by norm_num]
    have ov : |f32.rnd (b + m n)| < pow2 f32.emax := by
      refine f32_ovf (hbs.trans ?_)
      have : (2 : Rat) ^ 97 + 2 ^ 97 + 1 ≤ 2 ^ 100 := by norm_num
      linarith [abs_nonneg (m n)]
    refine ⟨_, add_is hb1 hm ov, ?_⟩
    have r := rnd_err_add (b + m n)
    have t := abs_sub_le (f32.rnd (b + m n)) (b + m n) (s + m n)
    rw [show b + m n - (s + m n) = b - s by ring] at t
    rw [pow_succ, ← hp]
    have M0 := abs_nonneg (m n)
    have pm : 0 ≤ (p - 1) * |m n| := mul_nonneg (by linarith) M0
    push_cast
    have e5 : (p * (1 + 1 / 2 ^ 24) - 1) * (S + |m n|) = (p - 1) * S + (p - 1) * |m n| + (p - 1) * S / 2 ^ 24 + (p - 1) * |m n| / 2 ^ 24 + (S + |m n|) / 2 ^ 24 := by ring
    rw [e5]
    generalize (p - 1) * S = X at *
    generalize (p - 1) * |m n| = Y at *
    have : (n : Rat) / 2 ^ 148 / 2 ^ 24 ≤ 1 / 2 ^ 149 := by
      rw [div_div, div_le_iff₀ (by norm_num)]
      exact n1.trans (by norm_num)
    have e6 : ((n : Rat) + 1) / 2 ^ 148 = n / 2 ^ 148 + 1 / 2 ^ 148 := by ring
    rw [e6]
    norm_num at *
    linarith

/-- a running sum of products -/
theorem dot_err (x v : Nat → F32) (m u : Nat → Rat) (n : Nat) (hn : n < 2 ^ 22) (hx : ∀ i < n, (x i).Is (m i)) (hv : ∀ i < n, (v i).Is (u i))
    (hb : ∑ i ∈ Finset.range n, |m i * u i| ≤ 2 ^ 90) :
    ∃ b, ((List.range n).foldl (fun acc i => acc +. x i *. v i) (num 0)).Is b ∧
      |b - ∑ i ∈ Finset.range n, m i * u i| ≤ (n + 1) / 2 ^ 23 * ∑ i ∈ Finset.range n, |m i * u i| + n / 2 ^ 146 := by
  have each : ∀ i < n, |m i * u i| ≤ 2 ^ 90 := fun i hi =>
    le_trans (Finset.single_le_sum (f := fun i => |m i * u i|) (fun _ _ => abs_nonneg _) (Finset.mem_range.2 hi)) hb
  have hp : ∀ i < n, (x i *. v i).Is (f32.rnd (m i * u i)) := fun i hi =>
    mul_is (hx i hi) (hv i hi) (f32_ovf ((each i hi).trans (by norm_num)))
  have re : ∀ i < n, |f32.rnd (m i * u i) - m i * u i| ≤ |m i * u i| / 2 ^ 24 + 1 / 2 ^ 150 := fun i _ => rnd_err_add _
  set S := ∑ i ∈ Finset.range n, |m i * u i| with hS
  have S0 : 0 ≤ S := Finset.sum_nonneg fun _ _ => abs_nonneg _
  have n0 : (0 : Rat) ≤ n := Nat.cast_nonneg n
  have n1 : (n : Rat) ≤ 2 ^ 22 := by exact_mod_cast hn.le
  have rs : ∑ i ∈ Finset.range n, |f32.rnd (m i * u i) - m i * u i| ≤ S / 2 ^ 24 + n / 2 ^ 150 := by
    refine (Finset.sum_le_sum fun i hi => re i (Finset.mem_range.1 hi)).trans (le_of_eq ?_)
    rw [Finset.sum_add_distrib, ← Finset.sum_div, Finset.sum_const, Finset.card_range, nsmul_eq_mul, mul_one_div]
  have Ss : ∑ i ∈ Finset.range n, |f32.rnd (m i * u i)| ≤ S + (S / 2 ^ 24 + n / 2 ^ 150) := by
    refine le_trans (Finset.sum_le_sum (g := fun i => |m i * u i| + |f32.rnd (m i * u i) - m i * u i|) fun i _ => ?_) ?_
    · have := abs_add_le (f32.rnd (m i * u i) - m i * u i) (m i * u i)
      rw [sub_add_cancel] at this; linarith
    · rw [Finset.sum_add_distrib]; linarith
  have n2 : (n : Rat) / 2 ^ 150 ≤ 1 := by
    rw [div_le_one (by norm_num)]; exact n1.trans (by norm_num)
  obtain ⟨b, h1, h2⟩ := sum_err (fun i => x i *. v i) (fun i => f32.rnd (m i * u i)) n (by omega) hp (by
    refine Ss.trans ?_
    have : (2 : Rat) ^ 90 + 2 ^ 90 + 1 ≤ 2 ^ 97 := by norm_num
    have : S / 2 ^ 24 ≤ S := div_le_self S0 (by norm_num)
    linarith)
  refine ⟨b, h1, ?_⟩
  have g := pow_le_lin n (by omega)
  have g0 : (1 : Rat) ≤ (1 + 1 / 2 ^ 24) ^ n := one_le_pow₀ (by norm_num)
  have t := abs_sub_le b (∑ i ∈ Finset.range n, f32.rnd (m i * u i)) (∑ i ∈ Finset.range n, m i * u i)
  rw [← Finset.sum_sub_distrib] at t
  have t2 := Finset.abs_sum_le_sum_abs (fun i => f32.rnd (m i * u i) - m i * u i) (Finset.range n)
  have k1 : ((1 + 1 / 2 ^ 24 : Rat) ^ n - 1) * ∑ i ∈ Finset.range n, |f32.rnd (m i * u i)| ≤ n / 2 ^ 23 * (S + (S / 2 ^ 24 + n / 2 ^ 150)) := by
    refine mul_le_mul (by linarith) Ss (Finset.sum_nonneg fun _ _ => abs_nonneg _) (by positivity)
  have k2 : (n : Rat) / 2 ^ 23 * (S + (S / 2 ^ 24 + n / 2 ^ 150)) ≤ n / 2 ^ 23 * S + 1 / 2 * (S / 2 ^ 24 + n / 2 ^ 150) := by
    rw [mul_add]
    refine add_le_add le_rfl (mul_le_mul_of_nonneg_right ?_ (by positivity))
    rw [div_le_iff₀ (by norm_num)]; exact n1.trans (by norm_num)
  have e : ((n : Rat) + 1) / 2 ^ 23 * S = n / 2 ^ 23 * S + S / 2 ^ 23 := by ring
  rw [e]
  generalize (n : Rat) / 2 ^ 23 * S = X at *
  norm_num at *
  linarith

/-- a weighted mean with weights of relative error `κ`: `D` bounds the distance of the values that count from some `c`, `B` their magnitude -/
theorem mean_err (x v : Nat → F32) (m u : Nat → Rat) (W : Nat → ℝ) (n : Nat) {c B D : Rat} {κ : ℝ} (hn : n ≤ 2 ^ 20) (n0 : 0 < n)
    (hx : ∀ i < n, (x i).Is (m i)) (hv : ∀ i < n, (v i).Is (u i)) (m0 : ∀ i < n, 0 ≤ m i) (W0 : ∀ i < n, 0 ≤ W i) (W1 : ∀ i < n, W i ≤ 2 ^ 12)
    (hW : ∀ i < n, |(m i : ℝ) - W i| ≤ κ * W i) (hu : ∀ i < n, |u i| ≤ B) (hD : ∀ i < n, W i ≠ 0 → |u i - c| ≤ D)
    (κ0 : 0 ≤ κ) (κ1 : κ ≤ 1 / 1024) (B1 : B ≤ 2 ^ 40) (hS : n / 2 ^ 105 ≤ ∑ i ∈ Finset.range n, W i) :
    ∃ w : Rat, (((List.range n).foldl (fun acc i => acc +. x i *. v i) (num 0)) /. ((List.range n).foldl (fun acc i => acc +. x i) (num 0)) : F32).Is w ∧
      |(w : ℝ) - (∑ i ∈ Finset.range n, W i * u i) / ∑ i ∈ Finset.range n, W i| ≤ 3 * κ * D + 3 * ((n + 1) / 2 ^ 23) * B + 1 / 2 ^ 40 := by
  have B0 : 0 ≤ B := (abs_nonneg _).trans (hu 0 n0)
  have nr : (n : ℝ) ≤ 2 ^ 20 := by exact_mod_cast hn
  have nr1 : (1 : ℝ) ≤ n := by exact_mod_cast n0
  set X := ∑ i ∈ Finset.range n, W i with hX
  have X0 : 0 < X := lt_of_lt_of_le (by positivity) hS
  have BR0 : (0 : ℝ) ≤ B := by exact_mod_cast B0
  have BR1 : (B : ℝ) ≤ 2 ^ 40 := by
    have := (Rat.cast_le (K := ℝ)).2 B1; push_cast at this; exact this
  have huR : ∀ i < n, |(u i : ℝ)| ≤ B := fun i hi => by exact_mod_cast hu i hi
  have hDR : ∀ i < n, W i ≠ 0 → |(u i : ℝ) - c| ≤ D := fun i hi h => by exact_mod_cast hD i hi h
  set Sm : Rat := ∑ i ∈ Finset.range n, m i with hSm
  have SmX : |(Sm : ℝ) - X| ≤ κ * X := by
    rw [hSm, hX, Rat.cast_sum, ← Finset.sum_sub_distrib, Finset.mul_sum]
    exact (Finset.abs_sum_le_sum_abs _ _).trans (Finset.sum_le_sum fun i hi => hW i (Finset.mem_range.1 hi))
  have SmX' := abs_le.1 SmX
  have kX : κ * X ≤ 1 / 1024 * X := mul_le_mul_of_nonneg_right κ1 X0.le
  have absm : ∑ i ∈ Finset.range n, |m i| = Sm := Finset.sum_congr rfl fun i hi => abs_of_nonneg (m0 i (Finset.mem_range.1 hi))
  have m1 : ∀ i < n, m i ≤ 2 ^ 13 := fun i hi => by
    have h1 := (abs_le.1 (hW i hi)).2
    have h2 : κ * W i ≤ 1 / 1024 * W i := mul_le_mul_of_nonneg_right κ1 (W0 i hi)
    have : (m i : ℝ) ≤ ((2 ^ 13 : Rat) : ℝ) := by push_cast; norm_num; linarith [W1 i hi]
    exact_mod_cast this
  have nq : (n : Rat) ≤ 2 ^ 20 := by exact_mod_cast hn
  have Sm1 : Sm ≤ 2 ^ 33 := by
    refine (Finset.sum_le_sum (g := fun _ => (2 : Rat) ^ 13) fun i hi => m1 i (Finset.mem_range.1 hi)).trans ?_
    rw [Finset.sum_const, Finset.card_range, nsmul_eq_mul]
    exact (mul_le_mul_of_nonneg_right nq (by norm_num)).trans (by norm_num)
  have Sm0 : 0 ≤ Sm := Finset.sum_nonneg fun i hi => m0 i (Finset.mem_range.1 hi)
  have absmu : ∑ i ∈ Finset.range n, |m i * u i| ≤ Sm * B := by
    rw [hSm, Finset.sum_mul]
    refine Finset.sum_le_sum fun i hi => ?_
    have hi := Finset.mem_range.1 hi
    rw [abs_mul, abs_of_nonneg (m0 i hi)]
    exact mul_le_mul_of_nonneg_left (hu i hi) (m0 i hi)
  have SmB : Sm * B ≤ 2 ^ 33 * 2 ^ 40 := mul_le_mul Sm1 B1 B0 (by norm_num)
  obtain ⟨N, hN, eN⟩ := dot_err x v m u n (by omega) hx hv (absmu.trans (SmB.trans (by norm_num)))
  obtain ⟨Q, hQ, eQ⟩ := sum_err x m n (by omega) hx (by rw [absm]; exact Sm1.trans (by norm_num))
  rw [absm] at eQ
  have eN' : |(N : ℝ) - ((∑ i ∈ Finset.range n, m i * u i : Rat) : ℝ)| ≤ (n + 1) / 2 ^ 23 * (Sm * B) + n / 2 ^ 146 := by
    have h : |N - ∑ i ∈ Finset.range n, m i * u i| ≤ (n + 1) / 2 ^ 23 * (Sm * B) + n / 2 ^ 146 :=
      eN.trans (by gcongr)
    have := (Rat.cast_le (K := ℝ)).2 h
    rw [Rat.cast_abs, Rat.cast_sub] at this
    push_cast at this ⊢
    exact this
  have g := pow_le_lin n (by omega)
  have eQ' : |(Q : ℝ) - Sm| ≤ (n + 1) / 2 ^ 23 * Sm + n / 2 ^ 146 := by
    have h : |Q - Sm| ≤ (n + 1) / 2 ^ 23 * Sm + n / 2 ^ 146 := by
      refine eQ.trans (add_le_add (mul_le_mul_of_nonneg_right ?_ Sm0) ?_)
      · have : ((n : Rat) + 1) / 2 ^ 23 = n / 2 ^ 23 + 1 / 2 ^ 23 := by ring
        rw [this]
        have : (0 : Rat) ≤ 1 / 2 ^ 23 := by norm_num
        linarith
      · gcongr <;> norm_num
    have := (Rat.cast_le (K := ℝ)).2 h
    rw [Rat.cast_abs, Rat.cast_sub] at this
    push_cast at this ⊢
    exact this
  set ε : ℝ := (n + 1) / 2 ^ 23 with hε
  have ε0 : 0 ≤ ε := by positivity
  have ε1 : ε ≤ 0.12501 := by rw [hε, div_le_iff₀ (by norm_num)]; linarith [show (2 : ℝ) ^ 20 + 1 ≤ 0.12501 * 2 ^ 23 by norm_num]
  have ε2 : 1 / 2 ^ 22 ≤ ε := by rw [hε, le_div_iff₀ (by norm_num)]; norm_num; linarith
  have ηX : (n : ℝ) / 2 ^ 146 ≤ X / 2 ^ 41 := by
    have : (n : ℝ) / 2 ^ 146 = n / 2 ^ 105 / 2 ^ 41 := by rw [div_div]; norm_num
    rw [this]
    exact div_le_div_of_nonneg_right hS (by norm_num)
  set M := (∑ i ∈ Finset.range n, W i * u i) / X with hM
  have M1 : |M| ≤ B := by
    rw [hM, abs_div, abs_of_pos X0, div_le_iff₀ X0, hX, Finset.mul_sum]
    refine (Finset.abs_sum_le_sum_abs _ _).trans (Finset.sum_le_sum fun i hi => ?_)
    have hi := Finset.mem_range.1 hi
    rw [abs_mul, abs_of_nonneg (W0 i hi), mul_comm]
    exact mul_le_mul_of_nonneg_right (huR i hi) (W0 i hi)
  have MX : M * X = ∑ i ∈ Finset.range n, W i * u i := div_mul_cancel₀ _ X0.ne'
  have D0 : (0 : ℝ) ≤ D := by
    by_contra h
    have : ∀ i ∈ Finset.range n, W i = 0 := fun i hi => by
      by_contra h'
      have := hDR i (Finset.mem_range.1 hi) h'
      exact h ((abs_nonneg _).trans this)
    rw [hX, Finset.sum_eq_zero this] at X0
    exact lt_irrefl _ X0
  have Mc : |M - c| ≤ D := by
    have : M - c = (∑ i ∈ Finset.range n, W i * (u i - c)) / X := by
      simp only [mul_sub, Finset.sum_sub_distrib]
      rw [← Finset.sum_mul, ← hX, sub_div, mul_div_cancel_left₀ _ X0.ne']
    rw [this, abs_div, abs_of_pos X0, div_le_iff₀ X0, hX, Finset.mul_sum]
    refine (Finset.abs_sum_le_sum_abs _ _).trans (Finset.sum_le_sum fun i hi => ?_)
    have hi := Finset.mem_range.1 hi
    rw [abs_mul, abs_of_nonneg (W0 i hi), mul_comm]
    by_cases h : W i = 0
    · rw [h]; simp
    · exact mul_le_mul_of_nonneg_right (hDR i hi h) (W0 i hi)
  have e2 : |((∑ i ∈ Finset.range n, m i * u i : Rat) : ℝ) - M * Sm| ≤ 2 * D * (κ * X) := by
    have : ((∑ i ∈ Finset.range n, m i * u i : Rat) : ℝ) - M * Sm = ∑ i ∈ Finset.range n, ((m i : ℝ) - W i) * (u i - M) := by
      have h1 : ∑ i ∈ Finset.range n, ((m i : ℝ) - W i) * (u i - M) =
          (∑ i ∈ Finset.range n, (m i : ℝ) * u i - M * ∑ i ∈ Finset.range n, (m i : ℝ)) - (∑ i ∈ Finset.range n, W i * u i - M * X) := by
        rw [hX, Finset.mul_sum, Finset.mul_sum, ← Finset.sum_sub_distrib, ← Finset.sum_sub_distrib, ← Finset.sum_sub_distrib]
        exact Finset.sum_congr rfl fun i _ => by ring
      rw [h1, MX, sub_self, sub_zero, hSm]
      push_cast; rfl
    rw [this, hX, Finset.mul_sum, Finset.mul_sum]
    refine (Finset.abs_sum_le_sum_abs _ _).trans (Finset.sum_le_sum fun i hi => ?_)
    have hi := Finset.mem_range.1 hi
    rw [abs_mul, mul_comm]
    by_cases h : W i = 0
    · have := hW i hi
      rw [h, mul_zero] at this
      rw [h, le_antisymm this (abs_nonneg _)]; simp
    · refine mul_le_mul ?_ (hW i hi) (abs_nonneg _) (by linarith)
      have := abs_sub_le (u i : ℝ) c M
      rw [abs_sub_comm (c : ℝ)] at this
      linarith [hDR i hi h]
  have Sm2 : (Sm : ℝ) ≤ 1.001 * X := by norm_num at kX ⊢; linarith
  have Sm3 : 0.999 * X ≤ Sm := by norm_num at kX ⊢; linarith
  have εB : 0 ≤ ε * B := by positivity
  have key : |(N : ℝ) - M * Q| ≤ (2.002 * (ε * B) + 2 * D * κ + (1 + B) / 2 ^ 41) * X := by
    have t1 := abs_add_three ((N : ℝ) - ((∑ i ∈ Finset.range n, m i * u i : Rat) : ℝ)) (((∑ i ∈ Finset.range n, m i * u i : Rat) : ℝ) - M * Sm) (M * (Sm - Q))
    rw [show (N : ℝ) - ((∑ i ∈ Finset.range n, m i * u i : Rat) : ℝ) + (((∑ i ∈ Finset.range n, m i * u i : Rat) : ℝ) - M * Sm) + M * (Sm - Q) = N - M * Q by ring] at t1
    refine t1.trans ?_
    rw [abs_mul, abs_sub_comm (Sm : ℝ)]
    have a1 : |M| * |(Q : ℝ) - Sm| ≤ B * (ε * Sm + n / 2 ^ 146) := mul_le_mul M1 eQ' (abs_nonneg _) BR0
    have a2 : ε * B * Sm ≤ ε * B * (1.001 * X) := mul_le_mul_of_nonneg_left Sm2 εB
    have a3 : (B : ℝ) * (n / 2 ^ 146) ≤ B * (X / 2 ^ 41) := mul_le_mul_of_nonneg_left ηX BR0
    have e3 : ε * ((Sm : ℝ) * B) = ε * B * Sm := by ring
    rw [e3] at eN'
    have e4 : (2.002 * (ε * B) + 2 * D * κ + (1 + B) / 2 ^ 41) * X = 2 * (ε * B * (1.001 * X)) + 2 * D * (κ * X) + X / 2 ^ 41 + B * (X / 2 ^ 41) := by ring
    rw [e4]
    linarith
  have Q1 : 0.873 * X ≤ Q := by
    have h1 := (abs_le.1 eQ').1
    have h2 : ε * (Sm : ℝ) ≤ 0.12501 * (1.001 * X) := mul_le_mul ε1 Sm2 (by exact_mod_cast Sm0) (by norm_num)
    norm_num at h1 h2 ηX Sm3 ⊢
    linarith
  have Q0 : (0 : ℝ) < Q := lt_of_lt_of_le (by positivity) Q1
  have Qn : Q ≠ 0 := by rintro rfl; simp at Q0
  set T := 2.002 * (ε * B) + 2 * D * κ + (1 + B) / 2 ^ 41 with hT
  have Dκ : 0 ≤ D * κ := by positivity
  have T0 : 0 ≤ T := by rw [hT]; positivity
  have quo : |((N / Q : Rat) : ℝ) - M| ≤ 1.1455 * T := by
    push_cast
    rw [show (N : ℝ) / Q - M = (N - M * Q) / Q by field_simp, abs_div, abs_of_pos Q0, div_le_iff₀ Q0]
    refine key.trans ?_
    have : 1.1455 * T * (0.873 * X) ≤ 1.1455 * T * Q := mul_le_mul_of_nonneg_left Q1 (by positivity)
    have TX : 0 ≤ T * X := by positivity
    have e : 1.1455 * T * (0.873 * X) = 1.0000215 * (T * X) := by ring
    linarith
  have N1 : |((N / Q : Rat) : ℝ)| ≤ 1.3 * B + 1 / 2 ^ 40 := by
    push_cast
    rw [abs_div, abs_of_pos Q0, div_le_iff₀ Q0]
    have a1 : |((∑ i ∈ Finset.range n, m i * u i : Rat) : ℝ)| ≤ Sm * B := by
      have h := (Finset.abs_sum_le_sum_abs (fun i => m i * u i) (Finset.range n)).trans absmu
      have := (Rat.cast_le (K := ℝ)).2 h
      rw [Rat.cast_abs, Rat.cast_mul] at this
      exact this
    have a2 := abs_add_le ((N : ℝ) - ((∑ i ∈ Finset.range n, m i * u i : Rat) : ℝ)) ((∑ i ∈ Finset.range n, m i * u i : Rat) : ℝ)
    rw [sub_add_cancel] at a2
    have a3 : ε * ((Sm : ℝ) * B) ≤ 0.12501 * (Sm * B) := mul_le_mul_of_nonneg_right ε1 (mul_nonneg (by exact_mod_cast Sm0) BR0)
    have a4 : (Sm : ℝ) * B ≤ 1.001 * X * B := mul_le_mul_of_nonneg_right Sm2 BR0
    have a5 : (1.3 * (B : ℝ) + 1 / 2 ^ 40) * (0.873 * X) ≤ (1.3 * B + 1 / 2 ^ 40) * Q := mul_le_mul_of_nonneg_left Q1 (by positivity)
    have XB : 0 ≤ X * B := by positivity
    have e1 : (1.3 * (B : ℝ) + 1 / 2 ^ 40) * (0.873 * X) = 1.1349 * (X * B) + 0.873 * X / 2 ^ 40 := by ring
    have e2 : 1.001 * X * (B : ℝ) = 1.001 * (X * B) := by ring
    rw [e1] at a5
    rw [e2] at a4
    generalize X * (B : ℝ) = XB' at *
    generalize (Sm : ℝ) * B = SB' at *
    norm_num at *
    linarith
  have ov : |f32.rnd (N / Q)| < pow2 f32.emax := by
    refine f32_ovf ?_
    have : |((N / Q : Rat) : ℝ)| ≤ ((2 ^ 100 : Rat) : ℝ) := by
      refine N1.trans ?_
      push_cast
      have : (1.3 : ℝ) * 2 ^ 40 + 1 / 2 ^ 40 ≤ 2 ^ 100 := by norm_num
      linarith
    rw [← Rat.cast_abs] at this
    exact_mod_cast this
  refine ⟨_, div_is hN hQ Qn ov, ?_⟩
  have r := (Rat.cast_le (K := ℝ)).2 (rnd_err_add (N / Q))
  rw [Rat.cast_abs, Rat.cast_sub] at r
  generalize f32.rnd (N / Q) = z at r ⊢
  have t := abs_sub_le (z : ℝ) ((N / Q : Rat) : ℝ) M
  generalize N / Q = NQ at *
  push_cast at r
  generalize (NQ : ℝ) = Y at *
  have e2 : (1 : ℝ) / 2 ^ 22 * B ≤ ε * B := mul_le_mul_of_nonneg_right ε2 BR0
  have e3 : 3 * κ * (D : ℝ) = 3 * (D * κ) := by ring
  have e4 : 2 * (D : ℝ) * κ = 2 * (D * κ) := by ring
  have e5 : 3 * ε * (B : ℝ) = 3 * (ε * B) := by ring
  rw [e3, e5]
  rw [hT, e4] at quo
  clear_value ε
  generalize ε * (B : ℝ) = εB' at *
  generalize (D : ℝ) * κ = Dκ' at *
  generalize (B : ℝ) = Br at *
  clear * - t r quo e2 N1 Dκ εB BR0
  norm_num at *
  linarith
end
end Imgproc

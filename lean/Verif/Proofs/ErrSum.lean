import Verif.Props.Filter6
import Verif.Proofs.Approx
/-! Running error analysis of the kernel response in IEEE f32. -/
namespace Imgproc
open FloatOps

theorem rnd_err_add (q : Rat) : |f32.rnd q - q| ≤ |q| / 2 ^ 24 + 1 / 2 ^ 150 := by
  have he := rndQ_err (f := f32.toRFmt) q
  have h1 : pow2 (-(f32.p : Int)) = 1 / 2 ^ 24 := by norm_num [f32, pow2_eq]
  have h2 : pow2 (f32.emin - 1) = 1 / 2 ^ 150 := by norm_num [f32, pow2_eq]
  rw [show (f32.toRFmt.p : Int) = (f32.p : Int) from rfl, h1, show f32.toRFmt.emin = f32.emin from rfl, h2] at he
  refine le_trans he (max_le ?_ ?_)
  · rw [mul_one_div]; exact le_add_of_nonneg_right (by norm_num)
  · exact le_add_of_nonneg_left (by positivity)

/-- `(1 + u)^k - 1 ≤ 2 k u` -/
theorem pow_le_lin (k : Nat) (hk : k ≤ 2 ^ 23) : (1 + 1 / 2 ^ 24 : Rat) ^ k ≤ 1 + k / 2 ^ 23 := by
  induction k with
  | zero => simp
  | succ k ih =>
    have := ih (by omega)
    have hk' : (k : Rat) ≤ 2 ^ 23 := by exact_mod_cast (by omega : k ≤ 2 ^ 23)
    rw [pow_succ]
    have : (1 + 1 / 2 ^ 24 : Rat) ^ k * (1 + 1 / 2 ^ 24) ≤ (1 + k / 2 ^ 23) * (1 + 1 / 2 ^ 24) :=
      mul_le_mul_of_nonneg_right this (by norm_num)
    push_cast
    linarith

variable [Libm f32]

/-- the invariant of the running sum -/
theorem foldl_err (c : Nat) : ∀ (k : List F32) (p : List (List F32)) (acc : F32) (a s S H : Rat) (j : Nat) (m v : Nat → Rat),
    k.length = p.length → acc.Is a → 1 ≤ j → j + k.length ≤ 2 ^ 23 → |s| ≤ S → 0 ≤ H → H + k.length ≤ 2 ^ 30 →
    |a - s| ≤ ((1 + 1 / 2 ^ 24) ^ j - 1) * S + (1 + 1 / 2 ^ 24) ^ j * (H / 2 ^ 148) →
    (∀ i < k.length, (k.getD i (num 0)).Is (m i)) →
    (∀ i < k.length, ((p.getD i []).getD c (num 0)).Is (v i)) →
    S + ∑ i ∈ Finset.range k.length, |m i * v i| ≤ 2 ^ 97 →
    ∃ b, ((k.zip p).foldl (fun acc e => acc +. e.1 *. e.2.getD c (num 0)) acc).Is b ∧
      |b - (s + ∑ i ∈ Finset.range k.length, m i * v i)| ≤
        ((1 + 1 / 2 ^ 24) ^ (j + k.length) - 1) * (S + ∑ i ∈ Finset.range k.length, |m i * v i|) +
          (1 + 1 / 2 ^ 24) ^ (j + k.length) * ((H + k.length) / 2 ^ 148) := by
  intro k
  induction k with
  | nil => intro p acc a s S H j m v _ ha _ _ _ _ _ he _ _ _; exact ⟨a, ha, by simpa using he⟩
  | cons b k ih =>
    intro p acc a s S H j m v hl ha hj1 hj hs hH hHk he hk hp hb
    cases p with
    | nil => simp at hl
    | cons q p =>
      simp only [List.length_cons] at hj hHk hk hp ⊢
      rw [List.length_cons, Finset.sum_range_succ'] at hb
      rw [Finset.sum_range_succ', Finset.sum_range_succ']
      rw [List.zip_cons_cons, List.foldl_cons]
      have hsum : 0 ≤ ∑ i ∈ Finset.range k.length, |m (i + 1) * v (i + 1)| :=
        Finset.sum_nonneg (fun _ _ => abs_nonneg _)
      have S0 : 0 ≤ S := le_trans (abs_nonneg _) hs
      set t := m 0 * v 0 with ht
      have t0 := abs_nonneg t
      have h0 := hk 0 (by simp)
      have h1 := hp 0 (by simp)
      rw [List.getD_cons_zero] at h0 h1
      have hm : (b *. q.getD c (num 0)).Is (f32.rnd t) := mul_is h0 h1 (f32_ovf (by
        have : (2 : Rat) ^ 97 ≤ 2 ^ 100 := by norm_num
        linarith))
      have et := rnd_err_add t
      set P := f32.rnd t with hP
      set g := (1 + 1 / 2 ^ 24 : Rat) ^ j with hg
      have g2 : (1 + 1 / 2 ^ 24 : Rat) ≤ g := by
        have : (1 + 1 / 2 ^ 24 : Rat) ^ 1 ≤ g := pow_le_pow_right₀ (by norm_num) hj1
        simpa using this
      have g3 : g ≤ 2 := by
        have h := pow_le_lin j (by omega)
        have : (j : Rat) / 2 ^ 23 ≤ 1 := by
          rw [div_le_one (by norm_num)]; exact_mod_cast (by omega : j ≤ 2 ^ 23)
        linarith
      have H1 : H / 2 ^ 148 ≤ 1 := by
        rw [div_le_one (by norm_num)]
        have : (0 : Rat) ≤ ((k.length + 1 : Nat) : Rat) := by positivity
        have : (2 : Rat) ^ 30 ≤ 2 ^ 148 := by norm_num
        linarith
      have H0 : 0 ≤ H / 2 ^ 148 := by positivity
      have hE : |a - s| ≤ S + 2 := by
        refine le_trans he ?_
        have : (g - 1) * S ≤ 1 * S := mul_le_mul_of_nonneg_right (by linarith) S0
        have : g * (H / 2 ^ 148) ≤ 2 * 1 := mul_le_mul g3 H1 H0 (by norm_num)
        linarith
      have hPt : |P| ≤ |t| + |P - t| := by
        have := abs_add_le t (P - t); rwa [add_sub_cancel] at this
      have hSt : S + |t| ≤ 2 ^ 97 := by linarith
      have ha' : |a| ≤ |s| + |a - s| := by
        have := abs_add_le s (a - s); rwa [add_sub_cancel] at this
      have haP := abs_add_le a P
      have hadd : (acc +. b *. q.getD c (num 0)).Is (f32.rnd (a + P)) := add_is ha hm (f32_ovf (by
        have : (2 : Rat) ^ 97 * 4 ≤ 2 ^ 100 := by norm_num
        have : (2 : Rat) ^ 97 ≥ 100 := by norm_num
        have : |t| / 2 ^ 24 ≤ |t| := div_le_self t0 (by norm_num)
        have : (1 : Rat) / 2 ^ 150 ≤ 1 := by norm_num
        linarith))
      have ea := rnd_err_add (a + P)
      have hnew : |f32.rnd (a + P) - (s + t)| ≤ ((1 + 1 / 2 ^ 24) ^ (j + 1) - 1) * (S + |t|) +
          (1 + 1 / 2 ^ 24) ^ (j + 1) * ((H + 1) / 2 ^ 148) := by
        have tri : |f32.rnd (a + P) - (s + t)| ≤ |f32.rnd (a + P) - (a + P)| + |a - s| + |P - t| := by
          rw [show f32.rnd (a + P) - (s + t) = (f32.rnd (a + P) - (a + P)) + (a - s) + (P - t) by ring]
          exact abs_add_three _ _ _
        rw [pow_succ, ← hg]
        have e1 : |a + P| ≤ S + |a - s| + |t| + (|t| / 2 ^ 24 + 1 / 2 ^ 150) := by linarith
        -- collect
        have e2 : |f32.rnd (a + P) - (s + t)| ≤ (1 + 1 / 2 ^ 24) * |a - s| + S / 2 ^ 24 +
            |t| * ((1 + 1 / 2 ^ 24) * (1 + 1 / 2 ^ 24) - 1) + 3 / 2 ^ 150 := by
          have : (1 : Rat) / 2 ^ 150 * (1 / 2 ^ 24) ≤ 1 / 2 ^ 150 := by norm_num
          linarith
        have e3 : (1 + 1 / 2 ^ 24 : Rat) * |a - s| ≤ (1 + 1 / 2 ^ 24) * ((g - 1) * S + g * (H / 2 ^ 148)) :=
          mul_le_mul_of_nonneg_left he (by norm_num)
        have e4 : |t| * ((1 + 1 / 2 ^ 24 : Rat) * (1 + 1 / 2 ^ 24) - 1) ≤ |t| * (g * (1 + 1 / 2 ^ 24) - 1) := by
          refine mul_le_mul_of_nonneg_left ?_ t0
          have := mul_le_mul_of_nonneg_right g2 (show (0 : Rat) ≤ 1 + 1 / 2 ^ 24 by norm_num)
          linarith
        have e5 : (3 : Rat) / 2 ^ 150 ≤ g * (1 + 1 / 2 ^ 24) * (1 / 2 ^ 148) := by
          have : (3 : Rat) / 2 ^ 150 ≤ 1 * 1 * (1 / 2 ^ 148) := by norm_num
          refine le_trans this ?_
          refine mul_le_mul_of_nonneg_right ?_ (by norm_num)
          exact mul_le_mul (by linarith [show (0 : Rat) ≤ 1 / 2 ^ 24 by norm_num]) (by norm_num) (by norm_num) (by linarith)
        have e6 : (g * (1 + 1 / 2 ^ 24) - 1) * (S + |t|) + g * (1 + 1 / 2 ^ 24) * ((H + 1) / 2 ^ 148) =
            (1 + 1 / 2 ^ 24) * ((g - 1) * S + g * (H / 2 ^ 148)) + S / 2 ^ 24 + |t| * (g * (1 + 1 / 2 ^ 24) - 1) +
              g * (1 + 1 / 2 ^ 24) * (1 / 2 ^ 148) := by ring
        rw [e6]; linarith
      obtain ⟨z, hz, ez⟩ := ih p _ _ (s + t) (S + |t|) (H + 1) (j + 1) (fun i => m (i + 1)) (fun i => v (i + 1))
        (by simpa using hl) hadd (by omega) (by omega) (le_trans (abs_add_le _ _) (by linarith)) (by linarith)
        (by push_cast at hHk ⊢; linarith) hnew
        (fun i hi => by have := hk (i + 1) (by omega); simpa using this)
        (fun i hi => by have := hp (i + 1) (by omega); simpa using this)
        (by linarith)
      refine ⟨z, hz, ?_⟩
      have r1 : s + (∑ i ∈ Finset.range k.length, m (i + 1) * v (i + 1) + t) =
          s + t + ∑ i ∈ Finset.range k.length, m (i + 1) * v (i + 1) := by ring
      have r2 : S + (∑ i ∈ Finset.range k.length, |m (i + 1) * v (i + 1)| + |t|) =
          S + |t| + ∑ i ∈ Finset.range k.length, |m (i + 1) * v (i + 1)| := by ring
      have r3 : j + (k.length + 1) = j + 1 + k.length := by omega
      have r4 : H + ((k.length + 1 : Nat) : Rat) = H + 1 + k.length := by push_cast; ring
      rw [r1, r2, r3, r4]
      exact ez

/-- the kernel response in f32 is the exact weighted sum up to a relative error of `(n + 1) / 2^23` of the
sum of absolute terms, plus an underflow term -/
theorem response_err {kernel : List F32} {pixels : List (List F32)} {c : Nat} (m v : Nat → Rat)
    (h : kernel.length = pixels.length) (hn : kernel.length < 2 ^ 23)
    (hk : ∀ i < kernel.length, (kernel.getD i (num 0)).Is (m i))
    (hp : ∀ i < kernel.length, ((pixels.getD i []).getD c (num 0)).Is (v i))
    (hb : ∑ i ∈ Finset.range kernel.length, |m i * v i| ≤ 2 ^ 97) :
    ∃ b, (kernelResponse kernel pixels c).Is b ∧
      |b - ∑ i ∈ Finset.range kernel.length, m i * v i| ≤
        (kernel.length + 1) / 2 ^ 23 * ∑ i ∈ Finset.range kernel.length, |m i * v i| + kernel.length / 2 ^ 147 := by
  have h0 : (num 0 : F32).Is 0 := by simpa using num32 (n := 0) (by simp)
  have hl : (kernel.length : Rat) ≤ 2 ^ 23 := by exact_mod_cast hn.le
  obtain ⟨b, hb', e⟩ := foldl_err c kernel pixels (num 0) 0 0 0 0 1 m v h h0 le_rfl (by omega) (by simp) le_rfl
    (by have : (2 : Rat) ^ 23 ≤ 2 ^ 30 := by norm_num
        linarith) (by simp) hk hp (by simpa using hb)
  refine ⟨b, hb', ?_⟩
  rw [zero_add, zero_add, zero_add] at e
  refine le_trans e ?_
  have hS : 0 ≤ ∑ i ∈ Finset.range kernel.length, |m i * v i| := Finset.sum_nonneg (fun _ _ => abs_nonneg _)
  have g := pow_le_lin (1 + kernel.length) (by omega)
  have g1 : ((1 + kernel.length : Nat) : Rat) / 2 ^ 23 ≤ 1 := by
    rw [div_le_one (by norm_num)]; exact_mod_cast (by omega : 1 + kernel.length ≤ 2 ^ 23)
  have a1 : ((1 + 1 / 2 ^ 24 : Rat) ^ (1 + kernel.length) - 1) * ∑ i ∈ Finset.range kernel.length, |m i * v i| ≤
      (kernel.length + 1) / 2 ^ 23 * ∑ i ∈ Finset.range kernel.length, |m i * v i| := by
    refine mul_le_mul_of_nonneg_right ?_ hS
    push_cast at g
    rw [add_comm (kernel.length : Rat)]
    linarith
  have a2 : (1 + 1 / 2 ^ 24 : Rat) ^ (1 + kernel.length) * ((kernel.length : Rat) / 2 ^ 148) ≤ 2 * (kernel.length / 2 ^ 148) :=
    mul_le_mul_of_nonneg_right (by linarith) (by positivity)
  have a3 : 2 * ((kernel.length : Rat) / 2 ^ 148) = kernel.length / 2 ^ 147 := by norm_num; ring
  linarith
end Imgproc

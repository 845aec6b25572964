import Verif.Props.GaussBlur
/-! Property C117, continued: `gaussian_blur` in f32 does not keep a constant image (its kernel is not normalised). -/
namespace Imgproc
open FloatOps
section
variable [Libm f32]
variable {sigma : F32} {s : Rat} (hs : sigma.Is s) (s0 : 1 / 16 ≤ s) (s1 : s ≤ 1000)
include s0 s1

omit [Libm f32] in
/-- each weight times `1 + d / 2σ²` is at most `1 / 2πσ²` -/
theorem gauss_top {d : ℝ} (d0 : 0 ≤ d) : 0 ≤ gaussian2 s d ∧ gaussian2 s d ≤ 1 / (2 * Real.pi * (s : ℝ) ^ 2) ∧
    (1 + d / (2 * (s : ℝ) ^ 2)) * gaussian2 s d ≤ 1 / (2 * Real.pi * (s : ℝ) ^ 2) := by
  obtain ⟨r0, r1⟩ := sigma_real s0 s1
  have p := Real.pi_pos
  unfold gaussian2
  set z := d / (2 * (s : ℝ) ^ 2) with hz
  have z0 : 0 ≤ z := by positivity
  have A0 : 0 < 1 / (2 * Real.pi * (s : ℝ) ^ 2) := by positivity
  set A := 1 / (2 * Real.pi * (s : ℝ) ^ 2) with hA
  have E0 := Real.exp_pos (-z)
  have M : (1 + z) * Real.exp (-z) ≤ 1 := by
    rw [Real.exp_neg, ← div_eq_mul_inv, div_le_one (Real.exp_pos z)]
    linarith [Real.add_one_le_exp z]
  have M' : Real.exp (-z) ≤ 1 := by nlinarith
  refine ⟨by positivity, mul_le_of_le_one_right A0.le M', ?_⟩
  calc _ = A * ((1 + z) * Real.exp (-z)) := by ring
    _ ≤ A := mul_le_of_le_one_right A0.le M

include hs in
/-- `gaussian_blur` of a constant image: the result is the constant times the kernel sum, up to the rounding error -/
theorem gaussian_constant (hp : PowGood) (P : Profile) {svd : Svd F32} {img : Image F32} {v : Rat} (h : img.ShowsValues img.info fun _ _ _ => v)
    (n : Nat) (hodd : n % 2 = 1) (hn : n ≤ 181) (v0 : 1 / 2 ^ 80 ≤ v) (v1 : v ≤ 2 ^ 50) {δ : ℝ} (δ0 : 0 ≤ δ)
    (hsvd : ∀ k, generateGaussianKernel P n sigma = .ok k → SvdSplits svd k n δ)
    (hw : img.info.width + n ≤ 2147483648) (hh : img.info.height + n ≤ 2147483648) :
    ∃ out w, gaussianBlur svd P img n sigma = .ok out ∧ out.ShowsValues img.info w ∧
      ∀ x y c, x < img.info.width → y < img.info.height → c < img.info.channels →
        |(w x y c : ℝ) - v * ∑ i ∈ Finset.range n, ∑ j ∈ Finset.range n, gaussian2 s (centreDist2 n i j)| ≤
          v * ((n * n + 24) / 2 ^ 23 * (n * n * (1 / (2 * Real.pi * (s : ℝ) ^ 2))) + 2 * (n * n) * δ + 1 / 2 ^ 20) := by
  have hnn : n * n ≤ 32761 := Nat.mul_le_mul hn hn
  have v0' : 0 ≤ v := le_trans (by positivity) v0
  obtain ⟨out, w, e, sv, hr⟩ := c117_gaussian_blur hs s0 s1 hp P h n hodd (by omega) v1 v0' δ0 (fun _ _ _ _ _ _ => (abs_of_nonneg v0').le) hsvd hw hh
  refine ⟨out, w, e, sv, fun x y c hx hy hc => ?_⟩
  have := hr x y c hx hy hc
  have er : realResponse img.info (fun i j => gaussian2 s (centreDist2 n i j)) n (fun _ _ _ => v) x y c =
      v * ∑ i ∈ Finset.range n, ∑ j ∈ Finset.range n, gaussian2 s (centreDist2 n i j) := by
    unfold realResponse
    rw [Finset.mul_sum]
    refine Finset.sum_congr rfl fun i _ => ?_
    rw [Finset.mul_sum]
    exact Finset.sum_congr rfl fun j _ => mul_comm _ _
  rw [er] at this
  refine this.trans ?_
  have K : ∑ i ∈ Finset.range n, ∑ j ∈ Finset.range n, (1 + centreDist2 n i j / (2 * (s : ℝ) ^ 2)) * gaussian2 s (centreDist2 n i j) ≤
      n * n * (1 / (2 * Real.pi * (s : ℝ) ^ 2)) := by
    calc _ ≤ ∑ i ∈ Finset.range n, ∑ j ∈ Finset.range n, (1 / (2 * Real.pi * (s : ℝ) ^ 2)) := by
          refine Finset.sum_le_sum fun i hi => Finset.sum_le_sum fun j hj => (gauss_top s0 s1 ?_).2.2
          exact_mod_cast (centreDist2_bounds (by omega) (Finset.mem_range.1 hi) (Finset.mem_range.1 hj)).1
      _ = _ := by simp; ring
  have vr0 : (1 / 2 ^ 80 : ℝ) ≤ v := by have := (Rat.cast_le (K := ℝ)).2 v0; push_cast at this; exact this
  have vp : (0 : ℝ) < v := lt_of_lt_of_le (by positivity) vr0
  have nr : (n : ℝ) * n ≤ 32761 := by exact_mod_cast hnn
  generalize ∑ i ∈ Finset.range n, ∑ j ∈ Finset.range n, (1 + centreDist2 n i j / (2 * (s : ℝ) ^ 2)) * gaussian2 s (centreDist2 n i j) = K' at *
  generalize (n : ℝ) * n * (1 / (2 * Real.pi * (s : ℝ) ^ 2)) = K'' at *
  have hN : (0 : ℝ) ≤ (n : ℝ) * n := by positivity
  generalize (n : ℝ) * n = N at *
  have t1 : (N + 24) / 2 ^ 23 * K' ≤ (N + 24) / 2 ^ 23 * K'' := mul_le_mul_of_nonneg_left K (by positivity)
  have t2 : N / 2 ^ 120 ≤ v * (1 / 2 ^ 21) := by norm_num at vr0 ⊢; linarith
  have t3 : N / 2 ^ 128 ≤ 1 / 2 ^ 21 := by norm_num; linarith
  have t4 : (v : ℝ) * ((N + 24) / 2 ^ 23 * K' + 2 * N * δ + N / 2 ^ 128) ≤ v * ((N + 24) / 2 ^ 23 * K'' + 2 * N * δ + 1 / 2 ^ 21) :=
    mul_le_mul_of_nonneg_left (by linarith) vp.le
  have : (v : ℝ) * ((N + 24) / 2 ^ 23 * K'' + 2 * N * δ + 1 / 2 ^ 20) = v * ((N + 24) / 2 ^ 23 * K'' + 2 * N * δ + 1 / 2 ^ 21) + v * (1 / 2 ^ 21) := by
    ring
  rw [this]
  linarith

include hs in
/-- **C117** (f32) `gaussian_blur` darkens: an image of one positive value comes back at least 3 per cent darker in every channel when
`size² ≤ 6 sigma²` (sizes up to 181). -/
theorem c117_gaussian_darkens (hp : PowGood) (P : Profile) {svd : Svd F32} {img : Image F32} {v : Rat} (h : img.ShowsValues img.info fun _ _ _ => v)
    (n : Nat) (hodd : n % 2 = 1) (hn : n ≤ 181) (v0 : 1 / 2 ^ 80 ≤ v) (v1 : v ≤ 2 ^ 50) {δ : ℝ} (δ0 : 0 ≤ δ) (hδ : 2 * (n * n) * δ ≤ 1 / 1000)
    (hsvd : ∀ k, generateGaussianKernel P n sigma = .ok k → SvdSplits svd k n δ) (wide : ((n * n : Nat) : Rat) ≤ 6 * s ^ 2)
    (hw : img.info.width + n ≤ 2147483648) (hh : img.info.height + n ≤ 2147483648) :
    ∃ out w, gaussianBlur svd P img n sigma = .ok out ∧ out.ShowsValues img.info w ∧
      ∀ x y c, x < img.info.width → y < img.info.height → c < img.info.channels → w x y c ≤ 0.97 * v := by
  obtain ⟨out, w, e, sv, hr⟩ := gaussian_constant hs s0 s1 hp P h n hodd hn v0 v1 δ0 hsvd hw hh
  refine ⟨out, w, e, sv, fun x y c hx hy hc => ?_⟩
  have b := (abs_le.1 (hr x y c hx hy hc)).2
  obtain ⟨r0, r1⟩ := sigma_real s0 s1
  have hnn : n * n ≤ 32761 := Nat.mul_le_mul hn hn
  have nr : (n : ℝ) * n ≤ 32761 := by exact_mod_cast hnn
  have wr : (n : ℝ) * n ≤ 6 * (s : ℝ) ^ 2 := by exact_mod_cast wide
  have p := Real.pi_gt_d2
  have A : (n : ℝ) * n * (1 / (2 * Real.pi * (s : ℝ) ^ 2)) ≤ 0.956 := by
    rw [mul_one_div, div_le_iff₀ (by positivity)]
    have : (0 : ℝ) ≤ (s : ℝ) ^ 2 := by positivity
    nlinarith
  have K : ∑ i ∈ Finset.range n, ∑ j ∈ Finset.range n, gaussian2 s (centreDist2 n i j) ≤ n * n * (1 / (2 * Real.pi * (s : ℝ) ^ 2)) := by
    calc _ ≤ ∑ i ∈ Finset.range n, ∑ j ∈ Finset.range n, (1 / (2 * Real.pi * (s : ℝ) ^ 2)) := by
          refine Finset.sum_le_sum fun i hi => Finset.sum_le_sum fun j hj => (gauss_top s0 s1 ?_).2.1
          exact_mod_cast (centreDist2_bounds (by omega) (Finset.mem_range.1 hi) (Finset.mem_range.1 hj)).1
      _ = _ := by simp; ring
  have vp : (0 : ℝ) < v := by exact_mod_cast lt_of_lt_of_le (by positivity) v0
  have A0 : (0 : ℝ) ≤ (n : ℝ) * n * (1 / (2 * Real.pi * (s : ℝ) ^ 2)) := by positivity
  have hN : (0 : ℝ) ≤ (n : ℝ) * n := by positivity
  generalize ∑ i ∈ Finset.range n, ∑ j ∈ Finset.range n, gaussian2 s (centreDist2 n i j) = G at *
  generalize (n : ℝ) * n * (1 / (2 * Real.pi * (s : ℝ) ^ 2)) = K'' at *
  have t1 : ((n : ℝ) * n + 24) / 2 ^ 23 * K'' ≤ 0.004 * 0.956 := mul_le_mul (by norm_num; linarith) A A0 (by norm_num)
  have t2 : (v : ℝ) * (G + (((n : ℝ) * n + 24) / 2 ^ 23 * K'' + 2 * (n * n) * δ + 1 / 2 ^ 20)) ≤ v * 0.97 :=
    mul_le_mul_of_nonneg_left (by norm_num at t1 hδ ⊢; linarith) vp.le
  rw [← Rat.cast_le (K := ℝ)]
  push_cast
  rw [mul_add] at t2
  linarith

include hs in
/-- **C117** (f32) and it brightens: by at least 9 per cent when `7 sigma² ≤ 1` (sizes up to 15). -/
theorem c117_gaussian_brightens (hp : PowGood) (P : Profile) {svd : Svd F32} {img : Image F32} {v : Rat} (h : img.ShowsValues img.info fun _ _ _ => v)
    (n : Nat) (hodd : n % 2 = 1) (hn : n ≤ 15) (v0 : 1 / 2 ^ 80 ≤ v) (v1 : v ≤ 2 ^ 50) {δ : ℝ} (δ0 : 0 ≤ δ) (hδ : 2 * (n * n) * δ ≤ 1 / 1000)
    (hsvd : ∀ k, generateGaussianKernel P n sigma = .ok k → SvdSplits svd k n δ) (narrow : 7 * s ^ 2 ≤ 1)
    (hw : img.info.width + n ≤ 2147483648) (hh : img.info.height + n ≤ 2147483648) :
    ∃ out w, gaussianBlur svd P img n sigma = .ok out ∧ out.ShowsValues img.info w ∧
      ∀ x y c, x < img.info.width → y < img.info.height → c < img.info.channels → 1.09 * v ≤ w x y c := by
  obtain ⟨out, w, e, sv, hr⟩ := gaussian_constant hs s0 s1 hp P h n hodd (by omega) v0 v1 δ0 hsvd hw hh
  refine ⟨out, w, e, sv, fun x y c hx hy hc => ?_⟩
  have b := (abs_le.1 (hr x y c hx hy hc)).1
  obtain ⟨r0, r1⟩ := sigma_real s0 s1
  have hnn : n * n ≤ 225 := Nat.mul_le_mul hn hn
  have nr : (n : ℝ) * n ≤ 225 := by exact_mod_cast hnn
  have wr : 7 * (s : ℝ) ^ 2 ≤ 1 := by exact_mod_cast narrow
  have p := Real.pi_lt_d2
  have p0 := Real.pi_pos
  have A : 1.111 ≤ 1 / (2 * Real.pi * (s : ℝ) ^ 2) := by
    rw [le_div_iff₀ (by positivity)]
    have : (0 : ℝ) ≤ (s : ℝ) ^ 2 := by positivity
    nlinarith
  have mid : centreDist2 n (n / 2) (n / 2) = 0 := by
    unfold centreDist2
    rw [show (n - 1) / 2 = n / 2 by omega]; simp
  have K : 1 / (2 * Real.pi * (s : ℝ) ^ 2) ≤ ∑ i ∈ Finset.range n, ∑ j ∈ Finset.range n, gaussian2 s (centreDist2 n i j) := by
    have nn : ∀ i ∈ Finset.range n, ∀ j ∈ Finset.range n, 0 ≤ gaussian2 s (centreDist2 n i j) := fun i hi j hj =>
      (gauss_top s0 s1 (by exact_mod_cast (centreDist2_bounds (by omega) (Finset.mem_range.1 hi) (Finset.mem_range.1 hj)).1)).1
    have m : n / 2 ∈ Finset.range n := Finset.mem_range.2 (by omega)
    have g0 : gaussian2 (s : ℝ) (centreDist2 n (n / 2) (n / 2)) = 1 / (2 * Real.pi * (s : ℝ) ^ 2) := by
      rw [mid]; unfold gaussian2; simp
    rw [← g0]
    refine le_trans ?_ (Finset.single_le_sum (f := fun i => ∑ j ∈ Finset.range n, gaussian2 (s : ℝ) (centreDist2 n i j))
      (fun i hi => Finset.sum_nonneg fun j hj => nn i hi j hj) m)
    exact Finset.single_le_sum (f := fun j => gaussian2 (s : ℝ) (centreDist2 n (n / 2) j)) (fun j hj => nn _ m j hj) m
  have vp : (0 : ℝ) < v := by exact_mod_cast lt_of_lt_of_le (by positivity) v0
  have hN : (0 : ℝ) ≤ (n : ℝ) * n := by positivity
  generalize ∑ i ∈ Finset.range n, ∑ j ∈ Finset.range n, gaussian2 s (centreDist2 n i j) = G at *
  generalize (1 / (2 * Real.pi * (s : ℝ) ^ 2)) = A' at *
  generalize (n : ℝ) * n = N at *
  have t1 : (N + 24) / 2 ^ 23 * (N * A') ≤ 0.007 * A' := by
    rw [← mul_assoc]
    refine mul_le_mul_of_nonneg_right ?_ (by linarith)
    have : (N + 24) * N ≤ 249 * 225 := mul_le_mul (by linarith) nr hN (by norm_num)
    rw [div_mul_eq_mul_div, div_le_iff₀ (by positivity)]
    norm_num at this ⊢; linarith
  have t2 : (v : ℝ) * 1.09 ≤ v * (G - ((N + 24) / 2 ^ 23 * (N * A') + 2 * N * δ + 1 / 2 ^ 20)) :=
    mul_le_mul_of_nonneg_left (by norm_num at t1 hδ ⊢; linarith) vp.le
  rw [← Rat.cast_le (K := ℝ)]
  push_cast
  rw [mul_sub] at t2
  linarith
end

/-- an example: the 3 x 3 blur with sigma 2 of an image of one byte value from 1 to 255 -/
example (P : Profile) (a : UInt8) (ha : a ≠ 0) : letI := goodLibm
    ∃ (g out : Image F32) (w : Nat → Nat → Nat → Rat), imageU8ToFloat P (gray6 a a a a a a) = .ok g ∧
      gaussianBlur fullRank P g 3 (num 2) = .ok out ∧ out.ShowsValues g.info w ∧ w 1 1 0 ≤ 0.97 * (a.toNat : Rat) := by
  let := goodLibm
  have two : (num 2 : F32).Is 2 := by simpa using num32 (n := 2) (by decide)
  obtain ⟨g, eg, hg⟩ := imageU8ToFloat_values P (gray6_WF a a a a a a)
  have hi : g.info = (gray6 a a a a a a).info := hg.2.1
  have hg' : g.ShowsValues g.info fun _ _ _ => (a.toNat : Rat) := by
    obtain ⟨h1, h2, h3⟩ := hg
    refine ⟨h1, rfl, fun P x y hx hy => ?_⟩
    rw [hi] at hx hy ⊢
    obtain ⟨p, e, l, h⟩ := h3 P x y hx hy
    refine ⟨p, e, l, fun c hc => ?_⟩
    obtain ⟨r, hr, hv⟩ := h c hc
    refine ⟨r, hr, ?_⟩
    have hx : x < 3 := hx
    have hy : y < 2 := hy
    have hc : c = 0 := Nat.lt_one_iff.1 hc
    subst hc
    interval_cases x <;> interval_cases y <;> exact_mod_cast hv
  have a1 : 1 ≤ a.toNat := by
    rcases Nat.eq_zero_or_pos a.toNat with h | h
    · exact absurd (UInt8.toNat_inj.1 h) ha
    · exact h
  have a2 := a.toNat_lt
  have a1' : (1 : Rat) ≤ a.toNat := by exact_mod_cast a1
  have a2' : ((a.toNat : Nat) : Rat) ≤ 256 := by exact_mod_cast a2.le
  obtain ⟨out, w, e, s, hr⟩ := c117_gaussian_darkens two (by norm_num) (by norm_num) goodLibm_spec P (svd := fullRank) (δ := 0) hg' 3 rfl (by decide)
    (le_trans (by norm_num) a1') (a2'.trans (by norm_num)) le_rfl (by norm_num) (fun k hk => fullRank_splits k (by
      obtain ⟨k', e', hl, -⟩ := c43_gaussian P 3 (num 2 : F32) rfl (by decide)
      rw [e'] at hk
      cases hk
      exact hl)) (by norm_num) (by rw [hi]; dims) (by rw [hi]; dims)
  exact ⟨g, out, w, eg, e, s, hr 1 1 0 (by rw [hi]; dims) (by rw [hi]; dims) (by rw [hi]; dims)⟩
end Imgproc

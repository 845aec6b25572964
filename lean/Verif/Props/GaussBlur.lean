import Verif.Props.GaussErr
import Verif.Props.FilterErr2
/-! Property C117: what Gaussian blur and the Laplacian of Gaussian compute in f32. -/
namespace Imgproc
open FloatOps

/-- spec: the padded correlation of an image of numbers with the real weights `g` (row, column) -/
noncomputable def realResponse (info : ImageInfo) (g : Nat → Nat → ℝ) (n : Nat) (v : Nat → Nat → Nat → Rat) (x y c : Nat) : ℝ :=
  ∑ i ∈ Finset.range n, ∑ j ∈ Finset.range n, g i j *
    (v (padCoord info.width x ((x : Int) - (n / 2 : Nat) + j)) (padCoord info.height y ((y : Int) - (n / 2 : Nat) + i)) c : ℝ)

theorem ratResponse_cast (info : ImageInfo) (m : Nat → Rat) (n : Nat) (v : Nat → Nat → Nat → Rat) (x y c : Nat) :
    ((ratResponse2d info m n v x y c : Rat) : ℝ) = realResponse info (fun i j => m (i * n + j)) n v x y c := by
  unfold ratResponse2d realResponse
  push_cast
  rfl

theorem realResponse_mono {info : ImageInfo} {g h : Nat → Nat → ℝ} {n : Nat} (v : Nat → Nat → Nat → Rat) (x y c : Nat)
    (hgh : ∀ i < n, ∀ j < n, g i j ≤ h i j) :
    realResponse info g n (fun x y c => |v x y c|) x y c ≤ realResponse info h n (fun x y c => |v x y c|) x y c := by
  unfold realResponse
  refine Finset.sum_le_sum fun i hi => Finset.sum_le_sum fun j hj => ?_
  refine mul_le_mul_of_nonneg_right (hgh i (Finset.mem_range.1 hi) j (Finset.mem_range.1 hj)) ?_
  push_cast
  exact abs_nonneg _

theorem realResponse_diff {info : ImageInfo} {g h ε : Nat → Nat → ℝ} {n : Nat} (v : Nat → Nat → Nat → Rat) (x y c : Nat)
    (hgh : ∀ i < n, ∀ j < n, |g i j - h i j| ≤ ε i j) :
    |realResponse info g n v x y c - realResponse info h n v x y c| ≤ realResponse info ε n (fun x y c => |v x y c|) x y c := by
  unfold realResponse
  rw [← Finset.sum_sub_distrib]
  refine (Finset.abs_sum_le_sum_abs _ _).trans (Finset.sum_le_sum fun i hi => ?_)
  rw [← Finset.sum_sub_distrib]
  refine (Finset.abs_sum_le_sum_abs _ _).trans (Finset.sum_le_sum fun j hj => ?_)
  rw [← sub_mul, abs_mul]
  push_cast
  exact mul_le_mul_of_nonneg_right (hgh i (Finset.mem_range.1 hi) j (Finset.mem_range.1 hj)) (abs_nonneg _)

theorem realResponse_add (info : ImageInfo) (g h : Nat → Nat → ℝ) (n : Nat) (v : Nat → Nat → Nat → Rat) (x y c : Nat) :
    realResponse info (fun i j => g i j + h i j) n v x y c = realResponse info g n v x y c + realResponse info h n v x y c := by
  unfold realResponse
  simp only [add_mul, Finset.sum_add_distrib]

theorem realResponse_smul (info : ImageInfo) (k : ℝ) (g : Nat → Nat → ℝ) (n : Nat) (v : Nat → Nat → Nat → Rat) (x y c : Nat) :
    realResponse info (fun i j => k * g i j) n v x y c = k * realResponse info g n v x y c := by
  unfold realResponse
  simp only [Finset.mul_sum, mul_assoc]

/-- a constant weight on an image of bounded numbers -/
theorem realResponse_const {info : ImageInfo} {t : ℝ} (t0 : 0 ≤ t) (n : Nat) {v : Nat → Nat → Nat → Rat} {B : Rat} {x y c : Nat}
    (hv : ∀ x y c, x < info.width → y < info.height → c < info.channels → |v x y c| ≤ B)
    (hx : x < info.width) (hy : y < info.height) (hc : c < info.channels) :
    realResponse info (fun _ _ => t) n (fun x y c => |v x y c|) x y c ≤ n * n * (t * B) := by
  unfold realResponse
  calc _ ≤ ∑ i ∈ Finset.range n, ∑ j ∈ Finset.range n, t * (B : ℝ) := by
        refine Finset.sum_le_sum fun i _ => Finset.sum_le_sum fun j _ => mul_le_mul_of_nonneg_left ?_ t0
        exact (Rat.cast_le (K := ℝ)).2 (hv _ _ _ (padCoord_lt hx) (padCoord_lt hy) hc)
    _ = _ := by simp; ring

section
variable [Libm f32]

/-- `unseparable_filter` with a kernel known up to an error: the padded correlation with the true weights -/
theorem unsep_real (P : Profile) {img : Image F32} {v : Nat → Nat → Nat → Rat} (h : img.ShowsValues img.info v)
    (kernel : List F32) (n : Nat) (m : Nat → Rat) (g ε : Nat → Nat → ℝ) (hodd : n % 2 = 1) (hk : kernel.length = n * n) (hn : n * n < 2 ^ 23)
    (hm : ∀ i < kernel.length, (kernel.getD i (num 0)).Is (m i)) (hg : ∀ i < n, ∀ j < n, |(m (i * n + j) : ℝ) - g i j| ≤ ε i j)
    (hb : ∀ x y c, x < img.info.width → y < img.info.height → c < img.info.channels →
      realResponse img.info (fun i j => |g i j| + ε i j) n (fun x y c => |v x y c|) x y c ≤ 2 ^ 97)
    (hw : img.info.width + n ≤ 2147483648) (hh : img.info.height + n ≤ 2147483648) :
    ∃ out w, unseparableFilter P img kernel = .ok out ∧ out.ShowsValues img.info w ∧
      ∀ x y c, x < img.info.width → y < img.info.height → c < img.info.channels →
        |(w x y c : ℝ) - ratResponse2d img.info m n v x y c| ≤
          (n * n + 1) / 2 ^ 23 * ratResponse2d img.info (fun i => |m i|) n (fun x y c => |v x y c|) x y c + n * n / 2 ^ 147 ∧
        |(w x y c : ℝ) - realResponse img.info g n v x y c| ≤
          realResponse img.info (fun i j => (n * n + 1) / 2 ^ 23 * (|g i j| + ε i j) + ε i j) n (fun x y c => |v x y c|) x y c + n * n / 2 ^ 147 := by
  have hr : ∀ x y c, ((ratResponse2d img.info (fun i => |m i|) n (fun x y c => |v x y c|) x y c : Rat) : ℝ) ≤
      realResponse img.info (fun i j => |g i j| + ε i j) n (fun x y c => |v x y c|) x y c := by
    intro x y c
    rw [ratResponse_cast]
    refine realResponse_mono v x y c fun i hi j hj => ?_
    push_cast
    have := abs_add_le ((m (i * n + j) : ℝ) - g i j) (g i j)
    rw [sub_add_cancel] at this
    linarith [hg i hi j hj]
  obtain ⟨out, e, hs⟩ := c109_unseparable P h kernel n m hodd hk hn hm (fun x y c hx hy hc => by
    have := (hr x y c).trans (hb x y c hx hy hc)
    exact_mod_cast this) hw hh
  obtain ⟨w, hw', he⟩ := hs.values
  refine ⟨out, w, e, hw', fun x y c hx hy hc => ?_⟩
  have e1 := (Rat.cast_le (K := ℝ)).2 (he x y c hx hy hc)
  rw [Rat.cast_abs, Rat.cast_sub] at e1
  simp only [Rat.cast_add, Rat.cast_mul, Rat.cast_div, Rat.cast_natCast, Rat.cast_pow, Rat.cast_ofNat, Rat.cast_one] at e1
  refine ⟨e1, ?_⟩
  have e2 := realResponse_diff (info := img.info) v x y c hg
  rw [← ratResponse_cast] at e2
  have t := abs_sub_le (w x y c : ℝ) ((ratResponse2d img.info m n v x y c : Rat) : ℝ) (realResponse img.info g n v x y c)
  rw [realResponse_add, realResponse_smul]
  have e3 : ((n : ℝ) * n + 1) / 2 ^ 23 * ((ratResponse2d img.info (fun i => |m i|) n (fun x y c => |v x y c|) x y c : Rat) : ℝ) ≤
      ((n : ℝ) * n + 1) / 2 ^ 23 * realResponse img.info (fun i j => |g i j| + ε i j) n (fun x y c => |v x y c|) x y c :=
    mul_le_mul_of_nonneg_left (hr x y c) (by positivity)
  linarith

omit [Libm f32] in
theorem realResponse_le_sum {info : ImageInfo} {g : Nat → Nat → ℝ} {n : Nat} {v : Nat → Nat → Nat → Rat} {B : Rat} {x y c : Nat}
    (hg : ∀ i < n, ∀ j < n, 0 ≤ g i j)
    (hv : ∀ x y c, x < info.width → y < info.height → c < info.channels → |v x y c| ≤ B)
    (hx : x < info.width) (hy : y < info.height) (hc : c < info.channels) :
    realResponse info g n (fun x y c => |v x y c|) x y c ≤ (∑ i ∈ Finset.range n, ∑ j ∈ Finset.range n, g i j) * B := by
  unfold realResponse
  rw [Finset.sum_mul]
  refine Finset.sum_le_sum fun i hi => ?_
  rw [Finset.sum_mul]
  refine Finset.sum_le_sum fun j hj => mul_le_mul_of_nonneg_left ?_ (hg i (Finset.mem_range.1 hi) j (Finset.mem_range.1 hj))
  exact (Rat.cast_le (K := ℝ)).2 (hv _ _ _ (padCoord_lt hx) (padCoord_lt hy) hc)

/-- the numbers of a kernel of numbers -/
theorem kernel_numbers {out : List F32} {size : Nat} {p : Nat → Nat → Rat → Prop} (hl : out.length = size * size)
    (h : ∀ i j, i < size → j < size → ∃ x w, out[i * size + j]? = some x ∧ Flt.Is x w ∧ p i j w) :
    ∃ m : Nat → Rat, (∀ i < out.length, (out.getD i (num 0)).Is (m i)) ∧ ∀ i < size, ∀ j < size, p i j (m (i * size + j)) := by
  have : ∀ k, ∃ w : Rat, k < out.length → (out.getD k (num 0)).Is w ∧ p (k / size) (k % size) w := by
    intro k
    by_cases hk : k < out.length
    · rw [hl] at hk
      have s0 : 0 < size := by by_contra h0; obtain rfl : size = 0 := by omega
                               simp at hk
      obtain ⟨x, w, e, hw, hp⟩ := h (k / size) (k % size) (Nat.div_lt_of_lt_mul hk) (Nat.mod_lt _ s0)
      rw [Nat.div_add_mod' k size] at e
      refine ⟨w, fun _ => ⟨?_, hp⟩⟩
      rw [List.getD_eq_getElem?_getD, e]; exact hw
    · exact ⟨0, fun h' => absurd h' hk⟩
  choose m hm using this
  refine ⟨m, fun i hi => (hm i hi).1, fun i hi j hj => ?_⟩
  have hlt : i * size + j < out.length := by
    rw [hl]
    calc i * size + j < i * size + size := by omega
      _ = (i + 1) * size := by ring
      _ ≤ size * size := Nat.mul_le_mul_right _ hi
  have := (hm _ hlt).2
  rwa [Nat.add_comm, Nat.add_mul_div_right _ _ (by omega), Nat.div_eq_of_lt hj, Nat.zero_add, Nat.add_mul_mod_self_right, Nat.mod_eq_of_lt hj,
    Nat.add_comm] at this

/-- spec: what is asked of the singular value decomposition on a kernel: either it says that the kernel is not separable, or it
gives a column and a row of numbers (absolute sums at most 2^20) whose products reproduce the kernel entries within `δ` -/
def SvdSplits (svd : Svd F32) (kernel : List F32) (n : Nat) (δ : ℝ) : Prop :=
  separateKernel svd kernel = .ok none ∨
  ∃ (vert horz : List F32) (mv mh : Nat → Rat), separateKernel svd kernel = .ok (some (vert, horz)) ∧ vert.length = n ∧ horz.length = n ∧
    (∀ i < n, (vert.getD i (num 0)).Is (mv i)) ∧ (∀ i < n, (horz.getD i (num 0)).Is (mh i)) ∧
    ∑ i ∈ Finset.range n, |mv i| ≤ 2 ^ 20 ∧ ∑ i ∈ Finset.range n, |mh i| ≤ 2 ^ 20 ∧
    ∀ i < n, ∀ j < n, ∀ a, (kernel.getD (i * n + j) (num 0)).Is a → |(mv i * mh j - a : ℝ)| ≤ δ

section
variable {sigma : F32} {s : Rat} (hs : sigma.Is s) (s0 : 1 / 16 ≤ s) (s1 : s ≤ 1000)
include s0 s1

omit [Libm f32] in
/-- a Gaussian weight times `1 + z` is at most 43 -/
theorem gauss_peak {d : ℝ} (d0 : 0 ≤ d) : 0 ≤ gaussian2 s d ∧ gaussian2 s d ≤ (1 + d / (2 * (s : ℝ) ^ 2)) * gaussian2 s d ∧
    (1 + d / (2 * (s : ℝ) ^ 2)) * gaussian2 s d ≤ 43 := by
  obtain ⟨r0, r1⟩ := sigma_real s0 s1
  have p1 := Real.pi_gt_three
  have q0 : (1 / 256 : ℝ) ≤ s ^ 2 := by nlinarith
  have A0 : 0 < 1 / (2 * Real.pi * (s : ℝ) ^ 2) := by positivity
  have A1 : 1 / (2 * Real.pi * (s : ℝ) ^ 2) ≤ 43 := by rw [div_le_iff₀ (by positivity)]; nlinarith
  have z0 : 0 ≤ d / (2 * (s : ℝ) ^ 2) := by positivity
  unfold gaussian2
  set z := d / (2 * (s : ℝ) ^ 2)
  have E0 := Real.exp_pos (-z)
  have M1 : (1 + z) * Real.exp (-z) ≤ 1 := by
    rw [Real.exp_neg, ← div_eq_mul_inv, div_le_one (Real.exp_pos z)]
    linarith [Real.add_one_le_exp z]
  refine ⟨by positivity, le_mul_of_one_le_left (by positivity) (by linarith), ?_⟩
  calc _ = 1 / (2 * Real.pi * (s : ℝ) ^ 2) * ((1 + z) * Real.exp (-z)) := by ring
    _ ≤ 43 * 1 := mul_le_mul A1 M1 (by positivity) (by norm_num)
    _ = 43 := by norm_num

set_option maxHeartbeats 1000000 in
include hs in
/-- **C117** `gaussian_blur` in f32, on an image of numbers of magnitude at most `B`: every output channel is a number that differs
from the padded correlation with the true Gaussian weights by at most `(n² + 24) / 2^23` of `B` times the sum of the weights times
`1 + d / 2σ²`, whichever branch `linear_filter` takes; `δ` is the accuracy of the singular value decomposition. -/
theorem c117_gaussian_blur (hp : PowGood) (P : Profile) {svd : Svd F32} {img : Image F32} {v : Nat → Nat → Nat → Rat} (h : img.ShowsValues img.info v)
    (n : Nat) (hodd : n % 2 = 1) (hn : n * n < 2 ^ 23) {B : Rat} (B1 : B ≤ 2 ^ 50) (B0 : 0 ≤ B) {δ : ℝ} (δ0 : 0 ≤ δ)
    (hv : ∀ x y c, x < img.info.width → y < img.info.height → c < img.info.channels → |v x y c| ≤ B)
    (hsvd : ∀ k, generateGaussianKernel P n sigma = .ok k → SvdSplits svd k n δ)
    (hw : img.info.width + n ≤ 2147483648) (hh : img.info.height + n ≤ 2147483648) :
    ∃ out w, gaussianBlur svd P img n sigma = .ok out ∧ out.ShowsValues img.info w ∧
      ∀ x y c, x < img.info.width → y < img.info.height → c < img.info.channels →
        |(w x y c : ℝ) - realResponse img.info (fun i j => gaussian2 s (centreDist2 n i j)) n v x y c| ≤
          B * ((n * n + 24) / 2 ^ 23 * (∑ i ∈ Finset.range n, ∑ j ∈ Finset.range n,
            (1 + centreDist2 n i j / (2 * (s : ℝ) ^ 2)) * gaussian2 s (centreDist2 n i j)) + 2 * (n * n) * δ + n * n / 2 ^ 128) + n * n / 2 ^ 120 := by
  have hn' : n ≤ 4095 := by by_contra h'; have : 4096 * 4096 ≤ n * n := Nat.mul_le_mul (by omega) (by omega); omega
  obtain ⟨k, ek, hl, hk⟩ := c116_gaussian_value hs s0 s1 hp P n hodd hn'
  obtain ⟨m, hm, hmp⟩ := kernel_numbers hl hk
  have hsplit := hsvd k ek
  have d0 : ∀ i < n, ∀ j < n, (0 : ℝ) ≤ (centreDist2 n i j : ℝ) := fun i hi j hj => by exact_mod_cast (centreDist2_bounds hn' hi hj).1
  set g : Nat → Nat → ℝ := fun i j => gaussian2 s (centreDist2 n i j) with hg
  set z1 : Nat → Nat → ℝ := fun i j => (1 + centreDist2 n i j / (2 * (s : ℝ) ^ 2)) * gaussian2 s (centreDist2 n i j) with hz1
  have G : ∀ i < n, ∀ j < n, 0 ≤ g i j ∧ g i j ≤ z1 i j ∧ z1 i j ≤ 43 := fun i hi j hj => gauss_peak s0 s1 (d0 i hi j hj)
  set K := ∑ i ∈ Finset.range n, ∑ j ∈ Finset.range n, z1 i j with hK
  have K0 : 0 ≤ K := Finset.sum_nonneg fun i hi => Finset.sum_nonneg fun j hj => by
    obtain ⟨a, b, -⟩ := G i (Finset.mem_range.1 hi) j (Finset.mem_range.1 hj); linarith
  have hn2 : ((n * n : Nat) : ℝ) + 1 ≤ 2 ^ 23 := by exact_mod_cast hn
  push_cast at hn2
  have nn0 : (0 : ℝ) ≤ n * n := by positivity
  have BR0 : (0 : ℝ) ≤ B := by exact_mod_cast B0
  have BR1 : (B : ℝ) ≤ 2 ^ 50 := by
    have := (Rat.cast_le (K := ℝ)).2 B1; push_cast at this; exact this
  set ε : Nat → Nat → ℝ := fun i j => z1 i j / 2 ^ 20 + 1 / 2 ^ 130 with hε
  have hmε : ∀ i < n, ∀ j < n, |(m (i * n + j) : ℝ) - g i j| ≤ ε i j := fun i hi j hj => (hmp i hi j hj).2
  have hodd2 : k.length % 2 = 1 := by rw [hl, Nat.mul_mod, hodd]
  have sumε : ∑ i ∈ Finset.range n, ∑ j ∈ Finset.range n, ε i j = K / 2 ^ 20 + n * n / 2 ^ 130 := by
    simp only [hε, Finset.sum_add_distrib, ← Finset.sum_div]
    simp; ring
  have pre : gaussianBlur svd P img n sigma = linearFilter svd P img k := by
    unfold gaussianBlur; rw [ek]; rfl
  have pre2 : ∀ r, separateKernel svd k = .ok r → linearFilter svd P img k =
      match r with | some (vert, horz) => separableFilter P img vert horz | none => unseparableFilter P img k := by
    intro r hr
    unfold linearFilter
    rw [checkOdd_usize_ok hodd2, ok_bind, hl, checkSquare_sq (by omega), ok_bind, hr, ok_bind]
    rcases r with _ | ⟨vert, horz⟩ <;> rfl
  rcases hsplit with hnone | ⟨vert, horz, mv, mh, hsome, lv, lh, hmv, hmh, V1, H1, hδ⟩
  · obtain ⟨out, w, e, hsw, hval⟩ := unsep_real P h k n m g ε hodd hl hn hm hmε (fun x y c hx hy hc => by
      refine (realResponse_mono (h := fun _ _ => 87) v x y c fun i hi j hj => ?_).trans
        ((realResponse_const (by norm_num) n hv hx hy hc).trans ?_)
      · obtain ⟨a, b, c⟩ := G i hi j hj
        show |g i j| + (z1 i j / 2 ^ 20 + 1 / 2 ^ 130) ≤ 87
        rw [abs_of_nonneg a]
        norm_num
        linarith
      · calc (n : ℝ) * n * (87 * B) ≤ 2 ^ 23 * (87 * 2 ^ 50) := mul_le_mul (by linarith) (by linarith) (by positivity) (by norm_num)
          _ ≤ 2 ^ 97 := by norm_num) hw hh
    refine ⟨out, w, by rw [pre, pre2 none hnone]; exact e, hsw, fun x y c hx hy hc => (hval x y c hx hy hc).2.trans ?_⟩
    have b1 := realResponse_le_sum (info := img.info) (g := fun i j => ((n : ℝ) * n + 1) / 2 ^ 23 * (|g i j| + ε i j) + ε i j) (n := n) (v := v) (B := B)
      (x := x) (y := y) (c := c) (fun i hi j hj => by
        obtain ⟨a, b, -⟩ := G i hi j hj
        have : 0 ≤ ε i j := by show 0 ≤ z1 i j / 2 ^ 20 + 1 / 2 ^ 130; have : 0 ≤ z1 i j := by linarith
                               positivity
        positivity) hv hx hy hc
    have b2 : ∑ i ∈ Finset.range n, ∑ j ∈ Finset.range n, (((n : ℝ) * n + 1) / 2 ^ 23 * (|g i j| + ε i j) + ε i j) ≤
        ((n : ℝ) * n + 1) / 2 ^ 23 * K + 2 * (K / 2 ^ 20 + n * n / 2 ^ 130) := by
      rw [← sumε, hK, Finset.mul_sum, Finset.mul_sum, ← Finset.sum_add_distrib]
      refine Finset.sum_le_sum fun i hi => ?_
      rw [Finset.mul_sum, Finset.mul_sum, ← Finset.sum_add_distrib]
      refine Finset.sum_le_sum fun j hj => ?_
      obtain ⟨a, b, -⟩ := G i (Finset.mem_range.1 hi) j (Finset.mem_range.1 hj)
      have e0 : 0 ≤ ε i j := by show 0 ≤ z1 i j / 2 ^ 20 + 1 / 2 ^ 130; have : 0 ≤ z1 i j := by linarith
                                positivity
      rw [abs_of_nonneg a]
      have q1 : ((n : ℝ) * n + 1) / 2 ^ 23 ≤ 1 := by rw [div_le_one (by norm_num)]; exact hn2
      have q2 : ((n : ℝ) * n + 1) / 2 ^ 23 * ε i j ≤ 1 * ε i j := mul_le_mul_of_nonneg_right q1 e0
      have q3 : ((n : ℝ) * n + 1) / 2 ^ 23 * g i j ≤ ((n : ℝ) * n + 1) / 2 ^ 23 * z1 i j := mul_le_mul_of_nonneg_left b (by positivity)
      linarith
    have b3 := mul_le_mul_of_nonneg_right b2 BR0
    have KB : 0 ≤ K * B := by positivity
    have nB : 0 ≤ (n : ℝ) * n * B := by positivity
    have nδ : 0 ≤ (n : ℝ) * n * δ * B := by positivity
    have nK : 0 ≤ (n : ℝ) * n * (K * B) := by positivity
    norm_num at b1 b3 ⊢
    linarith
  · have δm : ∀ i < n, ∀ j < n, |((mv i * mh j : Rat) : ℝ) - m (i * n + j)| ≤ δ := by
      intro i hi j hj
      have hlt : i * n + j < k.length := by
        rw [hl]
        calc i * n + j < i * n + n := by omega
          _ = (i + 1) * n := by ring
          _ ≤ n * n := Nat.mul_le_mul_right _ hi
      have := hδ i hi j hj _ (hm _ hlt)
      push_cast
      exact this
    have εδ : ∀ i < n, ∀ j < n, |((mv i * mh j : Rat) : ℝ) - g i j| ≤ ε i j + δ := fun i hi j hj => by
      have := abs_sub_le ((mv i * mh j : Rat) : ℝ) (m (i * n + j)) (g i j)
      linarith [δm i hi j hj, hmε i hi j hj]
    set V := ∑ i ∈ Finset.range n, |mv i| with hV
    set H := ∑ i ∈ Finset.range n, |mh i| with hH
    have V0 : 0 ≤ V := Finset.sum_nonneg fun _ _ => abs_nonneg _
    have H0 : 0 ≤ H := Finset.sum_nonneg fun _ _ => abs_nonneg _
    have VB : V * B ≤ 2 ^ 20 * 2 ^ 50 := mul_le_mul V1 B1 B0 (by norm_num)
    have HVB : H * (V * B) ≤ 2 ^ 20 * (2 ^ 20 * 2 ^ 50) := mul_le_mul H1 VB (by positivity) (by norm_num)
    have key := c109_separable P h vert horz mv mh B (by rw [lv]; exact hodd) (by rw [lv, lh]) (by rw [lv]; exact lt_of_le_of_lt (Nat.le_mul_self n) hn)
      (by rw [lv]; exact hmv) (by rw [lh]; exact hmh) B0 hv (by rw [lv, ← hV]; exact VB.trans (by norm_num))
      (by rw [lv, ← hV, ← hH]; exact HVB.trans (by norm_num)) (by rw [lv, ← hH]; exact H1.trans (by norm_num)) (by rw [lv]; exact hw) (by rw [lv]; exact hh)
    rw [lv, ← hV, ← hH] at key
    obtain ⟨out, e, hsn⟩ := key
    obtain ⟨w, hsw, he⟩ := hsn.values
    refine ⟨out, w, by rw [pre, pre2 _ hsome]; exact e, hsw, fun x y c hx hy hc => ?_⟩
    have e1 := (Rat.cast_le (K := ℝ)).2 (he x y c hx hy hc)
    rw [Rat.cast_abs, Rat.cast_sub] at e1
    have VH : ((V * H : Rat) : ℝ) ≤ K * (1 + 1 / 2 ^ 20) + n * n / 2 ^ 130 + n * n * δ := by
      have a1 : ((V * H : Rat) : ℝ) = ∑ i ∈ Finset.range n, ∑ j ∈ Finset.range n, |((mv i * mh j : Rat) : ℝ)| := by
        rw [hV, hH, Finset.sum_mul_sum]
        push_cast
        simp only [abs_mul]
      rw [a1]
      calc _ ≤ ∑ i ∈ Finset.range n, ∑ j ∈ Finset.range n, (z1 i j + (ε i j + δ)) := by
            refine Finset.sum_le_sum fun i hi => Finset.sum_le_sum fun j hj => ?_
            obtain ⟨a, b, -⟩ := G i (Finset.mem_range.1 hi) j (Finset.mem_range.1 hj)
            have t := abs_add_le (((mv i * mh j : Rat) : ℝ) - g i j) (g i j)
            rw [sub_add_cancel, abs_of_nonneg a] at t
            linarith [εδ i (Finset.mem_range.1 hi) j (Finset.mem_range.1 hj)]
        _ = K + (∑ i ∈ Finset.range n, ∑ j ∈ Finset.range n, ε i j) + n * n * δ := by
            simp only [Finset.sum_add_distrib]
            rw [hK]
            simp; ring
        _ = _ := by rw [sumε]; ring
    have e2 : |((ratResponse2d img.info (fun k => mv (k / n) * mh (k % n)) n v x y c : Rat) : ℝ) - realResponse img.info g n v x y c| ≤
        (K / 2 ^ 20 + n * n / 2 ^ 130 + n * n * δ) * B := by
      rw [ratResponse_cast]
      refine (realResponse_diff (ε := fun i j => ε i j + δ) v x y c fun i hi j hj => ?_).trans ((realResponse_le_sum (fun i hi j hj => ?_) hv hx hy hc).trans
        (le_of_eq ?_))
      · rw [Nat.add_comm (i * n), Nat.add_mul_div_right _ _ (by omega), Nat.div_eq_of_lt hj, Nat.zero_add, Nat.add_mul_mod_self_right, Nat.mod_eq_of_lt hj]
        exact εδ i hi j hj
      · have := abs_nonneg (((mv i * mh j : Rat) : ℝ) - g i j)
        linarith [εδ i hi j hj]
      · have : ∑ i ∈ Finset.range n, ∑ j ∈ Finset.range n, (ε i j + δ) = K / 2 ^ 20 + n * n / 2 ^ 130 + n * n * δ := by
          rw [← sumε]
          simp only [Finset.sum_add_distrib]
          simp; ring
        rw [this]
    have t := abs_sub_le (w x y c : ℝ) ((ratResponse2d img.info (fun k => mv (k / n) * mh (k % n)) n v x y c : Rat) : ℝ) (realResponse img.info g n v x y c)
    have HR : (H : ℝ) ≤ 2 ^ 20 := by
      have := (Rat.cast_le (K := ℝ)).2 H1; push_cast at this; exact this
    have n1 : (1 : ℝ) ≤ n := by exact_mod_cast (by omega : 1 ≤ n)
    have n3 : (n : ℝ) ≤ 4095 := by exact_mod_cast hn'
    have VHB : ((V * H * B : Rat) : ℝ) ≤ (K * (1 + 1 / 2 ^ 20) + n * n / 2 ^ 130 + n * n * δ) * B := by
      rw [Rat.cast_mul]; exact mul_le_mul_of_nonneg_right VH BR0
    have b1 : 3 * (((n : ℝ) + 1) / 2 ^ 23) * ((V * H * B : Rat) : ℝ) ≤
        3 * (((n : ℝ) + 1) / 2 ^ 23) * ((K * (1 + 1 / 2 ^ 20) + n * n / 2 ^ 130 + n * n * δ) * B) := mul_le_mul_of_nonneg_left VHB (by positivity)
    have b2 : (1 + 2 * (H : ℝ)) * ((n : ℝ) / 2 ^ 147) ≤ n * n / 2 ^ 120 := by
      have : (1 + 2 * (H : ℝ)) * ((n : ℝ) / 2 ^ 147) ≤ 2 ^ 22 * ((n : ℝ) / 2 ^ 147) := mul_le_mul_of_nonneg_right (by norm_num at HR ⊢; linarith) (by positivity)
      have q : (n : ℝ) ≤ n * n := by nlinarith
      norm_num at this ⊢
      linarith
    have e1' : |(w x y c : ℝ) - ((ratResponse2d img.info (fun k => mv (k / n) * mh (k % n)) n v x y c : Rat) : ℝ)| ≤
        3 * (((n : ℝ) + 1) / 2 ^ 23) * ((V * H * B : Rat) : ℝ) + (1 + 2 * (H : ℝ)) * ((n : ℝ) / 2 ^ 147) := by
      refine e1.trans (le_of_eq ?_)
      push_cast
      ring
    have KB : 0 ≤ K * B := by positivity
    have nB : 0 ≤ (n : ℝ) * n * B := by positivity
    have nδ : 0 ≤ (n : ℝ) * n * δ * B := by positivity
    have nc : 3 * (((n : ℝ) + 1) / 2 ^ 23) ≤ 1 := by norm_num; linarith
    have c1 : 3 * (((n : ℝ) + 1) / 2 ^ 23) * ((K * (1 + 1 / 2 ^ 20) + n * n / 2 ^ 130 + n * n * δ) * B) ≤
        3 * (((n : ℝ) + 1) / 2 ^ 23) * (K * B) + 1 * (K * B / 2 ^ 20 + n * n * B / 2 ^ 130 + n * n * δ * B) := by
      have : 3 * (((n : ℝ) + 1) / 2 ^ 23) * (K * B / 2 ^ 20 + n * n * B / 2 ^ 130 + n * n * δ * B) ≤
          1 * (K * B / 2 ^ 20 + n * n * B / 2 ^ 130 + n * n * δ * B) := mul_le_mul_of_nonneg_right nc (by positivity)
      have e : 3 * (((n : ℝ) + 1) / 2 ^ 23) * ((K * (1 + 1 / 2 ^ 20) + n * n / 2 ^ 130 + n * n * δ) * B) =
        3 * (((n : ℝ) + 1) / 2 ^ 23) * (K * B) + 3 * (((n : ℝ) + 1) / 2 ^ 23) * (K * B / 2 ^ 20 + n * n * B / 2 ^ 130 + n * n * δ * B) := by ring
      linarith
    have c2 : (3 * ((n : ℝ) + 1) + 16) * (K * B) ≤ (n * n + 24) * (K * B) := mul_le_mul_of_nonneg_right (by nlinarith [sq_nonneg ((n : ℝ) - 2)]) KB
    clear_value K V H ε z1 g
    generalize ((V * H * B : Rat) : ℝ) = X at e1' b1
    generalize ((ratResponse2d img.info (fun k => mv (k / n) * mh (k % n)) n v x y c : Rat) : ℝ) = Y at t e1' e2
    generalize realResponse img.info g n v x y c = Z at t e2 ⊢
    generalize (w x y c : ℝ) = W at t e1' ⊢
    have c3 : B * ((n * n + 24) / 2 ^ 23 * K + 2 * (n * n) * δ + n * n / 2 ^ 128) =
      (n * n + 24) * (K * B) / 2 ^ 23 + 2 * (n * n * δ * B) + n * n * B / 2 ^ 128 := by ring
    have c4 : (K / 2 ^ 20 + n * n / 2 ^ 130 + n * n * δ) * B = K * B / 2 ^ 20 + n * n * B / 2 ^ 130 + n * n * δ * B := by ring
    have c5 : 3 * (((n : ℝ) + 1) / 2 ^ 23) * (K * B) = (3 * ((n : ℝ) + 1)) * (K * B) / 2 ^ 23 := by ring
    have c6 : (3 * ((n : ℝ) + 1) + 16) * (K * B) = (3 * ((n : ℝ) + 1)) * (K * B) + 16 * (K * B) := by ring
    rw [c3]
    rw [c4] at e2
    rw [c5] at c1
    rw [c6] at c2
    generalize (3 * ((n : ℝ) + 1)) * (K * B) = Q1 at c1 c2
    generalize ((n : ℝ) * n + 24) * (K * B) = Q2 at c2 ⊢
    generalize 3 * (((n : ℝ) + 1) / 2 ^ 23) * ((K * (1 + 1 / 2 ^ 20) + n * n / 2 ^ 130 + n * n * δ) * B) = Q3 at b1 c1
    generalize 3 * (((n : ℝ) + 1) / 2 ^ 23) * X = Q4 at b1 e1'
    generalize (1 + 2 * (H : ℝ)) * ((n : ℝ) / 2 ^ 147) = Q5 at b2 e1'
    generalize (n : ℝ) * n * δ * B = Q6 at *
    generalize (n : ℝ) * n * B = Q7 at *
    generalize K * B = Q8 at *
    generalize (n : ℝ) * n / 2 ^ 120 = Q9 at *
    generalize |W - Z| = A1 at *
    generalize |W - Y| = A2 at *
    generalize |Y - Z| = A3 at *
    clear * - t e1' e2 b1 b2 c1 c2 KB nB nδ
    norm_num at t e1' e2 b1 b2 c1 c2 ⊢
    linarith

omit [Libm f32] in
/-- bounds of the Laplacian-of-Gaussian weights -/
theorem log_peak {d : ℝ} (d0 : 0 ≤ d) : |logWeightR s d| ≤ (1 + d / (2 * (s : ℝ) ^ 2)) * |logWeightR s d| ∧
    (1 + d / (2 * (s : ℝ) ^ 2)) * |logWeightR s d| ≤ 2 ^ 17 := by
  obtain ⟨r0, r1⟩ := sigma_real s0 s1
  have p1 := Real.pi_gt_three
  have q4 : (1 / 65536 : ℝ) ≤ s ^ 4 := by
    have := pow_le_pow_left₀ (by norm_num) r0 4
    norm_num at this ⊢
    linarith
  have B0 : 0 < 1 / (Real.pi * (s : ℝ) ^ 4) := by positivity
  have B1 : 1 / (Real.pi * (s : ℝ) ^ 4) ≤ 65536 := by rw [div_le_iff₀ (by positivity)]; nlinarith
  have z0 : 0 ≤ d / (2 * (s : ℝ) ^ 2) := by positivity
  unfold logWeightR
  set z := d / (2 * (s : ℝ) ^ 2)
  have E0 := Real.exp_pos (-z)
  have M1 : (1 + z) * ((1 + z) * Real.exp (-z)) ≤ 2 := by
    rw [Real.exp_neg, ← mul_assoc, ← div_eq_mul_inv, div_le_iff₀ (Real.exp_pos z)]
    nlinarith [Real.quadratic_le_exp_of_nonneg z0]
  have e : |-1 / (Real.pi * (s : ℝ) ^ 4) * (1 + z) * Real.exp (-z)| = 1 / (Real.pi * (s : ℝ) ^ 4) * ((1 + z) * Real.exp (-z)) := by
    rw [abs_mul, abs_mul, abs_of_pos E0, abs_of_nonneg (by linarith : 0 ≤ 1 + z), show -1 / (Real.pi * (s : ℝ) ^ 4) = -(1 / (Real.pi * (s : ℝ) ^ 4)) by ring,
      abs_neg, abs_of_pos B0, mul_assoc]
  rw [e]
  refine ⟨le_mul_of_one_le_left (by positivity) (by linarith), ?_⟩
  calc _ = 1 / (Real.pi * (s : ℝ) ^ 4) * ((1 + z) * ((1 + z) * Real.exp (-z))) := by ring
    _ ≤ 65536 * 2 := mul_le_mul B1 M1 (by positivity) (by norm_num)
    _ = 2 ^ 17 := by norm_num

include hs in
/-- **C117** `laplacian_of_gaussian` in f32, on an image of numbers of magnitude at most `B`: every output channel is a number that
differs from the padded correlation with the weights `-1/πσ⁴ (1 + d / 2σ²) exp(-d / 2σ²)` by at most `(n² + 33 + 32 d / 2σ²) / 2^23`
of each term, plus an underflow term; and on an image of numbers of at least 2^-60 every output channel is negative (so C99 is
violated in f32 as well, for every size up to 2047). -/
theorem c117_log (hp : PowGood) (P : Profile) {img : Image F32} {v : Nat → Nat → Nat → Rat} (h : img.ShowsValues img.info v)
    (n : Nat) (hodd : n % 2 = 1) (hn : n * n < 2 ^ 23) {B : Rat} (B1 : B ≤ 2 ^ 50) (B0 : 0 ≤ B)
    (hv : ∀ x y c, x < img.info.width → y < img.info.height → c < img.info.channels → |v x y c| ≤ B)
    (hw : img.info.width + n ≤ 2147483648) (hh : img.info.height + n ≤ 2147483648) :
    ∃ out w, laplacianOfGaussian P img n sigma = .ok out ∧ out.ShowsValues img.info w ∧
      (∀ x y c, x < img.info.width → y < img.info.height → c < img.info.channels →
        |(w x y c : ℝ) - realResponse img.info (fun i j => logWeightR s (centreDist2 n i j)) n v x y c| ≤
          realResponse img.info (fun i j => (n * n + 33 + 32 * (centreDist2 n i j / (2 * (s : ℝ) ^ 2))) / 2 ^ 23 * |logWeightR s (centreDist2 n i j)|)
            n (fun x y c => |v x y c|) x y c + n * n * (B / 2 ^ 79) + n * n / 2 ^ 147) ∧
      (n ≤ 2047 → (∀ x y c, x < img.info.width → y < img.info.height → c < img.info.channels → 1 / 2 ^ 60 ≤ v x y c) →
        ∀ x y c, x < img.info.width → y < img.info.height → c < img.info.channels → w x y c < 0) := by
  have hn' : n ≤ 4095 := by by_contra h'; have : 4096 * 4096 ≤ n * n := Nat.mul_le_mul (by omega) (by omega); omega
  obtain ⟨k, ek, hl, hk⟩ := c116_log_value hs s0 s1 hp P n hodd hn'
  obtain ⟨m, hm, hmp⟩ := kernel_numbers hl hk
  have d0 : ∀ i < n, ∀ j < n, (0 : ℝ) ≤ (centreDist2 n i j : ℝ) := fun i hi j hj => by exact_mod_cast (centreDist2_bounds hn' hi hj).1
  set g : Nat → Nat → ℝ := fun i j => logWeightR s (centreDist2 n i j) with hg
  have G : ∀ i < n, ∀ j < n, |g i j| ≤ (1 + centreDist2 n i j / (2 * (s : ℝ) ^ 2)) * |g i j| ∧
    (1 + centreDist2 n i j / (2 * (s : ℝ) ^ 2)) * |g i j| ≤ 2 ^ 17 := fun i hi j hj => log_peak s0 s1 (d0 i hi j hj)
  have hn2 : ((n * n : Nat) : ℝ) + 1 ≤ 2 ^ 23 := by exact_mod_cast hn
  push_cast at hn2
  have nn0 : (0 : ℝ) ≤ n * n := by positivity
  have BR0 : (0 : ℝ) ≤ B := by exact_mod_cast B0
  have BR1 : (B : ℝ) ≤ 2 ^ 50 := by
    have := (Rat.cast_le (K := ℝ)).2 B1; push_cast at this; exact this
  set ε : Nat → Nat → ℝ := fun i j => (1 + centreDist2 n i j / (2 * (s : ℝ) ^ 2)) * |g i j| / 2 ^ 19 + 1 / 2 ^ 80 with hε
  have hmε : ∀ i < n, ∀ j < n, |(m (i * n + j) : ℝ) - g i j| ≤ ε i j := fun i hi j hj => (hmp i hi j hj).2
  obtain ⟨out, w, e, hsw, hval⟩ := unsep_real P h k n m g ε hodd hl hn hm hmε (fun x y c hx hy hc => by
    refine (realResponse_mono (h := fun _ _ => 2 ^ 18) v x y c fun i hi j hj => ?_).trans
      ((realResponse_const (by norm_num) n hv hx hy hc).trans ?_)
    · obtain ⟨a, b⟩ := G i hi j hj
      show |g i j| + ((1 + centreDist2 n i j / (2 * (s : ℝ) ^ 2)) * |g i j| / 2 ^ 19 + 1 / 2 ^ 80) ≤ 2 ^ 18
      norm_num at b ⊢
      linarith
    · calc (n : ℝ) * n * (2 ^ 18 * B) ≤ 2 ^ 23 * (2 ^ 18 * 2 ^ 50) := mul_le_mul (by linarith) (by linarith) (by positivity) (by norm_num)
        _ ≤ 2 ^ 97 := by norm_num) hw hh
  refine ⟨out, w, by unfold laplacianOfGaussian; rw [ek]; exact e, hsw, fun x y c hx hy hc => (hval x y c hx hy hc).2.trans ?_, ?_⟩
  · have b1 : realResponse img.info (fun i j => ((n : ℝ) * n + 1) / 2 ^ 23 * (|g i j| + ε i j) + ε i j) n (fun x y c => |v x y c|) x y c ≤
        realResponse img.info (fun i j => (n * n + 33 + 32 * (centreDist2 n i j / (2 * (s : ℝ) ^ 2))) / 2 ^ 23 * |g i j|) n (fun x y c => |v x y c|) x y c +
          realResponse img.info (fun _ _ => 1 / 2 ^ 79) n (fun x y c => |v x y c|) x y c := by
      rw [← realResponse_add]
      refine realResponse_mono v x y c fun i hi j hj => ?_
      obtain ⟨a, b⟩ := G i hi j hj
      have ga := abs_nonneg (g i j)
      have e0 : 0 ≤ ε i j := (abs_nonneg _).trans (hmε i hi j hj)
      have q1 : ((n : ℝ) * n + 1) / 2 ^ 23 ≤ 1 := by rw [div_le_one (by norm_num)]; exact hn2
      have q2 : ((n : ℝ) * n + 1) / 2 ^ 23 * ε i j ≤ 1 * ε i j := mul_le_mul_of_nonneg_right q1 e0
      have q3 : ε i j = (1 + centreDist2 n i j / (2 * (s : ℝ) ^ 2)) * |g i j| / 2 ^ 19 + 1 / 2 ^ 80 := rfl
      have q4 : ((n : ℝ) * n + 33 + 32 * (centreDist2 n i j / (2 * (s : ℝ) ^ 2))) / 2 ^ 23 * |g i j| + 1 / 2 ^ 79 =
        (n * n + 1) / 2 ^ 23 * |g i j| + 2 * ((1 + centreDist2 n i j / (2 * (s : ℝ) ^ 2)) * |g i j| / 2 ^ 19 + 1 / 2 ^ 80) := by ring
      rw [q4]
      linarith
    have b2 := realResponse_const (info := img.info) (t := 1 / 2 ^ 79) (by positivity) n hv hx hy hc
    have b3 : (n : ℝ) * n * (1 / 2 ^ 79 * B) = n * n * (B / 2 ^ 79) := by ring
    linarith
  · intro hn4 hpos x y c hx hy hc
    have e1 := (hval x y c hx hy hc).1
    have neg : ratResponse2d img.info m n v x y c = -ratResponse2d img.info (fun i => |m i|) n (fun x y c => |v x y c|) x y c := by
      unfold ratResponse2d
      rw [← Finset.sum_neg_distrib]
      refine Finset.sum_congr rfl fun i hi => ?_
      rw [← Finset.sum_neg_distrib]
      refine Finset.sum_congr rfl fun j hj => ?_
      beta_reduce
      rw [abs_of_nonpos (hmp i (Finset.mem_range.1 hi) j (Finset.mem_range.1 hj)).1,
        abs_of_nonneg (le_trans (by norm_num) (hpos _ _ _ (padCoord_lt hx) (padCoord_lt hy) hc))]
      ring
    set T : Rat := ratResponse2d img.info (fun i => |m i|) n (fun x y c => |v x y c|) x y c with hT
    rw [neg] at e1
    -- the centre term
    obtain ⟨r0, r1⟩ := sigma_real s0 s1
    have hc0 : centreDist2 n (n / 2) (n / 2) = 0 := by
      unfold centreDist2
      have : (n - 1) / 2 = n / 2 := by omega
      rw [this]; simp
    have hc1 := hmε (n / 2) (by omega) (n / 2) (by omega)
    have g0 : g (n / 2) (n / 2) = -(1 / (Real.pi * (s : ℝ) ^ 4)) := by
      show logWeightR s (centreDist2 n (n / 2) (n / 2)) = _
      rw [hc0]; unfold logWeightR
      simp
      ring
    have ε0 : ε (n / 2) (n / 2) = 1 / (Real.pi * (s : ℝ) ^ 4) / 2 ^ 19 + 1 / 2 ^ 80 := by
      show (1 + (centreDist2 n (n / 2) (n / 2) : ℝ) / (2 * (s : ℝ) ^ 2)) * |g (n / 2) (n / 2)| / 2 ^ 19 + 1 / 2 ^ 80 = _
      rw [hc0, g0, abs_neg, abs_of_pos (by positivity)]
      simp
    have q5 : (s : ℝ) ^ 4 ≤ 1000000000000 := by
      have := pow_le_pow_left₀ (by linarith) r1 4
      norm_num at this ⊢
      linarith
    have B2 : 1 / 2 ^ 44 ≤ 1 / (Real.pi * (s : ℝ) ^ 4) := by
      rw [div_le_div_iff₀ (by norm_num) (by positivity)]
      have := Real.pi_lt_four
      have := Real.pi_pos
      norm_num; nlinarith
    have mc : (m (n / 2 * n + n / 2) : ℝ) ≤ ((-(1 / 2 ^ 45) : Rat) : ℝ) := by
      rw [g0, ε0] at hc1
      have := (abs_le.1 hc1).2
      generalize 1 / (Real.pi * (s : ℝ) ^ 4) = X at this B2
      push_cast
      norm_num at this B2 ⊢
      linarith
    have mc : m (n / 2 * n + n / 2) ≤ -(1 / 2 ^ 45) := by exact_mod_cast mc
    have hTc : 1 / 2 ^ 45 * (1 / 2 ^ 60) ≤ T := by
      have term : ∀ i ∈ Finset.range n, ∀ j ∈ Finset.range n, 0 ≤ |m (i * n + j)| *
          |v (padCoord img.info.width x ((x : Int) - (n / 2 : Nat) + j)) (padCoord img.info.height y ((y : Int) - (n / 2 : Nat) + i)) c| :=
        fun i _ j _ => by positivity
      have h1 := Finset.single_le_sum (f := fun i => ∑ j ∈ Finset.range n, |m (i * n + j)| *
          |v (padCoord img.info.width x ((x : Int) - (n / 2 : Nat) + j)) (padCoord img.info.height y ((y : Int) - (n / 2 : Nat) + i)) c|)
        (fun i hi => Finset.sum_nonneg (term i hi)) (Finset.mem_range.2 (show n / 2 < n by omega))
      have h2 := Finset.single_le_sum (term (n / 2) (Finset.mem_range.2 (by omega))) (Finset.mem_range.2 (show n / 2 < n by omega))
      refine le_trans ?_ (h2.trans h1)
      refine mul_le_mul ?_ ?_ (by norm_num) (abs_nonneg _)
      · rw [abs_of_nonpos (by linarith [show (0 : Rat) ≤ 1 / 2 ^ 45 by norm_num])]; linarith
      · exact (hpos _ _ _ (padCoord_lt hx) (padCoord_lt hy) hc).trans (le_abs_self _)
    have hTR : (1 / 2 ^ 45 * (1 / 2 ^ 60) : ℝ) ≤ T := by
      have := (Rat.cast_le (K := ℝ)).2 hTc; push_cast at this; exact this
    have nR : (n : ℝ) * n ≤ 2047 * 2047 := by
      have : (n : ℝ) ≤ 2047 := by exact_mod_cast hn4
      exact mul_le_mul this this (by positivity) (by norm_num)
    have nT : (n : ℝ) * n * T ≤ 2047 * 2047 * T := mul_le_mul_of_nonneg_right nR (le_trans (by norm_num) hTR)
    have e2 := (abs_le.1 e1).2
    have : (w x y c : ℝ) < 0 := by
      push_cast at e2
      have e3 : ((n : ℝ) * n + 1) / 2 ^ 23 * T + n * n / 2 ^ 147 = (n * n * T) / 2 ^ 23 + T / 2 ^ 23 + n * n / 2 ^ 147 := by ring
      rw [e3] at e2
      generalize (n : ℝ) * n * T = Q at e2 nT
      norm_num at e2 hTR nR
      linarith
    exact_mod_cast this
end

/-- spec for the examples below: a decomposition that reports every singular value as 1 -/
def fullRank : Svd F32 := fun n k => some (List.replicate (n * n) (num 1), k, k)

theorem fullRank_splits (k : List F32) (hl : k.length = 3 * 3) : SvdSplits fullRank k 3 0 := by
  left
  have one : ((num 1 : F32) ==. num 0) = false := by
    rw [eq_is (num32 (n := 1) (by decide)) (num32 (n := 0) (by decide))]; decide
  unfold separateKernel
  rw [hl, toUsize_sqrt (by decide)]
  simp [fullRank, forRange, idx, one, List.replicate, loopFrom]
end

/-- C117 applies: any byte image blurred with `size = 3`, `sigma = 1`, the decomposition not finding the kernel separable -/
example (P : Profile) (a b c d e f : UInt8) : letI := goodLibm
    ∃ (g out : Image F32) (w : Nat → Nat → Nat → Rat),
      imageU8ToFloat P (gray6 a b c d e f) = .ok g ∧ gaussianBlur fullRank P g 3 (num 1) = .ok out ∧ out.ShowsValues g.info w ∧
      |(w 1 0 0 : ℝ) - realResponse g.info (fun i j => gaussian2 1 (centreDist2 3 i j)) 3
        (fun x y c' => (((((gray6 a b c d e f).px x y).getD c' 0).toNat : Int) : Rat)) 1 0 0| ≤ 1 / 2 := by
  let := goodLibm
  have one : (num 1 : F32).Is 1 := by simpa using num32 (n := 1) (by decide)
  obtain ⟨g, eg, hg⟩ := imageU8ToFloat_values P (gray6_WF a b c d e f)
  have hi : g.info = (gray6 a b c d e f).info := hg.2.1
  rw [← hi] at hg
  have hle : ∀ x y c', (0 : Rat) ≤ (((((gray6 a b c d e f).px x y).getD c' 0).toNat : Int) : Rat) ∧
      (((((gray6 a b c d e f).px x y).getD c' 0).toNat : Int) : Rat) ≤ 255 := by
    intro x y c'
    have := (((gray6 a b c d e f).px x y).getD c' 0).toNat_lt
    exact ⟨by positivity, by exact_mod_cast (by omega : ((((gray6 a b c d e f).px x y).getD c' 0).toNat : Int) ≤ 255)⟩
  obtain ⟨out, w, e2, s, hr⟩ := c117_gaussian_blur one (by norm_num) (by norm_num) goodLibm_spec P (svd := fullRank) (B := 255) (δ := 0) hg 3 rfl (by decide)
    (by norm_num) (by norm_num) le_rfl (fun x y c' _ _ _ => by rw [abs_of_nonneg (hle x y c').1]; exact (hle x y c').2)
    (fun k hk => fullRank_splits k (by
      obtain ⟨k', e', hl, -⟩ := c43_gaussian P 3 (num 1 : F32) rfl (by decide)
      rw [e'] at hk
      cases hk
      exact hl)) (by rw [hi]; dims) (by rw [hi]; dims)
  refine ⟨g, out, w, eg, e2, s, ?_⟩
  have := hr 1 0 0 (by rw [hi]; dims) (by rw [hi]; dims) (by rw [hi]; dims)
  have K : ∑ i ∈ Finset.range 3, ∑ j ∈ Finset.range 3, (1 + centreDist2 3 i j / (2 * ((1 : Rat) : ℝ) ^ 2)) * gaussian2 ((1 : Rat) : ℝ) (centreDist2 3 i j) ≤ 9 * 43 := by
    calc _ ≤ ∑ i ∈ Finset.range 3, ∑ j ∈ Finset.range 3, (43 : ℝ) := by
          refine Finset.sum_le_sum fun i hi => Finset.sum_le_sum fun j hj => (gauss_peak (by norm_num) (by norm_num) ?_).2.2
          exact_mod_cast (centreDist2_bounds (by decide) (Finset.mem_range.1 hi) (Finset.mem_range.1 hj)).1
      _ = 9 * 43 := by simp; norm_num
  rw [Rat.cast_one] at this K
  generalize ∑ i ∈ Finset.range 3, ∑ j ∈ Finset.range 3, (1 + centreDist2 3 i j / (2 * (1 : ℝ) ^ 2)) * gaussian2 (1 : ℝ) (centreDist2 3 i j) = X at *
  refine this.trans ?_
  norm_num at K ⊢
  linarith
end Imgproc

import Verif.Props.FilterErr
import Verif.Props.Linear
import Verif.Props.Filter4
/-! Property C110: the averaging filters in f32 stay within the range of the window up to a small error. -/
namespace Imgproc
open FloatOps

/-- spec: the numbers `v` of channel `c` at distance at most `r` (both axes) from `(x, y)` lie in `[lo, hi]` -/
def WindowNumbers (info : ImageInfo) (v : Nat → Nat → Nat → Rat) (x y c r : Nat) (lo hi : Rat) : Prop :=
  ∀ i j, i < info.width → j < info.height → i ≤ x + r → x ≤ i + r → j ≤ y + r → y ≤ j + r →
    lo ≤ v i j c ∧ v i j c ≤ hi

theorem WindowNumbers.pad {info : ImageInfo} {v : Nat → Nat → Nat → Rat} {x y c n : Nat} {lo hi : Rat}
    (h : WindowNumbers info v x y c (n / 2) lo hi) (hx : x < info.width) (hy : y < info.height) {i j : Nat} (hi' : i < n) (hj : j < n) :
    lo ≤ v (padCoord info.width x ((x : Int) - (n / 2 : Nat) + j)) (padCoord info.height y ((y : Int) - (n / 2 : Nat) + i)) c ∧
      v (padCoord info.width x ((x : Int) - (n / 2 : Nat) + j)) (padCoord info.height y ((y : Int) - (n / 2 : Nat) + i)) c ≤ hi := by
  apply h _ _ (padCoord_lt hx) (padCoord_lt hy)
  all_goals (unfold padCoord; split <;> omega)

theorem WindowNumbers.response {info : ImageInfo} {v : Nat → Nat → Nat → Rat} {x y c n : Nat} {lo hi : Rat}
    (h : WindowNumbers info v x y c (n / 2) lo hi) (hx : x < info.width) (hy : y < info.height) (m : Nat → Rat)
    (hm : ∀ i < n * n, 0 ≤ m i) :
    lo * ∑ i ∈ Finset.range (n * n), m i ≤ ratResponse2d info m n v x y c ∧
      ratResponse2d info m n v x y c ≤ hi * ∑ i ∈ Finset.range (n * n), m i := by
  have hm' : ∀ i < n, ∀ j < n, 0 ≤ m (i * n + j) := by
    intro i hi' j hj
    apply hm
    have : (i + 1) * n ≤ n * n := Nat.mul_le_mul_right _ (by omega)
    rw [Nat.succ_mul] at this; omega
  unfold ratResponse2d
  rw [sum_range_mul_rat, Finset.mul_sum, Finset.mul_sum]
  constructor
  · apply Finset.sum_le_sum; intro i hi'
    rw [Finset.mul_sum]
    apply Finset.sum_le_sum; intro j hj
    rw [mul_comm]
    exact mul_le_mul_of_nonneg_left (h.pad hx hy (Finset.mem_range.1 hi') (Finset.mem_range.1 hj)).1 (hm' i (Finset.mem_range.1 hi') j (Finset.mem_range.1 hj))
  · apply Finset.sum_le_sum; intro i hi'
    rw [Finset.mul_sum]
    apply Finset.sum_le_sum; intro j hj
    rw [mul_comm hi]
    exact mul_le_mul_of_nonneg_left (h.pad hx hy (Finset.mem_range.1 hi') (Finset.mem_range.1 hj)).2 (hm' i (Finset.mem_range.1 hi') j (Finset.mem_range.1 hj))

/-- an almost normalised average of numbers at most `B` in size -/
theorem WindowNumbers.average {info : ImageInfo} {v : Nat → Nat → Nat → Rat} {x y c n : Nat} {lo hi B θ : Rat}
    (h : WindowNumbers info v x y c (n / 2) lo hi) (hx : x < info.width) (hy : y < info.height) (m : Nat → Rat)
    (hm : ∀ i < n * n, 0 ≤ m i) (hθ : |∑ i ∈ Finset.range (n * n), m i - 1| ≤ θ) (hc : c < info.channels)
    (hv : ∀ x y c, x < info.width → y < info.height → c < info.channels → |v x y c| ≤ B) :
    lo - θ * B ≤ ratResponse2d info m n v x y c ∧ ratResponse2d info m n v x y c ≤ hi + θ * B := by
  have θ0 : 0 ≤ θ := le_trans (abs_nonneg _) hθ
  have h0 := h x y hx hy (by omega) (by omega) (by omega) (by omega)
  have hB := abs_le.1 (hv x y c hx hy hc)
  have h' : WindowNumbers info v x y c (n / 2) (max lo (-B)) (min hi B) := by
    intro i j hi' hj a1 a2 a3 a4
    have hb := abs_le.1 (hv i j c hi' hj hc)
    have hw := h i j hi' hj a1 a2 a3 a4
    exact ⟨max_le hw.1 hb.1, le_min hw.2 hb.2⟩
  have r := h'.response hx hy m hm
  set S := ∑ i ∈ Finset.range (n * n), m i
  have key : ∀ t, |t| ≤ B → |t * S - t| ≤ θ * B := by
    intro t ht
    rw [show t * S - t = (S - 1) * t by ring, abs_mul]
    exact mul_le_mul hθ ht (abs_nonneg _) θ0
  have k1 := abs_le.1 (key (max lo (-B)) (abs_le.2 ⟨le_max_right _ _, max_le (by linarith) (by linarith)⟩))
  have k2 := abs_le.1 (key (min hi B) (abs_le.2 ⟨le_min (by linarith) (by linarith), min_le_right _ _⟩))
  have := le_max_left lo (-B)
  have := min_le_left hi B
  constructor <;> linarith

section
variable [Libm f32]

/-- **C110** `unseparable_filter` in f32 with non-negative weights adding up to about one: every output channel is a number
in the range of the window, up to an error of about `n² / 2^23` of the largest value. -/
theorem c110_averaging_kernel (P : Profile) {img : Image F32} {v : Nat → Nat → Nat → Rat} (h : img.ShowsValues img.info v)
    (kernel : List F32) (n : Nat) (m : Nat → Rat) (B θ : Rat) (hodd : n % 2 = 1) (hk : kernel.length = n * n) (hn : n * n < 2 ^ 23)
    (hm : ∀ i < kernel.length, (kernel.getD i (num 0)).Is (m i)) (hpos : ∀ i < kernel.length, 0 ≤ m i)
    (hsum : |∑ i ∈ Finset.range kernel.length, m i - 1| ≤ θ) (hθ : θ ≤ 1)
    (hv : ∀ x y c, x < img.info.width → y < img.info.height → c < img.info.channels → |v x y c| ≤ B) (hB0 : 0 ≤ B) (hB : B ≤ 2 ^ 90)
    (hw : img.info.width + n ≤ 2147483648) (hh : img.info.height + n ≤ 2147483648) :
    ∃ out w, unseparableFilter P img kernel = .ok out ∧ out.ShowsValues img.info w ∧
      ∀ x y c lo hi, x < img.info.width → y < img.info.height → c < img.info.channels →
        WindowNumbers img.info v x y c (n / 2) lo hi →
          lo - ((((n * n + 1 : Nat) : Rat) / 2 ^ 23 * (1 + θ) + θ) * B + n * n / 2 ^ 147) ≤ w x y c ∧
          w x y c ≤ hi + ((((n * n + 1 : Nat) : Rat) / 2 ^ 23 * (1 + θ) + θ) * B + n * n / 2 ^ 147) := by
  have habs : ∑ i ∈ Finset.range (n * n), |m i| = ∑ i ∈ Finset.range (n * n), m i :=
    Finset.sum_congr rfl fun i hi => abs_of_nonneg (hpos i (by rw [hk]; exact Finset.mem_range.1 hi))
  rw [hk] at hsum hpos
  have hS : ∑ i ∈ Finset.range (n * n), m i ≤ 1 + θ := by linarith [(abs_le.1 hsum).2]
  have hr : ∀ x y c, x < img.info.width → y < img.info.height → c < img.info.channels →
      ratResponse2d img.info (fun i => |m i|) n (fun x y c => |v x y c|) x y c ≤ (1 + θ) * B := by
    intro x y c hx hy hc
    have := ratResponse2d_le (m := m) (n := n) hv hx hy hc
    rw [habs] at this
    exact le_trans this (mul_le_mul_of_nonneg_right hS hB0)
  obtain ⟨out, e, hs⟩ := c109_unseparable P h kernel n m hodd hk hn hm (fun x y c hx hy hc => by
    refine le_trans (hr x y c hx hy hc) ?_
    have : (1 + θ) * B ≤ 2 * 2 ^ 90 := mul_le_mul (by linarith) hB hB0 (by norm_num)
    exact le_trans this (by norm_num)) hw hh
  obtain ⟨w, hw', he⟩ := hs.values
  refine ⟨out, w, e, hw', fun x y c lo hi hx hy hc hwin => ?_⟩
  have a := hwin.average hx hy m hpos hsum hc hv
  have b := he x y c hx hy hc
  have c1 := mul_le_mul_of_nonneg_left (hr x y c hx hy hc) (show (0 : Rat) ≤ (n * n + 1) / 2 ^ 23 by positivity)
  rw [abs_le] at b
  have e1 : (((n * n + 1 : Nat) : Rat) / 2 ^ 23 * (1 + θ) + θ) * B + n * n / 2 ^ 147 =
      (n * n + 1) / 2 ^ 23 * ((1 + θ) * B) + θ * B + n * n / 2 ^ 147 := by push_cast; ring
  rw [e1]
  constructor <;> linarith [a.1, a.2, b.1, b.2]

omit [Libm f32] in
theorem rnd_nonneg' {q : Rat} (h : 0 ≤ q) : 0 ≤ f32.rnd q := by
  have := rndQ_mono (f := f32.toRFmt) h
  rwa [rndQ_zero] at this

/-- a quotient of natural numbers -/
theorem natDiv_is {a b : Nat} (ha : a ≤ 16777216) (hb : b ≤ 16777216) (h0 : 0 < b) :
    ((FloatOps.ofNat a : F32) /. FloatOps.ofNat b).Is (f32.rnd ((a : Rat) / b)) := by
  have hb' : (1 : Rat) ≤ b := by exact_mod_cast h0
  refine div_is (nat32 ha) (nat32 hb) (by linarith) (f32_ovf ?_)
  rw [abs_div, abs_of_nonneg (Nat.cast_nonneg a), abs_of_nonneg (Nat.cast_nonneg b)]
  refine le_trans (div_le_self (Nat.cast_nonneg a) hb') ?_
  have : (a : Rat) ≤ 16777216 := by exact_mod_cast ha
  exact le_trans this (by norm_num)

omit [Libm f32] in
/-- rounding weights that add up to one -/
theorem sum_rnd_err (N : Nat) (hN : N ≤ 2 ^ 24) (q : Nat → Rat) (h0 : ∀ i < N, 0 ≤ q i) (h1 : ∑ i ∈ Finset.range N, q i = 1) :
    |∑ i ∈ Finset.range N, f32.rnd (q i) - 1| ≤ 1 / 2 ^ 23 := by
  rw [← h1, ← Finset.sum_sub_distrib]
  refine (Finset.abs_sum_le_sum_abs _ _).trans ?_
  have : ∑ i ∈ Finset.range N, |f32.rnd (q i) - q i| ≤ ∑ i ∈ Finset.range N, (q i / 2 ^ 24 + 1 / 2 ^ 150) := by
    refine Finset.sum_le_sum fun i hi => ?_
    have := rnd_err_add (q i)
    rwa [abs_of_nonneg (h0 i (Finset.mem_range.1 hi))] at this
  refine le_trans this ?_
  rw [Finset.sum_add_distrib, ← Finset.sum_div, h1, Finset.sum_const, Finset.card_range, nsmul_eq_mul]
  have : (N : Rat) * (1 / 2 ^ 150) ≤ 2 ^ 24 * (1 / 2 ^ 150) := mul_le_mul_of_nonneg_right (by exact_mod_cast hN) (by norm_num)
  exact le_trans (add_le_add_right this _) (by norm_num)

/-- **C110** `weighted_avg_filter` in f32: every output channel is a number in the range of the window, up to
`(size² + 3) / 2^23` of the largest value (and an underflow term). In particular a constant image is kept up to that error. -/
theorem c110_weighted_avg (P : Profile) {img : Image F32} {v : Nat → Nat → Nat → Rat} (h : img.ShowsValues img.info v)
    (size weight : Nat) (B : Rat) (hodd : size % 2 = 1) (hsum : size * size - 1 + weight ≤ 16777216)
    (hn : size * size < 2 ^ 23) (hpos : 0 < size * size - 1 + weight)
    (hv : ∀ x y c, x < img.info.width → y < img.info.height → c < img.info.channels → |v x y c| ≤ B) (hB0 : 0 ≤ B) (hB : B ≤ 2 ^ 90)
    (hw : img.info.width + size ≤ 2147483648) (hh : img.info.height + size ≤ 2147483648) :
    ∃ out w, weightedAvgFilter P img size weight = .ok out ∧ out.ShowsValues img.info w ∧
      ∀ x y c lo hi, x < img.info.width → y < img.info.height → c < img.info.channels →
        WindowNumbers img.info v x y c (size / 2) lo hi →
          lo - ((size * size + 3) / 2 ^ 23 * B + size * size / 2 ^ 147) ≤ w x y c ∧
          w x y c ≤ hi + ((size * size + 3) / 2 ^ 23 * B + size * size / 2 ^ 147) := by
  have hs : size < 65536 := by by_contra h'; have : 65536 * 65536 ≤ size * size := Nat.mul_le_mul (by omega) (by omega); omega
  have hsq : 1 ≤ size * size := Nat.mul_pos (by omega) (by omega)
  set N := size * size - 1 + weight with hN
  set q : Nat → Rat := fun k => (if k = size / 2 * size + size / 2 then (weight : Rat) else 1) / N with hq
  have ek := c50_kernel (F := F32) P size weight hodd hs (show size * size - 1 + weight < 4294967296 by omega)
  rw [← hN] at ek
  set kernel := (List.range (size * size)).map (fun k => if k = size / 2 * size + size / 2 then
        (ofNat weight : F32) /. ofNat N else num 1 /. ofNat N) with hkd
  have hlen : kernel.length = size * size := by rw [hkd]; simp
  have N1 : (1 : Rat) ≤ N := by exact_mod_cast hpos
  have hq0 : ∀ k, 0 ≤ q k := by intro k; rw [hq]; positivity
  have hm : ∀ i < kernel.length, (kernel.getD i (num 0)).Is (f32.rnd (q i)) := by
    intro i hi
    rw [hlen] at hi
    rw [hkd, List.getD_eq_getElem?_getD, List.getElem?_map, List.getElem?_range hi]
    show (if i = size / 2 * size + size / 2 then (ofNat weight : F32) /. ofNat N else num 1 /. ofNat N).Is _
    rw [hq]
    by_cases hc : i = size / 2 * size + size / 2
    · rw [if_pos hc]; simp only [if_pos hc]
      exact natDiv_is (by omega) hsum hpos
    · rw [if_neg hc]; simp only [if_neg hc]
      refine div_is (by simpa using num32 (n := 1) (by decide)) (nat32 hsum) (by linarith) (f32_ovf ?_)
      rw [abs_of_nonneg (by positivity), div_le_iff₀ (by linarith)]
      have : (1 : Rat) ≤ 2 ^ 100 := by norm_num
      nlinarith
  have hc : size / 2 * size + size / 2 < size * size := by
    have h1 : (size / 2 + 1) * size ≤ size * size := Nat.mul_le_mul_right _ (by omega)
    rw [Nat.succ_mul] at h1; omega
  have hq1 : ∑ i ∈ Finset.range (size * size), q i = 1 := by
    rw [hq, ← Finset.sum_div, div_eq_one_iff_eq (by linarith)]
    rw [← Finset.add_sum_erase _ _ (Finset.mem_range.2 hc), if_pos rfl]
    rw [Finset.sum_congr rfl (g := fun _ => (1 : Rat)) (fun i hi => if_neg (Finset.ne_of_mem_erase hi)), Finset.sum_const,
      Finset.card_erase_of_mem (Finset.mem_range.2 hc), Finset.card_range, nsmul_eq_mul, mul_one, hN, Nat.cast_add, add_comm]
  have hθ := sum_rnd_err (size * size) (by omega) q (fun i _ => hq0 i) hq1
  obtain ⟨out, w, e, hs', hr⟩ := c110_averaging_kernel P h kernel size (fun i => f32.rnd (q i)) B (1 / 2 ^ 23) hodd hlen hn hm
    (fun i _ => rnd_nonneg' (hq0 i)) (by rw [hlen]; exact hθ) (by norm_num) hv hB0 hB hw hh
  refine ⟨out, w, ?_, hs', fun x y c lo hi hx hy hc hwin => ?_⟩
  · unfold weightedAvgFilter
    rw [checkOdd_u32_ok hodd, ok_bind, ek, ok_bind, e]
  · have := hr x y c lo hi hx hy hc hwin
    have key : (((size * size + 1 : Nat) : Rat) / 2 ^ 23 * (1 + 1 / 2 ^ 23) + 1 / 2 ^ 23) * B ≤ (size * size + 3) / 2 ^ 23 * B := by
      refine mul_le_mul_of_nonneg_right ?_ hB0
      have h1 : ((size * size + 1 : Nat) : Rat) ≤ 2 ^ 23 := by exact_mod_cast hn
      have : ((size * size + 1 : Nat) : Rat) / 2 ^ 23 ≤ 1 := by rw [div_le_one (by norm_num)]; exact h1
      have : ((size * size + 1 : Nat) : Rat) / 2 ^ 23 * (1 + 1 / 2 ^ 23) ≤ ((size * size + 1 : Nat) : Rat) / 2 ^ 23 + 1 / 2 ^ 23 := by linarith
      push_cast at this ⊢
      linarith
    constructor <;> linarith [this.1, this.2]

/-- **C110** `box_filter` in f32: every output channel is a number in the range of the `size² × size²` window that the code
averages over (see C49), up to `(3 size² + 15) / 2^23` of the largest value and an underflow term. -/
theorem c110_box (P : Profile) {img : Image F32} {v : Nat → Nat → Nat → Rat} (h : img.ShowsValues img.info v)
    (size : Nat) (B : Rat) (hodd : size % 2 = 1) (hn : size * size < 2 ^ 23)
    (hv : ∀ x y c, x < img.info.width → y < img.info.height → c < img.info.channels → |v x y c| ≤ B) (hB0 : 0 ≤ B) (hB : B ≤ 2 ^ 80)
    (hw : img.info.width + size * size ≤ 2147483648) (hh : img.info.height + size * size ≤ 2147483648) :
    ∃ out w, boxFilter P img size = .ok out ∧ out.ShowsValues img.info w ∧
      ∀ x y c lo hi, x < img.info.width → y < img.info.height → c < img.info.channels →
        WindowNumbers img.info v x y c (size * size / 2) lo hi →
          lo - ((3 * (size * size) + 15) / 2 ^ 23 * B + 4 * (size * size) / 2 ^ 147) ≤ w x y c ∧
          w x y c ≤ hi + ((3 * (size * size) + 15) / 2 ^ 23 * B + 4 * (size * size) / 2 ^ 147) := by
  have hs : size < 65536 := by by_contra h'; have : 65536 * 65536 ≤ size * size := Nat.mul_le_mul (by omega) (by omega); omega
  have hsq : 1 ≤ size * size := Nat.mul_pos (by omega) (by omega)
  have hodd2 : size * size % 2 = 1 := by rw [Nat.mul_mod, hodd]
  have e0 : boxFilter P img size = separableFilter P img (List.replicate (size * size) ((num 1 : F32) /. ofNat (size * size)))
      (List.replicate (size * size) ((num 1 : F32) /. ofNat (size * size))) := by
    unfold boxFilter
    rw [checkOdd_u32_ok hodd, ok_bind, u32Mul_ok (show size * size < 4294967296 by omega), ok_bind]
  rw [e0]
  have hcast : ((size * size : Nat) : Rat) = size * size := by push_cast; rfl
  rw [← hcast]
  generalize size * size = n at *
  set kernel := List.replicate n ((num 1 : F32) /. ofNat n) with hkd
  have hlen : kernel.length = n := by rw [hkd]; simp
  have N1 : (1 : Rat) ≤ n := by exact_mod_cast hsq
  set r := f32.rnd (1 / (n : Rat)) with hr
  have hm : ∀ i < kernel.length, (kernel.getD i (num 0)).Is r := by
    intro i hi
    rw [hlen] at hi
    rw [hkd, List.getD_eq_getElem?_getD, List.getElem?_replicate_of_lt hi]
    refine div_is (by simpa using num32 (n := 1) (by decide)) (nat32 (by omega)) (by linarith) (f32_ovf ?_)
    rw [abs_of_nonneg (by positivity), div_le_iff₀ (by linarith)]
    have : (1 : Rat) ≤ 2 ^ 100 := by norm_num
    nlinarith
  have r0 : 0 ≤ r := rnd_nonneg' (by positivity)
  have hθ := sum_rnd_err n (by omega) (fun _ => 1 / (n : Rat)) (fun i _ => by positivity)
    (by rw [Finset.sum_const, Finset.card_range, nsmul_eq_mul]; exact mul_one_div_cancel (by linarith))
  rw [Finset.sum_const, Finset.card_range, nsmul_eq_mul, ← hr] at hθ
  set V := (n : Rat) * r with hV
  have V0 : 0 ≤ V := by positivity
  have hVb := abs_le.1 hθ
  have V1 : V ≤ 1 + 1 / 2 ^ 23 := by linarith [hVb.2]
  have hsumV : ∑ i ∈ Finset.range kernel.length, |(fun _ : Nat => r) i| = V := by
    simp only [abs_of_nonneg r0]
    rw [Finset.sum_const, hlen, Finset.card_range, nsmul_eq_mul]
  have V2 : V ≤ 2 := le_trans V1 (by norm_num)
  have VB : V * B ≤ 2 * 2 ^ 80 := mul_le_mul V2 hB hB0 (by norm_num)
  obtain ⟨out, e, hs'⟩ := c109_separable P h kernel kernel (fun _ => r) (fun _ => r) B (by rw [hlen]; exact hodd2) rfl
    (by rw [hlen]; exact hn) hm hm hB0 hv (by rw [hsumV]; exact le_trans VB (by norm_num))
    (by rw [hsumV]
        have : V * (V * B) ≤ 2 * (2 * 2 ^ 80) := mul_le_mul V2 VB (by positivity) (by norm_num)
        exact le_trans this (by norm_num))
    (by rw [hsumV]; exact le_trans V2 (by norm_num)) (by rw [hlen]; exact hw) (by rw [hlen]; exact hh)
  rw [hsumV, hlen] at hs'
  obtain ⟨w, hw', he⟩ := hs'.values
  refine ⟨out, w, e, hw', fun x y c lo hi hx hy hc hwin => ?_⟩
  have hVV : ∑ i ∈ Finset.range (n * n), r * r = V * V := by
    rw [Finset.sum_const, Finset.card_range, nsmul_eq_mul, hV]; push_cast; ring
  have hVV1 : |∑ i ∈ Finset.range (n * n), (fun _ : Nat => r * r) i - 1| ≤ 3 / 2 ^ 23 := by
    simp only []
    rw [hVV, show V * V - 1 = (V - 1) * (V + 1) by ring, abs_mul, abs_of_nonneg (show 0 ≤ V + 1 by linarith)]
    have : |V - 1| * (V + 1) ≤ 1 / 2 ^ 23 * 3 := mul_le_mul hθ (by linarith) (by linarith) (by norm_num)
    linarith
  have a := hwin.average hx hy (fun _ => r * r) (fun i _ => mul_nonneg r0 r0) hVV1 hc hv
  have b := abs_le.1 (he x y c hx hy hc)
  have t1 : 3 * (((n : Rat) + 1) / 2 ^ 23) * (V * V * B) ≤ (3 * n + 12) / 2 ^ 23 * B := by
    rw [← mul_assoc]
    refine mul_le_mul_of_nonneg_right ?_ hB0
    have hVV' : V * V ≤ 1 + 3 / 2 ^ 23 := by
      have : V * V ≤ (1 + 1 / 2 ^ 23) * (1 + 1 / 2 ^ 23) := mul_le_mul V1 V1 V0 (by norm_num)
      exact le_trans this (by norm_num)
    have hnn : ((n : Rat) + 1) ≤ 2 ^ 23 := by exact_mod_cast hn
    have n0 : (0 : Rat) ≤ 3 * (((n : Rat) + 1) / 2 ^ 23) := by positivity
    have := mul_le_mul_of_nonneg_left hVV' n0
    have h3 : 3 * (((n : Rat) + 1) / 2 ^ 23) * (1 + 3 / 2 ^ 23) ≤ 3 * (((n : Rat) + 1) / 2 ^ 23) + 9 / 2 ^ 23 := by
      linarith
    linarith
  have t2 : (1 + 2 * V) * ((n : Rat) / 2 ^ 147) ≤ 4 * n / 2 ^ 147 := by
    have : (1 + 2 * V) ≤ 4 := le_trans (by linarith : 1 + 2 * V ≤ 1 + 2 * (1 + 1 / 2 ^ 23)) (by norm_num)
    have := mul_le_mul_of_nonneg_right this (show (0 : Rat) ≤ n / 2 ^ 147 by positivity)
    linarith
  have t3 : (3 * (n : Rat) + 15) / 2 ^ 23 * B = (3 * n + 12) / 2 ^ 23 * B + 3 / 2 ^ 23 * B := by ring
  rw [t3]
  constructor <;> linarith [a.1, a.2, b.1, b.2]

/-- **C109** f32 counterpart of C46: `separable_filter` with two kernels and `unseparable_filter` with their outer product (the
products being representable) return images whose channels differ by at most about `(n² + 3 n) / 2^23` of the largest possible
response. -/
theorem c109_separable_vs_unseparable (P : Profile) {img : Image F32} {v : Nat → Nat → Nat → Rat} (h : img.ShowsValues img.info v)
    (vert horz kernel : List F32) (mv mh : Nat → Rat) (B : Rat) (hodd : vert.length % 2 = 1) (heq : vert.length = horz.length)
    (hk : kernel.length = vert.length * vert.length) (hn : vert.length * vert.length < 2 ^ 23)
    (hmv : ∀ i < vert.length, (vert.getD i (num 0)).Is (mv i)) (hmh : ∀ i < horz.length, (horz.getD i (num 0)).Is (mh i))
    (hmk : ∀ i < vert.length, ∀ j < vert.length, (kernel.getD (i * vert.length + j) (num 0)).Is (mv i * mh j))
    (hB0 : 0 ≤ B) (hv : ∀ x y c, x < img.info.width → y < img.info.height → c < img.info.channels → |v x y c| ≤ B)
    (hb1 : (∑ i ∈ Finset.range vert.length, |mv i|) * B ≤ 2 ^ 90)
    (hb2 : (∑ i ∈ Finset.range vert.length, |mv i|) * (∑ i ∈ Finset.range vert.length, |mh i|) * B ≤ 2 ^ 90)
    (hb3 : ∑ i ∈ Finset.range vert.length, |mh i| ≤ 2 ^ 90)
    (hw : img.info.width + vert.length ≤ 2147483648) (hh : img.info.height + vert.length ≤ 2147483648) :
    ∃ sep uns s u, separableFilter P img vert horz = .ok sep ∧ unseparableFilter P img kernel = .ok uns ∧
      sep.ShowsValues img.info s ∧ uns.ShowsValues img.info u ∧
      ∀ x y c, x < img.info.width → y < img.info.height → c < img.info.channels → |s x y c - u x y c| ≤
        (vert.length * vert.length + 3 * vert.length + 4) / 2 ^ 23 *
          ((∑ i ∈ Finset.range vert.length, |mv i|) * (∑ i ∈ Finset.range vert.length, |mh i|) * B) +
        ((1 + 2 * ∑ i ∈ Finset.range vert.length, |mh i|) * vert.length + vert.length * vert.length) / 2 ^ 147 := by
  have hn1 : vert.length < 2 ^ 23 := lt_of_le_of_lt (Nat.le_mul_self _) hn
  have dm : ∀ i j, j < vert.length → (i * vert.length + j) / vert.length = i ∧ (i * vert.length + j) % vert.length = j := by
    intro i j hj
    constructor
    · rw [Nat.mul_comm, Nat.mul_add_div (by omega), Nat.div_eq_of_lt hj, Nat.add_zero]
    · rw [Nat.mul_comm, Nat.mul_add_mod, Nat.mod_eq_of_lt hj]
  set V := ∑ i ∈ Finset.range vert.length, |mv i| with hV
  set H := ∑ i ∈ Finset.range vert.length, |mh i| with hH
  set m : Nat → Rat := fun k => mv (k / vert.length) * mh (k % vert.length) with hmd
  have hsum : ∑ i ∈ Finset.range (vert.length * vert.length), |m i| = V * H := by
    rw [sum_range_mul_rat, hV, hH, Finset.sum_mul_sum]
    apply Finset.sum_congr rfl; intro i hi
    apply Finset.sum_congr rfl; intro j hj
    obtain ⟨d1, d2⟩ := dm i j (Finset.mem_range.1 hj)
    rw [hmd]; simp only [d1, d2, abs_mul]
  obtain ⟨sep, e1, s1⟩ := c109_separable P h vert horz mv mh B hodd heq hn1 hmv hmh hB0 hv hb1
    (by rw [← hV, ← hH]; linarith [hb2, mul_comm V H, mul_assoc H V B, mul_assoc V H B, mul_left_comm H V B]) hb3 hw hh
  have hr : ∀ x y c, x < img.info.width → y < img.info.height → c < img.info.channels →
      ratResponse2d img.info (fun i => |m i|) vert.length (fun x y c => |v x y c|) x y c ≤ V * H * B := by
    intro x y c hx hy hc
    have := ratResponse2d_le (m := m) (n := vert.length) hv hx hy hc
    rwa [hsum] at this
  obtain ⟨uns, e2, s2⟩ := c109_unseparable P h kernel vert.length m hodd hk hn (by
      intro k hk'
      rw [hk] at hk'
      have h1 : k / vert.length < vert.length := Nat.div_lt_of_lt_mul hk'
      have h2 : k % vert.length < vert.length := Nat.mod_lt _ (by omega)
      have := hmk _ h1 _ h2
      rwa [show k / vert.length * vert.length + k % vert.length = k by rw [Nat.mul_comm]; exact Nat.div_add_mod k _] at this)
    (fun x y c hx hy hc => le_trans (hr x y c hx hy hc) (le_trans hb2 (by norm_num))) hw hh
  obtain ⟨s, hs, hs'⟩ := s1.values
  obtain ⟨u, hu, hu'⟩ := s2.values
  refine ⟨sep, uns, s, u, e1, e2, hs, hu, fun x y c hx hy hc => ?_⟩
  have a := hs' x y c hx hy hc
  have b := hu' x y c hx hy hc
  have c1 := mul_le_mul_of_nonneg_left (hr x y c hx hy hc) (show (0 : Rat) ≤ (vert.length * vert.length + 1) / 2 ^ 23 by positivity)
  rw [abs_sub_comm] at b
  have tri := abs_add_le (s x y c - ratResponse2d img.info m vert.length v x y c) (ratResponse2d img.info m vert.length v x y c - u x y c)
  rw [sub_add_sub_cancel] at tri
  rw [← hV, ← hH] at a
  refine le_trans tri (le_trans (add_le_add a (le_trans b (add_le_add_left c1 _))) (le_of_eq ?_))
  ring

/-- C110 applies: a 3x3 weighted average of any 3x2 byte image moves no channel more than a thousandth outside the window -/
example (P : Profile) (a b c d e f : UInt8) : ∃ (g out : Image F32) (w : Nat → Nat → Nat → Rat),
    imageU8ToFloat P (gray6 a b c d e f) = .ok g ∧ weightedAvgFilter P g 3 4 = .ok out ∧ out.ShowsValues g.info w ∧
      ∀ x y, x < 3 → y < 2 → 0 - 1 / 1000 ≤ w x y 0 ∧ w x y 0 ≤ 255 + 1 / 1000 := by
  obtain ⟨g, eg, hg⟩ := imageU8ToFloat_values P (gray6_WF a b c d e f)
  have hi : g.info = (gray6 a b c d e f).info := hg.2.1
  rw [← hi] at hg
  have hle : ∀ x y c', (0 : Rat) ≤ (((((gray6 a b c d e f).px x y).getD c' 0).toNat : Int) : Rat) ∧
      (((((gray6 a b c d e f).px x y).getD c' 0).toNat : Int) : Rat) ≤ 255 := by
    intro x y c'
    have := (((gray6 a b c d e f).px x y).getD c' 0).toNat_lt
    exact ⟨by positivity, by exact_mod_cast (by omega : ((((gray6 a b c d e f).px x y).getD c' 0).toNat : Int) ≤ 255)⟩
  obtain ⟨out, w, e2, s, hr⟩ := c110_weighted_avg P hg 3 4 255 rfl (by decide) (by decide) (by decide)
    (fun x y c' _ _ _ => by rw [abs_of_nonneg (hle x y c').1]; exact (hle x y c').2) (by norm_num) (by norm_num)
    (by rw [hi]; dims) (by rw [hi]; dims)
  refine ⟨g, out, w, eg, e2, s, fun x y hx hy => ?_⟩
  have := hr x y 0 0 255 (by rw [hi]; exact hx) (by rw [hi]; exact hy) (by rw [hi]; dims)
    (fun i j _ _ _ _ _ _ => hle i j 0)
  norm_num at this ⊢
  constructor <;> linarith [this.1, this.2]

/-- C109 applies: a horizontal mean kernel with entries one third (rounded) on any byte image -/
example (P : Profile) (a b c d e f : UInt8) : ∃ (g out : Image F32) (w : Nat → Nat → Nat → Rat),
    imageU8ToFloat P (gray6 a b c d e f) = .ok g ∧ filter1d P g (List.replicate 3 (num 1 /. num 3)) false = .ok out ∧
      out.ShowsValues g.info w ∧ |w 1 0 0 - f32.rnd (1 / 3) * (a.toNat + b.toNat + c.toNat)| ≤ 1 / 1000 := by
  obtain ⟨g, eg, hg⟩ := imageU8ToFloat_values P (gray6_WF a b c d e f)
  have hi : g.info = (gray6 a b c d e f).info := hg.2.1
  rw [← hi] at hg
  have hle : ∀ x y c', (0 : Rat) ≤ (((((gray6 a b c d e f).px x y).getD c' 0).toNat : Int) : Rat) ∧
      (((((gray6 a b c d e f).px x y).getD c' 0).toNat : Int) : Rat) ≤ 255 := by
    intro x y c'
    have := (((gray6 a b c d e f).px x y).getD c' 0).toNat_lt
    exact ⟨by positivity, by exact_mod_cast (by omega : ((((gray6 a b c d e f).px x y).getD c' 0).toNat : Int) ≤ 255)⟩
  have hv : ∀ x y c', x < g.info.width → y < g.info.height → c' < g.info.channels →
      |(((((gray6 a b c d e f).px x y).getD c' 0).toNat : Int) : Rat)| ≤ 255 :=
    fun x y c' _ _ _ => by rw [abs_of_nonneg (hle x y c').1]; exact (hle x y c').2
  have r1 : |f32.rnd (1 / 3)| ≤ 1 := by
    have := rnd_err_add (1 / 3)
    have h1 : |(1 / 3 : Rat)| = 1 / 3 := abs_of_pos (by norm_num)
    have t := abs_add_le (f32.rnd (1 / 3) - 1 / 3) (1 / 3)
    rw [sub_add_cancel] at t
    rw [h1] at this t
    refine le_trans t (le_trans (add_le_add_left this _) (by norm_num))
  have hsum : ∀ x y c', x < g.info.width → y < g.info.height → c' < g.info.channels →
      ratResponse1d g.info (fun i => |(fun _ : Nat => f32.rnd (1 / 3)) i|) 3 false
        (fun x y c' => |(((((gray6 a b c d e f).px x y).getD c' 0).toNat : Int) : Rat)|) x y c' ≤ 765 := by
    intro x y c' hx hy hc
    refine le_trans (ratResponse1d_le hv hx hy hc) ?_
    rw [Finset.sum_const, Finset.card_range, nsmul_eq_mul]
    push_cast
    linarith
  obtain ⟨out, e2, s⟩ := c109_filter_1d P hg (List.replicate 3 (num 1 /. num 3)) false (fun _ => f32.rnd (1 / 3)) (by simp) (by simp)
    (fun i hi => by
      rw [List.length_replicate] at hi
      rw [List.getD_eq_getElem?_getD, List.getElem?_replicate_of_lt hi]
      refine div_is (by simpa using num32 (n := 1) (by decide)) (by simpa using num32 (n := 3) (by decide)) (by norm_num) (f32_ovf ?_)
      rw [abs_of_pos] <;> norm_num)
    (fun x y c' hx hy hc => le_trans (hsum x y c' hx hy hc) (by norm_num)) (by rw [hi]; dims) (by rw [hi]; dims)
  obtain ⟨w, hw, he⟩ := s.values
  refine ⟨g, out, w, eg, e2, hw, ?_⟩
  have h3 : (1 : Nat) < g.info.width := by rw [hi]; dims
  have h2 : (0 : Nat) < g.info.height := by rw [hi]; dims
  have h1 : (0 : Nat) < g.info.channels := by rw [hi]; dims
  have hb := he 1 0 0 h3 h2 h1
  have hs := hsum 1 0 0 h3 h2 h1
  have ex : ratResponse1d g.info (fun _ => f32.rnd (1 / 3)) 3 false
      (fun x y c' => (((((gray6 a b c d e f).px x y).getD c' 0).toNat : Int) : Rat)) 1 0 0 =
        f32.rnd (1 / 3) * (a.toNat + b.toNat + c.toNat) := by
    rw [hi]
    unfold ratResponse1d
    rw [Finset.sum_range_succ, Finset.sum_range_succ, Finset.sum_range_succ, Finset.sum_range_zero]
    have p0 : (gray6 a b c d e f).px 0 0 = [a] := rfl
    have p1 : (gray6 a b c d e f).px 1 0 = [b] := rfl
    have p2 : (gray6 a b c d e f).px 2 0 = [c] := rfl
    have q0 : padCoord (gray6 a b c d e f).info.width 1 (((1 : Nat) : Int) - (3 / 2 : Nat) + (0 : Nat)) = 0 := rfl
    have q1 : padCoord (gray6 a b c d e f).info.width 1 (((1 : Nat) : Int) - (3 / 2 : Nat) + (1 : Nat)) = 1 := rfl
    have q2 : padCoord (gray6 a b c d e f).info.width 1 (((1 : Nat) : Int) - (3 / 2 : Nat) + (2 : Nat)) = 2 := rfl
    simp only [Bool.false_eq_true, if_false, q0, q1, q2, p0, p1, p2, List.getD_cons_zero]
    push_cast; ring
  simp only [List.length_replicate] at hb
  rw [ex] at hb
  refine le_trans hb ?_
  have := mul_le_mul_of_nonneg_left hs (show (0 : Rat) ≤ ((3 : Nat) + 1) / 2 ^ 23 by positivity)
  refine le_trans (add_le_add_left this _) ?_
  norm_num
end
end Imgproc

import Verif.Props.Bytes4

/-!
# C142: mean filters of byte images are exact
-/
namespace Imgproc
open FloatOps

/-- rounding something within `1/(2N)` of the fraction `S/N` rounds the fraction -/
theorem RoundsTo.fraction {w : Rat} {S : Int} {N v : Nat} (hN : 0 < N) (h : RoundsTo w v) (hw : |w - (S : Rat) / N| < 1 / (2 * N)) :
    |(v : Rat) - max 0 (min 255 ((S : Rat) / N))| ≤ 1 / 2 ∧ (N % 2 = 1 → RoundsTo ((S : Rat) / N) v) := by
  have hN' : (0 : Rat) < N := by exact_mod_cast hN
  have hw := abs_lt.1 hw
  have mulN : (S : Rat) / N * N = S := div_mul_cancel₀ _ hN'.ne'
  have half : 1 / (2 * (N : Rat)) * N = 1 / 2 := by field_simp
  have v0 : (0 : Rat) ≤ v := Nat.cast_nonneg v
  have v255 : (v : Rat) ≤ 255 := by exact_mod_cast h.byte
  have low : 2 * (N : Int) * v ≤ 2 * S + N ∨ v = 0 := by
    refine h.low.imp_left fun h1 => ?_
    have h2 : (v : Rat) < S / N + 1 / (2 * N) + 1 / 2 := by linarith [hw.2]
    have h3 := mul_lt_mul_of_pos_right h2 hN'
    rw [add_mul, add_mul, mulN, half] at h3
    have h4 : 2 * (N : Rat) * v < 2 * S + N + 1 := by linarith
    have : 2 * (N : Int) * v < 2 * S + N + 1 := by exact_mod_cast h4
    omega
  have high : 2 * S ≤ 2 * (N : Int) * v + N ∨ v = 255 := by
    refine h.high.imp_left fun h1 => ?_
    have h2 : (S : Rat) / N - 1 / (2 * N) < v + 1 / 2 := by linarith [hw.1]
    have h3 := mul_lt_mul_of_pos_right h2 hN'
    rw [sub_mul, mulN, half] at h3
    have h4 : (2 * S : Rat) < 2 * (N : Rat) * v + N + 1 := by linarith
    have : 2 * S < 2 * (N : Int) * v + N + 1 := by exact_mod_cast h4
    omega
  have low' : (v : Rat) ≤ (S : Rat) / N + 1 / 2 ∨ v = 0 := by
    refine low.imp_left fun h1 => ?_
    have h1 : 2 * (N : Rat) * v ≤ 2 * S + N := by exact_mod_cast h1
    rw [← sub_le_iff_le_add, le_div_iff₀ hN']
    linarith
  have high' : (S : Rat) / N ≤ v + 1 / 2 ∨ v = 255 := by
    refine high.imp_left fun h1 => ?_
    have h1 : 2 * (S : Rat) ≤ 2 * (N : Rat) * v + N := by exact_mod_cast h1
    rw [div_le_iff₀ hN']
    linarith
  refine ⟨?_, fun hodd => ⟨h.byte, low', ?_⟩⟩
  · rw [abs_le]
    constructor
    · rcases high' with h1 | rfl
      · have : max 0 (min 255 ((S : Rat) / N)) ≤ v + 1 / 2 := max_le (by linarith) (le_trans (min_le_right _ _) h1)
        linarith
      · have : max 0 (min 255 ((S : Rat) / N)) ≤ 255 := max_le (by norm_num) (min_le_left _ _)
        push_cast; linarith
    · rcases low' with h1 | rfl
      · have : (v : Rat) - 1 / 2 ≤ max 0 (min 255 ((S : Rat) / N)) := le_trans (le_min (by linarith) (by linarith)) (le_max_right _ _)
        linarith
      · have : 0 ≤ max 0 (min 255 ((S : Rat) / N)) := le_max_left _ _
        push_cast; linarith
  · refine high.imp_left fun h1 => ?_
    have h1 : 2 * S < 2 * (N : Int) * v + N := by
      have : (2 * S) % 2 = 0 := by omega
      have h2 : 2 * (N : Int) * v + N = 2 * (N * v) + N := by ring
      rw [h2] at h1 ⊢
      omega
    have h1 : 2 * (S : Rat) < 2 * (N : Rat) * v + N := by exact_mod_cast h1
    rw [div_lt_iff₀ hN']
    linarith

/-- spec: the result of `op` is the exact fraction `S / N` at every channel, rounded to a nearest byte and saturated; with `N`
odd there are no ties and the byte is determined -/
def ExactFraction (op : Res (Image UInt8)) (info : ImageInfo) (S : Nat → Nat → Nat → Int) (N : Nat) : Prop :=
  BytesNear op info (fun x y c => (S x y c : Rat) / N) 0 ∧
    (N % 2 = 1 → BytesRounded op info fun x y c => (S x y c : Rat) / N)

theorem BytesRounded.fraction {op : Res (Image UInt8)} {info : ImageInfo} {w : Nat → Nat → Nat → Rat} {S : Nat → Nat → Nat → Int} {N : Nat}
    (hN : 0 < N) (h : BytesRounded op info w)
    (hw : ∀ x y c, x < info.width → y < info.height → c < info.channels → |w x y c - (S x y c : Rat) / N| < 1 / (2 * N)) :
    ExactFraction op info S N := by
  obtain ⟨out, e, h1, h2, h3⟩ := h
  refine ⟨⟨out, e, h1, h2, fun P x y hx hy => ?_⟩, fun hodd => ⟨out, e, h1, h2, fun P x y hx hy => ?_⟩⟩ <;>
    obtain ⟨p, ep, hl, hp⟩ := h3 P x y hx hy <;> refine ⟨p, ep, hl, fun c hc => ?_⟩ <;> obtain ⟨v, ev, hv⟩ := hp c hc
  · exact ⟨v, ev, by rw [add_zero]; exact (hv.fraction hN (hw x y c hx hy hc)).1⟩
  · exact ⟨v, ev, (hv.fraction hN (hw x y c hx hy hc)).2 hodd⟩

/-- the response with weights off by `e` in total is off by at most `e * B` -/
theorem ratResponse2d_diff {info : ImageInfo} {m m' : Nat → Rat} {n : Nat} {v : Nat → Nat → Nat → Rat} {e B : Rat}
    (hv : ∀ x y c, x < info.width → y < info.height → c < info.channels → |v x y c| ≤ B) (hB : 0 ≤ B)
    (he : ∑ i ∈ Finset.range (n * n), |m i - m' i| ≤ e) {x y c : Nat} (hx : x < info.width) (hy : y < info.height) (hc : c < info.channels) :
    |ratResponse2d info m n v x y c - ratResponse2d info m' n v x y c| ≤ e * B := by
  have h1 : ratResponse2d info m n v x y c - ratResponse2d info m' n v x y c = ratResponse2d info (fun i => m i - m' i) n v x y c := by
    unfold ratResponse2d
    rw [← Finset.sum_sub_distrib]
    refine Finset.sum_congr rfl fun i _ => ?_
    rw [← Finset.sum_sub_distrib]
    exact Finset.sum_congr rfl fun j _ => by rw [sub_mul]
  have h2 : |ratResponse2d info (fun i => m i - m' i) n v x y c| ≤
      ratResponse2d info (fun i => |(fun i => m i - m' i) i|) n (fun x y c => |v x y c|) x y c := by
    unfold ratResponse2d
    refine (Finset.abs_sum_le_sum_abs _ _).trans (Finset.sum_le_sum fun i _ => ?_)
    refine (Finset.abs_sum_le_sum_abs _ _).trans (Finset.sum_le_sum fun j _ => ?_)
    rw [abs_mul]
  rw [h1]
  exact h2.trans ((ratResponse2d_le (m := fun i => m i - m' i) (n := n) hv hx hy hc).trans (mul_le_mul_of_nonneg_right he hB))

theorem ratResponse2d_div (info : ImageInfo) (p : Nat → Int) (n N : Nat) (v : Nat → Nat → Nat → Int) (x y c : Nat) :
    ratResponse2d info (fun i => (p i : Rat) / N) n (fun x y c => ((v x y c : Int) : Rat)) x y c = ((intResponse2d info p n v x y c : Int) : Rat) / N := by
  unfold ratResponse2d intResponse2d
  push_cast
  rw [Finset.sum_div]
  refine Finset.sum_congr rfl fun i _ => ?_
  rw [Finset.sum_div]
  exact Finset.sum_congr rfl fun j _ => by ring

section
variable [Libm f32]

omit [Libm f32] in
theorem byteAt_absQ (img : Image UInt8) (x y c : Nat) : |((img.byteAt x y c : Int) : Rat)| ≤ 255 := by
  have := byteAt_abs img x y c
  exact_mod_cast this

/-- **C142** a kernel of the fractions `p i / N`, computed in f32, with `p` adding up to `N`: the filter of a byte image is the
exact fraction `Σ p i · byte / N`, rounded, as long as `N (n² + 3) ≤ 16000` -/
theorem c142_fractions (P : Profile) {img : Image UInt8} (h : img.WF) (kernel : List F32) (n N : Nat) (p : Nat → Nat)
    (hodd : n % 2 = 1) (hk : kernel.length = n * n)
    (hm : ∀ i < kernel.length, (kernel.getD i (num 0)).Is (f32.rnd ((p i : Rat) / N)))
    (hN : 0 < N) (hp : ∑ i ∈ Finset.range (n * n), p i = N) (hsize : N * (n * n + 3) ≤ 16000)
    (hw : img.info.width + n ≤ 2147483648) (hh : img.info.height + n ≤ 2147483648) :
    ExactFraction (onBytes P (fun f => unseparableFilter P f kernel) img) img.info
      (intResponse2d img.info (fun i => (p i : Int)) n (fun x y c => (img.byteAt x y c : Int))) N := by
  have hN' : (1 : Rat) ≤ N := by exact_mod_cast hN
  have hnn : n * n ≤ 16000 := by nlinarith
  refine onBytes_of (Q := fun r => ExactFraction r img.info
      (intResponse2d img.info (fun i => (p i : Int)) n (fun x y c => (img.byteAt x y c : Int))) N) h fun f hi hf => ?_
  rw [← hi] at hf
  set q : Nat → Rat := fun i => (p i : Rat) / N with hq
  have hq0 : ∀ i, 0 ≤ q i := fun i => by rw [hq]; positivity
  have hq1 : ∑ i ∈ Finset.range (n * n), q i = 1 := by
    rw [hq, ← Finset.sum_div, div_eq_one_iff_eq (by linarith)]
    exact_mod_cast hp
  have hd : ∑ i ∈ Finset.range (n * n), |f32.rnd (q i) - q i| ≤ 1 / 2 ^ 23 := by
    have : ∑ i ∈ Finset.range (n * n), |f32.rnd (q i) - q i| ≤ ∑ i ∈ Finset.range (n * n), (q i / 2 ^ 24 + 1 / 2 ^ 150) := by
      refine Finset.sum_le_sum fun i _ => ?_
      have := rnd_err_add (q i)
      rwa [abs_of_nonneg (hq0 i)] at this
    refine le_trans this ?_
    rw [Finset.sum_add_distrib, ← Finset.sum_div, hq1, Finset.sum_const, Finset.card_range, nsmul_eq_mul]
    have : ((n * n : Nat) : Rat) * (1 / 2 ^ 150) ≤ 16000 * (1 / 2 ^ 150) := mul_le_mul_of_nonneg_right (by exact_mod_cast hnn) (by norm_num)
    exact le_trans (add_le_add_right this _) (by norm_num)
  have hS : ∑ i ∈ Finset.range (n * n), |f32.rnd (q i)| ≤ 1 + 1 / 2 ^ 23 := by
    have : ∑ i ∈ Finset.range (n * n), |f32.rnd (q i)| ≤ ∑ i ∈ Finset.range (n * n), (|f32.rnd (q i) - q i| + q i) := by
      refine Finset.sum_le_sum fun i _ => ?_
      have := abs_add_le (f32.rnd (q i) - q i) (q i)
      rwa [sub_add_cancel, abs_of_nonneg (hq0 i)] at this
    rw [Finset.sum_add_distrib, hq1] at this
    linarith
  have hv : ∀ x y c, x < f.info.width → y < f.info.height → c < f.info.channels → |((img.byteAt x y c : Int) : Rat)| ≤ 255 :=
    fun x y c _ _ _ => byteAt_absQ img x y c
  have hr : ∀ x y c, x < f.info.width → y < f.info.height → c < f.info.channels →
      ratResponse2d f.info (fun i => |f32.rnd (q i)|) n (fun x y c => |((img.byteAt x y c : Int) : Rat)|) x y c ≤ (1 + 1 / 2 ^ 23) * 255 :=
    fun x y c hx hy hc => (ratResponse2d_le (m := fun i => f32.rnd (q i)) (n := n) hv hx hy hc).trans
      (mul_le_mul_of_nonneg_right hS (by norm_num))
  obtain ⟨out, e, ho⟩ := c109_unseparable P hf kernel n (fun i => f32.rnd (q i)) hodd hk (by omega) hm
    (fun x y c hx hy hc => le_trans (hr x y c hx hy hc) (by norm_num)) (by rw [hi]; exact hw) (by rw [hi]; exact hh)
  obtain ⟨w, hw', he⟩ := ho.values
  refine ⟨out, e, ?_⟩
  rw [← hi]
  refine (bytes_rounded P hw').fraction hN fun x y c hx hy hc => ?_
  have h1 := he x y c hx hy hc
  have hqe : q = fun i => (((p i : Nat) : Int) : Rat) / N := by rw [hq]; funext i; push_cast; rfl
  have h2 := ratResponse2d_diff (m := fun i => f32.rnd (q i)) (m' := q) (n := n) hv (by norm_num) hd hx hy hc
  have e2 := ratResponse2d_div f.info (fun i => (p i : Int)) n N (fun x y c => (img.byteAt x y c : Int)) x y c
  rw [← hqe] at e2
  rw [e2] at h2
  have h3 := mul_le_mul_of_nonneg_left (hr x y c hx hy hc) (show (0 : Rat) ≤ (n * n + 1) / 2 ^ 23 by positivity)
  have tri := abs_sub_le (w x y c) (ratResponse2d f.info (fun i => f32.rnd (q i)) n (fun x y c => ((img.byteAt x y c : Int) : Rat)) x y c)
    (((intResponse2d f.info (fun i => (p i : Int)) n (fun x y c => (img.byteAt x y c : Int)) x y c : Int) : Rat) / N)
  rw [lt_div_iff₀ (by linarith)]
  have hs' : (N : Rat) * (n * n + 3) ≤ 16000 := by exact_mod_cast hsize
  have hn' : (n : Rat) * n ≤ 16000 := by exact_mod_cast hnn
  have n0 : (0 : Rat) ≤ n * n := by positivity
  have tot : |w x y c - ((intResponse2d f.info (fun i => (p i : Int)) n (fun x y c => (img.byteAt x y c : Int)) x y c : Int) : Rat) / N| ≤
      (n * n + 3) * (256 / 2 ^ 23) := by
    have t1 : ((n : Rat) * n + 1) / 2 ^ 23 * ((1 + 1 / 2 ^ 23) * 255) ≤ (n * n + 1) * (256 / 2 ^ 23) := by
      have : (1 + 1 / 2 ^ 23) * 255 ≤ (256 : Rat) := by norm_num
      have := mul_le_mul_of_nonneg_left this (show (0 : Rat) ≤ (n * n + 1) / 2 ^ 23 by positivity)
      linarith
    have t2 : (n : Rat) * n / 2 ^ 147 ≤ 256 / 2 ^ 23 := by
      have : (n : Rat) * n / 2 ^ 147 ≤ 16000 / 2 ^ 147 := by gcongr
      exact this.trans (by norm_num)
    have t3 : (1 : Rat) / 2 ^ 23 * 255 ≤ 256 / 2 ^ 23 := by norm_num
    linarith
  have : (n * n + 3 : Rat) * (256 / 2 ^ 23) * (2 * N) = (N * (n * n + 3)) * (512 / 2 ^ 23) := by ring
  have := mul_le_mul_of_nonneg_right tot (show (0 : Rat) ≤ 2 * N by linarith)
  have : (N : Rat) * (n * n + 3) * (512 / 2 ^ 23) ≤ 16000 * (512 / 2 ^ 23) := mul_le_mul_of_nonneg_right hs' (by norm_num)
  have : (16000 : Rat) * (512 / 2 ^ 23) < 1 := by norm_num
  linarith
/-- spec: the weights of `weighted_avg_filter`: `weight` in the middle, one elsewhere -/
def meanWeight (size weight : Nat) (i : Nat) : Nat := if i = size / 2 * size + size / 2 then weight else 1

/-- **C142** `weighted_avg_filter` on bytes: the exact weighted mean of the padded window, rounded -/
theorem c142_weighted_mean (P : Profile) {img : Image UInt8} (h : img.WF) (size weight : Nat) (hodd : size % 2 = 1)
    (hpos : 0 < size * size - 1 + weight) (hsize : (size * size - 1 + weight) * (size * size + 3) ≤ 16000)
    (hw : img.info.width + size ≤ 2147483648) (hh : img.info.height + size ≤ 2147483648) :
    ExactFraction (onBytes P (fun f => weightedAvgFilter P f size weight) img) img.info
      (intResponse2d img.info (fun i => (meanWeight size weight i : Int)) size (fun x y c => (img.byteAt x y c : Int)))
      (size * size - 1 + weight) := by
  set N := size * size - 1 + weight with hN
  have hnn : size * size ≤ 16000 := by nlinarith
  have hNN : N ≤ 16000 := by nlinarith
  have hs : size < 65536 := by by_contra h'; have : 65536 * 65536 ≤ size * size := Nat.mul_le_mul (by omega) (by omega); omega
  have hsq : 1 ≤ size * size := Nat.mul_pos (by omega) (by omega)
  have hc : size / 2 * size + size / 2 < size * size := by
    have h1 : (size / 2 + 1) * size ≤ size * size := Nat.mul_le_mul_right _ (by omega)
    rw [Nat.succ_mul] at h1; omega
  have N1 : (1 : Rat) ≤ N := by exact_mod_cast hpos
  have ek := c50_kernel (F := F32) P size weight hodd hs (show size * size - 1 + weight < 4294967296 by omega)
  rw [← hN] at ek
  set kernel := (List.range (size * size)).map (fun k => if k = size / 2 * size + size / 2 then
        (ofNat weight : F32) /. ofNat N else num 1 /. ofNat N) with hkd
  have hlen : kernel.length = size * size := by rw [hkd]; simp
  have e0 : ∀ f : Image F32, weightedAvgFilter P f size weight = unseparableFilter P f kernel := by
    intro f
    unfold weightedAvgFilter
    rw [checkOdd_u32_ok hodd, ok_bind, ek, ok_bind]
  simp only [e0]
  refine c142_fractions P h kernel size N (meanWeight size weight) hodd hlen (fun i hi => ?_) hpos ?_ hsize hw hh
  · rw [hlen] at hi
    rw [hkd, List.getD_eq_getElem?_getD, List.getElem?_map, List.getElem?_range hi]
    show (if i = size / 2 * size + size / 2 then (ofNat weight : F32) /. ofNat N else num 1 /. ofNat N).Is _
    unfold meanWeight
    by_cases hcc : i = size / 2 * size + size / 2
    · rw [if_pos hcc, if_pos hcc]
      exact natDiv_is (by omega) (by omega) hpos
    · rw [if_neg hcc, if_neg hcc]
      refine div_is (by simpa using num32 (n := 1) (by decide)) (nat32 (by omega)) (by linarith) (f32_ovf ?_)
      rw [Nat.cast_one, abs_of_nonneg (by positivity), div_le_iff₀ (by linarith)]
      have : (1 : Rat) ≤ 2 ^ 100 := by norm_num
      nlinarith
  · unfold meanWeight
    rw [← Finset.add_sum_erase _ _ (Finset.mem_range.2 hc), if_pos rfl,
      Finset.sum_congr rfl (g := fun _ => 1) (fun i hi => if_neg (Finset.ne_of_mem_erase hi)), Finset.sum_const,
      Finset.card_erase_of_mem (Finset.mem_range.2 hc), Finset.card_range, smul_eq_mul, mul_one, hN, add_comm]

/-- **C142** `box_filter` of size 3 on bytes: the exact mean of the 9 by 9 padded window it averages over, rounded -/
theorem c142_box_mean (P : Profile) {img : Image UInt8} (h : img.WF)
    (hw : img.info.width + 9 ≤ 2147483648) (hh : img.info.height + 9 ≤ 2147483648) :
    BytesRounded (onBytes P (fun f => boxFilter P f 3) img) img.info fun x y c =>
      ((intResponse2d img.info (fun _ => 1) 9 (fun x y c => (img.byteAt x y c : Int)) x y c : Int) : Rat) / 81 := by
  have key : ExactFraction (onBytes P (fun f => boxFilter P f 3) img) img.info
      (intResponse2d img.info (fun _ => 1) 9 (fun x y c => (img.byteAt x y c : Int))) 81 := by
    refine onBytes_of (Q := fun r => ExactFraction r img.info
        (intResponse2d img.info (fun _ => 1) 9 (fun x y c => (img.byteAt x y c : Int))) 81) h fun f hi hf => ?_
    rw [← hi] at hf
    have e0 : boxFilter P f 3 = separableFilter P f (List.replicate 9 ((num 1 : F32) /. ofNat 9)) (List.replicate 9 ((num 1 : F32) /. ofNat 9)) := rfl
    rw [e0]
    set kernel := List.replicate 9 ((num 1 : F32) /. ofNat 9) with hkd
    have hlen : kernel.length = 9 := by rw [hkd, List.length_replicate]
    set r := f32.rnd (1 / 9) with hr
    have hm : ∀ i < kernel.length, (kernel.getD i (num 0)).Is r := by
      intro i hi
      have hi : i < 9 := hi
      rw [hkd, List.getD_eq_getElem?_getD, List.getElem?_replicate_of_lt hi]
      refine div_is (by simpa using num32 (n := 1) (by decide)) (by simpa using nat32 (n := 9) (by decide)) (by norm_num) (f32_ovf ?_)
      rw [abs_of_pos] <;> norm_num
    have r0 : 0 ≤ r := rnd_nonneg' (by norm_num)
    have re := rnd_err_add (1 / 9)
    rw [← hr, abs_of_pos (by norm_num : (0 : Rat) < 1 / 9)] at re
    have re' : |r - 1 / 9| ≤ 1 / 2 ^ 26 := re.trans (by norm_num)
    have r1 : r ≤ 1 / 8 := by have := (abs_le.1 re').2; have : (1 : Rat) / 2 ^ 26 ≤ 1 / 8 - 1 / 9 := by norm_num
                              linarith
    have hsum : ∑ i ∈ Finset.range kernel.length, |(fun _ : Nat => r) i| = 9 * r := by
      simp only [abs_of_nonneg r0]
      rw [Finset.sum_const, Finset.card_range, nsmul_eq_mul]; rfl
    have hv : ∀ x y c, x < f.info.width → y < f.info.height → c < f.info.channels → |((img.byteAt x y c : Int) : Rat)| ≤ 255 :=
      fun x y c _ _ _ => byteAt_absQ img x y c
    have r2 : 9 * r ≤ 9 / 8 := by linarith
    have rr : 9 * r * (9 * r) ≤ 81 / 64 := le_trans (mul_le_mul r2 r2 (by positivity) (by norm_num)) (by norm_num)
    obtain ⟨out, e, ho⟩ := c109_separable P hf kernel kernel (fun _ => r) (fun _ => r) 255 (by rw [hlen]) rfl (by rw [hlen]; norm_num) hm hm (by norm_num) hv
      (by rw [hsum]; linarith) (by rw [hsum, ← mul_assoc]; linarith) (by rw [hsum]; linarith)
      (by rw [hi]; exact hw) (by rw [hi]; exact hh)
    rw [hsum, hlen] at ho
    obtain ⟨w, hw', he⟩ := ho.values
    refine ⟨out, e, ?_⟩
    rw [← hi]
    refine (bytes_rounded P hw').fraction (by decide) fun x y c hx hy hc => ?_
    have h1 := he x y c hx hy hc
    have hd : ∑ i ∈ Finset.range (9 * 9), |(fun _ : Nat => r * r) i - (fun _ : Nat => ((1 : Int) : Rat) / ((81 : Nat) : Rat)) i| ≤ 1 / 2 ^ 20 := by
      rw [Finset.sum_const, Finset.card_range, nsmul_eq_mul]
      have : r * r - ((1 : Int) : Rat) / ((81 : Nat) : Rat) = (r - 1 / 9) * (r + 1 / 9) := by push_cast; ring
      rw [this, abs_mul, abs_of_nonneg (by linarith : 0 ≤ r + 1 / 9)]
      have := mul_le_mul re' (by linarith : r + 1 / 9 ≤ 1 / 4) (by linarith) (by norm_num)
      push_cast
      linarith
    have h2 := ratResponse2d_diff (n := 9) hv (by norm_num) hd hx hy hc
    rw [ratResponse2d_div f.info (fun _ => 1) 9 81 (fun x y c => (img.byteAt x y c : Int)) x y c] at h2
    have tri := abs_sub_le (w x y c) (ratResponse2d f.info (fun _ => r * r) 9 (fun x y c => ((img.byteAt x y c : Int) : Rat)) x y c)
      (((intResponse2d f.info (fun _ => 1) 9 (fun x y c => (img.byteAt x y c : Int)) x y c : Int) : Rat) / (81 : Nat))
    have t1 : 3 * ((((9 : Nat) : Rat) + 1) / 2 ^ 23) * (9 * r * (9 * r) * 255) + (1 + 2 * (9 * r)) * (((9 : Nat) : Rat) / 2 ^ 147) ≤ 1 / 500 := by
      push_cast
      have a1 : 3 * (((9 : Rat) + 1) / 2 ^ 23) * (9 * r * (9 * r) * 255) ≤ 3 * ((9 + 1) / 2 ^ 23) * (81 / 64 * 255) :=
        mul_le_mul_of_nonneg_left (mul_le_mul_of_nonneg_right rr (by norm_num)) (by norm_num)
      have a2 : (1 + 2 * (9 * r)) * ((9 : Rat) / 2 ^ 147) ≤ 4 * (9 / 2 ^ 147) := mul_le_mul_of_nonneg_right (by linarith) (by norm_num)
      refine (add_le_add a1 a2).trans (by norm_num)
    have t2 : (1 : Rat) / 2 ^ 20 * 255 ≤ 1 / 1000 := by norm_num
    have t3 : (1 : Rat) / 500 + 1 / 1000 < 1 / (2 * ((81 : Nat) : Rat)) := by norm_num
    linarith
  exact key.2 rfl

omit [Libm f32] in
theorem RoundsTo.mono {q q' : Rat} {n n' : Nat} (h : RoundsTo q n) (h' : RoundsTo q' n') (hq : q ≤ q') : n ≤ n' := by
  have := h.byte
  rcases h.low with h1 | h1
  · rcases h'.high with h2 | h2
    · have : (n : Rat) < (n' + 1 : Nat) := by push_cast; linarith
      have : n < n' + 1 := by exact_mod_cast this
      omega
    · omega
  · omega

omit [Libm f32] in
theorem response_mono {a b : Image UInt8} (hab : ∀ x y c, x < a.info.width → y < a.info.height → c < a.info.channels → a.byteAt x y c ≤ b.byteAt x y c)
    {m : Nat → Int} {n : Nat} (hm : ∀ i < n * n, 0 ≤ m i) {x y c : Nat} (hx : x < a.info.width) (hy : y < a.info.height) (hc : c < a.info.channels) :
    intResponse2d a.info m n (fun x y c => (a.byteAt x y c : Int)) x y c ≤ intResponse2d a.info m n (fun x y c => (b.byteAt x y c : Int)) x y c := by
  unfold intResponse2d
  refine Finset.sum_le_sum fun i hi => Finset.sum_le_sum fun j hj => mul_le_mul_of_nonneg_left ?_ (hm _ ?_)
  · exact Int.ofNat_le.2 (hab _ _ _ (padCoord_in hx _) (padCoord_in hy _) hc)
  · have := Finset.mem_range.1 hi; have := Finset.mem_range.1 hj; nlinarith

omit [Libm f32] in
/-- rounded means of brighter bytes are brighter or equal -/
theorem rounded_mean_mono {a b : Image UInt8} (hab : ∀ x y c, x < a.info.width → y < a.info.height → c < a.info.channels → a.byteAt x y c ≤ b.byteAt x y c)
    {op op' : Res (Image UInt8)} {d : Nat} {m : Nat → Int} {n : Nat} (hm : ∀ i < n * n, 0 ≤ m i)
    (h1 : BytesRounded op a.info (fun x y c => ((intResponse2d a.info m n (fun x y c => (a.byteAt x y c : Int)) x y c : Int) : Rat) / d))
    (h2 : BytesRounded op' a.info (fun x y c => ((intResponse2d a.info m n (fun x y c => (b.byteAt x y c : Int)) x y c : Int) : Rat) / d)) :
    ∃ u v, op = .ok u ∧ op' = .ok v ∧ u.info = a.info ∧ v.info = a.info ∧
      ∀ x y c, x < a.info.width → y < a.info.height → c < a.info.channels → u.byteAt x y c ≤ v.byteAt x y c := by
  obtain ⟨u, e, -, i, hu⟩ := h1.byteAt
  obtain ⟨v, e', -, i', hv⟩ := h2.byteAt
  refine ⟨u, v, e, e', i, i', fun x y c hx hy hc => (hu x y c hx hy hc).mono (hv x y c hx hy hc) ?_⟩
  have := response_mono hab hm hx hy hc
  rcases Nat.eq_zero_or_pos d with rfl | hd
  · simp
  · exact (div_le_div_iff_of_pos_right (by exact_mod_cast hd)).2 (by exact_mod_cast this)

omit [Libm f32] in
theorem meanWeight_nonneg (size weight : Nat) : ∀ i < size * size, 0 ≤ (meanWeight size weight i : Int) := fun _ _ => Int.natCast_nonneg _

omit [Libm f32] in
theorem meanWeight_sum (size weight : Nat) (hodd : size % 2 = 1) :
    ∑ i ∈ Finset.range (size * size), meanWeight size weight i = size * size - 1 + weight := by
  have hc : size / 2 * size + size / 2 < size * size := by
    have h1 : (size / 2 + 1) * size ≤ size * size := Nat.mul_le_mul_right _ (by omega)
    rw [Nat.succ_mul] at h1; omega
  unfold meanWeight
  rw [← Finset.add_sum_erase _ _ (Finset.mem_range.2 hc), if_pos rfl,
    Finset.sum_congr rfl (g := fun _ => 1) (fun i hi => if_neg (Finset.ne_of_mem_erase hi)), Finset.sum_const,
    Finset.card_erase_of_mem (Finset.mem_range.2 hc), Finset.card_range, smul_eq_mul, mul_one, add_comm]

/-- **C142** the weighted mean (odd weight) and the box mean commute exactly with a brightness change that does not saturate -/
theorem c142_brightness (P : Profile) {a b : Image UInt8} (ha : a.WF) (hb : b.WF) {k : Int} (h : a.ByteShift b 1 k)
    (size weight : Nat) (hodd : size % 2 = 1) (hwt : weight % 2 = 1) (hsize : (size * size - 1 + weight) * (size * size + 3) ≤ 16000)
    (hw : a.info.width + max size 9 ≤ 2147483648) (hh : a.info.height + max size 9 ≤ 2147483648) :
    (∃ u v, onBytes P (fun f => weightedAvgFilter P f size weight) a = .ok u ∧ onBytes P (fun f => weightedAvgFilter P f size weight) b = .ok v ∧
      u.info = a.info ∧ u.ByteShift v 1 k) ∧
    ∃ u v, onBytes P (fun f => boxFilter P f 3) a = .ok u ∧ onBytes P (fun f => boxFilter P f 3) b = .ok v ∧ u.info = a.info ∧ u.ByteShift v 1 k := by
  have hpos : 0 < size * size - 1 + weight := by omega
  have hN : (size * size - 1 + weight) % 2 = 1 := by
    have : size * size % 2 = 1 := by rw [Nat.mul_mod, hodd]
    omega
  have h1 := (c142_weighted_mean P ha size weight hodd hpos hsize (by omega) (by omega)).2 hN
  have h2 := (c142_weighted_mean P hb size weight hodd hpos hsize (by rw [h.1]; omega) (by rw [h.1]; omega)).2 hN
  have h3 := c142_box_mean P ha (by omega) (by omega)
  have h4 := c142_box_mean P hb (by rw [h.1]; omega) (by rw [h.1]; omega)
  rw [h.1] at h2 h4
  refine ⟨rounded_mean_shift h hpos (meanWeight_nonneg size weight) ?_ h1 h2,
    rounded_mean_shift h (d := 81) (m := fun _ => 1) (n := 9) (by decide) (fun _ _ => by decide) (by decide) (by exact_mod_cast h3) (by exact_mod_cast h4)⟩
  exact_mod_cast meanWeight_sum size weight hodd

/-- **C142** blurs and means are monotone: where every byte of `b` is at least that of `a`, so is every byte of the result -/
theorem c142_monotone (P : Profile) {a b : Image UInt8} (ha : a.WF) (hb : b.WF) (hi : b.info = a.info)
    (hab : ∀ x y c, x < a.info.width → y < a.info.height → c < a.info.channels → a.byteAt x y c ≤ b.byteAt x y c)
    (size weight : Nat) (hodd : size % 2 = 1) (hwt : weight % 2 = 1) (hsize : (size * size - 1 + weight) * (size * size + 3) ≤ 16000)
    (hw : a.info.width + max size 9 ≤ 2147483648) (hh : a.info.height + max size 9 ≤ 2147483648) :
    ∀ blur ∈ [fun f => weightedAvgFilter P f size weight, fun f => boxFilter P f 3,
      fun f => unseparableFilter P f K_GAUSSIAN_BLUR_2D_3, fun f => separableFilter P f K_GAUSSIAN_BLUR_1D_3 K_GAUSSIAN_BLUR_1D_3,
      fun f => unseparableFilter P f K_GAUSSIAN_BLUR_2D_5, fun f => separableFilter P f K_GAUSSIAN_BLUR_1D_5 K_GAUSSIAN_BLUR_1D_5],
      ∃ u v, onBytes P blur a = .ok u ∧ onBytes P blur b = .ok v ∧ u.info = a.info ∧ v.info = a.info ∧
        ∀ x y c, x < a.info.width → y < a.info.height → c < a.info.channels → u.byteAt x y c ≤ v.byteAt x y c := by
  have hpos : 0 < size * size - 1 + weight := by omega
  have hN : (size * size - 1 + weight) % 2 = 1 := by
    have : size * size % 2 = 1 := by rw [Nat.mul_mod, hodd]
    omega
  have h1 := (c142_weighted_mean P ha size weight hodd hpos hsize (by omega) (by omega)).2 hN
  have h2 := (c142_weighted_mean P hb size weight hodd hpos hsize (by rw [hi]; omega) (by rw [hi]; omega)).2 hN
  have h3 := c142_box_mean P ha (by omega) (by omega)
  have h4 := c142_box_mean P hb (by rw [hi]; omega) (by rw [hi]; omega)
  obtain ⟨p1, p2⟩ := c140_gaussian3 P ha (by omega) (by omega)
  obtain ⟨q1, q2⟩ := c140_gaussian3 P hb (by rw [hi]; omega) (by rw [hi]; omega)
  obtain ⟨r1, r2⟩ := c140_gaussian5 P ha (by omega) (by omega)
  obtain ⟨t1, t2⟩ := c140_gaussian5 P hb (by rw [hi]; omega) (by rw [hi]; omega)
  rw [hi] at h2 h4 q1 q2 t1 t2
  intro blur hbl
  simp only [List.mem_cons, List.not_mem_nil, or_false] at hbl
  rcases hbl with rfl | rfl | rfl | rfl | rfl | rfl
  · exact rounded_mean_mono hab (meanWeight_nonneg size weight) h1 h2
  · exact rounded_mean_mono hab (d := 81) (m := fun _ => 1) (n := 9) (fun _ _ => by decide) (by exact_mod_cast h3) (by exact_mod_cast h4)
  · exact rounded_mean_mono hab (d := 16) (m := fun k => binom3.getD (k / 3) 0 * binom3.getD (k % 3) 0) (n := 3) (by decide) (by exact_mod_cast p1) (by exact_mod_cast q1)
  · exact rounded_mean_mono hab (d := 16) (m := fun k => binom3.getD (k / 3) 0 * binom3.getD (k % 3) 0) (n := 3) (by decide) (by exact_mod_cast p2) (by exact_mod_cast q2)
  · exact rounded_mean_mono hab (d := 256) (m := fun k => binom5.getD (k / 5) 0 * binom5.getD (k % 5) 0) (n := 5) (by decide) (by exact_mod_cast r1) (by exact_mod_cast t1)
  · exact rounded_mean_mono hab (d := 256) (m := fun k => binom5.getD (k / 5) 0 * binom5.getD (k % 5) 0) (n := 5) (by decide) (by exact_mod_cast r2) (by exact_mod_cast t2)

/-- **C142** different routes to the same blur give the same bytes: `box_filter` of size 3 is the mean over a 9 by 9 window (not 3 by 3), and
each predefined Gaussian gives the same image in its 2-d and its separable form -/
theorem c142_same_bytes (P : Profile) {img : Image UInt8} (h : img.WF)
    (hw : img.info.width + 9 ≤ 2147483648) (hh : img.info.height + 9 ≤ 2147483648) :
    onBytes P (fun f => boxFilter P f 3) img = onBytes P (fun f => weightedAvgFilter P f 9 1) img ∧
    onBytes P (fun f => unseparableFilter P f K_GAUSSIAN_BLUR_2D_3) img =
      onBytes P (fun f => separableFilter P f K_GAUSSIAN_BLUR_1D_3 K_GAUSSIAN_BLUR_1D_3) img ∧
    onBytes P (fun f => unseparableFilter P f K_GAUSSIAN_BLUR_2D_5) img =
      onBytes P (fun f => separableFilter P f K_GAUSSIAN_BLUR_1D_5 K_GAUSSIAN_BLUR_1D_5) img := by
  have h1 := c142_box_mean P h hw hh
  have h2 := (c142_weighted_mean P h 9 1 rfl (by decide) (by decide) hw hh).2 rfl
  obtain ⟨p1, p2⟩ := c140_gaussian3 P h (by omega) (by omega)
  obtain ⟨q1, q2⟩ := c140_gaussian5 P h (by omega) (by omega)
  refine ⟨h1.unique h2 fun x y c _ _ _ => ?_, p1.unique p2 fun _ _ _ _ _ _ => rfl, q1.unique q2 fun _ _ _ _ _ _ => rfl⟩
  have : (fun i => (meanWeight 9 1 i : Int)) = fun _ => 1 := by
    funext i; unfold meanWeight; split <;> rfl
  rw [this]
  norm_num

/-- C142 applies: the 3 by 3 mean of a byte image -/
example (P : Profile) (a b c d e f : UInt8) : BytesRounded (onBytes P (fun g => weightedAvgFilter P g 3 1) (gray6 a b c d e f))
    (gray6 a b c d e f).info fun x y k => ((intResponse2d (gray6 a b c d e f).info (fun i => (meanWeight 3 1 i : Int)) 3
      (fun x y k => ((gray6 a b c d e f).byteAt x y k : Int)) x y k : Int) : Rat) / 9 :=
  (c142_weighted_mean P (gray6_WF a b c d e f) 3 1 rfl (by decide) (by decide) (by dims) (by dims)).2 rfl

/-- ... up to 11 by 11 -/
example (P : Profile) (a b c d e f : UInt8) : BytesRounded (onBytes P (fun g => weightedAvgFilter P g 11 1) (gray6 a b c d e f))
    (gray6 a b c d e f).info fun x y k => ((intResponse2d (gray6 a b c d e f).info (fun i => (meanWeight 11 1 i : Int)) 11
      (fun x y k => ((gray6 a b c d e f).byteAt x y k : Int)) x y k : Int) : Rat) / 121 :=
  (c142_weighted_mean P (gray6_WF a b c d e f) 11 1 rfl (by decide) (by decide) (by dims) (by dims)).2 rfl

/-- a gray ramp and the same, 20 brighter -/
example (P : Profile) : ∃ u v, onBytes P (fun f => weightedAvgFilter P f 3 5) (gray6 0 10 20 100 110 120) = .ok u ∧
    onBytes P (fun f => weightedAvgFilter P f 3 5) (gray6 20 30 40 120 130 140) = .ok v ∧
    u.info = (gray6 0 10 20 100 110 120).info ∧ u.ByteShift v 1 20 := by
  have h : (gray6 0 10 20 100 110 120).ByteShift (gray6 20 30 40 120 130 140) 1 20 := by
    refine ⟨rfl, fun x y c hx hy hc => ?_⟩
    have hx : x < 3 := hx
    have hy : y < 2 := hy
    obtain rfl : c = 0 := Nat.lt_one_iff.1 hc
    interval_cases x <;> interval_cases y <;> decide
  exact (c142_brightness P (gray6_WF 0 10 20 100 110 120) (gray6_WF 20 30 40 120 130 140) h 3 5 rfl rfl (by decide) (by dims) (by dims)).1

/-- one pixel raised: no pixel of the box mean falls -/
example (P : Profile) : ∃ u v, onBytes P (fun f => boxFilter P f 3) (gray6 0 10 20 100 110 120) = .ok u ∧
    onBytes P (fun f => boxFilter P f 3) (gray6 0 10 20 100 255 120) = .ok v ∧ u.info = (gray6 0 10 20 100 110 120).info ∧
    v.info = (gray6 0 10 20 100 110 120).info ∧ ∀ x y c, x < 3 → y < 2 → c < 1 → u.byteAt x y c ≤ v.byteAt x y c :=
  c142_monotone P (gray6_WF 0 10 20 100 110 120) (gray6_WF 0 10 20 100 255 120) rfl (by
    intro x y c hx hy hc
    have hx : x < 3 := hx
    have hy : y < 2 := hy
    obtain rfl : c = 0 := Nat.lt_one_iff.1 hc
    interval_cases x <;> interval_cases y <;> decide) 3 1 rfl rfl (by decide) (by dims) (by dims) _ (by simp)

example (P : Profile) (a b c d e f : UInt8) := c142_same_bytes P (gray6_WF a b c d e f) (by dims) (by dims)

example (P : Profile) (a b c d e f : UInt8) := c142_box_mean P (gray6_WF a b c d e f) (by dims) (by dims)
end
end Imgproc

import Verif.Props.Scale9
import Verif.Proofs.ErrSum
/-! Property C113: what bilinear scaling computes in f32, for every factor. -/
namespace Imgproc
open FloatOps

section
variable [Libm f32]

/-- the float `x` is within `k` units of `M / 2^24` of `p` -/
def Sc (M : Rat) (x : F32) (p k : Rat) : Prop := ∃ a, x.Is a ∧ |a - p| ≤ k * (M / 2 ^ 24)

omit [Libm f32] in
theorem Sc.mono {M : Rat} {x : F32} {p k k' : Rat} (h : Sc M x p k) (hk : k ≤ k') (hM : 0 ≤ M) : Sc M x p k' := by
  obtain ⟨a, ha, hb⟩ := h
  exact ⟨a, ha, hb.trans (mul_le_mul_of_nonneg_right hk (by positivity))⟩

omit [Libm f32] in
theorem Sc.round {M : Rat} {x : F32} {q p k : Rat} (hx : x.Is (f32.rnd q)) (h0 : 1 / 2 ^ 100 ≤ M) (hk : k ≤ 100) (hq : |q - p| ≤ k * (M / 2 ^ 24))
    (hp : |p| ≤ M) : Sc M x p (k + 2) := by
  refine ⟨_, hx, ?_⟩
  have M0 : 0 < M := lt_of_lt_of_le (by positivity) h0
  have he := rnd_err_add q
  have a1 := abs_add_le (q - p) p
  rw [sub_add_cancel] at a1
  have a2 := abs_add_le (f32.rnd q - q) (q - p)
  rw [sub_add_sub_cancel] at a2
  have u : k * (M / 2 ^ 24) ≤ M / 2 := by
    have : k * (M / 2 ^ 24) ≤ 100 * (M / 2 ^ 24) := mul_le_mul_of_nonneg_right hk (by positivity)
    linarith
  have v : (1 / 2 ^ 150 : Rat) ≤ M / 2 ^ 26 := by
    have : (1 / 2 ^ 100 : Rat) / 2 ^ 26 ≤ M / 2 ^ 26 := div_le_div_of_nonneg_right h0 (by positivity)
    refine le_trans ?_ this
    norm_num
  linarith

theorem Sc.mul {M : Rat} {x y : F32} {p k r j : Rat} (hx : Sc M x p k) (hy : Sc 1 y r j) (h0 : 1 / 2 ^ 100 ≤ M) (h1 : M ≤ 2 ^ 97)
    (hk0 : 0 ≤ k) (hk : k ≤ 40) (_hj0 : 0 ≤ j) (hj : j ≤ 40) (hp : |p| ≤ M) (r0 : 0 ≤ r) (r1 : r ≤ 1) : Sc M (x *. y) (p * r) (k + j + 2 + 1 / 1000) := by
  obtain ⟨a, ha, ea⟩ := hx
  obtain ⟨b, hb, eb⟩ := hy
  have M0 : 0 < M := lt_of_lt_of_le (by positivity) h0
  have hr : |r| ≤ 1 := abs_le.2 ⟨by linarith, r1⟩
  have hpr : |p * r| ≤ M := by rw [abs_mul]; nlinarith [abs_nonneg p, abs_nonneg r]
  have key : |a * b - p * r| ≤ (k + j + 1 / 1000) * (M / 2 ^ 24) := by
    have e : a * b - p * r = (a - p) * (b - r) + (a - p) * r + p * (b - r) := by ring
    rw [e]
    refine (abs_add_three _ _ _).trans ?_
    rw [abs_mul, abs_mul, abs_mul]
    have t1 : |a - p| * |b - r| ≤ (k * (M / 2 ^ 24)) * (j * (1 / 2 ^ 24)) := mul_le_mul ea eb (abs_nonneg _) (by positivity)
    have t2 : |a - p| * |r| ≤ (k * (M / 2 ^ 24)) * 1 := mul_le_mul ea hr (abs_nonneg _) (by positivity)
    have t3 : |p| * |b - r| ≤ M * (j * (1 / 2 ^ 24)) := mul_le_mul hp eb (abs_nonneg _) M0.le
    have t4 : (k * (M / 2 ^ 24)) * (j * (1 / 2 ^ 24)) ≤ 1600 * (1 / 2 ^ 24) * (M / 2 ^ 24) := by
      have : k * j ≤ 1600 := by nlinarith
      calc (k * (M / 2 ^ 24)) * (j * (1 / 2 ^ 24)) = k * j * ((1 / 2 ^ 24) * (M / 2 ^ 24)) := by ring
        _ ≤ 1600 * ((1 / 2 ^ 24) * (M / 2 ^ 24)) := mul_le_mul_of_nonneg_right this (by positivity)
        _ = _ := by ring
    have t5 : 1600 * (1 / 2 ^ 24 : Rat) * (M / 2 ^ 24) ≤ 1 / 1000 * (M / 2 ^ 24) := mul_le_mul_of_nonneg_right (by norm_num) (by positivity)
    calc _ ≤ 1 / 1000 * (M / 2 ^ 24) + (k * (M / 2 ^ 24)) * 1 + M * (j * (1 / 2 ^ 24)) := by linarith
      _ = _ := by ring
  have big : |a * b| ≤ 2 ^ 100 := by
    have a1 := abs_add_le (a * b - p * r) (p * r)
    rw [sub_add_cancel] at a1
    have : (k + j + 1 / 1000) * (M / 2 ^ 24) ≤ 100 * (M / 2 ^ 24) := mul_le_mul_of_nonneg_right (by linarith) (by positivity)
    have : (2 : Rat) ^ 97 * 2 ≤ 2 ^ 100 := by norm_num
    linarith
  exact (Sc.round (mul_is ha hb (f32_ovf big)) h0 (by linarith) key hpr).mono (by linarith) M0.le

theorem Sc.add {M : Rat} {x y : F32} {p k q j : Rat} (hx : Sc M x p k) (hy : Sc M y q j) (h0 : 1 / 2 ^ 100 ≤ M) (h1 : M ≤ 2 ^ 97)
    (hkj : k + j ≤ 100) (hpq : |p + q| ≤ M) : Sc M (x +. y) (p + q) (k + j + 2) := by
  obtain ⟨a, ha, ea⟩ := hx
  obtain ⟨b, hb, eb⟩ := hy
  have M0 : 0 < M := lt_of_lt_of_le (by positivity) h0
  have key : |a + b - (p + q)| ≤ (k + j) * (M / 2 ^ 24) := by
    have e : a + b - (p + q) = (a - p) + (b - q) := by ring
    rw [e, add_mul]
    exact (abs_add_le _ _).trans (add_le_add ea eb)
  have big : |a + b| ≤ 2 ^ 100 := by
    have a1 := abs_add_le (a + b - (p + q)) (p + q)
    rw [sub_add_cancel] at a1
    have : (k + j) * (M / 2 ^ 24) ≤ 100 * (M / 2 ^ 24) := mul_le_mul_of_nonneg_right hkj (by positivity)
    have : (2 : Rat) ^ 97 * 2 ≤ 2 ^ 100 := by norm_num
    linarith
  exact Sc.round (add_is ha hb (f32_ovf big)) h0 hkj key hpq

theorem Sc.compl {y : F32} {r j : Rat} (hy : Sc 1 y r j) (_hj0 : 0 ≤ j) (hj : j ≤ 40) (r0 : 0 ≤ r) (r1 : r ≤ 1) : Sc 1 (num 1 -. y) (1 - r) (j + 2) := by
  obtain ⟨b, hb, eb⟩ := hy
  have o : (num 1 : F32).Is 1 := by simpa using num32 (n := 1) (by decide)
  have key : |(1 - b) - (1 - r)| ≤ j * (1 / 2 ^ 24) := by
    rw [show (1 - b) - (1 - r) = -(b - r) by ring, abs_neg]; exact eb
  have hr : |1 - r| ≤ 1 := abs_le.2 ⟨by linarith, by linarith⟩
  have big : |1 - b| ≤ 2 ^ 100 := by
    have a1 := abs_add_le ((1 - b) - (1 - r)) (1 - r)
    rw [sub_add_cancel] at a1
    have : j * (1 / 2 ^ 24 : Rat) ≤ 40 * (1 / 2 ^ 24) := mul_le_mul_of_nonneg_right hj (by positivity)
    have : (2 : Rat) ≤ 2 ^ 100 := by norm_num
    linarith
  exact Sc.round (sub_is o hb (f32_ovf big)) (by norm_num) (by linarith) key hr

/-- spec: the blend of four numbers with weights `s` (across) and `t` (down) on the first -/
def blend4 (s t v1 v2 v3 v4 : Rat) : Rat := v1 * s * t + v2 * (1 - s) * t + v3 * s * (1 - t) + v4 * (1 - s) * (1 - t)

omit [Libm f32] in
theorem blend4_between {s t v1 v2 v3 v4 lo hi : Rat} (s0 : 0 ≤ s) (s1 : s ≤ 1) (t0 : 0 ≤ t) (t1 : t ≤ 1) (h1 : lo ≤ v1 ∧ v1 ≤ hi)
    (h2 : lo ≤ v2 ∧ v2 ≤ hi) (h3 : lo ≤ v3 ∧ v3 ≤ hi) (h4 : lo ≤ v4 ∧ v4 ≤ hi) :
    lo ≤ blend4 s t v1 v2 v3 v4 ∧ blend4 s t v1 v2 v3 v4 ≤ hi := by
  have w1 : 0 ≤ s * t := mul_nonneg s0 t0
  have w2 : 0 ≤ (1 - s) * t := mul_nonneg (by linarith) t0
  have w3 : 0 ≤ s * (1 - t) := mul_nonneg s0 (by linarith)
  have w4 : 0 ≤ (1 - s) * (1 - t) := mul_nonneg (by linarith) (by linarith)
  unfold blend4
  constructor <;>
  nlinarith [mul_le_mul_of_nonneg_right h1.1 w1, mul_le_mul_of_nonneg_right h2.1 w2, mul_le_mul_of_nonneg_right h3.1 w3,
    mul_le_mul_of_nonneg_right h4.1 w4, mul_le_mul_of_nonneg_right h1.2 w1, mul_le_mul_of_nonneg_right h2.2 w2, mul_le_mul_of_nonneg_right h3.2 w3,
    mul_le_mul_of_nonneg_right h4.2 w4]

theorem bilinear_err {M : Rat} {a1 a2 a3 a4 xw yw : F32} {v1 v2 v3 v4 s t : Rat} (h0 : 1 / 2 ^ 100 ≤ M) (h1 : M ≤ 2 ^ 97)
    (e1 : a1.Is v1) (e2 : a2.Is v2) (e3 : a3.Is v3) (e4 : a4.Is v4) (m1 : |v1| ≤ M) (m2 : |v2| ≤ M) (m3 : |v3| ≤ M) (m4 : |v4| ≤ M)
    (hs : Sc 1 xw s 2) (ht : Sc 1 yw t 2) (s0 : 0 ≤ s) (s1 : s ≤ 1) (t0 : 0 ≤ t) (t1 : t ≤ 1) :
    ∃ b, (bilinearValue a1 a2 a3 a4 xw yw).Is b ∧ |b - blend4 s t v1 v2 v3 v4| ≤ M / 2 ^ 18 := by
  have M0 : 0 < M := lt_of_lt_of_le (by positivity) h0
  have ex : ∀ {a : F32} {v : Rat}, a.Is v → Sc M a v 0 := fun h => ⟨_, h, by simp⟩
  have hs' := hs.compl (by norm_num) (by norm_num) s0 s1
  have ht' := ht.compl (by norm_num) (by norm_num) t0 t1
  have le1 : ∀ {v r : Rat}, |v| ≤ M → 0 ≤ r → r ≤ 1 → |v * r| ≤ M := by
    intro v r hv r0 r1
    rw [abs_mul, abs_of_nonneg r0]; nlinarith [abs_nonneg v]
  have T1 := ((ex e1).mul hs h0 h1 (by norm_num) (by norm_num) (by norm_num) (by norm_num) m1 s0 s1).mul ht h0 h1 (by norm_num) (by norm_num)
    (by norm_num) (by norm_num) (le1 m1 s0 s1) t0 t1
  have T2 := ((ex e2).mul hs' h0 h1 (by norm_num) (by norm_num) (by norm_num) (by norm_num) m2 (by linarith) (by linarith)).mul ht h0 h1 (by norm_num) (by norm_num)
    (by norm_num) (by norm_num) (le1 m2 (by linarith) (by linarith)) t0 t1
  have T3 := ((ex e3).mul hs h0 h1 (by norm_num) (by norm_num) (by norm_num) (by norm_num) m3 s0 s1).mul ht' h0 h1 (by norm_num) (by norm_num)
    (by norm_num) (by norm_num) (le1 m3 s0 s1) (by linarith) (by linarith)
  have T4 := ((ex e4).mul hs' h0 h1 (by norm_num) (by norm_num) (by norm_num) (by norm_num) m4 (by linarith) (by linarith)).mul ht' h0 h1 (by norm_num) (by norm_num)
    (by norm_num) (by norm_num) (le1 m4 (by linarith) (by linarith)) (by linarith) (by linarith)
  rw [abs_le] at m1 m2 m3 m4
  have w1 : 0 ≤ s * t := mul_nonneg s0 t0
  have w2 : 0 ≤ (1 - s) * t := mul_nonneg (by linarith) t0
  have w3 : 0 ≤ s * (1 - t) := mul_nonneg s0 (by linarith)
  have w4 : 0 ≤ (1 - s) * (1 - t) := mul_nonneg (by linarith) (by linarith)
  have b := fun (z2 z3 z4 : Rat) (k2 : -M ≤ z2 ∧ z2 ≤ M) (k3 : -M ≤ z3 ∧ z3 ≤ M) (k4 : -M ≤ z4 ∧ z4 ≤ M) =>
    blend4_between (lo := -M) (hi := M) s0 s1 t0 t1 m1 k2 k3 k4
  have z : -M ≤ 0 ∧ 0 ≤ M := ⟨by linarith, M0.le⟩
  have b2 := b v2 0 0 m2 z z
  have b3 := b v2 v3 0 m2 m3 z
  have b4 := b v2 v3 v4 m2 m3 m4
  unfold blend4 at b2 b3 b4
  simp only [zero_mul, add_zero] at b2 b3
  have S2 := T1.add T2 h0 h1 (by norm_num) (abs_le.2 b2)
  have S3 := S2.add T3 h0 h1 (by norm_num) (abs_le.2 b3)
  obtain ⟨r, hr, er⟩ := (S3.add T4 h0 h1 (by norm_num) (abs_le.2 b4)).mono (k' := 64) (by norm_num) M0.le
  refine ⟨r, hr, er.trans ?_⟩
  have : (64 : Rat) * (M / 2 ^ 24) = M / 2 ^ 18 := by ring
  rw [this]

/-- spec: the position in the input that output column (or row) `x` falls on: `x / factor`, rounded to a float -/
def f32Pos (q : Rat) (x : Nat) : Rat := f32.rnd ((x : Rat) / q)

/-- the position is inside the image -/
theorem pos_lt {f : F32} {q : Rat} (hf : f.Is q) (hq : 0 < q) {w : Nat} (hw : 0 < w) (hw' : w ≤ 16777216)
    (hsmall : (w : Rat) * q ≤ 4194304) {x : Nat} (hx : x < scaleDim w f) : f32Pos q x < w ∧ x ≤ 16777216 ∧ 0 ≤ f32Pos q x ∧ |(x : Rat) / q| ≤ 2 ^ 100 := by
  have hwq : (0 : Rat) < w := by exact_mod_cast hw
  have hw1 : (1 : Rat) ≤ w := by exact_mod_cast hw
  have hpos : 0 < (w : Rat) * q := mul_pos hwq hq
  have hq22 : q ≤ 4194304 := le_trans (by nlinarith) hsmall
  have h22 : f32.Exact (4194304 : Rat) := by have := f32_int (n := 4194304) (by decide); exact_mod_cast this
  -- the output dimension
  have hm := mul_is (nat32 hw') hf (f32_ovf (by rw [abs_of_pos hpos]; linarith))
  set p := f32.rnd ((w : Rat) * q) with hp
  have hp0 : 0 ≤ p := rndQ_nonneg hpos.le
  have hp1 : p ≤ 4194304 := rndQ_le h22.1 hsmall
  have hR := roundAwayQ_abs p
  rw [abs_le] at hR
  have hR0 : 0 ≤ FP.roundAwayQ p := by
    have : (-1 : Rat) < (FP.roundAwayQ p : Rat) := by linarith
    have : (-1 : Int) < FP.roundAwayQ p := by exact_mod_cast this
    omega
  have hR1 : FP.roundAwayQ p ≤ 4194304 := by
    have : (FP.roundAwayQ p : Rat) < 4194305 := by linarith
    have : FP.roundAwayQ p < 4194305 := by exact_mod_cast this
    omega
  have hr := round_is hm (f32_int (by rw [abs_le]; omega))
  have hdim : (scaleDim w f : Int) = FP.roundAwayQ p := by
    unfold scaleDim toU32
    rw [toInt_is hr, truncQ_int]; omega
  have hxR : ((x : Int) + 1 : Int) ≤ FP.roundAwayQ p := by omega
  have hxR : (x : Rat) + 1 ≤ (FP.roundAwayQ p : Rat) := by exact_mod_cast hxR
  have hx24 : x ≤ 16777216 := by omega
  -- the source coordinate
  rcases Nat.eq_zero_or_pos x with rfl | hx0
  · unfold f32Pos
    rw [Nat.cast_zero, zero_div, show f32.rnd 0 = 0 from rndQ_zero _]
    exact ⟨hwq, hx24, le_refl _, by norm_num⟩
  · have hxq : (1 : Rat) ≤ x := by exact_mod_cast hx0
    -- error of the product
    have he1 : |p - (w : Rat) * q| ≤ 1 / 4 := by
      have hb : pow2 (-125) ≤ |(w : Rat) * q| := by
        rw [abs_of_pos hpos]
        have h1 : p ≥ 1 := by linarith
        have : (1 / 4 : Rat) ≤ (w : Rat) * q := by
          by_contra hc
          have h14 : f32.Exact (1 / 4 : Rat) := by
            have := f32_dyadic (m := 64) (by decide)
            rw [show ((64 : Int) : Rat) / 256 = 1 / 4 by norm_num] at this
            exact this
          have := rndQ_le h14.1 (not_le.1 hc).le
          change p ≤ 1 / 4 at this
          linarith
        have h2 : pow2 (-125) ≤ pow2 (-2) := pow2_le.2 (by decide)
        have h3 : pow2 (-2) = 1 / 4 := by rw [pow2_eq]; norm_num
        linarith
      rcases rnd32_rel hb with e | e
      · rw [← hp] at e; rw [e]; norm_num
      · rw [← hp, abs_of_pos hpos] at e
        have : (w : Rat) * q / 16777216 ≤ 1 / 4 := by linarith
        linarith
    rw [abs_le] at he1
    have hxw : (x : Rat) ≤ (w : Rat) * q - 1 / 4 := by linarith
    have hd0 : 0 < (x : Rat) / q := div_pos (by linarith) hq
    have hdw : (x : Rat) / q ≤ w - 1 / (4 * q) := by
      rw [div_le_iff₀ hq, sub_mul]
      have : 1 / (4 * q) * q = 1 / 4 := by field_simp
      rw [this]; exact hxw
    have hw24 : (w : Rat) ≤ 16777216 := by exact_mod_cast hw'
    have h4q : 0 < 1 / (4 * q) := by positivity
    have hlt : f32.rnd ((x : Rat) / q) < w := by
      have hb : pow2 (-125) ≤ |(x : Rat) / q| := by
        rw [abs_of_pos hd0]
        have h1 : 1 / 4194304 ≤ (x : Rat) / q := by
          rw [div_le_div_iff₀ (by norm_num) hq]; linarith
        have h2 : pow2 (-125) ≤ pow2 (-22) := pow2_le.2 (by decide)
        have h3 : pow2 (-22) = 1 / 4194304 := by rw [pow2_eq]; norm_num
        linarith
      rcases rnd32_rel hb with e | e
      · rw [e]; linarith
      · rw [abs_of_pos hd0] at e
        have h1 := (abs_lt.1 e).2
        have h2 : (x : Rat) / q / 16777216 ≤ 1 / (4 * q) := by
          rw [div_div, div_le_div_iff₀ (by positivity) (by positivity)]
          nlinarith
        linarith
    exact ⟨hlt, hx24, rndQ_nonneg hd0.le, by rw [abs_of_pos hd0]; linarith⟩

/-- the columns and the weight, from the position -/
theorem bi_pos {f : F32} {q : Rat} (hf : f.Is q) (hq : 0 < q) {w : Nat} (hw : 0 < w) (hw' : w ≤ 16777216)
    (hsmall : (w : Rat) * q ≤ 4194304) {x : Nat} (hx : x < scaleDim w f) :
    biLo f x < w ∧ biLo f x = (f32Pos q x).floor.toNat ∧ biHi f w x = min (f32Pos q x).ceil.toNat (w - 1) ∧
      Sc 1 (biWeight f x) (f32Pos q x - (f32Pos q x).floor) 2 ∧ 0 ≤ f32Pos q x - (f32Pos q x).floor ∧ f32Pos q x - (f32Pos q x).floor ≤ 1 := by
  have hlt := biLo_lt hf hq hw hw' hsmall hx
  obtain ⟨p1, x24, p0, pb⟩ := pos_lt hf hq hw hw' hsmall hx
  have hd : (ofNat x /. f : F32).Is (f32Pos q x) := div_is (nat32 x24) hf hq.ne' (f32_ovf pb)
  have w24 : (w : Rat) ≤ 16777216 := by exact_mod_cast hw'
  generalize f32Pos q x = s at *
  have fl0 : 0 ≤ s.floor := rat_le_floor.2 (by simpa using p0)
  have fl1 : s.floor < w := rat_floor_lt.2 (by simpa using p1)
  have ce1 : s.ceil ≤ w := Rat.ceil_le_iff.2 (by push_cast; exact p1.le)
  have ce0 : 0 ≤ s.ceil := by
    have : s ≤ s.ceil := Rat.le_ceil
    have : (0 : Rat) ≤ s.ceil := p0.trans this
    exact_mod_cast this
  have hfl := floor_is hd (f32_int (by rw [abs_le]; omega))
  have hce := ceil_is hd (f32_int (by rw [abs_le]; omega))
  have e1 : biLo f x = s.floor.toNat := by
    unfold biLo toU32
    rw [toInt_is hfl, truncQ_int]; omega
  have e2 : biHi f w x = min s.ceil.toNat (w - 1) := by
    unfold biHi toU32
    rw [toInt_is hce, truncQ_int]; omega
  have d0 : 0 ≤ s - s.floor := by have : (s.floor : Rat) ≤ s := Rat.floor_le s; linarith
  have d1 : s - s.floor ≤ 1 := by
    have : s < ((s.floor + 1 : Int) : Rat) := Rat.lt_floor_add_one s
    push_cast at this; linarith
  refine ⟨hlt, e1, e2, ?_, d0, d1⟩
  have hn : (ofNat (biLo f x) : F32).Is (s.floor : Rat) := by
    have := nat32 (n := biLo f x) (by omega)
    rw [e1] at this ⊢
    have c : ((s.floor.toNat : Nat) : Rat) = (s.floor : Rat) := by
      have : ((s.floor.toNat : Nat) : Int) = s.floor := Int.toNat_of_nonneg fl0
      exact_mod_cast congrArg (fun z : Int => (z : Rat)) this
    rwa [c] at this
  have hb : |s - s.floor| ≤ 1 := abs_le.2 ⟨by linarith, d1⟩
  have := Sc.round (M := 1) (k := 0) (sub_is hd hn (f32_ovf (hb.trans (by norm_num)))) (by norm_num) (by norm_num) (p := s - s.floor) (by simp) hb
  exact this.mono (by norm_num) (by norm_num)

/-- spec: channel `c` of the pixel at (x, y) is a number, and that number is `v x y c` -/
def Image.Numbers (img : Image F32) (v : Nat → Nat → Nat → Rat) : Prop :=
  ∀ x y c, x < img.info.width → y < img.info.height → c < img.info.channels → ((img.px x y).getD c (num 0)).Is (v x y c)

/-- **C113** (f32) What bilinear scaling computes, for every factor: the output pixel at (x, y) is, to within 2^-18 of the largest
value of that channel, the blend of the four pixels around the position (x / xf, y / yf) (each coordinate rounded to a float), with
the fractional part of the position as the weight of the *left* and *upper* pixels. -/
theorem c113_bilinear_value (P : Profile) {img : Image F32} (h : ScaleInput img) {xf yf : F32} {qx qy : Rat}
    (hx : xf.Is qx) (hy : yf.Is qy) (hqx : 0 < qx) (hqy : 0 < qy)
    (hw : (img.info.width : Rat) * qx ≤ 4194304) (hh : (img.info.height : Rat) * qy ≤ 4194304)
    (hout : OutFits img xf yf) {v : Nat → Nat → Nat → Rat} (hv : img.Numbers v) {M : Rat} (m0 : 1 / 2 ^ 100 ≤ M) (m1 : M ≤ 2 ^ 97)
    (hM : ∀ x y c, x < img.info.width → y < img.info.height → c < img.info.channels → |v x y c| ≤ M) :
    ∃ out, scale P img xf yf .bilinear = .ok out ∧ out.WF ∧
      out.info = ⟨scaleDim img.info.width xf, scaleDim img.info.height yf, img.info.channels, img.info.alpha⟩ ∧
      ∀ x y c, x < out.info.width → y < out.info.height → c < img.info.channels →
        let s := f32Pos qx x
        let t := f32Pos qy y
        let x1 := s.floor.toNat
        let x2 := min s.ceil.toNat (img.info.width - 1)
        let y1 := t.floor.toNat
        let y2 := min t.ceil.toNat (img.info.height - 1)
        x1 < img.info.width ∧ y1 < img.info.height ∧
        ∃ b, ((out.px x y).getD c (num 0)).Is b ∧
          |b - blend4 (s - s.floor) (t - t.floor) (v x1 y1 c) (v x2 y1 c) (v x1 y2 c) (v x2 y2 c)| ≤ M / 2 ^ 18 := by
  obtain ⟨out, e, ho⟩ := scale_core P (checkNonNeg_is hx hqx.le) (checkNonNeg_is hy hqy.le) rfl rfl
    (hout.info h.wf.channels) (m := .bilinear) _ (fun x y h1 h2 => by simp) (fun x y h1 h2 =>
      bilinear_ok P h.wf (biLo_lt hx hqx h.width h.width' hw h1) (biLo_lt hy hqy h.height h.height' hh h2))
  refine ⟨out, e, ho.1, ho.2.1, fun x y c h1 h2 hc => ?_⟩
  intro s t x1 x2 y1 y2
  rw [ho.2.1] at h1 h2
  obtain ⟨l1, l2, l3, l4, l5, l6⟩ := bi_pos hx hqx h.width h.width' hw h1
  obtain ⟨k1, k2, k3, k4, k5, k6⟩ := bi_pos hy hqy h.height h.height' hh h2
  have hX1 : x1 < img.info.width := by show (f32Pos qx x).floor.toNat < _; rw [← l2]; exact l1
  have hY1 : y1 < img.info.height := by show (f32Pos qy y).floor.toNat < _; rw [← k2]; exact k1
  have hX2 : x2 < img.info.width := by have := h.width; omega
  have hY2 : y2 < img.info.height := by have := h.height; omega
  refine ⟨hX1, hY1, ?_⟩
  have := bilinear_err m0 m1 (hv x1 y1 c hX1 hY1 hc) (hv x2 y1 c hX2 hY1 hc) (hv x1 y2 c hX1 hY2 hc) (hv x2 y2 c hX2 hY2 hc)
    (hM x1 y1 c hX1 hY1 hc) (hM x2 y1 c hX2 hY1 hc) (hM x1 y2 c hX1 hY2 hc) (hM x2 y2 c hX2 hY2 hc) l4 k4 l5 l6 k5 k6
  rw [ho.px_eq h1 h2, List.getD_eq_getElem?_getD, List.getElem?_map, List.getElem?_range hc]
  simp only [Option.map_some, Option.getD_some]
  rw [l2, l3, k2, k3]
  exact this

/-- **C113** (f32) Bilinear scaling does not overshoot: if all values of a channel lie between `lo` and `hi`, so do all output values, up
to 2^-18 of the largest absolute value. -/
theorem c113_bilinear_range (P : Profile) {img : Image F32} (h : ScaleInput img) {xf yf : F32} {qx qy : Rat}
    (hx : xf.Is qx) (hy : yf.Is qy) (hqx : 0 < qx) (hqy : 0 < qy)
    (hw : (img.info.width : Rat) * qx ≤ 4194304) (hh : (img.info.height : Rat) * qy ≤ 4194304)
    (hout : OutFits img xf yf) {v : Nat → Nat → Nat → Rat} (hv : img.Numbers v) {M : Rat} (m0 : 1 / 2 ^ 100 ≤ M) (m1 : M ≤ 2 ^ 97)
    (hM : ∀ x y c, x < img.info.width → y < img.info.height → c < img.info.channels → |v x y c| ≤ M) :
    ∃ out, scale P img xf yf .bilinear = .ok out ∧
      ∀ c lo hi, c < img.info.channels →
        (∀ x y, x < img.info.width → y < img.info.height → lo ≤ v x y c ∧ v x y c ≤ hi) →
        ∀ x y, x < out.info.width → y < out.info.height →
          ∃ b, ((out.px x y).getD c (num 0)).Is b ∧ lo - M / 2 ^ 18 ≤ b ∧ b ≤ hi + M / 2 ^ 18 := by
  obtain ⟨out, e, -, hi', ho⟩ := c113_bilinear_value P h hx hy hqx hqy hw hh hout hv m0 m1 hM
  refine ⟨out, e, fun c lo hi hc hb x y h1 h2 => ?_⟩
  obtain ⟨hX, hY, b, hb', he⟩ := ho x y c h1 h2 hc
  rw [hi'] at h1 h2
  obtain ⟨-, -, -, -, l5, l6⟩ := bi_pos hx hqx h.width h.width' hw h1
  obtain ⟨-, -, -, -, k5, k6⟩ := bi_pos hy hqy h.height h.height' hh h2
  have hX2 : min (f32Pos qx x).ceil.toNat (img.info.width - 1) < img.info.width := by have := h.width; omega
  have hY2 : min (f32Pos qy y).ceil.toNat (img.info.height - 1) < img.info.height := by have := h.height; omega
  have := blend4_between l5 l6 k5 k6 (hb _ _ hX hY) (hb _ _ hX2 hY) (hb _ _ hX hY2) (hb _ _ hX2 hY2)
  rw [abs_le] at he
  exact ⟨b, hb', by linarith, by linarith⟩

/-- **C113** (f32) A constant image stays constant, up to 2^-18 of its value. -/
theorem c113_bilinear_constant (P : Profile) {img : Image F32} (h : ScaleInput img) {xf yf : F32} {qx qy : Rat}
    (hx : xf.Is qx) (hy : yf.Is qy) (hqx : 0 < qx) (hqy : 0 < qy)
    (hw : (img.info.width : Rat) * qx ≤ 4194304) (hh : (img.info.height : Rat) * qy ≤ 4194304)
    (hout : OutFits img xf yf) {q : Rat} (q0 : 1 / 2 ^ 100 ≤ |q|) (q1 : |q| ≤ 2 ^ 97) (hv : img.Numbers fun _ _ _ => q) :
    ∃ out, scale P img xf yf .bilinear = .ok out ∧ ∀ x y c, x < out.info.width → y < out.info.height → c < img.info.channels →
      ∃ b, ((out.px x y).getD c (num 0)).Is b ∧ |b - q| ≤ |q| / 2 ^ 18 := by
  obtain ⟨out, e, ho⟩ := c113_bilinear_range P h hx hy hqx hqy hw hh hout hv q0 q1 (fun _ _ _ _ _ _ => le_refl _)
  refine ⟨out, e, fun x y c h1 h2 hc => ?_⟩
  obtain ⟨b, hb, e1, e2⟩ := ho c q q hc (fun _ _ _ _ => ⟨le_refl _, le_refl _⟩) x y h1 h2
  exact ⟨b, hb, abs_le.2 ⟨by linarith, by linarith⟩⟩

/-- a row of two pixels, 0 and 100 -/
def ramp32 : Image F32 := ⟨⟨2, 1, 1, false⟩, [num 0, num 100]⟩
theorem ramp32_input : ScaleInput ramp32 := by
  refine ⟨⟨?_, ?_, ?_, ?_, ?_, ?_⟩, ?_, ?_, ?_, ?_⟩ <;> simp [ramp32]
theorem ramp32_fits : OutFits ramp32 (num 4) (num 1) := by
  have h4 : (num 4 : F32).Is ((4 : Nat) : Rat) := by simpa using num32 (n := 4) (by decide)
  have h1 : (num 1 : F32).Is ((1 : Nat) : Rat) := by simpa using num32 (n := 1) (by decide)
  unfold OutFits
  rw [scaleDim_int (n := ramp32.info.width) h4 (by simp [ramp32]) (by simp [ramp32]),
    scaleDim_int (n := ramp32.info.height) h1 (by simp [ramp32]) (by simp [ramp32])]
  simp [ramp32]

/-- **C68 is violated in f32**: enlarging the row 0, 100 by 4, the pixel a quarter of the way from the first to the second pixel comes
out as 75 (to within 0.001), where linear interpolation gives 25. -/
theorem c68_violated_ieee (P : Profile) : ∃ out, scale P ramp32 (num 4) (num 1) .bilinear = .ok out ∧
    ∃ b, ((out.px 1 0).getD 0 (num 0)).Is b ∧ |b - 75| ≤ 1 / 1000 := by
  have h4 : (num 4 : F32).Is ((4 : Nat) : Rat) := by simpa using num32 (n := 4) (by decide)
  have h1 : (num 1 : F32).Is ((1 : Nat) : Rat) := by simpa using num32 (n := 1) (by decide)
  have hv : ramp32.Numbers fun x _ _ => 100 * x := by
    intro x y c hx hy hc
    have hx : x < 2 := hx
    have hy : y = 0 := Nat.lt_one_iff.1 hy
    have hc : c = 0 := Nat.lt_one_iff.1 hc
    subst hy hc
    interval_cases x
    · show (num 0 : F32).Is _
      simpa using num32 (n := 0) (by decide)
    · show (num 100 : F32).Is _
      simpa using num32 (n := 100) (by decide)
  obtain ⟨out, e, -, hi, ho⟩ := c113_bilinear_value P ramp32_input h4 h1 (by norm_num) (by norm_num)
    (by show ((2 : Nat) : Rat) * _ ≤ _; norm_num) (by show ((1 : Nat) : Rat) * _ ≤ _; norm_num) ramp32_fits hv (M := 100) (by norm_num) (by norm_num)
    (fun x y c hx hy hc => by
      have hx : x < 2 := hx
      have : (x : Rat) ≤ 1 := by exact_mod_cast (by omega : x ≤ 1)
      rw [abs_of_nonneg (by positivity)]; linarith)
  refine ⟨out, e, ?_⟩
  have ew : out.info.width = 8 := by rw [hi]; show scaleDim 2 _ = 8; rw [scaleDim_int h4 (by decide) (by decide)]
  have eh : out.info.height = 1 := by rw [hi]; show scaleDim 1 _ = 1; rw [scaleDim_int h1 (by decide) (by decide)]
  obtain ⟨-, -, b, hb, hd⟩ := ho 1 0 0 (by omega) (by omega) (by simp [ramp32])
  have p1 : f32Pos ((4 : Nat) : Rat) 1 = 1 / 4 := by
    have : f32.Exact (1 / 4 : Rat) := by
      have := f32_dyadic (m := 64) (by decide)
      rwa [show ((64 : Int) : Rat) / 256 = 1 / 4 by norm_num] at this
    unfold f32Pos
    rw [show ((1 : Nat) : Rat) / ((4 : Nat) : Rat) = 1 / 4 by norm_num]
    exact this.rnd
  have p0 : f32Pos ((1 : Nat) : Rat) 0 = 0 := by
    unfold f32Pos
    rw [Nat.cast_zero, zero_div]; exact rndQ_zero _
  have f1 : Rat.floor (1 / 4) = 0 := by decide +kernel
  have c1 : Rat.ceil (1 / 4) = 1 := by decide +kernel
  have f0 : Rat.floor 0 = 0 := by decide +kernel
  rw [p1, p0, f1, c1, f0] at hd
  refine ⟨b, hb, ?_⟩
  have : blend4 (1 / 4 - ((0 : Int) : Rat)) (0 - ((0 : Int) : Rat)) (100 * ((0 : Int).toNat : Rat)) (100 * ((min (1 : Int).toNat (ramp32.info.width - 1) : Nat) : Rat))
      (100 * ((0 : Int).toNat : Rat)) (100 * ((min (1 : Int).toNat (ramp32.info.width - 1) : Nat) : Rat)) = 75 := by
    have e : min (1 : Int).toNat (ramp32.info.width - 1) = 1 := rfl
    rw [e]
    unfold blend4
    norm_num
  rw [this] at hd
  exact hd.trans (by norm_num)

example (P : Profile) : ∃ out, scale P (gray6 (num 7) (num 7) (num 7) (num 7) (num 7) (num 7)) (num 2) (num 2) .bilinear = .ok out ∧
    ∀ x y c, x < out.info.width → y < out.info.height → c < 1 → ∃ b, ((out.px x y).getD c (num 0 : F32)).Is b ∧ |b - 7| ≤ |7| / 2 ^ 18 := by
  have h2 : (num 2 : F32).Is 2 := by simpa using num32 (n := 2) (by decide)
  have h7 : (num 7 : F32).Is 7 := by simpa using num32 (n := 7) (by decide)
  refine c113_bilinear_constant P (gray6_scaleInput ..) h2 h2 (by norm_num) (by norm_num)
    (by show ((3 : Nat) : Rat) * 2 ≤ _; norm_num) (by show ((2 : Nat) : Rat) * 2 ≤ _; norm_num) (gray6_outFits ..) (by norm_num) (by norm_num) ?_
  intro x y c hx hy hc
  have hx : x < 3 := hx
  have hy : y < 2 := hy
  have hc : c = 0 := Nat.lt_one_iff.1 hc
  subst hc
  interval_cases x <;> interval_cases y <;> exact h7
end
end Imgproc

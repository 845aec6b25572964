import Verif.Props.Hsv
import Verif.Props.Lab
import Verif.Proofs.ExactSum
import Mathlib.Tactic.IntervalCases
/-! Property C34: HSV conversion in f32. -/
namespace Imgproc
open FloatOps
variable [Libm f32]

/-- the float is a number between `a` and `b` -/
def Between (a b : Rat) (x : F32) : Prop := ∃ q, x.Is q ∧ a ≤ q ∧ q ≤ b

omit [Libm f32] in
theorem Between.weaken {a b c d : Rat} {x : F32} (h : Between a b x) (h1 : c ≤ a) (h2 : b ≤ d) : Between c d x := by
  obtain ⟨q, hq, ha, hb⟩ := h; exact ⟨q, hq, by linarith, by linarith⟩

omit [Libm f32] in
theorem rnd_between {q a b : Rat} (ha : f32.Exact a) (hb : f32.Exact b) (h1 : a ≤ q) (h2 : q ≤ b) :
    a ≤ f32.rnd q ∧ f32.rnd q ≤ b := ⟨le_rndQ ha.1 h1, rndQ_le hb.1 h2⟩

omit [Libm f32] in
theorem ovf_between {q : Rat} (h1 : -1000000 ≤ q) (h2 : q ≤ 1000000) : |f32.rnd q| < pow2 f32.emax :=
  f32_ovf (le_trans (abs_le.2 ⟨h1, h2⟩) (by norm_num))

omit [Libm f32] in
theorem exact_n (n : Int) (h : |n| ≤ 100000 := by decide) : f32.Exact (n : Rat) := f32_int (by omega)
omit [Libm f32] in
theorem e0 : f32.Exact (0 : Rat) := Fmt.Exact.zero
omit [Libm f32] in
theorem e1 : f32.Exact (1 : Rat) := by simpa using exact_n 1

/-- `v / 255` -/
theorem byteDiv_is (v : UInt8) : (ofU8 v /. num 255 : F32).Is (f32.rnd ((v.toNat : Rat) / 255)) := by
  have hv : (v.toNat : Rat) ≤ 255 := by have := v.toNat_lt; exact_mod_cast (by omega : v.toNat ≤ 255)
  have h0 : (0 : Rat) ≤ v.toNat := by positivity
  have := div_is (ofU8_is v) (num32 (n := 255) (by decide)) (by norm_num) (ovf_between (by
    have : (0 : Rat) ≤ (v.toNat : Rat) / ((255 : Int) : Rat) := by positivity
    linarith) (by push_cast; rw [div_le_iff₀ (by norm_num)]; linarith))
  simpa using this

omit [Libm f32] in
theorem byteDiv_bounds {v : Nat} (hv : v ≤ 255) : 0 ≤ f32.rnd ((v : Rat) / 255) ∧ f32.rnd ((v : Rat) / 255) ≤ 1 := by
  have : (v : Rat) ≤ 255 := by exact_mod_cast hv
  exact rnd_between e0 e1 (by positivity) (by rw [div_le_iff₀ (by norm_num)]; linarith)

omit [Libm f32] in
theorem byteDiv_err {v : Nat} (hv : v ≤ 255) : |f32.rnd ((v : Rat) / 255) - (v : Rat) / 255| ≤ 1 / 16777216 := by
  rcases Nat.eq_zero_or_pos v with rfl | h
  · simp [Fmt.rnd, rndQ_zero]
  · have h1 : (1 : Rat) ≤ v := by exact_mod_cast h
    have h2 : (v : Rat) ≤ 255 := by exact_mod_cast hv
    have hq : (v : Rat) / 255 ≤ 1 := by rw [div_le_iff₀ (by norm_num)]; linarith
    have hb := f32_bounds (q := (v : Rat) / 255) (by
      rw [div_le_div_iff₀ (by positivity) (by norm_num)]
      nlinarith [show (255 : Rat) ≤ 2 ^ 126 by norm_num])
    rw [abs_le]
    constructor <;> linarith [hb.1, hb.2]

/-- **C34** (one value) the stored value channel converts back to the byte it came from -/
theorem value_back (v : UInt8) : toU8 (ofU8 v /. num 255 *. num 255 : F32) = v := by
  have key : ∀ n : Nat, n < 256 → FP.truncQ (f32.rnd (f32.rnd ((n : Rat) / 255) * 255)) = n := by decide +kernel
  have hb := byteDiv_bounds (v := v.toNat) (by have := v.toNat_lt; omega)
  have h := mul_is (byteDiv_is v) (num32 (n := 255) (by decide)) (ovf_between (by
    push_cast; linarith [hb.1]) (by push_cast; linarith [hb.2]))
  apply UInt8.toNat_inj.1
  rw [toU8_toNat h]
  have := key v.toNat v.toNat_lt
  have hl := v.toNat_lt
  push_cast
  rw [this]; omega

theorem alpha_back_scaled (v : UInt8) : toU8 (FloatOps.round (ofU8 v /. num 255 *. num 255 : F32)) = v := by
  have key : ∀ n : Nat, n < 256 → FP.roundAwayQ (f32.rnd (f32.rnd ((n : Rat) / 255) * 255)) = n := by decide +kernel
  have hb := byteDiv_bounds (v := v.toNat) (by have := v.toNat_lt; omega)
  have h := mul_is (byteDiv_is v) (num32 (n := 255) (by decide)) (ovf_between (by
    push_cast; linarith [hb.1]) (by push_cast; linarith [hb.2]))
  have hk := key v.toNat v.toNat_lt
  push_cast at h
  have hr := round_is h (by rw [hk]; exact_mod_cast f32_nat (by have := v.toNat_lt; omega))
  rw [hk] at hr
  rw [toU8_of_is (n := v.toNat) (by exact_mod_cast hr) v.toNat_lt, UInt8.ofNat_toNat]

/-- ratio of two rounded channel differences -/
theorem ratio_is {a b m : Nat} (ha : a ≤ 255) (hb : b ≤ 255) (hm : m ≤ 255) (hm0 : 0 < m)
    (hab : |(a : Rat) - b| ≤ m) {x y r : F32} (hx : x.Is (f32.rnd ((a : Rat) / 255)))
    (hy : y.Is (f32.rnd ((b : Rat) / 255))) (hr : r.Is (f32.rnd ((m : Rat) / 255))) :
    Between (-(3 / 2)) (3 / 2) ((x -. y) /. r) := by
  have ea := byteDiv_err ha
  have eb := byteDiv_err hb
  have em := byteDiv_err hm
  have ba := byteDiv_bounds ha
  have bb := byteDiv_bounds hb
  have bm := byteDiv_bounds hm
  have h1 : (1 : Rat) ≤ m := by exact_mod_cast hm0
  set A := f32.rnd ((a : Rat) / 255)
  set B := f32.rnd ((b : Rat) / 255)
  set M := f32.rnd ((m : Rat) / 255)
  have hd := sub_is hx hy (ovf_between (by linarith [ba.1, bb.2]) (by linarith [ba.2, bb.1]))
  -- M is at least 1/256
  have hM : (m : Rat) / 255 * (99 / 100) ≤ M := by
    rw [abs_le] at em
    have : (m : Rat) / 255 * (1 / 100) ≥ 1 / 16777216 := by
      rw [ge_iff_le, div_mul_div_comm, div_le_div_iff₀ (by norm_num) (by norm_num)]; linarith
    linarith [em.1]
  have hMpos : 0 < M := lt_of_lt_of_le (by positivity) hM
  -- the difference
  have hD : |A - B| ≤ (m : Rat) / 255 * (101 / 100) := by
    rw [abs_le] at ea eb hab ⊢
    have : (m : Rat) / 255 * (1 / 100) ≥ 1 / 16777216 + 1 / 16777216 := by
      rw [ge_iff_le, div_mul_div_comm, ← add_div, div_le_div_iff₀ (by norm_num) (by norm_num)]; linarith
    have e : (a : Rat) / 255 - b / 255 = (a - b) / 255 := by ring
    have u : ((a : Rat) - b) / 255 ≤ m / 255 := by
      rw [div_le_div_iff_of_pos_right (by norm_num)]; exact hab.2
    have l : -(m / 255 : Rat) ≤ ((a : Rat) - b) / 255 := by
      rw [← neg_div, div_le_div_iff_of_pos_right (by norm_num)]; exact hab.1
    constructor <;> linarith [ea.1, ea.2, eb.1, eb.2]
  have hMm : (m : Rat) / 255 * (101 / 100) ≤ 103 / 100 * M := by linarith
  have eD : |f32.rnd (A - B)| ≤ |A - B| * (1 + 1 / 16777216) + 1 / 2 ^ 149 := by
    have he := rndQ_err (f := f32.toRFmt) (A - B)
    have h1 : pow2 (-(f32.p : Int)) = 1 / 16777216 := by norm_num [f32, pow2_eq]
    have h2 : pow2 (f32.emin - 1) ≤ 1 / 2 ^ 149 := by norm_num [f32, pow2_eq]
    rw [show (f32.toRFmt.p : Int) = (f32.p : Int) from rfl, h1] at he
    have hmx : max (|A - B| * (1 / 16777216)) (pow2 (f32.emin - 1)) ≤ |A - B| * (1 / 16777216) + 1 / 2 ^ 149 :=
      max_le (by linarith [show (0 : Rat) < 1 / 2 ^ 149 by positivity]) (by
        linarith [show (0 : Rat) ≤ |A - B| * (1 / 16777216) by positivity])
    have h3 : |f32.rnd (A - B)| ≤ |A - B| + |f32.rnd (A - B) - (A - B)| := by
      have := abs_add_le (A - B) (f32.rnd (A - B) - (A - B))
      rwa [add_sub_cancel] at this
    have h4 : |f32.rnd (A - B) - (A - B)| ≤ |A - B| * (1 / 16777216) + 1 / 2 ^ 149 := le_trans he hmx
    linarith
  have hfin : |f32.rnd (A - B)| ≤ 3 / 2 * M := by
    have h5 : (1 : Rat) / 2 ^ 149 ≤ M * (1 / 100) := by
      have : (1 : Rat) / 255 * (99 / 100) ≤ M := le_trans (by
        have : (1 : Rat) / 255 ≤ m / 255 := by rw [div_le_div_iff_of_pos_right (by norm_num)]; exact h1
        linarith) hM
      have h6 : (1 : Rat) / 2 ^ 149 ≤ 1 / 255 * (99 / 100) * (1 / 100) := by norm_num
      linarith
    have h7 : |A - B| ≤ 103 / 100 * M := le_trans hD hMm
    linarith
  rw [abs_le] at hfin
  have b1 : -(3 / 2 : Rat) ≤ f32.rnd (A - B) / M := by rw [le_div_iff₀ hMpos]; linarith [hfin.1]
  have b2 : f32.rnd (A - B) / M ≤ 3 / 2 := by rw [div_le_iff₀ hMpos]; linarith [hfin.2]
  have ex : f32.Exact (3 / 2 : Rat) := by
    have := f32_dyadic (m := 384) (by decide)
    rwa [show (((384 : Int) : Rat) / 256) = 3 / 2 by norm_num] at this
  exact ⟨_, div_is hd hr hMpos.ne' (ovf_between (by linarith) (by linarith)), (rnd_between ex.neg ex b1 b2).1,
    (rnd_between ex.neg ex b1 b2).2⟩

theorem Between.addN {a b : Rat} {x : F32} (h : Between a b x) {n : Int} (hn : |n| ≤ 1000) {A B : Rat}
    (hA : f32.Exact A) (hB : f32.Exact B) (h1 : A ≤ a + n) (h2 : b + n ≤ B) (h3 : -100 ≤ A) (h4 : B ≤ 100) :
    Between A B (x +. num n) := by
  obtain ⟨q, hq, ha, hb⟩ := h
  have := rnd_between (q := q + n) hA hB (by linarith) (by linarith)
  exact ⟨_, add_is hq (num32 (by omega)) (ovf_between (by linarith) (by linarith)), this.1, this.2⟩

theorem Between.divN {a b : Rat} {x : F32} (h : Between a b x) {n : Int} (hn0 : 0 < n) (hn : |n| ≤ 1000) {A B : Rat}
    (hA : f32.Exact A) (hB : f32.Exact B) (h1 : A * n ≤ a) (h2 : b ≤ B * n) (h3 : -100 ≤ A) (h4 : B ≤ 100) :
    Between A B (x /. num n) := by
  obtain ⟨q, hq, ha, hb⟩ := h
  have hn0' : (0 : Rat) < n := by exact_mod_cast hn0
  have g1 : A ≤ q / n := by rw [le_div_iff₀ hn0']; linarith
  have g2 : q / n ≤ B := by rw [div_le_iff₀ hn0']; linarith
  have := rnd_between hA hB g1 g2
  exact ⟨_, div_is hq (num32 (by omega)) hn0'.ne' (ovf_between (by linarith) (by linarith)), this.1, this.2⟩

theorem Between.subN {a b : Rat} {x : F32} (h : Between a b x) {n : Int} (hn : |n| ≤ 1000) {A B : Rat}
    (hA : f32.Exact A) (hB : f32.Exact B) (h1 : A ≤ a - n) (h2 : b - n ≤ B) (h3 : -100 ≤ A) (h4 : B ≤ 100) :
    Between A B (x -. num n) := by
  obtain ⟨q, hq, ha, hb⟩ := h
  have := rnd_between (q := q - n) hA hB (by linarith) (by linarith)
  exact ⟨_, sub_is hq (num32 (by omega)) (ovf_between (by linarith) (by linarith)), this.1, this.2⟩

/-- the hue wrap: anything in [-1/2, 1] ends up in [0,1] -/
theorem hueWrap_unit {x : F32} (h : Between (-1) 1 x) :
    Between 0 1 (if x <. num 0 then x +. num 1 else if x >. num 1 then x -. num 1 else x) := by
  obtain ⟨q, hq, ha, hb⟩ := h
  have z0 := num32 (n := 0) (by decide)
  have z1 := num32 (n := 1) (by decide)
  by_cases h0 : q < 0
  · rw [if_pos (by rw [lt_is hq z0]; simpa using h0)]
    exact Between.addN ⟨q, hq, ha, h0.le⟩ (by decide) e0 e1 (by norm_num) (by norm_num) (by norm_num) (by norm_num)
  · rw [if_neg (by rw [lt_is hq z0]; simpa using h0), if_neg]
    · exact ⟨q, hq, by linarith, hb⟩
    · rw [show (x >. num 1) = (num 1 <. x) from rfl, lt_is z1 hq]
      simpa using hb

/-- **C34** (one pixel, ranges) `rgb_to_hsv_f32` yields three numbers in [0,1]; the third is `max/255`, and the
second is 0 exactly for grey pixels. -/
theorem c34_ranges (r g b : UInt8) : ∃ h s v : F32, rgbToHsvF32Pixel [r, g, b] = .ok [h, s, v] ∧
    Between 0 1 h ∧ Between 0 1 s ∧ Between 0 1 v ∧ v = ofU8 (max (max r g) b) /. num 255 ∧
    (r = g ∧ g = b → s.Is 0) := by
  set mx := max (max r g) b with hmx
  set mn := min (min r g) b with hmn
  have emx : mx.toNat = max (max r.toNat g.toNat) b.toNat := by rw [hmx, u8_max_toNat, u8_max_toNat]
  have emn : mn.toNat = min (min r.toNat g.toNat) b.toNat := by rw [hmn, u8_min_toNat, u8_min_toNat]
  have hle : mn ≤ mx := by rw [UInt8.le_iff_toNat_le, emx, emn]; omega
  have hsub : (mx - mn).toNat = mx.toNat - mn.toNat := UInt8.toNat_sub_of_le _ _ hle
  have lr := r.toNat_lt
  have lg := g.toNat_lt
  have lb := b.toNat_lt
  have hR := byteDiv_is (mx - mn)
  have hV := byteDiv_is mx
  have bR := byteDiv_bounds (v := (mx - mn).toNat) (by have := (mx - mn).toNat_lt; omega)
  have bV := byteDiv_bounds (v := mx.toNat) (by have := mx.toNat_lt; omega)
  have hRV : f32.rnd (((mx - mn).toNat : Rat) / 255) ≤ f32.rnd ((mx.toNat : Rat) / 255) := by
    refine rndQ_mono ?_
    rw [div_le_div_iff_of_pos_right (by norm_num)]
    exact_mod_cast (by rw [hsub]; omega : (mx - mn).toNat ≤ mx.toNat)
  refine ⟨_, _, _, rfl, ?_, ?_, ⟨_, hV, bV.1, bV.2⟩, rfl, ?_⟩
  · apply hueWrap_unit
    by_cases h0 : mx.toNat = mn.toNat
    · -- grey: range is 0
      have e : ((ofU8 (mx - mn) /. num 255 : F32) ==. num 0) = true := by
        rw [eq_is hR (num32 (by decide)), decide_eq_true_eq, hsub, h0]
        simp [Fmt.rnd, rndQ_zero]
      rw [e]
      exact Between.divN (a := 0) (b := 0) ⟨_, num32 (by decide), by norm_num, by norm_num⟩ (by decide) (by decide)
        e1.neg e1 (by norm_num) (by norm_num) (by norm_num) (by norm_num)
    · have hm0 : 0 < (mx - mn).toNat := by rw [hsub]; omega
      have hm255 : (mx - mn).toNat ≤ 255 := by have := (mx - mn).toNat_lt; omega
      have hpos : 0 < f32.rnd (((mx - mn).toNat : Rat) / 255) := by
        have hr : RepQ f32.toRFmt (1 / (256 : Rat)) := by
          have := (f32_dyadic (m := 1) (by decide)).1
          rwa [show (((1 : Int) : Rat) / 256) = 1 / 256 by norm_num] at this
        have : 1 / (256 : Rat) ≤ f32.rnd (((mx - mn).toNat : Rat) / 255) := by
          refine le_rndQ hr ?_
          have : (1 : Rat) ≤ (mx - mn).toNat := by exact_mod_cast hm0
          rw [div_le_div_iff₀ (by norm_num) (by norm_num)]; linarith
        linarith [show (0 : Rat) < 1 / 256 by norm_num]
      have e : ((ofU8 (mx - mn) /. num 255 : F32) ==. num 0) = false := by
        rw [eq_is hR (num32 (by decide)), decide_eq_false_iff_not]
        push_cast; exact hpos.ne'
      rw [e]
      have hd : ∀ a c : UInt8, a.toNat ≤ mx.toNat → c.toNat ≤ mx.toNat → mn.toNat ≤ a.toNat → mn.toNat ≤ c.toNat →
          Between (-(3 / 2)) (3 / 2) ((ofU8 a /. num 255 -. ofU8 c /. num 255 : F32) /. (ofU8 (mx - mn) /. num 255)) := by
        intro a c h1 h2 h3 h4
        refine ratio_is (m := (mx - mn).toNat) (by have := a.toNat_lt; omega) (by have := c.toNat_lt; omega) hm255 hm0 ?_
          (byteDiv_is a) (byteDiv_is c) hR
        rw [abs_le, hsub]
        have i1 : (c.toNat : Rat) - a.toNat ≤ (mx.toNat - mn.toNat : Nat) := by
          rw [sub_le_iff_le_add]; exact_mod_cast (by omega : c.toNat ≤ mx.toNat - mn.toNat + a.toNat)
        have i2 : (a.toNat : Rat) - c.toNat ≤ (mx.toNat - mn.toNat : Nat) := by
          rw [sub_le_iff_le_add]; exact_mod_cast (by omega : a.toNat ≤ mx.toNat - mn.toNat + c.toNat)
        constructor <;> linarith
      have e72 : f32.Exact (7 / 2 : Rat) := by
        have := f32_dyadic (m := 896) (by decide)
        rwa [show (((896 : Int) : Rat) / 256) = 7 / 2 by norm_num] at this
      have e112 : f32.Exact (11 / 2 : Rat) := by
        have := f32_dyadic (m := 1408) (by decide)
        rwa [show (((1408 : Int) : Rat) / 256) = 11 / 2 by norm_num] at this
      have hraw : Between (-(3 / 2)) (11 / 2) (if mx = r then (ofU8 g /. num 255 -. ofU8 b /. num 255 : F32) /. (ofU8 (mx - mn) /. num 255)
          else if mx = g then (ofU8 b /. num 255 -. ofU8 r /. num 255 : F32) /. (ofU8 (mx - mn) /. num 255) +. num 2
          else (ofU8 r /. num 255 -. ofU8 g /. num 255 : F32) /. (ofU8 (mx - mn) /. num 255) +. num 4) := by
        split
        · exact (hd g b (by omega) (by omega) (by omega) (by omega)).weaken (by norm_num) (by norm_num)
        · split
          · exact ((hd b r (by omega) (by omega) (by omega) (by omega)).addN (n := 2) (by decide) e0 e72 (by norm_num)
              (by norm_num) (by norm_num) (by norm_num)).weaken (by norm_num) (by norm_num)
          · exact ((hd r g (by omega) (by omega) (by omega) (by omega)).addN (n := 4) (by decide) e0 e112 (by norm_num)
              (by norm_num) (by norm_num) (by norm_num)).weaken (by norm_num) (by norm_num)
      exact hraw.divN (n := 6) (by decide) (by decide) e1.neg e1 (by norm_num) (by norm_num) (by norm_num) (by norm_num)
  · by_cases hz : mx ≠ 0
    · rw [if_pos hz]
      have hpos : 0 < f32.rnd ((mx.toNat : Rat) / 255) := by
        have hr : RepQ f32.toRFmt (1 / (256 : Rat)) := by
          have := (f32_dyadic (m := 1) (by decide)).1
          rwa [show (((1 : Int) : Rat) / 256) = 1 / 256 by norm_num] at this
        have : 1 / (256 : Rat) ≤ f32.rnd ((mx.toNat : Rat) / 255) := by
          refine le_rndQ hr ?_
          have hp : 0 < mx.toNat := Nat.pos_of_ne_zero fun h => hz (UInt8.toNat_inj.1 h)
          have : (1 : Rat) ≤ mx.toNat := by exact_mod_cast hp
          rw [div_le_div_iff₀ (by norm_num) (by norm_num)]; linarith
        linarith [show (0 : Rat) < 1 / 256 by norm_num]
      have g1 : 0 ≤ f32.rnd (((mx - mn).toNat : Rat) / 255) / f32.rnd ((mx.toNat : Rat) / 255) :=
        div_nonneg bR.1 hpos.le
      have g2 : f32.rnd (((mx - mn).toNat : Rat) / 255) / f32.rnd ((mx.toNat : Rat) / 255) ≤ 1 := by
        rw [div_le_one hpos]; exact hRV
      exact ⟨_, div_is hR hV hpos.ne' (ovf_between (by linarith) (by linarith)), rnd_between e0 e1 g1 g2⟩
    · rw [if_neg hz]
      exact ⟨_, num32 (by decide), by norm_num, by norm_num⟩
  · rintro ⟨rfl, rfl⟩
    have e : (mx - mn).toNat = 0 := by rw [hsub, emx, emn]; omega
    by_cases hz : mx ≠ 0
    · rw [if_pos hz]
      have hpos : f32.rnd ((mx.toNat : Rat) / 255) ≠ 0 := by
        have hr : RepQ f32.toRFmt (1 / (256 : Rat)) := by
          have := (f32_dyadic (m := 1) (by decide)).1
          rwa [show (((1 : Int) : Rat) / 256) = 1 / 256 by norm_num] at this
        have : 1 / (256 : Rat) ≤ f32.rnd ((mx.toNat : Rat) / 255) := by
          refine le_rndQ hr ?_
          have hp : 0 < mx.toNat := Nat.pos_of_ne_zero fun h => hz (UInt8.toNat_inj.1 h)
          have : (1 : Rat) ≤ mx.toNat := by exact_mod_cast hp
          rw [div_le_div_iff₀ (by norm_num) (by norm_num)]; linarith
        intro h0
        rw [h0] at this
        norm_num at this
      rw [e] at hR
      have z : f32.rnd (((0 : Nat) : Rat) / 255) = 0 := by simp [Fmt.rnd, rndQ_zero]
      rw [z] at hR
      have := div_is hR hV hpos (ovf_between (by simp) (by simp))
      rw [zero_div] at this
      simpa [Fmt.rnd, rndQ_zero] using this
    · rw [if_neg hz]; simpa using num32 (n := 0) (by decide)

omit [Libm f32] in
theorem max3_self (a : UInt8) : max (max a a) a = a := by
  apply UInt8.toNat_inj.1; rw [u8_max_toNat, u8_max_toNat]; omega

theorem toU8_mono {x y : F32} {a b : Rat} (hx : x.Is a) (hy : y.Is b) (h : a ≤ b) : (toU8 x).toNat ≤ (toU8 y).toNat := by
  rw [toU8_toNat hx, toU8_toNat hy]
  have := truncQ_mono h
  omega

theorem scaled_le {v w : F32} {a : Rat} (hv : v.Is a) (h0 : 0 ≤ a) (h1 : a ≤ 1) (hw : Between 0 1 w) :
    (toU8 (v *. w *. num 255)).toNat ≤ (toU8 (v *. num 255)).toNat := by
  obtain ⟨q, hq, q0, q1⟩ := hw
  have hm : 0 ≤ a * q ∧ a * q ≤ a := ⟨mul_nonneg h0 q0, by nlinarith⟩
  have i1 := mul_is hv hq (ovf_between (by linarith) (by linarith))
  have r1 := rnd_between e0 hv.exact hm.1 hm.2
  have z := num32 (n := 255) (by decide)
  have i2 := mul_is i1 z (ovf_between (by push_cast; linarith [r1.1]) (by push_cast; linarith [r1.2]))
  have i3 := mul_is hv z (ovf_between (by push_cast; linarith) (by push_cast; linarith))
  refine toU8_mono i2 i3 (rndQ_mono ?_)
  exact mul_le_mul_of_nonneg_right r1.2 (by norm_num)

theorem one_minus {w : F32} (hw : Between 0 1 w) : Between 0 1 (num 1 -. w) := by
  obtain ⟨q, hq, q0, q1⟩ := hw
  have := rnd_between (q := 1 - q) e0 e1 (by linarith) (by linarith)
  have z : (num 1 : F32).Is 1 := by simpa using num32 (n := 1) (by decide)
  exact ⟨_, sub_is z hq (ovf_between (by linarith) (by linarith)), this⟩

theorem mul_unit {v w : F32} (hv : Between 0 1 v) (hw : Between 0 1 w) : Between 0 1 (v *. w) := by
  obtain ⟨a, ha, a0, a1⟩ := hv
  obtain ⟨q, hq, q0, q1⟩ := hw
  have hm : 0 ≤ a * q ∧ a * q ≤ 1 := ⟨mul_nonneg a0 q0, by nlinarith⟩
  exact ⟨_, mul_is ha hq (ovf_between (by linarith) (by linarith)), rnd_between e0 e1 hm.1 hm.2⟩

/-- **C34** (one pixel, back) for HSV values in [0,1], `hsv_to_rgb_f32` returns three bytes whose maximum is the
value channel converted back; with saturation 0 all three are that byte. -/
theorem c34_back_pixel (h s v : F32) (hh : Between 0 1 h) (hs : Between 0 1 s) (hv : Between 0 1 v) :
    ∃ a b c : UInt8, hsvToRgbF32Pixel [h, s, v] = .ok [a, b, c] ∧ max (max a b) c = toU8 (v *. num 255) ∧
      (s.Is 0 → a = toU8 (v *. num 255) ∧ b = toU8 (v *. num 255) ∧ c = toU8 (v *. num 255)) := by
  obtain ⟨sq, hsq, s0, s1⟩ := hs
  obtain ⟨vq, hvq, v0, v1⟩ := hv
  have hs : Between 0 1 s := ⟨sq, hsq, s0, s1⟩
  unfold hsvToRgbF32Pixel
  simp only [idx_some (l := [h, s, v]) (i := 1) (a := s) rfl, idx_some (l := [h, s, v]) (i := 2) (a := v) rfl,
    idx_some (l := [h, s, v]) (i := 0) (a := h) rfl, ok_bind]
  by_cases hz : sq = 0
  · rw [if_pos (by rw [eq_is hsq (num32 (by decide)), decide_eq_true_eq]; simpa using hz)]
    exact ⟨_, _, _, rfl, max3_self _, fun _ => ⟨rfl, rfl, rfl⟩⟩
  · rw [if_neg (by rw [eq_is hsq (num32 (by decide)), decide_eq_true_eq]; simpa using hz)]
    have hno : ¬ s.Is 0 := fun h => hz (hsq.unique h)
    have e6 : f32.Exact (6 : Rat) := by simpa using exact_n 6
    obtain ⟨hq, hhq, h0, h1⟩ := hh
    have i6 : Between 0 6 (h *. num 6) := by
      have := mul_is hhq (num32 (n := 6) (by decide)) (ovf_between (by push_cast; linarith) (by push_cast; linarith))
      push_cast at this
      have b := rnd_between (q := hq * 6) e0 e6 (by linarith) (by linarith)
      exact ⟨_, this, b⟩
    have hf : Between 0 1 (h *. num 6 -. FloatOps.floor (h *. num 6)) := by
      obtain ⟨q, iq, q0, q6⟩ := i6
      have fl0 := rat_floor_le q
      have fl1 := rat_lt_floor q
      have hz0 : (0 : Int) ≤ q.floor := rat_le_floor.2 (by simpa using q0)
      have hz6 : q.floor ≤ 6 := by
        have : (q.floor : Rat) ≤ ((6 : Int) : Rat) := by push_cast; linarith
        exact_mod_cast this
      have ifl := floor_is iq (f32_int (by rw [abs_of_nonneg hz0]; omega))
      have b := rnd_between (q := q - q.floor) e0 e1 (by linarith) (by linarith)
      exact ⟨_, sub_is iq ifl (ovf_between (by linarith) (by linarith)), b⟩
    have hp := scaled_le hvq v0 v1 (one_minus hs)
    have hq := scaled_le hvq v0 v1 (one_minus (mul_unit hs hf))
    have ht := scaled_le hvq v0 v1 (one_minus (mul_unit hs (one_minus hf)))
    have mx : ∀ a b c : UInt8, (a.toNat ≤ (toU8 (v *. num 255)).toNat ∧ b.toNat ≤ (toU8 (v *. num 255)).toNat ∧
        c.toNat ≤ (toU8 (v *. num 255)).toNat) →
        (a = toU8 (v *. num 255) ∨ b = toU8 (v *. num 255) ∨ c = toU8 (v *. num 255)) →
        max (max a b) c = toU8 (v *. num 255) := by
      intro a b c ⟨ha, hb, hc⟩ hor
      apply UInt8.toNat_inj.1
      rw [u8_max_toNat, u8_max_toNat]
      rcases hor with h | h | h <;> rw [← h] at ha hb hc ⊢ <;> omega
    split
    · exact ⟨_, _, _, rfl, mx _ _ _ ⟨le_refl _, ht, hp⟩ (.inl rfl), fun h => absurd h hno⟩
    split
    · exact ⟨_, _, _, rfl, mx _ _ _ ⟨hq, le_refl _, hp⟩ (.inr (.inl rfl)), fun h => absurd h hno⟩
    split
    · exact ⟨_, _, _, rfl, mx _ _ _ ⟨hp, le_refl _, ht⟩ (.inr (.inl rfl)), fun h => absurd h hno⟩
    split
    · exact ⟨_, _, _, rfl, mx _ _ _ ⟨hp, hq, le_refl _⟩ (.inr (.inr rfl)), fun h => absurd h hno⟩
    split
    · exact ⟨_, _, _, rfl, mx _ _ _ ⟨ht, hp, le_refl _⟩ (.inr (.inr rfl)), fun h => absurd h hno⟩
    · exact ⟨_, _, _, rfl, mx _ _ _ ⟨le_refl _, hp, hq⟩ (.inl rfl), fun h => absurd h hno⟩

example : Between 0 1 (num 0 : F32) ∧ Between 0 1 (num 1 : F32) :=
  ⟨⟨0, by simpa using num32 (n := 0) (by decide), by norm_num, by norm_num⟩,
    ⟨1, by simpa using num32 (n := 1) (by decide), by norm_num, by norm_num⟩⟩

/-- **C34** `rgb_to_hsv_f32` followed by `hsv_to_rgb_f32`, on every image with three colour channels: both return;
the intermediate colour channels are numbers in [0,1]; the result has the header and the alpha channel of the
input, every pixel keeps its largest colour value, and grey pixels are unchanged. -/
theorem c34_round_trip (P : Profile) (img : Image UInt8) (h : img.WF)
    (hpos : 0 < img.info.width ∧ 0 < img.info.height) (h3 : img.info.colours = 3) :
    ∃ (mid : Image F32) (out : Image UInt8), rgbToHsvF32 P img = .ok mid ∧ hsvToRgbF32 P mid = .ok out ∧
      mid.WF ∧ mid.info = img.info ∧ out.WF ∧ out.info = img.info ∧
      ∀ x y, x < img.info.width → y < img.info.height →
        (∀ v ∈ img.info.colour (mid.px x y), Between 0 1 v) ∧
        img.info.alphaOf (out.px x y) = img.info.alphaOf (img.px x y) ∧
        ∃ r g b r' g' b' : UInt8, img.info.colour (img.px x y) = [r, g, b] ∧
          img.info.colour (out.px x y) = [r', g', b'] ∧ max (max r' g') b' = max (max r g) b ∧
          (r = g ∧ g = b → r' = r ∧ g' = g ∧ b' = b) := by
  let F1 : List UInt8 → List F32 := fun p => match rgbToHsvF32Pixel (F := F32) p with | .ok q => q | .error _ => []
  let F2 : List F32 → List UInt8 := fun p => match hsvToRgbF32Pixel (F := F32) p with | .ok q => q | .error _ => []
  obtain ⟨mid, e1, hm⟩ := h.CA.map3 P hpos h3 (S := F32)
    (f := fun channels out => do
      let p ← rgbToHsvF32Pixel channels
      .ok (out ++ p))
    (f' := F1) (g := fun a => .ok (ofU8 a /. num 255)) (g' := fun a => ofU8 a /. num 255)
    (fun a b c => ⟨rfl, rfl⟩) (fun _ => rfl)
  obtain ⟨out, e2, ho⟩ := hm.map3 P hpos h3 (S := UInt8)
    (f := fun channels out => do
      let p ← hsvToRgbF32Pixel channels
      .ok (out ++ p))
    (f' := F2) (g := fun a => .ok (toU8 (FloatOps.round (a *. num 255)))) (g' := fun a => toU8 (FloatOps.round (a *. num 255)))
    (fun a b c => by
      have : ∃ x y z, hsvToRgbF32Pixel [a, b, c] = .ok [x, y, z] := by
        unfold hsvToRgbF32Pixel
        simp only [idx_some (l := [a, b, c]) (i := 1) (a := b) rfl, idx_some (l := [a, b, c]) (i := 2) (a := c) rfl,
          idx_some (l := [a, b, c]) (i := 0) (a := a) rfl, ok_bind]
        repeat' split
        all_goals exact ⟨_, _, _, rfl⟩
      obtain ⟨x, y, z, e⟩ := this
      simp only [F2, e, ok_bind]
      exact ⟨rfl, rfl⟩) (fun _ => rfl)
  refine ⟨mid, out, e1, e2, hm.wf, hm.info_eq, ho.wf, ho.info_eq, fun x y hx hy => ?_⟩
  have hc := ho.colour x y hx hy
  have hcm := hm.colour x y hx hy
  have ha := ho.alpha x y hx hy
  obtain ⟨r, g, b, e⟩ := pixel3 h3 (Image.px_length h hx hy)
  rw [e] at hc hcm
  obtain ⟨hh, s, v, ep, b1, b2, b3, hv, hgrey⟩ := c34_ranges r g b
  obtain ⟨r', g', b', eb, hmax, hs0⟩ := c34_back_pixel hh s v b1 b2 b3
  have k1 : F1 [r, g, b] = [hh, s, v] := by simp only [F1, ep]
  have k2 : F2 [hh, s, v] = [r', g', b'] := by simp only [F2, eb]
  rw [k1] at hc hcm
  rw [k2] at hc
  have hvb : toU8 (v *. num 255) = max (max r g) b := by rw [hv]; exact value_back _
  refine ⟨?_, ?_, r, g, b, r', g', b', e, hc, by rw [hmax, hvb], ?_⟩
  · rw [hcm]; intro w hw
    simp only [List.mem_cons, List.not_mem_nil, or_false] at hw
    rcases hw with rfl | rfl | rfl
    · exact b1
    · exact b2
    · exact b3
  · rw [ha, List.map_map]
    rw [show ((fun a => toU8 (FloatOps.round (a *. num 255))) ∘ fun a : UInt8 => (ofU8 a /. num 255 : F32)) = id from
      funext alpha_back_scaled, List.map_id]
  · intro hg
    obtain ⟨t1, t2, t3⟩ := hs0 (hgrey hg)
    obtain ⟨rfl, rfl⟩ := hg
    rw [hvb] at t1 t2 t3
    have : max (max r r) r = r := max3_self r
    rw [this] at t1 t2 t3
    exact ⟨t1, t2, t3⟩

example : demoA.WF ∧ (0 < demoA.info.width ∧ 0 < demoA.info.height) ∧ demoA.info.colours = 3 :=
  ⟨demoA_WF, by decide, by decide⟩
end Imgproc

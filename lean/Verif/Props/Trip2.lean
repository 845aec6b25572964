import Verif.Props.Trip
/-! Property C106, continued: the trip through CIELAB in f32. -/
namespace Imgproc
open FloatOps
section
variable [Libm f32]

theorem delta_near : Near (num 6 /. num 29 : F32) (6 / 29) 1.3e-8 := by
  have := Near.div (L := 29) (B := 0.207) (e' := 1.3e-8) (Near.num (n := 6) (by decide)) (Near.num (n := 29) (by decide)) (by norm_num)
    (by norm_num) (by norm_num [abs_of_pos]) (by norm_num) (by norm_num) (by norm_num)
  exact this.of_eq (by norm_num)

theorem four_near : Near (num 4 /. num 29 : F32) (4 / 29) 1e-8 := by
  have := Near.div (L := 29) (B := 0.138) (e' := 1e-8) (Near.num (n := 4) (by decide)) (Near.num (n := 29) (by decide)) (by norm_num)
    (by norm_num) (by norm_num [abs_of_pos]) (by norm_num) (by norm_num) (by norm_num)
  exact this.of_eq (by norm_num)

theorem third_near : Near (num 1 /. num 3 : F32) (1 / 3) 3e-8 := by
  have := Near.div (L := 3) (B := 0.334) (e' := 3e-8) (Near.num (n := 1) (by decide)) (Near.num (n := 3) (by decide)) (by norm_num)
    (by norm_num) (by norm_num [abs_of_pos]) (by norm_num) (by norm_num) (by norm_num)
  exact this.of_eq (by norm_num)

theorem three_near : Near (num 3 : F32) 3 0 := (Near.num (n := 3) (by decide)).of_eq (by norm_num)

theorem slope_near : Near (num 3 *. (num 6 /. num 29) *. (num 6 /. num 29) : F32) (108 / 841) 4e-8 := by
  have h1 : Near (num 3 *. (num 6 /. num 29) : F32) (3 * (6 / 29)) 8e-8 :=
    Near.mul (B := 3) (C := 0.207) three_near delta_near (by norm_num) (by norm_num [abs_of_pos]) (by norm_num) (by norm_num) (by norm_num)
  have := Near.mul (B := 0.621) (C := 0.207) (e' := 4e-8) h1 delta_near (by norm_num [abs_of_pos]) (by norm_num [abs_of_pos]) (by norm_num)
    (by norm_num) (by norm_num)
  exact this.of_eq (by norm_num)

theorem rpow_three (x : ℝ) : x ^ (3 : ℝ) = x ^ 3 := by
  rw [show (3 : ℝ) = ((3 : ℕ) : ℝ) by norm_num, Real.rpow_natCast]

theorem labThreshold_near (hp : PowAccurate) : Near (FloatOps.pow (num 6 /. num 29) (num 3) : F32) (216 / 24389) 1e-8 := by
  have := Near.pow hp (δ := 6.4e-8) (S := 3) (κ := 2e-7) (Λ := (2 : ℕ)) (delta_near.mono (by norm_num)) three_near (by norm_num)
    (by norm_num) (by norm_num) (by norm_num) (by norm_num) (by norm_num) (log_bound (by norm_num) (by norm_num) (by norm_num))
    (by norm_num) (by norm_num)
  rw [delta_cube] at this
  exact this.mono (by norm_num)

/-- a cube computed by an accurate libm -/
theorem cube_near (hp : PowAccurate) {n : F32} {ν : Rat} (hn : n.Is ν) (h0 : 0.1 ≤ (ν : ℝ)) (h1 : (ν : ℝ) ≤ 1.2) :
    Near (FloatOps.pow n (num 3)) ((ν : ℝ) ^ 3) 9e-7 := by
  have n0 : Near n (ν : ℝ) (0 * ν) := by rw [zero_mul]; exact Near.exact hn
  have := Near.pow hp (S := 3) (κ := 0) (Λ := (3 : ℕ)) n0 three_near (by norm_num; linarith) (by linarith) (by norm_num)
    (by norm_num) (by norm_num) (by norm_num) (log_bound (by linarith) (by norm_num) (by norm_num; linarith))
    (by norm_num) (by norm_num)
  rw [rpow_three] at this
  refine this.mono ?_
  have : (ν : ℝ) ^ 3 ≤ 1.2 ^ 3 := by gcongr
  nlinarith

theorem cube_close {a b e : ℝ} (ha : |a - b| ≤ e) (ha0 : 0 ≤ a) (hb0 : 0 ≤ b) (h1 : a ≤ 1.2) (h2 : b ≤ 1.2) :
    |a ^ 3 - b ^ 3| ≤ 4.32 * e := by
  rw [show a ^ 3 - b ^ 3 = (a - b) * (a * a + a * b + b * b) by ring, abs_mul, abs_of_nonneg (a := a * a + a * b + b * b) (by positivity), mul_comm]
  have : a * a + a * b + b * b ≤ 4.32 := by nlinarith
  exact mul_le_mul this ha (abs_nonneg _) (by norm_num)

/-- the linear part of `lab_to_xyz_fn` -/
theorem linear_near {n : F32} {ν : Rat} (hn : n.Is ν) (h0 : 0.1 ≤ (ν : ℝ)) (h1 : (ν : ℝ) ≤ 0.3) :
    Near (num 3 *. (num 6 /. num 29) *. (num 6 /. num 29) *. (n -. (num 4 /. num 29))) (108 / 841 * ((ν : ℝ) - 4 / 29)) 1e-7 := by
  have s : Near (n -. (num 4 /. num 29)) ((ν : ℝ) - 4 / 29) 3e-8 :=
    Near.sub (B := 0.2) (Near.exact hn) four_near (by norm_num) (by rw [abs_le]; constructor <;> linarith) (by norm_num) (by norm_num)
  exact Near.mul (B := 0.13) (C := 0.2) slope_near s (by norm_num [abs_of_pos]) (by rw [abs_le]; constructor <;> linarith) (by norm_num)
    (by norm_num) (by norm_num)

omit [Libm f32] in
/-- near the branch point the cube and its tangent agree -/
theorem tangent_close {ν : ℝ} (h : |ν - 6 / 29| ≤ 1e-5) : |108 / 841 * (ν - 4 / 29) - ν ^ 3| ≤ 1e-9 := by
  rw [show 108 / 841 * (ν - 4 / 29) - ν ^ 3 = - ((ν - 6 / 29) ^ 2 * (ν + 12 / 29)) by ring, abs_neg, abs_mul, abs_of_nonneg (sq_nonneg _), ← sq_abs]
  have h' := abs_le.1 h
  have : |ν - 6 / 29| ^ 2 ≤ (1e-5) ^ 2 := by gcongr
  have : |ν + 12 / 29| ≤ 1 := by rw [abs_le]; constructor <;> linarith
  calc _ ≤ (1e-5 : ℝ) ^ 2 * 1 := by gcongr
    _ ≤ _ := by norm_num

theorem Near.trans {x : F32} {r s e f g : ℝ} (h : Near x r e) (hs : |r - s| ≤ f) (hg : e + f ≤ g) : Near x s g := by
  obtain ⟨q, hq, h1⟩ := h
  refine ⟨q, hq, ?_⟩
  have := abs_add_le ((q : ℝ) - r) (r - s)
  rw [sub_add_sub_cancel] at this
  linarith

/-- `lab_to_xyz_fn` undoes `xyz_to_lab_fn` up to rounding, also when the argument is disturbed by 1e-6 -/
theorem fn_trip (hp : PowAccurate) {t : F32} {τ : Rat} (ht : t.Is τ) (h0 : -1e-4 ≤ (τ : ℝ)) (h1 : (τ : ℝ) ≤ 1.33) :
    ∃ φ : Rat, (xyzToLabFn t).Is φ ∧ 0.13 ≤ (φ : ℝ) ∧ (φ : ℝ) ≤ 1.11 ∧
      ∀ (n : F32) (ν : Rat), n.Is ν → |(ν : ℝ) - φ| ≤ 1e-6 → Near (labToXyzFn n) τ 1e-5 := by
  obtain ⟨θ, hθ, θ1⟩ := labThreshold_near hp
  obtain ⟨d, hd, d1⟩ := delta_near
  rw [abs_le] at θ1 d1
  have key : ∀ (n : F32) (ν : Rat), n.Is ν → labToXyzFn n = if d < ν then FloatOps.pow n (num 3) else
      num 3 *. (num 6 /. num 29) *. (num 6 /. num 29) *. (n -. (num 4 /. num 29)) := fun n ν hn => by
    unfold labToXyzFn
    simp only
    rw [show (n >. (num 6 /. num 29 : F32)) = ((num 6 /. num 29 : F32) <. n) from rfl, lt_is hd hn]
    by_cases h : d < ν <;> simp [h]
  have key1 : xyzToLabFn t = if θ < τ then FloatOps.pow t (num 1 /. num 3) else
      (t /. (num 3 *. (num 6 /. num 29) *. (num 6 /. num 29))) +. (num 4 /. num 29) := by
    unfold xyzToLabFn
    simp only
    rw [show (t >. (FloatOps.pow (num 6 /. num 29) (num 3) : F32)) = ((FloatOps.pow (num 6 /. num 29) (num 3) : F32) <. t) from rfl, lt_is hθ ht]
    by_cases h : θ < τ <;> simp [h]
  rw [key1]
  by_cases hb : θ < τ
  · rw [if_pos hb]
    have hb' : (θ : ℝ) < τ := by exact_mod_cast hb
    have τ0 : 0.0088 ≤ (τ : ℝ) := by linarith
    set c : ℝ := (τ : ℝ) ^ (1 / 3 : ℝ) with hc
    have c0 : 0 ≤ c := Real.rpow_nonneg (by linarith) _
    have c3 : c ^ 3 = τ := by rw [← rpow_three]; exact cbrt_cube (by linarith)
    have c1 : c ≤ 1.1 := by
      by_contra hh
      push Not at hh
      have : (1.1 : ℝ) ^ 3 < c ^ 3 := by gcongr
      rw [c3] at this; norm_num at this; linarith
    have c2 : 6 / 29 - 1e-7 ≤ c := by
      by_contra hh
      push Not at hh
      have : c ^ 3 < (6 / 29 - 1e-7) ^ 3 := by gcongr
      rw [c3] at this; norm_num at this; linarith
    have np : Near (FloatOps.pow t (num 1 /. num 3)) c 8e-7 := by
      have n0 : Near t (τ : ℝ) (0 * τ) := by rw [zero_mul]; exact Near.exact ht
      have := Near.pow hp (S := 1) (κ := 1.5e-7) (Λ := (5 : ℕ)) n0 third_near (by norm_num; linarith) (by linarith) (by norm_num)
        (by norm_num) (by norm_num) (by norm_num) (log_bound (by linarith) (by norm_num) (by norm_num; linarith))
        (by norm_num) (by norm_num)
      refine this.mono ?_
      rw [← hc]; nlinarith
    obtain ⟨φ, hφ, φ1⟩ := np
    have φ2 := abs_le.1 φ1
    refine ⟨φ, hφ, by linarith, by linarith, fun n ν hn hν => ?_⟩
    have hν' := abs_le.1 hν
    have νc : |(ν : ℝ) - c| ≤ 1.8e-6 := by rw [abs_le]; constructor <;> linarith
    have cc := cube_close νc (by linarith) c0 (by linarith) (by linarith)
    rw [c3] at cc
    rw [key n ν hn]
    by_cases hd' : d < ν
    · rw [if_pos hd']
      exact (cube_near hp hn (by linarith) (by linarith)).trans cc (by norm_num)
    · rw [if_neg hd']
      have hd2 : (ν : ℝ) ≤ d := by exact_mod_cast not_lt.1 hd'
      have tc := tangent_close (ν := (ν : ℝ)) (by rw [abs_le]; constructor <;> linarith)
      exact ((linear_near hn (by linarith) (by linarith)).trans tc (g := 1e-6) (by norm_num)).trans cc (by norm_num)
  · rw [if_neg hb]
    have hb' : (τ : ℝ) ≤ θ := by exact_mod_cast not_lt.1 hb
    have nq : Near (t /. (num 3 *. (num 6 /. num 29) *. (num 6 /. num 29))) ((τ : ℝ) / (108 / 841)) 1e-7 :=
      Near.div (L := 108 / 841) (B := 0.07) (Near.exact ht) slope_near (le_refl _) (by norm_num)
        (by rw [abs_le]; constructor
            · rw [le_div_iff₀ (by norm_num)]; linarith
            · rw [div_le_iff₀ (by norm_num)]; linarith) (by norm_num) (by norm_num) (by norm_num)
    have q0 : -0.001 ≤ (τ : ℝ) / (108 / 841) := by rw [le_div_iff₀ (by norm_num)]; linarith
    have q1 : (τ : ℝ) / (108 / 841) ≤ 2 / 29 + 1e-7 := by rw [div_le_iff₀ (by norm_num)]; linarith
    have ns : Near ((t /. (num 3 *. (num 6 /. num 29) *. (num 6 /. num 29))) +. (num 4 /. num 29)) ((τ : ℝ) / (108 / 841) + 4 / 29) 2e-7 :=
      Near.add (B := 0.3) nq four_near (by norm_num) (by rw [abs_le]; constructor <;> linarith) (by norm_num) (by norm_num)
    obtain ⟨φ, hφ, φ1⟩ := ns
    have φ2 := abs_le.1 φ1
    refine ⟨φ, hφ, by linarith, by linarith, fun n ν hn hν => ?_⟩
    have hν' := abs_le.1 hν
    have lc : |108 / 841 * ((ν : ℝ) - 4 / 29) - τ| ≤ 1e-6 := by
      have : (τ : ℝ) = 108 / 841 * ((τ : ℝ) / (108 / 841)) := by ring
      rw [abs_le]; constructor <;> linarith
    rw [key n ν hn]
    by_cases hd' : d < ν
    · rw [if_pos hd']
      have hd2 : (d : ℝ) < ν := by exact_mod_cast hd'
      have tc := tangent_close (ν := (ν : ℝ)) (by rw [abs_le]; constructor <;> linarith)
      rw [abs_sub_comm] at tc
      exact ((cube_near hp hn (by linarith) (by linarith)).trans tc (g := 2e-6) (by norm_num)).trans lc (by norm_num)
    · rw [if_neg hd']
      have hd2 : (ν : ℝ) ≤ d := by exact_mod_cast not_lt.1 hd'
      exact (linear_near hn (by linarith) (by linarith)).trans lc (by norm_num)

/-- the white point of one channel, as a float and as a number -/
def WhiteNear (w : F32) (W : ℝ) : Prop := Near w W 7e-6 ∧ 82.5 ≤ W ∧ W ≤ 109

/-- scaling one XYZ channel by the white point -/
theorem scale_near {w x : F32} {W X : ℝ} (hw : WhiteNear w W) (hx : Near x X 2.1e-6) (h0 : 0 ≤ X) (h1 : X ≤ 1.09) :
    Near (x *. num 100 /. w) (X * 100 / W) 3e-6 := by
  obtain ⟨hw, w0, w1⟩ := hw
  have m : Near (x *. num 100) (X * 100) 2.2e-4 :=
    (Near.mul (B := 1.09) (C := 100) hx (Near.num (n := 100) (by decide)) (by rw [abs_of_nonneg h0]; exact h1) (by norm_num) (by norm_num)
      (by norm_num) (by norm_num)).of_eq (by norm_num)
  exact Near.div (L := 82.5) (B := 1.33) m hw w0 (by norm_num) (by
    rw [abs_of_nonneg (by positivity), div_le_iff₀ (by linarith)]; linarith) (by norm_num) (by norm_num) (by norm_num)

theorem unscale_near {w g : F32} {W X : ℝ} (hw : WhiteNear w W) (h0 : 0 ≤ X) (h1 : X ≤ 1.09) (hg : Near g (X * 100 / W) 1.3e-5) :
    Near (w *. g /. num 100) X 1.5e-5 := by
  obtain ⟨hw, w0, w1⟩ := hw
  have m : Near (w *. g) (W * (X * 100 / W)) 1.45e-3 :=
    Near.mul (B := 109) (C := 1.33) hw hg (by rw [abs_of_nonneg (by linarith)]; exact w1) (by
      rw [abs_of_nonneg (by positivity), div_le_iff₀ (by linarith)]; linarith) (by norm_num) (by norm_num) (by norm_num)
  rw [mul_div_cancel₀ _ (by linarith : W ≠ 0)] at m
  have := Near.div (L := 100) (B := 1.09) (e' := 1.5e-5) m (Near.num (n := 100) (by decide)) (by norm_num) (by norm_num) (by
    push_cast; rw [mul_div_cancel_right₀ _ (by norm_num), abs_of_nonneg h0]; exact h1) (by norm_num) (by norm_num) (by norm_num)
  exact this.of_eq (by push_cast; rw [mul_div_cancel_right₀ _ (by norm_num)])

/-- one channel of the trip: the CIELAB function, and back from any float within 1e-6 of its value -/
theorem channel_trip (hp : PowAccurate) {w x : F32} {W X : ℝ} (hw : WhiteNear w W) (hx : Near x X 2.1e-6) (h0 : 0 ≤ X) (h1 : X ≤ 1.09) :
    ∃ φ : Rat, (xyzToLabFn (x *. num 100 /. w)).Is φ ∧ 0.13 ≤ (φ : ℝ) ∧ (φ : ℝ) ≤ 1.11 ∧
      ∀ n : F32, Near n φ 1e-6 → Near (w *. labToXyzFn n /. num 100) X 1.5e-5 := by
  obtain ⟨τ, hτ, τ1⟩ := scale_near hw hx h0 h1
  have τ2 := abs_le.1 τ1
  have wpos : 0 < W := by linarith [hw.2.1]
  have s0 : 0 ≤ X * 100 / W := by positivity
  have s1 : X * 100 / W ≤ 1.3213 := by rw [div_le_iff₀ wpos]; linarith [hw.2.1]
  obtain ⟨φ, hφ, p0, p1, hback⟩ := fn_trip hp hτ (by linarith) (by linarith)
  refine ⟨φ, hφ, p0, p1, fun n hn => ?_⟩
  obtain ⟨ν, hν, hn⟩ := hn
  exact unscale_near hw h0 h1 ((hback n ν hν hn).trans τ1 (by norm_num))

theorem white_near (white : White) : ∃ W1 W2 W3 : ℝ, WhiteNear (xyzTristimulusVals (F := F32) white).1 W1 ∧
    WhiteNear (xyzTristimulusVals (F := F32) white).2.1 W2 ∧ WhiteNear (xyzTristimulusVals (F := F32) white).2.2 W3 := by
  have n100 : WhiteNear (num 100 : F32) 100 :=
    ⟨((Near.num (n := 100) (by decide)).of_eq (by norm_num)).mono (by norm_num), by norm_num, by norm_num⟩
  have l : ∀ q : Rat, 82.5 ≤ (q : ℝ) → (q : ℝ) ≤ 109 → WhiteNear (lit q : F32) q := fun q h0 h1 =>
    ⟨(Near.lit (B := 109) (by norm_num) (by rw [abs_of_nonneg (by linarith)]; exact h1) (by norm_num)).mono (by norm_num), h0, h1⟩
  cases white
  · exact ⟨_, _, _, l _ (by norm_num) (by norm_num), n100, l _ (by norm_num) (by norm_num)⟩
  · exact ⟨_, _, _, l _ (by norm_num) (by norm_num), n100, l _ (by norm_num) (by norm_num)⟩

/-- CIELAB coordinates and back: the three function values are recovered to within 1e-6 -/
theorem affine_near {x y z l : F32} {p q r t : Rat} (hx : x.Is p) (hy : y.Is q) (hz : z.Is r) (p0 : 0.13 ≤ (p : ℝ)) (p1 : (p : ℝ) ≤ 1.11)
    (q0 : 0.13 ≤ (q : ℝ)) (q1 : (q : ℝ) ≤ 1.11) (r0 : 0.13 ≤ (r : ℝ)) (r1 : (r : ℝ) ≤ 1.11)
    (ht : (num 116 *. y -. num 16).Is t) (hl : l.Is t) :
    Near ((l +. num 16) /. num 116) q 1e-6 ∧ Near ((l +. num 16) /. num 116 +. (num 500 *. (x -. y)) /. num 500) p 1e-6 ∧
      Near ((l +. num 16) /. num 116 -. (num 200 *. (y -. z)) /. num 200) r 1e-6 := by
  have n : ∀ {k : Int}, |k| ≤ 16777216 → Near (num k : F32) k 0 := fun h => Near.num h
  have e1 : Near (num 116 *. y -. num 16) (116 * (q : ℝ) - 16) 1.5e-5 := by
    have m : Near (num 116 *. y) (116 * (q : ℝ)) 8e-6 :=
      (Near.mul (B := 116) (C := 1.11) (n (k := 116) (by decide)) (Near.exact hy) (by norm_num) (by rw [abs_of_nonneg (by linarith)]; exact q1)
        (by norm_num) (by norm_num) (by norm_num)).of_eq (by norm_num)
    exact (Near.sub (B := 113) (e' := 1.5e-5) m (n (k := 16) (by decide)) (by norm_num) (by push_cast; rw [abs_le]; constructor <;> linarith) (by norm_num)
      (by norm_num)).of_eq (by norm_num)
  have el : Near l (116 * (q : ℝ) - 16) 1.5e-5 := by
    obtain ⟨t', ht', e⟩ := e1
    rw [Flt.Is.unique ht' ht] at e
    exact ⟨t, hl, e⟩
  have ea : Near (l +. num 16) (116 * (q : ℝ)) 2.3e-5 :=
    (Near.add (B := 129) (e' := 2.3e-5) el (n (k := 16) (by decide)) (by norm_num) (by push_cast; rw [abs_le]; constructor <;> linarith) (by norm_num)
      (by norm_num)).of_eq (by push_cast; ring)
  have en : Near ((l +. num 16) /. num 116) (q : ℝ) 3e-7 :=
    (Near.div (L := 116) (B := 1.11) (e' := 3e-7) ea (n (k := 116) (by decide)) (by norm_num) (by norm_num)
      (by push_cast; rw [mul_div_cancel_left₀ _ (by norm_num), abs_of_nonneg (by linarith)]; exact q1) (by norm_num) (by norm_num)
      (by norm_num)).of_eq (by push_cast; rw [mul_div_cancel_left₀ _ (by norm_num)])
  have diff : ∀ {u v : F32} {a b : Rat} {k : Int}, u.Is a → v.Is b → |(a : ℝ) - b| ≤ 1 → 100 ≤ (k : ℝ) → (k : ℝ) ≤ 500 → |k| ≤ 16777216 →
      Near ((num k *. (u -. v)) /. num k) ((a : ℝ) - b) 2e-7 := by
    intro u v a b k hu hv hd k0 k1 hk
    have d1 : Near (u -. v) ((a : ℝ) - b) 6e-8 :=
      Near.sub (B := 1) (Near.exact hu) (Near.exact hv) (by norm_num) hd (by norm_num) (by norm_num)
    have d2 : Near (num k *. (u -. v)) ((k : ℝ) * ((a : ℝ) - b)) ((k : ℝ) * 1.3e-7) :=
      Near.mul (B := (k : ℝ)) (C := 1) (n hk) d1 (by rw [abs_of_nonneg (by linarith)]) hd (by linarith) (by linarith) (by linarith)
    have kk : (k : ℝ) ≠ 0 := by linarith
    have := Near.div (L := (k : ℝ)) (B := 1) (e' := 2e-7) d2 (n hk) (le_refl _) (by linarith)
      (by rw [mul_div_cancel_left₀ _ kk]; exact hd) (by norm_num)
      (by rw [show ((k : ℝ) * 1.3e-7 + 1 * 0) / ((k : ℝ) - 0) = 1.3e-7 by field_simp; ring]; norm_num)
      (by rw [show ((k : ℝ) * 1.3e-7 + 1 * 0) / ((k : ℝ) - 0) = 1.3e-7 by field_simp; ring]; norm_num)
    exact this.of_eq (mul_div_cancel_left₀ _ kk)
  have da := diff (k := 500) hx hy (by rw [abs_le]; constructor <;> linarith) (by norm_num) (by norm_num) (by decide)
  have db := diff (k := 200) hy hz (by rw [abs_le]; constructor <;> linarith) (by norm_num) (by norm_num) (by decide)
  refine ⟨en.mono (by norm_num), ?_, ?_⟩
  · exact (Near.add (B := 1.11) (e' := 1e-6) en da (by norm_num) (by rw [abs_le]; constructor <;> linarith) (by norm_num) (by norm_num)).of_eq (by ring)
  · exact (Near.sub (B := 1.11) (e' := 1e-6) en db (by norm_num) (by rw [abs_le]; constructor <;> linarith) (by norm_num) (by norm_num)).of_eq (by ring)

/-- the whole trip of one colour through CIELAB; the lightness may be replaced by any float of the same value -/
theorem lab_trip (hp : PowAccurate) (white : White) (a b c : UInt8) : ∃ (L A B : F32) (t : Rat),
    labOfSrgb white [a, b, c] = [L, A, B] ∧ L.Is t ∧ ∀ L' : F32, L'.Is t →
      List.Forall₂ SameOrOneBelow [a, b, c] (srgbOfLab white [L', A, B]) := by
  obtain ⟨W1, W2, W3, w1, w2, w3⟩ := white_near white
  obtain ⟨⟨x0, x1⟩, ⟨y0, y1⟩, z0, z1⟩ := exactXyz_bound a b c
  obtain ⟨x, y, z, e, hx, hy, hz⟩ := toXyz_near hp a b c
  obtain ⟨p, hp', p0, p1, bp⟩ := channel_trip hp w1 hx x0 (by linarith)
  obtain ⟨q, hq', q0, q1, bq⟩ := channel_trip hp w2 hy y0 (by linarith)
  obtain ⟨r, hr', r0, r1, br⟩ := channel_trip hp w3 hz z0 (by linarith)
  have lex : ∃ t : Rat, (num 116 *. xyzToLabFn (y *. num 100 /. (xyzTristimulusVals (F := F32) white).2.1) -. num 16).Is t := by
    have m : Near (num 116 *. xyzToLabFn (y *. num 100 /. (xyzTristimulusVals (F := F32) white).2.1)) (116 * (q : ℝ)) 8e-6 :=
      (Near.mul (B := 116) (C := 1.11) (Near.num (n := 116) (by decide)) (Near.exact hq') (by norm_num) (by rw [abs_of_nonneg (by linarith)]; exact q1)
        (by norm_num) (by norm_num) (by norm_num)).of_eq (by norm_num)
    obtain ⟨t, ht, -⟩ := Near.sub (B := 113) (e' := 1.5e-5) m (Near.num (n := 16) (by decide)) (by norm_num)
      (by push_cast; rw [abs_le]; constructor <;> linarith) (by norm_num) (by norm_num)
    exact ⟨t, ht⟩
  obtain ⟨t, ht⟩ := lex
  refine ⟨_, _, _, t, by unfold labOfSrgb; rw [List.map_cons, List.map_cons, List.map_cons, List.map_nil, e]; rfl, ht, fun L' hL => ?_⟩
  obtain ⟨n2, n1, n3⟩ := affine_near hp' hq' hr' p0 p1 q0 q1 r0 r1 ht hL
  exact fromXyz_near hp a b c (bp _ n1) (bq _ n2) (br _ n3)
end
end Imgproc

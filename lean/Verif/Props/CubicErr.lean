import Verif.Props.ScaleErr
import Verif.Props.Scale5
import Verif.Props.FilterErr
/-! Property C114: what bicubic scaling computes in f32, for every factor. -/
namespace Imgproc
open FloatOps
open Finset (range)

/-! ### the weighted sum of the taps -/

theorem foldl_nest {β : Type} (K M : Nat) (f : β → Nat → Nat → β) (a : β) :
    (List.range K).foldl (fun acc m => (List.range M).foldl (fun acc n => f acc m n) acc) a =
      (List.range (K * M)).foldl (fun acc k => f acc (k / M) (k % M)) a := by
  induction K with
  | zero => simp
  | succ K ih =>
    rw [List.range_succ, List.foldl_append, ih, Nat.succ_mul, List.range_add, List.foldl_append, List.foldl_map]
    simp only [List.foldl_cons, List.foldl_nil]
    have key : ∀ (L : List Nat) (b : β), (∀ n ∈ L, n < M) → L.foldl (fun acc n => f acc K n) b =
        L.foldl (fun acc n => f acc ((K * M + n) / M) ((K * M + n) % M)) b := by
      intro L
      induction L with
      | nil => intro b _; rfl
      | cons n L ihL =>
        intro b hb
        have hn := hb n (by simp)
        simp only [List.foldl_cons]
        rw [Nat.mul_comm K M, Nat.mul_add_div (by omega), Nat.mul_add_mod, Nat.div_eq_of_lt hn, Nat.mod_eq_of_lt hn, Nat.add_zero, Nat.mul_comm M K]
        exact ihL _ fun k hk => hb k (by simp [hk])
    exact key _ _ fun n hn => List.mem_range.1 hn

section
variable [Libm f32]

/-- the sum of the taps, in f32 -/
theorem tapFold_err {K M : Nat} {v w : Nat → Nat → F32} {a b : Nat → Nat → Rat} (hn : K * M < 2 ^ 23)
    (hv : ∀ m n, m < K → n < M → (v m n).Is (a m n)) (hw : ∀ m n, m < K → n < M → (w m n).Is (b m n))
    (hb : ∑ m ∈ range K, ∑ n ∈ range M, |a m n * b m n| ≤ 2 ^ 97) :
    ∃ r, (tapFold K M v w).Is r ∧ |r - ∑ m ∈ range K, ∑ n ∈ range M, a m n * b m n| ≤
      (((K * M : Nat) : Rat) + 1) / 2 ^ 23 * ∑ m ∈ range K, ∑ n ∈ range M, |a m n * b m n| + ((K * M : Nat) : Rat) / 2 ^ 147 := by
  have hM : ∀ {k}, k < K * M → 0 < M := fun {k} h => by
    rcases Nat.eq_zero_or_pos M with rfl | h'
    · simp at h
    · exact h'
  have hdm : ∀ {k}, k < K * M → k / M < K ∧ k % M < M := fun {k} h =>
    ⟨Nat.div_lt_of_lt_mul (by rwa [Nat.mul_comm]), Nat.mod_lt _ (hM h)⟩
  have e : tapFold K M v w = kernelResponse ((List.range (K * M)).map fun k => v (k / M) (k % M))
      ((List.range (K * M)).map fun k => [w (k / M) (k % M)]) 0 := by
    unfold tapFold kernelResponse
    rw [foldl_nest K M (fun acc m n => acc +. v m n *. w m n), List.zip_map', List.foldl_map]
    rfl
  have l1 : ((List.range (K * M)).map fun k => v (k / M) (k % M)).length = K * M := by simp
  have l2 : ((List.range (K * M)).map fun k => [w (k / M) (k % M)]).length = K * M := by simp
  have s := fun g : Nat → Nat → Rat => show ∑ k ∈ range (K * M), g (k / M) (k % M) = ∑ m ∈ range K, ∑ n ∈ range M, g m n by
    rw [sum_range_mul_rat]
    refine Finset.sum_congr rfl fun i _ => Finset.sum_congr rfl fun j hj => ?_
    have hj := Finset.mem_range.1 hj
    rw [Nat.mul_comm i M, Nat.mul_add_div (by omega), Nat.mul_add_mod, Nat.div_eq_of_lt hj, Nat.mod_eq_of_lt hj, Nat.add_zero]
  have := response_err (kernel := (List.range (K * M)).map fun k => v (k / M) (k % M))
    (pixels := (List.range (K * M)).map fun k => [w (k / M) (k % M)]) (c := 0) (fun k => a (k / M) (k % M)) (fun k => b (k / M) (k % M))
    (by rw [l1, l2]) (by rw [l1]; exact hn)
    (fun i hi => by
      rw [l1] at hi
      rw [List.getD_eq_getElem?_getD, List.getElem?_map, List.getElem?_range hi]
      exact hv _ _ (hdm hi).1 (hdm hi).2)
    (fun i hi => by
      rw [l1] at hi
      rw [show ((List.range (K * M)).map fun k => [w (k / M) (k % M)]).getD i [] = [w (i / M) (i % M)] by
        rw [List.getD_eq_getElem?_getD, List.getElem?_map, List.getElem?_range hi]; rfl]
      exact hw _ _ (hdm hi).1 (hdm hi).2)
    (by rw [l1, s fun m n => |a m n * b m n|]; exact hb)
  rw [l1, s fun m n => |a m n * b m n|, s fun m n => a m n * b m n, ← e] at this
  exact this

/-! ### the weights -/

/-- spec: the platform's `powf` computes cubes of numbers between 0 and 8 to a relative error of 2^-21 (about four units in the last
place; results below 2^-119 may underflow) -/
def CubeAccurate : Prop := ∀ (x y : F32) (a : Rat), x.Is a → y.Is 3 → 0 ≤ a → a ≤ 8 →
  ∃ c, (FloatOps.pow x y).Is c ∧ |c - a ^ 3| ≤ a ^ 3 / 2 ^ 21 + 1 / 2 ^ 140

theorem app_clampZero {x : F32} {p e : Rat} (h : App x p e) : ∃ a, (clampZero x).Is a ∧ 0 ≤ a ∧ |a - max p 0| ≤ e := by
  obtain ⟨a, ha, hb⟩ := h
  have z : (num 0 : F32).Is 0 := by simpa using num32 (n := 0) (by decide)
  refine ⟨max a 0, ?_, le_max_right _ _, (abs_max_sub_max_le_abs _ _ _).trans hb⟩
  unfold clampZero
  rw [le_is ha z]
  by_cases h : a ≤ 0
  · rw [if_pos (by simpa using h), max_eq_right h]; exact z
  · rw [if_neg (by simpa using h), max_eq_left (not_le.1 h).le]; exact ha

theorem app_cube (hp : CubeAccurate) {x : F32} {p e B e' : Rat} (h : App x p e) (hB : max p 0 ≤ B) (h8 : B + e ≤ 8)
    (he : (B + e) ^ 3 / 2 ^ 21 + 1 / 2 ^ 140 + 3 * (B + e) ^ 2 * e ≤ e') :
    App (FloatOps.pow (clampZero x) (num 3)) ((max p 0) ^ 3) e' := by
  obtain ⟨a, ha, a0, ae⟩ := app_clampZero h
  have e0 : 0 ≤ e := (abs_nonneg _).trans ae
  have r0 : 0 ≤ max p 0 := le_max_right _ _
  generalize max p 0 = r at *
  rw [abs_le] at ae
  have aB : a ≤ B + e := by linarith
  obtain ⟨c, hc, ce⟩ := hp _ _ a ha (by simpa using num32 (n := 3) (by decide)) a0 (by linarith)
  refine ⟨c, hc, ?_⟩
  have t := abs_add_le (c - a ^ 3) (a ^ 3 - r ^ 3)
  rw [sub_add_sub_cancel] at t
  have a3 : a ^ 3 ≤ (B + e) ^ 3 := pow_le_pow_left₀ a0 aB 3
  have d : |a ^ 3 - r ^ 3| ≤ 3 * (B + e) ^ 2 * e := by
    rw [show a ^ 3 - r ^ 3 = (a ^ 2 + a * r + r ^ 2) * (a - r) by ring, abs_mul]
    refine mul_le_mul ?_ (abs_le.2 ae) (abs_nonneg _) (by positivity)
    rw [abs_of_nonneg (by positivity)]
    have rB : r ≤ B + e := by linarith
    nlinarith [mul_le_mul aB aB a0 (by linarith), mul_le_mul aB rB r0 (by linarith), mul_le_mul rB rB r0 (by linarith)]
  have a4 : a ^ 3 / 2 ^ 21 ≤ (B + e) ^ 3 / 2 ^ 21 := div_le_div_of_nonneg_right a3 (by positivity)
  linarith

/-- the combination of truncated cubes that the code computes -/
def truncCubes (x : Rat) : Rat :=
  (max (x + 2) 0) ^ 3 - 4 * (max (x + 1) 0) ^ 3 + 6 * (max x 0) ^ 3 - 4 * (max (x - 1) 0) ^ 3

/-- the weight computed from an argument that is known up to 3 roundings -/
theorem cubicWeighting_err (hp : CubeAccurate) {d : F32} {x : Rat} (h : App d x (3.1 / 16777216)) (h0 : -2 ≤ x) (h2 : x ≤ 2) :
    App (cubicWeightingFn d) (1 / 6 * truncCubes x) (640 / 16777216) := by
  have num' := fun {n : Int} (h : |n| ≤ 16777216) => App.num h
  have n1 : App (num 1) 1 0 := by simpa using App.num (n := 1) (by decide)
  have n2 : App (num 2) 2 0 := by simpa using App.num (n := 2) (by decide)
  have n4 : App (num 4) 4 0 := by simpa using App.num (n := 4) (by decide)
  have n6 : App (num 6) 6 0 := by simpa using App.num (n := 6) (by decide)
  have a1 : App (d +. num 2) (x + 2) (7.2 / 16777216) := h.add n2 (B := 4) (by norm_num) (abs_le.2 ⟨by linarith, by linarith⟩) (by norm_num) (by norm_num)
  have a2 : App (d +. num 1) (x + 1) (6.2 / 16777216) := h.add n1 (B := 3) (by norm_num) (abs_le.2 ⟨by linarith, by linarith⟩) (by norm_num) (by norm_num)
  have a4 : App (d -. num 1) (x - 1) (6.2 / 16777216) := h.sub n1 (B := 3) (by norm_num) (abs_le.2 ⟨by linarith, by linarith⟩) (by norm_num) (by norm_num)
  have m1 : max (x + 2) 0 ≤ 4 := max_le (by linarith) (by norm_num)
  have m2 : max (x + 1) 0 ≤ 3 := max_le (by linarith) (by norm_num)
  have m3 : max x 0 ≤ 2 := max_le (by linarith) (by norm_num)
  have m4 : max (x - 1) 0 ≤ 1 := max_le (by linarith) (by norm_num)
  have c1 := app_cube hp a1 m1 (by norm_num) (e' := 858 / 16777216) (by norm_num)
  have c2 := app_cube hp a2 m2 (by norm_num) (e' := 384 / 16777216) (by norm_num)
  have c3 := app_cube hp h m3 (by norm_num) (e' := 102 / 16777216) (by norm_num)
  have c4 := app_cube hp a4 m4 (by norm_num) (e' := 27 / 16777216) (by norm_num)
  have p1 : 0 ≤ max (x + 2) 0 ^ 3 ∧ max (x + 2) 0 ^ 3 ≤ 64 := ⟨by positivity, (pow_le_pow_left₀ (le_max_right _ _) m1 3).trans (by norm_num)⟩
  have p2 : 0 ≤ max (x + 1) 0 ^ 3 ∧ max (x + 1) 0 ^ 3 ≤ 27 := ⟨by positivity, (pow_le_pow_left₀ (le_max_right _ _) m2 3).trans (by norm_num)⟩
  have p3 : 0 ≤ max x 0 ^ 3 ∧ max x 0 ^ 3 ≤ 8 := ⟨by positivity, (pow_le_pow_left₀ (le_max_right _ _) m3 3).trans (by norm_num)⟩
  have p4 : 0 ≤ max (x - 1) 0 ^ 3 ∧ max (x - 1) 0 ^ 3 ≤ 1 := ⟨by positivity, (pow_le_pow_left₀ (le_max_right _ _) m4 3).trans (by norm_num)⟩
  unfold cubicWeightingFn truncCubes
  generalize max (x + 2) 0 ^ 3 = t1 at *
  generalize max (x + 1) 0 ^ 3 = t2 at *
  generalize max x 0 ^ 3 = t3 at *
  generalize max (x - 1) 0 ^ 3 = t4 at *
  have q2 := n4.mul c2 (B := 4) (C := 27) (e' := 1645 / 16777216) (by norm_num) (by rw [abs_of_nonneg p2.1]; exact p2.2) (by norm_num) (by norm_num) (by norm_num)
  have q3 := n6.mul c3 (B := 6) (C := 8) (e' := 661 / 16777216) (by norm_num) (by rw [abs_of_nonneg p3.1]; exact p3.2) (by norm_num) (by norm_num) (by norm_num)
  have q4 := n4.mul c4 (B := 4) (C := 1) (e' := 113 / 16777216) (by norm_num) (by rw [abs_of_nonneg p4.1]; exact p4.2) (by norm_num) (by norm_num) (by norm_num)
  have s1 := c1.sub q2 (B := 108) (e' := 2612 / 16777216) (by norm_num) (abs_le.2 ⟨by linarith [p1.1, p2.2], by linarith [p1.2, p2.1]⟩) (by norm_num) (by norm_num)
  have s2 := s1.add q3 (B := 112) (e' := 3386 / 16777216) (by norm_num) (abs_le.2 ⟨by linarith [p1.1, p2.2, p3.1], by linarith [p1.2, p2.1, p3.2]⟩) (by norm_num) (by norm_num)
  have s3 := s2.sub q4 (B := 112) (e' := 3612 / 16777216) (by norm_num)
    (abs_le.2 ⟨by linarith [p1.1, p2.2, p3.1, p4.2], by linarith [p1.2, p2.1, p3.2, p4.1]⟩) (by norm_num) (by norm_num)
  have six : App (num 1 /. num 6) (1 / 6) (0.17 / 16777216) := by
    have := n1.divN (n := 6) (B := 1 / 6) (by norm_num) (by norm_num) (by norm_num) (by norm_num) (by norm_num) (e' := 0.17 / 16777216) (by norm_num)
    simpa using this
  exact six.mul s3 (B := 1 / 6) (C := 112) (by norm_num)
    (abs_le.2 ⟨by linarith [p1.1, p2.2, p3.1, p4.2], by linarith [p1.2, p2.1, p3.2, p4.1]⟩) (by norm_num) (by norm_num) (by norm_num)

omit [Libm f32] in
/-- that combination is six times the B-spline -/
theorem truncCubes_eq {x : Rat} (h : x ≤ 2) : ((1 / 6 * truncCubes x : Rat) : ℝ) = cubicBSpline x := by
  rw [← cubicWeighting_eq (by exact_mod_cast h)]
  have t : ∀ y : ℝ, (max y 0) ^ 3 = if y ≤ 0 then 0 else y ^ 3 := by
    intro y
    split
    · rename_i h; rw [max_eq_right h]; norm_num
    · rename_i h; rw [max_eq_left (not_le.1 h).le]
  unfold cubicWeightingFn truncCubes
  simp only [clampZero_cube]
  simp only [Ideal.add_eq, Ideal.sub_eq, Ideal.mul_eq, Ideal.div_eq, Ideal.num_eq, ← t]
  push_cast
  ring

omit [Libm f32] in
theorem cubicBSpline_le (x : ℝ) : cubicBSpline x ≤ 2 / 3 := by
  unfold cubicBSpline
  have ha := abs_nonneg x
  split
  · rename_i h
    rw [← sq_abs]
    nlinarith [mul_nonneg ha ha, mul_nonneg (mul_nonneg ha ha) (by linarith : 0 ≤ 1 - |x|)]
  · split
    · rename_i h1 h2
      have h3 : 2 - |x| ≤ 1 := by linarith
      have h4 : 0 ≤ 2 - |x| := by linarith
      have := pow_le_pow_left₀ h4 h3 3
      linarith
    · norm_num

/-- spec: the fractional part of a position -/
def ratFrac (s : Rat) : Rat := s - s.floor

/-- spec: the column (or row) that lies `m` beyond the position `s`: `s + m` is rounded to a float, then down to a whole number, then
to the nearest column of the image -/
def f32Col (w : Nat) (s : Rat) (m : Int) : Nat := clampCol w (f32.rnd (s + m)).floor

omit [Libm f32] in
theorem ratFrac_bounds (s : Rat) : 0 ≤ ratFrac s ∧ ratFrac s < 1 := by
  unfold ratFrac
  have h1 : (s.floor : Rat) ≤ s := Rat.floor_le s
  have h2 : s < ((s.floor + 1 : Int) : Rat) := Rat.lt_floor_add_one s
  push_cast at h2
  exact ⟨by linarith, by linarith⟩

/-- what is computed from the coordinates: the column and the argument of the weight -/
theorem cubic_pos {f : F32} {q : Rat} (hf : f.Is q) (hq : 0 < q) {w : Nat} (hw : 0 < w) (hw' : w ≤ 16777216)
    (hsmall : (w : Rat) * q ≤ 4194304) {x : Nat} (hx : x < scaleDim w f) :
    App (ofNat x /. f -. FloatOps.floor (ofNat x /. f) : F32) (ratFrac (f32Pos q x)) (1 / 16777216) ∧
    ∀ (i : Int) (z : F32), |i| ≤ 100 → FloatOps.clamp (ofNat (F := F32) x /. f +. FloatOps.ofInt i) (num 0) (ofNat (F := F32) w -. num 1) = .ok z →
      toU32 z = f32Col w (f32Pos q x) i := by
  obtain ⟨p1, x24, p0, pb⟩ := pos_lt hf hq hw hw' hsmall hx
  have hd : (ofNat x /. f : F32).Is (f32Pos q x) := div_is (nat32 x24) hf hq.ne' (f32_ovf pb)
  have w24 : (w : Rat) ≤ 16777216 := by exact_mod_cast hw'
  generalize f32Pos q x = s at *
  obtain ⟨r0, r1⟩ := ratFrac_bounds s
  have fl0 : 0 ≤ s.floor := rat_le_floor.2 (by simpa using p0)
  have fl1 : s.floor < w := rat_floor_lt.2 (by simpa using p1)
  have hfl := floor_is hd (f32_int (by rw [abs_le]; omega))
  refine ⟨?_, ?_⟩
  · exact (App.exact hd).sub (App.exact hfl) (B := 1) (by norm_num) (by
      show |ratFrac s| ≤ 1
      rw [abs_of_nonneg r0]; exact r1.le) (by norm_num) (by norm_num)
  · intro i z hi hz
    have hi' : |(i : Rat)| ≤ 100 := by exact_mod_cast hi
    have hi : (FloatOps.ofInt i : F32).Is (i : Rat) := num32 (n := i) (by omega)
    have ha : (ofNat (F := F32) x /. f +. FloatOps.ofInt i).Is (f32.rnd (s + i)) := by
      refine add_is hd hi (f32_ovf ?_)
      have := abs_add_le s (i : Rat)
      rw [abs_of_nonneg p0] at this
      have : (20000000 : Rat) ≤ 2 ^ 100 := by norm_num
      linarith
    unfold f32Col
    generalize f32.rnd (s + i) = r at *
    have hz0 : (num 0 : F32).Is ((0 : Int) : Rat) := num32 (by decide)
    have hN : (ofNat (F := F32) w -. num 1).Is (((w : Int) - 1 : Int) : Rat) := by
      have := sub_exact (nat32 hw') (num32 (n := 1) (by decide)) (by
        rw [show ((w : Nat) : Rat) = ((w : Int) : Rat) by push_cast; rfl, ← Int.cast_sub]; exact f32_int (by rw [abs_le]; omega))
      rwa [show ((w : Nat) : Rat) - ((1 : Int) : Rat) = (((w : Int) - 1 : Int) : Rat) by push_cast; rfl] at this
    have hle : ((0 : Int) : Rat) ≤ (((w : Int) - 1 : Int) : Rat) := by exact_mod_cast (by omega : (0 : Int) ≤ (w : Int) - 1)
    obtain ⟨z', ez, hz'⟩ := clamp_is ha hz0 hN hle
    rw [hz] at ez
    cases ez
    have l0 : (0 : Rat) ≤ max ((0 : Int) : Rat) (min (((w : Int) - 1 : Int) : Rat) r) := le_max_of_le_left (by simp)
    have l1 : max ((0 : Int) : Rat) (min (((w : Int) - 1 : Int) : Rat) r) < w :=
      lt_of_le_of_lt (max_le hle (min_le_left _ _)) (by push_cast; linarith)
    have key := (toU32_is hz' l0 l1 (by omega)).2
    have : (toU32 z : Int) = (clampCol w r.floor : Int) := by
      rw [key]
      unfold clampCol
      rw [Int.toNat_of_nonneg (le_max_left _ _)]
      have mono : ∀ {a b : Rat}, a ≤ b → a.floor ≤ b.floor := fun {a b} h => rat_le_floor.2 ((Rat.floor_le a).trans h)
      have int : ∀ n : Int, ((n : Rat)).floor = n := fun n => Rat.floor_intCast n
      rcases le_total (((w : Int) - 1 : Int) : Rat) r with h | h
      · rw [min_eq_left h, max_eq_right hle, int]
        have := mono h
        rw [int] at this
        omega
      · rw [min_eq_right h]
        have := mono h
        rw [int] at this
        rcases le_total ((0 : Int) : Rat) r with h' | h'
        · have := mono h'
          rw [int] at this
          rw [max_eq_right h']; omega
        · have := mono h'
          rw [int] at this
          rw [max_eq_left h', int]; omega
    exact_mod_cast this

/-- spec: the 4 x 4 pixels around the position (s, t), weighted by the B-spline of their distances to it -/
noncomputable def splineSum (v : Nat → Nat → Rat) (w h : Nat) (s t : Rat) : ℝ :=
  ∑ m ∈ range 4, ∑ n ∈ range 4, (v (f32Col w s ((m : Int) - 1)) (f32Col h t ((n : Int) - 1)) : ℝ) *
    (cubicBSpline ((m : ℝ) - 1 - (ratFrac s : Rat)) * cubicBSpline ((n : ℝ) - 1 - (ratFrac t : Rat)))

/-- the rational weight of tap `m` -/
def cubicW (s : Rat) (m : Nat) : Rat := 1 / 6 * truncCubes ((m : Rat) - 1 - ratFrac s)

omit [Libm f32] in
theorem cubicW_real (s : Rat) {m : Nat} (hm : m < 4) : ((cubicW s m : Rat) : ℝ) = cubicBSpline ((m : ℝ) - 1 - (ratFrac s : Rat)) := by
  unfold cubicW
  have hm' : (m : Rat) ≤ 3 := by exact_mod_cast (by omega : m ≤ 3)
  rw [truncCubes_eq (by linarith [(ratFrac_bounds s).1])]
  push_cast; rfl

omit [Libm f32] in
theorem cubicW_bounds (s : Rat) {m : Nat} (hm : m < 4) : 0 ≤ cubicW s m ∧ cubicW s m ≤ 2 / 3 := by
  have h1 := cubicBSpline_nonneg ((m : ℝ) - 1 - (ratFrac s : Rat))
  have h2 := cubicBSpline_le ((m : ℝ) - 1 - (ratFrac s : Rat))
  rw [← cubicW_real s hm] at h1 h2
  exact ⟨by exact_mod_cast h1, by
    have : ((cubicW s m : Rat) : ℝ) ≤ ((2 / 3 : Rat) : ℝ) := by push_cast; exact h2
    exact_mod_cast this⟩

omit [Libm f32] in
theorem cubicW_sum (s : Rat) : ∑ m ∈ range 4, cubicW s m = 1 := by
  have b := ratFrac_bounds s
  have := cubicBSpline_sum (t := (ratFrac s : Rat)) (by exact_mod_cast b.1) (by exact_mod_cast b.2)
  have e : ((∑ m ∈ range 4, cubicW s m : Rat) : ℝ) = 1 := by
    rw [← this]
    simp only [Finset.sum_range_succ, Finset.sum_range_zero, zero_add]
    push_cast
    rw [cubicW_real s (by decide), cubicW_real s (by decide), cubicW_real s (by decide), cubicW_real s (by decide)]
    norm_num
  exact_mod_cast e

/-- the weight of one tap -/
theorem bicubicWeight_err (hp : CubeAccurate) {f g : F32} {q r : Rat} (hf : f.Is q) (hq : 0 < q) (hg : g.Is r) (hr : 0 < r) {w h : Nat}
    (hw : 0 < w) (hw' : w ≤ 16777216) (hws : (w : Rat) * q ≤ 4194304) (hh : 0 < h) (hh' : h ≤ 16777216) (hhs : (h : Rat) * r ≤ 4194304)
    {x y : Nat} (hx : x < scaleDim w f) (hy : y < scaleDim h g) {m n : Nat} (hm : m < 4) (hn : n < 4) :
    App (bicubicWeight f g x y (-1 + (m : Int)) (-1 + (n : Int))) (cubicW (f32Pos q x) m * cubicW (f32Pos r y) n) (855 / 16777216) := by
  obtain ⟨dx, -⟩ := cubic_pos hf hq hw hw' hws hx
  obtain ⟨dy, -⟩ := cubic_pos hg hr hh hh' hhs hy
  generalize f32Pos q x = s at *
  generalize f32Pos r y = t at *
  have bs := ratFrac_bounds s
  have bt := ratFrac_bounds t
  have hm' : (m : Rat) ≤ 3 := by exact_mod_cast (by omega : m ≤ 3)
  have hn' : (n : Rat) ≤ 3 := by exact_mod_cast (by omega : n ≤ 3)
  have hm0 : (0 : Rat) ≤ m := by positivity
  have hn0 : (0 : Rat) ≤ n := by positivity
  have im : App (FloatOps.ofInt (-1 + (m : Int)) : F32) ((m : Rat) - 1) 0 := by
    have := App.num (n := -1 + (m : Int)) (by rw [abs_le]; omega)
    push_cast at this
    rw [show (-1 : Rat) + m = m - 1 by ring] at this
    exact this
  have jn : App (FloatOps.ofInt (-1 + (n : Int)) : F32) ((n : Rat) - 1) 0 := by
    have := App.num (n := -1 + (n : Int)) (by rw [abs_le]; omega)
    push_cast at this
    rw [show (-1 : Rat) + n = n - 1 by ring] at this
    exact this
  have ax := im.sub dx (B := 2) (e' := 3.1 / 16777216) (by norm_num) (abs_le.2 ⟨by linarith, by linarith⟩) (by norm_num) (by norm_num)
  have ay := dy.sub jn (B := 2) (e' := 3.1 / 16777216) (by norm_num) (abs_le.2 ⟨by linarith, by linarith⟩) (by norm_num) (by norm_num)
  have wx := cubicWeighting_err hp ax (by linarith) (by linarith)
  have wy := cubicWeighting_err hp ay (by linarith) (by linarith)
  have even : 1 / 6 * truncCubes (ratFrac t - ((n : Rat) - 1)) = cubicW t n := by
    have : ((1 / 6 * truncCubes (ratFrac t - ((n : Rat) - 1)) : Rat) : ℝ) = cubicW t n := by
      rw [truncCubes_eq (by linarith), cubicW_real t hn, ← cubicBSpline_neg]
      congr 1
      push_cast; ring
    exact_mod_cast this
  rw [even] at wy
  change App _ (cubicW s m) _ at wx
  have b1 := cubicW_bounds s hm
  have b2 := cubicW_bounds t hn
  unfold bicubicWeight
  exact wx.mul wy (B := 2 / 3) (C := 2 / 3) (by rw [abs_of_nonneg b1.1]; exact b1.2) (by rw [abs_of_nonneg b2.1]; exact b2.2)
    (by norm_num) (by norm_num) (by norm_num)

/-- the sum of the sixteen taps -/
theorem cubicTaps_err {M : Rat} (h0 : 1 / 2 ^ 100 ≤ M) (h1 : M ≤ 2 ^ 96) {v w : Nat → Nat → F32} {a : Nat → Nat → Rat} {s t : Rat}
    (hv : ∀ m n, m < 4 → n < 4 → (v m n).Is (a m n)) (ha : ∀ m n, m < 4 → n < 4 → |a m n| ≤ M)
    (hw : ∀ m n, m < 4 → n < 4 → App (w m n) (cubicW s m * cubicW t n) (855 / 16777216)) :
    ∃ b, (tapFold 4 4 v w).Is b ∧ |b - ∑ m ∈ range 4, ∑ n ∈ range 4, a m n * (cubicW s m * cubicW t n)| ≤ M / 2 ^ 10 := by
  have M0 : 0 < M := lt_of_lt_of_le (by positivity) h0
  have hw' : ∀ m n, ∃ b : Rat, m < 4 → n < 4 → (w m n).Is b ∧ |b - cubicW s m * cubicW t n| ≤ 855 / 16777216 := by
    intro m n
    by_cases h : m < 4 ∧ n < 4
    · obtain ⟨b, hb⟩ := hw m n h.1 h.2
      exact ⟨b, fun _ _ => hb⟩
    · exact ⟨0, fun h1 h2 => absurd ⟨h1, h2⟩ h⟩
  choose b hb using hw'
  have one : ∑ m ∈ range 4, ∑ n ∈ range 4, cubicW s m * cubicW t n = 1 := by
    rw [← Finset.sum_mul_sum, cubicW_sum, cubicW_sum, one_mul]
  have S : ∑ m ∈ range 4, ∑ n ∈ range 4, |a m n * b m n| ≤ M * (1 + 16 * (855 / 16777216)) := by
    calc _ ≤ ∑ m ∈ range 4, ∑ n ∈ range 4, M * (cubicW s m * cubicW t n + 855 / 16777216) := by
          refine Finset.sum_le_sum fun m hm => Finset.sum_le_sum fun n hn => ?_
          have hm := Finset.mem_range.1 hm
          have hn := Finset.mem_range.1 hn
          rw [abs_mul]
          refine mul_le_mul (ha m n hm hn) ?_ (abs_nonneg _) M0.le
          have := (hb m n hm hn).2
          have t1 := abs_add_le (b m n - cubicW s m * cubicW t n) (cubicW s m * cubicW t n)
          rw [sub_add_cancel, abs_of_nonneg (mul_nonneg (cubicW_bounds s hm).1 (cubicW_bounds t hn).1)] at t1
          linarith
      _ = _ := by
          have : ∑ m ∈ range 4, ∑ n ∈ range 4, M * (cubicW s m * cubicW t n + 855 / 16777216) =
              M * ((∑ m ∈ range 4, ∑ n ∈ range 4, cubicW s m * cubicW t n) + ∑ m ∈ range 4, ∑ n ∈ range 4, 855 / 16777216) := by
            simp only [Finset.mul_sum, ← Finset.sum_add_distrib, mul_add]
          rw [this, one]
          simp only [Finset.sum_const, Finset.card_range]
          norm_num
  obtain ⟨r, hr, er⟩ := tapFold_err (K := 4) (M := 4) (by norm_num) hv (fun m n hm hn => (hb m n hm hn).1) (by
    refine S.trans ?_
    have : (2 : Rat) ^ 96 * 2 ≤ 2 ^ 97 := by norm_num
    nlinarith)
  refine ⟨r, hr, ?_⟩
  have d : |∑ m ∈ range 4, ∑ n ∈ range 4, a m n * b m n - ∑ m ∈ range 4, ∑ n ∈ range 4, a m n * (cubicW s m * cubicW t n)| ≤
      M * (16 * (855 / 16777216)) := by
    simp only [← Finset.sum_sub_distrib]
    calc _ ≤ ∑ m ∈ range 4, ∑ n ∈ range 4, M * (855 / 16777216 : Rat) := by
          refine (Finset.abs_sum_le_sum_abs _ _).trans (Finset.sum_le_sum fun m hm => (Finset.abs_sum_le_sum_abs _ _).trans (Finset.sum_le_sum fun n hn => ?_))
          have hm := Finset.mem_range.1 hm
          have hn := Finset.mem_range.1 hn
          rw [← mul_sub, abs_mul]
          exact mul_le_mul (ha m n hm hn) (hb m n hm hn).2 (abs_nonneg _) M0.le
      _ = _ := by simp only [Finset.sum_const, Finset.card_range]; norm_num; ring
  have t1 := abs_sub_le r (∑ m ∈ range 4, ∑ n ∈ range 4, a m n * b m n) (∑ m ∈ range 4, ∑ n ∈ range 4, a m n * (cubicW s m * cubicW t n))
  have t2 : ((16 : Rat) + 1) / 2 ^ 23 * ∑ m ∈ range 4, ∑ n ∈ range 4, |a m n * b m n| ≤ (16 + 1) / 2 ^ 23 * (M * (1 + 16 * (855 / 16777216))) :=
    mul_le_mul_of_nonneg_left S (by norm_num)
  have t3 : (16 : Rat) / 2 ^ 147 ≤ M / 2 ^ 40 := by
    have : (1 / 2 ^ 100 : Rat) / 2 ^ 40 ≤ M / 2 ^ 40 := div_le_div_of_nonneg_right h0 (by positivity)
    refine le_trans ?_ this
    norm_num
  norm_num at er t2 t3 d ⊢
  linarith

/-- **C114** (f32) What bicubic scaling computes, for every factor: the output pixel at (x, y) is, to within 2^-10 of the largest value,
the sum of the 4 x 4 pixels around the position (x / xf, y / yf) (each coordinate rounded to a float), weighted by the cubic B-spline
of their distances. The only assumption about the platform is that `powf` computes cubes accurately. -/
theorem c114_bicubic_value (hp : CubeAccurate) (P : Profile) {img : Image F32} (h : ScaleInput img) {xf yf : F32} {qx qy : Rat}
    (hx : xf.Is qx) (hy : yf.Is qy) (hqx : 0 < qx) (hqy : 0 < qy)
    (hw : (img.info.width : Rat) * qx ≤ 4194304) (hh : (img.info.height : Rat) * qy ≤ 4194304)
    (hout : OutFits img xf yf) {v : Nat → Nat → Nat → Rat} (hv : img.Numbers v) {M : Rat} (m0 : 1 / 2 ^ 100 ≤ M) (m1 : M ≤ 2 ^ 96)
    (hM : ∀ x y c, x < img.info.width → y < img.info.height → c < img.info.channels → |v x y c| ≤ M) :
    ∃ out, scale P img xf yf .bicubic = .ok out ∧ out.WF ∧
      out.info = ⟨scaleDim img.info.width xf, scaleDim img.info.height yf, img.info.channels, img.info.alpha⟩ ∧
      ∀ x y c, x < out.info.width → y < out.info.height → c < img.info.channels →
        ∃ b : Rat, ((out.px x y).getD c (num 0)).Is b ∧
          |(b : ℝ) - splineSum (fun i j => v i j c) img.info.width img.info.height (f32Pos qx x) (f32Pos qy y)| ≤ M / 2 ^ 10 := by
  choose X hX1 hX2 using fun (x : Nat) (i : Int) => scaleClampCoord (x := ofNat (F := F32) x /. xf +. FloatOps.ofInt i) h.width h.width'
  choose Y hY1 hY2 using fun (y : Nat) (i : Int) => scaleClampCoord (x := ofNat (F := F32) y /. yf +. FloatOps.ofInt i) h.height h.height'
  obtain ⟨out, e, ho⟩ := scale_core P (checkNonNeg_is hx hqx.le) (checkNonNeg_is hy hqy.le) rfl rfl
    (hout.info h.wf.channels) (m := .bicubic) _ (fun x y h1 h2 => by simp) (fun x y h1 h2 =>
      taps_ok P h.wf (-1) 3
      (fun i => FloatOps.clamp (ofNat (F := F32) x /. xf +. FloatOps.ofInt i) (num 0) (ofNat (F := F32) img.info.width -. num 1))
      (fun i => FloatOps.clamp (ofNat (F := F32) y /. yf +. FloatOps.ofInt i) (num 0) (ofNat (F := F32) img.info.height -. num 1))
      (bicubicWeight xf yf x y) (fun i => toU32 (X x i)) (fun i => toU32 (Y y i)) (hX2 x) (hY2 y)
      (fun i => ⟨X x i, hX1 x i, rfl⟩) (fun i => ⟨Y y i, hY1 y i, rfl⟩))
  refine ⟨out, e, ho.1, ho.2.1, fun x y c h1 h2 hc => ?_⟩
  rw [ho.2.1] at h1 h2
  have cx := (cubic_pos hx hqx h.width h.width' hw h1).2
  have cy := (cubic_pos hy hqy h.height h.height' hh h2).2
  rw [ho.px_eq h1 h2, List.getD_eq_getElem?_getD, List.getElem?_map, List.getElem?_range hc]
  simp only [Option.map_some, Option.getD_some]
  have colx : ∀ m : Nat, m < 4 → toU32 (X x (-1 + (m : Int))) = f32Col img.info.width (f32Pos qx x) ((m : Int) - 1) := by
    intro m hm
    rw [cx _ _ (by rw [abs_le]; omega) (hX1 x _), show (-1 : Int) + m = m - 1 by ring]
  have coly : ∀ m : Nat, m < 4 → toU32 (Y y (-1 + (m : Int))) = f32Col img.info.height (f32Pos qy y) ((m : Int) - 1) := by
    intro m hm
    rw [cy _ _ (by rw [abs_le]; omega) (hY1 y _), show (-1 : Int) + m = m - 1 by ring]
  have bx : ∀ s i, f32Col img.info.width s i < img.info.width := fun s i => clampCol_lt h.width _
  have by' : ∀ s i, f32Col img.info.height s i < img.info.height := fun s i => clampCol_lt h.height _
  obtain ⟨b, hb, eb⟩ := cubicTaps_err m0 m1
    (a := fun m n => v (f32Col img.info.width (f32Pos qx x) ((m : Int) - 1)) (f32Col img.info.height (f32Pos qy y) ((n : Int) - 1)) c)
    (v := fun m n => (img.px (toU32 (X x (-1 + (m : Int)))) (toU32 (Y y (-1 + (n : Int))))).getD c (num 0))
    (w := fun m n => bicubicWeight xf yf x y (-1 + (m : Int)) (-1 + (n : Int))) (s := f32Pos qx x) (t := f32Pos qy y)
    (fun m n hm hn => by rw [colx m hm, coly n hn]; exact hv _ _ _ (bx _ _) (by' _ _) hc)
    (fun m n hm hn => hM _ _ _ (bx _ _) (by' _ _) hc)
    (fun m n hm hn => bicubicWeight_err hp hx hqx hy hqy h.width h.width' hw h.height h.height' hh h1 h2 hm hn)
  refine ⟨b, hb, ?_⟩
  have e2 : ((∑ m ∈ range 4, ∑ n ∈ range 4, v (f32Col img.info.width (f32Pos qx x) ((m : Int) - 1))
      (f32Col img.info.height (f32Pos qy y) ((n : Int) - 1)) c * (cubicW (f32Pos qx x) m * cubicW (f32Pos qy y) n) : Rat) : ℝ) =
      splineSum (fun i j => v i j c) img.info.width img.info.height (f32Pos qx x) (f32Pos qy y) := by
    unfold splineSum
    push_cast
    refine Finset.sum_congr rfl fun m hm => Finset.sum_congr rfl fun n hn => ?_
    rw [cubicW_real _ (Finset.mem_range.1 hm), cubicW_real _ (Finset.mem_range.1 hn)]
  rw [← e2, ← Rat.cast_sub, ← Rat.cast_abs]
  have := (Rat.cast_le (K := ℝ)).2 eb
  push_cast at this ⊢
  exact this

omit [Libm f32] in
/-- the weighted sum lies between the bounds of the values -/
theorem splineSum_between {v : Nat → Nat → Rat} {w h : Nat} (hw : 0 < w) (hh : 0 < h) {lo hi : Rat}
    (hv : ∀ x y, x < w → y < h → lo ≤ v x y ∧ v x y ≤ hi) (s t : Rat) :
    (lo : ℝ) ≤ splineSum v w h s t ∧ splineSum v w h s t ≤ (hi : ℝ) := by
  have one : ∀ r : ℝ, ∑ m ∈ range 4, ∑ n ∈ range 4, r *
      (cubicBSpline ((m : ℝ) - 1 - (ratFrac s : Rat)) * cubicBSpline ((n : ℝ) - 1 - (ratFrac t : Rat))) = r := by
    have h1 : ∀ s : Rat, ∑ m ∈ range 4, cubicBSpline ((m : ℝ) - 1 - (ratFrac s : Rat)) = 1 := by
      intro s
      have := congrArg (fun z : Rat => (z : ℝ)) (cubicW_sum s)
      push_cast at this
      refine Eq.trans ?_ this
      exact Finset.sum_congr rfl fun m hm => (cubicW_real s (Finset.mem_range.1 hm)).symm
    intro r
    simp only [← Finset.mul_sum]
    rw [h1 t]
    simp only [mul_one]
    rw [h1 s, mul_one]
  have w0 : ∀ m n : Nat, 0 ≤ cubicBSpline ((m : ℝ) - 1 - (ratFrac s : Rat)) * cubicBSpline ((n : ℝ) - 1 - (ratFrac t : Rat)) :=
    fun m n => mul_nonneg (cubicBSpline_nonneg _) (cubicBSpline_nonneg _)
  have hb := fun m n : Nat => hv (f32Col w s ((m : Int) - 1)) (f32Col h t ((n : Int) - 1)) (clampCol_lt hw _) (clampCol_lt hh _)
  unfold splineSum
  constructor
  · rw [← one (lo : ℝ)]
    exact Finset.sum_le_sum fun m _ => Finset.sum_le_sum fun n _ => mul_le_mul_of_nonneg_right (by exact_mod_cast (hb m n).1) (w0 m n)
  · rw [← one (hi : ℝ)]
    exact Finset.sum_le_sum fun m _ => Finset.sum_le_sum fun n _ => mul_le_mul_of_nonneg_right (by exact_mod_cast (hb m n).2) (w0 m n)

/-- **C114** (f32) Bicubic scaling does not overshoot: if all values of a channel lie between `lo` and `hi`, so do all output values, up
to 2^-10 of the largest absolute value. -/
theorem c114_bicubic_range (hp : CubeAccurate) (P : Profile) {img : Image F32} (h : ScaleInput img) {xf yf : F32} {qx qy : Rat}
    (hx : xf.Is qx) (hy : yf.Is qy) (hqx : 0 < qx) (hqy : 0 < qy)
    (hw : (img.info.width : Rat) * qx ≤ 4194304) (hh : (img.info.height : Rat) * qy ≤ 4194304)
    (hout : OutFits img xf yf) {v : Nat → Nat → Nat → Rat} (hv : img.Numbers v) {M : Rat} (m0 : 1 / 2 ^ 100 ≤ M) (m1 : M ≤ 2 ^ 96)
    (hM : ∀ x y c, x < img.info.width → y < img.info.height → c < img.info.channels → |v x y c| ≤ M) :
    ∃ out, scale P img xf yf .bicubic = .ok out ∧
      ∀ c lo hi, c < img.info.channels →
        (∀ x y, x < img.info.width → y < img.info.height → lo ≤ v x y c ∧ v x y c ≤ hi) →
        ∀ x y, x < out.info.width → y < out.info.height →
          ∃ b, ((out.px x y).getD c (num 0)).Is b ∧ lo - M / 2 ^ 10 ≤ b ∧ b ≤ hi + M / 2 ^ 10 := by
  obtain ⟨out, e, -, -, ho⟩ := c114_bicubic_value hp P h hx hy hqx hqy hw hh hout hv m0 m1 hM
  refine ⟨out, e, fun c lo hi hc hb x y h1 h2 => ?_⟩
  obtain ⟨b, hb', he⟩ := ho x y c h1 h2 hc
  obtain ⟨k1, k2⟩ := splineSum_between h.width h.height hb (f32Pos qx x) (f32Pos qy y)
  rw [abs_le] at he
  refine ⟨b, hb', ?_, ?_⟩
  · have : ((lo - M / 2 ^ 10 : Rat) : ℝ) ≤ (b : ℝ) := by push_cast; linarith
    exact_mod_cast this
  · have : (b : ℝ) ≤ ((hi + M / 2 ^ 10 : Rat) : ℝ) := by push_cast; linarith
    exact_mod_cast this

/-- **C114** (f32) Bicubic scaling of a constant image gives the constant, up to a relative 2^-10. -/
theorem c114_bicubic_constant (hp : CubeAccurate) (P : Profile) {img : Image F32} (h : ScaleInput img) {xf yf : F32} {qx qy : Rat}
    (hx : xf.Is qx) (hy : yf.Is qy) (hqx : 0 < qx) (hqy : 0 < qy)
    (hw : (img.info.width : Rat) * qx ≤ 4194304) (hh : (img.info.height : Rat) * qy ≤ 4194304)
    (hout : OutFits img xf yf) {q : Rat} (q0 : 1 / 2 ^ 100 ≤ |q|) (q1 : |q| ≤ 2 ^ 96) (hv : img.Numbers fun _ _ _ => q) :
    ∃ out, scale P img xf yf .bicubic = .ok out ∧ ∀ x y c, x < out.info.width → y < out.info.height → c < img.info.channels →
      ∃ b, ((out.px x y).getD c (num 0)).Is b ∧ |b - q| ≤ |q| / 2 ^ 10 := by
  obtain ⟨out, e, ho⟩ := c114_bicubic_range hp P h hx hy hqx hqy hw hh hout hv q0 q1 (fun _ _ _ _ _ _ => le_refl _)
  refine ⟨out, e, fun x y c h1 h2 hc => ?_⟩
  obtain ⟨b, hb, e1, e2⟩ := ho c q q hc (fun _ _ _ _ => ⟨le_refl _, le_refl _⟩) x y h1 h2
  exact ⟨b, hb, abs_le.2 ⟨by linarith, by linarith⟩⟩
end

/-! ### the hypotheses are met -/

/-- a platform whose `powf` rounds cubes correctly -/
@[reducible] def cubeLibm : Libm f32 where
  pow x _ := match x.val.toQ? with | some a => Flt.ofRat f32 (a ^ 3) | none => x
  sin := id
  cos := id

theorem cubeLibm_spec : @CubeAccurate cubeLibm := by
  intro x y a hx _ h0 h1
  have hx' : x.val.toQ? = some a := hx
  have e : (@FloatOps.pow F32 (@instFloatOpsFlt f32 cubeLibm) x y) = Flt.ofRat f32 (a ^ 3) := by
    show cubeLibm.pow x y = _
    unfold cubeLibm
    simp only [hx']
  have a3 : a ^ 3 ≤ 8 ^ 3 := pow_le_pow_left₀ h0 h1 3
  have a0 : 0 ≤ a ^ 3 := by positivity
  refine ⟨f32.rnd (a ^ 3), ?_, ?_⟩
  · rw [e]
    refine Flt.ofRat_is (f32_ovf ?_)
    rw [abs_of_nonneg a0]
    exact a3.trans (by norm_num)
  · have := rnd_err_add (a ^ 3)
    rw [abs_of_nonneg a0] at this
    refine this.trans (add_le_add (div_le_div_of_nonneg_left a0 (by norm_num) (by norm_num)) (by norm_num))

example (P : Profile) : letI := cubeLibm
    ∃ out, scale P (gray6 (num 7) (num 7) (num 7) (num 7) (num 7) (num 7)) (num 2) (num 2) .bicubic = .ok out ∧
    ∀ x y c, x < out.info.width → y < out.info.height → c < 1 → ∃ b, ((out.px x y).getD c (num 0 : F32)).Is b ∧ |b - 7| ≤ |7| / 2 ^ 10 := by
  let := cubeLibm
  have h2 : (num 2 : F32).Is 2 := by simpa using num32 (n := 2) (by decide)
  have h7 : (num 7 : F32).Is 7 := by simpa using num32 (n := 7) (by decide)
  refine c114_bicubic_constant cubeLibm_spec P (gray6_scaleInput ..) h2 h2 (by norm_num) (by norm_num)
    (by show ((3 : Nat) : Rat) * 2 ≤ _; norm_num) (by show ((2 : Nat) : Rat) * 2 ≤ _; norm_num) (gray6_outFits ..) (by norm_num) (by norm_num) ?_
  intro x y c hx hy hc
  have hx : x < 3 := hx
  have hy : y < 2 := hy
  have hc : c = 0 := Nat.lt_one_iff.1 hc
  subst hc
  interval_cases x <;> interval_cases y <;> exact h7
end Imgproc

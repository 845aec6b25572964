import Verif.Props.Summed
import Verif.Props.FilterErr
/-! Property C123: summed-area tables in f32, for any numbers. -/
namespace Imgproc
open FloatOps Finset

/-- the numbers computed by `generate_summed_area_table` for one channel, rounding after every operation -/
def satQ (v : Nat → Nat → Rat) : Nat → Nat → Rat
  | 0, _ => 0
  | _ + 1, 0 => 0
  | x + 1, y + 1 => f32.rnd (f32.rnd (f32.rnd (v x y + satQ v (x + 1) y) + satQ v x (y + 1)) - satQ v x y)
termination_by x y => (x, y)

theorem satQ_zero_left (v : Nat → Nat → Rat) (y : Nat) : satQ v 0 y = 0 := by rw [satQ]
theorem satQ_zero_right (v : Nat → Nat → Rat) (x : Nat) : satQ v x 0 = 0 := by cases x <;> rw [satQ]
theorem satQ_succ (v : Nat → Nat → Rat) (x y : Nat) :
    satQ v (x + 1) (y + 1) = f32.rnd (f32.rnd (f32.rnd (v x y + satQ v (x + 1) y) + satQ v x (y + 1)) - satQ v x y) := by rw [satQ]

/-- the rounding error committed at one entry -/
def satDelta (v : Nat → Nat → Rat) (x y : Nat) : Rat :=
  satQ v (x + 1) (y + 1) - (v x y + satQ v (x + 1) y + satQ v x (y + 1) - satQ v x y)

/-- the error of an entry is the sum of the rounding errors committed above and to the left of it -/
theorem satQ_eq (v : Nat → Nat → Rat) : ∀ X Y, satQ v X Y = boxSum v X Y + boxSum (satDelta v) X Y
  | 0, Y => by rw [satQ_zero_left, boxSum_zero_left, boxSum_zero_left, add_zero]
  | X + 1, 0 => by rw [satQ_zero_right, boxSum_zero_right, boxSum_zero_right, add_zero]
  | X + 1, Y + 1 => by
    have h1 := satQ_eq v (X + 1) Y
    have h2 := satQ_eq v X (Y + 1)
    have h3 := satQ_eq v X Y
    have e : satQ v (X + 1) (Y + 1) = satDelta v X Y + (v X Y + satQ v (X + 1) Y + satQ v X (Y + 1) - satQ v X Y) := by
      unfold satDelta; ring
    rw [boxSum_succ v, boxSum_succ (satDelta v), e]
    linarith
termination_by X Y => (X, Y)

theorem boxSum_absQ (v : Nat → Nat → Rat) (X Y : Nat) : |boxSum v X Y| ≤ boxSum (fun i j => |v i j|) X Y := by
  unfold boxSum
  exact (abs_sum_le_sum_abs _ _).trans (sum_le_sum fun _ _ => abs_sum_le_sum_abs _ _)

theorem boxSum_monoQ {v : Nat → Nat → Rat} (hv : ∀ i j, 0 ≤ v i j) {X Y X' Y' : Nat} (hX : X ≤ X') (hY : Y ≤ Y') :
    boxSum v X Y ≤ boxSum v X' Y' := by
  unfold boxSum
  calc ∑ i ∈ range X, ∑ j ∈ range Y, v i j ≤ ∑ i ∈ range X', ∑ j ∈ range Y, v i j :=
        sum_le_sum_of_subset_of_nonneg (range_subset_range.2 hX) fun _ _ _ => sum_nonneg fun _ _ => hv _ _
    _ ≤ _ := sum_le_sum fun _ _ => sum_le_sum_of_subset_of_nonneg (range_subset_range.2 hY) fun _ _ _ => hv _ _

theorem boxSum_const {v : Nat → Nat → Rat} {D : Rat} {X Y : Nat} (h : ∀ i j, i < X → j < Y → |v i j| ≤ D) :
    |boxSum v X Y| ≤ X * Y * D := by
  refine (boxSum_absQ v X Y).trans ?_
  unfold boxSum
  calc ∑ i ∈ range X, ∑ j ∈ range Y, |v i j| ≤ ∑ i ∈ range X, ∑ j ∈ range Y, D :=
        sum_le_sum fun i hi => sum_le_sum fun j hj => h i j (mem_range.1 hi) (mem_range.1 hj)
    _ = X * Y * D := by simp; ring

theorem boxSum_entry {v : Nat → Nat → Rat} {X Y x y : Nat} (hx : x < X) (hy : y < Y) : |v x y| ≤ boxSum (fun i j => |v i j|) X Y := by
  unfold boxSum
  calc |v x y| ≤ ∑ j ∈ range Y, |v x j| := single_le_sum (f := fun j => |v x j|) (fun _ _ => abs_nonneg _) (mem_range.2 hy)
    _ ≤ _ := single_le_sum (f := fun i => ∑ j ∈ range Y, |v i j|) (fun _ _ => sum_nonneg fun _ _ => abs_nonneg _) (mem_range.2 hx)

/-- three roundings -/
theorem three_rnd {a b c d B : Rat} (hB : 1 / 2 ^ 100 ≤ B) (ha : |a| ≤ B) (hb : |b| ≤ 2 * B) (hc : |c| ≤ 2 * B) (hd : |d| ≤ 2 * B) :
    |f32.rnd (f32.rnd (f32.rnd (a + b) + c) - d) - (a + b + c - d)| ≤ B / 2 ^ 20 ∧ |a + b| ≤ 3 * B ∧ |f32.rnd (a + b) + c| ≤ 6 * B ∧
      |f32.rnd (f32.rnd (a + b) + c) - d| ≤ 9 * B := by
  have t : (1 : Rat) / 2 ^ 150 ≤ B / 2 ^ 50 := by
    have : (1 : Rat) / 2 ^ 150 = 1 / 2 ^ 100 / 2 ^ 50 := by norm_num
    rw [this]; gcongr
  have B0 : 0 < B := lt_of_lt_of_le (by norm_num) hB
  have h1 := abs_add_le a b
  have e1 := rnd_err_add (a + b)
  generalize f32.rnd (a + b) = r1 at *
  have h2 := abs_add_le (r1 - (a + b)) ((a + b) + c)
  rw [show r1 - (a + b) + ((a + b) + c) = r1 + c by ring] at h2
  have h3 := abs_add_le (a + b) c
  have e2 := rnd_err_add (r1 + c)
  generalize f32.rnd (r1 + c) = r2 at *
  have h4 := abs_sub (r2 - (r1 + c)) (d - (r1 + c))
  rw [show r2 - (r1 + c) - (d - (r1 + c)) = r2 - d by ring] at h4
  have h5 := abs_sub d (r1 + c)
  have e3 := rnd_err_add (r2 - d)
  generalize f32.rnd (r2 - d) = r3 at *
  have h6 := abs_add_le ((r3 - (r2 - d)) + (r2 - (r1 + c))) (r1 - (a + b))
  have h7 := abs_add_le (r3 - (r2 - d)) (r2 - (r1 + c))
  rw [show r3 - (r2 - d) + (r2 - (r1 + c)) + (r1 - (a + b)) = r3 - (a + b + c - d) by ring] at h6
  generalize |a + b| = A1 at *
  generalize |r1 + c| = A2 at *
  generalize |r2 - d| = A3 at *
  generalize |r1 - (a + b)| = E1 at *
  generalize |r2 - (r1 + c)| = E2 at *
  generalize |r3 - (r2 - d)| = E3 at *
  generalize (1 : Rat) / 2 ^ 150 = ε at *
  refine ⟨?_, ?_, ?_, ?_⟩ <;> norm_num at * <;> linarith

/-- every rounding error is at most `B / 2^20` -/
theorem satDelta_le {v : Nat → Nat → Rat} {W H : Nat} {B : Rat} (hB : boxSum (fun i j => |v i j|) W H ≤ B) (hB0 : 1 / 2 ^ 100 ≤ B)
    (hs : W * H ≤ 2 ^ 20) : ∀ n i j, i + j = n → i < W → j < H →
      |satDelta v i j| ≤ B / 2 ^ 20 := by
  have B0 : 0 < B := lt_of_lt_of_le (by norm_num) hB0
  intro n
  induction n using Nat.strong_induction_on with
  | _ n ih =>
    intro i j hn hi hj
    have key : ∀ X Y, X ≤ W → Y ≤ H → (∀ a b, a < X → b < Y → a + b < n) → |satQ v X Y| ≤ 2 * B := by
      intro X Y hX hY hab
      rw [satQ_eq]
      have h1 := abs_add_le (boxSum v X Y) (boxSum (satDelta v) X Y)
      have h2 := (boxSum_absQ v X Y).trans ((boxSum_monoQ (fun _ _ => abs_nonneg _) hX hY).trans hB)
      have h3 := boxSum_const (v := satDelta v) (X := X) (Y := Y) (D := B / 2 ^ 20)
        fun a b ha hb => ih (a + b) (hab a b ha hb) a b rfl (by omega) (by omega)
      have h4 : (X : Rat) * Y ≤ 2 ^ 20 := by
        have := (Nat.mul_le_mul hX hY).trans hs
        exact_mod_cast this
      have h5 : (X : Rat) * Y * (B / 2 ^ 20) ≤ 2 ^ 20 * (B / 2 ^ 20) := mul_le_mul_of_nonneg_right h4 (by positivity)
      have h6 : (2 : Rat) ^ 20 * (B / 2 ^ 20) = B := by field_simp
      linarith
    have := (three_rnd hB0 ((boxSum_entry hi hj).trans hB) (key (i + 1) j (by omega) (by omega) (fun a b _ _ => by omega))
      (key i (j + 1) (by omega) (by omega) (fun a b _ _ => by omega)) (key i j (by omega) (by omega) (fun a b _ _ => by omega))).1
    unfold satDelta
    rw [satQ_succ]
    exact this

theorem satQ_err {v : Nat → Nat → Rat} {W H : Nat} {B : Rat} (hB : boxSum (fun i j => |v i j|) W H ≤ B) (hB0 : 1 / 2 ^ 100 ≤ B)
    (hs : W * H ≤ 2 ^ 20) {X Y : Nat} (hX : X ≤ W) (hY : Y ≤ H) :
    |satQ v X Y - boxSum v X Y| ≤ X * Y * (B / 2 ^ 20) ∧ |satQ v X Y| ≤ 2 * B := by
  have B0 : 0 < B := lt_of_lt_of_le (by norm_num) hB0
  have h3 := boxSum_const (v := satDelta v) (X := X) (Y := Y) (D := B / 2 ^ 20)
    fun a b ha hb => satDelta_le hB hB0 hs (a + b) a b rfl (by omega) (by omega)
  have h2 := (boxSum_absQ v X Y).trans ((boxSum_monoQ (fun _ _ => abs_nonneg _) hX hY).trans hB)
  have e := satQ_eq v X Y
  have h1 := abs_add_le (boxSum v X Y) (boxSum (satDelta v) X Y)
  have h4 : (X : Rat) * Y ≤ 2 ^ 20 := by
    have := (Nat.mul_le_mul hX hY).trans hs
    exact_mod_cast this
  have h5 : (X : Rat) * Y * (B / 2 ^ 20) ≤ 2 ^ 20 * (B / 2 ^ 20) := mul_le_mul_of_nonneg_right h4 (by positivity)
  have h6 : (2 : Rat) ^ 20 * (B / 2 ^ 20) = B := by field_simp
  rw [e]
  refine ⟨by rw [add_sub_cancel_left]; exact h3, by linarith⟩

section
variable [Libm f32]

theorem satOf_satQ {f : Nat → Nat → F32} {v : Nat → Nat → Rat} {W H : Nat} {B : Rat}
    (hf : ∀ x y, x < W → y < H → (f x y).Is (v x y)) (hB : boxSum (fun i j => |v i j|) W H ≤ B) (hB0 : 1 / 2 ^ 100 ≤ B)
    (hB1 : B ≤ 2 ^ 96) (hs : W * H ≤ 2 ^ 20) : ∀ X Y, X ≤ W → Y ≤ H → (satOf f X Y).Is (satQ v X Y)
  | 0, Y, _, _ => by rw [satOf_zero_left, satQ_zero_left]; simpa using num32 (n := 0) (by decide)
  | X + 1, 0, _, _ => by rw [satOf_zero_right, satQ_zero_right]; simpa using num32 (n := 0) (by decide)
  | X + 1, Y + 1, hX, hY => by
    have i1 := satOf_satQ hf hB hB0 hB1 hs (X + 1) Y hX (by omega)
    have i2 := satOf_satQ hf hB hB0 hB1 hs X (Y + 1) (by omega) hY
    have i3 := satOf_satQ hf hB hB0 hB1 hs X Y (by omega) (by omega)
    have i0 := hf X Y (by omega) (by omega)
    obtain ⟨-, b1, b2, b3⟩ := three_rnd hB0 ((boxSum_entry (v := v) (show X < W by omega) (show Y < H by omega)).trans hB)
      (satQ_err hB hB0 hs hX (by omega : Y ≤ H)).2 (satQ_err hB hB0 hs (by omega : X ≤ W) hY).2
      (satQ_err hB hB0 hs (by omega : X ≤ W) (by omega : Y ≤ H)).2
    have big : 9 * B ≤ 2 ^ 100 := by norm_num at hB1 ⊢; linarith
    have B0 : 0 < B := lt_of_lt_of_le (by norm_num) hB0
    rw [satOf_succ, satQ_succ]
    exact sub_is (add_is (add_is i0 i1 (f32_ovf (by linarith))) i2 (f32_ovf (by linarith))) i3 (f32_ovf (by linarith))
termination_by X Y => (X, Y)

/-- **C123** summed-area tables in f32, for any numbers: if the absolute values of a channel add up to at most `B`, entry `(x, y)` of the
table differs from the sum over columns `0..=x` and rows `0..=y` by at most `(x + 1) (y + 1) B / 2^20`. -/
theorem c123_table (P : Profile) {img : Image F32} {v : Nat → Nat → Nat → Rat} (h : img.ShowsValues img.info v) {B : Rat}
    (hB0 : 1 / 2 ^ 100 ≤ B) (hB1 : B ≤ 2 ^ 96) (hs : img.info.width * img.info.height ≤ 2 ^ 20)
    (hB : ∀ c < img.info.channels, ∑ i ∈ range img.info.width, ∑ j ∈ range img.info.height, |v i j c| ≤ B) :
    ∃ out, generateSummedAreaTable P img = .ok out ∧ out.ShowsNear img.info (fun x y c => rectSum (fun i j => v i j c) 0 0 x y)
      fun x y _ => (x + 1) * (y + 1) * (B / 2 ^ 20) := by
  obtain ⟨out, e, hsh⟩ := summedAreaTable_eq P img h.1
  refine ⟨out, e, hsh.near (fun _ _ _ _ => by simp) fun x y c hx hy hc => ?_⟩
  refine ⟨_, satQ (fun i j => v i j c) (x + 1) (y + 1), by rw [List.getElem?_map, List.getElem?_range hc]; rfl, ?_, ?_⟩
  · exact satOf_satQ (W := img.info.width) (H := img.info.height) (fun i j hi hj => h.px hi hj hc _) (hB c hc) hB0 hB1 hs _ _
      (by omega) (by omega)
  · rw [rectSum_origin]
    have := (satQ_err (v := fun i j => v i j c) (hB c hc) hB0 hs (X := x + 1) (Y := y + 1) (by omega) (by omega)).1
    push_cast at this
    exact this

omit [Libm f32] in
/-- the three roundings of a rectangle sum -/
theorem four_corner {a b c d B : Rat} (hB : 1 / 2 ^ 100 ≤ B) (ha : |a| ≤ 2 * B) (hb : |b| ≤ 2 * B) (hc : |c| ≤ 2 * B) (hd : |d| ≤ 2 * B) :
    |f32.rnd (f32.rnd (f32.rnd (a - b) - c) + d) - (a - b - c + d)| ≤ 2 * (B / 2 ^ 20) ∧ |a - b| ≤ 4 * B ∧ |f32.rnd (a - b) - c| ≤ 7 * B ∧
      |f32.rnd (f32.rnd (a - b) - c) + d| ≤ 10 * B := by
  have B0 : 0 < B := lt_of_lt_of_le (by norm_num) hB
  have h := three_rnd (B := 2 * B) (a := a) (b := -b) (c := -c) (d := -d) (by linarith) ha (by rw [abs_neg]; linarith)
    (by rw [abs_neg]; linarith) (by rw [abs_neg]; linarith)
  simp only [← sub_eq_add_neg, sub_neg_eq_add] at h
  obtain ⟨h1, -, -, -⟩ := h
  refine ⟨by rw [← mul_div_assoc]; exact h1, ?_⟩
  have t : (1 : Rat) / 2 ^ 150 ≤ B / 2 ^ 50 := by
    have : (1 : Rat) / 2 ^ 150 = 1 / 2 ^ 100 / 2 ^ 50 := by norm_num
    rw [this]; gcongr
  have h1 := abs_sub a b
  have e1 := rnd_err_add (a - b)
  generalize f32.rnd (a - b) = r1 at *
  have h2 := abs_sub (r1 - (a - b)) (c - (a - b))
  rw [show r1 - (a - b) - (c - (a - b)) = r1 - c by ring] at h2
  have h3 := abs_sub c (a - b)
  have e2 := rnd_err_add (r1 - c)
  generalize f32.rnd (r1 - c) = r2 at *
  have h4 := abs_add_le (r2 - (r1 - c)) ((r1 - c) + d)
  rw [show r2 - (r1 - c) + ((r1 - c) + d) = r2 + d by ring] at h4
  have h5 := abs_add_le (r1 - c) d
  generalize |a - b| = A1 at *
  generalize |r1 - c| = A2 at *
  generalize |r1 - (a - b)| = E1 at *
  generalize |r2 - (r1 - c)| = E2 at *
  generalize (1 : Rat) / 2 ^ 150 = ε at *
  refine ⟨?_, ?_, ?_⟩ <;> norm_num at * <;> linarith

/-- **C123** rectangle sums from such a table: `rectangular_intensity_sum` differs from the sum over the rectangle by at most
`(4 (x1 + 1) (y1 + 1) + 2) B / 2^20`. -/
theorem c123_rectangle (P : Profile) {img : Image F32} {v : Nat → Nat → Nat → Rat} (h : img.ShowsValues img.info v) {B : Rat}
    (hB0 : 1 / 2 ^ 100 ≤ B) (hB1 : B ≤ 2 ^ 96) (hs : img.info.width * img.info.height ≤ 2 ^ 20)
    (hB : ∀ c < img.info.channels, ∑ i ∈ range img.info.width, ∑ j ∈ range img.info.height, |v i j c| ≤ B)
    (x0 y0 x1 y1 : Nat) (hx : x0 ≤ x1) (hy : y0 ≤ y1) (hx1 : x1 < img.info.width) (hy1 : y1 < img.info.height) :
    ∃ (table : Image F32) (p : List F32), generateSummedAreaTable P img = .ok table ∧
      rectangularIntensitySum P table x0 y0 x1 y1 = .ok p ∧ p.length = img.info.channels ∧
      ∀ c < img.info.channels, ∃ (r : F32) (a : Rat), p[c]? = some r ∧ r.Is a ∧
        |a - rectSum (fun i j => v i j c) x0 y0 x1 y1| ≤ (4 * ((x1 + 1) * (y1 + 1)) + 2) * (B / 2 ^ 20) := by
  obtain ⟨out, e, hsh⟩ := summedAreaTable_eq P img h.1
  have hi := hsh.info_eq
  refine ⟨out, _, e, rectangularSum_eq P (T := fun c => satOf (img.chan c)) (by rw [hi]; exact hsh)
    (fun _ _ => satOf_zero_left _ _) (fun _ _ => satOf_zero_right _ _) hx hy (by rw [hi]; exact hx1)
    (by rw [hi]; exact hy1), by simp [hi], fun c hc => ?_⟩
  have B0 : 0 < B := lt_of_lt_of_le (by norm_num) hB0
  have D0 : 0 ≤ B / 2 ^ 20 := by positivity
  have hT := satOf_satQ (f := img.chan c) (v := fun i j => v i j c) (W := img.info.width) (H := img.info.height)
    (fun i j hi hj => h.px hi hj hc _) (hB c hc) hB0 hB1 hs
  have hE := fun X Y (hX : X ≤ x1 + 1) (hY : Y ≤ y1 + 1) => satQ_err (v := fun i j => v i j c) (hB c hc) hB0 hs
    (X := X) (Y := Y) (by omega) (by omega)
  have hM : ∀ X Y, X ≤ x1 + 1 → Y ≤ y1 + 1 → |satQ (fun i j => v i j c) X Y - boxSum (fun i j => v i j c) X Y| ≤
      (x1 + 1) * (y1 + 1) * (B / 2 ^ 20) := by
    intro X Y hX hY
    refine (hE X Y hX hY).1.trans (mul_le_mul_of_nonneg_right ?_ D0)
    exact_mod_cast Nat.mul_le_mul hX hY
  obtain ⟨f1, f2, f3, f4⟩ := four_corner hB0 (hE (x1 + 1) (y1 + 1) le_rfl le_rfl).2 (hE (x1 + 1) y0 le_rfl (by omega)).2
    (hE x0 (y1 + 1) (by omega) le_rfl).2 (hE x0 y0 (by omega) (by omega)).2
  have big : 10 * B ≤ 2 ^ 100 := by norm_num at hB1 ⊢; linarith
  refine ⟨_, _, by rw [hi, List.getElem?_map, List.getElem?_range hc]; rfl, add_is (sub_is (sub_is (hT _ _ (by omega) (by omega))
    (hT _ _ (by omega) (by omega)) (f32_ovf (by linarith))) (hT _ _ (by omega) (by omega)) (f32_ovf (by linarith)))
    (hT _ _ (by omega) (by omega)) (f32_ovf (by linarith)), ?_⟩
  rw [rectSum_boxes _ hx hy]
  have m1 := hM (x1 + 1) (y1 + 1) le_rfl le_rfl
  have m2 := hM (x1 + 1) y0 le_rfl (by omega)
  have m3 := hM x0 (y1 + 1) (by omega) le_rfl
  have m4 := hM x0 y0 (by omega) (by omega)
  clear hM hE hT
  generalize satQ (fun i j => v i j c) (x1 + 1) (y1 + 1) = s1 at *
  generalize satQ (fun i j => v i j c) (x1 + 1) y0 = s2 at *
  generalize satQ (fun i j => v i j c) x0 (y1 + 1) = s3 at *
  generalize satQ (fun i j => v i j c) x0 y0 = s4 at *
  generalize f32.rnd (f32.rnd (f32.rnd (s1 - s2) - s3) + s4) = r at *
  generalize boxSum (fun i j => v i j c) (x1 + 1) (y1 + 1) = t1 at *
  generalize boxSum (fun i j => v i j c) (x1 + 1) y0 = t2 at *
  generalize boxSum (fun i j => v i j c) x0 (y1 + 1) = t3 at *
  generalize boxSum (fun i j => v i j c) x0 y0 = t4 at *
  have e' : r - (t1 - t2 - t3 + t4) = (r - (s1 - s2 - s3 + s4)) + (s1 - t1) - (s2 - t2) - (s3 - t3) + (s4 - t4) := by ring
  rw [e']
  rw [abs_le] at *
  constructor <;> linarith [f1.1, f1.2, m1.1, m1.2, m2.1, m2.2, m3.1, m3.2, m4.1, m4.2]

/-- the hypotheses are met by every 3 x 2 gray image of six numbers up to 1000, whether or not their sums are
representable -/
example (P : Profile) {img : Image F32} {v : Nat → Nat → Nat → Rat} (h : img.ShowsValues ⟨3, 2, 1, false⟩ v)
    (hv : ∀ x y c, |v x y c| ≤ 1000) : ∃ out, generateSummedAreaTable P img = .ok out ∧
      out.ShowsNear ⟨3, 2, 1, false⟩ (fun x y c => rectSum (fun i j => v i j c) 0 0 x y) fun x y _ => (x + 1) * (y + 1) * (6000 / 2 ^ 20) := by
  have hi := h.2.1
  obtain ⟨out, e, ho⟩ := c123_table P (img := img) (v := v) (by rw [hi]; exact h) (B := 6000) (by norm_num) (by norm_num)
    (by rw [hi]; norm_num) (by
      intro c _
      rw [hi]
      refine le_trans (sum_le_sum fun i _ => sum_le_sum fun j _ => hv i j c) ?_
      simp; norm_num)
  rw [hi] at ho
  exact ⟨out, e, ho⟩
end
end Imgproc

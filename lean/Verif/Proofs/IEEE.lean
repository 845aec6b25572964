import Verif.Core.IEEE
/-! Value calculus for the IEEE instances: which rational a float operation produces. -/
namespace Imgproc
open FloatOps

/-- `x` is finite with value `q` (either zero counts as value 0) -/
def Flt.Is {f : Fmt} (x : Flt f) (q : Rat) : Prop := x.val.toQ? = some q

/-- rounding to the format's grid, ignoring overflow -/
abbrev Fmt.rnd (f : Fmt) (q : Rat) : Rat := rndQ f.toRFmt q
/-- on the format's grid and not overflowing -/
def Fmt.Exact (f : Fmt) (q : Rat) : Prop := RepQ f.toRFmt q ∧ |q| < pow2 f.emax

variable {f : Fmt}

theorem Flt.Is.exact {x : Flt f} {q : Rat} (h : x.Is q) : f.Exact q := by
  obtain ⟨v, r⟩ := x
  cases v <;> simp [Flt.Is, FP.toQ?] at h
  · subst h; exact ⟨RepQ.zero _, by rw [abs_zero]; exact pow2_pos _⟩
  · subst h; exact r

theorem Flt.Is.unique {x : Flt f} {q r : Rat} (h : x.Is q) (h' : x.Is r) : q = r :=
  Option.some.inj (h.symm.trans h')

theorem Flt.Is.eq_fin {x : Flt f} {q : Rat} (h : x.Is q) (hq : q ≠ 0) : x.val = .fin q := by
  obtain ⟨v, r⟩ := x
  cases v <;> simp [Flt.Is, FP.toQ?] at h
  · exact absurd h.symm hq
  · exact congrArg _ h

/-- two floats of the same nonzero value are equal -/
theorem Flt.Is.ext {x y : Flt f} {q : Rat} (h : x.Is q) (h' : y.Is q) (hq : q ≠ 0) : x = y :=
  Flt.ext (by rw [h.eq_fin hq, h'.eq_fin hq])

theorem Fmt.Exact.zero : f.Exact 0 := ⟨RepQ.zero _, by rw [abs_zero]; exact pow2_pos _⟩
theorem Fmt.Exact.rnd {q : Rat} (h : f.Exact q) : f.rnd q = q := rndQ_of_rep h.1
theorem Fmt.Exact.neg {q : Rat} (h : f.Exact q) : f.Exact (-q) := ⟨h.1.neg, by rw [abs_neg]; exact h.2⟩
theorem Fmt.Exact.abs {q : Rat} (h : f.Exact q) : f.Exact |q| := ⟨h.1.abs, by rw [abs_abs]; exact h.2⟩

theorem FP.toQ?_zero (b : Bool) : (FP.zero b).toQ? = some 0 := by cases b <;> rfl

theorem FP.round_is {b : Bool} {q : Rat} (h : |f.rnd q| < pow2 f.emax) :
    (FP.round f b q).toQ? = some (f.rnd q) := by
  unfold FP.round
  split
  · rename_i h0; rw [h0, FP.toQ?_zero]; simp [Fmt.rnd, rndQ_zero]
  · simp only
    split
    · rename_i h0; rw [FP.toQ?_zero]; exact congrArg some h0.symm
    · rfl

theorem FP.round_exact {b : Bool} {q : Rat} (h : f.Exact q) : (FP.round f b q).toQ? = some q := by
  have := FP.round_is (f := f) (b := b) (q := q) (by rw [h.rnd]; exact h.2)
  rwa [h.rnd] at this

/-- rounding cannot overflow when the exact value is bounded by a value of the format -/
theorem Fmt.rnd_lt {q B : Rat} (hB : f.Exact B) (h : |q| ≤ B) : |f.rnd q| < pow2 f.emax := by
  rw [abs_rndQ]
  exact lt_of_le_of_lt (rndQ_le hB.1 h) (lt_of_le_of_lt (le_abs_self _) hB.2)

theorem Fmt.rnd_exact {q : Rat} (h : |f.rnd q| < pow2 f.emax) : f.Exact (f.rnd q) := ⟨rndQ_rep q, h⟩

section ops
variable [Libm f]

omit [Libm f] in
theorem Flt.ofRat_is {q : Rat} (h : |f.rnd q| < pow2 f.emax) : (Flt.ofRat f q).Is (f.rnd q) :=
  FP.round_is h
omit [Libm f] in
theorem Flt.ofRat_exact {q : Rat} (h : f.Exact q) : (Flt.ofRat f q).Is q := FP.round_exact h

theorem lit_is {q : Rat} (h : |f.rnd q| < pow2 f.emax) : (lit q : Flt f).Is (f.rnd q) := Flt.ofRat_is h
theorem lit_exact {q : Rat} (h : f.Exact q) : (lit q : Flt f).Is q := Flt.ofRat_exact h
theorem num_exact {n : Int} (h : f.Exact (n : Rat)) : (num n : Flt f).Is (n : Rat) := Flt.ofRat_exact h
theorem ofInt_is {n : Int} (h : |f.rnd (n : Rat)| < pow2 f.emax) :
    (FloatOps.ofInt n : Flt f).Is (f.rnd (n : Rat)) := Flt.ofRat_is h
theorem ofInt_exact {n : Int} (h : f.Exact (n : Rat)) : (FloatOps.ofInt n : Flt f).Is (n : Rat) :=
  Flt.ofRat_exact h
theorem ofNat_exact {n : Nat} (h : f.Exact (n : Rat)) : (FloatOps.ofNat n : Flt f).Is (n : Rat) := by
  have := ofInt_exact (f := f) (n := (n : Int)) (by simpa using h)
  rwa [Int.cast_natCast] at this

omit [Libm f] in
theorem FP.toQ?_cases {x : FP} {q : Rat} (h : x.toQ? = some q) :
    x = .fin q ∨ (x = .negZero ∧ q = 0) := by
  cases x <;> simp [FP.toQ?] at h
  · exact .inr ⟨rfl, h.symm⟩
  · exact .inl (by rw [h])

omit [Libm f] in
theorem FP.add_is {x y : FP} {a b : Rat} (hx : x.toQ? = some a) (hy : y.toQ? = some b)
    (h : |f.rnd (a + b)| < pow2 f.emax) : (FP.add f x y).toQ? = some (f.rnd (a + b)) := by
  rcases FP.toQ?_cases hx with rfl | ⟨rfl, rfl⟩ <;> rcases FP.toQ?_cases hy with rfl | ⟨rfl, rfl⟩
  · exact FP.round_is h
  · exact FP.round_is h
  · exact FP.round_is h
  · simp only [FP.add, FP.toQ?, add_zero, Fmt.rnd, rndQ_zero]

theorem add_is {x y : Flt f} {a b : Rat} (hx : x.Is a) (hy : y.Is b)
    (h : |f.rnd (a + b)| < pow2 f.emax) : (x +. y).Is (f.rnd (a + b)) := FP.add_is hx hy h

theorem add_exact {x y : Flt f} {a b : Rat} (hx : x.Is a) (hy : y.Is b)
    (h : f.Exact (a + b)) : (x +. y).Is (a + b) := by
  have := add_is hx hy (by rw [h.rnd]; exact h.2)
  rwa [h.rnd] at this

omit [Libm f] in
theorem FP.neg_is {x : FP} {a : Rat} (hx : x.toQ? = some a) : (FP.neg x).toQ? = some (-a) := by
  rcases FP.toQ?_cases hx with rfl | ⟨rfl, rfl⟩
  · unfold FP.neg; simp only
    split
    · rename_i h; rw [h]; simp [FP.toQ?]
    · rfl
  · simp [FP.neg, FP.toQ?]

theorem neg_is {x : Flt f} {a : Rat} (hx : x.Is a) : (FloatOps.neg x).Is (-a) := FP.neg_is hx

theorem abs_is {x : Flt f} {a : Rat} (hx : x.Is a) : (FloatOps.abs x).Is |a| := by
  show (FP.abs x.val).toQ? = _
  rcases FP.toQ?_cases hx with h | ⟨h, rfl⟩ <;> rw [h] <;> simp [FP.abs, FP.toQ?]

theorem sub_is {x y : Flt f} {a b : Rat} (hx : x.Is a) (hy : y.Is b)
    (h : |f.rnd (a - b)| < pow2 f.emax) : (x -. y).Is (f.rnd (a - b)) := by
  rw [sub_eq_add_neg] at *
  exact FP.add_is hx (FP.neg_is hy) h

theorem sub_exact {x y : Flt f} {a b : Rat} (hx : x.Is a) (hy : y.Is b)
    (h : f.Exact (a - b)) : (x -. y).Is (a - b) := by
  have := sub_is hx hy (by rw [h.rnd]; exact h.2)
  rwa [h.rnd] at this

theorem mul_is {x y : Flt f} {a b : Rat} (hx : x.Is a) (hy : y.Is b)
    (h : |f.rnd (a * b)| < pow2 f.emax) : (x *. y).Is (f.rnd (a * b)) := by
  have hx' : x.val.toQ? = some a := hx
  have hy' : y.val.toQ? = some b := hy
  show (FP.mul f x.val y.val).toQ? = _
  simp only [FP.mul, hx', hy']
  exact FP.round_is h

theorem mul_exact {x y : Flt f} {a b : Rat} (hx : x.Is a) (hy : y.Is b)
    (h : f.Exact (a * b)) : (x *. y).Is (a * b) := by
  have := mul_is hx hy (by rw [h.rnd]; exact h.2)
  rwa [h.rnd] at this

theorem div_is {x y : Flt f} {a b : Rat} (hx : x.Is a) (hy : y.Is b) (hb : b ≠ 0)
    (h : |f.rnd (a / b)| < pow2 f.emax) : (x /. y).Is (f.rnd (a / b)) := by
  have hx' : x.val.toQ? = some a := hx
  have hy' : y.val.toQ? = some b := hy
  show (FP.div f x.val y.val).toQ? = _
  simp only [FP.div, hx', hy', if_neg hb]
  exact FP.round_is h

theorem div_exact {x y : Flt f} {a b : Rat} (hx : x.Is a) (hy : y.Is b) (hb : b ≠ 0)
    (h : f.Exact (a / b)) : (x /. y).Is (a / b) := by
  have := div_is hx hy hb (by rw [h.rnd]; exact h.2)
  rwa [h.rnd] at this

theorem rem_is {x y : Flt f} {a b : Rat} (hx : x.Is a) (hy : y.Is b) (hb : b ≠ 0)
    (h : |f.rnd (a - (FP.truncQ (a / b) : Rat) * b)| < pow2 f.emax) :
    (FloatOps.rem x y).Is (f.rnd (a - (FP.truncQ (a / b) : Rat) * b)) := by
  have hx' : x.val.toQ? = some a := hx
  have hy' : y.val.toQ? = some b := hy
  show (FP.rem f x.val y.val).toQ? = _
  simp only [FP.rem, hx', hy', if_neg hb]
  exact FP.round_is h

theorem lt_is {x y : Flt f} {a b : Rat} (hx : x.Is a) (hy : y.Is b) : (x <. y) = decide (a < b) := by
  have hx' : x.val.toQ? = some a := hx
  have hy' : y.val.toQ? = some b := hy
  show FP.lt x.val y.val = _
  simp only [FP.lt, hx', hy']

theorem le_is {x y : Flt f} {a b : Rat} (hx : x.Is a) (hy : y.Is b) : (x <=. y) = decide (a ≤ b) := by
  have hx' : x.val.toQ? = some a := hx
  have hy' : y.val.toQ? = some b := hy
  show FP.le x.val y.val = _
  simp only [FP.le, hx', hy']

theorem eq_is {x y : Flt f} {a b : Rat} (hx : x.Is a) (hy : y.Is b) : (x ==. y) = decide (a = b) := by
  have hx' : x.val.toQ? = some a := hx
  have hy' : y.val.toQ? = some b := hy
  show (FP.le x.val y.val && FP.le y.val x.val) = _
  simp only [FP.le, hx', hy']
  rw [← Bool.decide_and]
  congr 1
  exact propext ⟨fun h => le_antisymm h.1 h.2, fun h => ⟨h.le, h.ge⟩⟩

/-- comparisons with NaN are false -/
theorem lt_nan_left {x y : Flt f} (hx : x.val = .nan) : (x <. y) = false := by
  show FP.lt x.val y.val = false
  rw [hx]; unfold FP.lt; cases y.val <;> rfl
theorem lt_nan_right {x y : Flt f} (hy : y.val = .nan) : (x <. y) = false := by
  show FP.lt x.val y.val = false
  rw [hy]; unfold FP.lt; cases x.val <;> rfl
theorem le_nan_left {x y : Flt f} (hx : x.val = .nan) : (x <=. y) = false := by
  show FP.le x.val y.val = false
  rw [hx]; unfold FP.le; cases y.val <;> rfl
theorem le_nan_right {x y : Flt f} (hy : y.val = .nan) : (x <=. y) = false := by
  show FP.le x.val y.val = false
  rw [hy]; unfold FP.le; cases x.val <;> rfl
theorem lt_inf_left {x y : Flt f} {s : Bool} {b : Rat} (hx : x.val = .inf s) (hy : y.Is b) : (x <. y) = s := by
  show FP.lt x.val y.val = s
  have hy' : y.val.toQ? = some b := hy
  rw [hx]; unfold FP.lt; rw [hy']; simp [FP.toQ?, FP.sign]
theorem lt_inf_right {x y : Flt f} {s : Bool} {a : Rat} (hx : x.Is a) (hy : y.val = .inf s) : (x <. y) = !s := by
  show FP.lt x.val y.val = !s
  have hx' : x.val.toQ? = some a := hx
  rw [hy]; unfold FP.lt; rw [hx']; simp [FP.toQ?, FP.sign]
theorem le_inf_left {x y : Flt f} {s : Bool} {b : Rat} (hx : x.val = .inf s) (hy : y.Is b) : (x <=. y) = s := by
  show FP.le x.val y.val = s
  have hy' : y.val.toQ? = some b := hy
  rw [hx]; unfold FP.le; rw [hy']; simp [FP.toQ?, FP.sign]
theorem le_inf_right {x y : Flt f} {s : Bool} {a : Rat} (hx : x.Is a) (hy : y.val = .inf s) : (x <=. y) = !s := by
  show FP.le x.val y.val = !s
  have hx' : x.val.toQ? = some a := hx
  rw [hy]; unfold FP.le; rw [hx']; simp [FP.toQ?, FP.sign]

/-- `clamp` on numbers -/
theorem clamp_is {x lo hi : Flt f} {q a b : Rat} (hx : x.Is q) (ha : lo.Is a) (hb : hi.Is b) (hab : a ≤ b) :
    ∃ y, FloatOps.clamp x lo hi = .ok y ∧ y.Is (max a (min b q)) := by
  unfold FloatOps.clamp
  rw [le_is ha hb, decide_eq_true hab, if_pos rfl]
  simp only [FloatOps.gt]
  by_cases h1 : q < a
  · have e1 : (x <. lo) = true := by rw [lt_is hx ha]; exact decide_eq_true h1
    have e2 : (hi <. lo) = false := by rw [lt_is hb ha]; exact decide_eq_false (not_lt.2 hab)
    refine ⟨lo, by simp [e1, e2], ?_⟩
    rw [max_eq_left (le_trans (min_le_right _ _) h1.le)]; exact ha
  · have e1 : (x <. lo) = false := by rw [lt_is hx ha]; exact decide_eq_false h1
    by_cases h2 : b < q
    · have e2 : (hi <. x) = true := by rw [lt_is hb hx]; exact decide_eq_true h2
      refine ⟨hi, by simp [e1, e2], ?_⟩
      rw [min_eq_left h2.le, max_eq_right hab]; exact hb
    · have e2 : (hi <. x) = false := by rw [lt_is hb hx]; exact decide_eq_false h2
      refine ⟨x, by simp [e1, e2], ?_⟩
      rw [min_eq_right (not_lt.1 h2), max_eq_right (not_lt.1 h1)]; exact hx

theorem clamp_nan {x lo hi : Flt f} {a b : Rat} (hx : x.val = .nan) (ha : lo.Is a) (hb : hi.Is b) (hab : a ≤ b) :
    FloatOps.clamp x lo hi = .ok x := by
  unfold FloatOps.clamp
  rw [le_is ha hb, decide_eq_true hab, if_pos rfl]
  simp only [FloatOps.gt]
  simp [lt_nan_left hx, lt_nan_right hx]

omit [Libm f] in
theorem truncQ_zero : FP.truncQ 0 = 0 := by decide +kernel

theorem toInt_is {x : Flt f} {a : Rat} (hx : x.Is a) (lo hi : Int) :
    FloatOps.toInt lo hi x = max lo (min hi (FP.truncQ a)) := by
  show FP.toInt lo hi x.val = _
  rcases FP.toQ?_cases hx with h | ⟨h, rfl⟩ <;> rw [h]
  · rfl
  · rw [truncQ_zero]; rfl

omit [Libm f] in
theorem toIntegral_is {x : Flt f} {a : Rat} (hx : x.Is a) (g : Rat → Int)
    (h : |f.rnd (g a : Rat)| < pow2 f.emax) :
    (FP.toIntegral f g x.val).toQ? = some (f.rnd (g a : Rat)) := by
  have hx' : x.val.toQ? = some a := hx
  simp only [FP.toIntegral, hx']
  exact FP.round_is h

theorem floor_is {x : Flt f} {a : Rat} (hx : x.Is a) (h : f.Exact (a.floor : Rat)) :
    (FloatOps.floor x).Is (a.floor : Rat) := by
  have := toIntegral_is hx Rat.floor (by rw [h.rnd]; exact h.2)
  rwa [h.rnd] at this
theorem ceil_is {x : Flt f} {a : Rat} (hx : x.Is a) (h : f.Exact (a.ceil : Rat)) :
    (FloatOps.ceil x).Is (a.ceil : Rat) := by
  have := toIntegral_is hx Rat.ceil (by rw [h.rnd]; exact h.2)
  rwa [h.rnd] at this
theorem round_is {x : Flt f} {a : Rat} (hx : x.Is a) (h : f.Exact (FP.roundAwayQ a : Rat)) :
    (FloatOps.round x).Is (FP.roundAwayQ a : Rat) := by
  have := toIntegral_is hx FP.roundAwayQ (by rw [h.rnd]; exact h.2)
  rwa [h.rnd] at this

end ops

/-! ### integers and integer-valued functions -/

theorem f32_int {n : Int} (h : |n| ≤ 16777216) : f32.Exact (n : Rat) := by
  refine ⟨RepQ.int (by decide) (by simpa [f32] using h), ?_⟩
  rw [← Int.cast_abs]
  refine lt_of_le_of_lt (b := ((16777216 : Int) : Rat)) (by exact_mod_cast h) ?_
  rw [show ((16777216 : Int) : Rat) = pow2 24 by norm_num [pow2]]
  exact pow2_lt.2 (by decide)

theorem f64_int {n : Int} (h : |n| ≤ 9007199254740992) : f64.Exact (n : Rat) := by
  refine ⟨RepQ.int (by decide) (by simpa [f64] using h), ?_⟩
  rw [← Int.cast_abs]
  refine lt_of_le_of_lt (b := ((9007199254740992 : Int) : Rat)) (by exact_mod_cast h) ?_
  rw [show ((9007199254740992 : Int) : Rat) = pow2 53 by norm_num [pow2]]
  exact pow2_lt.2 (by decide)

theorem f32_nat {n : Nat} (h : n ≤ 16777216) : f32.Exact (n : Rat) := by
  have := f32_int (n := (n : Int)) (by rw [abs_of_nonneg (by omega)]; omega)
  simpa using this

theorem truncQ_int (n : Int) : FP.truncQ (n : Rat) = n := by
  unfold FP.truncQ
  split
  · exact Rat.floor_intCast n
  · rw [← Int.cast_neg, Rat.floor_intCast]; omega
theorem truncQ_nat (n : Nat) : FP.truncQ (n : Rat) = n := by
  have := truncQ_int (n : Int); simpa using this

theorem truncQ_nonneg {q : Rat} (h : 0 ≤ q) : FP.truncQ q = q.floor := if_pos h

theorem rat_floor_eq_iff {q : Rat} {z : Int} : q.floor = z ↔ (z : Rat) ≤ q ∧ q < z + 1 :=
  Int.floor_eq_iff (a := q)
theorem rat_le_floor {q : Rat} {z : Int} : z ≤ q.floor ↔ (z : Rat) ≤ q := Int.le_floor (a := q)
theorem rat_floor_lt {q : Rat} {z : Int} : q.floor < z ↔ q < (z : Rat) := Int.floor_lt (a := q)
theorem rat_floor_mono {a b : Rat} (h : a ≤ b) : a.floor ≤ b.floor := Int.floor_mono h

theorem truncQ_mono {a b : Rat} (h : a ≤ b) : FP.truncQ a ≤ FP.truncQ b := by
  unfold FP.truncQ
  split
  · rw [if_pos (by linarith)]; exact rat_floor_mono h
  · split
    · have h1 : 0 ≤ b.floor := rat_le_floor.2 (by push_cast; assumption)
      have h2 : 0 ≤ (-a).floor := rat_le_floor.2 (by push_cast; linarith)
      omega
    · have := rat_floor_mono (neg_le_neg h); omega

theorem roundAwayQ_int (n : Int) : FP.roundAwayQ (n : Rat) = n := by
  unfold FP.roundAwayQ
  have k : ∀ m : Int, ((m : Rat) + 1 / 2).floor = m := fun m => rat_floor_eq_iff.2 ⟨by linarith, by linarith⟩
  split
  · exact k n
  · rw [← Int.cast_neg, k]; omega

theorem roundAwayQ_abs (q : Rat) : |(FP.roundAwayQ q : Rat) - q| ≤ 1 / 2 := by
  unfold FP.roundAwayQ
  split
  · have h1 := rat_floor_le (q + 1 / 2)
    have h2 := rat_lt_floor (q + 1 / 2)
    rw [abs_le]; constructor <;> linarith
  · have h1 := rat_floor_le (-q + 1 / 2)
    have h2 := rat_lt_floor (-q + 1 / 2)
    push_cast
    rw [abs_le]; constructor <;> linarith

theorem roundAwayQ_mono {a b : Rat} (h : a ≤ b) : FP.roundAwayQ a ≤ FP.roundAwayQ b := by
  unfold FP.roundAwayQ
  split
  · rw [if_pos (by linarith)]; exact rat_floor_mono (by linarith)
  · split
    · have h1 : 0 ≤ (b + 1/2).floor := rat_le_floor.2 (by push_cast; linarith)
      have h2 : 0 ≤ (-a + 1/2).floor := rat_le_floor.2 (by push_cast; linarith)
      omega
    · have := rat_floor_mono (show -b + 1/2 ≤ -a + 1/2 by linarith); omega

/-- the rounded value of an integer is still an integer; more generally an integer bound passes through -/
theorem roundAwayQ_le {q : Rat} {n : Int} (h : q ≤ n) : FP.roundAwayQ q ≤ n := by
  rw [← roundAwayQ_int n]; exact roundAwayQ_mono h
theorem le_roundAwayQ {q : Rat} {n : Int} (h : (n : Rat) ≤ q) : n ≤ FP.roundAwayQ q := by
  rw [← roundAwayQ_int n]; exact roundAwayQ_mono h

/-- an integer below 1/2 away is the rounding -/
theorem roundAwayQ_eq {q : Rat} {n : Int} (h : |q - n| < 1 / 2) : FP.roundAwayQ q = n := by
  have h1 := roundAwayQ_abs q
  have : |(FP.roundAwayQ q : Rat) - n| < 1 := by
    have := abs_sub_le (FP.roundAwayQ q : Rat) q n
    linarith
  rw [← Int.cast_sub, ← Int.cast_abs] at this
  have h3 : |FP.roundAwayQ q - n| < 1 := by exact_mod_cast this
  have := Int.abs_lt_one_iff.1 h3
  omega

/-- values of magnitude at least `2^p·2^0` of the format are integers -/
theorem RepQ.isInt {g : RFmt} {q : Rat} (h : RepQ g q) (hq : pow2 (g.p : Int) ≤ |q|) :
    ∃ n : Int, q = n := by
  obtain ⟨m, e, rfl, hm, he⟩ := h
  by_cases h0 : 0 ≤ e
  · refine ⟨m * 2 ^ e.toNat, ?_⟩
    rw [pow2_int h0]; push_cast; ring
  · exfalso
    have : |(m : Rat) * pow2 e| < pow2 (g.p : Int) := by
      rw [abs_mul, abs_of_pos (pow2_pos e)]
      have h1 : |(m : Rat)| ≤ pow2 (g.p : Int) := by
        rw [← Int.cast_abs, pow2_natCast]; exact_mod_cast hm
      have h2 : pow2 e < 1 := by
        rw [show (1 : Rat) = pow2 0 by norm_num [pow2]]; exact pow2_lt.2 (by omega)
      calc |(m : Rat)| * pow2 e ≤ pow2 (g.p : Int) * pow2 e :=
            mul_le_mul_of_nonneg_right h1 (pow2_pos e).le
        _ < pow2 (g.p : Int) * 1 := mul_lt_mul_of_pos_left h2 (pow2_pos _)
        _ = _ := mul_one _
    linarith

/-- rounding a value of the format to an integer stays in the format -/
theorem roundAwayQ_exact (he : f.emin ≤ 0) (hE : (f.p : Int) < f.emax) {q : Rat} (h : f.Exact q) :
    f.Exact (FP.roundAwayQ q : Rat) := by
  by_cases hq : pow2 (f.p : Int) ≤ |q|
  · obtain ⟨n, hn⟩ := h.1.isInt hq
    rw [hn, roundAwayQ_int, ← hn]; exact h
  · have hq' : |q| < ((2 ^ f.p : Int) : Rat) := by
      rw [pow2_natCast] at hq; push Not at hq; push_cast at *; exact hq
    have hb : |FP.roundAwayQ q| ≤ 2 ^ f.p := by
      rw [abs_le]
      rw [abs_lt] at hq'
      exact ⟨le_roundAwayQ (by push_cast at *; linarith), roundAwayQ_le hq'.2.le⟩
    refine ⟨RepQ.int he hb, ?_⟩
    rw [← Int.cast_abs]
    refine lt_of_le_of_lt (b := ((2 ^ f.p : Int) : Rat)) (by exact_mod_cast hb) ?_
    have : ((2 ^ f.p : Int) : Rat) = pow2 (f.p : Int) := by rw [pow2_natCast]; push_cast; rfl
    rw [this]; exact pow2_lt.2 hE

end Imgproc

namespace Imgproc
open FloatOps
/-- relative error of one rounding of a positive normal value -/
theorem rndQ_pos_bounds {g : RFmt} {q : Rat} (h : pow2 (g.emin + g.p - 1) ≤ q) :
    q * (1 - pow2 (-g.p)) ≤ rndQ g q ∧ rndQ g q ≤ q * (1 + pow2 (-g.p)) := by
  have hq : 0 < q := lt_of_lt_of_le (pow2_pos _) h
  have he := rndQ_err (f := g) q
  rw [abs_of_pos hq] at he
  have h2 : pow2 (g.emin - 1) ≤ q * pow2 (-g.p) := by
    have : pow2 (g.emin - 1) = pow2 (g.emin + g.p - 1) * pow2 (-g.p) := by
      rw [← pow2_add]; congr 1; ring
    rw [this]; exact mul_le_mul_of_nonneg_right h (pow2_pos _).le
  rw [max_eq_left h2, abs_le] at he
  constructor <;> linarith [he.1, he.2]

theorem f32_bounds {q : Rat} (h : 1 / 2 ^ 126 ≤ q) :
    q * (1 - 1 / 16777216) ≤ f32.rnd q ∧ f32.rnd q ≤ q * (1 + 1 / 16777216) := by
  have h1 : pow2 (-(f32.p : Int)) = 1 / 16777216 := by norm_num [f32, pow2_eq]
  have h2 : pow2 (f32.emin + f32.p - 1) = 1 / 2 ^ 126 := by norm_num [f32, pow2_eq]
  have := rndQ_pos_bounds (g := f32.toRFmt) (q := q) (by rw [h2]; exact h)
  rwa [h1] at this

/-- no overflow for magnitudes up to 2^100 -/
theorem f32_ovf {q : Rat} (h : |q| ≤ 2 ^ 100) : |f32.rnd q| < pow2 f32.emax := by
  have hB : f32.Exact ((2 : Rat) ^ 100) := by
    have : (2 : Rat) ^ 100 = ((1 : Int) : Rat) * pow2 100 := by norm_num [pow2]
    refine ⟨this ▸ RepQ.dyadic (by decide) (by decide), ?_⟩
    rw [abs_of_pos (by positivity), show (2 : Rat) ^ 100 = pow2 100 by norm_num [pow2]]
    exact pow2_lt.2 (by decide)
  exact Fmt.rnd_lt hB h

section
variable [Libm f32]
theorem ofU8_is (v : UInt8) : (ofU8 v : F32).Is (v.toNat : Rat) := by
  have h := v.toNat_lt
  have := ofInt_exact (f := f32) (n := (v.toNat : Int)) (f32_int (by rw [abs_of_nonneg (by omega)]; omega))
  rwa [Int.cast_natCast] at this
theorem num32 {n : Int} (h : |n| ≤ 16777216) : (num n : F32).Is (n : Rat) := num_exact (f32_int h)
theorem nat32 {n : Nat} (h : n ≤ 16777216) : (FloatOps.ofNat n : F32).Is (n : Rat) := ofNat_exact (f32_nat h)
end

section
variable {f : Fmt} [Libm f]
theorem toU8_toNat {x : Flt f} {q : Rat} (h : x.Is q) :
    (toU8 x).toNat = (max 0 (min 255 (FP.truncQ q))).toNat := by
  unfold toU8
  rw [toInt_is h, UInt8.toNat_ofNat_of_lt']
  show _ < 256
  omega
/-- a float whose value is a byte converts to that byte -/
theorem toU8_of_is {x : Flt f} {n : Nat} (h : x.Is (n : Rat)) (hn : n < 256) : toU8 x = UInt8.ofNat n := by
  apply UInt8.toNat_inj.1
  rw [toU8_toNat h, truncQ_nat, UInt8.toNat_ofNat_of_lt' (by exact hn)]
  omega
end
end Imgproc

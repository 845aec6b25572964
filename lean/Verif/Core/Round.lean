import Mathlib.Algebra.Order.Floor.Ring
import Mathlib.Data.Rat.Floor
import Mathlib.Algebra.Order.Field.Power
import Mathlib.Tactic.Linarith
import Mathlib.Tactic.Ring
import Mathlib.Tactic.FieldSimp
import Mathlib.Tactic.Positivity
import Mathlib.Tactic.NormNum
import Mathlib.Tactic.Push
/-!
Round-to-nearest-even on the rationals for a binary floating-point format with `p` bits of precision
and smallest exponent `emin` (unbounded above; overflow is handled in `Verif.Core.IEEE`).
Trusted reading of IEEE 754: the definitions `ilog2`, `roundHalfEven`, `rndQ`.  The lemmas below
(nearest, idempotent, monotone, symmetric, relative error) are proved.
-/
namespace Imgproc

/-- `2^e` for an integer exponent, in a form the kernel evaluates fast -/
def pow2 : Int → Rat
  | .ofNat n => ((2 ^ n : Nat) : Rat)
  | .negSucc n => 1 / ((2 ^ (n + 1) : Nat) : Rat)

theorem pow2_eq (e : Int) : pow2 e = (2 : Rat) ^ e := by
  cases e with
  | ofNat n => simp [pow2]
  | negSucc n => simp [pow2, zpow_negSucc]

theorem pow2_pos (e : Int) : 0 < pow2 e := by rw [pow2_eq]; positivity

theorem pow2_ne (e : Int) : pow2 e ≠ 0 := (pow2_pos e).ne'

theorem pow2_add (a b : Int) : pow2 (a + b) = pow2 a * pow2 b := by
  simp only [pow2_eq]; exact zpow_add₀ (by norm_num) a b

theorem pow2_sub (a b : Int) : pow2 (a - b) = pow2 a / pow2 b := by
  simp only [pow2_eq]; exact zpow_sub₀ (by norm_num) a b

theorem pow2_le {a b : Int} : pow2 a ≤ pow2 b ↔ a ≤ b := by
  simp only [pow2_eq]; exact zpow_le_zpow_iff_right₀ (by norm_num)

theorem pow2_lt {a b : Int} : pow2 a < pow2 b ↔ a < b := by
  simp only [pow2_eq]; exact zpow_lt_zpow_iff_right₀ (by norm_num)

theorem pow2_natCast (n : Nat) : pow2 (n : Int) = ((2 ^ n : Nat) : Rat) := rfl

/-- `2^d` as an integer when `d ≥ 0` -/
theorem pow2_int {d : Int} (h : 0 ≤ d) : pow2 d = ((2 ^ d.toNat : Int) : Rat) := by
  obtain ⟨n, rfl⟩ := Int.eq_ofNat_of_zero_le h
  simp [pow2_natCast]

/-- the integer `e` with `2^e ≤ q < 2^(e+1)` (for `q > 0`) -/
def ilog2 (q : Rat) : Int :=
  let d : Int := (Nat.log2 q.num.natAbs : Int) - (Nat.log2 q.den : Int)
  if pow2 d ≤ q then d else d - 1

theorem ilog2_spec {q : Rat} (hq : 0 < q) : pow2 (ilog2 q) ≤ q ∧ q < pow2 (ilog2 q + 1) := by
  have hn : q.num.natAbs ≠ 0 := by
    have := Rat.num_pos.2 hq
    omega
  have hd : q.den ≠ 0 := q.den_nz
  have h1 : 2 ^ Nat.log2 q.num.natAbs ≤ q.num.natAbs := Nat.log2_self_le hn
  have h2 : q.num.natAbs < 2 ^ (Nat.log2 q.num.natAbs + 1) := Nat.lt_log2_self
  have h3 : 2 ^ Nat.log2 q.den ≤ q.den := Nat.log2_self_le hd
  have h4 : q.den < 2 ^ (Nat.log2 q.den + 1) := Nat.lt_log2_self
  have hqe : q = (q.num.natAbs : Rat) / (q.den : Rat) := by
    have h0 : (q.num.natAbs : Int) = q.num := Int.natAbs_of_nonneg (Rat.num_pos.2 hq).le
    have : ((q.num.natAbs : Int) : Rat) = (q.num : Rat) := by rw [h0]
    rw [Int.cast_natCast] at this
    rw [this, Rat.num_div_den]
  unfold ilog2
  simp only
  generalize Nat.log2 q.num.natAbs = a at *
  generalize Nat.log2 q.den = b at *
  have hdp : (0 : Rat) < q.den := by positivity
  have H1 : pow2 ((a : Int) - b - 1) ≤ q := by
    rw [hqe, le_div_iff₀ hdp]
    have : (q.den : Rat) ≤ pow2 ((b : Int) + 1) := by
      have := h4.le
      rw [show ((b : Int) + 1) = ((b + 1 : Nat) : Int) by omega, pow2_natCast]
      exact_mod_cast this
    calc pow2 ((a : Int) - b - 1) * q.den ≤ pow2 ((a : Int) - b - 1) * pow2 ((b : Int) + 1) :=
          mul_le_mul_of_nonneg_left this (pow2_pos _).le
      _ = pow2 (a : Int) := by rw [← pow2_add]; congr 1; ring
      _ ≤ q.num.natAbs := by rw [pow2_natCast]; exact_mod_cast h1
  have H2 : q < pow2 ((a : Int) - b + 1) := by
    rw [hqe, div_lt_iff₀ hdp]
    have : pow2 (b : Int) ≤ (q.den : Rat) := by
      rw [pow2_natCast]; exact_mod_cast h3
    calc (q.num.natAbs : Rat) < pow2 ((a : Int) + 1) := by
          rw [show ((a : Int) + 1) = ((a + 1 : Nat) : Int) by omega, pow2_natCast]
          exact_mod_cast h2
      _ = pow2 ((a : Int) - b + 1) * pow2 (b : Int) := by rw [← pow2_add]; congr 1; ring
      _ ≤ _ := mul_le_mul_of_nonneg_left this (pow2_pos _).le
  split
  · rename_i h; exact ⟨h, H2⟩
  · rename_i h
    refine ⟨H1, ?_⟩
    rw [show (a : Int) - b - 1 + 1 = (a : Int) - b by ring]
    exact not_le.1 h

/-- nearest integer, ties to even -/
def roundHalfEven (q : Rat) : Int :=
  let f := q.floor
  let r := q - (f : Rat)
  if r < 1 / 2 then f
  else if 1 / 2 < r then f + 1
  else if f % 2 = 0 then f else f + 1

theorem rat_floor_le (q : Rat) : (q.floor : Rat) ≤ q := by
  exact Int.floor_le q
theorem rat_lt_floor (q : Rat) : q < (q.floor : Rat) + 1 := by
  exact Int.lt_floor_add_one q

theorem roundHalfEven_abs (q : Rat) : |(roundHalfEven q : Rat) - q| ≤ 1 / 2 := by
  have h1 := rat_floor_le q
  have h2 := rat_lt_floor q
  unfold roundHalfEven
  simp only
  rw [abs_le]
  split
  · constructor <;> linarith
  · split
    · push_cast; constructor <;> linarith
    · split
      · constructor <;> linarith
      · push_cast; constructor <;> linarith

theorem roundHalfEven_nearest (q : Rat) (n : Int) : |(roundHalfEven q : Rat) - q| ≤ |(n : Rat) - q| := by
  have h1 := rat_floor_le q
  have h2 := rat_lt_floor q
  have key : ∀ m : Int, |(m : Rat) - q| ≤ 1/2 → |(m : Rat) - q| ≤ |(n : Rat) - q| := by
    intro m hm
    by_cases hmn : m = n
    · rw [hmn]
    · have : (1 : Rat) ≤ |(m : Rat) - n| := by
        rw [← Int.cast_sub, ← Int.cast_abs]
        have : 1 ≤ |m - n| := Int.one_le_abs (by omega)
        exact_mod_cast this
      have h3 : |(m : Rat) - n| ≤ |(m : Rat) - q| + |(n : Rat) - q| := by
        have := abs_sub_le (m : Rat) q n
        rwa [abs_sub_comm q (n : Rat)] at this
      linarith
  exact key _ (roundHalfEven_abs q)

theorem roundHalfEven_int (n : Int) : roundHalfEven (n : Rat) = n := by
  have := roundHalfEven_nearest (n : Rat) n
  rw [sub_self, abs_zero, abs_nonpos_iff, sub_eq_zero] at this
  exact_mod_cast this

theorem roundHalfEven_neg (q : Rat) : roundHalfEven (-q) = - roundHalfEven q := by
  have h1 := rat_floor_le q
  have h2 := rat_lt_floor q
  have hint : q = (q.floor : Rat) ∨ (q.floor : Rat) < q := by
    rcases eq_or_lt_of_le h1 with h | h
    · exact .inl h.symm
    · exact .inr h
  rcases hint with h | h
  · rw [h, ← Int.cast_neg, roundHalfEven_int, roundHalfEven_int]
  · have hf : (-q).floor = -q.floor - 1 := by
      refine (Int.floor_eq_iff (a := -q)).2 ?_
      push_cast; constructor <;> linarith
    unfold roundHalfEven
    simp only [hf]
    push_cast
    split_ifs <;> first | omega | (exfalso; linarith) | (exfalso; omega)

/-- a rounding format: precision and smallest exponent of the last place -/
structure RFmt where
  p : Nat
  emin : Int
  hp : 0 < p

/-- the exponent of the last place used for `q` -/
def ulpExp (f : RFmt) (q : Rat) : Int := max (ilog2 |q| - (f.p - 1)) f.emin

/-- round to nearest even with unbounded exponent range above -/
def rndQ (f : RFmt) (q : Rat) : Rat :=
  if q = 0 then 0 else
    let e := ulpExp f q
    (roundHalfEven (q / pow2 e) : Rat) * pow2 e

/-- values of the format: `m * 2^e` with at most `p` bits and `e ≥ emin` -/
def RepQ (f : RFmt) (q : Rat) : Prop :=
  ∃ m e : Int, q = m * pow2 e ∧ |m| ≤ 2 ^ f.p ∧ f.emin ≤ e

variable (f : RFmt)

theorem RepQ.zero : RepQ f 0 := ⟨0, f.emin, by simp, by simp, le_refl _⟩
theorem rndQ_zero : rndQ f 0 = 0 := by simp [rndQ]

variable {f}
theorem RepQ.neg {q : Rat} (h : RepQ f q) : RepQ f (-q) := by
  obtain ⟨m, e, h1, h2, h3⟩ := h
  exact ⟨-m, e, by rw [h1]; push_cast; ring, by rwa [abs_neg], h3⟩
theorem RepQ.abs {q : Rat} (h : RepQ f q) : RepQ f |q| := by
  rcases abs_choice q with e | e <;> rw [e]
  · exact h
  · exact h.neg

/-- integers up to `2^p` are representable (if `emin ≤ 0`) -/
theorem RepQ.int (he : f.emin ≤ 0) {n : Int} (h : |n| ≤ 2 ^ f.p) : RepQ f (n : Rat) :=
  ⟨n, 0, by simp [pow2], h, he⟩

theorem RepQ.dyadic {m e : Int} (h : |m| ≤ 2 ^ f.p) (he : f.emin ≤ e) : RepQ f (m * pow2 e) :=
  ⟨m, e, rfl, h, he⟩

/-- scaled value of a nonzero rational lies in `[2^(p-1), 2^p)` or the exponent is `emin` -/
theorem ulp_bound {q : Rat} (hq : q ≠ 0) : |q| < pow2 (ulpExp f q + f.p) := by
  have h := (ilog2_spec (abs_pos.2 hq)).2
  refine lt_of_lt_of_le h (pow2_le.2 ?_)
  unfold ulpExp
  omega

theorem ulp_lower {q : Rat} (hq : q ≠ 0) (h : f.emin < ulpExp f q) :
    pow2 (ulpExp f q + f.p - 1) ≤ |q| := by
  have h1 := (ilog2_spec (abs_pos.2 hq)).1
  refine le_trans (pow2_le.2 ?_) h1
  unfold ulpExp at *
  omega

theorem rndQ_rep (q : Rat) : RepQ f (rndQ f q) := by
  unfold rndQ
  split
  · exact RepQ.zero f
  rename_i hq
  refine RepQ.dyadic ?_ (le_max_right _ _)
  have hb := ulp_bound (f := f) hq
  rw [pow2_add] at hb
  set e := ulpExp f q
  have hpos := pow2_pos e
  have h1 : |q / pow2 e| < pow2 (f.p : Int) := by
    rw [abs_div, abs_of_pos hpos, div_lt_iff₀ hpos, mul_comm]; exact hb
  have h2 := roundHalfEven_abs (q / pow2 e)
  have h3 : |(roundHalfEven (q / pow2 e) : Rat)| < pow2 (f.p : Int) + 1 := by
    have := abs_sub_abs_le_abs_sub (roundHalfEven (q / pow2 e) : Rat) (q / pow2 e)
    linarith
  rw [pow2_natCast] at h3
  rw [← Int.cast_abs] at h3
  have : |roundHalfEven (q / pow2 e)| < 2 ^ f.p + 1 := by exact_mod_cast h3
  omega

/-- rounding returns a nearest value of the format -/
theorem rndQ_nearest (q : Rat) {r : Rat} (hr : RepQ f r) : |rndQ f q - q| ≤ |r - q| := by
  unfold rndQ
  split
  · rename_i h; rw [h]; simp
  rename_i hq
  simp only
  obtain ⟨m, e', rfl, hm, he'⟩ := hr
  set e := ulpExp f q with he
  have hpos := pow2_pos e
  have scale : ∀ n : Int, |(roundHalfEven (q / pow2 e) : Rat) * pow2 e - q| ≤ |(n : Rat) * pow2 e - q| := by
    intro n
    have h := roundHalfEven_nearest (q / pow2 e) n
    have k : ∀ a : Rat, |a * pow2 e - q| = |a - q / pow2 e| * pow2 e := by
      intro a
      rw [← abs_of_pos hpos, ← abs_mul, abs_of_pos hpos, sub_mul, div_mul_cancel₀ _ hpos.ne']
    rw [k, k]
    exact mul_le_mul_of_nonneg_right h hpos.le
  by_cases hee : e ≤ e'
  · -- r is a multiple of 2^e
    have : (m : Rat) * pow2 e' = ((m * 2 ^ (e' - e).toNat : Int) : Rat) * pow2 e := by
      rw [show e' = (e' - e) + e by ring, pow2_add, pow2_int (by omega : 0 ≤ e' - e)]
      push_cast
      rw [show (e' - e + e - e).toNat = (e' - e).toNat by congr 1; omega]
      ring
    rw [this]; exact scale _
  · have hlow := ulp_lower (f := f) hq (by omega)
    rw [← he] at hlow
    -- |r| ≤ 2^(e+p-1) ≤ |q|
    have hr : |(m : Rat) * pow2 e'| ≤ pow2 (e + f.p - 1) := by
      rw [abs_mul, abs_of_pos (pow2_pos e')]
      calc |(m : Rat)| * pow2 e' ≤ pow2 (f.p : Int) * pow2 e' := by
            apply mul_le_mul_of_nonneg_right _ (pow2_pos e').le
            rw [← Int.cast_abs, pow2_natCast]; exact_mod_cast hm
        _ = pow2 (f.p + e') := (pow2_add _ _).symm
        _ ≤ _ := pow2_le.2 (by omega)
    have hp := f.hp
    have hE : pow2 (e + f.p - 1) = ((2 ^ (f.p - 1) : Int) : Rat) * pow2 e := by
      rw [show e + (f.p : Int) - 1 = ((f.p - 1 : Nat) : Int) + e by omega, pow2_add, pow2_natCast]
      push_cast; ring
    rcases le_total 0 q with h0 | h0
    · rw [abs_of_nonneg h0] at hlow
      have hs := scale (2 ^ (f.p - 1))
      rw [← hE, abs_of_nonpos (by linarith : pow2 (e + f.p - 1) - q ≤ 0)] at hs
      have := (abs_le.1 hr).2
      have h2 := neg_abs_le ((m : Rat) * pow2 e' - q)
      linarith
    · rw [abs_of_nonpos h0] at hlow
      have hs := scale (-(2 ^ (f.p - 1)))
      have hE' : ((-(2 ^ (f.p - 1) : Int) : Int) : Rat) * pow2 e = - pow2 (e + f.p - 1) := by
        rw [hE]; push_cast; ring
      rw [hE', abs_of_nonneg (by linarith : 0 ≤ -pow2 (e + f.p - 1) - q)] at hs
      have := (abs_le.1 hr).1
      have h2 := le_abs_self ((m : Rat) * pow2 e' - q)
      linarith

theorem rndQ_of_rep {q : Rat} (h : RepQ f q) : rndQ f q = q := by
  have := rndQ_nearest (f := f) q h
  rw [sub_self, abs_zero, abs_nonpos_iff, sub_eq_zero] at this
  exact this

theorem rndQ_mono {q q' : Rat} (h : q ≤ q') : rndQ f q ≤ rndQ f q' := by
  by_contra hc
  push Not at hc
  have hlt : q < q' := lt_of_le_of_ne h (fun e => by rw [e] at hc; exact lt_irrefl _ hc)
  have h1 := rndQ_nearest q (rndQ_rep (f := f) q')
  have h2 := rndQ_nearest q' (rndQ_rep (f := f) q)
  set a := rndQ f q'
  set b := rndQ f q
  have h3 : (a + b) / 2 ≤ q := by
    by_contra hx
    push Not at hx
    rw [abs_of_pos (by linarith : 0 < b - q)] at h1
    rcases abs_cases (a - q) with ⟨e, _⟩ | ⟨e, _⟩ <;> rw [e] at h1 <;> linarith
  have h4 : q' ≤ (a + b) / 2 := by
    by_contra hx
    push Not at hx
    rw [abs_of_neg (by linarith : a - q' < 0)] at h2
    rcases abs_cases (b - q') with ⟨e, _⟩ | ⟨e, _⟩ <;> rw [e] at h2 <;> linarith
  linarith

theorem rndQ_neg (q : Rat) : rndQ f (-q) = - rndQ f q := by
  unfold rndQ
  by_cases hq : q = 0
  · simp [hq]
  · rw [if_neg hq, if_neg (neg_ne_zero.2 hq)]
    simp only [ulpExp, abs_neg, neg_div, roundHalfEven_neg]
    push_cast; ring

theorem rndQ_le {q r : Rat} (hr : RepQ f r) (h : q ≤ r) : rndQ f q ≤ r :=
  rndQ_of_rep hr ▸ rndQ_mono h
theorem le_rndQ {q r : Rat} (hr : RepQ f r) (h : r ≤ q) : r ≤ rndQ f q :=
  rndQ_of_rep hr ▸ rndQ_mono h
theorem rndQ_nonneg {q : Rat} (h : 0 ≤ q) : 0 ≤ rndQ f q := le_rndQ (RepQ.zero f) h
theorem rndQ_nonpos {q : Rat} (h : q ≤ 0) : rndQ f q ≤ 0 := rndQ_le (RepQ.zero f) h
theorem abs_rndQ (q : Rat) : |rndQ f q| = rndQ f |q| := by
  rcases le_total 0 q with h | h
  · rw [abs_of_nonneg h, abs_of_nonneg (rndQ_nonneg h)]
  · rw [abs_of_nonpos h, abs_of_nonpos (rndQ_nonpos h), rndQ_neg]

/-- absolute error: half a unit in the last place -/
theorem rndQ_err_ulp {q : Rat} (hq : q ≠ 0) : |rndQ f q - q| ≤ pow2 (ulpExp f q - 1) := by
  unfold rndQ
  rw [if_neg hq]
  simp only
  set e := ulpExp f q
  have hpos := pow2_pos e
  have k : |(roundHalfEven (q / pow2 e) : Rat) * pow2 e - q| =
      |(roundHalfEven (q / pow2 e) : Rat) - q / pow2 e| * pow2 e := by
    rw [← abs_of_pos hpos, ← abs_mul, abs_of_pos hpos, sub_mul, div_mul_cancel₀ _ hpos.ne']
  rw [k, pow2_sub]
  have := mul_le_mul_of_nonneg_right (roundHalfEven_abs (q / pow2 e)) hpos.le
  have h1 : pow2 1 = 2 := by norm_num [pow2]
  rw [h1]; linarith

/-- relative error `2^-p` in the normal range, absolute error `2^(emin-1)` below -/
theorem rndQ_err (q : Rat) : |rndQ f q - q| ≤ max (|q| * pow2 (-f.p)) (pow2 (f.emin - 1)) := by
  by_cases hq : q = 0
  · rw [hq, rndQ_zero]; simp [pow2_pos, le_of_lt]
  have h := rndQ_err_ulp (f := f) hq
  by_cases he : f.emin < ulpExp f q
  · apply le_max_of_le_left
    have hl := ulp_lower hq he
    refine h.trans ?_
    have : pow2 (ulpExp f q - 1) = pow2 (ulpExp f q + f.p - 1) * pow2 (-f.p) := by
      rw [← pow2_add]; congr 1; ring
    rw [this]
    exact mul_le_mul_of_nonneg_right hl (pow2_pos _).le
  · apply le_max_of_le_right
    have : ulpExp f q = f.emin := le_antisymm (by omega) (le_max_right _ _)
    rw [← this]; exact h

end Imgproc

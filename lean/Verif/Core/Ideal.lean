import Verif.Core.Float
import Mathlib.Analysis.SpecialFunctions.Pow.Real
import Mathlib.Analysis.SpecialFunctions.Trigonometric.Basic
/-!
The exact-arithmetic reading of the float code: every operation is the real-number operation.
A theorem about the model at `F := ℝ` says what the code computes up to rounding, overflow, NaN and
signed zeros (none of which exist here; division by zero gives 0, as in Mathlib).
-/
namespace Imgproc

/-- truncation toward zero -/
noncomputable def realTrunc (x : ℝ) : ℤ := if 0 ≤ x then ⌊x⌋ else ⌈x⌉
/-- nearest integer, halves away from zero -/
noncomputable def realRound (x : ℝ) : ℤ := if 0 ≤ x then ⌊x + 1 / 2⌋ else ⌈x - 1 / 2⌉

open Classical in
noncomputable instance instFloatOpsReal : FloatOps ℝ where
  lit q := (q : ℝ)
  add x y := x + y
  sub x y := x - y
  mul x y := x * y
  div x y := x / y
  rem x y := x - realTrunc (x / y) * y
  neg x := -x
  abs x := |x|
  sqrt x := Real.sqrt x
  floor x := (⌊x⌋ : ℤ)
  ceil x := (⌈x⌉ : ℤ)
  round x := (realRound x : ℤ)
  lt x y := decide (x < y)
  le x y := decide (x ≤ y)
  eq x y := decide (x = y)
  ofInt n := (n : ℝ)
  toInt lo hi x := max lo (min hi (realTrunc x))
  pow x y := x ^ y
  sin := Real.sin
  cos := Real.cos

namespace Ideal
open FloatOps
@[simp] theorem lit_eq (q : Rat) : (lit q : ℝ) = (q : ℝ) := rfl
@[simp] theorem add_eq (x y : ℝ) : (x +. y) = x + y := rfl
@[simp] theorem sub_eq (x y : ℝ) : (x -. y) = x - y := rfl
@[simp] theorem mul_eq (x y : ℝ) : (x *. y) = x * y := rfl
@[simp] theorem div_eq (x y : ℝ) : (x /. y) = x / y := rfl
@[simp] theorem neg_eq (x : ℝ) : FloatOps.neg x = -x := rfl
@[simp] theorem abs_eq (x : ℝ) : FloatOps.abs x = |x| := rfl
@[simp] theorem sqrt_eq (x : ℝ) : FloatOps.sqrt x = Real.sqrt x := rfl
@[simp] theorem pow_eq (x y : ℝ) : FloatOps.pow x y = x ^ y := rfl
@[simp] theorem ofInt_eq (n : ℤ) : (FloatOps.ofInt n : ℝ) = n := rfl
@[simp] theorem num_eq (n : ℤ) : (num n : ℝ) = n := by simp [num]
@[simp] theorem ofNat_eq (n : ℕ) : (FloatOps.ofNat n : ℝ) = n := by simp [FloatOps.ofNat]
@[simp] theorem ofU8_eq (n : UInt8) : (FloatOps.ofU8 n : ℝ) = n.toNat := by simp [FloatOps.ofU8]
theorem lt_eq (x y : ℝ) : (x <. y) = true ↔ x < y := decide_eq_true_iff
theorem le_eq (x y : ℝ) : (x <=. y) = true ↔ x ≤ y := decide_eq_true_iff
theorem eq_eq (x y : ℝ) : (x ==. y) = true ↔ x = y := decide_eq_true_iff
theorem toInt_eq (lo hi : ℤ) (x : ℝ) : FloatOps.toInt lo hi x = max lo (min hi (realTrunc x)) := rfl
@[simp] theorem floor_eq (x : ℝ) : FloatOps.floor x = (⌊x⌋ : ℤ) := rfl
@[simp] theorem round_eq (x : ℝ) : FloatOps.round x = (realRound x : ℤ) := rfl
end Ideal
end Imgproc

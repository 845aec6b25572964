import Verif.Core.Round
import Verif.Core.Float
import Mathlib.Data.Nat.Sqrt
/-!
Bit-accurate model of Rust's `f32` and `f64` (IEEE 754 binary32 / binary64, round to nearest even,
no NaN payloads), as an instance of `FloatOps`.

Trusted reading of IEEE 754 and of Rust's float casts: the definitions in this file (and `rndQ`).
`powf`, `sin`, `cos` are not specified by IEEE 754 and come from the platform's libm: they are a class
parameter `Libm`, and every theorem quantifies over it.
-/
namespace Imgproc

/-- a binary interchange format: `p` bits, last-place exponent at least `emin`, values below `2^emax` -/
structure Fmt extends RFmt where
  emax : Int

/-- binary32 -/
def f32 : Fmt := { p := 24, emin := -149, hp := by decide, emax := 128 }
/-- binary64 -/
def f64 : Fmt := { p := 53, emin := -1074, hp := by decide, emax := 1024 }

/-- floating-point data: `fin 0` is `+0` -/
inductive FP where
  | nan
  | inf (neg : Bool)
  | negZero
  | fin (q : Rat)
deriving DecidableEq

namespace FP

/-- the data of format `f` -/
def Rep (f : Fmt) : FP → Prop
  | fin q => RepQ f.toRFmt q ∧ |q| < pow2 f.emax
  | _ => True

/-- sign bit (NaN: positive) -/
def sign : FP → Bool
  | nan => false
  | inf s => s
  | negZero => true
  | fin q => decide (q < 0)

/-- signed zero -/
def zero (neg : Bool) : FP := if neg then negZero else fin 0

/-- value of a finite datum -/
def toQ? : FP → Option Rat
  | fin q => some q
  | negZero => some 0
  | _ => none

/-- the correctly rounded result of an operation with exact value `q`;
`neg` is the sign of an exact zero -/
def round (f : Fmt) (neg : Bool) (q : Rat) : FP :=
  if q = 0 then zero neg
  else
    let r := rndQ f.toRFmt q
    if r = 0 then zero (decide (q < 0))
    else if |r| < pow2 f.emax then fin r
    else inf (decide (q < 0))

theorem zero_rep (f : Fmt) (b : Bool) : (zero b).Rep f := by
  cases b
  · exact ⟨RepQ.zero _, by rw [abs_zero]; exact pow2_pos _⟩
  · trivial

theorem round_rep (f : Fmt) (b : Bool) (q : Rat) : (round f b q).Rep f := by
  unfold round
  split
  · exact zero_rep f b
  · simp only
    split
    · exact zero_rep f _
    · split
      · rename_i h; exact ⟨rndQ_rep q, h⟩
      · trivial

/-- truncation toward zero -/
def truncQ (q : Rat) : Int := if 0 ≤ q then q.floor else -(-q).floor
/-- nearest integer, halves away from zero -/
def roundAwayQ (q : Rat) : Int := if 0 ≤ q then (q + 1 / 2).floor else -(-q + 1 / 2).floor

def add (f : Fmt) (x y : FP) : FP :=
  match x, y with
  | nan, _ => nan
  | _, nan => nan
  | inf s, inf t => if s = t then inf s else nan
  | inf s, _ => inf s
  | _, inf t => inf t
  | negZero, negZero => negZero
  | negZero, fin b => round f false (0 + b)
  | fin a, negZero => round f false (a + 0)
  | fin a, fin b => round f false (a + b)

def neg : FP → FP
  | nan => nan
  | inf s => inf (!s)
  | negZero => fin 0
  | fin q => if q = 0 then negZero else fin (-q)

def abs : FP → FP
  | nan => nan
  | inf _ => inf false
  | negZero => fin 0
  | fin q => fin |q|

def mul (f : Fmt) (x y : FP) : FP :=
  match x.toQ?, y.toQ? with
  | some a, some b => round f (xor x.sign y.sign) (a * b)
  | some a, none => if y = nan ∨ a = 0 then nan else inf (xor x.sign y.sign)
  | none, some b => if x = nan ∨ b = 0 then nan else inf (xor x.sign y.sign)
  | none, none => if x = nan ∨ y = nan then nan else inf (xor x.sign y.sign)

def div (f : Fmt) (x y : FP) : FP :=
  match x.toQ?, y.toQ? with
  | some a, some b =>
    if b = 0 then (if a = 0 then nan else inf (xor x.sign y.sign))
    else round f (xor x.sign y.sign) (a / b)
  | some _, none => if y = nan then nan else zero (xor x.sign y.sign)
  | none, some _ => if x = nan then nan else inf (xor x.sign y.sign)
  | none, none => nan

/-- `fmod` -/
def rem (f : Fmt) (x y : FP) : FP :=
  match x.toQ?, y.toQ? with
  | some a, some b => if b = 0 then nan else round f x.sign (a - (truncQ (a / b) : Rat) * b)
  | some _, none => if y = nan then nan else x
  | none, _ => nan

/-- A rational that rounds like the real square root of `q > 0`: with `t = ⌊√q / 2^e⌋` for an `e` so
small that `t` has more than `p + 1` bits, it is `t·2^e` when exact and `(t + 1/2)·2^e` otherwise. -/
def sqrtApprox (f : Fmt) (q : Rat) : Rat :=
  let e : Int := (ilog2 q) / 2 - (f.p + 1)
  let t := Nat.sqrt (q / (pow2 e * pow2 e)).floor.toNat
  if (t : Rat) * t * (pow2 e * pow2 e) = q then (t : Rat) * pow2 e
  else ((t : Rat) + 1 / 2) * pow2 e

def sqrt (f : Fmt) : FP → FP
  | nan => nan
  | inf s => if s then nan else inf false
  | negZero => negZero
  | fin q => if q < 0 then nan else if q = 0 then fin 0 else round f false (sqrtApprox f q)

/-- apply an integer-valued function to a finite value, keeping the sign of zero results -/
def toIntegral (f : Fmt) (g : Rat → Int) (x : FP) : FP :=
  match x.toQ? with
  | some a => round f x.sign (g a : Rat)
  | none => x

def floor (f : Fmt) : FP → FP := toIntegral f Rat.floor
def ceil (f : Fmt) : FP → FP := toIntegral f Rat.ceil
def roundAway (f : Fmt) : FP → FP := toIntegral f roundAwayQ

def lt (x y : FP) : Bool :=
  match x.toQ?, y.toQ? with
  | some a, some b => decide (a < b)
  | some _, none => y ≠ nan && !y.sign
  | none, some _ => x ≠ nan && x.sign
  | none, none => x ≠ nan && y ≠ nan && x.sign && !y.sign

def le (x y : FP) : Bool :=
  match x.toQ?, y.toQ? with
  | some a, some b => decide (a ≤ b)
  | some _, none => y ≠ nan && !y.sign
  | none, some _ => x ≠ nan && x.sign
  | none, none => x ≠ nan && y ≠ nan && (x.sign || !y.sign)

/-- `as` to an integer type of range `lo..=hi` -/
def toInt (lo hi : Int) (x : FP) : Int :=
  match x with
  | nan => 0
  | inf s => if s then lo else hi
  | negZero => max lo (min hi 0)
  | fin q => max lo (min hi (truncQ q))

theorem add_rep (f : Fmt) (x y : FP) : (add f x y).Rep f := by
  unfold add
  split <;> first | trivial | exact round_rep _ _ _ | (split <;> trivial)

theorem mul_rep (f : Fmt) (x y : FP) : (mul f x y).Rep f := by
  unfold mul
  split
  · exact round_rep _ _ _
  all_goals split <;> trivial

theorem div_rep (f : Fmt) (x y : FP) : (div f x y).Rep f := by
  unfold div
  split
  · split
    · split <;> trivial
    · exact round_rep _ _ _
  · split
    · trivial
    · exact zero_rep _ _
  · split <;> trivial
  · trivial

theorem neg_rep {f : Fmt} {x : FP} (h : x.Rep f) : (neg x).Rep f := by
  cases x with
  | fin q =>
    unfold neg
    simp only
    split
    · trivial
    · exact ⟨h.1.neg, by rw [abs_neg]; exact h.2⟩
  | negZero => exact zero_rep f false
  | _ => trivial

theorem abs_rep {f : Fmt} {x : FP} (h : x.Rep f) : (abs x).Rep f := by
  cases x with
  | fin q => exact ⟨h.1.abs, by rw [abs_abs]; exact h.2⟩
  | negZero => exact zero_rep f false
  | _ => trivial

theorem rem_rep {f : Fmt} {x y : FP} (h : x.Rep f) : (rem f x y).Rep f := by
  unfold rem
  split
  · split
    · trivial
    · exact round_rep _ _ _
  · split
    · trivial
    · exact h
  · trivial

theorem sqrt_rep (f : Fmt) (x : FP) : (sqrt f x).Rep f := by
  unfold sqrt
  split
  · trivial
  · split <;> trivial
  · trivial
  · split
    · trivial
    · split
      · exact zero_rep f false
      · exact round_rep _ _ _

theorem toIntegral_rep {f : Fmt} (g) {x : FP} (h : x.Rep f) : (toIntegral f g x).Rep f := by
  unfold toIntegral
  split
  · exact round_rep _ _ _
  · exact h

end FP

/-- the floating-point type of format `f` -/
structure Flt (f : Fmt) where
  val : FP
  rep : val.Rep f

instance (f : Fmt) : DecidableEq (Flt f) := fun a b =>
  if h : a.val = b.val then isTrue (by cases a; cases b; cases h; rfl)
  else isFalse (fun e => h (by rw [e]))

theorem Flt.ext {f : Fmt} {a b : Flt f} (h : a.val = b.val) : a = b := by
  cases a; cases b; cases h; rfl

/-- the platform's transcendental functions: arbitrary -/
class Libm (f : Fmt) where
  pow : Flt f → Flt f → Flt f
  sin : Flt f → Flt f
  cos : Flt f → Flt f

/-- Rust's `f32` -/
abbrev F32 := Flt f32
/-- Rust's `f64` -/
abbrev F64 := Flt f64

/-- correctly rounded value of a rational -/
def Flt.ofRat (f : Fmt) (q : Rat) : Flt f := ⟨FP.round f false q, FP.round_rep _ _ _⟩

instance instFloatOpsFlt (f : Fmt) [Libm f] : FloatOps (Flt f) where
  lit q := Flt.ofRat f q
  add x y := ⟨FP.add f x.val y.val, FP.add_rep _ _ _⟩
  sub x y := ⟨FP.add f x.val (FP.neg y.val), FP.add_rep _ _ _⟩
  mul x y := ⟨FP.mul f x.val y.val, FP.mul_rep _ _ _⟩
  div x y := ⟨FP.div f x.val y.val, FP.div_rep _ _ _⟩
  rem x y := ⟨FP.rem f x.val y.val, FP.rem_rep x.rep⟩
  neg x := ⟨FP.neg x.val, FP.neg_rep x.rep⟩
  abs x := ⟨FP.abs x.val, FP.abs_rep x.rep⟩
  sqrt x := ⟨FP.sqrt f x.val, FP.sqrt_rep _ _⟩
  floor x := ⟨FP.floor f x.val, FP.toIntegral_rep _ x.rep⟩
  ceil x := ⟨FP.ceil f x.val, FP.toIntegral_rep _ x.rep⟩
  round x := ⟨FP.roundAway f x.val, FP.toIntegral_rep _ x.rep⟩
  lt x y := FP.lt x.val y.val
  le x y := FP.le x.val y.val
  eq x y := FP.le x.val y.val && FP.le y.val x.val
  ofInt n := Flt.ofRat f (n : Rat)
  toInt lo hi x := FP.toInt lo hi x.val
  pow := Libm.pow
  sin := Libm.sin
  cos := Libm.cos

end Imgproc

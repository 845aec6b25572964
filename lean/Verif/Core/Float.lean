import Verif.Core.Res
import Verif.Model.Error
/-!
The floating-point operations of Rust's `f32` / `f64` that the library uses, as an interface.
Models of float code are written once against this interface.  `Verif.Core.IEEE` gives the
bit-accurate (round-to-nearest-even) instances `F32` and `F64`; `Verif.Core.Ideal` gives the exact
real-number instance.  A theorem stated for every `F` with `FloatOps F` holds of both.
-/
namespace Imgproc

class FloatOps (F : Type) where
  /-- a decimal literal / compile-time constant, rounded to the type -/
  lit : Rat → F
  add : F → F → F
  sub : F → F → F
  mul : F → F → F
  div : F → F → F
  /-- `%` (fmod) -/
  rem : F → F → F
  neg : F → F
  abs : F → F
  sqrt : F → F
  floor : F → F
  ceil : F → F
  /-- `round`: nearest integer, halves away from zero -/
  round : F → F
  lt : F → F → Bool
  le : F → F → Bool
  eq : F → F → Bool
  /-- `int as f32` (correctly rounded) -/
  ofInt : Int → F
  /-- `f as int` for a type of range `lo..=hi`: truncates, saturates, NaN becomes 0 -/
  toInt : Int → Int → F → Int
  /-- `powf` -/
  pow : F → F → F
  sin : F → F
  cos : F → F

namespace FloatOps
variable {F : Type} [FloatOps F]

infixl:65 " +. " => FloatOps.add
infixl:65 " -. " => FloatOps.sub
infixl:70 " *. " => FloatOps.mul
infixl:70 " /. " => FloatOps.div
infix:50 " <. " => FloatOps.lt
infix:50 " <=. " => FloatOps.le
infix:50 " ==. " => FloatOps.eq

/-- `a > b` -/
abbrev gt (a b : F) : Bool := FloatOps.lt b a
/-- `a >= b` -/
abbrev ge (a b : F) : Bool := FloatOps.le b a
infix:50 " >. " => FloatOps.gt
infix:50 " >=. " => FloatOps.ge

/-- integer literal in float position, e.g. `0.0`, `255.0` -/
def num (n : Int) : F := lit (n : Rat)
/-- `x as f32` for unsigned x -/
def ofNat (n : Nat) : F := ofInt (n : Int)
/-- `x as f32` for a u8 -/
def ofU8 (b : UInt8) : F := ofInt (b.toNat : Int)
/-- `f as u8` -/
def toU8 (x : F) : UInt8 := UInt8.ofNat (toInt 0 255 x).toNat
/-- `f as u32` -/
def toU32 (x : F) : Nat := (toInt 0 4294967295 x).toNat
/-- `f as usize` -/
def toUsize (x : F) : Nat := (toInt 0 18446744073709551615 x).toNat
/-- `f as i32` -/
def toI32 (x : F) : Int := toInt (-2147483648) 2147483647 x

/-- std::f32::consts::PI (the f32 nearest to pi: 13176795 / 2^22) -/
def pi : F := lit (13176795 / 4194304 : Rat)
/-- std::f32::consts::E (the f32 nearest to e: 11401300 / 2^22) -/
def e : F := lit (11401300 / 4194304 : Rat)
/-- `f32::EPSILON` = 2^-23 -/
def epsilon : F := lit (1 / 8388608 : Rat)
/-- `to_radians`: `self * (PI / 180.0)` -/
def toRadians (x : F) : F := x *. (pi /. num 180)

/-- `f32::clamp(lo, hi)`: std asserts `lo <= hi`; NaN passes through -/
def clamp (x lo hi : F) : Res F :=
  if lo <=. hi then
    let x := if x <. lo then lo else x
    let x := if x >. hi then hi else x
    .ok x
  else panic .explicit

/-- f32 as a `Number` -/
def rnum : RNum F where
  ofU8 := ofU8
  eq := FloatOps.eq
  lt := FloatOps.lt
  add _ a b := .ok (a +. b)
  sub _ a b := .ok (a -. b)
  mul _ a b := .ok (a *. b)
  rem a b := .ok (FloatOps.rem a b)

/-- src/error/messages.rs:52-58 `check_square` -/
def checkSquare (val : F) : Res Unit :=
  if !(FloatOps.rem (FloatOps.sqrt val) (num 1) ==. num 0) then invalidArg else .ok ()

end FloatOps
end Imgproc

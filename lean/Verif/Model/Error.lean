import Verif.Core.Res
/-! Model of src/error/messages.rs (argument checks). Message strings are dropped. -/
namespace Imgproc

/-- The operations of the `Number` trait (src/image/mod.rs:89-124) used by the library:
`From<u8>`, `PartialEq`, `PartialOrd`, arithmetic. Integer instances depend on the build profile. -/
structure RNum (T : Type) where
  /-- `u8.into()` -/
  ofU8 : UInt8 → T
  /-- `==` -/
  eq : T → T → Bool
  /-- `<` -/
  lt : T → T → Bool
  add : Profile → T → T → Res T
  sub : Profile → T → T → Res T
  mul : Profile → T → T → Res T
  rem : T → T → Res T

/-- u8 as a `Number` -/
def u8Num : RNum UInt8 where
  ofU8 := id
  eq a b := a == b
  lt a b := decide (a < b)
  add P a b :=
    if a.toNat + b.toNat < 256 then .ok (a + b)
    else match P with | .debug => panic .overflow | .release => .ok (a + b)
  mul P a b :=
    if a.toNat * b.toNat < 256 then .ok (a * b)
    else match P with | .debug => panic .overflow | .release => .ok (a * b)
  sub P a b :=
    if b ≤ a then .ok (a - b)
    else match P with | .debug => panic .overflow | .release => .ok (a - b)
  rem a b := if b = 0 then panic .divZero else .ok (a % b)

/-- u32 as a `Number` (values are Nat) -/
def u32Num : RNum Nat where
  ofU8 := UInt8.toNat
  eq a b := a == b
  lt a b := decide (a < b)
  add := u32Add
  sub := u32Sub
  mul := u32Mul
  rem := natMod

/-- usize as a `Number` (values are Nat) -/
def usizeNum : RNum Nat where
  ofU8 := UInt8.toNat
  eq a b := a == b
  lt a b := decide (a < b)
  add := usizeAdd
  sub := usizeSub
  mul := usizeMul
  rem := natMod

/-- i16 / i32 as a `Number` (values are Int). `MIN % -1` overflows, in every profile. -/
def intNum (half : Int) : RNum Int where
  ofU8 u := (u.toNat : Int)
  eq a b := a == b
  lt a b := decide (a < b)
  add P a b := wrapInt P half (a + b)
  sub P a b := wrapInt P half (a - b)
  mul P a b := wrapInt P half (a * b)
  rem a b := if b = 0 then panic .divZero else if a = -half ∧ b = -1 then panic .overflow else .ok (Int.tmod a b)

def invalidArg {α} : Res α := .error (.err .invalidArg)

/-- src/error/messages.rs:4-9 `check_channels` (`len as u8` truncates) -/
def checkChannels (channels len : Nat) : Res Unit :=
  if channels ≠ natToU8 len then panic .explicit else .ok ()

/-- src/error/messages.rs:11-18 `check_xy` -/
def checkXY (x y width height : Nat) : Res Unit :=
  if x ≥ width then panic .explicit
  else if y ≥ height then panic .explicit
  else .ok ()

/-- src/error/messages.rs:20-26 `check_odd` -/
def checkOdd {T} (N : RNum T) (val : T) : Res Unit := do
  let r ← N.rem val (N.ofU8 2)
  if N.eq r (N.ofU8 0) then invalidArg else .ok ()

/-- src/error/messages.rs:28-34 `check_even` -/
def checkEven {T} (N : RNum T) (val : T) : Res Unit := do
  let r ← N.rem val (N.ofU8 2)
  if !N.eq r (N.ofU8 0) then invalidArg else .ok ()

/-- src/error/messages.rs:36-42 `check_non_neg` -/
def checkNonNeg {T} (N : RNum T) (val : T) : Res Unit :=
  if N.lt val (N.ofU8 0) then invalidArg else .ok ()

/-- src/error/messages.rs:44-50 `check_equal` -/
def checkEqual {T} [DecidableEq T] (a b : T) : Res Unit :=
  if a ≠ b then invalidArg else .ok ()

/-- src/error/messages.rs:60-66 `check_in_range` -/
def checkInRange {T} (N : RNum T) (val min max : T) : Res Unit :=
  if N.lt val min || N.lt max val then invalidArg else .ok ()

end Imgproc

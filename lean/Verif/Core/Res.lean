/-
Outcomes of Rust functions and machine-integer arithmetic.
Trusted reading of Rust semantics; nothing here is specific to imgproc-rs.
-/
namespace Imgproc

/-- Cargo build profile: `debug` has overflow checks (panic), `release` wraps. -/
inductive Profile where
  | debug | release
deriving DecidableEq, Repr

/-- Why a Rust function panicked. -/
inductive PanicKind where
  /-- slice / Vec index or range out of bounds, or `clone_from_slice` length mismatch -/
  | index
  /-- arithmetic overflow in an overflow-checked build -/
  | overflow
  /-- integer division or remainder by zero (panics in every profile) -/
  | divZero
  /-- `panic!` / `assert!` written in the code (or in std, e.g. `step_by(0)`, `clamp` with min > max) -/
  | explicit
  /-- `unwrap` on `None` / `Err` -/
  | unwrap
deriving DecidableEq, Repr

/-- Error values returned by the library (`ImgProcError`, `ImgIoError`); message strings dropped.
src/error/mod.rs:15-38 -/
inductive ErrKind where
  | invalidArg
  | numeric
  | rulinalg
  | unsupportedColorType
  | imageWrite
  | io
deriving DecidableEq, Repr

/-- Ways in which a call does not return a plain value. -/
inductive Fault where
  | panic (k : PanicKind)
  /-- the function returned `Err(..)` -/
  | err (e : ErrKind)
  /-- undefined behaviour: raw memory access outside its buffer -/
  | ub
deriving DecidableEq, Repr

/-- Result of running a Rust function. -/
abbrev Res (α : Type) := Except Fault α

deriving instance DecidableEq for Except

namespace Res
/-- the call panics -/
def Panics {α} (r : Res α) : Prop := ∃ k, r = .error (.panic k)
/-- the call returns `Err(InvalidArgError)` -/
def InvalidArg {α} (r : Res α) : Prop := r = .error (.err .invalidArg)
/-- the call returns normally -/
def Returns {α} (r : Res α) : Prop := ∃ a, r = .ok a
/-- the call runs into undefined behaviour -/
def UB {α} (r : Res α) : Prop := r = .error .ub
end Res

/-- Size of the u32 range, 2^32. -/
notation "U32SIZE" => (4294967296 : Nat)
/-- Size of the usize range on a 64-bit target, 2^64. -/
notation "USIZE" => (18446744073709551616 : Nat)

def panic {α} (k : PanicKind) : Res α := .error (.panic k)

/-- A mathematical result `v` of an unsigned operation on an `n`-value type. -/
def wrapNat (P : Profile) (n v : Nat) : Res Nat :=
  if v < n then .ok v
  else match P with
    | .debug => panic .overflow
    | .release => .ok (v % n)

def u32Add (P : Profile) (a b : Nat) : Res Nat := wrapNat P U32SIZE (a + b)
def u32Mul (P : Profile) (a b : Nat) : Res Nat := wrapNat P U32SIZE (a * b)
/-- u32 subtraction -/
def u32Sub (P : Profile) (a b : Nat) : Res Nat :=
  if b ≤ a then .ok (a - b)
  else match P with
    | .debug => panic .overflow
    | .release => .ok (a + U32SIZE - b)
def usizeAdd (P : Profile) (a b : Nat) : Res Nat := wrapNat P USIZE (a + b)
def usizeMul (P : Profile) (a b : Nat) : Res Nat := wrapNat P USIZE (a * b)
def usizeSub (P : Profile) (a b : Nat) : Res Nat :=
  if b ≤ a then .ok (a - b)
  else match P with
    | .debug => panic .overflow
    | .release => .ok (a + USIZE - b)
/-- integer division: panics on zero in every profile -/
def natDiv (a b : Nat) : Res Nat := if b = 0 then panic .divZero else .ok (a / b)
def natMod (a b : Nat) : Res Nat := if b = 0 then panic .divZero else .ok (a % b)

/-- Two's-complement reduction of an integer into the signed range of `2*half` values. -/
def wrapSigned (half : Int) (v : Int) : Int := (v + half) % (2 * half) - half

/-- A mathematical result `v` of a signed operation on the range `[-half, half)`. -/
def wrapInt (P : Profile) (half : Int) (v : Int) : Res Int :=
  if -half ≤ v ∧ v < half then .ok v
  else match P with
    | .debug => panic .overflow
    | .release => .ok (wrapSigned half v)

/-- i32 half range 2^31 -/
notation "I32HALF" => (2147483648 : Int)
/-- i16 half range 2^15 -/
notation "I16HALF" => (32768 : Int)

def i32Add (P : Profile) (a b : Int) : Res Int := wrapInt P I32HALF (a + b)
def i32Sub (P : Profile) (a b : Int) : Res Int := wrapInt P I32HALF (a - b)
def i32Mul (P : Profile) (a b : Int) : Res Int := wrapInt P I32HALF (a * b)
/-- signed division truncates toward zero; `MIN / -1` overflows (panics in every profile) -/
def i32Div (a b : Int) : Res Int :=
  if b = 0 then panic .divZero
  else if a = -I32HALF ∧ b = -1 then panic .overflow
  else .ok (Int.tdiv a b)
def i16Add (P : Profile) (a b : Int) : Res Int := wrapInt P I16HALF (a + b)
/-- i16 `abs`: overflows on MIN -/
def i16Abs (P : Profile) (a : Int) : Res Int := wrapInt P I16HALF (if a < 0 then -a else a)
def i16Div (a b : Int) : Res Int :=
  if b = 0 then panic .divZero
  else if a = -I16HALF ∧ b = -1 then panic .overflow
  else .ok (Int.tdiv a b)

/-- `x as i32` for a u32/usize value -/
def toI32 (x : Nat) : Int := wrapSigned I32HALF (x : Int)
/-- `x as i16` for a usize value -/
def toI16 (x : Nat) : Int := wrapSigned I16HALF (x : Int)
/-- `i as u32` for an i32 value -/
def i32ToU32 (i : Int) : Nat := (i % 4294967296).toNat
/-- `i as u8` for an i16/i32 value -/
def intToU8 (i : Int) : UInt8 := UInt8.ofNat (i % 256).toNat
/-- `usize as u32` -/
def usizeToU32 (n : Nat) : Nat := n % U32SIZE
/-- `as u8` from u32/usize kept as a number -/
def natToU8 (n : Nat) : Nat := n % 256
/-- integer `clamp(lo, hi)`: std asserts `lo <= hi` -/
def intClamp (v lo hi : Int) : Res Int :=
  if lo ≤ hi then .ok (if v < lo then lo else if v > hi then hi else v) else panic .explicit
def natClamp (v lo hi : Nat) : Res Nat :=
  if lo ≤ hi then .ok (if v < lo then lo else if v > hi then hi else v) else panic .explicit

/-- `.unwrap()` on an `ImgProcResult` -/
def unwrapRes {α} : Res α → Res α
  | .error (.err _) => panic .unwrap
  | r => r

/-- `slice[i]` with bounds check -/
def idx {α} (l : List α) (i : Nat) : Res α :=
  match l[i]? with
  | some a => .ok a
  | none => panic .index

/-- `slice[i] = v` with bounds check -/
def setIdx {α} (l : List α) (i : Nat) (v : α) : Res (List α) :=
  if i < l.length then .ok (l.set i v) else panic .index

/-- `&slice[start..stop]` with bounds checks (start > stop also panics) -/
def slice {α} (l : List α) (start stop : Nat) : Res (List α) :=
  if start ≤ stop ∧ stop ≤ l.length then .ok ((l.drop start).take (stop - start))
  else panic .index

/-- `slice[start..stop].clone_from_slice(p)`: range check, then length check -/
def writeSlice {α} (l : List α) (start stop : Nat) (p : List α) : Res (List α) :=
  if start ≤ stop ∧ stop ≤ l.length ∧ p.length = stop - start then
    .ok (l.take start ++ p ++ l.drop stop)
  else panic .index

/-! ### Loops -/

/-- `n` iterations of `f` starting at index `i` -/
def loopFrom {σ} (f : Nat → σ → Res σ) : Nat → Nat → σ → Res σ
  | 0, _, s => .ok s
  | n + 1, i, s => f i s >>= fun s' => loopFrom f n (i + 1) s'

/-- `for i in a..b { s = f(i, s) }` (empty when `b ≤ a`) -/
def forRange {σ} (a b : Nat) (s : σ) (f : Nat → σ → Res σ) : Res σ := loopFrom f (b - a) a s

/-- `for i in a..b` over signed integers -/
def forRangeI {σ} (a b : Int) (s : σ) (f : Int → σ → Res σ) : Res σ :=
  forRange 0 (b - a).toNat s (fun k s => f (a + (k : Int)) s)

/-- `for i in (a..b).step_by(step)`; std panics when `step = 0` -/
def forStep {σ} (a b step : Nat) (s : σ) (f : Nat → σ → Res σ) : Res σ :=
  if step = 0 then panic .explicit
  else forRange 0 ((b - a + step - 1) / step) s (fun k s => f (a + k * step) s)

/-- `for x in list` -/
def forList {α σ} : List α → σ → (α → σ → Res σ) → Res σ
  | [], s, _ => .ok s
  | a :: l, s, f => f a s >>= fun s' => forList l s' f

/-- `for (k, x) in list.iter().enumerate()`, counting from `k` -/
def forEnum {α σ} : List α → Nat → σ → (Nat → α → σ → Res σ) → Res σ
  | [], _, s, _ => .ok s
  | a :: l, k, s, f => f k a s >>= fun s' => forEnum l (k + 1) s' f

end Imgproc

import Verif.Model.Error
/-!
Specification for C129: the ways in which a call of the library may end.
-/
namespace Imgproc

/-- a call ends in order: it returns a value, panics, or returns `Err(InvalidArgError)`; no other error, no undefined behaviour -/
inductive Orderly {α : Type} : Res α → Prop where
  | value (a : α) : Orderly (.ok a)
  | panicked (k : PanicKind) : Orderly (.error (.panic k))
  | invalid : Orderly (.error (.err .invalidArg))

/-- the arithmetic of a channel type returns a value or panics -/
structure RNum.Orderly {T : Type} (N : RNum T) : Prop where
  add : ∀ P a b, Imgproc.Orderly (N.add P a b)
  sub : ∀ P a b, Imgproc.Orderly (N.sub P a b)
  mul : ∀ P a b, Imgproc.Orderly (N.mul P a b)
  rem : ∀ a b, Imgproc.Orderly (N.rem a b)

end Imgproc

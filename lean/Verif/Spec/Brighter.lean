import Verif.Spec.Moves
import Verif.Model.Filter
/-!
Specification for C133: relations between channel values that the operations of a filter respect.
-/
namespace Imgproc
open FloatOps

/-- a relation between channel values that survives weighted sums with the weights of `kernel` -/
structure SurvivesSums {F : Type} [FloatOps F] (R : F → F → Prop) (kernel : List F) : Prop where
  zero : R (num 0) (num 0)
  blank : R (ofU8 0) (ofU8 0)
  add : ∀ {a b c d}, R a b → R c d → R (a +. c) (b +. d)
  mul : ∀ k ∈ kernel, ∀ {a b}, R a b → R (k *. a) (k *. b)

/-- `b` is not darker than `a` (a NaN is not darker or brighter than anything) -/
def NotDarker {F : Type} [FloatOps F] (a b : F) : Prop := (b <. a) = false

/-- no weight is negative -/
def NonNegative {F : Type} [FloatOps F] (kernel : List F) : Prop := ∀ k ∈ kernel, (k <. num 0) = false

end Imgproc

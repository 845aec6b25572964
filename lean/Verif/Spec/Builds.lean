import Verif.Model.Error
/-!
Specification for C128: what it means that a debug build and a release build of the library agree.
-/
namespace Imgproc

/-- `d` is what a call did in the debug build (integer overflow checks on) and `r` what the same call did in the release build
(wrapping arithmetic): either the debug build stopped at an arithmetic overflow, or both did exactly the same (same value, same
`Err`, same panic) -/
inductive BuildsAgree {α : Type} (d r : Res α) : Prop where
  /-- the debug build stopped at an overflow -/
  | stopped (h : d = .error (.panic .overflow))
  /-- both builds did the same -/
  | same (h : d = r)

/-- the arithmetic of a channel type agrees in the two builds -/
structure RNum.Agrees {T : Type} (N : RNum T) : Prop where
  add : ∀ a b, BuildsAgree (N.add .debug a b) (N.add .release a b)
  sub : ∀ a b, BuildsAgree (N.sub .debug a b) (N.sub .release a b)
  mul : ∀ a b, BuildsAgree (N.mul .debug a b) (N.mul .release a b)

end Imgproc

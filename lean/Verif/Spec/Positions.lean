import Verif.Spec.Image
import Mathlib.Data.Set.Function
/-! Specification vocabulary for C137: operations that do not look at where a pixel is. -/
namespace Imgproc

/-- the positions of an image -/
def Image.positions {T : Type} (a : Image T) : Set (Nat × Nat) := {p | p.1 < a.info.width ∧ p.2 < a.info.height}

/-- spec: `b` has exactly the pixels of `a` at other places (possibly in another shape): `move` takes the positions of `b` one to
one onto those of `a`, and `b` shows at every position the pixel `a` shows at the position `move` says -/
structure Rearranged {T : Type} (move : Nat × Nat → Nat × Nat) (a b : Image T) : Prop where
  wf : b.WF
  channels : b.info.channels = a.info.channels
  alpha : b.info.alpha = a.info.alpha
  onto : Set.BijOn move b.positions a.positions
  pixel : ∀ (P : Profile) (p : Nat × Nat), p ∈ b.positions → b.getPixel P p.1 p.2 = a.getPixel P (move p).1 (move p).2

/-- spec: the operation returns on `a` and on every rearrangement of `a`, and the results are rearranged in the same way -/
def IgnoresPositions {T S : Type} (op : Image T → Res (Image S)) (a : Image T) : Prop :=
  ∀ move b, Rearranged move a b → ∃ o o', op a = .ok o ∧ op b = .ok o' ∧ Rearranged move o o'

end Imgproc

import Verif.Spec.Demo
import Verif.Proofs.IEEE
import Verif.Proofs.Loops
import Verif.Props.Image
import Verif.Model.Transform
/-! Property C62: `superimpose`. -/
namespace Imgproc
open FloatOps

/-- **C62 is violated by the code**: the range check is called with its arguments in the wrong order (it
asks whether 0.0 lies in [1.0, alpha]), so `superimpose` returns an error for all images, positions and
alphas, valid ones included. -/
theorem c62_always_rejected [Libm f32] (P : Profile) (back front : Image F32) (x y : Nat) (alpha : F32) :
    superimpose P back front x y alpha = .error (.err .invalidArg) := by
  unfold superimpose
  by_cases hc : back.info.channels = front.info.channels
  · rw [checkEqual_ok hc, ok_bind]
    have : checkInRange (FloatOps.rnum (F := F32)) (num 0) (num 1) alpha = invalidArg := by
      unfold checkInRange
      refine if_pos ?_
      have h : ((num 0 : F32) <. num 1) = true := by
        rw [lt_is (num32 (n := 0) (by decide)) (num32 (n := 1) (by decide))]; simp
      show ((num 0 : F32) <. num 1 || (alpha <. num 0)) = true
      rw [h, Bool.true_or]
    rw [this]; rfl
  · rw [checkEqual_err hc]; rfl

/-- so no input blends: the Ok outcome promised for equal channel counts and alpha in [0,1] never happens -/
theorem c62_never_blends [Libm f32] (P : Profile) (back front : Image F32) (x y : Nat) (alpha : F32) :
    ¬ Res.Returns (superimpose P back front x y alpha) := by
  rw [c62_always_rejected]
  rintro ⟨v, h⟩; cases h

/-- even for two images that differ in nothing but content, alpha 1/2, overlapping at the origin -/
example [Libm f32] (P : Profile) (a b c d e f g : F32) :
    superimpose P (gray6 a b c d e f) (gray6 f e d c b g) 0 0 (lit (1 / 2)) = .error (.err .invalidArg) :=
  c62_always_rejected P _ _ 0 0 _
end Imgproc

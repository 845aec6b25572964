import Verif.Spec.Image
/-! Specification vocabulary for C136: exchanging rows and columns. -/
namespace Imgproc

/-- the header with width and height exchanged -/
def ImageInfo.transpose (i : ImageInfo) : ImageInfo := ⟨i.height, i.width, i.channels, i.alpha⟩

/-- spec: `b` is `a` with rows and columns exchanged, as observed through the public `get_pixel` -/
structure TransposeOf {T : Type} (a b : Image T) : Prop where
  wf : b.WF
  header : b.info = a.info.transpose
  pixel : ∀ (P : Profile) (x y : Nat), x < a.info.height → y < a.info.width → b.getPixel P x y = a.getPixel P y x

/-- spec: `op` returns on `a`, `op'` returns on the transpose of `a`, and its result is the transpose of the first -/
def Transposes {T S : Type} (op op' : Image T → Res (Image S)) (a : Image T) : Prop :=
  ∀ b, TransposeOf a b → ∃ o o', op a = .ok o ∧ op' b = .ok o' ∧ TransposeOf o o'

end Imgproc

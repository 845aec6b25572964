import Verif.Spec.Image
/-!
Specification for C131: which images calls return.
-/
namespace Imgproc

/-- every value the computation returns satisfies `p` (nothing is said if it panics or returns an error) -/
def Gives {α : Type} (p : α → Prop) (r : Res α) : Prop := ∀ a, r = .ok a → p a

/-- a consistent image with the header `info`: the sizes fit the machine types and the buffer has exactly
`width * height * channels` elements -/
def Shaped {T : Type} (info : ImageInfo) (img : Image T) : Prop := img.WF ∧ img.info = info

end Imgproc

import Verif.Spec.Image
import Mathlib.Data.List.Forall2
/-!
Specification for C132: two computations that run alike on related values.
-/
namespace Imgproc

/-- two images with the same header whose buffers are related value by value -/
structure Image.Alike {T S : Type} (R : T → S → Prop) (a : Image T) (b : Image S) : Prop where
  header : a.info = b.info
  values : List.Forall₂ R a.data b.data

/-- both computations end the same way: they return related results, or stop with the same error or panic -/
def EndAlike {α β : Type} (Q : α → β → Prop) : Res α → Res β → Prop
  | .ok a, .ok b => Q a b
  | .error e, .error e' => e = e'
  | _, _ => False

/-- the same image with every channel value changed by `g` (the observable effect of `map_channels`) -/
def Image.recolour {T S : Type} (g : T → S) (img : Image T) : Image S := ⟨img.info, img.data.map g⟩

/-- `op` first and `map_channels g` afterwards, or `map_channels g` first and the same operation (`op'`) on the changed image: both
orders give the same image, or the operation fails in the same way -/
def CommutesWithMap {T S : Type} (P : Profile) (g : T → S) (op : Image T → Res (Image T)) (op' : Image S → Res (Image S)) : Prop :=
  ∀ img m, img.WF → img.mapChannels P (fun v => .ok (g v)) = .ok m →
    (∀ o, op img = .ok o → o.WF → ∃ o', op' m = .ok o' ∧ o.mapChannels P (fun v => .ok (g v)) = .ok o') ∧
    (∀ e, op img = .error e → op' m = .error e)

/-- every channel value of the result is a value of the given image or zero -/
def OnlyMoves {T : Type} (zero : T) (op : Image T → Res (Image T)) : Prop :=
  ∀ img o, op img = .ok o → ∀ v ∈ o.data, v ∈ img.data ∨ v = zero

end Imgproc

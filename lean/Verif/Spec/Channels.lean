import Verif.Spec.Image
/-! Specification vocabulary for C139: picking channels. -/
namespace Imgproc

/-- spec: `b` shows the channels `σ 0, …, σ (k - 1)` of `a` (possibly reordered or repeated), at every pixel, as observed through the
public `get_pixel`; whether the last channel is called alpha does not matter -/
structure ChannelsOf {T : Type} (σ : Nat → Nat) (k : Nat) (a b : Image T) : Prop where
  wf : b.WF
  width : b.info.width = a.info.width
  height : b.info.height = a.info.height
  channels : b.info.channels = k
  fewer : k ≤ a.info.channels
  inside : ∀ c < k, σ c < a.info.channels
  pixel : ∀ (P : Profile) (x y : Nat), x < a.info.width → y < a.info.height → ∃ p q, a.getPixel P x y = .ok p ∧ b.getPixel P x y = .ok q ∧
    ∀ c < k, q[c]? = p[σ c]?

/-- spec: the alpha channel of `a`, if it has one, is the alpha channel of `b`, and no colour channel of `b` -/
structure AlphaKept {T : Type} (σ : Nat → Nat) (k : Nat) (a b : Image T) : Prop where
  flag : b.info.alpha = a.info.alpha
  last : a.info.alpha = true → 0 < k ∧ σ (k - 1) = a.info.channels - 1
  colour : a.info.alpha = true → ∀ c < k - 1, σ c < a.info.channels - 1

/-- spec: picking channels of the image and applying `op` gives the same channels of the result of `op` -/
def PerChannel {T S : Type} (op : Image T → Res (Image S)) (a : Image T) : Prop :=
  ∀ σ k b, ChannelsOf σ k a b → ∃ o o', op a = .ok o ∧ op b = .ok o' ∧ ChannelsOf σ k o o'

/-- spec: the same for selections that keep the alpha channel in its place -/
def PerColourChannel {T S : Type} (op : Image T → Res (Image S)) (a : Image T) : Prop :=
  ∀ σ k b, ChannelsOf σ k a b → AlphaKept σ k a b → ∃ o o', op a = .ok o ∧ op b = .ok o' ∧ ChannelsOf σ k o o'

end Imgproc

import Verif.Spec.Image
/-! Small concrete images over any channel type, used by the non-vacuity examples beside the theorems. -/
namespace Imgproc
variable {T : Type}

/-- 3×2 grey image with the six given values -/
def gray6 (a b c d e f : T) : Image T := Image.fromVec 3 2 1 false [a, b, c, d, e, f]
theorem gray6_WF (a b c d e f : T) : (gray6 a b c d e f).WF :=
  ⟨show 3 < _ by decide, show 2 < _ by decide, show 1 < _ by decide, show 3 * 2 < _ by decide,
    show 3 * 2 * 1 < _ by decide, rfl⟩

/-- 2×1 grey image with alpha -/
def grayAlpha2 (a b c d : T) : Image T := Image.fromVec 2 1 2 true [a, b, c, d]
theorem grayAlpha2_WF (a b c d : T) : (grayAlpha2 a b c d).WF :=
  ⟨show 2 < _ by decide, show 1 < _ by decide, show 2 < _ by decide, show 2 * 1 < _ by decide,
    show 2 * 1 * 2 < _ by decide, rfl⟩

/-- 2×1 RGB image -/
def rgb2 (a b c d e f : T) : Image T := Image.fromVec 2 1 3 false [a, b, c, d, e, f]
theorem rgb2_WF (a b c d e f : T) : (rgb2 a b c d e f).WF :=
  ⟨show 2 < _ by decide, show 1 < _ by decide, show 3 < _ by decide, show 2 * 1 < _ by decide,
    show 2 * 1 * 3 < _ by decide, rfl⟩

/-- 1×1 RGBA image -/
def rgba1 (a b c d : T) : Image T := Image.fromVec 1 1 4 true [a, b, c, d]
theorem rgba1_WF (a b c d : T) : (rgba1 a b c d).WF :=
  ⟨show 1 < _ by decide, show 1 < _ by decide, show 4 < _ by decide, show 1 * 1 < _ by decide,
    show 1 * 1 * 4 < _ by decide, rfl⟩

/-- discharges concrete size conditions about these images and about literal lists -/
macro "dims" : tactic =>
  `(tactic| first
    | (simp [gray6, grayAlpha2, rgb2, rgba1, Image.fromVec]; done)
    | decide)
end Imgproc

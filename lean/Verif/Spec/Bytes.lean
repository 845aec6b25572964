import Verif.Spec.Image
import Mathlib.Data.Rat.Floor
import Mathlib.Algebra.Order.Field.Rat
/-! Specification vocabulary for C140: byte images that hold rounded values. -/
namespace Imgproc

/-- spec: the byte at channel `c` of column `x`, row `y` -/
def Image.byteAt (img : Image UInt8) (x y c : Nat) : Nat := ((img.px x y).getD c 0).toNat

/-- spec: `n` is the byte nearest to `q`: 0 below 0, 255 above 255, otherwise within one half, a tie going up -/
structure RoundsTo (q : Rat) (n : Nat) : Prop where
  byte : n ≤ 255
  low : (n : Rat) ≤ q + 1 / 2 ∨ n = 0
  high : q < n + 1 / 2 ∨ n = 255

/-- spec: `op` returns an image with header `info` whose bytes are the exact values, rounded -/
def BytesRounded (op : Res (Image UInt8)) (info : ImageInfo) (val : Nat → Nat → Nat → Rat) : Prop :=
  ∃ out, op = .ok out ∧ out.WF ∧ out.info = info ∧ ∀ (P : Profile) x y, x < info.width → y < info.height →
    ∃ p, out.getPixel P x y = .ok p ∧ p.length = info.channels ∧
      ∀ c < info.channels, ∃ v : UInt8, p[c]? = some v ∧ RoundsTo (val x y c) v.toNat

/-- spec: `op` returns an image with header `info` whose bytes are the values, saturated at 0 and 255, to within one half plus `err` -/
def BytesNear (op : Res (Image UInt8)) (info : ImageInfo) (val : Nat → Nat → Nat → Rat) (err : Rat) : Prop :=
  ∃ out, op = .ok out ∧ out.WF ∧ out.info = info ∧ ∀ (P : Profile) x y, x < info.width → y < info.height →
    ∃ p, out.getPixel P x y = .ok p ∧ p.length = info.channels ∧
      ∀ c < info.channels, ∃ v : UInt8, p[c]? = some v ∧ |(v.toNat : Rat) - max 0 (min 255 (val x y c))| ≤ 1 / 2 + err

/-- spec: the bytes of channel `c` at most `r` columns and `r` rows from `(x, y)` lie between `lo` and `hi` -/
def Image.WindowBytes (img : Image UInt8) (x y c r lo hi : Nat) : Prop :=
  ∀ i j, i < img.info.width → j < img.info.height → i ≤ x + r → x ≤ i + r → j ≤ y + r → y ≤ j + r →
    lo ≤ img.byteAt i j c ∧ img.byteAt i j c ≤ hi

/-- spec: `n` is the integer nearest to the square root of `N`, saturated at 255 -/
structure RootByte (N : Int) (n : Nat) : Prop where
  byte : n ≤ 255
  low : n = 0 ∨ (2 * (n : Int) - 1) ^ 2 ≤ 4 * N
  high : n = 255 ∨ 4 * N < (2 * (n : Int) + 1) ^ 2

end Imgproc

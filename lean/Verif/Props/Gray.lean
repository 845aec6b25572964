import Verif.Spec.Demo
import Verif.Proofs.Colour
import Verif.Model.Simd
import Verif.Props.Image
import Verif.Props.Hsv
/-! Property C29 (scalar grayscale conversion). -/
namespace Imgproc

/-- spec: truncated mean of the bytes of a list -/
def meanU8 (p : List UInt8) : Nat := (p.map UInt8.toNat).sum / p.length

theorem sum_le_255 (p : List UInt8) : (p.map UInt8.toNat).sum ≤ 255 * p.length := by
  induction p with
  | nil => simp
  | cons a l ih => have := a.toNat_lt; simp only [List.map_cons, List.sum_cons, List.length_cons]; omega

theorem meanU8_le (p : List UInt8) : meanU8 p ≤ 255 := by
  unfold meanU8
  exact Nat.div_le_of_le_mul (by have := sum_le_255 p; rwa [Nat.mul_comm] at this)

/-- the mean lies between any bounds on the values -/
theorem meanU8_between {p : List UInt8} (hp : p ≠ []) {lo hi : UInt8} (h : ∀ v ∈ p, lo ≤ v ∧ v ≤ hi) :
    lo.toNat ≤ meanU8 p ∧ meanU8 p ≤ hi.toNat := by
  have key : lo.toNat * p.length ≤ (p.map UInt8.toNat).sum ∧ (p.map UInt8.toNat).sum ≤ hi.toNat * p.length := by
    clear hp
    induction p with
    | nil => simp
    | cons a l ih =>
      have ha := h a (by simp)
      rw [UInt8.le_iff_toNat_le, UInt8.le_iff_toNat_le] at ha
      have := ih (fun v hv => h v (by simp [hv]))
      simp only [List.map_cons, List.sum_cons, List.length_cons, Nat.mul_succ]; omega
  have hl : 0 < p.length := List.length_pos_iff.2 hp
  unfold meanU8
  exact ⟨(Nat.le_div_iff_mul_le hl).2 key.1, Nat.div_le_of_le_mul (by rw [Nat.mul_comm]; exact key.2)⟩

theorem graySum_ok (P : Profile) (p : List UInt8) (s : Nat) (h : s + 255 * p.length < 32768) :
    forList p (s : Int) (fun c sum => i16Add P sum (c.toNat : Int)) =
      .ok ((s + (p.map UInt8.toNat).sum : Nat) : Int) := by
  induction p generalizing s with
  | nil => simp [forList]
  | cons a l ih =>
    have ha := a.toNat_lt
    simp only [List.length_cons] at h
    unfold forList
    dsimp only
    rw [i16Add_ok (by omega) (by omega), ok_bind, ← Int.natCast_add, ih _ (by omega)]
    simp only [List.map_cons, List.sum_cons, Nat.add_assoc]

theorem i16Div_ok {a b : Int} (hb : 0 < b) : i16Div a b = .ok (a.tdiv b) := by
  unfold i16Div; rw [if_neg (by omega), if_neg (by omega)]

theorem grayPixel_ok (P : Profile) (p out : List UInt8) (h0 : 0 < p.length) (h : p.length ≤ 128) :
    (do
      let sum ← forList p (0 : Int) fun c sum => i16Add P sum (c.toNat : Int)
      let q ← i16Div sum (Imgproc.toI16 p.length)
      (.ok (out ++ [intToU8 q]) : Res (List UInt8))) = .ok (out ++ [UInt8.ofNat (meanU8 p)]) := by
  have e := graySum_ok P p 0 (by omega)
  rw [Int.natCast_zero] at e
  rw [e, ok_bind]
  have hl : Imgproc.toI16 p.length = (p.length : Int) := by
    unfold Imgproc.toI16 wrapSigned; omega
  rw [hl, i16Div_ok (by omega), ok_bind, Nat.zero_add]
  rw [show (((p.map UInt8.toNat).sum : Nat) : Int).tdiv (p.length : Int) = ((meanU8 p : Nat) : Int) by
    rw [Int.tdiv_eq_ediv_of_nonneg (by omega)]; unfold meanU8; simp]
  have := meanU8_le p
  unfold intToU8
  rw [show ((meanU8 p : Int) % 256).toNat = meanU8 p by omega]

/-- **C29** Without AVX2, grayscale conversion maps every pixel with 1 to 128 colour channels to the
truncated mean of its colour values followed by its alpha; missing: more than 128 colour channels,
where the 16-bit sum overflows (`c29_violated`). -/
theorem c29_grayscale_partial {F} [FloatOps F] (P : Profile) (img : Image UInt8) (h : img.WF)
    (hpos : 0 < img.info.width ∧ 0 < img.info.height) (h1 : 0 < img.info.colours) (h2 : img.info.colours ≤ 128) :
    ∃ out, rgbToGrayscale F false P img = .ok out ∧
      out.Shows { img.info with channels := 1 + (if img.info.alpha then 1 else 0) } (fun x y =>
        [UInt8.ofNat (meanU8 (img.info.colour (img.px x y)))] ++ img.info.alphaOf (img.px x y)) := by
  unfold rgbToGrayscale
  simp only [Bool.false_eq_true, if_false]
  unfold rgbToGrayscaleNorm
  have hc : img.info.alpha = true → 0 < img.info.channels := by
    intro ha; unfold ImageInfo.colours at h1; rw [ha] at h1; simp at h1; omega
  have hle : 1 + (if img.info.alpha then 1 else 0) ≤ img.info.channels := by
    unfold ImageInfo.colours at h1
    cases ha : img.info.alpha <;> rw [ha] at h1 <;> simp at * <;> omega
  obtain ⟨out, e, ho⟩ := Image.mapPixelsIfAlpha_colour P h hpos hc (k := 1)
    (f' := fun p => [UInt8.ofNat (meanU8 p)]) (g := fun a => .ok a) (g' := id)
    (f := fun channels out => do
      let sum ← forList channels (0 : Int) fun c sum => i16Add P sum (c.toNat : Int)
      let q ← i16Div sum (Imgproc.toI16 channels.length)
      .ok (out ++ [intToU8 q]))
    (by have := h.channels; omega)
    (Nat.lt_of_le_of_lt (Nat.mul_le_mul_left _ hle) h.full)
    (fun x y hx hy => ⟨by
      have := img.info.colour_length (Image.px_length h hx hy)
      rw [grayPixel_ok P _ _ (by omega) (by omega)]; rfl, rfl⟩)
    (fun _ _ => rfl)
  exact ⟨out, e, by simpa using ho⟩

example {F} [FloatOps F] (P : Profile) (a b c d : UInt8) :
    ∃ out, rgbToGrayscale F false P (rgba1 a b c d) = .ok out ∧
      out.getPixel P 0 0 = .ok [UInt8.ofNat (meanU8 [a, b, c]), d] := by
  obtain ⟨out, h, ho⟩ := c29_grayscale_partial (F := F) P _ (rgba1_WF a b c d) (by dims)
    (show 0 < 3 by decide) (show 3 ≤ 128 by decide)
  exact ⟨out, h, ho.2.2 P 0 0 (show 0 < 1 by decide) (show 0 < 1 by decide)⟩

/-- **C29** the grey value lies between the pixel's smallest and largest colour value -/
theorem c29_between {p : List UInt8} {lo hi : UInt8} (h : Spans p lo hi) :
    lo ≤ UInt8.ofNat (meanU8 p) ∧ UInt8.ofNat (meanU8 p) ≤ hi := by
  obtain ⟨hlo, hhi, hb⟩ := h
  have := meanU8_between (List.ne_nil_of_mem hlo) hb
  have h255 := meanU8_le p
  rw [UInt8.le_iff_toNat_le, UInt8.le_iff_toNat_le, UInt8.toNat_ofNat_of_lt' (show _ < 256 by omega)]
  exact this

example : Spans [(10 : UInt8), 20, 33] 10 33 ∧ UInt8.ofNat (meanU8 [10, 20, 33]) = 21 := by
  constructor
  · simp [Spans]
  · rfl

/-- **C29** the gap: a white pixel with 129 colour channels panics in a debug build. -/
theorem c29_violated {F} [FloatOps F] :
    Res.Panics (rgbToGrayscale F false .debug (Image.fromVec 1 1 129 false (List.replicate 129 255))) := by
  unfold rgbToGrayscale
  simp only [Bool.false_eq_true, if_false]
  exact ⟨.overflow, by decide +kernel⟩

example : rgbToGrayscaleNorm .debug demoA = .ok (Image.fromVec 2 1 2 true [2, 4, 6, 8]) := by decide +kernel
end Imgproc

import Verif.Props.Gray
import Verif.Proofs.ExactSum
import Verif.Core.Ideal
/-! Property C100: grayscale conversion of float images. -/
namespace Imgproc
open FloatOps

section
variable {F : Type} [FloatOps F]

/-- left-to-right float sum divided by the number of values -/
def floatMean (p : List F) : F := p.foldl (fun s c => s +. c) (num 0) /. ofNat p.length

theorem forList_sum (l : List F) (s : F) :
    forList l s (fun c sum => .ok (sum +. c)) = .ok (l.foldl (fun s c => s +. c) s) := by
  induction l generalizing s with
  | nil => rfl
  | cons a l ih => exact ih _

/-- **C100** `rgb_to_grayscale_f32` returns, for every non-empty image with at least one colour channel and in every
arithmetic, the mean of the colour values of each pixel (summed left to right) followed by its alpha value. -/
theorem c100_value (P : Profile) (img : Image F) (h : img.WF) (hpos : 0 < img.info.width ∧ 0 < img.info.height)
    (h1 : 0 < img.info.colours) :
    ∃ out, rgbToGrayscaleF32 P img = .ok out ∧
      out.Shows { img.info with channels := 1 + (if img.info.alpha then 1 else 0) } (fun x y =>
        [floatMean (img.info.colour (img.px x y))] ++ img.info.alphaOf (img.px x y)) := by
  have hc : img.info.alpha = true → 0 < img.info.channels := by
    intro ha; unfold ImageInfo.colours at h1; rw [ha] at h1; simp at h1; omega
  have hle : 1 + (if img.info.alpha then 1 else 0) ≤ img.info.channels := by
    unfold ImageInfo.colours at h1
    cases ha : img.info.alpha <;> rw [ha] at h1 <;> simp at * <;> omega
  obtain ⟨out, e, ho⟩ := Image.mapPixelsIfAlpha_colour P h hpos hc (k := 1)
    (f' := fun p => [floatMean p]) (g := fun a => .ok a) (g' := id)
    (f := fun channels out => do
      let sum ← forList channels (num 0 : F) fun c sum => .ok (sum +. c)
      .ok (out ++ [sum /. ofNat channels.length]))
    (by have := h.channels; omega)
    (Nat.lt_of_le_of_lt (Nat.mul_le_mul_left _ hle) h.full)
    (fun x y hx hy => ⟨by rw [forList_sum, ok_bind]; rfl, rfl⟩)
    (fun _ _ => rfl)
  exact ⟨out, e, by simpa using ho⟩
end

/-! ### exact arithmetic -/

theorem floatMean_real (p : List ℝ) : floatMean p = p.sum / p.length := by
  have key : ∀ (l : List ℝ) (s : ℝ), l.foldl (fun s c => s +. c) s = s + l.sum := by
    intro l
    induction l with
    | nil => intro s; simp
    | cons a l ih => intro s; rw [List.foldl_cons, ih, List.sum_cons]; show s + a + _ = _; ring
  unfold floatMean
  rw [key, Ideal.div_eq, Ideal.ofNat_eq]; simp

/-- **C100** (exact arithmetic) the grey value is the mean of the colour values: between the smallest and the largest, equal
to the common value of a grey pixel, and independent of the order of the channels. -/
theorem c100_mean (p : List ℝ) (hp : p ≠ []) :
    floatMean p = p.sum / p.length ∧
    (∀ lo hi, (∀ v ∈ p, lo ≤ v ∧ v ≤ hi) → lo ≤ floatMean p ∧ floatMean p ≤ hi) ∧
    (∀ v, (∀ w ∈ p, w = v) → floatMean p = v) ∧
    (∀ q, q.Perm p → floatMean q = floatMean p) := by
  have hl : (0 : ℝ) < p.length := by exact_mod_cast List.length_pos_iff.2 hp
  have bd : ∀ lo hi, (∀ v ∈ p, lo ≤ v ∧ v ≤ hi) → lo ≤ floatMean p ∧ floatMean p ≤ hi := by
    intro lo hi hb
    rw [floatMean_real, le_div_iff₀ hl, div_le_iff₀ hl]
    have a := List.card_nsmul_le_sum p lo (fun v hv => (hb v hv).1)
    have b := List.sum_le_card_nsmul p hi (fun v hv => (hb v hv).2)
    rw [nsmul_eq_mul] at a b
    constructor <;> linarith
  refine ⟨floatMean_real p, bd, fun v hv => ?_, fun q hq => ?_⟩
  · have := bd v v (fun w hw => by rw [hv w hw]; exact ⟨le_refl _, le_refl _⟩)
    linarith [this.1, this.2]
  · rw [floatMean_real, floatMean_real, hq.sum_eq, hq.length_eq]

/-! ### IEEE -/
section
variable [Libm f32]

theorem foldl_ints {p : List F32} {v : List Int} (h : List.Forall₂ (fun (r : F32) (n : Int) => r.Is (n : Rat)) p v) :
    ∀ {s : F32} {k : Int}, s.Is (k : Rat) → |k| + (v.map (|·|)).sum ≤ 16777216 →
      (p.foldl (fun s c => s +. c) s).Is (((k + v.sum : Int)) : Rat) := by
  induction h with
  | nil => intro s k hs _; simpa using hs
  | @cons a n p v ha _ ih =>
    intro s k hs hb
    rw [List.map_cons, List.sum_cons] at hb
    have hnn : 0 ≤ (v.map (|·|)).sum := List.sum_nonneg (by simp)
    have h1 : |k + n| ≤ |k| + |n| := abs_add_le k n
    have hadd := add_exact hs ha (by
      have := f32_int (n := k + n) (by omega)
      push_cast at this; exact this)
    have := ih (s := s +. a) (k := k + n) (by push_cast; exact hadd) (by omega)
    rw [List.foldl_cons, List.sum_cons, ← add_assoc]
    exact this

/-- **C100** (IEEE f32) For integer-valued channels whose absolute values sum to at most 2^24 the sum is exact, so the grey
value is the correctly rounded mean; a grey pixel (all channels `v`) gives exactly `v`. -/
theorem c100_ieee {p : List F32} {v : List Int} (h : List.Forall₂ (fun (r : F32) (n : Int) => r.Is (n : Rat)) p v)
    (hp : p ≠ []) (hb : (v.map (|·|)).sum ≤ 16777216) (hl : p.length ≤ 16777216) :
    (∀ n : Int, v.sum = n * p.length → (floatMean p).Is (n : Rat)) ∧
    (|f32.rnd ((v.sum : Rat) / p.length)| < pow2 f32.emax → (floatMean p).Is (f32.rnd ((v.sum : Rat) / p.length))) := by
  have hs := foldl_ints h (s := (num 0 : F32)) (k := 0) (by simpa using num32 (n := 0) (by decide)) (by simpa using hb)
  rw [zero_add] at hs
  have hn : (ofNat p.length : F32).Is (p.length : Rat) := nat32 hl
  have h0 : (p.length : Rat) ≠ 0 := by exact_mod_cast (List.length_pos_iff.2 hp).ne'
  refine ⟨fun n e => ?_, fun hr => div_is hs hn h0 hr⟩
  have e' : (v.sum : Rat) / p.length = n := by rw [e]; push_cast; field_simp
  have hle : |n| ≤ |v.sum| := by
    rw [e, abs_mul]
    have : (1 : Int) ≤ |(p.length : Int)| := by
      rw [abs_of_nonneg (by omega)]
      have := List.length_pos_iff.2 hp
      omega
    exact le_mul_of_one_le_right (abs_nonneg n) this
  have hsum : |v.sum| ≤ (v.map (|·|)).sum := by
    clear h hs e e' hle hb
    induction v with
    | nil => simp
    | cons a v ih => rw [List.sum_cons, List.map_cons, List.sum_cons]; exact le_trans (abs_add_le a v.sum) (by omega)
  have := div_exact hs hn h0 (by rw [e']; exact f32_int (by omega))
  rwa [e'] at this
end

/-- an RGB pixel (10, 20, 33) in IEEE arithmetic: the sum is 63 and the grey value exactly 21 -/
example [Libm f32] : (floatMean [(num 10 : F32), num 20, num 33]).Is 21 := by
  have := (c100_ieee (p := [(num 10 : F32), num 20, num 33]) (v := [10, 20, 33])
    (.cons (num32 (by decide)) (.cons (num32 (by decide)) (.cons (num32 (by decide)) .nil))) (by simp) (by decide) (by simp)).1 21
    (by simp)
  simpa using this
example (P : Profile) (a b c d e g : ℝ) : ∃ out, rgbToGrayscaleF32 P (rgb2 a b c d e g) = .ok out ∧
    out.px 0 0 = [floatMean [a, b, c]] := by
  obtain ⟨out, e, h⟩ := c100_value P _ (rgb2_WF a b c d e g) (by dims) (show 0 < 3 by decide)
  exact ⟨out, e, h.px_eq (show 0 < 2 by decide) (show 0 < 1 by decide)⟩
end Imgproc

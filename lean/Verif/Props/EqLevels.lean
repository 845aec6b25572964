import Verif.Props.LabBackErr
import Verif.Props.EqualizeF32
/-! Property C127, continued: the bytes `histogram_equalization` returns. -/
namespace Imgproc
open FloatOps

section
variable [Libm f32]

/-- **C127** (f32) histogram equalization: every pixel becomes the levels of the linear colour whose lightness is
`100 alpha s + (1 - alpha) l`, where `l` is the lightness of the pixel and `s` the share of pixels (plus that of occupied bins, see C26)
that are not lighter, and whose other two coordinates are those of the pixel, with an error of at most `0.00146 m² + 2e-5` in linear
light, where `m` bounds the three CIELAB arguments of the new colour. Alpha is kept. -/
theorem c127_equalize (hp : PowAccurate) (P : Profile) (white : White) (img : Image UInt8) (h : img.WF)
    (hpos : 0 < img.info.width ∧ 0 < img.info.height) (h3 : img.info.colours = 3)
    (hsmall : img.info.width * img.info.height < 1073741824)
    (alpha precision : F32) (α : Rat) (ha : alpha.Is α) (a0 : 0 ≤ α) (a1 : α ≤ 1) (hprec : (precision <. (num 0 : F32)) = false) :
    ∃ (lab : Image F32) (out : Image UInt8), srgbToLab P img white = .ok lab ∧
      histogramEqualization P img alpha white precision = .ok out ∧ out.WF ∧ out.info = img.info ∧
      ∀ x y, x < img.info.width → y < img.info.height →
        img.info.alphaOf (out.px x y) = img.info.alphaOf (img.px x y) ∧
        ∃ (p q r : UInt8) (L A B : F32), img.info.colour (img.px x y) = [p, q, r] ∧ labOfSrgb white [p, q, r] = [L, A, B] ∧
          0 ≤ lab.share precision (histKey L precision) ∧ lab.share precision (histKey L precision) ≤ 2 ∧
          ∀ l a b l' m : ℝ, exactLab white p q r = (l, a, b) →
          l' = 100 * (α : ℝ) * (lab.share precision (histKey L precision) : Rat) + (1 - α) * l →
          6 / 29 ≤ m → m ≤ 1.2 → (l' + 16) / 116 + a / 500 + 1e-4 ≤ m → (l' + 16) / 116 + 1e-4 ≤ m → (l' + 16) / 116 - b / 200 + 1e-4 ≤ m →
          List.Forall₂ (fun c s => s ≤ 1.89 → LevelOf c s (0.00146 * m ^ 2 + 2e-5)) (img.info.colour (out.px x y)) (labLinear white l' a b) := by
  obtain ⟨lab, out, e1, e2, hw, hi, hs⟩ := c112_value hp P white img h hpos h3 hsmall alpha precision α ha a0 a1 hprec
  have z : (num 0 : F32).Is 0 := by simpa using num32 (n := 0) (by decide)
  have o : (num 1 : F32).Is 1 := by simpa using num32 (n := 1) (by decide)
  obtain ⟨lab2, -, e1', -, -, -, w1, w2, -, hle, -⟩ := equalize32 hp P white img h hpos h3 hsmall alpha precision hprec
    (by rw [lt_is ha z]; simpa using a0) (by rw [lt_is o ha]; simpa using a1)
  obtain rfl : lab = lab2 := by rw [e1] at e1'; exact Except.ok.inj e1'
  have hn : 0 < img.info.width * img.info.height := Nat.mul_pos hpos.1 hpos.2
  have s2 : ∀ k, lab.share precision k ≤ 2 := fun k => by
    have q2 := hle k
    have q3 := distinctAtMost_le (intensityKeys lab precision) k
    unfold Image.share
    rw [w1, w2, div_le_iff₀ (by exact_mod_cast hn)]
    exact_mod_cast (by omega : _ ≤ 2 * (img.info.width * img.info.height))
  refine ⟨lab, out, e1, e2, hw, hi, fun x y hx hy => ⟨(hs x y hx hy).1, ?_⟩⟩
  obtain ⟨-, L, L', A, B, t, t', e, ht, ht', hc, hb⟩ := hs x y hx hy
  obtain ⟨p, q, r, ep⟩ := three_of_length (colour_len3 h h3 hx hy)
  rw [ep] at e
  refine ⟨p, q, r, L, A, B, ep, e, by unfold Image.share; positivity, s2 _, fun l a b l' m el hl' h6 hm x1 y1 z1 => ?_⟩
  obtain ⟨L2, A2, B2, eL, nL, nA, nB⟩ := labOfSrgb_near hp white p q r
  rw [e] at eL
  obtain ⟨rfl, rfl, rfl⟩ : L = L2 ∧ A = A2 ∧ B = B2 := by simpa using eL
  have args := exactLab_args white p q r
  rw [el] at nL nA nB args
  obtain ⟨⟨ax, ax'⟩, ⟨ay, ay'⟩, az, az'⟩ := args
  dsimp only at nL nA nB ax ay az ay' ax' az'
  rw [hc]
  have s0 : (0 : ℝ) ≤ (lab.share precision (histKey L precision) : Rat) := by
    have : (0 : Rat) ≤ lab.share precision (histKey L precision) := by unfold Image.share; positivity
    exact_mod_cast this
  clear s2
  generalize lab.share precision (histKey L precision) = s at *
  have r0 : (0 : ℝ) ≤ α := by exact_mod_cast a0
  have r1 : (α : ℝ) ≤ 1 := by exact_mod_cast a1
  have l0 : 0 ≤ l := by linarith
  have l'0 : 0 ≤ l' := by
    rw [hl']
    have := mul_nonneg (mul_nonneg (by norm_num : (0 : ℝ) ≤ 100) r0) s0
    have := mul_nonneg (sub_nonneg.2 r1) l0
    linarith
  obtain ⟨t2, ht2, b2⟩ := nL
  obtain rfl : t = t2 := Flt.Is.unique ht ht2
  have hb' : |(t' : ℝ) - (α * s * 100 + (1 - α) * t)| ≤ 1 / 5000 := by
    have := (Rat.cast_le (K := ℝ)).2 hb
    push_cast at this
    exact this
  have nl : Near L' l' 0.0033 := by
    refine ⟨t', ht', ?_⟩
    have e3 : (t' : ℝ) - l' = (t' - (α * s * 100 + (1 - α) * t)) + (1 - α) * (t - l) := by rw [hl']; ring
    rw [e3]
    refine (abs_add_le _ _).trans ?_
    rw [abs_mul, abs_of_nonneg (sub_nonneg.2 r1)]
    have : (1 - (α : ℝ)) * |(t : ℝ) - l| ≤ 1 * 0.003 := mul_le_mul (by linarith) b2 (abs_nonneg _) (by norm_num)
    linarith
  have m2 : m ^ 2 ≤ 1.2 ^ 2 := by gcongr
  exact labBack_levels hp white (d := 5.5e-5) (m := m) (e := 8.4e-5) nl nA nB (by norm_num) (by norm_num)
        (by norm_num) (by norm_num) (by norm_num) (by norm_num) (by linarith) (by linarith) (by linarith) (by linarith) (by linarith) (by linarith) hm h6
        (by linarith [sq_nonneg m]) (by linarith)

end

theorem exactLab_zero : exactLab .d65 0 0 0 = (0, 0, 0) := by
  have v : linearValue (UInt8.toNat 0) = 0 := by rw [show UInt8.toNat 0 = 0 from rfl]; unfold linearValue; norm_num
  have f : ∀ W : ℝ, cieF (0 * 100 / W) = 4 / 29 := fun W => by rw [cieF_line (by norm_num)]; norm_num
  have x0 : exactXyz 0 0 0 = (0, 0, 0) := by unfold exactXyz; rw [v]; norm_num
  unfold exactLab
  rw [x0]
  dsimp only
  rw [f, f, f]; norm_num

/-- a black pixel, equalized by a quarter, becomes a grey of lightness at most 50; the math library meets the hypotheses -/
example (P : Profile) : letI := accurateLibm
    ∃ (out : Image UInt8) (s : Rat), histogramEqualization P (rgba1 0 0 0 200) (lit (1 / 4) : F32) .d65 (num 10) = .ok out ∧ 0 ≤ s ∧ s ≤ 2 ∧
      List.Forall₂ (fun c v => v ≤ 1.89 → LevelOf c v 6e-4) (out.info.colour (out.px 0 0)) (labLinear .d65 (25 * s) 0 0) := by
  let := accurateLibm
  obtain ⟨lab, out, -, e, -, ei, ho⟩ := c127_equalize accurateLibm_spec P .d65 (rgba1 0 0 0 200) (rgba1_WF ..) (by dims) (by dims) (by dims)
    (lit (1 / 4)) (num 10) (1 / 4) (lit_exact (by have := f32_dyadic (m := 64) (by norm_num); norm_num at this ⊢; exact this)) (by norm_num) (by norm_num)
    (by rw [lt_is (num32 (n := 10) (by decide)) (num32 (n := 0) (by decide))]; rfl)
  obtain ⟨-, p, q, r, L, A, B, ep, -, s0, s2, hs⟩ := ho 0 0 (by dims) (by dims)
  obtain ⟨rfl, rfl, rfl⟩ : p = 0 ∧ q = 0 ∧ r = 0 := by
    have : [0, 0, 0] = [p, q, r] := ep
    simpa [eq_comm] using this
  refine ⟨out, _, e, s0, s2, ?_⟩
  have s2' : ((lab.share (num 10) (histKey L (num 10)) : Rat) : ℝ) ≤ 2 := by exact_mod_cast s2
  have := hs 0 0 0 (25 * (lab.share (num 10) (histKey L (num 10)) : Rat)) 0.6 exactLab_zero (by push_cast; ring) (by norm_num) (by norm_num)
    (by linarith) (by linarith) (by linarith)
  rw [ei]
  exact this.imp fun _ _ h hv => by
    obtain ⟨x, hx, ht⟩ := h hv
    exact ⟨x, hx.trans (by norm_num), ht⟩

end Imgproc

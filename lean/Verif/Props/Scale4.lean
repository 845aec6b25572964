import Verif.Props.Scale3
import Verif.Core.Ideal
import Mathlib.Tactic.FieldSimp
/-! Property C68: bilinear scaling, in exact arithmetic; the violation in IEEE f32. -/
namespace Imgproc
open FloatOps

/-- **Specification** of linear interpolation: at fraction `t` of the way from `a` to `b`. -/
noncomputable def lerp (t a b : ℝ) : ℝ := (1 - t) * a + t * b
/-- **Specification** of bilinear interpolation between `a1` (left top), `a2` (right top), `a3` (left bottom), `a4`
(right bottom) at fractions `tx` and `ty` from the left top neighbour -/
noncomputable def bilerp (tx ty a1 a2 a3 a4 : ℝ) : ℝ := lerp ty (lerp tx a1 a2) (lerp tx a3 a4)

/-- size of the scaled image: `W * f` rounded to the nearest integer -/
noncomputable def scaledDim (w : Nat) (f : ℝ) : Nat := ⌊(w : ℝ) * f + 1 / 2⌋₊

theorem realTrunc_int (n : ℤ) : realTrunc (n : ℝ) = n := by unfold realTrunc; split <;> simp

theorem real_toU32_int (n : Nat) (h : n < 4294967296) : toU32 ((n : ℤ) : ℝ) = n := by
  unfold toU32
  rw [Ideal.toInt_eq, realTrunc_int]
  omega

theorem real_toU32_le (n : Nat) : toU32 ((n : ℤ) : ℝ) ≤ n := by
  unfold toU32
  rw [Ideal.toInt_eq, realTrunc_int]
  omega

theorem scaleDim_real {w : Nat} {f : ℝ} (hf : 0 ≤ f) (h : scaledDim w f < 4294967296) :
    scaleDim w f = scaledDim w f := by
  have h0 : 0 ≤ (w : ℝ) * f := by positivity
  have e : realRound ((w : ℝ) * f) = (scaledDim w f : ℤ) := by
    unfold realRound scaledDim
    rw [if_pos h0, Int.natCast_floor_eq_floor (by linarith)]
  unfold scaleDim
  simp only [Ideal.ofNat_eq, Ideal.mul_eq, Ideal.round_eq]
  rw [e, real_toU32_int _ h]

/-- the column to the left of output column `x`, and how far beyond it the position is -/
noncomputable def leftCol (f : ℝ) (x : Nat) : Nat := ⌊(x : ℝ) / f⌋₊
noncomputable def fracCol (f : ℝ) (x : Nat) : ℝ := (x : ℝ) / f - leftCol f x
/-- the next column, or the last one -/
noncomputable def rightCol (f : ℝ) (w x : Nat) : Nat := min (leftCol f x + 1) (w - 1)

theorem leftCol_lt {w : Nat} {f : ℝ} (hf : 0 < f) {x : Nat} (hx : x < scaledDim w f) : leftCol f x < w := by
  unfold leftCol scaledDim at *
  have h1 : ((x : ℝ) + 1) ≤ (w : ℝ) * f + 1 / 2 := by
    have : x + 1 ≤ ⌊(w : ℝ) * f + 1 / 2⌋₊ := hx
    have := (Nat.le_floor_iff (by positivity)).1 this
    exact_mod_cast this
  rw [Nat.floor_lt (by positivity), div_lt_iff₀ hf]
  linarith

theorem fracCol_bounds {f : ℝ} (hf : 0 < f) (x : Nat) : 0 ≤ fracCol f x ∧ fracCol f x < 1 := by
  unfold fracCol leftCol
  have h0 : 0 ≤ (x : ℝ) / f := by positivity
  have h1 := Nat.floor_le h0
  have h2 := Nat.lt_floor_add_one ((x : ℝ) / f)
  constructor <;> linarith

theorem biLo_real {f : ℝ} (hf : 0 < f) {x : Nat} (h : leftCol f x < 4294967296) : biLo f x = leftCol f x := by
  unfold biLo leftCol at *
  simp only [Ideal.ofNat_eq, Ideal.div_eq, Ideal.floor_eq]
  rw [← Int.natCast_floor_eq_floor (by positivity), real_toU32_int _ h]

theorem biWeight_real {f : ℝ} (hf : 0 < f) {x : Nat} (h : leftCol f x < 4294967296) : biWeight f x = fracCol f x := by
  unfold biWeight fracCol
  rw [biLo_real hf h]; simp

/-- the right neighbour: when the position is exactly on a column, the code takes that column itself -/
theorem biHi_real {f : ℝ} (hf : 0 < f) {w x : Nat} (hw : w < 4294967296) (h : leftCol f x < w) :
    biHi f w x = if fracCol f x = 0 then leftCol f x else rightCol f w x := by
  have h0 : 0 ≤ (x : ℝ) / f := by positivity
  have hfl := Nat.floor_le h0
  have hfl2 := Nat.lt_floor_add_one ((x : ℝ) / f)
  unfold biHi fracCol rightCol
  simp only [Ideal.ofNat_eq, Ideal.div_eq]
  have hc : FloatOps.ceil ((x : ℝ) / f) = ((⌈(x : ℝ) / f⌉ : ℤ) : ℝ) := rfl
  rw [hc]
  split
  · rename_i e
    have e' : (x : ℝ) / f = ((leftCol f x : ℤ) : ℝ) := by push_cast; linarith
    rw [e', Int.ceil_intCast, real_toU32_int _ (by omega)]
    omega
  · rename_i e
    have e' : ⌈(x : ℝ) / f⌉ = ((leftCol f x + 1 : Nat) : ℤ) := by
      rw [Int.ceil_eq_iff]
      unfold leftCol at *
      push_cast
      constructor
      · have : (⌊(x : ℝ) / f⌋₊ : ℝ) < (x : ℝ) / f := lt_of_le_of_ne hfl fun h => e (by rw [← h]; simp)
        linarith
      · exact hfl2.le
    rw [e', real_toU32_int _ (by omega)]

theorem nonNeg_real {f : ℝ} (hf : 0 ≤ f) : checkNonNeg (FloatOps.rnum (F := ℝ)) f = .ok () := by
  unfold checkNonNeg
  have : (FloatOps.rnum (F := ℝ)).lt f ((FloatOps.rnum (F := ℝ)).ofU8 0) = false := by
    show (f <. ofU8 0) = false
    rw [Bool.eq_false_iff, Ne, Ideal.lt_eq]
    simp [hf]
  rw [if_neg (by rw [this]; decide)]

/-- a non-empty image and positive factors whose output is representable -/
structure BilinearInput (img : Image ℝ) (xf yf : ℝ) : Prop where
  wf : img.WF
  xpos : 0 < xf
  ypos : 0 < yf
  width : scaledDim img.info.width xf < 4294967296
  height : scaledDim img.info.height yf < 4294967296
  size : scaledDim img.info.width xf * scaledDim img.info.height yf * max 1 img.info.channels < 4294967296

theorem BilinearInput.info {img : Image ℝ} {xf yf : ℝ} (h : BilinearInput img xf yf) :
    ImageInfo.WF ⟨scaledDim img.info.width xf, scaledDim img.info.height yf, img.info.channels, img.info.alpha⟩ := by
  have h1 := Nat.mul_le_mul_left (scaledDim img.info.width xf * scaledDim img.info.height yf) (le_max_left 1 img.info.channels)
  have h2 := Nat.mul_le_mul_left (scaledDim img.info.width xf * scaledDim img.info.height yf) (le_max_right 1 img.info.channels)
  have h3 := h.size
  exact ⟨h.width, h.height, h.wf.channels, by show _ < 4294967296; dsimp only; omega, by show _ < 4294967296; dsimp only; omega⟩

/-- channel `c` of pixel `(x, y)` -/
noncomputable def Image.rchan (img : Image ℝ) (x y c : Nat) : ℝ := (img.px x y).getD c 0

/-- **C68, what the code computes**: in exact arithmetic bilinear scaling returns an image of `round(W fx) x round(H fy)`
pixels whose value at `(x, y)` is the bilinear interpolation of the four neighbours at the *mirrored* fractions
`1 - tx`, `1 - ty` - the weights of the neighbours are exchanged. (If the position is exactly on a column, the right
neighbour is that column itself.) -/
theorem c68_value_partial (P : Profile) {img : Image ℝ} {xf yf : ℝ} (h : BilinearInput img xf yf) :
    ∃ out, scale P img xf yf .bilinear = .ok out ∧ out.WF ∧
      out.info = ⟨scaledDim img.info.width xf, scaledDim img.info.height yf, img.info.channels, img.info.alpha⟩ ∧
      ∀ x y c, x < out.info.width → y < out.info.height → c < out.info.channels →
        out.rchan x y c =
          let x1 := leftCol xf x
          let x2 := if fracCol xf x = 0 then x1 else rightCol xf img.info.width x
          let y1 := leftCol yf y
          let y2 := if fracCol yf y = 0 then y1 else rightCol yf img.info.height y
          bilerp (1 - fracCol xf x) (1 - fracCol yf y) (img.rchan x1 y1 c) (img.rchan x2 y1 c) (img.rchan x1 y2 c)
            (img.rchan x2 y2 c) := by
  have hW := h.wf.width
  have hH := h.wf.height
  have hG := fun x y (h1 : x < scaledDim img.info.width xf) (h2 : y < scaledDim img.info.height yf) =>
    have l1 := leftCol_lt h.xpos h1
    have l2 := leftCol_lt h.ypos h2
    bilinear_ok P h.wf (xf := xf) (yf := yf) (x := x) (y := y) (by rw [biLo_real h.xpos (by omega)]; exact l1)
      (by rw [biLo_real h.ypos (by omega)]; exact l2)
  obtain ⟨out, e, ho⟩ := scale_core P (nonNeg_real h.xpos.le) (nonNeg_real h.ypos.le) (scaleDim_real h.xpos.le h.width)
    (scaleDim_real h.ypos.le h.height) h.info (m := .bilinear) _ (fun x y h1 h2 => by simp) hG
  refine ⟨out, e, ho.1, ho.2.1, ?_⟩
  intro x y c hx hy hc
  rw [ho.2.1] at hx hy hc
  have l1 := leftCol_lt h.xpos hx
  have l2 := leftCol_lt h.ypos hy
  dsimp only
  unfold Image.rchan
  rw [ho.px_eq hx hy]
  dsimp only at hc
  rw [List.getD_eq_getElem?_getD, List.getElem?_map, List.getElem?_range hc]
  simp only [Option.map_some, Option.getD_some]
  rw [biLo_real h.xpos (by omega), biLo_real h.ypos (by omega), biHi_real h.xpos hW l1, biHi_real h.ypos hH l2,
    biWeight_real h.xpos (by omega), biWeight_real h.ypos (by omega)]
  unfold bilinearValue bilerp lerp
  simp only [Ideal.add_eq, Ideal.mul_eq, Ideal.sub_eq, Ideal.num_eq]
  push_cast
  ring

theorem lerp_bounds {t a b lo hi : ℝ} (h0 : 0 ≤ t) (h1 : t ≤ 1) (ha : lo ≤ a ∧ a ≤ hi) (hb : lo ≤ b ∧ b ≤ hi) :
    lo ≤ lerp t a b ∧ lerp t a b ≤ hi := by
  unfold lerp
  constructor <;> nlinarith [ha.1, ha.2, hb.1, hb.2]

/-- **C68, range** (exact arithmetic): every value of the result lies between the minimum and the maximum of the four
neighbours of its position. -/
theorem c68_between_partial (P : Profile) {img : Image ℝ} {xf yf : ℝ} (h : BilinearInput img xf yf) :
    ∃ out, scale P img xf yf .bilinear = .ok out ∧
      ∀ x y c, x < out.info.width → y < out.info.height → c < out.info.channels →
        let n1 := img.rchan (leftCol xf x) (leftCol yf y) c
        let n2 := img.rchan (rightCol xf img.info.width x) (leftCol yf y) c
        let n3 := img.rchan (leftCol xf x) (rightCol yf img.info.height y) c
        let n4 := img.rchan (rightCol xf img.info.width x) (rightCol yf img.info.height y) c
        min (min n1 n2) (min n3 n4) ≤ out.rchan x y c ∧ out.rchan x y c ≤ max (max n1 n2) (max n3 n4) := by
  obtain ⟨out, e, _, _, hv⟩ := c68_value_partial P h
  refine ⟨out, e, ?_⟩
  intro x y c hx hy hc n1 n2 n3 n4
  rw [hv x y c hx hy hc]
  have b1 : min (min n1 n2) (min n3 n4) ≤ n1 ∧ n1 ≤ max (max n1 n2) (max n3 n4) := by constructor <;> simp
  have b2 : min (min n1 n2) (min n3 n4) ≤ n2 ∧ n2 ≤ max (max n1 n2) (max n3 n4) := by constructor <;> simp
  have b3 : min (min n1 n2) (min n3 n4) ≤ n3 ∧ n3 ≤ max (max n1 n2) (max n3 n4) := by constructor <;> simp
  have b4 : min (min n1 n2) (min n3 n4) ≤ n4 ∧ n4 ≤ max (max n1 n2) (max n3 n4) := by constructor <;> simp
  obtain ⟨t0, t1⟩ := fracCol_bounds h.xpos x
  obtain ⟨s0, s1⟩ := fracCol_bounds h.ypos y
  dsimp only
  unfold bilerp
  refine lerp_bounds (by linarith) (by linarith) (lerp_bounds (by linarith) (by linarith) b1 ?_)
    (lerp_bounds (by linarith) (by linarith) ?_ ?_)
  · split
    · exact b1
    · exact b2
  · split
    · exact b1
    · exact b3
  · split <;> split
    · exact b1
    · exact b3
    · exact b2
    · exact b4

/-- **C68, factor 1** (exact arithmetic): bilinear scaling by 1 returns the image unchanged. -/
theorem c68_identity_partial (P : Profile) {img : Image ℝ} (h : img.WF) : scale P img 1 1 .bilinear = .ok img := by
  have hd : ∀ w : Nat, scaledDim w 1 = w := by
    intro w
    unfold scaledDim
    rw [mul_one, Nat.floor_eq_iff (by positivity)]
    constructor <;> linarith
  have hb : BilinearInput img 1 1 := by
    refine ⟨h, one_pos, one_pos, by rw [hd]; exact h.width, by rw [hd]; exact h.height, ?_⟩
    rw [hd, hd]
    have h1 : img.info.width * img.info.height < 4294967296 := h.size
    have h2 : img.info.width * img.info.height * img.info.channels < 4294967296 := h.full
    rcases Nat.le_total 1 img.info.channels with h3 | h3
    · rw [max_eq_right h3]; exact h2
    · rw [max_eq_left h3]; omega
  obtain ⟨out, e, wf, hi, hv⟩ := c68_value_partial P hb
  rw [e]
  congr 1
  rw [hd, hd] at hi
  have hl : ∀ x, leftCol 1 x = x := by intro x; unfold leftCol; simp
  have hf : ∀ x, fracCol 1 x = 0 := by intro x; unfold fracCol; rw [hl]; simp
  have hi' : out.info = img.info := by rw [hi]
  refine Image.ext_px wf h hi' ?_
  intro x y hx hy
  apply List.ext_getElem
  · rw [Image.px_length wf hx hy, Image.px_length h (by rw [← hi']; exact hx) (by rw [← hi']; exact hy), hi']
  · intro c h1 h2
    have hc : c < out.info.channels := by rw [Image.px_length wf hx hy] at h1; exact h1
    have := hv x y c hx hy hc
    dsimp only at this
    rw [if_pos (hf x), if_pos (hf y), hl, hl, hf, hf] at this
    unfold bilerp lerp Image.rchan at this
    rw [List.getD_eq_getElem?_getD, List.getD_eq_getElem?_getD, List.getElem?_eq_getElem h1, List.getElem?_eq_getElem h2] at this
    simpa using this

/-- **C68, constants** (exact arithmetic): an image of equal pixels stays constant. -/
theorem c68_constant_partial (P : Profile) {img : Image ℝ} {xf yf : ℝ} (h : BilinearInput img xf yf) {v : Nat → ℝ}
    (hv : ∀ x y c, x < img.info.width → y < img.info.height → c < img.info.channels → img.rchan x y c = v c) :
    ∃ out, scale P img xf yf .bilinear = .ok out ∧
      ∀ x y c, x < out.info.width → y < out.info.height → c < out.info.channels → out.rchan x y c = v c := by
  obtain ⟨out, e, _, hi, ho⟩ := c68_value_partial P h
  refine ⟨out, e, ?_⟩
  intro x y c hx hy hc
  rw [ho x y c hx hy hc]
  rw [hi] at hx hy hc
  have l1 := leftCol_lt h.xpos hx
  have l2 := leftCol_lt h.ypos hy
  have r1 : rightCol xf img.info.width x < img.info.width := by unfold rightCol; omega
  have r2 : rightCol yf img.info.height y < img.info.height := by unfold rightCol; omega
  have a1 : (if fracCol xf x = 0 then leftCol xf x else rightCol xf img.info.width x) < img.info.width := by
    split <;> assumption
  have a2 : (if fracCol yf y = 0 then leftCol yf y else rightCol yf img.info.height y) < img.info.height := by
    split <;> assumption
  dsimp only
  rw [hv _ _ _ l1 l2 hc, hv _ _ _ a1 l2 hc, hv _ _ _ l1 a2 hc, hv _ _ _ a1 a2 hc]
  unfold bilerp lerp
  ring

/-- a 2 x 1 image -/
noncomputable def ramp : Image ℝ := ⟨⟨2, 1, 1, false⟩, [0, 100]⟩

theorem ramp_input : BilinearInput ramp 4 1 := by
  have e1 : scaledDim 2 4 = 8 := by
    unfold scaledDim; rw [Nat.floor_eq_iff (by positivity)]; constructor <;> norm_num
  have e2 : scaledDim 1 1 = 1 := by
    unfold scaledDim; rw [Nat.floor_eq_iff (by positivity)]; constructor <;> norm_num
  refine ⟨⟨show 2 < 4294967296 by decide, show 1 < 4294967296 by decide, show 1 < 256 by decide,
    show 2 * 1 < 4294967296 by decide, show 2 * 1 * 1 < 4294967296 by decide, rfl⟩, by norm_num, one_pos, ?_, ?_, ?_⟩
  · show scaledDim 2 4 < _; rw [e1]; decide
  · show scaledDim 1 1 < _; rw [e2]; decide
  · show scaledDim 2 4 * scaledDim 1 1 * max 1 1 < _; rw [e1, e2]; decide

/-- **C68 is violated** already in exact arithmetic: enlarging the row `0, 100` four times gives 75, not 25, a quarter
of the way from the first pixel to the second. -/
theorem c68_violated (P : Profile) : ∃ out, scale P ramp 4 1 .bilinear = .ok out ∧ out.rchan 1 0 0 = 75 ∧
    bilerp (1 / 4) 0 (ramp.rchan 0 0 0) (ramp.rchan 1 0 0) (ramp.rchan 0 0 0) (ramp.rchan 1 0 0) = 25 := by
  obtain ⟨out, e, _, hi, hv⟩ := c68_value_partial P ramp_input
  have e1 : scaledDim 2 4 = 8 := by
    unfold scaledDim; rw [Nat.floor_eq_iff (by positivity)]; constructor <;> norm_num
  have e2 : scaledDim 1 1 = 1 := by
    unfold scaledDim; rw [Nat.floor_eq_iff (by positivity)]; constructor <;> norm_num
  have l1 : leftCol 4 1 = 0 := by unfold leftCol; rw [Nat.floor_eq_zero]; norm_num
  have l2 : leftCol 1 0 = 0 := by unfold leftCol; simp
  have f1 : fracCol 4 1 = 1 / 4 := by unfold fracCol; rw [l1]; norm_num
  have f2 : fracCol 1 0 = 0 := by unfold fracCol; rw [l2]; norm_num
  have c0 : ramp.rchan 0 0 0 = 0 := by simp [Image.rchan, Image.px, ramp]
  have c1 : ramp.rchan 1 0 0 = 100 := by simp [Image.rchan, Image.px, ramp]
  refine ⟨out, e, ?_, ?_⟩
  · have hi' : out.info = ⟨8, 1, 1, false⟩ := by
      rw [hi]; show (⟨scaledDim 2 4, scaledDim 1 1, 1, false⟩ : ImageInfo) = _; rw [e1, e2]
    rw [hv 1 0 0 (by rw [hi']; decide) (by rw [hi']; decide) (by rw [hi']; decide)]
    have r1 : rightCol 4 ramp.info.width 1 = 1 := by unfold rightCol; rw [l1]; rfl
    dsimp only
    rw [l1, l2, f1, f2, r1, if_neg (by norm_num), if_pos rfl, c0, c1]
    unfold bilerp lerp
    norm_num
  · rw [c0, c1]; unfold bilerp lerp; norm_num
end Imgproc

import Verif.Proofs.Scatter
import Verif.Props.Lab
import Verif.Props.Scale4
/-! Property C70: shear. -/
namespace Imgproc
open FloatOps

section
variable {F : Type} [FloatOps F]

theorem vectorMulMut_2 (P : Profile) (m1 m2 m3 m4 a b : F) (o : List F) :
    vectorMulMut P FloatOps.rnum [m1, m2, m3, m4] [a, b] o =
      .ok [ofU8 0 +. m1 *. a +. m2 *. b, ofU8 0 +. m3 *. a +. m4 *. b] := by
  rw [c41_vector_mul_mut]
  exact c41_vector_mul_total P FloatOps.rnum FloatOps.add FloatOps.mul (fun _ _ => rfl) (fun _ _ => rfl)
    [m1, m2, m3, m4] [a, b] (by simp) (by simp only [List.length_cons, List.length_nil]; decide) (by simp)

/-- where `shear` puts column `x` / row `y` (the code's formulas) -/
def shearPosX (h : Nat) (sx : F) (x y : Nat) : F :=
  let a := ofU8 0 +. num 1 *. ofNat x +. FloatOps.neg sx *. ofNat y
  if sx >. num 0 then a +. FloatOps.abs (ofNat (F := F) h *. sx) else a
def shearPosY (w : Nat) (sy : F) (x y : Nat) : F :=
  let b := ofU8 0 +. FloatOps.neg sy *. ofNat x +. num 1 *. ofNat y
  if sy >. num 0 then b +. FloatOps.abs (ofNat (F := F) w *. sy) else b

/-- `shear` moves every pixel to the computed position, provided it is inside the output -/
theorem shear_core (P : Profile) {img : Image F} (h : img.WF) {sx sy : F} {W H : Nat}
    (hW : img.info.width + toU32 (FloatOps.abs (ofNat (F := F) img.info.height *. sx)) = W)
    (hH : img.info.height + toU32 (FloatOps.abs (ofNat (F := F) img.info.width *. sy)) = H)
    (hi : ImageInfo.WF ⟨W, H, img.info.channels, img.info.alpha⟩)
    (hX : ∀ x y, x < img.info.width → y < img.info.height → toU32 (shearPosX img.info.height sx x y) < W)
    (hY : ∀ x y, x < img.info.width → y < img.info.height → toU32 (shearPosY img.info.width sy x y) < H) :
    ∃ out, shear P img sx sy = .ok out ∧ out.WF ∧ out.info = ⟨W, H, img.info.channels, img.info.alpha⟩ ∧
      ∀ x' y', x' < W → y' < H →
        (∃ x y, x < img.info.width ∧ y < img.info.height ∧ toU32 (shearPosX img.info.height sx x y) = x' ∧
          toU32 (shearPosY img.info.width sy x y) = y' ∧ out.px x' y' = img.px x y) ∨
        ((∀ x y, x < img.info.width → y < img.info.height → ¬ (toU32 (shearPosX img.info.height sx x y) = x' ∧
          toU32 (shearPosY img.info.width sy x y) = y')) ∧
          out.px x' y' = List.replicate img.info.channels (ofU8 0)) := by
  obtain ⟨b, eb, hb⟩ := Image.blank_eq P (FloatOps.rnum (F := F)) hi
  have hbi := hb.info_eq
  obtain ⟨out, e, wf, inf, hv⟩ := Image.scatter P hb.WF (W := img.info.width) (H := img.info.height)
    (fun x y => toU32 (shearPosX img.info.height sx x y)) (fun x y => toU32 (shearPosY img.info.width sy x y))
    (fun x y => img.px x y) (by rw [hbi]; exact hX) (by rw [hbi]; exact hY)
    (by rw [hbi]; exact fun x y hx hy => Image.px_length h hx hy)
    (fun y x output => do
      let coords ← vectorMulMut P (FloatOps.rnum (F := F)) [num 1, FloatOps.neg sx, FloatOps.neg sy, num 1] [ofNat x, ofNat y] []
      let a ← idx coords 0
      let cx := if sx >. num 0 then a +. FloatOps.abs (ofNat (F := F) img.info.height *. sx) else a
      let b ← idx coords 1
      let cy := if sy >. num 0 then b +. FloatOps.abs (ofNat (F := F) img.info.width *. sy) else b
      let p ← img.getPixel P x y
      output.setPixel P (toU32 cx) (toU32 cy) p)
    (by
      intro x y o hx hy _
      rw [vectorMulMut_2, ok_bind, Image.getPixel_eq P h hx hy]
      rfl)
  rw [hbi] at inf hv
  have hw32 : W < 4294967296 := hi.width
  have hh32 : H < 4294967296 := hi.height
  refine ⟨out, ?_, wf, inf, ?_⟩
  · unfold shear
    dsimp only
    rw [u32Add_ok (by rw [hW]; exact hw32), ok_bind, u32Add_ok (by rw [Nat.add_comm, hH]; exact hh32), ok_bind,
      hW, Nat.add_comm _ img.info.height, hH, eb, ok_bind]
    exact e
  · intro x' y' hx hy
    have := hv x' y' hx hy
    rw [hb.px_eq hx hy] at this
    exact this
end

/-! ### zero factors, IEEE f32 -/
section
variable [Libm f32]

theorem shearPosX_zero {sx : F32} (hs : sx.Is 0) {h x y : Nat} (hx : x < 16777216) (hy : y ≤ 16777216) :
    toU32 (shearPosX h sx x y) = x := by
  have e0 : (ofU8 0 : F32).Is ((0 : Int) : Rat) := by simpa using ofU8_is 0
  have hx' := f32_nat (n := x) (by omega)
  have hz : f32.Exact (0 : Rat) := by simpa using f32_int (n := 0) (by decide)
  have h1 : (num 1 *. ofNat x : F32).Is (x : Rat) := by
    have := mul_exact (num32 (n := 1) (by decide)) (nat32 (n := x) (by omega)) (by simpa using hx')
    simpa using this
  have h2 : (FloatOps.neg sx *. ofNat y : F32).Is 0 := by
    have := mul_exact (neg_is hs) (nat32 hy) (by simpa using hz)
    simpa using this
  have h3 : (ofU8 0 +. num 1 *. ofNat x +. FloatOps.neg sx *. ofNat y : F32).Is (x : Rat) := by
    have h4 := add_exact e0 h1 (by simpa using hx')
    have := add_exact h4 h2 (by simpa using hx')
    simpa using this
  unfold shearPosX
  have hg : (sx >. num 0) = false := by
    show (num 0 <. sx) = false
    rw [lt_is (num32 (n := 0) (by decide)) hs]; decide
  dsimp only
  rw [hg]
  simp only [Bool.false_eq_true, if_false]
  exact toU32_int h3 (by omega)

theorem shearPosY_zero {sy : F32} (hs : sy.Is 0) {w x y : Nat} (hx : x ≤ 16777216) (hy : y < 16777216) :
    toU32 (shearPosY w sy x y) = y := by
  have e0 : (ofU8 0 : F32).Is ((0 : Int) : Rat) := by simpa using ofU8_is 0
  have hy' := f32_nat (n := y) (by omega)
  have hz : f32.Exact (0 : Rat) := by simpa using f32_int (n := 0) (by decide)
  have h1 : (num 1 *. ofNat y : F32).Is (y : Rat) := by
    have := mul_exact (num32 (n := 1) (by decide)) (nat32 (n := y) (by omega)) (by simpa using hy')
    simpa using this
  have h2 : (FloatOps.neg sy *. ofNat x : F32).Is 0 := by
    have := mul_exact (neg_is hs) (nat32 hx) (by simpa using hz)
    simpa using this
  have h3 : (ofU8 0 +. FloatOps.neg sy *. ofNat x +. num 1 *. ofNat y : F32).Is (y : Rat) := by
    have h4 := add_exact e0 h2 (by simpa using hz)
    have := add_exact h4 h1 (by simpa using hy')
    simpa using this
  unfold shearPosY
  have hg : (sy >. num 0) = false := by
    show (num 0 <. sy) = false
    rw [lt_is (num32 (n := 0) (by decide)) hs]; decide
  dsimp only
  rw [hg]
  simp only [Bool.false_eq_true, if_false]
  exact toU32_int h3 (by omega)

theorem shearOff_zero {s : F32} (hs : s.Is 0) {n : Nat} (hn : n ≤ 16777216) :
    toU32 (FloatOps.abs (ofNat (F := F32) n *. s)) = 0 := by
  have hz : f32.Exact (0 : Rat) := by simpa using f32_int (n := 0) (by decide)
  have h2 := abs_is (mul_exact (nat32 hn) hs (by simpa using hz))
  refine toU32_int (n := 0) ?_ (by decide)
  simpa using h2

/-- **C70** `shear(img, 0, 0)` (either sign of zero) returns the image unchanged, in IEEE f32, for every well-formed
image of at most `2^24` columns and rows. -/
theorem c70_identity (P : Profile) {img : Image F32} (h : img.WF) (hw : img.info.width ≤ 16777216)
    (hh : img.info.height ≤ 16777216) {sx sy : F32} (hx : sx.Is 0) (hy : sy.Is 0) : shear P img sx sy = .ok img := by
  have pX := fun x y (h1 : x < img.info.width) (h2 : y < img.info.height) =>
    shearPosX_zero hx (h := img.info.height) (x := x) (y := y) (by omega) (by omega)
  have pY := fun x y (h1 : x < img.info.width) (h2 : y < img.info.height) =>
    shearPosY_zero hy (w := img.info.width) (x := x) (y := y) (by omega) (by omega)
  obtain ⟨out, e, wf, inf, hv⟩ := shear_core P h (sx := sx) (sy := sy) (W := img.info.width) (H := img.info.height)
    (by rw [shearOff_zero hx hh]; rfl) (by rw [shearOff_zero hy hw]; rfl) h.infoWF
    (fun x y h1 h2 => by rw [pX x y h1 h2]; exact h1) (fun x y h1 h2 => by rw [pY x y h1 h2]; exact h2)
  rw [e]
  congr 1
  refine Image.ext_px wf h inf ?_
  intro x y h1 h2
  rw [inf] at h1 h2
  rcases hv x y h1 h2 with ⟨a, b, ha, hb, e1, e2, e3⟩ | ⟨hn, _⟩
  · rw [pX a b ha hb] at e1
    rw [pY a b ha hb] at e2
    subst e1 e2
    exact e3
  · exact absurd ⟨pX x y h1 h2, pY x y h1 h2⟩ (hn x y h1 h2)
end

/-! ### any factors, exact arithmetic -/

/-- **Specification**: how far row `y` moves to the right -/
noncomputable def shearShift (n : Nat) (s : ℝ) (k : Nat) : Nat := ⌊|s| * (if 0 < s then (n : ℝ) - k else k)⌋₊

/-- the growth of the image -/
noncomputable def shearGrow (n : Nat) (s : ℝ) : Nat := ⌊(n : ℝ) * |s|⌋₊

theorem toU32_real {z : ℝ} (h0 : 0 ≤ z) (h : ⌊z⌋₊ < 4294967296) : toU32 z = ⌊z⌋₊ := by
  unfold toU32
  rw [Ideal.toInt_eq]
  unfold realTrunc
  rw [if_pos h0, ← Int.natCast_floor_eq_floor h0]
  omega

theorem shearShift_le {n k : Nat} (s : ℝ) (hk : k ≤ n) : shearShift n s k ≤ shearGrow n s := by
  unfold shearShift shearGrow
  apply Nat.floor_le_floor
  rw [mul_comm]
  refine mul_le_mul_of_nonneg_right ?_ (abs_nonneg s)
  have hk' : (k : ℝ) ≤ n := by exact_mod_cast hk
  split
  · have : (0 : ℝ) ≤ k := by positivity
    linarith
  · exact hk'

theorem shearPos_aux {n : Nat} {s : ℝ} {x k : Nat} (hk : k ≤ n) {a : ℝ} (ha : a = (x : ℝ) - s * k)
    (hb : x + shearShift n s k < 4294967296) :
    toU32 (if s >. num 0 then a +. FloatOps.abs (ofNat (F := ℝ) n *. s) else a) = x + shearShift n s k := by
  have hk' : (k : ℝ) ≤ n := by exact_mod_cast hk
  have key : (if s >. num 0 then a +. FloatOps.abs (ofNat (F := ℝ) n *. s) else a) =
      (x : ℝ) + |s| * (if 0 < s then (n : ℝ) - k else k) := by
    by_cases hs : 0 < s
    · have : (s >. num 0) = true := by show (num 0 <. s) = true; rw [Ideal.lt_eq]; simpa using hs
      rw [if_pos this, if_pos hs, ha, abs_of_pos hs]
      simp only [Ideal.add_eq, Ideal.abs_eq, Ideal.mul_eq, Ideal.ofNat_eq]
      rw [abs_of_nonneg (by positivity)]
      ring
    · have : ¬ (s >. num 0) = true := by show ¬ (num 0 <. s) = true; rw [Ideal.lt_eq]; simpa using hs
      rw [if_neg this, if_neg hs, ha, abs_of_nonpos (not_lt.1 hs)]
      ring
  have h0 : 0 ≤ |s| * (if 0 < s then (n : ℝ) - k else k) := by
    refine mul_nonneg (abs_nonneg s) ?_
    split
    · linarith
    · positivity
  rw [key]
  have e : ⌊(x : ℝ) + |s| * (if 0 < s then (n : ℝ) - k else k)⌋₊ = x + shearShift n s k := by
    unfold shearShift
    rw [add_comm, Nat.floor_add_natCast h0, add_comm]
  rw [toU32_real (by positivity) (by rw [e]; exact hb), e]

/-- the output of a shear fits the machine types -/
structure ShearInput (img : Image ℝ) (sx sy : ℝ) : Prop where
  wf : img.WF
  info : ImageInfo.WF ⟨img.info.width + shearGrow img.info.height sx, img.info.height + shearGrow img.info.width sy,
    img.info.channels, img.info.alpha⟩

/-- **C70** (exact arithmetic): shear never panics; the output is `W + floor(H |sx|)` by `H + floor(W |sy|)` pixels; the
pixel at `(x, y)` is moved to `(x + shift_x(y), y + shift_y(x))`, positions that receive no pixel are zero, and every
other position shows one of the pixels moved there. -/
theorem c70_shear (P : Profile) {img : Image ℝ} {sx sy : ℝ} (h : ShearInput img sx sy) :
    ∃ out, shear P img sx sy = .ok out ∧ out.WF ∧
      out.info = ⟨img.info.width + shearGrow img.info.height sx, img.info.height + shearGrow img.info.width sy,
        img.info.channels, img.info.alpha⟩ ∧
      ∀ x' y', x' < out.info.width → y' < out.info.height →
        (∃ x y, x < img.info.width ∧ y < img.info.height ∧ x + shearShift img.info.height sx y = x' ∧
          y + shearShift img.info.width sy x = y' ∧ out.px x' y' = img.px x y) ∨
        ((∀ x y, x < img.info.width → y < img.info.height → ¬ (x + shearShift img.info.height sx y = x' ∧
          y + shearShift img.info.width sy x = y')) ∧ out.px x' y' = List.replicate img.info.channels 0) := by
  have hw32 : img.info.width + shearGrow img.info.height sx < 4294967296 := h.info.width
  have hh32 : img.info.height + shearGrow img.info.width sy < 4294967296 := h.info.height
  have grow : ∀ (n : Nat) (s : ℝ), shearGrow n s < 4294967296 →
      toU32 (FloatOps.abs (ofNat (F := ℝ) n *. s)) = shearGrow n s := by
    intro n s hb
    simp only [Ideal.abs_eq, Ideal.mul_eq, Ideal.ofNat_eq]
    have e : |(n : ℝ) * s| = (n : ℝ) * |s| := by rw [abs_mul, Nat.abs_cast]
    unfold shearGrow at *
    rw [e, toU32_real (by positivity) hb]
  have pX : ∀ x y, x < img.info.width → y < img.info.height →
      toU32 (shearPosX img.info.height sx x y) = x + shearShift img.info.height sx y := by
    intro x y hx hy
    have := shearShift_le sx hy.le
    exact shearPos_aux hy.le (by
      simp only [Ideal.add_eq, Ideal.mul_eq, Ideal.ofNat_eq, Ideal.ofU8_eq, Ideal.neg_eq, Ideal.num_eq]
      norm_num; ring) (by omega)
  have pY : ∀ x y, x < img.info.width → y < img.info.height →
      toU32 (shearPosY img.info.width sy x y) = y + shearShift img.info.width sy x := by
    intro x y hx hy
    have := shearShift_le sy hx.le
    exact shearPos_aux hx.le (by
      simp only [Ideal.add_eq, Ideal.mul_eq, Ideal.ofNat_eq, Ideal.ofU8_eq, Ideal.neg_eq, Ideal.num_eq]
      norm_num; ring) (by omega)
  obtain ⟨out, e, wf, inf, hv⟩ := shear_core P h.wf (sx := sx) (sy := sy) (by rw [grow _ _ (by omega)])
    (by rw [grow _ _ (by omega)]) h.info
    (fun x y h1 h2 => by rw [pX x y h1 h2]; have := shearShift_le sx h2.le; omega)
    (fun x y h1 h2 => by rw [pY x y h1 h2]; have := shearShift_le sy h1.le; omega)
  refine ⟨out, e, wf, inf, ?_⟩
  intro x' y' hx hy
  rw [inf] at hx hy
  rcases hv x' y' hx hy with ⟨x, y, h1, h2, e1, e2, e3⟩ | ⟨hn, e3⟩
  · exact Or.inl ⟨x, y, h1, h2, by rw [← pX x y h1 h2]; exact e1, by rw [← pY x y h1 h2]; exact e2, e3⟩
  · refine Or.inr ⟨fun x y h1 h2 he => hn x y h1 h2 ⟨by rw [pX x y h1 h2]; exact he.1, by rw [pY x y h1 h2]; exact he.2⟩, ?_⟩
    rw [e3]; simp

theorem shearShift_zero (n k : Nat) : shearShift n 0 k = 0 := by unfold shearShift; simp
theorem shearGrow_zero (n : Nat) : shearGrow n 0 = 0 := by unfold shearGrow; simp

/-- **C70, horizontal shear** (exact arithmetic): every row is kept whole, moved right by its shift; the rest is zero. -/
theorem c70_horizontal (P : Profile) {img : Image ℝ} {sx : ℝ} (h : ShearInput img sx 0) :
    ∃ out, shear P img sx 0 = .ok out ∧ out.WF ∧
      out.info = ⟨img.info.width + shearGrow img.info.height sx, img.info.height, img.info.channels, img.info.alpha⟩ ∧
      (∀ x y, x < img.info.width → y < img.info.height → out.px (x + shearShift img.info.height sx y) y = img.px x y) ∧
      ∀ x' y, x' < out.info.width → y < img.info.height →
        x' < shearShift img.info.height sx y ∨ shearShift img.info.height sx y + img.info.width ≤ x' →
        out.px x' y = List.replicate img.info.channels 0 := by
  obtain ⟨out, e, wf, inf, hv⟩ := c70_shear P h
  have inf' : out.info = ⟨img.info.width + shearGrow img.info.height sx, img.info.height, img.info.channels, img.info.alpha⟩ := by
    rw [inf, shearGrow_zero]; rfl
  refine ⟨out, e, wf, inf', ?_, ?_⟩
  · intro x y hx hy
    have := shearShift_le sx hy.le
    rcases hv (x + shearShift img.info.height sx y) y (by rw [inf']; dsimp only; omega) (by rw [inf']; exact hy) with
      ⟨a, b, ha, hb, e1, e2, e3⟩ | ⟨hn, _⟩
    · rw [shearShift_zero] at e2
      have : b = y := by omega
      subst this
      have : a = x := by omega
      subst this
      exact e3
    · exact absurd ⟨rfl, by rw [shearShift_zero]; rfl⟩ (hn x y hx hy)
  · intro x' y hx' hy hout
    rcases hv x' y hx' (by rw [inf']; exact hy) with ⟨a, b, ha, hb, e1, e2, e3⟩ | ⟨_, e3⟩
    · rw [shearShift_zero] at e2
      have : b = y := by omega
      subst this
      omega
    · exact e3

/-- **C70, vertical shear** (exact arithmetic): every column is kept whole, moved down by its shift; the rest is zero. -/
theorem c70_vertical (P : Profile) {img : Image ℝ} {sy : ℝ} (h : ShearInput img 0 sy) :
    ∃ out, shear P img 0 sy = .ok out ∧ out.WF ∧
      out.info = ⟨img.info.width, img.info.height + shearGrow img.info.width sy, img.info.channels, img.info.alpha⟩ ∧
      (∀ x y, x < img.info.width → y < img.info.height → out.px x (y + shearShift img.info.width sy x) = img.px x y) ∧
      ∀ x y', x < img.info.width → y' < out.info.height →
        y' < shearShift img.info.width sy x ∨ shearShift img.info.width sy x + img.info.height ≤ y' →
        out.px x y' = List.replicate img.info.channels 0 := by
  obtain ⟨out, e, wf, inf, hv⟩ := c70_shear P h
  have inf' : out.info = ⟨img.info.width, img.info.height + shearGrow img.info.width sy, img.info.channels, img.info.alpha⟩ := by
    rw [inf, shearGrow_zero]; rfl
  refine ⟨out, e, wf, inf', ?_, ?_⟩
  · intro x y hx hy
    have := shearShift_le sy hx.le
    rcases hv x (y + shearShift img.info.width sy x) (by rw [inf']; exact hx) (by rw [inf']; dsimp only; omega) with
      ⟨a, b, ha, hb, e1, e2, e3⟩ | ⟨hn, _⟩
    · rw [shearShift_zero] at e1
      have : a = x := by omega
      subst this
      have : b = y := by omega
      subst this
      exact e3
    · exact absurd ⟨by rw [shearShift_zero]; rfl, rfl⟩ (hn x y hx hy)
  · intro x y' hx hy' hout
    rcases hv x y' (by rw [inf']; exact hx) hy' with ⟨a, b, ha, hb, e1, e2, e3⟩ | ⟨_, e3⟩
    · rw [shearShift_zero] at e1
      have : a = x := by omega
      subst this
      omega
    · exact e3

/-- the hypotheses are met: a 2 x 1 image sheared by one half -/
example : ShearInput ramp (1 / 2) 0 := by
  have e : shearGrow 1 (1 / 2) = 0 := by
    unfold shearGrow; rw [abs_of_pos (by norm_num)]; norm_num [Nat.floor_eq_zero]
  refine ⟨ramp_input.wf, ?_⟩
  show ImageInfo.WF ⟨2 + shearGrow 1 (1 / 2), 1 + shearGrow 2 0, 1, false⟩
  rw [e, shearGrow_zero]
  exact ⟨by decide, by decide, by decide, by decide, by decide⟩
end Imgproc

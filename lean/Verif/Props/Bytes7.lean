import Verif.Props.Bytes5
import Verif.Props.GrayF32
import Verif.Proofs.Colour

/-!
# C144: the float grayscale conversion of byte images
-/
namespace Imgproc
open FloatOps

/-- spec: the mean of the bytes, rounded to the nearest byte, a tie going up -/
def nearestMean (p : List UInt8) : Nat := (2 * (p.map UInt8.toNat).sum + p.length) / (2 * p.length)

/-- the rounded mean is the truncated mean, or one more when the fraction is at least one half -/
theorem nearestMean_meanU8 {p : List UInt8} (hp : p ≠ []) :
    nearestMean p = meanU8 p + if p.length ≤ 2 * ((p.map UInt8.toNat).sum % p.length) then 1 else 0 := by
  unfold nearestMean meanU8
  have hl := List.length_pos_iff.2 hp
  generalize (p.map UInt8.toNat).sum = S
  generalize p.length = n at *
  have hdm := Nat.div_add_mod S n
  have hr := Nat.mod_lt S hl
  generalize S / n = m at *
  generalize S % n = r at *
  subst hdm
  split
  · refine Nat.div_eq_of_lt_le ?_ ?_ <;> nlinarith
  · refine Nat.div_eq_of_lt_le ?_ ?_ <;> nlinarith

theorem nearestMean_le {p : List UInt8} (hp : p ≠ []) : nearestMean p ≤ 255 := by
  have hl := List.length_pos_iff.2 hp
  have := sum_le_255 p
  unfold nearestMean
  rw [← Nat.lt_succ_iff, Nat.div_lt_iff_lt_mul (by omega)]
  omega

section
variable [Libm f32]

theorem floatMean_byte {p : List UInt8} (hp : p ≠ []) (hl : p.length ≤ 255) :
    toU8 (FloatOps.round (floatMean (p.map (ofU8 (F := F32))))) = UInt8.ofNat (nearestMean p) := by
  have h0 := List.length_pos_iff.2 hp
  have hS := sum_le_255 p
  have hfa : List.Forall₂ (fun (r : F32) (n : Int) => r.Is (n : Rat)) (p.map ofU8) (p.map fun v => (v.toNat : Int)) := by
    rw [List.forall₂_map_left_iff, List.forall₂_map_right_iff]
    exact List.forall₂_same.2 fun v _ => by simpa using ofU8_is v
  have hsum : ((p.map fun v => (v.toNat : Int)).map (|·|)).sum = ((p.map UInt8.toNat).sum : Nat) := by
    clear hfa hS h0 hl hp
    induction p with
    | nil => rfl
    | cons a p ih => simp only [List.map_cons, List.sum_cons, ih, Nat.abs_cast]; push_cast; rfl
  have hsum' : (p.map fun v => (v.toNat : Int)).sum = ((p.map UInt8.toNat).sum : Nat) := by
    clear hfa hS h0 hl hp hsum
    induction p with
    | nil => rfl
    | cons a p ih => simp only [List.map_cons, List.sum_cons, ih]; push_cast; rfl
  have hm := (c100_ieee hfa (by simpa using hp) (by rw [hsum]; norm_cast; omega) (by rw [List.length_map]; omega)).2
  rw [hsum', List.length_map] at hm
  unfold nearestMean
  generalize floatMean (p.map (ofU8 (F := F32))) = r at *
  generalize (p.map UInt8.toNat).sum = S at *
  generalize p.length = n at *
  have n0 : (0 : Rat) < n := by exact_mod_cast h0
  have q0 : (0 : Rat) ≤ ((S : Nat) : Int) / (n : Rat) := by push_cast; positivity
  have q1 : (((S : Nat) : Int) : Rat) / (n : Rat) ≤ 255 := by rw [div_le_iff₀ n0]; exact_mod_cast hS
  have hr := hm (f32_ovf (by rw [abs_of_nonneg q0]; exact q1.trans (by norm_num)))
  have herr : |f32.rnd ((((S : Nat) : Int) : Rat) / (n : Rat)) - (((S : Nat) : Int) : Rat) / (n : Rat)| < 1 / (2 * (n : Rat)) := by
    have e := rnd_err_add ((((S : Nat) : Int) : Rat) / (n : Rat))
    rw [abs_of_nonneg q0] at e
    have n255 : (n : Rat) ≤ 255 := by exact_mod_cast hl
    have : (1 : Rat) / 510 ≤ 1 / (2 * n) := one_div_le_one_div_of_le (by positivity) (by linarith)
    have : (255 : Rat) / 2 ^ 24 + 1 / 2 ^ 150 < 1 / 510 := by norm_num
    have : (((S : Nat) : Int) : Rat) / (n : Rat) / 2 ^ 24 ≤ 255 / 2 ^ 24 := by gcongr
    linarith
  have hround := (toU8_nearest hr).rounds
  have hb := hround.byte
  have hf := (hround.fraction h0 herr).1
  rw [min_eq_right q1, max_eq_right q0] at hf
  generalize (toU8 (FloatOps.round r)) = v at *
  have hf := abs_le.1 hf
  have h1 : 2 * n * v.toNat ≤ 2 * S + n := by
    have : (v.toNat : Rat) - 1 / 2 ≤ (((S : Nat) : Int) : Rat) / n := by linarith [hf.2]
    rw [le_div_iff₀ n0] at this
    have : 2 * (n : Rat) * v.toNat ≤ 2 * S + n := by push_cast at this; linarith
    exact_mod_cast this
  have h2 : 2 * S < 2 * n * v.toNat + n := by
    have h3 : (((S : Nat) : Int) : Rat) / n ≤ v.toNat + 1 / 2 := by linarith [hf.1]
    rcases lt_or_eq_of_le h3 with h3 | h3
    · rw [div_lt_iff₀ n0] at h3
      have : 2 * (S : Rat) < 2 * (n : Rat) * v.toNat + n := by push_cast at h3; linarith
      exact_mod_cast this
    · exfalso
      have ex : f32.rnd ((((S : Nat) : Int) : Rat) / n) = (((S : Nat) : Int) : Rat) / n := by
        rw [h3]
        have : (v.toNat : Rat) + 1 / 2 = ((2 * v.toNat + 1 : Int) : Rat) * pow2 (-1) := by rw [pow2_eq]; push_cast; norm_num; ring
        rw [this]
        exact rndQ_of_rep (RepQ.dyadic (by rw [abs_of_nonneg (by omega)]; show _ ≤ (2 : Int) ^ 24; norm_num; omega) (by decide))
      rw [ex, h3] at hround
      rcases hround.high with h4 | h4
      · exact lt_irrefl _ h4
      · rw [h4] at h3; push_cast at h3 q1; linarith
  have : (2 * S + n) / (2 * n) = v.toNat := Nat.div_eq_of_lt_le (by rw [Nat.mul_comm]; exact h1) (by nlinarith)
  rw [this, UInt8.ofNat_toNat]

/-- **C144** a byte image (up to 255 colour channels), converted to float, to grayscale and back: the mean of the colour bytes,
correctly rounded, followed by the unchanged alpha byte -/
theorem c144_float_gray (P : Profile) {img : Image UInt8} (h : img.WF) (hpos : 0 < img.info.width ∧ 0 < img.info.height)
    (h1 : 0 < img.info.colours) (h2 : img.info.colours ≤ 255) :
    ∃ out, onBytes P (rgbToGrayscaleF32 P) img = .ok out ∧
      out.Shows { img.info with channels := 1 + (if img.info.alpha then 1 else 0) } (fun x y =>
        [UInt8.ofNat (nearestMean (img.info.colour (img.px x y)))] ++ img.info.alphaOf (img.px x y)) := by
  have e := Image.mapChannels_eq P h (f := fun c => .ok (ofU8 (F := F32) c)) (f' := ofU8) (fun _ _ => rfl)
  have hs := Image.mapChannels_shows h (ofU8 (F := F32))
  set f : Image F32 := { info := img.info, data := img.data.map ofU8 } with hfd
  obtain ⟨g, eg, hg⟩ := c100_value P f hs.WF hpos h1
  obtain ⟨out, eo, ho⟩ := floatToU8_shows P hg.WF
  refine ⟨out, ?_, ?_⟩
  · unfold onBytes imageU8ToFloat
    rw [e, ok_bind, eg, ok_bind]
    exact eo
  · rw [hg.info_eq] at ho
    refine ho.congr fun x y hx hy => ?_
    rw [hg.px_eq hx hy, hs.px_eq hx hy]
    show (([floatMean (img.info.colour ((img.px x y).map ofU8))] ++ img.info.alphaOf ((img.px x y).map ofU8)).map fun v : F32 => toU8 (FloatOps.round v)) = _
    rw [ImageInfo.colour_map, ImageInfo.alphaOf_map, List.map_append, List.map_map]
    have hc : (img.info.colour (img.px x y)).length = img.info.colours := by
      have := Image.px_length h hx hy
      unfold ImageInfo.colour ImageInfo.colours
      split
      · rw [List.length_dropLast, this]
      · exact this
    congr 1
    · rw [List.map_singleton, floatMean_byte (by rw [← List.length_pos_iff, hc]; exact h1) (by rw [hc]; exact h2)]
    · conv_rhs => rw [← List.map_id (img.info.alphaOf (img.px x y))]
      refine List.map_congr_left fun v _ => ?_
      exact round_ofU8 (ofU8_is v) (by decide) (by decide)

/-- **C144** the float and the byte version of the grayscale conversion (without AVX2) differ by at most one: the byte version
truncates. Where the fraction of the mean is below one half they agree. -/
theorem c144_versions (P : Profile) {img : Image UInt8} (h : img.WF) (hpos : 0 < img.info.width ∧ 0 < img.info.height)
    (h1 : 0 < img.info.colours) (h2 : img.info.colours ≤ 128) :
    ∃ flt byt, onBytes P (rgbToGrayscaleF32 P) img = .ok flt ∧ rgbToGrayscale F32 false P img = .ok byt ∧ flt.info = byt.info ∧
      ∀ x y, x < img.info.width → y < img.info.height →
        let S := ((img.info.colour (img.px x y)).map UInt8.toNat).sum
        flt.byteAt x y 0 = byt.byteAt x y 0 + (if img.info.colours ≤ 2 * (S % img.info.colours) then 1 else 0) ∧
        flt.byteAt x y 1 = byt.byteAt x y 1 := by
  obtain ⟨flt, e1, s1⟩ := c144_float_gray P h hpos h1 (by omega)
  obtain ⟨byt, e2, s2⟩ := c29_grayscale_partial (F := F32) P img h hpos h1 h2
  refine ⟨flt, byt, e1, e2, s1.info_eq.trans s2.info_eq.symm, fun x y hx hy => ?_⟩
  have hc : (img.info.colour (img.px x y)).length = img.info.colours := by
    have := Image.px_length h hx hy
    unfold ImageInfo.colour ImageInfo.colours
    split
    · rw [List.length_dropLast, this]
    · exact this
  have hne : img.info.colour (img.px x y) ≠ [] := by rw [← List.length_pos_iff, hc]; exact h1
  unfold Image.byteAt
  rw [s1.px_eq hx hy, s2.px_eq hx hy]
  refine ⟨?_, rfl⟩
  have b1 := nearestMean_le hne
  have b2 := meanU8_le (img.info.colour (img.px x y))
  simp only [List.singleton_append, List.getD_cons_zero, UInt8.toNat_ofNat', Nat.mod_eq_of_lt (show nearestMean (img.info.colour (img.px x y)) < 2 ^ 8 by omega),
    Nat.mod_eq_of_lt (show meanU8 (img.info.colour (img.px x y)) < 2 ^ 8 by omega)]
  rw [nearestMean_meanU8 hne, hc]

/-- C144 applies: two RGB pixels -/
example (P : Profile) : ∃ flt byt, onBytes P (rgbToGrayscaleF32 P) (rgb2 0 0 2 255 255 254) = .ok flt ∧
    rgbToGrayscale F32 false P (rgb2 0 0 2 255 255 254) = .ok byt ∧ flt.byteAt 0 0 0 = byt.byteAt 0 0 0 + 1 ∧
    flt.byteAt 1 0 0 = byt.byteAt 1 0 0 + 1 := by
  obtain ⟨flt, byt, e1, e2, -, hb⟩ := c144_versions P (rgb2_WF 0 0 2 255 255 254) ⟨by dims, by dims⟩ (by decide) (by decide)
  exact ⟨flt, byt, e1, e2, (hb 0 0 (by dims) (by dims)).1, (hb 1 0 (by dims) (by dims)).1⟩
end
end Imgproc

import Verif.Props.Lab2
import Verif.Props.Histogram
/-! Property C89: what histogram equalization does to the lightness, in exact arithmetic. -/
namespace Imgproc
open FloatOps

/-- spec: CIELAB lightness of the pixel at (x, y) -/
noncomputable def Image.lightness (img : Image UInt8) (white : White) (x y : Nat) : ℝ :=
  (labOfSrgb (F := ℝ) white (img.info.colour (img.px x y))).getD 0 0

/-- spec: the histogram bin of a lightness -/
noncomputable def lightBin (precision L : ℝ) : Int := max (-2147483648) (min 2147483647 (realRound (L * precision)))

/-- spec: the bins of all pixels, row by row -/
noncomputable def Image.lightBins (img : Image UInt8) (white : White) (precision : ℝ) : List Int :=
  (List.range img.info.height).flatMap fun y => (List.range img.info.width).map fun x =>
    lightBin precision (img.lightness white x y)

/-- spec: the percentile the library assigns to a bin: pixels in this or a lower bin, plus one for each such bin that is
not empty, over the number of pixels -/
noncomputable def Image.percentile (img : Image UInt8) (white : White) (precision : ℝ) (k : Int) : ℝ :=
  ((atMost (img.lightBins white precision) k : ℝ) + distinctAtMost (img.lightBins white precision) k) /
    (img.info.width * img.info.height : ℕ)

/-- spec: the lightness after equalization -/
noncomputable def Image.equalized (img : Image UInt8) (white : White) (alpha precision : ℝ) (x y : Nat) : ℝ :=
  alpha * img.percentile white precision (lightBin precision (img.lightness white x y)) * 100 +
    (1 - alpha) * img.lightness white x y

theorem realTrunc_intC (n : ℤ) : realTrunc (n : ℝ) = n := by unfold realTrunc; split <;> simp

theorem histKey_real (v p : ℝ) : histKey v p = lightBin p v := by
  unfold histKey lightBin FloatOps.toI32
  rw [Ideal.mul_eq, Ideal.round_eq, Ideal.toInt_eq, realTrunc_intC]

theorem realRound_mono {a b : ℝ} (h : a ≤ b) : realRound a ≤ realRound b := by
  unfold realRound
  split_ifs with h1 h2 h2
  · exact Int.floor_le_floor (by linarith)
  · linarith
  · have : ⌈a - 1 / 2⌉ ≤ 0 := by rw [Int.ceil_le]; push_cast; linarith
    have : 0 ≤ ⌊b + 1 / 2⌋ := by rw [Int.le_floor]; push_cast; linarith
    omega
  · exact Int.ceil_le_ceil (by linarith)

theorem lightBin_mono {p a b : ℝ} (hp : 0 ≤ p) (h : a ≤ b) : lightBin p a ≤ lightBin p b := by
  have := realRound_mono (mul_le_mul_of_nonneg_right h hp)
  unfold lightBin; omega

/-- **C89** (exact arithmetic) `histogram_equalization` replaces the CIELAB lightness of every pixel by
`alpha * 100 * percentile + (1 - alpha) * lightness` and changes nothing else. -/
theorem c89_value (P : Profile) (white : White) (img : Image UInt8) (h : img.WF)
    (hpos : 0 < img.info.width ∧ 0 < img.info.height) (h3 : img.info.colours = 3)
    (hsmall : img.info.width * img.info.height < 1073741824)
    (alpha precision : ℝ) (ha0 : 0 ≤ alpha) (ha1 : alpha ≤ 1) (hp : 0 ≤ precision) :
    ∃ out, histogramEqualization P img alpha white precision = .ok out ∧ out.WF ∧ out.info = img.info ∧
      ∀ x y, x < img.info.width → y < img.info.height →
        img.info.alphaOf (out.px x y) = img.info.alphaOf (img.px x y) ∧
        img.info.colour (out.px x y) = srgbOfLab white
          ((labOfSrgb white (img.info.colour (img.px x y))).set 0 (img.equalized white alpha precision x y)) := by
  obtain ⟨o1, e1, h1⟩ := srgbToLab_CA (F := ℝ) P white h hpos h3
  obtain ⟨hch, -⟩ := colours3 h3
  have hi := h1.info_eq
  obtain ⟨m, em, hm⟩ := c26_exact P o1 h1.wf (by rw [hi]; omega) [] precision (by rw [hi]; exact hsmall)
  have h0 : ∀ x y, x < img.info.width → y < img.info.height → (o1.px x y).getD 0 (num 0) = img.lightness white x y := by
    intro x y hx hy
    have hcol := h1.colour x y hx hy
    unfold Image.lightness
    rw [← hcol]
    have hl : (img.info.colour (o1.px x y)).length = 3 := by
      rw [hcol]; rfl
    have := img.info.colour_append (o1.px x y)
    rw [List.getD_eq_getElem?_getD, List.getD_eq_getElem?_getD]
    conv_lhs => rw [← this]
    rw [List.getElem?_append_left (by omega), Ideal.num_eq, Int.cast_zero]
  have hk : intensityKeys o1 precision = img.lightBins white precision := by
    unfold intensityKeys Image.lightBins
    rw [hi]
    refine List.flatMap_congr fun y hy => List.map_congr_left fun x hx => ?_
    rw [h0 x y (List.mem_range.1 hx) (List.mem_range.1 hy), histKey_real]
  rw [hk] at hm
  have hmem : ∀ x y, x < img.info.width → y < img.info.height →
      lightBin precision (img.lightness white x y) ∈ img.lightBins white precision := by
    intro x y hx hy
    unfold Image.lightBins
    simp only [List.mem_flatMap, List.mem_range, List.mem_map]
    exact ⟨y, hy, x, hx, rfl⟩
  have hlook : ∀ x y, x < img.info.width → y < img.info.height →
      assocGet m (histKey (img.lightness white x y) precision) =
        some (img.percentile white precision (lightBin precision (img.lightness white x y))) := by
    intro x y hx hy
    rw [histKey_real, hm, if_pos (hmem x y hx hy), hi]
    refine congrArg some ?_
    unfold Image.percentile
    rw [Ideal.div_eq, Ideal.ofInt_eq, Ideal.ofNat_eq]
    push_cast
    ring
  have hL : ∀ x y, ∃ a b, labOfSrgb white (img.info.colour (img.px x y)) = [img.lightness white x y, a, b] :=
    fun x y => ⟨_, _, rfl⟩
  obtain ⟨o2, e2, h2⟩ := h1.edit P h3 (k := 0) (by decide)
    (f := equalizeValue m alpha precision)
    (g := fun n => (alpha *. ((assocGet m (histKey n precision)).getD (num 0)) *. num 100) +. ((num 1 -. alpha) *. n))
    (fun x y hx hy v hv => by
      obtain ⟨a, b, hab⟩ := hL x y
      rw [hab] at hv
      have hv : img.lightness white x y = v := Option.some.inj hv
      subst hv
      unfold equalizeValue
      simp only [hlook x y hx hy, Option.getD_some])
  obtain ⟨o3, e3, h3'⟩ := labToSrgb_CA P white h2 hpos h3
  have c1 : checkNonNeg (FloatOps.rnum (F := ℝ)) precision = .ok () := by
    unfold checkNonNeg
    rw [if_neg]
    show ¬ (precision <. (ofU8 0 : ℝ)) = true
    rw [Ideal.lt_eq]; simpa using hp
  have c2 : checkInRange (FloatOps.rnum (F := ℝ)) alpha (num 0) (num 1) = .ok () := by
    unfold checkInRange
    rw [if_neg]
    show ¬ ((alpha <. (num 0 : ℝ)) || ((num 1 : ℝ) <. alpha)) = true
    rw [Bool.or_eq_true, Ideal.lt_eq, Ideal.lt_eq]
    simp only [Ideal.num_eq, Int.cast_zero, Int.cast_one, not_or, not_lt]
    exact ⟨ha0, ha1⟩
  unfold histogramEqualization
  rw [c1, ok_bind, c2, ok_bind, e1, ok_bind, em, ok_bind, e2, ok_bind, e3]
  refine ⟨o3, rfl, h3'.wf, h3'.info_eq, fun x y hx hy => ⟨by rw [h3'.alpha x y hx hy, alpha_back_real], ?_⟩⟩
  rw [h3'.colour x y hx hy]
  obtain ⟨a, b, hab⟩ := hL x y
  rw [hab]
  refine congrArg (srgbOfLab white) ?_
  simp only [List.modify_zero_cons, List.set_cons_zero, hlook x y hx hy, Option.getD_some]
  unfold Image.equalized
  simp

/-- **C89** the new lightness keeps the order: a pixel at least as light as another stays at least as light. -/
theorem c89_monotone (white : White) (img : Image UInt8) (alpha precision : ℝ) (ha0 : 0 ≤ alpha) (ha1 : alpha ≤ 1)
    (hp : 0 ≤ precision) (x y x' y' : Nat) (hle : img.lightness white x y ≤ img.lightness white x' y') :
    img.equalized white alpha precision x y ≤ img.equalized white alpha precision x' y' := by
  unfold Image.equalized
  have hb := lightBin_mono hp hle
  have : img.percentile white precision (lightBin precision (img.lightness white x y)) ≤
      img.percentile white precision (lightBin precision (img.lightness white x' y')) := by
    unfold Image.percentile
    refine div_le_div_of_nonneg_right ?_ (Nat.cast_nonneg _)
    exact add_le_add (by exact_mod_cast atMost_mono _ hb) (by exact_mod_cast distinctAtMost_mono _ hb)
  have h1 := mul_le_mul_of_nonneg_left this ha0
  have h2 := mul_le_mul_of_nonneg_left hle (show 0 ≤ 1 - alpha by linarith)
  linarith

/-- **C89** `alpha = 0` means no equalization: the image comes back, at most one level darker in places. -/
theorem c89_alpha_zero (P : Profile) (white : White) (img : Image UInt8) (h : img.WF)
    (hpos : 0 < img.info.width ∧ 0 < img.info.height) (h3 : img.info.colours = 3)
    (hsmall : img.info.width * img.info.height < 1073741824) (precision : ℝ) (hp : 0 ≤ precision) :
    ∃ out, histogramEqualization P img (0 : ℝ) white precision = .ok out ∧ img.LosesAtMostOne out := by
  obtain ⟨out, e, hw, hi, hs⟩ := c89_value P white img h hpos h3 hsmall 0 precision (le_refl _) zero_le_one hp
  refine ⟨out, e, hw, hi, fun x y hx hy => ⟨(hs x y hx hy).1, ?_⟩⟩
  rw [(hs x y hx hy).2]
  have : (labOfSrgb white (img.info.colour (img.px x y))).set 0 (img.equalized white 0 precision x y) =
      labOfSrgb (F := ℝ) white (img.info.colour (img.px x y)) := by
    have e : img.equalized white 0 precision x y = img.lightness white x y := by unfold Image.equalized; ring
    rw [e]; rfl
  rw [this, srgbOfLab_labOfSrgb]
  exact backAndForth_near (colour_len3 h h3 hx hy)

example (P : Profile) : ∃ out, histogramEqualization P demoA (1 / 2 : ℝ) .d65 10 = .ok out := by
  obtain ⟨out, e, -⟩ := c89_value P .d65 demoA demoA_WF (by decide) (by decide) (by decide) (1 / 2) 10 (by norm_num)
    (by norm_num) (by norm_num)
  exact ⟨out, e⟩
example (P : Profile) : ∃ out, histogramEqualization P demoA (0 : ℝ) .d50 255 = .ok out ∧ demoA.LosesAtMostOne out :=
  c89_alpha_zero P .d50 demoA demoA_WF (by decide) (by decide) (by decide) 255 (by norm_num)
end Imgproc

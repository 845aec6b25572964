import Verif.Props.BilateralErr2
/-! Property C118, continued: the means of the bilateral filter in f32. -/
namespace Imgproc
open FloatOps
section
variable [Libm f32]

/-- inputs of the theorems about f32: a non-empty image with three colour channels, `range` and `spatial` numbers between 1/16 and
1000, and a window `size = (4 * spatial + 1) as u32` that is odd, at least 3 and at most 1023 -/
structure BilateralInput32 (img : Image UInt8) (range spatial : F32) (ρ σ : Rat) (size : Nat) : Prop where
  wf : img.WF
  pos : 0 < img.info.width ∧ 0 < img.info.height
  three : img.info.colours = 3
  range_is : range.Is ρ
  range_low : 1 / 16 ≤ ρ
  range_high : ρ ≤ 1000
  spatial_is : spatial.Is σ
  spatial_low : 1 / 16 ≤ σ
  spatial_high : σ ≤ 1000
  size_eq : bilateralSize spatial = size
  odd : size % 2 = 1
  big : 3 ≤ size
  small : size ≤ 1023
  width : img.info.width + size ≤ 2147483648
  height : img.info.height + size ≤ 2147483648

/-- the window size for a spatial parameter -/
theorem bilateralSize_le {spatial : F32} {σ : Rat} (hσ : spatial.Is σ) (σ0 : 1 / 16 ≤ σ) (σ1 : σ ≤ 1000) :
    (bilateralSize spatial : Rat) ≤ (4 * σ + 1) * (1 + 1 / 2 ^ 20) := by
  have h4 : (num 4 : F32).Is 4 := by simpa using num32 (n := 4) (by decide)
  have h1 : (num 1 : F32).Is 1 := by simpa using num32 (n := 1) (by decide)
  have m := mul_is hσ h4 (f32_ovf (by rw [abs_of_nonneg (by linarith)]; norm_num; linarith))
  have r1 := rnd_err_add (σ * 4)
  rw [abs_of_nonneg (by linarith : (0 : Rat) ≤ σ * 4)] at r1
  have r1' := abs_le.1 r1
  generalize f32.rnd (σ * 4) = q at *
  norm_num at r1'
  have q0 : 0 ≤ q := by linarith
  have q1 : q ≤ 4001 := by linarith
  have a := add_is m h1 (f32_ovf (by rw [abs_of_nonneg (by linarith)]; norm_num; linarith))
  have r2 := rnd_err_add (q + 1)
  rw [abs_of_nonneg (by linarith : (0 : Rat) ≤ q + 1)] at r2
  have r2' := abs_le.1 r2
  generalize f32.rnd (q + 1) = p at *
  norm_num at r2'
  have h := (toU32_is a (by linarith) (n := 5000) (by norm_num; linarith) (by decide)).2
  have hf : ((p.floor : Int) : Rat) ≤ p := rat_le_floor.1 le_rfl
  unfold bilateralSize
  have e : ((toU32 (spatial *. num 4 +. num 1) : Nat) : Rat) = ((p.floor : Int) : Rat) := by
    rw [← h]; simp
  rw [e]
  norm_num
  linarith

/-- the exponents of the spatial matrix are at most 4.1 in size -/
theorem spatial_exponent {spatial : F32} {σ : Rat} (hσ : spatial.Is σ) (σ0 : 1 / 16 ≤ σ) (σ1 : σ ≤ 1000) {size : Nat}
    (hs : bilateralSize spatial = size) (hodd : size % 2 = 1) (hb : 3 ≤ size) {i j : Nat} (hi : i < size) (hj : j < size) :
    (centreDist2 size i j : ℝ) / (2 * (σ : ℝ) ^ 2) ≤ 4.1 := by
  have h := bilateralSize_le hσ σ0 σ1
  rw [hs] at h
  have hb' : (3 : Rat) ≤ size := by exact_mod_cast hb
  have σl : 0.49 ≤ σ := by norm_num at h ⊢; linarith
  obtain ⟨c, rfl⟩ : ∃ c, size = 2 * c + 1 := ⟨size / 2, by omega⟩
  have hc : ((c : Nat) : Rat) ≤ 2.001 * σ := by push_cast at h; norm_num at h ⊢; linarith
  have d : centreDist2 (2 * c + 1) i j ≤ 2 * (c : Int) ^ 2 := by
    unfold centreDist2
    rw [show (2 * c + 1 - 1) / 2 = c by omega]
    have h1 : |(i : Int) - c| ≤ c := by rw [abs_le]; omega
    have h2 : |(j : Int) - c| ≤ c := by rw [abs_le]; omega
    have h1 := sq_le_sq' (abs_le.1 h1).1 (abs_le.1 h1).2
    have h2 := sq_le_sq' (abs_le.1 h2).1 (abs_le.1 h2).2
    omega
  have d' : (centreDist2 (2 * c + 1) i j : ℝ) ≤ 2 * (c : ℝ) ^ 2 := by exact_mod_cast d
  have σr : (0.49 : ℝ) ≤ σ := by have := (Rat.cast_le (K := ℝ)).2 σl; push_cast at this; norm_num at this ⊢; linarith
  have hc' : (c : ℝ) ≤ 2.001 * σ := by
    have := (Rat.cast_le (K := ℝ)).2 hc; push_cast at this; norm_num at this ⊢; linarith
  have c0 : (0 : ℝ) ≤ c := Nat.cast_nonneg c
  rw [div_le_iff₀ (by positivity)]
  have := pow_le_pow_left₀ c0 hc' 2
  nlinarith

omit [Libm f32] in
/-- the mean as a sum over the cells in row-major order -/
theorem bilateralAverage_flat (info : ImageInfo) (v : Nat → Nat → Nat → Rat) {size : Nat} (hp0 : 0 < size) (σ ρ : ℝ) (x y c : Nat) :
    bilateralAverage info v size σ ρ x y c =
      (∑ k ∈ Finset.range (size * size), bilateralCell size σ ρ (v x y c) (padValue info v size x y c (k / size) (k % size)) (k / size) (k % size) *
        (padValue info v size x y c (k / size) (k % size) : ℝ)) /
      ∑ k ∈ Finset.range (size * size), bilateralCell size σ ρ (v x y c) (padValue info v size x y c (k / size) (k % size)) (k / size) (k % size) := by
  unfold bilateralAverage
  rw [sum_range_mul, sum_range_mul]
  have k : ∀ i j, i < size → j < size → (i * size + j) / size = i ∧ (i * size + j) % size = j := fun i j hi hj => by
    rw [Nat.add_comm, Nat.add_mul_div_right _ _ hp0, Nat.div_eq_of_lt hj, Nat.zero_add, Nat.add_mul_mod_self_right, Nat.mod_eq_of_lt hj]
    exact ⟨rfl, rfl⟩
  refine congrArg₂ (· / ·) (Finset.sum_congr rfl fun i hi => Finset.sum_congr rfl fun j hj => ?_) (Finset.sum_congr rfl fun i hi => Finset.sum_congr rfl fun j hj => ?_)
  · obtain ⟨k1, k2⟩ := k i j (Finset.mem_range.1 hi) (Finset.mem_range.1 hj)
    rw [k1, k2]
  · obtain ⟨k1, k2⟩ := k i j (Finset.mem_range.1 hi) (Finset.mem_range.1 hj)
    rw [k1, k2]

set_option maxHeartbeats 1000000 in
/-- **C118** `bilateral_filter` in f32: the image is converted to CIELAB numbers `v` of magnitude at most 500; wherever the values of
the window around a pixel are within `D ≤ 8 range` of the pixel's own value and at most `B` in magnitude, the filtered channel is a
number within `D / 2^13 + 3 (size² + 1) / 2^23 B + 2^-40` of the exact Gaussian-weighted mean; and the filtered image is converted back. -/
theorem c118_mean (hp : PowGood) (P : Profile) {img : Image UInt8} {range spatial : F32} {ρ σ : Rat} {size : Nat}
    (h : BilateralInput32 img range spatial ρ σ size) :
    ∃ (out : Image UInt8) (lab filtered : Image F32) (v : Nat → Nat → Nat → Rat),
      bilateralFilter P img range spatial = .ok out ∧ srgbToLab P img .d65 = .ok lab ∧ labToSrgb P filtered .d65 = .ok out ∧
      filtered.WF ∧ filtered.info = img.info ∧ lab.ShowsValues img.info v ∧
      (∀ x y c, x < img.info.width → y < img.info.height → c < img.info.channels → |v x y c| ≤ 500) ∧
      ∀ (x y c : Nat) (D B : Rat), x < img.info.width → y < img.info.height → c < img.info.channels → D ≤ 8 * ρ →
        (∀ i j, i < size → j < size → |padValue img.info v size x y c i j - v x y c| ≤ D ∧ |padValue img.info v size x y c i j| ≤ B) →
        ∃ w : Rat, ((filtered.px x y).getD c (num 0)).Is w ∧
          |(w : ℝ) - bilateralAverage img.info v size σ ρ x y c| ≤ D / 2 ^ 13 + 3 * ((size * size + 1) / 2 ^ 23) * B + 1 / 2 ^ 40 := by
  obtain ⟨mat, em, hml, hmid, hmat⟩ := c118_spatial_value h.spatial_is h.spatial_low h.spatial_high hp P size h.odd (by have := h.small; omega)
  obtain ⟨out, lab, filtered, e, -, -, el, hl, hf, eo, -⟩ := bilateral_core P img h.wf range spatial
    (nonNeg_ok (not_negative h.range_is h.range_low)) (nonNeg_ok (not_negative h.spatial_is h.spatial_low)) size h.size_eq
    (by have := h.big; omega) (by have := h.small; omega) em hml h.pos h.three h.width h.height
  have hli := hl.info_eq
  -- the numbers of the converted image
  have hnum : ∀ x y c, ∃ q : Rat, x < img.info.width → y < img.info.height → c < img.info.channels →
      ((lab.px x y).getD c (num 0)).Is q ∧ |q| ≤ 500 := by
    intro x y c
    by_cases hc : x < img.info.width ∧ y < img.info.height ∧ c < img.info.channels
    · obtain ⟨hx, hy, hc⟩ := hc
      have hpx := hl.shows.px_eq hx hy
      have hlen : (lab.px x y).length = img.info.channels := by
        rw [← hli]; exact Image.px_length hl.wf (by rw [hli]; exact hx) (by rw [hli]; exact hy)
      have hin : (lab.px x y).getD c (num 0) ∈ lab.px x y := by
        rw [List.getD_eq_getElem?_getD, List.getElem?_eq_getElem (by rw [hlen]; exact hc)]
        exact List.getElem_mem _
      have hcl : (img.info.colour (img.px x y)).length = 3 := by
        rw [img.info.colour_length (Image.px_length h.wf hx hy), h.three]
      obtain ⟨r, g, b, hrgb⟩ := List.length_eq_three.1 hcl
      rw [hpx, hrgb] at hin
      obtain ⟨L, A, B, l, p, q, hLab, hL, hA, hB, bl, bp, bq⟩ := lab_numbers hp.accurate .d65 r g b
      rw [hLab] at hin
      rw [← hLab, ← hrgb, ← hpx] at hin
      rw [hpx, hrgb, hLab] at hin ⊢
      generalize (([L, A, B] ++ (img.info.alphaOf (img.px x y)).map ofU8).getD c (num 0)) = z at *
      rcases List.mem_append.1 hin with hz | hz
      · simp only [List.mem_cons, List.not_mem_nil, or_false] at hz
        rcases hz with rfl | rfl | rfl
        · exact ⟨l, fun _ _ _ => ⟨hL, bl⟩⟩
        · exact ⟨p, fun _ _ _ => ⟨hA, bp⟩⟩
        · exact ⟨q, fun _ _ _ => ⟨hB, bq⟩⟩
      · obtain ⟨a, -, rfl⟩ := List.mem_map.1 hz
        refine ⟨_, fun _ _ _ => ⟨ofU8_is a, ?_⟩⟩
        rw [abs_of_nonneg (by positivity)]
        have := a.toNat_lt
        exact_mod_cast (by omega : a.toNat ≤ 500)
    · exact ⟨0, fun h1 h2 h3 => absurd ⟨h1, h2, h3⟩ hc⟩
  choose v hv using hnum
  have hlv : lab.ShowsValues img.info v := by
    have := hl.wf.shows
    rw [hli] at this
    exact this.values (fun x y hx hy => by rw [← hli]; exact Image.px_length hl.wf (by rw [hli]; exact hx) (by rw [hli]; exact hy))
      (fun x y c hx hy hc => by
        have hlen : (lab.px x y).length = img.info.channels := by
          rw [← hli]; exact Image.px_length hl.wf (by rw [hli]; exact hx) (by rw [hli]; exact hy)
        have h1 := (hv x y c hx hy hc).1
        rw [List.getD_eq_getElem?_getD, List.getElem?_eq_getElem (by rw [hlen]; exact hc)] at h1
        exact ⟨_, List.getElem?_eq_getElem (by rw [hlen]; exact hc), h1⟩)
  refine ⟨out, lab, filtered, v, e, el, eo, hf.WF, hf.info_eq, hlv, fun x y c hx hy hc => (hv x y c hx hy hc).2, ?_⟩
  intro x y c D B hx hy hc hD hwin
  have pixeq := hf.px_eq hx hy
  have hg : (filtered.px x y).getD c (num 0) = bilateralMean range mat (window2d lab x y size) c ((lab.px x y).getD c (num 0)) := by
    rw [pixeq, List.getD_eq_getElem?_getD, List.getElem?_map, List.getElem?_range hc]; rfl
  rw [hg]
  unfold bilateralMean
  rw [window2d_length]
  obtain ⟨ρ0, ρ1⟩ := sigma_real h.range_low h.range_high
  obtain ⟨σ0, σ1⟩ := sigma_real h.spatial_low h.spatial_high
  have n3 := h.big
  have hp0 : 0 < size := by omega
  set V := fun k : Nat => padValue img.info v size x y c (k / size) (k % size) with hV
  set W := fun k : Nat => bilateralCell size σ ρ (v x y c) (V k) (k / size) (k % size) with hW
  have idx : ∀ k < size * size, k / size < size ∧ k % size < size ∧ k / size * size + k % size = k := fun k hk =>
    ⟨Nat.div_lt_of_lt_mul hk, Nat.mod_lt _ hp0, Nat.div_add_mod' k size⟩
  have cell : ∀ k < size * size, (((window2d lab x y size).getD k []).getD c (num 0)).Is (V k) ∧ |V k| ≤ 500 := by
    intro k hk
    obtain ⟨h1, h2, h3⟩ := idx k hk
    have := window2d_getD lab x y size h1 h2
    rw [h3] at this
    rw [this, hli]
    exact hv _ _ _ (padCoord_lt hx) (padCoord_lt hy) hc
  have own := hv x y c hx hy hc
  have zero32 : (num 0 : F32).Is 0 := by simpa using num32 (n := 0) (by decide)
  -- one weight
  have wt : ∀ k : Nat, ∃ m : Rat, k < size * size → (bilateralWeight range mat (window2d lab x y size) c ((lab.px x y).getD c (num 0)) k).Is m ∧ 0 ≤ m ∧
      |(m : ℝ) - W k| ≤ 39 / 2 ^ 20 * W k ∧ 0 ≤ W k ∧ W k ≤ 2 ^ 12 ∧ (¬ (k / size = size / 2 ∧ k % size = size / 2) → 1 / 2 ^ 103 ≤ W k) := by
    intro k
    by_cases hk : k < size * size
    swap
    · exact ⟨0, fun h => absurd h hk⟩
    obtain ⟨h1, h2, h3⟩ := idx k hk
    obtain ⟨hVk, bV⟩ := cell k hk
    obtain ⟨hwD, hwB⟩ := hwin _ _ h1 h2
    change |V k - v x y c| ≤ D at hwD
    -- the Gaussian of the difference
    have ov : |f32.rnd (v x y c - V k)| < pow2 f32.emax := by
      refine f32_ovf ((abs_sub _ _).trans ?_)
      have := own.2
      norm_num; linarith
    have df := abs_is (sub_is own.1 hVk ov)
    have r := (Rat.cast_le (K := ℝ)).2 (rnd_err_add (v x y c - V k))
    rw [Rat.cast_abs, Rat.cast_sub] at r
    obtain ⟨gap, hgap⟩ : ∃ gap : ℝ, gap = |(v x y c : ℝ) - V k| := ⟨_, rfl⟩
    have hr : |((|f32.rnd (v x y c - V k)| : Rat) : ℝ) - gap| ≤ 2 / 16777216 * |gap| + 1 / 2 ^ 140 := by
      rw [hgap, abs_abs, Rat.cast_abs]
      refine (abs_abs_sub_abs_le _ _).trans ?_
      push_cast at r
      have := abs_nonneg ((v x y c : ℝ) - V k)
      norm_num at r ⊢
      linarith
    have big : |gap| ≤ 4096 := by
      rw [hgap, abs_abs]
      have : |v x y c - V k| ≤ 4096 := (abs_sub _ _).trans (by linarith [own.2])
      exact_mod_cast this
    obtain ⟨b, hb, b0, eb⟩ := gaussOf_err h.range_is h.range_low h.range_high hp df big hr
    rw [hgap, sq_abs] at eb
    have zr : ((v x y c : ℝ) - V k) ^ 2 / (2 * (ρ : ℝ) ^ 2) ≤ 32 := by
      have h8 : |(v x y c : ℝ) - V k| ≤ 8 * ρ := by
        have : |v x y c - V k| ≤ 8 * ρ := by rw [abs_sub_comm]; exact hwD.trans hD
        exact_mod_cast this
      have := pow_le_pow_left₀ (abs_nonneg _) h8 2
      rw [sq_abs] at this
      rw [div_le_iff₀ (by positivity)]
      nlinarith
    obtain ⟨R1, -, R0⟩ := gaussian2_bounds ρ0 ρ1 (sq_nonneg ((v x y c : ℝ) - V k))
    have R0 := R0 zr
    by_cases hm : k / size = size / 2 ∧ k % size = size / 2
    · have hW0 : W k = 0 := by
        show bilateralCell size σ ρ (v x y c) (V k) (k / size) (k % size) = 0
        unfold bilateralCell; rw [if_pos hm]
      rw [hm.1, hm.2] at h3
      rw [h3] at hmid
      refine ⟨0, fun _ => ⟨?_, le_rfl, by rw [hW0]; simp, hW0.ge, by rw [hW0]; norm_num, fun h => absurd hm h⟩⟩
      unfold bilateralWeight
      rw [List.getD_eq_getElem?_getD, hmid, Option.getD_some]
      have := mul_exact zero32 hb (by rw [zero_mul]; exact Fmt.Exact.zero)
      rwa [zero_mul] at this
    · have hWk : W k = gaussian2 σ (centreDist2 size (k / size) (k % size)) * gaussian2 ρ (((v x y c : ℝ) - V k) ^ 2) := by
        show bilateralCell size σ ρ (v x y c) (V k) (k / size) (k % size) = _
        unfold bilateralCell; rw [if_neg hm]
      obtain ⟨s, a, hs, ha, a0, ea⟩ := hmat _ _ h1 h2 hm
      rw [h3] at hs
      have zs := spatial_exponent h.spatial_is h.spatial_low h.spatial_high h.size_eq h.odd h.big h1 h2
      have d0 : (0 : ℝ) ≤ (centreDist2 size (k / size) (k % size) : ℝ) := by
        exact_mod_cast (centreDist2_bounds (by have := h.small; omega) h1 h2).1
      obtain ⟨S1, S0, -⟩ := gaussian2_bounds σ0 σ1 d0
      have S0 := S0 (by linarith)
      obtain ⟨w, hw, w0, ew⟩ := weight_err ha hb a0 b0 ea eb S0 S1 R0 R1 (by positivity) zs (by positivity) zr
      have Sp : (0:ℝ) < _ := lt_of_lt_of_le (by norm_num) S0
      have Rp : (0:ℝ) < _ := lt_of_lt_of_le (by norm_num) R0
      refine ⟨w, fun _ => ⟨?_, w0, by rw [hWk]; exact ew, by rw [hWk]; positivity, ?_, fun _ => ?_⟩⟩
      · unfold bilateralWeight
        rw [List.getD_eq_getElem?_getD, hs, Option.getD_some]
        exact hw
      · rw [hWk]; exact (mul_le_mul S1 R1 Rp.le (by norm_num)).trans (by norm_num)
      · rw [hWk]; exact le_trans (by norm_num) (mul_le_mul S0 R0 (by norm_num) Sp.le)
  choose m hm using wt
  have nn : size * size ≤ 2 ^ 20 := (Nat.mul_le_mul h.small h.small).trans (by norm_num)
  have sumW : ((size * size : Nat) : ℝ) / 2 ^ 105 ≤ ∑ k ∈ Finset.range (size * size), W k := by
    set cc := size / 2 * size + size / 2 with hcc
    have lowW : ∀ k ∈ Finset.range (size * size), (1 / 2 ^ 103 : ℝ) - (if k = cc then 1 / 2 ^ 103 else 0) ≤ W k := by
      intro k hk
      obtain ⟨-, -, -, W0, -, Wl⟩ := hm k (Finset.mem_range.1 hk)
      split
      · rw [sub_self]; exact W0
      · rename_i hne
        rw [sub_zero]
        refine Wl fun h => hne ?_
        rw [hcc, ← (idx k (Finset.mem_range.1 hk)).2.2, h.1, h.2]
    have := Finset.sum_le_sum lowW
    rw [Finset.sum_sub_distrib, Finset.sum_const, Finset.card_range, nsmul_eq_mul, Finset.sum_ite_eq'] at this
    have h9 : (9 : ℝ) ≤ ((size * size : Nat) : ℝ) := by exact_mod_cast Nat.mul_le_mul n3 n3
    refine le_trans ?_ this
    have : (if cc ∈ Finset.range (size * size) then (1 / 2 ^ 103 : ℝ) else 0) ≤ 1 / 2 ^ 103 := by split <;> norm_num
    generalize (if cc ∈ Finset.range (size * size) then (1 / 2 ^ 103 : ℝ) else 0) = t at *
    generalize ((size * size : Nat) : ℝ) = N at *
    norm_num at this ⊢
    linarith
  obtain ⟨w, hw, ew⟩ := mean_err _ (fun k => ((window2d lab x y size).getD k []).getD c (num 0)) m V W (size * size) (c := v x y c) (B := min B 500) (D := D)
    (κ := 39 / 2 ^ 20) nn (Nat.mul_pos hp0 hp0) (fun k hk => (hm k hk).1) (fun k hk => (cell k hk).1) (fun k hk => (hm k hk).2.1)
    (fun k hk => (hm k hk).2.2.2.1) (fun k hk => (hm k hk).2.2.2.2.1) (fun k hk => (hm k hk).2.2.1)
    (fun k hk => le_min (hwin _ _ (idx k hk).1 (idx k hk).2.1).2 (cell k hk).2) (fun k hk _ => (hwin _ _ (idx k hk).1 (idx k hk).2.1).1)
    (by norm_num) (by norm_num) ((min_le_right _ _).trans (by norm_num)) sumW
  refine ⟨w, hw, ?_⟩
  have ea := bilateralAverage_flat img.info v hp0 σ ρ x y c
  rw [ea]
  refine ew.trans ?_
  have D0 : (0 : ℝ) ≤ D := by exact_mod_cast (abs_nonneg _).trans (hwin 0 0 hp0 hp0).1
  have mB : ((min B 500 : Rat) : ℝ) ≤ B := by exact_mod_cast min_le_left _ _
  have := mul_le_mul_of_nonneg_left mB (show 0 ≤ 3 * ((((size * size : Nat) : ℝ) + 1) / 2 ^ 23) by positivity)
  rw [Nat.cast_mul] at *
  have e1 : 3 * (39 / 2 ^ 20) * (D : ℝ) ≤ D / 2 ^ 13 := by norm_num; linarith
  linarith
omit [Libm f32] in
/-- the mean lies between bounds of the window -/
theorem bilateralAverage_between {info : ImageInfo} {v : Nat → Nat → Nat → Rat} {size : Nat} (hb : 3 ≤ size) {σ ρ : ℝ} (hσ : 0 < σ) (hρ : 0 < ρ)
    (x y c : Nat) {lo hi : ℝ} (hv : ∀ i j, i < size → j < size → ¬ (i = size / 2 ∧ j = size / 2) →
      lo ≤ padValue info v size x y c i j ∧ (padValue info v size x y c i j : ℝ) ≤ hi) :
    lo ≤ bilateralAverage info v size σ ρ x y c ∧ bilateralAverage info v size σ ρ x y c ≤ hi := by
  have gp : ∀ {s : ℝ} (d : ℝ), 0 < s → 0 < gaussian2 s d := fun d hs => by unfold gaussian2; positivity
  have nn : ∀ i j, 0 ≤ bilateralCell size σ ρ (v x y c) (padValue info v size x y c i j) i j := by
    intro i j; unfold bilateralCell; split
    · exact le_rfl
    · exact (mul_pos (gp _ hσ) (gp _ hρ)).le
  have ht : 0 < ∑ i ∈ Finset.range size, ∑ j ∈ Finset.range size,
      bilateralCell size σ ρ (v x y c) (padValue info v size x y c i j) i j := by
    refine Finset.sum_pos' (fun i _ => Finset.sum_nonneg fun j _ => nn i j) ⟨0, Finset.mem_range.2 (by omega), ?_⟩
    refine Finset.sum_pos' (fun j _ => nn 0 j) ⟨0, Finset.mem_range.2 (by omega), ?_⟩
    unfold bilateralCell
    rw [if_neg (by omega)]
    exact mul_pos (gp _ hσ) (gp _ hρ)
  unfold bilateralAverage
  constructor
  · rw [le_div_iff₀ ht, Finset.mul_sum]
    refine Finset.sum_le_sum fun i hi' => ?_
    rw [Finset.mul_sum]
    refine Finset.sum_le_sum fun j hj => ?_
    by_cases hc : i = size / 2 ∧ j = size / 2
    · unfold bilateralCell; rw [if_pos hc]; simp
    · rw [mul_comm]
      exact mul_le_mul_of_nonneg_left (hv i j (Finset.mem_range.1 hi') (Finset.mem_range.1 hj) hc).1 (nn i j)
  · rw [div_le_iff₀ ht, Finset.mul_sum]
    refine Finset.sum_le_sum fun i hi' => ?_
    rw [Finset.mul_sum]
    refine Finset.sum_le_sum fun j hj => ?_
    by_cases hc : i = size / 2 ∧ j = size / 2
    · unfold bilateralCell; rw [if_pos hc]; simp
    · rw [mul_comm hi]
      exact mul_le_mul_of_nonneg_left (hv i j (Finset.mem_range.1 hi') (Finset.mem_range.1 hj) hc).2 (nn i j)

/-- **C118** where the CIELAB values of the window lie in an interval `[lo, hi]` at most `8 range` wide, the filtered channel lies in
it too, up to `(hi - lo) / 2^13 + 3 (size² + 1) / 2^23 B + 2^-40`. -/
theorem c118_between (hp : PowGood) (P : Profile) {img : Image UInt8} {range spatial : F32} {ρ σ : Rat} {size : Nat}
    (h : BilateralInput32 img range spatial ρ σ size) :
    ∃ (out : Image UInt8) (lab filtered : Image F32) (v : Nat → Nat → Nat → Rat),
      bilateralFilter P img range spatial = .ok out ∧ srgbToLab P img .d65 = .ok lab ∧ labToSrgb P filtered .d65 = .ok out ∧
      lab.ShowsValues img.info v ∧
      ∀ (x y c : Nat) (lo hi B : Rat), x < img.info.width → y < img.info.height → c < img.info.channels → hi - lo ≤ 8 * ρ →
        (∀ i j, i < size → j < size → lo ≤ padValue img.info v size x y c i j ∧ padValue img.info v size x y c i j ≤ hi ∧
          |padValue img.info v size x y c i j| ≤ B) →
        ∃ w : Rat, ((filtered.px x y).getD c (num 0)).Is w ∧
          lo - ((hi - lo) / 2 ^ 13 + 3 * ((size * size + 1) / 2 ^ 23) * B + 1 / 2 ^ 40) ≤ w ∧
          w ≤ hi + ((hi - lo) / 2 ^ 13 + 3 * ((size * size + 1) / 2 ^ 23) * B + 1 / 2 ^ 40) := by
  obtain ⟨out, lab, filtered, v, e, el, eo, -, -, hv, -, hm⟩ := c118_mean hp P h
  refine ⟨out, lab, filtered, v, e, el, eo, hv, ?_⟩
  intro x y c lo hi B hx hy hc hd hw
  have own : padValue img.info v size x y c (size / 2) (size / 2) = v x y c := by
    unfold padValue
    rw [sub_add_cancel, sub_add_cancel]
    unfold padCoord
    rw [if_pos (by omega), if_pos (by omega)]
    rfl
  have s2 : size / 2 < size := by have := h.big; omega
  obtain ⟨o1, o2, -⟩ := hw _ _ s2 s2
  rw [own] at o1 o2
  obtain ⟨w, w1, w2⟩ := hm x y c (hi - lo) B hx hy hc hd (fun i j hi' hj' => by
    obtain ⟨a, b, d⟩ := hw i j hi' hj'
    exact ⟨abs_le.2 ⟨by linarith, by linarith⟩, d⟩)
  obtain ⟨ρ0, -⟩ := sigma_real h.range_low h.range_high
  obtain ⟨σ0, -⟩ := sigma_real h.spatial_low h.spatial_high
  obtain ⟨b1, b2⟩ := bilateralAverage_between (info := img.info) (v := v) h.big (σ := σ) (ρ := ρ) (by linarith) (by linarith) x y c (lo := lo) (hi := hi)
    (fun i j hi' hj' _ => by
      obtain ⟨a, b, -⟩ := hw i j hi' hj'
      exact ⟨by exact_mod_cast a, by exact_mod_cast b⟩)
  have w2 := abs_le.1 w2
  refine ⟨w, w1, ?_, ?_⟩
  · rw [← Rat.cast_le (K := ℝ)]; push_cast at w2 ⊢; linarith
  · rw [← Rat.cast_le (K := ℝ)]; push_cast at w2 ⊢; linarith
end

/-- every RGB or RGBA image meets the hypotheses with range 125 and spatial 1 (a 5 x 5 window); with that range any two CIELAB values
are less than `8 range` apart -/
example (P : Profile) (img : Image UInt8) (h : img.WF) (pos : 0 < img.info.width ∧ 0 < img.info.height) (three : img.info.colours = 3)
    (hw : img.info.width < 2 ^ 30) (hh : img.info.height < 2 ^ 30) : letI := goodLibm
    ∃ (out : Image UInt8) (lab filtered : Image F32) (v : Nat → Nat → Nat → Rat),
      bilateralFilter P img (num 125 : F32) (num 1) = .ok out ∧ srgbToLab P img .d65 = .ok lab ∧ labToSrgb P filtered .d65 = .ok out ∧
      lab.ShowsValues img.info v ∧
      ∀ x y c, x < img.info.width → y < img.info.height → c < img.info.channels →
        ∃ w : Rat, ((filtered.px x y).getD c (num 0)).Is w ∧ |(w : ℝ) - bilateralAverage img.info v 5 1 125 x y c| ≤ 1 / 7 := by
  let := goodLibm
  have h1 : (num 1 : F32).Is 1 := by simpa using num32 (n := 1) (by decide)
  have h125 : (num 125 : F32).Is 125 := by simpa using num32 (n := 125) (by decide)
  have i : BilateralInput32 img (num 125) (num 1) 125 1 5 :=
    ⟨h, pos, three, h125, by norm_num, by norm_num, h1, by norm_num, by norm_num,
      bilateralSize_quarter (k := 4) (by decide) (by norm_num; exact h1), rfl, by decide, by decide, by omega, by omega⟩
  obtain ⟨out, lab, filtered, v, e, el, eo, -, -, hv, hb, hm⟩ := c118_mean goodLibm_spec P i
  refine ⟨out, lab, filtered, v, e, el, eo, hv, fun x y c hx hy hc => ?_⟩
  obtain ⟨w, w1, w2⟩ := hm x y c 1000 500 hx hy hc (by norm_num) (fun i j _ _ => by
    have := hb _ _ c (padCoord_lt (o := (x : Int) - (5 / 2 : Nat) + j) hx) (padCoord_lt (o := (y : Int) - (5 / 2 : Nat) + i) hy) hc
    have own := hb x y c hx hy hc
    refine ⟨?_, this⟩
    have a := abs_le.1 this
    have b := abs_le.1 own
    exact abs_le.2 ⟨by unfold padValue; linarith, by unfold padValue; linarith⟩)
  refine ⟨w, w1, ?_⟩
  push_cast at w2
  refine w2.trans ?_
  norm_num
end Imgproc

import Verif.Props.Scale2
/-! Properties C67 and C68 continued: bilinear scaling never panics, nearest-neighbour scaling may; bilinear values. -/
namespace Imgproc
open FloatOps

section
variable [Libm f32]

/-- bilinear scaling reads inside the image: coordinate bound, in IEEE f32 -/
theorem biLo_lt {f : F32} {q : Rat} (hf : f.Is q) (hq : 0 < q) {w : Nat} (hw : 0 < w) (hw' : w ≤ 16777216)
    (hsmall : (w : Rat) * q ≤ 4194304) {x : Nat} (hx : x < scaleDim w f) : biLo f x < w := by
  have hwq : (0 : Rat) < w := by exact_mod_cast hw
  have hw1 : (1 : Rat) ≤ w := by exact_mod_cast hw
  have hpos : 0 < (w : Rat) * q := mul_pos hwq hq
  have hq22 : q ≤ 4194304 := le_trans (by nlinarith) hsmall
  have h22 : f32.Exact (4194304 : Rat) := by have := f32_int (n := 4194304) (by decide); exact_mod_cast this
  -- the output dimension
  have hm := mul_is (nat32 hw') hf (f32_ovf (by rw [abs_of_pos hpos]; linarith))
  set p := f32.rnd ((w : Rat) * q) with hp
  have hp0 : 0 ≤ p := rndQ_nonneg hpos.le
  have hp1 : p ≤ 4194304 := rndQ_le h22.1 hsmall
  have hR := roundAwayQ_abs p
  rw [abs_le] at hR
  have hR0 : 0 ≤ FP.roundAwayQ p := by
    have : (-1 : Rat) < (FP.roundAwayQ p : Rat) := by linarith
    have : (-1 : Int) < FP.roundAwayQ p := by exact_mod_cast this
    omega
  have hR1 : FP.roundAwayQ p ≤ 4194304 := by
    have : (FP.roundAwayQ p : Rat) < 4194305 := by linarith
    have : FP.roundAwayQ p < 4194305 := by exact_mod_cast this
    omega
  have hr := round_is hm (f32_int (by rw [abs_le]; omega))
  have hdim : (scaleDim w f : Int) = FP.roundAwayQ p := by
    unfold scaleDim toU32
    rw [toInt_is hr, truncQ_int]; omega
  have hxR : ((x : Int) + 1 : Int) ≤ FP.roundAwayQ p := by omega
  have hxR : (x : Rat) + 1 ≤ (FP.roundAwayQ p : Rat) := by exact_mod_cast hxR
  have hx24 : x ≤ 16777216 := by omega
  -- the source coordinate
  rcases Nat.eq_zero_or_pos x with rfl | hx0
  · have hd := div_exact (nat32 (n := 0) (by decide)) hf hq.ne' (by simpa using (f32_int (n := 0) (by decide)))
    rw [Nat.cast_zero, zero_div] at hd
    have e0 : Rat.floor 0 = 0 := by decide +kernel
    have hfl := floor_is hd (by rw [e0]; exact f32_int (n := 0) (by decide))
    rw [e0] at hfl
    have := toU32_int (n := 0) (by simpa using hfl) (by decide)
    unfold biLo; omega
  · have hxq : (1 : Rat) ≤ x := by exact_mod_cast hx0
    -- error of the product
    have he1 : |p - (w : Rat) * q| ≤ 1 / 4 := by
      have hb : pow2 (-125) ≤ |(w : Rat) * q| := by
        rw [abs_of_pos hpos]
        have h1 : p ≥ 1 := by linarith
        have : (1 / 4 : Rat) ≤ (w : Rat) * q := by
          by_contra hc
          have h14 : f32.Exact (1 / 4 : Rat) := by
            have := f32_dyadic (m := 64) (by decide)
            rw [show ((64 : Int) : Rat) / 256 = 1 / 4 by norm_num] at this
            exact this
          have := rndQ_le h14.1 (not_le.1 hc).le
          change p ≤ 1 / 4 at this
          linarith
        have h2 : pow2 (-125) ≤ pow2 (-2) := pow2_le.2 (by decide)
        have h3 : pow2 (-2) = 1 / 4 := by rw [pow2_eq]; norm_num
        linarith
      rcases rnd32_rel hb with e | e
      · rw [← hp] at e; rw [e]; norm_num
      · rw [← hp, abs_of_pos hpos] at e
        have : (w : Rat) * q / 16777216 ≤ 1 / 4 := by linarith
        linarith
    rw [abs_le] at he1
    have hxw : (x : Rat) ≤ (w : Rat) * q - 1 / 4 := by linarith
    have hd0 : 0 < (x : Rat) / q := div_pos (by linarith) hq
    have hdw : (x : Rat) / q ≤ w - 1 / (4 * q) := by
      rw [div_le_iff₀ hq, sub_mul]
      have : 1 / (4 * q) * q = 1 / 4 := by field_simp
      rw [this]; exact hxw
    have hw24 : (w : Rat) ≤ 16777216 := by exact_mod_cast hw'
    have h4q : 0 < 1 / (4 * q) := by positivity
    have hd := div_is (nat32 hx24) hf hq.ne' (f32_ovf (by rw [abs_of_pos hd0]; linarith))
    have hlt : f32.rnd ((x : Rat) / q) < w := by
      have hb : pow2 (-125) ≤ |(x : Rat) / q| := by
        rw [abs_of_pos hd0]
        have h1 : 1 / 4194304 ≤ (x : Rat) / q := by
          rw [div_le_div_iff₀ (by norm_num) hq]; linarith
        have h2 : pow2 (-125) ≤ pow2 (-22) := pow2_le.2 (by decide)
        have h3 : pow2 (-22) = 1 / 4194304 := by rw [pow2_eq]; norm_num
        linarith
      rcases rnd32_rel hb with e | e
      · rw [e]; linarith
      · rw [abs_of_pos hd0] at e
        have h1 := (abs_lt.1 e).2
        have h2 : (x : Rat) / q / 16777216 ≤ 1 / (4 * q) := by
          rw [div_div, div_le_div_iff₀ (by positivity) (by positivity)]
          nlinarith
        linarith
    have h0 : 0 ≤ f32.rnd ((x : Rat) / q) := rndQ_nonneg hd0.le
    set s := f32.rnd ((x : Rat) / q)
    have hfl0 : 0 ≤ s.floor := rat_le_floor.2 (by simpa using h0)
    have hfl1 : s.floor < w := rat_floor_lt.2 (by simpa using hlt)
    have hfl := floor_is hd (f32_int (by rw [abs_le]; omega))
    unfold biLo toU32
    rw [toInt_is hfl, truncQ_int]
    omega

/-- **C67, bilinear**: scale returns an image of the computed size for every non-empty image and all finite positive
factors for which the output has at most `2^22` columns and rows, in IEEE f32. -/
theorem c67_bilinear_partial (P : Profile) {img : Image F32} (h : ScaleInput img) {xf yf : F32} {qx qy : Rat}
    (hx : xf.Is qx) (hy : yf.Is qy) (hqx : 0 < qx) (hqy : 0 < qy)
    (hw : (img.info.width : Rat) * qx ≤ 4194304) (hh : (img.info.height : Rat) * qy ≤ 4194304)
    (hout : OutFits img xf yf) :
    ∃ out, scale P img xf yf .bilinear = .ok out ∧ out.WF ∧
      out.info = ⟨scaleDim img.info.width xf, scaleDim img.info.height yf, img.info.channels, img.info.alpha⟩ := by
  obtain ⟨out, e, ho⟩ := scale_core P (checkNonNeg_is hx hqx.le) (checkNonNeg_is hy hqy.le) rfl rfl
    (hout.info h.wf.channels) (m := .bilinear) _ (fun x y h1 h2 => by simp) (fun x y h1 h2 =>
      bilinear_ok P h.wf (biLo_lt hx hqx h.width h.width' hw h1) (biLo_lt hy hqy h.height h.height' hh h2))
  exact ⟨out, e, ho.1, ho.2.1⟩

/-- scaling a 3×2 image to 6×4 -/
theorem gray6_scaleInput (a b c d e f : F32) : ScaleInput (gray6 a b c d e f) :=
  ⟨gray6_WF .., by dims, by dims, by dims, by dims⟩

theorem gray6_outFits (a b c d e f : F32) : OutFits (gray6 a b c d e f) (num 2) (num 2) := by
  have h2 : (num 2 : F32).Is ((2 : Nat) : Rat) := by simpa using num32 (n := 2) (by decide)
  unfold OutFits
  rw [scaleDim_int (n := (gray6 a b c d e f).info.width) h2 (by dims) (by dims),
    scaleDim_int (n := (gray6 a b c d e f).info.height) h2 (by dims) (by dims)]
  dims

example (P : Profile) (a b c d e f : F32) : (∃ out, scale P (gray6 a b c d e f) (num 2) (num 2) .bilinear = .ok out) ∧
    (∃ out, scale P (gray6 a b c d e f) (num 2) (num 2) .bicubic = .ok out) ∧
    ∃ out, scale P (gray6 a b c d e f) (num 2) (num 2) .lanczos = .ok out := by
  have h2 : (num 2 : F32).Is 2 := by simpa using num32 (n := 2) (by decide)
  have hn : ((num 2 : F32) <. num 0) = false := by
    have h0 : (num 0 : F32).Is 0 := by simpa using num32 (n := 0) (by decide)
    rw [lt_is h2 h0]; simp
  have hs := gray6_scaleInput a b c d e f
  have ho := gray6_outFits a b c d e f
  obtain ⟨o₁, e₁, -⟩ := c67_bilinear_partial P hs h2 h2 (by norm_num) (by norm_num)
    (by show ((3 : Nat) : Rat) * 2 ≤ _; norm_num) (by show ((2 : Nat) : Rat) * 2 ≤ _; norm_num) ho
  obtain ⟨o₂, e₂, -⟩ := c67_bicubic_lanczos_partial P hs (Or.inl rfl) hn hn ho
  obtain ⟨o₃, e₃, -⟩ := c67_bicubic_lanczos_partial P hs (Or.inr rfl) hn hn ho
  exact ⟨⟨o₁, e₁⟩, ⟨o₂, e₂⟩, ⟨o₃, e₃⟩⟩

/-- **C67, nearest neighbour, positive integers** (see `c66_nearest_integer`) -/
theorem c67_nearest_integer_partial (P : Profile) {img : Image F32} (h : img.WF) {xf yf : F32} {kx ky : Nat}
    (hxf : xf.Is (kx : Rat)) (hyf : yf.Is (ky : Rat)) (hkx : 0 < kx) (hky : 0 < ky)
    (hw : kx * img.info.width ≤ 16777216) (hh : ky * img.info.height ≤ 16777216)
    (hkx' : kx ≤ 16777216) (hky' : ky ≤ 16777216)
    (hsize : kx * img.info.width * (ky * img.info.height) * max 1 img.info.channels < 4294967296) :
    ∃ out, scale P img xf yf .nearestNeighbor = .ok out :=
  let ⟨out, e, _⟩ := c66_nearest_integer P h hxf hyf hkx hky hw hh hkx' hky' hsize
  ⟨out, e⟩

/-- **C67** negative factors are rejected with an error, by every method -/
theorem c67_negative (P : Profile) (img : Image F32) {xf yf : F32} (m : Scale)
    (h : (xf <. num 0) = true ∨ (yf <. num 0) = true) : scale P img xf yf m = invalidArg := by
  have chk : ∀ z : F32, (z <. num 0) = true → checkNonNeg (FloatOps.rnum (F := F32)) z = invalidArg := by
    intro z hz
    unfold checkNonNeg
    have : (FloatOps.rnum (F := F32)).lt z ((FloatOps.rnum (F := F32)).ofU8 0) = true := hz
    rw [if_pos this]
  have chk' : ∀ z : F32, (z <. num 0) = false → checkNonNeg (FloatOps.rnum (F := F32)) z = .ok () := by
    intro z hz
    unfold checkNonNeg
    have : (FloatOps.rnum (F := F32)).lt z ((FloatOps.rnum (F := F32)).ofU8 0) = false := hz
    rw [if_neg (by rw [this]; decide)]
  unfold scale
  cases hx : (xf <. num 0)
  · rw [hx] at h
    have hy : (yf <. num 0) = true := by simpa using h
    rw [chk' xf hx, ok_bind, chk yf hy]; rfl
  · rw [chk xf hx]; rfl

example (P : Profile) (img : Image F32) (m : Scale) : scale P img (num (-1)) (num 1) m = invalidArg := by
  have h1 : (num (-1) : F32).Is (-1) := by simpa using num32 (n := -1) (by decide)
  have h0 : (num 0 : F32).Is 0 := by simpa using num32 (n := 0) (by decide)
  exact c67_negative P img m (Or.inl (by rw [lt_is h1 h0]; simp))

/-- one pixel -/
def onePixel (v : F32) : Image F32 := ⟨⟨1, 1, 1, false⟩, [v]⟩

/-- **C67 is violated by nearest-neighbour scaling**: enlarging a 1 x 1 image by 1.5 panics, in IEEE f32 -/
theorem c67_nearest_violated (P : Profile) (v : F32) {xf yf : F32} (hx : xf.Is (3 / 2)) (hy : yf.Is 1) :
    Res.Panics (scale P (onePixel v) xf yf .nearestNeighbor) := by
  have hwf : (onePixel v).WF := ⟨show 1 < 4294967296 by decide, show 1 < 4294967296 by decide,
    show 1 < 256 by decide, show 1 * 1 < 4294967296 by decide, show 1 * 1 * 1 < 4294967296 by decide, rfl⟩
  have hdx : scaleDim 1 xf = 2 := by
    unfold scaleDim
    have hm := mul_exact (nat32 (n := 1) (by decide)) hx (by
      have := f32_dyadic (m := 384) (by decide)
      convert this using 1; norm_num)
    have e : FP.roundAwayQ (((1 : Nat) : Rat) * (3 / 2)) = 2 := by decide +kernel
    have hr := round_is hm (by rw [e]; exact f32_int (by decide))
    rw [e] at hr
    exact toU32_int (n := 2) (by exact_mod_cast hr) (by decide)
  have hdy : scaleDim 1 yf = 1 := by
    have := scaleDim_int (k := 1) (n := 1) (by simpa using hy) (by decide) (by decide)
    simpa using this
  have c0 : toU32 (FloatOps.ceil (ofNat (F := F32) 1 /. xf) -. num 1) = 0 := by
    have hd := div_is (nat32 (n := 1) (by decide)) hx (by norm_num) (f32_ovf (by norm_num [abs_of_pos]))
    have e : (f32.rnd (((1 : Nat) : Rat) / (3 / 2))).ceil = 1 := by decide +kernel
    have hc := ceil_is hd (by rw [e]; exact f32_int (by decide))
    rw [e] at hc
    have hs := sub_exact hc (num32 (n := 1) (by decide)) (by rw [← Int.cast_sub]; exact f32_int (by decide))
    exact toU32_int (n := 0) (by simpa using hs) (by decide)
  have c1 : toU32 (FloatOps.ceil (ofNat (F := F32) 2 /. xf) -. num 1) = 1 := by
    have hd := div_is (nat32 (n := 2) (by decide)) hx (by norm_num) (f32_ovf (by norm_num [abs_of_pos]))
    have e : (f32.rnd (((2 : Nat) : Rat) / (3 / 2))).ceil = 2 := by decide +kernel
    have hc := ceil_is hd (by rw [e]; exact f32_int (by decide))
    rw [e] at hc
    have hs := sub_exact hc (num32 (n := 1) (by decide)) (by rw [← Int.cast_sub]; exact f32_int (by decide))
    refine toU32_int (n := 1) ?_ (by decide)
    convert hs using 1; norm_num
  have cy : toU32 (FloatOps.ceil (ofNat (F := F32) 1 /. yf) -. num 1) = 0 := by
    have := nearest_coord (k := 1) (x := 0) (by decide) (by decide) (by simpa using hy) (by decide)
    simpa using this
  unfold scale
  rw [checkNonNeg_is hx (by norm_num), ok_bind, checkNonNeg_is hy (by norm_num), ok_bind]
  show Res.Panics (do
    let output ← Image.blank P FloatOps.rnum ⟨scaleDim 1 xf, scaleDim 1 yf, 1, false⟩
    scaleLoop P output (interpolate P (onePixel v) xf yf .nearestNeighbor))
  rw [hdx, hdy]
  obtain ⟨b, eb, hb⟩ := Image.blank_eq P (FloatOps.rnum (F := F32)) (info := ⟨2, 1, 1, false⟩)
    ⟨by decide, by decide, by decide, by decide, by decide⟩
  rw [eb, ok_bind]
  unfold scaleLoop
  rw [hb.info_eq, forRange_cons (by decide)]
  refine Res.Panics.bind ?_ _
  rw [hb.info_eq, forRange_cons (by decide)]
  unfold interpolate interpolateNearestNeighbor
  dsimp only
  rw [u32Add_ok (by decide), ok_bind, ok_bind]
  show Res.Panics ((do
    let p ← (onePixel v).getPixel P (toU32 (FloatOps.ceil (ofNat (F := F32) 1 /. xf) -. num 1))
      (toU32 (FloatOps.ceil (ofNat (F := F32) 1 /. yf) -. num 1))
    b.setPixel P 0 0 p) >>= _)
  rw [c0, cy, Image.getPixel_eq P hwf Nat.zero_lt_one Nat.zero_lt_one, ok_bind,
    Image.setPixel_eq P hb.WF (by rw [hb.info_eq]; decide) (by rw [hb.info_eq]; decide)
      (by rw [hb.info_eq]; exact Image.px_length hwf Nat.zero_lt_one Nat.zero_lt_one), ok_bind, forRange_cons (by decide)]
  refine Res.Panics.bind ?_ _
  rw [u32Add_ok (by decide), ok_bind, ok_bind]
  show Res.Panics ((do
    let p ← (onePixel v).getPixel P (toU32 (FloatOps.ceil (ofNat (F := F32) 2 /. xf) -. num 1))
      (toU32 (FloatOps.ceil (ofNat (F := F32) 1 /. yf) -. num 1))
    _))
  rw [c1, Image.getPixel_panic P (by show ¬ (1 < 1 ∧ _); omega)]
  exact ⟨_, rfl⟩

example : (lit (3 / 2) : F32).Is (3 / 2) := by
  have h3 : f32.Exact (3 / 2) := ⟨⟨3, -1, by rw [show (-1 : Int) = Int.negSucc 0 from rfl]; norm_num [pow2], by decide, by decide⟩, by norm_num [pow2, f32]⟩
  have h := lit_is (f := f32) (q := 3 / 2) (by rw [h3.rnd]; exact h3.2)
  rw [h3.rnd] at h
  exact h
end
end Imgproc

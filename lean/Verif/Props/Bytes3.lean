import Verif.Props.Bytes2
import Verif.Props.CubicErr
import Verif.Props.LanczosErr
import Verif.Props.GaussBlur

/-!
# C140 (continued): bicubic and Lanczos scaling, Gaussian blur and Laplacian of Gaussian of byte images
-/
namespace Imgproc
open FloatOps
section
variable [Libm f32]

/-- the header of the scaled image -/
abbrev scaledInfo (i : ImageInfo) (xf yf : F32) : ImageInfo := ⟨scaleDim i.width xf, scaleDim i.height yf, i.channels, i.alpha⟩

/-- spec: `op` returns an image with header `info`, no byte of which leaves the range of the bytes of its channel of `img` -/
def KeepsChannelRange (op : Res (Image UInt8)) (img : Image UInt8) (info : ImageInfo) : Prop :=
  ∃ out, op = .ok out ∧ out.WF ∧ out.info = info ∧ ∀ c lo hi, c < img.info.channels →
    (∀ x y, x < img.info.width → y < img.info.height → lo ≤ img.byteAt x y c ∧ img.byteAt x y c ≤ hi) →
    ∀ x y, x < info.width → y < info.height → lo ≤ out.byteAt x y c ∧ out.byteAt x y c ≤ hi

/-- the float image of a byte image holds the bytes -/
theorem numbers_of_values {f : Image F32} {img : Image UInt8} (hi : f.info = img.info)
    (hf : f.ShowsValues img.info (fun x y c => ((img.byteAt x y c : Int) : Rat))) : f.Numbers fun x y c => (img.byteAt x y c : Rat) := by
  intro x y c hx hy hc
  obtain ⟨p, ep, hl, hp⟩ := hf.2.2 .debug x y (hi ▸ hx) (hi ▸ hy)
  rw [Image.getPixel_eq .debug hf.1 hx hy] at ep
  cases ep
  obtain ⟨r, er, hr⟩ := hp c (hi ▸ hc)
  rw [List.getD_eq_getElem?_getD, er]
  simpa using hr

/-- rounding a float image whose numbers are near the bounds -/
theorem range_of {P : Profile} {g : Image F32} {info : ImageInfo} (gw : g.WF) (gi : g.info = info) :
    ∃ out, imageFloatToU8 P g = .ok out ∧ out.WF ∧ out.info = info ∧ ∀ x y c, x < info.width → y < info.height → c < info.channels →
      ∀ b, ((g.px x y).getD c (num 0)).Is b → RoundsTo b (out.byteAt x y c) := by
  obtain ⟨out, eo, ho⟩ := floatToU8_shows P gw
  refine ⟨out, eo, ho.WF, by rw [ho.info_eq, gi], fun x y c h1 h2 hc b hb => ?_⟩
  rw [← gi] at h1 h2 hc
  have hl : c < (g.px x y).length := by rw [Image.px_length gw h1 h2]; exact hc
  rw [List.getD_eq_getElem?_getD, List.getElem?_eq_getElem hl] at hb
  have : out.byteAt x y c = (toU8 (FloatOps.round (g.px x y)[c])).toNat := by
    unfold Image.byteAt
    rw [ho.px_eq h1 h2, List.getD_eq_getElem?_getD, List.getElem?_map, List.getElem?_eq_getElem hl]; rfl
  rw [this]
  exact (toU8_nearest hb).rounds

/-- **C140** bicubic scaling by any factor: no byte leaves the range of the bytes of its channel (so a constant image stays constant) -/
theorem c140_bicubic_range (hp : CubeAccurate) (P : Profile) {img : Image UInt8} (h : img.WF) (w0 : 0 < img.info.width) (h0 : 0 < img.info.height)
    {xf yf : F32} {qx qy : Rat} (hx : xf.Is qx) (hy : yf.Is qy) (hqx : 0 < qx) (hqy : 0 < qy)
    (hw' : img.info.width ≤ 16777216) (hh' : img.info.height ≤ 16777216)
    (hw : (img.info.width : Rat) * qx ≤ 4194304) (hh : (img.info.height : Rat) * qy ≤ 4194304)
    (hout : scaleDim img.info.width xf * scaleDim img.info.height yf * max 1 img.info.channels < 4294967296) :
    KeepsChannelRange (onBytes P (fun f => scale P f xf yf .bicubic) img) img (scaledInfo img.info xf yf) := by
  refine onBytes_of (Q := fun r => KeepsChannelRange r img (scaledInfo img.info xf yf)) h fun f hi hf => ?_
  have hv := numbers_of_values hi hf
  have hs : ScaleInput f := ⟨hf.1, hi ▸ w0, hi ▸ h0, hi ▸ hw', hi ▸ hh'⟩
  have hof : OutFits f xf yf := by unfold OutFits; rw [hi]; exact hout
  have hM : ∀ x y c, x < f.info.width → y < f.info.height → c < f.info.channels → |(img.byteAt x y c : Rat)| ≤ 255 :=
    fun x y c _ _ _ => byteAt_rat _ _ _ _
  obtain ⟨g, e, gw, gi, gv⟩ := c114_bicubic_value hp P hs hx hy hqx hqy (hi ▸ hw) (hi ▸ hh) hof hv (M := 255) (by norm_num) (by norm_num) hM
  obtain ⟨g', e', hr⟩ := c114_bicubic_range hp P hs hx hy hqx hqy (hi ▸ hw) (hi ▸ hh) hof hv (M := 255) (by norm_num) (by norm_num) hM
  rw [e] at e'
  obtain rfl := Except.ok.inj e'
  rw [hi] at gi
  refine ⟨g, e, ?_⟩
  obtain ⟨out, eo, ow, oi, ho⟩ := range_of (P := P) gw gi
  refine ⟨out, eo, ow, oi, fun c lo hi' hc hb x y h1 h2 => ?_⟩
  obtain ⟨b, hb1, hb2, hb3⟩ := hr c lo hi' (hi ▸ hc) (fun x y hx hy => by
    have := hb x y (hi ▸ hx) (hi ▸ hy)
    exact ⟨Nat.cast_le.2 this.1, Nat.cast_le.2 this.2⟩) x y (gi ▸ h1) (gi ▸ h2)
  exact (ho x y c h1 h2 hc b hb1).between (by linarith) (by linarith) ((hb 0 0 w0 h0).1.trans (byteAt_le _ _ _ _))

/-- **C140** Lanczos scaling by 1 returns the byte image itself: the f32 error of the window sum never moves a byte -/
theorem c140_lanczos_identity (hs : SinAccurate) (P : Profile) {img : Image UInt8} (h : img.WF) (w0 : 0 < img.info.width) (h0 : 0 < img.info.height)
    {xf yf : F32} (hx : xf.Is 1) (hy : yf.Is 1) (hw : img.info.width ≤ 4194304) (hh : img.info.height ≤ 4194304)
    (hout : img.info.width * img.info.height * max 1 img.info.channels < 4294967296) :
    ∃ out, onBytes P (fun f => scale P f xf yf .lanczos) img = .ok out ∧ out = img := by
  have d1 : scaleDim img.info.width xf = img.info.width := by
    have := scaleDim_int (k := 1) (n := img.info.width) (by simpa using hx) (by omega) (by omega)
    simpa using this
  have d2 : scaleDim img.info.height yf = img.info.height := by
    have := scaleDim_int (k := 1) (n := img.info.height) (by simpa using hy) (by omega) (by omega)
    simpa using this
  refine onBytes_of (Q := fun r => ∃ out, r = .ok out ∧ out = img) h fun f hi hf => ?_
  have hv := numbers_of_values hi hf
  have hsi : ScaleInput f := ⟨hf.1, hi ▸ w0, hi ▸ h0, by rw [hi]; omega, by rw [hi]; omega⟩
  have hof : OutFits f xf yf := by unfold OutFits; rw [hi, d1, d2]; exact hout
  have hM : ∀ x y c, x < f.info.width → y < f.info.height → c < f.info.channels → |(img.byteAt x y c : Rat)| ≤ 255 :=
    fun x y c _ _ _ => byteAt_rat _ _ _ _
  have hwq : (f.info.width : Rat) * 1 ≤ 4194304 := by rw [hi, mul_one]; exact_mod_cast hw
  have hhq : (f.info.height : Rat) * 1 ≤ 4194304 := by rw [hi, mul_one]; exact_mod_cast hh
  obtain ⟨g, e, gw, gi, -⟩ := c115_lanczos_value hs P hsi hx hy one_pos one_pos hwq hhq hof hv (M := 255) (by norm_num) (by norm_num) hM
    (A := 3) (by decide) (by decide)
  obtain ⟨g', e', -, hr⟩ := c115_lanczos_identity hs P hsi hx hy (hi ▸ hw) (hi ▸ hh) hv (M := 255) (by norm_num) (by norm_num) hM
    (A := 3) (by decide) (by decide) hof
  rw [e] at e'
  obtain rfl := Except.ok.inj e'
  rw [hi, d1, d2] at gi
  refine ⟨g, e, ?_⟩
  obtain ⟨out, eo, ow, oi, ho⟩ := range_of (P := P) gw gi
  refine ⟨out, eo, Image.ext_px ow h oi fun x y h1 h2 => ?_⟩
  rw [oi] at h1 h2
  refine List.ext_getElem (by rw [Image.px_length ow (oi ▸ h1) (oi ▸ h2), Image.px_length h h1 h2, oi]) fun c c1 c2 => ?_
  have hc : c < img.info.channels := by rwa [Image.px_length h h1 h2] at c2
  obtain ⟨b, hb1, hb2⟩ := hr x y c (hi ▸ h1) (hi ▸ h2) (hi ▸ hc)
  have hb2' : |(b : ℝ) - (img.byteAt x y c : ℝ)| ≤ 1 / 4 := by
    have := hb2
    push_cast at this
    refine this.trans ?_
    norm_num
  have hb3 : |b - (img.byteAt x y c : Rat)| ≤ 1 / 4 := by
    have : ((|b - (img.byteAt x y c : Rat)| : Rat) : ℝ) ≤ ((1 / 4 : Rat) : ℝ) := by push_cast; exact hb2'
    exact_mod_cast this
  rw [abs_le] at hb3
  have := (ho x y c h1 h2 hc b hb1).between (lo := img.byteAt x y c) (hi := img.byteAt x y c) (by linarith) (by linarith) (byteAt_le _ _ _ _)
  have heq : out.byteAt x y c = img.byteAt x y c := by omega
  unfold Image.byteAt at heq
  rw [List.getD_eq_getElem?_getD, List.getElem?_eq_getElem c1, List.getD_eq_getElem?_getD, List.getElem?_eq_getElem c2] at heq
  exact UInt8.toNat_inj.1 heq

/-- spec: `op` returns an image with header `info` whose bytes are the values, saturated at 0 and 255, to within one half plus `err` -/
def BytesNearReal (op : Res (Image UInt8)) (info : ImageInfo) (val : Nat → Nat → Nat → ℝ) (err : ℝ) : Prop :=
  ∃ out, op = .ok out ∧ out.WF ∧ out.info = info ∧ ∀ x y c, x < info.width → y < info.height → c < info.channels →
    |(out.byteAt x y c : ℝ) - max 0 (min 255 (val x y c))| ≤ 1 / 2 + err

theorem bytes_near_real {P : Profile} {g : Image F32} {info : ImageInfo} {w : Nat → Nat → Nat → Rat} (hg : g.ShowsValues info w)
    {val : Nat → Nat → Nat → ℝ} {err : ℝ}
    (h : ∀ x y c, x < info.width → y < info.height → c < info.channels → |(w x y c : ℝ) - val x y c| ≤ err) :
    BytesNearReal (imageFloatToU8 P g) info val err := by
  obtain ⟨out, eo, ow, oi, ho⟩ := (bytes_rounded P hg).byteAt
  refine ⟨out, eo, ow, oi, fun x y c hx hy hc => ?_⟩
  have hr := ho x y c hx hy hc
  have hb := h x y c hx hy hc
  have h1 : ((out.byteAt x y c : ℝ) ≤ w x y c + 1 / 2) ∨ out.byteAt x y c = 0 := hr.low.imp_left fun h => by
    have := (Rat.cast_le (K := ℝ)).2 h; push_cast at this; exact this
  have h2 : ((w x y c : ℝ) < out.byteAt x y c + 1 / 2) ∨ out.byteAt x y c = 255 := hr.high.imp_left fun h => by
    have := (Rat.cast_lt (K := ℝ)).2 h; push_cast at this; exact this
  have h3 : (out.byteAt x y c : ℝ) ≤ 255 := by exact_mod_cast hr.byte
  have h4 : (0 : ℝ) ≤ out.byteAt x y c := Nat.cast_nonneg _
  have e0 : 0 ≤ err := (abs_nonneg _).trans hb
  rw [abs_le] at hb ⊢
  set n : ℝ := (out.byteAt x y c : ℝ)
  constructor
  · have : max 0 (min 255 (val x y c)) ≤ n + 1 / 2 + err := by
      refine max_le (by linarith) ?_
      rcases h2 with h2 | h2
      · exact (min_le_right _ _).trans (by linarith)
      · refine (min_le_left _ _).trans ?_
        have : n = 255 := by show ((out.byteAt x y c : Nat) : ℝ) = 255; rw [h2]; norm_num
        linarith
    linarith
  · have : n - 1 / 2 - err ≤ max 0 (min 255 (val x y c)) := by
      rcases h1 with h1 | h1
      · exact le_max_of_le_right (le_min (by linarith) (by linarith))
      · refine le_max_of_le_left ?_
        have : n = 0 := by show ((out.byteAt x y c : Nat) : ℝ) = 0; rw [h1]; norm_num
        linarith
    linarith

variable {sigma : F32} {s : Rat} (hs : sigma.Is s) (s0 : 1 / 16 ≤ s) (s1 : s ≤ 1000)

include hs s0 s1 in
/-- **C140** `gaussian_blur` of a byte image: every byte is the sum weighted with the true Gaussian, saturated, to within one half and the
explicit f32 error (`δ` is the accuracy of the singular value decomposition) -/
theorem c140_gaussian_blur (hp : PowGood) (P : Profile) {svd : Svd F32} {img : Image UInt8} (h : img.WF)
    (n : Nat) (hodd : n % 2 = 1) (hn : n * n < 2 ^ 23) {δ : ℝ} (δ0 : 0 ≤ δ)
    (hsvd : ∀ k, generateGaussianKernel P n sigma = .ok k → SvdSplits svd k n δ)
    (hw : img.info.width + n ≤ 2147483648) (hh : img.info.height + n ≤ 2147483648) :
    BytesNearReal (onBytes P (fun f => gaussianBlur svd P f n sigma) img) img.info
      (realResponse img.info (fun i j => gaussian2 s (centreDist2 n i j)) n fun x y c => (img.byteAt x y c : Rat))
      (255 * ((n * n + 24) / 2 ^ 23 * (∑ i ∈ Finset.range n, ∑ j ∈ Finset.range n,
            (1 + centreDist2 n i j / (2 * (s : ℝ) ^ 2)) * gaussian2 s (centreDist2 n i j)) + 2 * (n * n) * δ + n * n / 2 ^ 128) + n * n / 2 ^ 120) := by
  refine onBytes_of (Q := fun r => BytesNearReal r img.info _ _) h fun f hi hf => ?_
  have hf' : f.ShowsValues img.info (fun x y c => (img.byteAt x y c : Rat)) := by simpa using hf
  rw [← hi] at hf' hw hh
  obtain ⟨g, w, e, hg, hgw⟩ := c117_gaussian_blur hs s0 s1 hp P hf' n hodd hn (B := 255) (by norm_num) (by norm_num) δ0
    (fun x y c _ _ _ => byteAt_rat _ _ _ _) hsvd hw hh
  rw [hi] at hg hgw
  refine ⟨g, e, bytes_near_real hg fun x y c hx hy hc => ?_⟩
  simpa using hgw x y c hx hy hc

include hs s0 s1 in
/-- **C140** `laplacian_of_gaussian` of a byte image without zero bytes is black: every value is negative (C99, seen by the user) -/
theorem c140_log_black (hp : PowGood) (P : Profile) {img : Image UInt8} (h : img.WF) (n : Nat) (hodd : n % 2 = 1) (hn : n ≤ 2047)
    (hpos : ∀ x y c, x < img.info.width → y < img.info.height → c < img.info.channels → 1 ≤ img.byteAt x y c)
    (hw : img.info.width + n ≤ 2147483648) (hh : img.info.height + n ≤ 2147483648) :
    ∃ out, onBytes P (fun f => laplacianOfGaussian P f n sigma) img = .ok out ∧ out.WF ∧ out.info = img.info ∧
      ∀ x y c, x < img.info.width → y < img.info.height → c < img.info.channels → out.byteAt x y c = 0 := by
  refine onBytes_of (Q := fun r => ∃ out, r = .ok out ∧ out.WF ∧ out.info = img.info ∧
      ∀ x y c, x < img.info.width → y < img.info.height → c < img.info.channels → out.byteAt x y c = 0) h fun f hi hf => ?_
  have hf' : f.ShowsValues img.info (fun x y c => (img.byteAt x y c : Rat)) := by simpa using hf
  have hn2 : n * n < 2 ^ 23 := by have : n * n ≤ 2047 * 2047 := Nat.mul_le_mul hn hn; omega
  rw [← hi] at hf' hw hh
  obtain ⟨g, w, e, hg, -, hneg⟩ := c117_log hs s0 s1 hp P hf' n hodd hn2 (B := 255) (by norm_num) (by norm_num)
    (fun x y c _ _ _ => byteAt_rat _ _ _ _) hw hh
  have hneg := hneg hn fun x y c hx hy hc => by
    have : (1 : Rat) ≤ img.byteAt x y c := by exact_mod_cast hpos x y c (hi ▸ hx) (hi ▸ hy) (hi ▸ hc)
    exact le_trans (by norm_num) this
  rw [hi] at hg hneg
  refine ⟨g, e, ?_⟩
  obtain ⟨out, eo, ow, oi, ho⟩ := (bytes_rounded P hg).byteAt
  refine ⟨out, eo, ow, oi, fun x y c hx hy hc => ?_⟩
  rcases (ho x y c hx hy hc).low with h1 | h1
  · have h2 := hneg x y c hx hy hc
    have : (out.byteAt x y c : Rat) < (1 : Nat) := by push_cast; linarith
    have : out.byteAt x y c < 1 := by exact_mod_cast this
    omega
  · exact h1

end

/-- the hypotheses are met: scaling byte images with accurate math libraries -/
example (P : Profile) : letI := cubeLibm
    KeepsChannelRange (onBytes P (fun i => scale P i (num 2) (num 2) .bicubic) (gray6 1 2 3 4 5 6)) (gray6 1 2 3 4 5 6) ⟨6, 4, 1, false⟩ := by
  let := cubeLibm
  have h2 : (num 2 : F32).Is ((2 : Nat) : Rat) := by simpa using num32 (n := 2) (by decide)
  have hw : scaleDim (gray6 1 2 3 4 5 6 : Image UInt8).info.width (num 2 : F32) = 6 := by
    rw [scaleDim_int h2 (by dims) (by dims)]; rfl
  have hh : scaleDim (gray6 1 2 3 4 5 6 : Image UInt8).info.height (num 2 : F32) = 4 := by
    rw [scaleDim_int h2 (by dims) (by dims)]; rfl
  have := c140_bicubic_range cubeLibm_spec P (gray6_WF 1 2 3 4 5 6) (by dims) (by dims) (xf := num 2) (yf := num 2) (qx := 2) (qy := 2)
      (by simpa using h2) (by simpa using h2) (by norm_num) (by norm_num) (by dims) (by dims)
      (by rw [show (gray6 1 2 3 4 5 6 : Image UInt8).info = ⟨3, 2, 1, false⟩ from rfl]; norm_num)
      (by rw [show (gray6 1 2 3 4 5 6 : Image UInt8).info = ⟨3, 2, 1, false⟩ from rfl]; norm_num)
      (by rw [hw, hh]; dims)
  rw [scaledInfo, hw, hh] at this
  exact this

example (P : Profile) (a b c d e f : UInt8) : letI := sinLibm
    onBytes P (fun i => scale P i (num 1) (num 1) .lanczos) (gray6 a b c d e f) = .ok (gray6 a b c d e f) := by
  let := sinLibm
  have h1 : (num 1 : F32).Is 1 := by simpa using num32 (n := 1) (by decide)
  obtain ⟨out, e, rfl⟩ := c140_lanczos_identity sinLibm_spec P (gray6_WF a b c d e f) (by dims) (by dims) h1 h1 (by dims) (by dims) (by dims)
  exact e

example (P : Profile) : letI := goodLibm
    ∃ out, onBytes P (fun i => laplacianOfGaussian P i 3 (num 1)) (gray6 200 200 200 9 9 9) = .ok out ∧ out.byteAt 1 1 0 = 0 := by
  let := goodLibm
  have one : (num 1 : F32).Is 1 := by simpa using num32 (n := 1) (by decide)
  obtain ⟨out, e, -, -, h⟩ := c140_log_black one (by norm_num) (by norm_num) goodLibm_spec P (gray6_WF 200 200 200 9 9 9) 3 rfl (by decide)
    (fun x y c hx hy hc => by
      have hx : x < 3 := hx
      have hy : y < 2 := hy
      have hc : c = 0 := Nat.lt_one_iff.1 hc
      subst hc
      interval_cases x <;> interval_cases y <;> decide) (by dims) (by dims)
  exact ⟨out, e, h 1 1 0 (show 1 < 3 by decide) (show 1 < 2 by decide) (show 0 < 1 by decide)⟩

end Imgproc

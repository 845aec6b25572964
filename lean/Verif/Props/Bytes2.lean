import Verif.Props.Bytes
import Verif.Props.Filter2
import Verif.Spec.Demo

/-!
# C140 (continued): averages stay between the bytes they average, gradients are rounded correctly, thresholds are exact
-/
namespace Imgproc
open FloatOps
section
variable [Libm f32]

omit [Libm f32] in
theorem RoundsTo.between {q : Rat} {n lo hi : Nat} (h : RoundsTo q n) (h1 : lo - 1 / 4 ≤ q) (h2 : q ≤ hi + 1 / 4) (hb : lo ≤ 255) :
    lo ≤ n ∧ n ≤ hi := by
  constructor
  · rcases h.high with h3 | h3
    · have : (lo : Rat) < (n + 1 : Nat) := by push_cast; linarith
      have : lo < n + 1 := by exact_mod_cast this
      omega
    · omega
  · rcases h.low with h3 | h3
    · have : (n : Rat) < (hi + 1 : Nat) := by push_cast; linarith
      have : n < hi + 1 := by exact_mod_cast this
      omega
    · omega

omit [Libm f32] in
theorem byteAt_le (img : Image UInt8) (x y c : Nat) : img.byteAt x y c ≤ 255 := by
  have : img.byteAt x y c < 256 := UInt8.toNat_lt _
  omega

omit [Libm f32] in
/-- the byte that a rounded image holds -/
theorem BytesRounded.byteAt {op : Res (Image UInt8)} {info : ImageInfo} {val : Nat → Nat → Nat → Rat} (h : BytesRounded op info val) :
    ∃ out, op = .ok out ∧ out.WF ∧ out.info = info ∧ ∀ x y c, x < info.width → y < info.height → c < info.channels →
      RoundsTo (val x y c) (out.byteAt x y c) := by
  obtain ⟨out, e, hw, hi, hv⟩ := h
  refine ⟨out, e, hw, hi, fun x y c hx hy hc => ?_⟩
  obtain ⟨p, ep, hl, hp⟩ := hv .debug x y hx hy
  rw [Image.getPixel_eq .debug hw (hi ▸ hx) (hi ▸ hy)] at ep
  cases ep
  obtain ⟨v, ev, hr⟩ := hp c hc
  unfold Image.byteAt
  rw [List.getD_eq_getElem?_getD, ev]
  exact hr

/-- spec: `op` returns an image with header `info`, and wherever the bytes of `img` at most `r` pixels away lie between two bounds, the byte of
the result lies between the same bounds -/
def KeepsWindowRange (op : Res (Image UInt8)) (img : Image UInt8) (r : Nat) : Prop :=
  ∃ out, op = .ok out ∧ out.WF ∧ out.info = img.info ∧ ∀ x y c lo hi, x < img.info.width → y < img.info.height → c < img.info.channels →
    img.WindowBytes x y c r lo hi → lo ≤ out.byteAt x y c ∧ out.byteAt x y c ≤ hi

theorem keeps_of {P : Profile} {op : Image F32 → Res (Image F32)} {img : Image UInt8} (h : img.WF) {r : Nat} {err : Rat} (he : err ≤ 1 / 4)
    (hop : ∀ f : Image F32, f.info = img.info → f.ShowsValues f.info (fun x y c => (img.byteAt x y c : Rat)) →
      ∃ g w, op f = .ok g ∧ g.ShowsValues f.info w ∧ ∀ x y c lo hi, x < f.info.width → y < f.info.height → c < f.info.channels →
        WindowNumbers f.info (fun x y c => (img.byteAt x y c : Rat)) x y c r lo hi → lo - err ≤ w x y c ∧ w x y c ≤ hi + err) :
    KeepsWindowRange (onBytes P op img) img r := by
  refine onBytes_of (Q := fun q => KeepsWindowRange q img r) h fun f hi hf => ?_
  have hf' : f.ShowsValues img.info (fun x y c => (img.byteAt x y c : Rat)) := by simpa using hf
  rw [← hi] at hf'
  obtain ⟨g, w, e, hg, hw⟩ := hop f hi hf'
  rw [hi] at hg hw
  refine ⟨g, e, ?_⟩
  obtain ⟨out, eo, ow, oi, ho⟩ := (bytes_rounded P hg).byteAt
  refine ⟨out, eo, ow, oi, fun x y c lo hi' hx hy hc hwin => ?_⟩
  have hx0 := hwin x y hx hy (by omega) (by omega) (by omega) (by omega)
  have := hw x y c lo hi' hx hy hc (fun i j h1 h2 h3 h4 h5 h6 => by
    have := hwin i j h1 h2 h3 h4 h5 h6
    exact ⟨Nat.cast_le.2 this.1, Nat.cast_le.2 this.2⟩)
  exact (ho x y c hx hy hc).between (by linarith [this.1]) (by linarith [this.2]) (hx0.1.trans (byteAt_le _ _ _ _))

omit [Libm f32] in
theorem byteAt_rat (img : Image UInt8) (x y c : Nat) : |(img.byteAt x y c : Rat)| ≤ 255 := by
  have := byteAt_abs img x y c; exact_mod_cast this

/-- **C140** `weighted_avg_filter` (up to size 89) and `box_filter` (up to size 51) never leave the range of the bytes they average: f32
rounding is too small to show after rounding to bytes -/
theorem c140_average_range (P : Profile) {img : Image UInt8} (h : img.WF) (size : Nat) (hodd : size % 2 = 1) :
    (∀ weight, size ≤ 89 → 0 < size * size - 1 + weight → size * size - 1 + weight ≤ 16777216 →
      img.info.width + size ≤ 2147483648 → img.info.height + size ≤ 2147483648 →
      KeepsWindowRange (onBytes P (fun f => weightedAvgFilter P f size weight) img) img (size / 2)) ∧
    (size ≤ 51 → img.info.width + size * size ≤ 2147483648 → img.info.height + size * size ≤ 2147483648 →
      KeepsWindowRange (onBytes P (fun f => boxFilter P f size) img) img (size * size / 2)) := by
  constructor
  · intro weight hs h0 h1 hw hh
    have hs2 : size * size ≤ 89 * 89 := Nat.mul_le_mul hs hs
    have hs3 : (size * size : Rat) ≤ 89 * 89 := by exact_mod_cast hs2
    refine keeps_of h (err := (size * size + 3) / 2 ^ 23 * 255 + size * size / 2 ^ 147) ?_ fun f hi hf => ?_
    · linarith
    · rw [← hi] at hw hh
      exact c110_weighted_avg P hf size weight 255 hodd h1 (by omega) h0 (fun x y c _ _ _ => byteAt_rat _ _ _ _) (by norm_num) (by norm_num) hw hh
  · intro hs hw hh
    have hs2 : size * size ≤ 51 * 51 := Nat.mul_le_mul hs hs
    have hs3 : (size * size : Rat) ≤ 51 * 51 := by exact_mod_cast hs2
    refine keeps_of h (err := (3 * (size * size) + 15) / 2 ^ 23 * 255 + 4 * (size * size) / 2 ^ 147) ?_ fun f hi hf => ?_
    · linarith
    · rw [← hi] at hw hh
      exact c110_box P hf size 255 hodd (by omega) (fun x y c _ _ _ => byteAt_rat _ _ _ _) (by norm_num) (by norm_num) hw hh

/-- **C140** bilinear scaling by any factor: no byte leaves the range of the bytes of its channel -/
theorem c140_bilinear_range (P : Profile) {img : Image UInt8} (h : img.WF) (w0 : 0 < img.info.width) (h0 : 0 < img.info.height)
    {xf yf : F32} {qx qy : Rat} (hx : xf.Is qx) (hy : yf.Is qy) (hqx : 0 < qx) (hqy : 0 < qy)
    (hw' : img.info.width ≤ 16777216) (hh' : img.info.height ≤ 16777216)
    (hw : (img.info.width : Rat) * qx ≤ 4194304) (hh : (img.info.height : Rat) * qy ≤ 4194304)
    (hout : scaleDim img.info.width xf * scaleDim img.info.height yf * max 1 img.info.channels < 4294967296) :
    ∃ out, onBytes P (fun f => scale P f xf yf .bilinear) img = .ok out ∧ out.WF ∧
      out.info = ⟨scaleDim img.info.width xf, scaleDim img.info.height yf, img.info.channels, img.info.alpha⟩ ∧
      ∀ c lo hi, c < img.info.channels →
        (∀ x y, x < img.info.width → y < img.info.height → lo ≤ img.byteAt x y c ∧ img.byteAt x y c ≤ hi) →
        ∀ x y, x < out.info.width → y < out.info.height → lo ≤ out.byteAt x y c ∧ out.byteAt x y c ≤ hi := by
  refine onBytes_of (Q := fun r => ∃ out, r = .ok out ∧ out.WF ∧
      out.info = ⟨scaleDim img.info.width xf, scaleDim img.info.height yf, img.info.channels, img.info.alpha⟩ ∧
      ∀ c lo hi, c < img.info.channels →
        (∀ x y, x < img.info.width → y < img.info.height → lo ≤ img.byteAt x y c ∧ img.byteAt x y c ≤ hi) →
        ∀ x y, x < out.info.width → y < out.info.height → lo ≤ out.byteAt x y c ∧ out.byteAt x y c ≤ hi) h fun f hi hf => ?_
  have hv : f.Numbers fun x y c => (img.byteAt x y c : Rat) := by
    intro x y c hx hy hc
    obtain ⟨p, ep, hl, hp⟩ := hf.2.2 .debug x y (hi ▸ hx) (hi ▸ hy)
    rw [Image.getPixel_eq .debug hf.1 hx hy] at ep
    cases ep
    obtain ⟨r, er, hr⟩ := hp c (hi ▸ hc)
    rw [List.getD_eq_getElem?_getD, er]
    simpa using hr
  have hs : ScaleInput f := ⟨hf.1, hi ▸ w0, hi ▸ h0, hi ▸ hw', hi ▸ hh'⟩
  have hof : OutFits f xf yf := by unfold OutFits; rw [hi]; exact hout
  have hM : ∀ x y c, x < f.info.width → y < f.info.height → c < f.info.channels → |(img.byteAt x y c : Rat)| ≤ 255 :=
    fun x y c _ _ _ => byteAt_rat _ _ _ _
  obtain ⟨g, e, gw, gi, gv⟩ := c113_bilinear_value P hs hx hy hqx hqy (hi ▸ hw) (hi ▸ hh) hof hv (M := 255) (by norm_num) (by norm_num) hM
  obtain ⟨g', e', hr⟩ := c113_bilinear_range P hs hx hy hqx hqy (hi ▸ hw) (hi ▸ hh) hof hv (M := 255) (by norm_num) (by norm_num) hM
  rw [e] at e'
  obtain rfl := Except.ok.inj e'
  refine ⟨g, e, ?_⟩
  obtain ⟨out, eo, ho⟩ := floatToU8_shows P gw
  refine ⟨out, eo, ho.WF, by rw [ho.info_eq, gi, hi], fun c lo hi' hc hb x y h1 h2 => ?_⟩
  rw [ho.info_eq] at h1 h2
  have hpos : lo ≤ 255 := (hb 0 0 w0 h0).1.trans (byteAt_le _ _ _ _)
  obtain ⟨b, hb1, hb2, hb3⟩ := hr c lo hi' (hi ▸ hc) (fun x y hx hy => by
    have := hb x y (hi ▸ hx) (hi ▸ hy)
    exact ⟨by exact_mod_cast this.1, by exact_mod_cast this.2⟩) x y h1 h2
  have hl : c < (g.px x y).length := by rw [Image.px_length gw h1 h2, gi, hi]; exact hc
  rw [List.getD_eq_getElem?_getD, List.getElem?_eq_getElem hl] at hb1
  have : out.byteAt x y c = (toU8 (FloatOps.round (g.px x y)[c])).toNat := by
    unfold Image.byteAt
    rw [ho.px_eq h1 h2, List.getD_eq_getElem?_getD, List.getElem?_map, List.getElem?_eq_getElem hl]; rfl
  rw [this]
  exact (toU8_nearest hb1).rounds.between (by linarith) (by linarith) hpos

/-! ### gradients -/

omit [Libm f32] in
/-- rounding an accurate root gives the integer nearest to the exact root -/
theorem root_byte {N : Int} (hN : 0 ≤ N) {a : Rat} {n : Nat} (h : RoundsTo a n)
    (ha : |(a : ℝ) - Real.sqrt N| ≤ Real.sqrt N / 2 ^ 23) : RootByte N n := by
  have hNr : (0 : ℝ) ≤ N := by exact_mod_cast hN
  have hr := Real.sqrt_nonneg (N : ℝ)
  have hsq := Real.sq_sqrt hNr
  set r := Real.sqrt (N : ℝ)
  rw [abs_le] at ha
  have hb := h.byte
  refine ⟨hb, ?_, ?_⟩
  · rcases h.low with h1 | h1
    · by_cases h0 : n = 0
      · exact .inl h0
      refine .inr ?_
      by_contra hc
      have h1' : (n : ℝ) ≤ a + 1 / 2 := by have := (Rat.cast_le (K := ℝ)).2 h1; push_cast at this; linarith
      have hn1 : (1 : ℝ) ≤ n := by exact_mod_cast (by omega : 1 ≤ n)
      have hn2 : (n : ℝ) ≤ 255 := by exact_mod_cast hb
      have hlt : 4 * N + 1 ≤ (2 * (n : Int) - 1) ^ 2 := by omega
      have hlt' : 4 * (N : ℝ) + 1 ≤ (2 * (n : ℝ) - 1) ^ 2 := by exact_mod_cast hlt
      have hle : (n : ℝ) - 1 / 2 ≤ r * (1 + 1 / 2 ^ 23) := by linarith [ha.2]
      have h2 : ((n : ℝ) - 1 / 2) ^ 2 ≤ (r * (1 + 1 / 2 ^ 23)) ^ 2 := pow_le_pow_left₀ (by linarith) hle 2
      rw [mul_pow, hsq] at h2
      have h3 : ((n : ℝ) - 1 / 2) ^ 2 ≤ 255 ^ 2 := pow_le_pow_left₀ (by linarith) (by linarith) 2
      have h4 : (2 * (n : ℝ) - 1) ^ 2 = 4 * ((n : ℝ) - 1 / 2) ^ 2 := by ring
      rw [h4] at hlt'
      set t := ((n : ℝ) - 1 / 2) ^ 2
      norm_num at h2 h3 ⊢
      linarith
    · exact .inl h1
  · rcases h.high with h1 | h1
    · by_cases h0 : n = 255
      · exact .inl h0
      refine .inr ?_
      by_contra hc
      have h1' : (a : ℝ) < n + 1 / 2 := by have := (Rat.cast_lt (K := ℝ)).2 h1; push_cast at this; linarith
      have hn1 : (0 : ℝ) ≤ n := Nat.cast_nonneg n
      have hn2 : (n : ℝ) ≤ 255 := by exact_mod_cast hb
      have hodd : (2 * (n : Int) + 1) ^ 2 = 4 * ((n : Int) * n + n) + 1 := by ring
      have hlt : (2 * (n : Int) + 1) ^ 2 + 3 ≤ 4 * N := by omega
      have hlt' : (2 * (n : ℝ) + 1) ^ 2 + 3 ≤ 4 * (N : ℝ) := by exact_mod_cast hlt
      have hle : r * (1 - 1 / 2 ^ 23) ≤ (n : ℝ) + 1 / 2 := by linarith [ha.1]
      have h2 : (r * (1 - 1 / 2 ^ 23)) ^ 2 ≤ ((n : ℝ) + 1 / 2) ^ 2 := pow_le_pow_left₀ (mul_nonneg hr (by norm_num)) hle 2
      rw [mul_pow, hsq] at h2
      have h3 : ((n : ℝ) + 1 / 2) ^ 2 ≤ 256 ^ 2 := pow_le_pow_left₀ (by linarith) (by linarith) 2
      have h4 : (2 * (n : ℝ) + 1) ^ 2 = 4 * ((n : ℝ) + 1 / 2) ^ 2 := by ring
      rw [h4] at hlt'
      set t := ((n : ℝ) + 1 / 2) ^ 2
      norm_num at h2 h3 ⊢
      linarith
    · exact .inl h1

/-- spec: `op` returns a one-channel image whose bytes are the integers nearest to the gradient magnitude -/
def GradientBytes (op : Res (Image UInt8)) (info : ImageInfo) (v : Nat → Nat → Nat → Int) (w : Nat) : Prop :=
  ∃ out, op = .ok out ∧ out.WF ∧ out.info = info ∧ ∀ x y, x < info.width → y < info.height →
    RootByte (intGradX info v w x y ^ 2 + intGradY info v w x y ^ 2) (out.byteAt x y 0)

/-- **C140** `sobel`, `prewitt` and `sobel_weighted` on one-channel byte images: every byte is the integer nearest to the exact gradient
magnitude (saturated at 255) – f32 rounding never moves it to another integer -/
theorem c140_gradient (hsq : SquareExact) (P : Profile) {img : Image UInt8} (h : img.WF) (hch : img.info.channels = 1) (ha : img.info.alpha = false)
    (hw : img.info.width + 3 ≤ 2147483648) (hh : img.info.height + 3 ≤ 2147483648) (weight : Nat) (hwt : weight ≤ 9) :
    let byte := fun x y c => (img.byteAt x y c : Int)
    GradientBytes (onBytes P (fun f => sobelWeighted P f weight) img) img.info byte weight ∧
    GradientBytes (onBytes P (sobel P) img) img.info byte 2 ∧
    GradientBytes (onBytes P (prewitt P) img) img.info byte 1 := by
  intro byte
  have key : ∀ {op : Image F32 → Res (Image F32)} {w : Nat}, (∀ f : Image F32, f.info = img.info →
      f.ShowsValues f.info (fun x y c => ((byte x y c : Int) : Rat)) → ∃ out, op f = .ok out ∧ ShowsGradient out f.info byte w) →
      GradientBytes (onBytes P op img) img.info byte w := by
    intro op w hop
    refine onBytes_of (Q := fun q => GradientBytes q img.info byte w) h fun f hi hf => ?_
    rw [← hi] at hf
    obtain ⟨g, e, a, hg, hga⟩ := hop f hi hf
    rw [hi] at hg hga
    refine ⟨g, e, ?_⟩
    obtain ⟨out, eo, ow, oi, ho⟩ := (bytes_rounded P hg).byteAt
    refine ⟨out, eo, ow, oi, fun x y hx hy => ?_⟩
    refine root_byte (by positivity) (ho x y 0 hx hy (by omega)) ?_
    push_cast
    exact (hga x y hx hy).2.1
  have hb : ∀ x y c, 0 ≤ byte x y c ∧ byte x y c ≤ 255 := fun x y c => ⟨Int.natCast_nonneg _, Int.ofNat_le.2 (byteAt_le img x y c)⟩
  refine ⟨key fun f hi hf => ?_, key fun f hi hf => ?_, key fun f hi hf => ?_⟩
  · exact (c111_gradient hsq P hf (fun x y c _ _ _ => hb x y c) (hi ▸ hch) (hi ▸ ha) (hi ▸ hw) (hi ▸ hh) weight hwt).1
  · exact (c111_gradient hsq P hf (fun x y c _ _ _ => hb x y c) (hi ▸ hch) (hi ▸ ha) (hi ▸ hw) (hi ▸ hh) weight hwt).2.1
  · exact (c111_gradient hsq P hf (fun x y c _ _ _ => hb x y c) (hi ▸ hch) (hi ▸ ha) (hi ▸ hw) (hi ▸ hh) weight hwt).2.2

/-! ### thresholds -/

/-- spec: the table of `Thresh` on bytes -/
def byteRule (method : Thresh) (b thr max : Nat) : Nat :=
  match method with
  | .binary => if thr < b then max else 0
  | .binaryInv => if thr < b then 0 else max
  | .trunc => if thr < b then thr else b
  | .toZero => if thr < b then b else 0
  | .toZeroInv => if thr < b then 0 else b

/-- the rounding to bytes keeps a byte -/
theorem toU8_keeps {r : F32} {n : Nat} (h : n ≤ 255) (hr : r.Is (n : Rat)) : (toU8 (FloatOps.round r)).toNat = n := by
  refine (toU8_nearest hr).rounds.unique ⟨h, .inl (by linarith), .inl (by linarith)⟩

/-- the rule on floats holds the byte of the rule on bytes -/
theorem threshRule_byte {c : F32} {b thr max : Nat} (hb : b ≤ 255) (ht : thr ≤ 255) (hm : max ≤ 255) (hc : c.Is (b : Rat)) (method : Thresh) :
    (toU8 (FloatOps.round (threshRule method (FloatOps.lt (num thr) c) c (num thr) (num max) (num 0)))).toNat = byteRule method b thr max := by
  have hn : ∀ n : Nat, n ≤ 255 → (num n : F32).Is (n : Rat) := fun n h => by
    have := num32 (n := (n : Int)) (by rw [abs_le]; omega)
    simpa using this
  have h0 : (num 0 : F32).Is ((0 : Nat) : Rat) := by simpa using hn 0 (by decide)
  rw [c52_above_finite hc (hn thr ht), show decide ((thr : Rat) < b) = decide (thr < b) by simp]
  by_cases h : thr < b <;> cases method <;> simp only [h, decide_true, decide_false, threshRule, byteRule, if_true, if_false] <;>
    first
    | exact toU8_keeps hm (hn max hm)
    | exact toU8_keeps (by decide) h0
    | exact toU8_keeps ht (hn thr ht)
    | exact toU8_keeps hb hc

/-- **C140** `threshold` on byte images with byte parameters is exact: every grey byte follows the documented table, every alpha byte is kept -/
theorem c140_threshold (P : Profile) {img : Image UInt8} (h : img.WF) (hg : Grayscale img.info) {thr max : Nat} (ht : thr ≤ 255) (hm : max ≤ 255)
    (method : Thresh) :
    ∃ out, onBytes P (fun f => threshold P f (num thr) (num max) method) img = .ok out ∧ out.WF ∧ out.info = img.info ∧
      ∀ x y, x < img.info.width → y < img.info.height →
        out.byteAt x y 0 = byteRule method (img.byteAt x y 0) thr max ∧ (img.info.alpha = true → out.byteAt x y 1 = img.byteAt x y 1) := by
  refine onBytes_of (Q := fun r => ∃ out, r = .ok out ∧ out.WF ∧ out.info = img.info ∧
      ∀ x y, x < img.info.width → y < img.info.height →
        out.byteAt x y 0 = byteRule method (img.byteAt x y 0) thr max ∧ (img.info.alpha = true → out.byteAt x y 1 = img.byteAt x y 1)) h
    fun f hi hf => ?_
  obtain ⟨g, e, hs⟩ := c52_threshold P hf.1 (hi ▸ hg) (num thr) (num max) method
  refine ⟨g, e, ?_⟩
  obtain ⟨out, eo, ho⟩ := floatToU8_shows P hs.WF
  refine ⟨out, eo, ho.WF, by rw [ho.info_eq, hs.info_eq, hi], fun x y hx hy => ?_⟩
  obtain ⟨p, ep, hl, hp⟩ := hf.2.2 .debug x y hx hy
  rw [Image.getPixel_eq .debug hf.1 (hi ▸ hx) (hi ▸ hy)] at ep
  have ep : f.px x y = p := Except.ok.inj ep
  have hout : out.px x y = ((f.info.colour (f.px x y)).map (fun c => threshRule method (FloatOps.lt (num thr) c) c (num thr) (num max) (num 0)) ++
          f.info.alphaOf (f.px x y)).map fun v => toU8 (FloatOps.round v) := by
    rw [ho.px_eq (by rw [hs.info_eq, hi]; exact hx) (by rw [hs.info_eq, hi]; exact hy), hs.px_eq (hi ▸ hx) (hi ▸ hy)]
  unfold Image.byteAt at hp ⊢
  rw [hout, ep]
  have hb : ∀ c, ((img.px x y).getD c 0).toNat ≤ 255 := fun c => byteAt_le img x y c
  rcases hg with ⟨ha, hc⟩ | ⟨ha, hc⟩
  · rw [hc] at hl hp
    obtain ⟨v, rfl⟩ := List.length_eq_one_iff.1 hl
    obtain ⟨r, er, hr⟩ := hp 0 (by decide)
    obtain rfl : v = r := by simpa using er
    refine ⟨?_, fun hh => absurd hh (by rw [ha]; decide)⟩
    rw [show f.info.colour [v] = [v] by simp [ImageInfo.colour, hi, ha]]
    exact threshRule_byte (hb 0) ht hm (by simpa using hr) method
  · rw [hc] at hl hp
    obtain ⟨v, a, rfl⟩ := List.length_eq_two.1 hl
    obtain ⟨r, er, hr⟩ := hp 0 (by decide)
    obtain rfl : v = r := by simpa using er
    obtain ⟨r', er', hr'⟩ := hp 1 (by decide)
    obtain rfl : a = r' := by simpa using er'
    rw [show f.info.colour [v, a] = [v] by simp [ImageInfo.colour, hi, ha], show f.info.alphaOf [v, a] = [a] by simp [ImageInfo.alphaOf, hi, ha]]
    exact ⟨threshRule_byte (hb 0) ht hm (by simpa using hr) method, fun _ => toU8_keeps (hb 1) (by simpa using hr')⟩

/-! ### concrete cases -/

/-- the hypotheses are met: smoothing and thresholding a 3 × 2 image -/
example (P : Profile) (a b c d e f : UInt8) :
    KeepsWindowRange (onBytes P (fun i => weightedAvgFilter P i 3 4) (gray6 a b c d e f)) (gray6 a b c d e f) 1 ∧
    KeepsWindowRange (onBytes P (fun i => boxFilter P i 3) (gray6 a b c d e f)) (gray6 a b c d e f) 4 ∧
    (gray6 1 2 3 4 5 6).WindowBytes 0 0 0 1 1 5 ∧
    (∃ out, onBytes P (fun i => threshold P i (num 100) (num 255) .binary) (gray6 10 20 100 101 200 255) = .ok out ∧
      out.byteAt 2 0 0 = 0 ∧ out.byteAt 0 1 0 = 255) := by
  refine ⟨(c140_average_range P (gray6_WF a b c d e f) 3 rfl).1 4 (by decide) (by decide) (by decide) (by dims) (by dims),
    (c140_average_range P (gray6_WF a b c d e f) 3 rfl).2 (by decide) (by dims) (by dims), ?_, ?_⟩
  · intro i j h1 h2 h3 h4 h5 h6
    have h1 : i < 2 := by omega
    have h2 : j < 2 := by omega
    interval_cases i <;> interval_cases j <;> decide
  · obtain ⟨out, e, -, -, h⟩ := c140_threshold P (gray6_WF 10 20 100 101 200 255) (.inl ⟨rfl, rfl⟩) (thr := 100) (max := 255) (by decide)
      (by decide) .binary
    exact ⟨out, by simpa using e, (h 2 0 (show 2 < 3 by decide) (show 0 < 2 by decide)).1.trans (by decide),
      (h 0 1 (show 0 < 3 by decide) (show 1 < 2 by decide)).1.trans (by decide)⟩

/-- a step of height 100 (rows 0 0 100 / 0 0 100): Prewitt's magnitude 300 saturates, and RootByte picks single integers -/
example : RootByte 300 17 ∧ ¬ RootByte 300 18 ∧ RootByte 90000 255 := by
  refine ⟨⟨by decide, .inr (by decide), .inr (by decide)⟩, fun h => ?_, ⟨by decide, .inr (by decide), .inl rfl⟩⟩
  rcases h.low with h | h <;> revert h <;> decide

section
variable (a b c d e f : UInt8)
omit [Libm f32] in
private theorem g00 : (gray6 a b c d e f).byteAt 0 0 0 = a.toNat := rfl
omit [Libm f32] in
private theorem g10 : (gray6 a b c d e f).byteAt 1 0 0 = b.toNat := rfl
omit [Libm f32] in
private theorem g20 : (gray6 a b c d e f).byteAt 2 0 0 = c.toNat := rfl
omit [Libm f32] in
private theorem g01 : (gray6 a b c d e f).byteAt 0 1 0 = d.toNat := rfl
omit [Libm f32] in
private theorem g11 : (gray6 a b c d e f).byteAt 1 1 0 = e.toNat := rfl
omit [Libm f32] in
private theorem g21 : (gray6 a b c d e f).byteAt 2 1 0 = f.toNat := rfl
end

/-- an exact blur and an enlargement of a 3 × 2 image -/
example (P : Profile) (a b c d e f : UInt8) :
    (∃ val, BytesRounded (onBytes P (fun i => separableFilter P i K_GAUSSIAN_BLUR_1D_3 K_GAUSSIAN_BLUR_1D_3) (gray6 a b c d e f)) ⟨3, 2, 1, false⟩ val ∧
      val 1 0 0 = ((3 * (a.toNat + 2 * b.toNat + c.toNat) + (d.toNat + 2 * e.toNat + f.toNat) : Nat) : Rat) / 16) ∧
    ∃ out, onBytes P (fun i => scale P i (num 2) (num 2) .bilinear) (gray6 7 7 7 7 7 7) = .ok out ∧
      ∀ x y, x < out.info.width → y < out.info.height → out.byteAt x y 0 = 7 := by
  constructor
  · refine ⟨_, (c140_gaussian3 P (gray6_WF a b c d e f) (by dims) (by dims)).2, ?_⟩
    simp only [intResponse2d, Finset.sum_range_succ, Finset.sum_range_zero, show (gray6 a b c d e f).info = ⟨3, 2, 1, false⟩ from rfl]
    norm_num [padCoord, binom3, show Int.toNat 2 = 2 from rfl, g00, g10, g20, g01, g11, g21]
    ring
  · have h2 : (num 2 : F32).Is ((2 : Nat) : Rat) := by simpa using num32 (n := 2) (by decide)
    have hw : scaleDim (gray6 7 7 7 7 7 7 : Image UInt8).info.width (num 2 : F32) = 6 := by
      rw [scaleDim_int h2 (by dims) (by dims)]; rfl
    have hh : scaleDim (gray6 7 7 7 7 7 7 : Image UInt8).info.height (num 2 : F32) = 4 := by
      rw [scaleDim_int h2 (by dims) (by dims)]; rfl
    obtain ⟨out, e, -, -, h⟩ := c140_bilinear_range P (gray6_WF 7 7 7 7 7 7) (by dims) (by dims) (xf := num 2) (yf := num 2) (qx := 2) (qy := 2)
      (by simpa using h2) (by simpa using h2) (by norm_num) (by norm_num) (by dims) (by dims)
      (by rw [show (gray6 7 7 7 7 7 7 : Image UInt8).info = ⟨3, 2, 1, false⟩ from rfl]; norm_num)
      (by rw [show (gray6 7 7 7 7 7 7 : Image UInt8).info = ⟨3, 2, 1, false⟩ from rfl]; norm_num)
      (by rw [hw, hh]; dims)
    refine ⟨out, e, fun x y hx hy => ?_⟩
    have := h 0 7 7 (by dims) (fun x y hx hy => by
      have h1 : x < 3 := hx
      have h2 : y < 2 := hy
      interval_cases x <;> interval_cases y <;> decide) x y hx hy
    omega

/-- the gradient theorem applies with the exact-square `powf` -/
example (P : Profile) (a b c d e f : UInt8) : letI := squareLibm
    ∃ out, onBytes P (sobel P) (gray6 a b c d e f) = .ok out ∧ RootByte
      ((c.toNat * 3 + f.toNat - a.toNat * 3 - d.toNat) ^ 2 + (d.toNat + 2 * e.toNat + f.toNat - a.toNat - 2 * b.toNat - c.toNat) ^ 2)
      (out.byteAt 1 0 0) := by
  letI := squareLibm
  obtain ⟨out, eo, -, -, h⟩ := (c140_gradient squareLibm_spec P (gray6_WF a b c d e f) rfl rfl (by dims) (by dims) 1 (by decide)).2.1
  refine ⟨out, eo, ?_⟩
  have := h 1 0 (show 1 < 3 by decide) (show 0 < 2 by decide)
  have h2 : intGradX (gray6 a b c d e f).info (fun x y c' => ((gray6 a b c d e f).byteAt x y c' : Int)) 2 1 0 =
      c.toNat * 3 + f.toNat - a.toNat * 3 - d.toNat := by
    simp [intGradX, intNear, clampCoord, show (gray6 a b c d e f).info = ⟨3, 2, 1, false⟩ from rfl, g00, g20, g01, g21]; ring
  have h3 : intGradY (gray6 a b c d e f).info (fun x y c' => ((gray6 a b c d e f).byteAt x y c' : Int)) 2 1 0 =
      d.toNat + 2 * e.toNat + f.toNat - a.toNat - 2 * b.toNat - c.toNat := by
    simp [intGradY, intNear, clampCoord, show (gray6 a b c d e f).info = ⟨3, 2, 1, false⟩ from rfl, g00, g10, g20, g01, g11, g21]; ring
  rw [Nat.cast_ofNat, h2, h3] at this
  exact this

end
end Imgproc

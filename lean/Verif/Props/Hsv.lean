import Verif.Proofs.Colour
import Verif.Model.Tone
import Verif.Props.Image
import Mathlib.Tactic.Linarith
/-! Properties C32, C33 (integer HSV). -/
namespace Imgproc

/-- largest and smallest of three integers -/
def max3i (r g b : Int) : Int := max (max r g) b
def min3i (r g b : Int) : Int := min (min r g) b

/-- spec: hue on the 0..255 scale in exact integer arithmetic (division truncates) -/
def hueRaw (r g b : Int) : Int :=
  let mx := max3i r g b
  let range := mx - min3i r g b
  if range = 0 then 0
    else if mx = r then (43 * (g - b)).tdiv range
    else if mx = g then 85 + (43 * (b - r)).tdiv range
    else 170 + (43 * (r - g)).tdiv range

/-- spec: the hue angle, with negative angles taken round the circle -/
def hueSpec (r g b : Int) : Int := if hueRaw r g b < 0 then hueRaw r g b + 255 else hueRaw r g b

/-- spec: saturation on the 0..255 scale -/
def satSpec (r g b : Int) : Int :=
  if max3i r g b = 0 then 0 else 255 * (max3i r g b - min3i r g b) / max3i r g b

/-- a byte (`lo ≤ v ≤ hi`) -/
def IsByte (v : Int) : Prop := 0 ≤ v ∧ v < 256

theorem tdiv_bound {a r : Int} (hr : 0 < r) (h1 : -r ≤ a) (h2 : a ≤ r) :
    -43 ≤ (43 * a).tdiv r ∧ (43 * a).tdiv r ≤ 43 := by
  have key : ∀ a : Int, 0 ≤ a → a ≤ r → 0 ≤ (43 * a).tdiv r ∧ (43 * a).tdiv r ≤ 43 := by
    intro a h0 h1
    rw [Int.tdiv_eq_ediv_of_nonneg (by omega)]
    exact ⟨Int.ediv_nonneg (by omega) (by omega), Int.ediv_le_of_le_mul hr (by omega)⟩
  rcases Int.le_total 0 a with h | h
  · have := key a h h2; omega
  · have := key (-a) (by omega) (by omega)
    rw [show 43 * -a = -(43 * a) by omega, Int.neg_tdiv] at this
    omega

theorem hueSpec_byte {r g b : Int} (hr : IsByte r) (hg : IsByte g) (hb : IsByte b) : IsByte (hueSpec r g b) := by
  unfold IsByte at *
  unfold hueSpec hueRaw
  simp only
  have hmx : max3i r g b = max (max r g) b := rfl
  have hmn : min3i r g b = min (min r g) b := rfl
  by_cases h0 : max3i r g b - min3i r g b = 0
  · rw [if_pos h0]; decide
  · rw [if_neg h0]
    have hp : 0 < max3i r g b - min3i r g b := by omega
    by_cases h1 : max3i r g b = r
    · rw [if_pos h1]
      have := tdiv_bound hp (a := g - b) (by omega) (by omega)
      split <;> omega
    · rw [if_neg h1]
      by_cases h2 : max3i r g b = g
      · rw [if_pos h2]
        have := tdiv_bound hp (a := b - r) (by omega) (by omega)
        split <;> omega
      · rw [if_neg h2]
        have := tdiv_bound hp (a := r - g) (by omega) (by omega)
        split <;> omega

theorem satSpec_byte {r g b : Int} (hr : IsByte r) (hg : IsByte g) (hb : IsByte b) : IsByte (satSpec r g b) := by
  unfold IsByte at *
  unfold satSpec
  have hmx : max3i r g b = max (max r g) b := rfl
  have hmn : min3i r g b = min (min r g) b := rfl
  split
  · decide
  · have h1 : 0 ≤ 255 * (max3i r g b - min3i r g b) / max3i r g b :=
      Int.ediv_nonneg (by omega) (by omega)
    have h2 : 255 * (max3i r g b - min3i r g b) / max3i r g b ≤ 255 :=
      Int.ediv_le_of_le_mul (by omega) (by
        exact Int.mul_le_mul_of_nonneg_left (by omega) (by decide))
    omega

theorem i32Div_ok {a b : Int} (hb : 0 < b) : i32Div a b = .ok (a.tdiv b) := by
  unfold i32Div; rw [if_neg (by omega), if_neg (by omega)]

theorem u8_max_toNat (a b : UInt8) : (max a b).toNat = max a.toNat b.toNat := by
  show (if a ≤ b then b else a).toNat = _
  split
  · rename_i h; have := UInt8.le_iff_toNat_le.1 h; omega
  · rename_i h; have := mt UInt8.le_iff_toNat_le.2 h; omega
theorem u8_min_toNat (a b : UInt8) : (min a b).toNat = min a.toNat b.toNat := by
  show (if a ≤ b then a else b).toNat = _
  split
  · rename_i h; have := UInt8.le_iff_toNat_le.1 h; omega
  · rename_i h; have := mt UInt8.le_iff_toNat_le.2 h; omega

theorem u8_byte (v : UInt8) : IsByte (v.toNat : Int) := by
  have := v.toNat_lt; unfold IsByte; omega

theorem intToU8_toNat {i : Int} (h : IsByte i) : ((intToU8 i).toNat : Int) = i := by
  unfold intToU8 IsByte at *
  rw [UInt8.toNat_ofNat_of_lt' (show _ < 256 by omega)]; omega

/-- **C32** (pixel) `rgb_to_hsv` computes the exact integer formula for every RGB triple in both build
profiles: no cast truncates and nothing overflows. -/
theorem c32_rgb_to_hsv_pixel (P : Profile) (r g b : UInt8) :
    ∃ h s v : UInt8, rgbToHsvPixel P [r, g, b] = .ok [h, s, v] ∧
      (h.toNat : Int) = hueSpec r.toNat g.toNat b.toNat ∧
      (s.toNat : Int) = satSpec r.toNat g.toNat b.toNat ∧
      (v.toNat : Int) = max3i r.toNat g.toNat b.toNat := by
  have hr := u8_byte r
  have hg := u8_byte g
  have hb := u8_byte b
  have Hh := hueSpec_byte hr hg hb
  have Hs := satSpec_byte hr hg hb
  refine ⟨intToU8 (hueSpec r.toNat g.toNat b.toNat), intToU8 (satSpec r.toNat g.toNat b.toNat),
    intToU8 (max3i r.toNat g.toNat b.toNat), ?_, intToU8_toNat Hh, intToU8_toNat Hs, ?_⟩
  swap
  · apply intToU8_toNat
    unfold IsByte max3i at *; omega
  unfold rgbToHsvPixel
  have i0 : idx [r, g, b] 0 = .ok r := rfl
  have i1 : idx [r, g, b] 1 = .ok g := rfl
  have i2 : idx [r, g, b] 2 = .ok b := rfl
  rw [i0, ok_bind, i1, ok_bind, i2, ok_bind]
  simp only [u8_max_toNat, u8_min_toNat]
  have emx : ((max (max r.toNat g.toNat) b.toNat : Nat) : Int) = max3i r.toNat g.toNat b.toNat := by
    unfold max3i; omega
  have emn : ((min (min r.toNat g.toNat) b.toNat : Nat) : Int) = min3i r.toNat g.toNat b.toNat := by
    unfold min3i; omega
  rw [emx, emn]
  unfold IsByte at *
  generalize (r.toNat : Int) = R at *
  generalize (g.toNat : Int) = G at *
  generalize (b.toNat : Int) = B at *
  clear emx emn i0 i1 i2
  have hmx : max3i R G B = max (max R G) B := rfl
  have hmn : min3i R G B = min (min R G) B := rfl
  have hS : ∀ K : Int → Res (List UInt8), (if max3i R G B ≠ 0 then do
      let t ← i32Mul P 255 (max3i R G B - min3i R G B)
      let s ← i32Div t (max3i R G B)
      K s
    else do
      let s ← .ok 0
      K s) = K (satSpec R G B) := by
    intro K
    unfold satSpec
    by_cases h : max3i R G B = 0
    · rw [if_neg (by simpa using h), if_pos h, ok_bind]
    · rw [if_pos h, i32Mul_ok (by omega) (by omega), ok_bind, i32Div_ok (by omega), ok_bind, if_neg h,
        Int.tdiv_eq_ediv_of_nonneg (by omega)]
  have hH : ∀ K : Int → Res (List UInt8), (if max3i R G B - min3i R G B ≠ 0 then
          if max3i R G B = R then do
            let d ← i32Sub P G B
            let t ← i32Mul P 43 d
            let hue ← i32Div t (max3i R G B - min3i R G B)
            K hue
          else if max3i R G B = G then do
            let d ← i32Sub P B R
            let t ← i32Mul P 43 d
            let q ← i32Div t (max3i R G B - min3i R G B)
            let hue ← i32Add P 85 q
            K hue
          else do
            let d ← i32Sub P R G
            let t ← i32Mul P 43 d
            let q ← i32Div t (max3i R G B - min3i R G B)
            let hue ← i32Add P 170 q
            K hue
        else do
          let hue ← .ok 0
          K hue) = K (hueRaw R G B) ∧ -43 ≤ hueRaw R G B ∧ hueRaw R G B ≤ 213 := by
    intro K
    unfold hueRaw
    simp only
    by_cases h0 : max3i R G B - min3i R G B = 0
    · rw [if_neg (by simpa using h0), ok_bind, if_pos h0]; exact ⟨rfl, by decide, by decide⟩
    · have hp : 0 < max3i R G B - min3i R G B := by omega
      rw [if_pos h0, if_neg h0]
      by_cases h1 : max3i R G B = R
      · have hb := tdiv_bound hp (a := G - B) (by omega) (by omega)
        rw [if_pos h1, if_pos h1, i32Sub_ok (by omega) (by omega), ok_bind, i32Mul_ok (by omega) (by omega), ok_bind,
          i32Div_ok hp, ok_bind]
        exact ⟨rfl, by omega, by omega⟩
      · rw [if_neg h1, if_neg h1]
        by_cases h2 : max3i R G B = G
        · have hb := tdiv_bound hp (a := B - R) (by omega) (by omega)
          rw [if_pos h2, if_pos h2, i32Sub_ok (by omega) (by omega), ok_bind, i32Mul_ok (by omega) (by omega), ok_bind,
            i32Div_ok hp, ok_bind, i32Add_ok (by omega) (by omega), ok_bind]
          exact ⟨rfl, by omega, by omega⟩
        · have hb := tdiv_bound hp (a := R - G) (by omega) (by omega)
          rw [if_neg h2, if_neg h2, i32Sub_ok (by omega) (by omega), ok_bind, i32Mul_ok (by omega) (by omega), ok_bind,
            i32Div_ok hp, ok_bind, i32Add_ok (by omega) (by omega), ok_bind]
          exact ⟨rfl, by omega, by omega⟩
  rw [i32Sub_ok (by omega) (by omega), ok_bind]
  refine (hS _).trans ?_
  refine (hH _).1.trans ?_
  obtain ⟨_, q1, q2⟩ := hH (fun _ => .ok [])
  unfold hueSpec
  by_cases hn : hueRaw R G B < 0
  · rw [if_pos hn, if_pos hn, i32Add_ok (by omega) (by omega), ok_bind]
  · rw [if_neg hn, if_neg hn, if_neg (by omega), ok_bind]

/-- spec: the three candidate channel values of the inverse conversion -/
def hsvP (s v : Int) : Int := v * (255 - s) / 255
def hsvQ (h s v : Int) : Int := v * (255 - s * ((h % 43) * 6) / 255) / 255
def hsvT (h s v : Int) : Int := v * (255 - s * (255 - (h % 43) * 6) / 255) / 255

/-- spec: the RGB triple of an HSV triple, in exact integer arithmetic -/
def rgbSpec (h s v : Int) : Int × Int × Int :=
  if s = 0 then (v, v, v)
  else if h / 43 = 0 then (v, hsvT h s v, hsvP s v)
  else if h / 43 = 1 then (hsvQ h s v, v, hsvP s v)
  else if h / 43 = 2 then (hsvP s v, v, hsvT h s v)
  else if h / 43 = 3 then (hsvP s v, hsvQ h s v, v)
  else if h / 43 = 4 then (hsvT h s v, hsvP s v, v)
  else (v, hsvP s v, hsvQ h s v)

/-- `v*(255 - k)/255` is between 0 and v for `0 ≤ k ≤ 255`, and antitone in k -/
theorem scaled_bounds {v k : Int} (hv : 0 ≤ v) (hk0 : 0 ≤ k) (hk : k ≤ 255) :
    0 ≤ v * (255 - k) ∧ v * (255 - k) ≤ v * 255 ∧ 0 ≤ v * (255 - k) / 255 ∧ v * (255 - k) / 255 ≤ v := by
  have h1 : 0 ≤ v * (255 - k) := Int.mul_nonneg hv (by omega)
  have h2 : v * (255 - k) ≤ v * 255 := Int.mul_le_mul_of_nonneg_left (by omega) hv
  exact ⟨h1, h2, Int.ediv_nonneg h1 (by decide), Int.ediv_le_of_le_mul (by decide) (by omega)⟩

theorem frac_bounds {s f : Int} (hs0 : 0 ≤ s) (hs : s ≤ 255) (hf0 : 0 ≤ f) (hf : f ≤ 255) :
    0 ≤ s * f ∧ s * f ≤ 65025 ∧ 0 ≤ s * f / 255 ∧ s * f / 255 ≤ s ∧ s * f / 255 ≤ 255 := by
  have h1 : 0 ≤ s * f := Int.mul_nonneg hs0 hf0
  have h2 : s * f ≤ s * 255 := Int.mul_le_mul_of_nonneg_left hf hs0
  have h3 : s * f / 255 ≤ s := Int.ediv_le_of_le_mul (by decide) h2
  exact ⟨h1, by omega, Int.ediv_nonneg h1 (by decide), h3, by omega⟩

/-- **C32** (pixel) `hsv_to_rgb` computes the exact integer formula for every HSV triple in both build
profiles: no cast truncates and nothing overflows. -/
theorem c32_hsv_to_rgb_pixel (P : Profile) (h s v : UInt8) :
    ∃ r g b : UInt8, hsvToRgbPixel P [h, s, v] = .ok [r, g, b] ∧
      ((r.toNat : Int), (g.toNat : Int), (b.toNat : Int)) = rgbSpec h.toNat s.toNat v.toNat := by
  have hh := u8_byte h
  have hs := u8_byte s
  have hv := u8_byte v
  unfold hsvToRgbPixel
  have i0 : idx [h, s, v] 0 = .ok h := rfl
  have i1 : idx [h, s, v] 1 = .ok s := rfl
  have i2 : idx [h, s, v] 2 = .ok v := rfl
  rw [i1, ok_bind]
  by_cases hs0 : s = 0
  · rw [if_pos hs0, i2, ok_bind]
    refine ⟨v, v, v, rfl, ?_⟩
    unfold rgbSpec; rw [if_pos (by rw [hs0]; rfl)]
  · have hs1 : (s.toNat : Int) ≠ 0 := by
      intro e; apply hs0; apply UInt8.toNat_inj.1; simpa using e
    rw [if_neg hs0, i0, ok_bind, i2, ok_bind]
    simp only
    clear i0 i1 i2
    unfold rgbSpec
    rw [if_neg hs1]
    unfold IsByte at hh hs hv
    generalize (h.toNat : Int) = H at *
    generalize (s.toNat : Int) = S at *
    generalize hVdef : (v.toNat : Int) = V at *
    have hf : H - H / 43 * 43 = H % 43 := by omega
    have hm : 0 ≤ H % 43 ∧ H % 43 ≤ 42 := by omega
    have f1 := frac_bounds (s := S) (f := H % 43 * 6) (by omega) (by omega) (by omega) (by omega)
    have f2 := frac_bounds (s := S) (f := 255 - H % 43 * 6) (by omega) (by omega) (by omega) (by omega)
    have b0 := scaled_bounds (v := V) (k := S) (by omega) (by omega) (by omega)
    have b1 := scaled_bounds (v := V) (k := S * (H % 43 * 6) / 255) (by omega) (by omega) (by omega)
    have b2 := scaled_bounds (v := V) (k := S * (255 - H % 43 * 6) / 255) (by omega) (by omega) (by omega)
    rw [i32Div_ok (by decide), ok_bind, Int.tdiv_eq_ediv_of_nonneg (by omega),
      i32Mul_ok (by omega) (by omega), ok_bind, i32Sub_ok (by omega) (by omega), ok_bind, hf,
      i32Mul_ok (by omega) (by omega), ok_bind,
      i32Sub_ok (by omega) (by omega), ok_bind, i32Mul_ok (by omega) (by omega), ok_bind,
      i32Div_ok (by decide), ok_bind, Int.tdiv_eq_ediv_of_nonneg b0.1,
      i32Mul_ok (by omega) (by omega), ok_bind, i32Div_ok (by decide), ok_bind,
      Int.tdiv_eq_ediv_of_nonneg f1.1,
      i32Sub_ok (by omega) (by omega), ok_bind, i32Mul_ok (by omega) (by omega), ok_bind,
      i32Div_ok (by decide), ok_bind, Int.tdiv_eq_ediv_of_nonneg b1.1,
      i32Sub_ok (by omega) (by omega), ok_bind,
      i32Mul_ok (by omega) (by omega), ok_bind, i32Div_ok (by decide), ok_bind,
      Int.tdiv_eq_ediv_of_nonneg f2.1,
      i32Sub_ok (by omega) (by omega), ok_bind, i32Mul_ok (by omega) (by omega), ok_bind,
      i32Div_ok (by decide), ok_bind, Int.tdiv_eq_ediv_of_nonneg b2.1]
    have kp : ((intToU8 (V * (255 - S) / 255)).toNat : Int) = hsvP S V := intToU8_toNat ⟨by omega, by omega⟩
    have kq : ((intToU8 (V * (255 - S * (H % 43 * 6) / 255) / 255)).toNat : Int) = hsvQ H S V :=
      intToU8_toNat ⟨by omega, by omega⟩
    have kt : ((intToU8 (V * (255 - S * (255 - H % 43 * 6) / 255) / 255)).toNat : Int) = hsvT H S V :=
      intToU8_toNat ⟨by omega, by omega⟩
    have kv : ((intToU8 V).toNat : Int) = V := intToU8_toNat ⟨by omega, by omega⟩
    split_ifs <;> exact ⟨_, _, _, rfl, by simp only [kp, kq, kt, kv]⟩

/-- the range claims in words: all results of both conversions are genuine bytes -/
theorem rgbSpec_bytes {h s v : Int} (hh : IsByte h) (hs : IsByte s) (hv : IsByte v) :
    ∀ c, (c = (rgbSpec h s v).1 ∨ c = (rgbSpec h s v).2.1 ∨ c = (rgbSpec h s v).2.2) →
      IsByte c ∧ hsvP s v ≤ c ∧ c ≤ v := by
  unfold IsByte at *
  have f1 := frac_bounds (s := s) (f := h % 43 * 6) (by omega) (by omega) (by omega) (by omega)
  have f2 := frac_bounds (s := s) (f := 255 - h % 43 * 6) (by omega) (by omega) (by omega) (by omega)
  have b0 := scaled_bounds (v := v) (k := s) (by omega) (by omega) (by omega)
  have b1 := scaled_bounds (v := v) (k := s * (h % 43 * 6) / 255) (by omega) (by omega) (by omega)
  have b2 := scaled_bounds (v := v) (k := s * (255 - h % 43 * 6) / 255) (by omega) (by omega) (by omega)
  have mono : ∀ k, 0 ≤ k → k ≤ s → v * (255 - s) / 255 ≤ v * (255 - k) / 255 := fun k h0 hk =>
    Int.ediv_le_ediv (by decide) (Int.mul_le_mul_of_nonneg_left (by omega) (by omega))
  have m1 := mono (s * (h % 43 * 6) / 255) (by omega) (by omega)
  have m2 := mono (s * (255 - h % 43 * 6) / 255) (by omega) (by omega)
  intro c hc
  unfold rgbSpec hsvT hsvQ hsvP at *
  split_ifs at hc <;> rcases hc with rfl | rfl | rfl <;> (try simp only) <;> omega

/-- sizes of the standard colour layouts -/
theorem three_colours {i : ImageInfo} (h3 : i.colours = 3) :
    (i.alpha = true → 0 < i.channels) ∧ 3 + (if i.alpha then 1 else 0) = i.channels := by
  unfold ImageInfo.colours at h3
  cases ha : i.alpha <;> simp [ha] at * <;> omega

theorem pixel3 {T : Type} {i : ImageInfo} {p : List T} (h3 : i.colours = 3) (hp : p.length = i.channels) :
    ∃ a b c, i.colour p = [a, b, c] := by
  have := i.colour_length hp
  rw [h3] at this
  match hq : i.colour p, this with
  | [a, b, c], _ => exact ⟨a, b, c, rfl⟩

/-- spec: `rgb_to_hsv` / `hsv_to_rgb` of a colour triple, as bytes -/
def IsHsvOf (q p : List UInt8) : Prop := ∃ r g b h s v : UInt8, p = [r, g, b] ∧ q = [h, s, v] ∧
  (h.toNat : Int) = hueSpec r.toNat g.toNat b.toNat ∧
  (s.toNat : Int) = satSpec r.toNat g.toNat b.toNat ∧
  (v.toNat : Int) = max3i r.toNat g.toNat b.toNat
def IsRgbOf (q p : List UInt8) : Prop := ∃ h s v r g b : UInt8, p = [h, s, v] ∧ q = [r, g, b] ∧
  ((r.toNat : Int), (g.toNat : Int), (b.toNat : Int)) = rgbSpec h.toNat s.toNat v.toNat

/-- lift of a pixel-wise conversion of 3 colour channels to images -/
theorem convert3 (P : Profile) {T S : Type} (img : Image T) (h : img.WF) (hpos : 0 < img.info.width ∧ 0 < img.info.height)
    (h3 : img.info.colours = 3) (conv : List T → Res (List S)) (R : List S → List T → Prop)
    (g : T → Res S) (g' : T → S) (hg : ∀ v ∈ img.data, g v = .ok (g' v))
    (hc : ∀ a b c, a ∈ img.data → b ∈ img.data → c ∈ img.data →
      ∃ q, conv [a, b, c] = .ok q ∧ q.length = 3 ∧ R q [a, b, c]) :
    ∃ (out : Image S) (F : List T → List S),
      img.mapPixelsIfAlpha P (fun channels out => do
        let p ← conv channels
        .ok (out ++ p)) g = .ok out ∧
      out.Shows img.info (fun x y => F (img.info.colour (img.px x y)) ++ (img.info.alphaOf (img.px x y)).map g') ∧
      ∀ x y, x < img.info.width → y < img.info.height →
        conv (img.info.colour (img.px x y)) = .ok (F (img.info.colour (img.px x y))) ∧
        (F (img.info.colour (img.px x y))).length = 3 ∧
        R (F (img.info.colour (img.px x y))) (img.info.colour (img.px x y)) := by
  obtain ⟨hc0, hch⟩ := three_colours h3
  have hF : ∀ x y, x < img.info.width → y < img.info.height →
      ∃ q, conv (img.info.colour (img.px x y)) = .ok q ∧ q.length = 3 ∧ R q (img.info.colour (img.px x y)) := by
    intro x y hx hy
    obtain ⟨a, b, c, e⟩ := pixel3 h3 (Image.px_length h hx hy)
    have hm : ∀ v ∈ ([a, b, c] : List T), v ∈ img.data := by
      intro v hv
      rw [← e] at hv
      apply Image.px_subset (x := x) (y := y)
      rw [← img.info.colour_append (img.px x y)]
      exact List.mem_append_left _ hv
    rw [e]
    exact hc a b c (hm a (by simp)) (hm b (by simp)) (hm c (by simp))
  let F : List T → List S := fun p => match conv p with | .ok q => q | .error _ => []
  have hF' : ∀ x y, x < img.info.width → y < img.info.height →
        conv (img.info.colour (img.px x y)) = .ok (F (img.info.colour (img.px x y))) ∧
        (F (img.info.colour (img.px x y))).length = 3 ∧
        R (F (img.info.colour (img.px x y))) (img.info.colour (img.px x y)) := by
    intro x y hx hy
    obtain ⟨q, e, hl, hR⟩ := hF x y hx hy
    have : F (img.info.colour (img.px x y)) = q := by simp only [F, e]
    rw [this]; exact ⟨e, hl, hR⟩
  obtain ⟨out, e, ho⟩ := Image.mapPixelsIfAlpha_colour P h hpos hc0 (k := 3) (f' := F) (g := g) (g' := g')
    (f := fun channels out => do
        let p ← conv channels
        .ok (out ++ p))
    (by rw [hch]; exact h.channels) (by rw [hch]; exact h.full)
    (fun x y hx hy => ⟨by rw [(hF' x y hx hy).1, ok_bind]; rfl, (hF' x y hx hy).2.1⟩)
    hg
  refine ⟨out, F, e, ?_, hF'⟩
  rw [hch] at ho
  exact ho

/-- **C32** (image) `rgb_to_hsv` of an image with three colour channels: same header, alpha untouched,
every pixel converted by the exact integer formula. -/
theorem c32_rgb_to_hsv (P : Profile) (img : Image UInt8) (h : img.WF)
    (hpos : 0 < img.info.width ∧ 0 < img.info.height) (h3 : img.info.colours = 3) :
    ∃ (out : Image UInt8) (F : List UInt8 → List UInt8), rgbToHsv P img = .ok out ∧
      out.Shows img.info (fun x y => F (img.info.colour (img.px x y)) ++ img.info.alphaOf (img.px x y)) ∧
      ∀ x y, x < img.info.width → y < img.info.height →
        IsHsvOf (F (img.info.colour (img.px x y))) (img.info.colour (img.px x y)) := by
  obtain ⟨out, F, e, ho, hF⟩ := convert3 P img h hpos h3 (rgbToHsvPixel P) IsHsvOf (fun a => .ok a) id
    (fun _ _ => rfl)
    (by
      intro r g b _ _ _
      obtain ⟨hh, s, v, e, h1, h2, h3⟩ := c32_rgb_to_hsv_pixel P r g b
      exact ⟨_, e, rfl, r, g, b, hh, s, v, rfl, rfl, h1, h2, h3⟩)
  exact ⟨out, F, e, by simpa using ho, fun x y hx hy => (hF x y hx hy).2.2⟩

/-- **C32** (image) `hsv_to_rgb` likewise. -/
theorem c32_hsv_to_rgb (P : Profile) (img : Image UInt8) (h : img.WF)
    (hpos : 0 < img.info.width ∧ 0 < img.info.height) (h3 : img.info.colours = 3) :
    ∃ (out : Image UInt8) (F : List UInt8 → List UInt8), hsvToRgb P img = .ok out ∧
      out.Shows img.info (fun x y => F (img.info.colour (img.px x y)) ++ img.info.alphaOf (img.px x y)) ∧
      ∀ x y, x < img.info.width → y < img.info.height →
        IsRgbOf (F (img.info.colour (img.px x y))) (img.info.colour (img.px x y)) := by
  obtain ⟨out, F, e, ho, hF⟩ := convert3 P img h hpos h3 (hsvToRgbPixel P) IsRgbOf (fun a => .ok a) id
    (fun _ _ => rfl)
    (by
      intro hh s v _ _ _
      obtain ⟨r, g, b, e, h1⟩ := c32_hsv_to_rgb_pixel P hh s v
      exact ⟨_, e, rfl, hh, s, v, r, g, b, rfl, rfl, h1⟩)
  exact ⟨out, F, e, by simpa using ho, fun x y hx hy => (hF x y hx hy).2.2⟩

example : rgbToHsv .debug demo = .ok (Image.fromVec 2 2 3 false
    [149, 170, 3, 149, 85, 6, 149, 56, 9, 149, 42, 12]) := by decide +kernel
example : demo.info.colours = 3 ∧ demoA.info.colours = 3 := by decide

/-! ## C33 -/

/-- the colour values `p` have smallest value `lo` and largest value `hi` -/
def Spans (p : List UInt8) (lo hi : UInt8) : Prop := lo ∈ p ∧ hi ∈ p ∧ ∀ v ∈ p, lo ≤ v ∧ v ≤ hi

/-- the inverse conversion's smallest value is the original minimum: no rounding loss -/
theorem hsvP_satSpec {r g b : Int} (hr : IsByte r) (hg : IsByte g) (hb : IsByte b) :
    hsvP (satSpec r g b) (max3i r g b) = min3i r g b := by
  unfold IsByte at *
  unfold hsvP satSpec
  have hmx : max3i r g b = max (max r g) b := rfl
  have hmn : min3i r g b = min (min r g) b := rfl
  generalize max3i r g b = M at *
  generalize min3i r g b = m at *
  split
  · rename_i h; rw [h, Int.zero_mul, Int.zero_ediv]; omega
  · rename_i h
    have hM : 0 < M := by omega
    generalize hs : 255 * (M - m) / M = s
    have h1 := Int.mul_ediv_add_emod (255 * (M - m)) M
    have h2 := Int.emod_lt_of_pos (255 * (M - m)) hM
    have h3 := Int.emod_nonneg (255 * (M - m)) (by omega : M ≠ 0)
    rw [hs] at h1
    generalize 255 * (M - m) % M = ρ at *
    have e : M * (255 - s) = 255 * m + ρ := by
      rw [mul_sub]; omega
    rw [e]; omega

theorem satSpec_zero {r g b : Int} (hr : IsByte r) (hg : IsByte g) (hb : IsByte b)
    (h : satSpec r g b = 0) : max3i r g b = min3i r g b := by
  have := hsvP_satSpec hr hg hb
  rw [h] at this
  unfold hsvP at this
  omega

/-- **C33** (pixel) converting any RGB triple to HSV and back keeps its smallest and largest value;
in particular greys are returned unchanged. -/
theorem c33_pixel_round_trip (P : Profile) (r g b : UInt8) :
    ∃ q out, rgbToHsvPixel P [r, g, b] = .ok q ∧ hsvToRgbPixel P q = .ok out ∧ out.length = 3 ∧
      ∀ lo hi, Spans [r, g, b] lo hi → Spans out lo hi := by
  obtain ⟨h, s, v, e, eh, es, ev⟩ := c32_rgb_to_hsv_pixel P r g b
  obtain ⟨r', g', b', e', er⟩ := c32_hsv_to_rgb_pixel P h s v
  refine ⟨_, _, e, e', rfl, ?_⟩
  intro lo hi ⟨hlo, hhi, hb⟩
  have Hlo : (lo.toNat : Int) = min3i r.toNat g.toNat b.toNat := by
    simp only [List.mem_cons, List.not_mem_nil, or_false, forall_eq_or_imp, forall_eq] at hlo hb
    simp only [UInt8.le_iff_toNat_le] at hb
    unfold min3i
    rcases hlo with rfl | rfl | rfl <;> omega
  have Hhi : (hi.toNat : Int) = max3i r.toNat g.toNat b.toNat := by
    simp only [List.mem_cons, List.not_mem_nil, or_false, forall_eq_or_imp, forall_eq] at hhi hb
    simp only [UInt8.le_iff_toNat_le] at hb
    unfold max3i
    rcases hhi with rfl | rfl | rfl <;> omega
  have Rb := u8_byte r
  have Gb := u8_byte g
  have Bb := u8_byte b
  have hp : hsvP s.toNat v.toNat = (lo.toNat : Int) := by rw [es, ev, hsvP_satSpec Rb Gb Bb, Hlo]
  have hv : (v.toNat : Int) = (hi.toNat : Int) := by rw [ev, Hhi]
  have hbnd := rgbSpec_bytes (u8_byte h) (u8_byte s) (u8_byte v)
  rw [← er] at hbnd
  have inj : ∀ a c : UInt8, (a.toNat : Int) = c.toNat → a = c := fun a c h =>
    UInt8.toNat_inj.1 (by omega)
  refine ⟨?_, ?_, ?_⟩
  · unfold rgbSpec at er
    simp only [List.mem_cons, List.not_mem_nil, or_false]
    split_ifs at er with h0
    · -- s = 0: grey
      have := satSpec_zero Rb Gb Bb (by rw [← es]; exact h0)
      simp only [Prod.mk.injEq] at er
      exact .inl (inj _ _ (by omega))
    all_goals
      simp only [Prod.mk.injEq] at er
      first
        | exact .inl (inj _ _ (by omega))
        | exact .inr (.inl (inj _ _ (by omega)))
        | exact .inr (.inr (inj _ _ (by omega)))
  · unfold rgbSpec at er
    simp only [List.mem_cons, List.not_mem_nil, or_false]
    split_ifs at er
    all_goals
      simp only [Prod.mk.injEq] at er
      first
        | exact .inl (inj _ _ (by omega))
        | exact .inr (.inl (inj _ _ (by omega)))
        | exact .inr (.inr (inj _ _ (by omega)))
  · intro w hw
    simp only [List.mem_cons, List.not_mem_nil, or_false] at hw
    have := hbnd w.toNat (by rcases hw with rfl | rfl | rfl <;> simp)
    rw [UInt8.le_iff_toNat_le, UInt8.le_iff_toNat_le]
    omega

/-- **C33** (image) the round trip keeps header and alpha, and every pixel keeps its smallest and
largest colour value (so a grey pixel is returned unchanged). -/
theorem c33_image_round_trip (P : Profile) (img : Image UInt8) (h : img.WF)
    (hpos : 0 < img.info.width ∧ 0 < img.info.height) (h3 : img.info.colours = 3) :
    ∃ hsv out, rgbToHsv P img = .ok hsv ∧ hsvToRgb P hsv = .ok out ∧ out.WF ∧ out.info = img.info ∧
      ∀ x y, x < img.info.width → y < img.info.height →
        img.info.alphaOf (out.px x y) = img.info.alphaOf (img.px x y) ∧
        (img.info.colour (out.px x y)).length = 3 ∧
        ∀ lo hi, Spans (img.info.colour (img.px x y)) lo hi → Spans (img.info.colour (out.px x y)) lo hi := by
  obtain ⟨hsv, F, e, hs, hF⟩ := convert3 P img h hpos h3 (rgbToHsvPixel P) (fun _ _ => True)
    (fun a => .ok a) id (fun _ _ => rfl)
    (by
      intro r g b _ _ _
      obtain ⟨hh, s, v, e, h1, h2, h3⟩ := c32_rgb_to_hsv_pixel P r g b
      exact ⟨_, e, rfl, trivial⟩)
  have hi := hs.info_eq
  obtain ⟨out, G, e', ho, hG⟩ := convert3 P hsv hs.WF (by rw [hi]; exact hpos) (by rw [hi]; exact h3)
    (hsvToRgbPixel P) (fun _ _ => True) (fun a => .ok a) id (fun _ _ => rfl)
    (by
      intro hh s v _ _ _
      obtain ⟨r, g, b, e, h1⟩ := c32_hsv_to_rgb_pixel P hh s v
      exact ⟨_, e, rfl, trivial⟩)
  rw [hi] at ho hG
  refine ⟨hsv, out, e, e', ho.WF, ho.info_eq, ?_⟩
  intro x y hx hy
  have hal := img.info.alphaOf_length (Image.px_length h hx hy) (three_colours h3).1
  have k1 := hs.px_eq hx hy
  simp only [List.map_id] at k1
  obtain ⟨c1, c2⟩ := img.info.colour_of_append (q := F (img.info.colour (img.px x y)))
    (a := img.info.alphaOf (img.px x y)) hal
  have k2 := ho.px_eq hx hy
  simp only [List.map_id] at k2
  rw [k1, c1, c2] at k2
  obtain ⟨d1, d2⟩ := img.info.colour_of_append (q := G (F (img.info.colour (img.px x y))))
    (a := img.info.alphaOf (img.px x y)) hal
  rw [k2, d1, d2]
  have hg := hG x y hx hy
  rw [k1, c1] at hg
  refine ⟨rfl, hg.2.1, ?_⟩
  have hf := (hF x y hx hy).1
  obtain ⟨a, b, c, ec⟩ := pixel3 h3 (Image.px_length h hx hy)
  rw [ec] at hf hg ⊢
  obtain ⟨q, o, e1, e2, _, hsp⟩ := c33_pixel_round_trip P a b c
  rw [hf] at e1; cases e1
  rw [hg.1] at e2; cases e2
  exact hsp

example : Spans [4, 9, 7] 4 9 := by unfold Spans; decide
end Imgproc

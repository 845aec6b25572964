import Verif.Props.HsvF32
import Verif.Props.Gamma
import Verif.Props.Lab2
import Mathlib.Algebra.Order.Floor.Ring
/-! Property C101: HSV conversion with float channels, in exact arithmetic. -/
namespace Imgproc
open FloatOps

/-! ### Specification: the textbook hexcone formulas -/

/-- spec: textbook hue, in turns, of a colour with red `R`, green `G`, blue `B` -/
noncomputable def hexHue (R G B : ℝ) : ℝ :=
  let M := max (max R G) B
  let C := M - min (min R G) B
  if C = 0 then 0
  else if M = R then Int.fract ((G - B) / C / 6)
  else if M = G then ((B - R) / C + 2) / 6
  else ((R - G) / C + 4) / 6
/-- spec: textbook saturation -/
noncomputable def hexSat (R G B : ℝ) : ℝ :=
  let M := max (max R G) B
  if M = 0 then 0 else (M - min (min R G) B) / M

/-- spec: textbook HSV to RGB, `n` is 5 for red, 3 for green, 1 for blue; `H` in turns -/
noncomputable def hexRgb (n H S V : ℝ) : ℝ :=
  let k := 6 * Int.fract ((n + 6 * H) / 6)
  V - V * S * max 0 (min (min k (4 - k)) 1)

/-! ### The conversion back -/

theorem toU8_real_nat (v : UInt8) {x : ℝ} (h : x = v.toNat) : toU8 x = v := by
  have hl := v.toNat_lt
  rw [toU8_real (k := v.toNat) (by omega) (by rw [h]) (by rw [h]; linarith), UInt8.ofNat_toNat]

/-- the six sectors of `hsv_to_rgb_f32` -/
noncomputable def sectorRgb (k : Nat) (f s v : ℝ) : List ℝ :=
  let p := v * (1 - s)
  let q := v * (1 - s * f)
  let t := v * (1 - s * (1 - f))
  match k with
  | 0 => [v, t, p] | 1 => [q, v, p] | 2 => [p, v, t] | 3 => [p, q, v] | 4 => [t, p, v] | _ => [v, p, q]

theorem toU8_nat_lit {k : Nat} (hk : k ≤ 255) : toU8 (((k : ℤ)) : ℝ) = UInt8.ofNat k :=
  toU8_real hk (by simp) (by simp)

theorem hsvReal_sector (h s v : ℝ) (hs : s ≠ 0) {k : Nat} (hk : k ≤ 6) (h1 : (k : ℝ) ≤ 6 * h) (h2 : 6 * h < k + 1) :
    hsvToRgbF32Pixel [h, s, v] = .ok ((sectorRgb k (6 * h - k) s v).map fun c => toU8 (c * 255)) := by
  have hf : ⌊h * 6⌋ = (k : ℤ) := by
    rw [Int.floor_eq_iff]; push_cast; constructor <;> linarith
  unfold hsvToRgbF32Pixel
  simp only [idx_some (l := [h, s, v]) (i := 1) (a := s) rfl, idx_some (l := [h, s, v]) (i := 2) (a := v) rfl,
    idx_some (l := [h, s, v]) (i := 0) (a := h) rfl, ok_bind]
  have hs' : ¬ ((s ==. num 0) = true) := by
    rw [Ideal.eq_eq, Ideal.num_eq]; simpa using hs
  rw [if_neg hs']
  simp only [Ideal.floor_eq, Ideal.mul_eq, Ideal.num_eq, Ideal.sub_eq]
  push_cast
  rw [hf, toU8_nat_lit (by omega), show h * 6 = 6 * h by ring]
  push_cast
  interval_cases k <;> simp [sectorRgb]

/-- the share of the chroma taken away from a channel, by sector -/
noncomputable def sectorShare (m : Nat) (f : ℝ) : ℝ := match m with | 0 => f | 1 => 1 | 2 => 1 | 3 => 1 - f | _ => 0

theorem hexRgb_sector (n k : Nat) (h s v : ℝ) (h1 : (k : ℝ) ≤ 6 * h) (h2 : 6 * h < k + 1) :
    hexRgb n h s v = v - v * s * sectorShare ((n + k) % 6) (6 * h - k) := by
  obtain ⟨f, hf⟩ : ∃ f, f = 6 * h - k := ⟨_, rfl⟩
  obtain ⟨m, hm⟩ : ∃ m, m = (n + k) % 6 := ⟨_, rfl⟩
  obtain ⟨Q, hQ⟩ : ∃ Q, Q = (n + k) / 6 := ⟨_, rfl⟩
  have d : (n : ℝ) + k = 6 * Q + m := by
    exact_mod_cast (by omega : n + k = 6 * Q + m)
  have l : (m : ℝ) ≤ 5 := by exact_mod_cast (by omega : m ≤ 5)
  have z : (0 : ℝ) ≤ m := by positivity
  have hfl : ⌊((n : ℝ) + 6 * h) / 6⌋ = (Q : ℤ) := by
    rw [Int.floor_eq_iff, le_div_iff₀ (by norm_num), div_lt_iff₀ (by norm_num)]
    push_cast
    constructor <;> linarith
  have hk : 6 * Int.fract (((n : ℝ) + 6 * h) / 6) = m + f := by
    unfold Int.fract
    rw [hfl, hf]
    push_cast
    linarith
  have f0 : 0 ≤ f := by linarith
  have f1 : f < 1 := by linarith
  unfold hexRgb
  simp only [hk]
  rw [← hf, ← hm]
  congr 2
  have hm6 : m < 6 := by omega
  interval_cases m <;> simp only [sectorShare] <;> push_cast
  · rw [min_eq_left (b := 4 - (0 + f)) (by linarith), min_eq_left (by linarith), max_eq_right (by linarith)]; ring
  · rw [min_eq_right (le_min (by linarith) (by linarith)), max_eq_right (by norm_num)]
  · rw [min_eq_right (le_min (by linarith) (by linarith)), max_eq_right (by norm_num)]
  · rw [min_eq_right (b := 4 - (3 + f)) (by linarith), min_eq_left (by linarith), max_eq_right (by linarith)]; ring
  · rw [max_eq_left (le_trans (min_le_left _ _) (le_trans (min_le_right _ _) (by linarith)))]
  · rw [max_eq_left (le_trans (min_le_left _ _) (le_trans (min_le_right _ _) (by linarith)))]

theorem hexRgb_grey (n h v : ℝ) : hexRgb n h 0 v = v := by simp [hexRgb]

/-- **C101** (one pixel, exact arithmetic) For a hue in `[0, 1)` and any saturation and value, `hsv_to_rgb_f32` computes
the textbook hexcone colour, each channel truncated to a byte. -/
theorem c101_back_pixel (h s v : ℝ) (h0 : 0 ≤ h) (h1 : h < 1) :
    hsvToRgbF32Pixel [h, s, v] =
      .ok [toU8 (hexRgb 5 h s v * 255), toU8 (hexRgb 3 h s v * 255), toU8 (hexRgb 1 h s v * 255)] := by
  by_cases hs : s = 0
  · subst hs
    simp only [hexRgb_grey]
    unfold hsvToRgbF32Pixel
    simp only [idx_some (l := [h, (0 : ℝ), v]) (i := 1) (a := 0) rfl, idx_some (l := [h, (0 : ℝ), v]) (i := 2) (a := v) rfl,
      ok_bind]
    rw [if_pos (by rw [Ideal.eq_eq, Ideal.num_eq]; simp)]
    simp
  obtain ⟨k, hk⟩ : ∃ k : ℕ, (k : ℤ) = ⌊6 * h⌋ := ⟨⌊6 * h⌋.toNat, by
    have : 0 ≤ ⌊6 * h⌋ := Int.floor_nonneg.2 (by linarith)
    omega⟩
  have k1 : (k : ℝ) ≤ 6 * h := by have := Int.floor_le (6 * h); rw [← hk] at this; exact_mod_cast this
  have k2 : 6 * h < k + 1 := by have := Int.lt_floor_add_one (6 * h); rw [← hk] at this; exact_mod_cast this
  have k6 : k < 6 := by
    have : (k : ℝ) < 6 := by linarith
    exact_mod_cast this
  rw [hsvReal_sector h s v hs (by omega) k1 k2]
  have e5 := hexRgb_sector 5 k h s v k1 k2
  have e3 := hexRgb_sector 3 k h s v k1 k2
  have e1 := hexRgb_sector 1 k h s v k1 k2
  push_cast at e5 e3 e1
  rw [e5, e3, e1]
  interval_cases k <;> simp only [sectorRgb, sectorShare, List.map_cons, List.map_nil] <;> norm_num <;>
    (try refine ⟨?_, ?_⟩) <;> congr 1 <;> ring

/-- **C101 is violated at hue 1** The textbook hue is periodic: 1 is the same as 0, red. `hsv_to_rgb_f32` returns the
value in red *and blue* there: magenta instead of red. -/
theorem c101_hue_one (s v : ℝ) (hs : s ≠ 0) :
    hsvToRgbF32Pixel [1, s, v] = .ok [toU8 (v * 255), toU8 (v * (1 - s) * 255), toU8 (v * 255)] ∧
    hsvToRgbF32Pixel [0, s, v] = .ok [toU8 (v * 255), toU8 (v * (1 - s) * 255), toU8 (v * (1 - s) * 255)] ∧
    (∀ n, hexRgb n 1 s v = hexRgb n 0 s v) := by
  refine ⟨?_, ?_, fun n => ?_⟩
  · rw [hsvReal_sector 1 s v hs (k := 6) (by omega) (by norm_num) (by norm_num)]
    simp [sectorRgb]
  · rw [hsvReal_sector 0 s v hs (k := 0) (by omega) (by norm_num) (by norm_num)]
    simp [sectorRgb]
  · unfold hexRgb
    rw [show (n + 6 * 1) / 6 = (n + 6 * 0) / 6 + 1 by ring, Int.fract_add_one]

/-- a concrete wrong colour: full red with hue 1 comes out magenta -/
example : hsvToRgbF32Pixel [(1 : ℝ), 1, 1] = .ok [255, 0, 255] := by
  rw [(c101_hue_one 1 1 (by norm_num)).1, toU8_real_nat 255 (by norm_num [UInt8.toNat]), toU8_real_nat 0 (by norm_num)]

/-! ### The conversion to HSV -/

theorem hexHue_bounds {R G B : ℝ} : 0 ≤ hexHue R G B ∧ hexHue R G B < 1 := by
  unfold hexHue
  simp only
  split
  · norm_num
  rename_i hC
  have mR : min (min R G) B ≤ R := le_trans (min_le_left _ _) (min_le_left _ _)
  have mG : min (min R G) B ≤ G := le_trans (min_le_left _ _) (min_le_right _ _)
  have mB : min (min R G) B ≤ B := min_le_right _ _
  have xR : R ≤ max (max R G) B := le_trans (le_max_left _ _) (le_max_left _ _)
  have xG : G ≤ max (max R G) B := le_trans (le_max_right _ _) (le_max_left _ _)
  have xB : B ≤ max (max R G) B := le_max_right _ _
  have pos : 0 < max (max R G) B - min (min R G) B := lt_of_le_of_ne (by linarith) (Ne.symm hC)
  split
  · exact ⟨Int.fract_nonneg _, Int.fract_lt_one _⟩
  split
  · have a : -1 ≤ (B - R) / (max (max R G) B - min (min R G) B) := by rw [le_div_iff₀ pos]; linarith
    have b : (B - R) / (max (max R G) B - min (min R G) B) ≤ 1 := by rw [div_le_iff₀ pos]; linarith
    constructor <;> linarith
  · have a : -1 ≤ (R - G) / (max (max R G) B - min (min R G) B) := by rw [le_div_iff₀ pos]; linarith
    have b : (R - G) / (max (max R G) B - min (min R G) B) ≤ 1 := by rw [div_le_iff₀ pos]; linarith
    constructor <;> linarith

/-- **C101** (one pixel, exact arithmetic) `rgb_to_hsv_f32` computes the textbook hexcone hue (in turns, in `[0, 1)`),
saturation, and value `max/255` of every byte colour. -/
theorem c101_forward_pixel (r g b : UInt8) :
    rgbToHsvF32Pixel (F := ℝ) [r, g, b] = .ok [hexHue r.toNat g.toNat b.toNat, hexSat r.toNat g.toNat b.toNat,
      max (max (r.toNat : ℝ) g.toNat) b.toNat / 255] ∧
    0 ≤ hexHue r.toNat g.toNat b.toNat ∧ hexHue r.toNat g.toNat b.toNat < 1 := by
  refine ⟨?_, hexHue_bounds⟩
  have emx : (max (max r g) b).toNat = max (max r.toNat g.toNat) b.toNat := by rw [u8_max_toNat, u8_max_toNat]
  have emn : (min (min r g) b).toNat = min (min r.toNat g.toNat) b.toNat := by rw [u8_min_toNat, u8_min_toNat]
  have hle : min (min r g) b ≤ max (max r g) b := by rw [UInt8.le_iff_toNat_le, emx, emn]; omega
  have hsub : (max (max r g) b - min (min r g) b).toNat = (max (max r g) b).toNat - (min (min r g) b).toNat :=
    UInt8.toNat_sub_of_le _ _ hle
  have cM : (((max (max r g) b).toNat : ℕ) : ℝ) = max (max (r.toNat : ℝ) g.toNat) b.toNat := by
    rw [emx]; push_cast; rfl
  have cC : (((max (max r g) b - min (min r g) b).toNat : ℕ) : ℝ) =
      max (max (r.toNat : ℝ) g.toNat) b.toNat - min (min (r.toNat : ℝ) g.toNat) b.toNat := by
    rw [hsub, Nat.cast_sub (UInt8.le_iff_toNat_le.1 hle), cM, emn]; push_cast; rfl
  have iM : ∀ v : UInt8, max (max r g) b = v ↔ max (max (r.toNat : ℝ) g.toNat) b.toNat = v.toNat := by
    intro v; rw [← cM, Nat.cast_inj, UInt8.toNat_inj]
  have i0 : max (max r g) b = 0 ↔ max (max (r.toNat : ℝ) g.toNat) b.toNat = 0 := by rw [iM]; simp
  unfold rgbToHsvF32Pixel hexHue hexSat
  simp only [idx_some (l := [r, g, b]) (i := 0) (a := r) rfl, idx_some (l := [r, g, b]) (i := 1) (a := g) rfl,
    idx_some (l := [r, g, b]) (i := 2) (a := b) rfl, ok_bind, Ideal.ofU8_eq, Ideal.div_eq, Ideal.num_eq, Ideal.sub_eq,
    Ideal.add_eq, ne_eq, i0, iM, cM, cC]
  have mR : min (min (r.toNat : ℝ) g.toNat) b.toNat ≤ r.toNat := le_trans (min_le_left _ _) (min_le_left _ _)
  have mG : min (min (r.toNat : ℝ) g.toNat) b.toNat ≤ g.toNat := le_trans (min_le_left _ _) (min_le_right _ _)
  have mB : min (min (r.toNat : ℝ) g.toNat) b.toNat ≤ b.toNat := min_le_right _ _
  have xR : (r.toNat : ℝ) ≤ max (max (r.toNat : ℝ) g.toNat) b.toNat := le_trans (le_max_left _ _) (le_max_left _ _)
  have xG : (g.toNat : ℝ) ≤ max (max (r.toNat : ℝ) g.toNat) b.toNat := le_trans (le_max_right _ _) (le_max_left _ _)
  have xB : (b.toNat : ℝ) ≤ max (max (r.toNat : ℝ) g.toNat) b.toNat := le_max_right _ _
  generalize (r.toNat : ℝ) = R at *
  generalize (g.toNat : ℝ) = G at *
  generalize (b.toNat : ℝ) = B at *
  generalize max (max R G) B = M at *
  generalize min (min R G) B = m at *
  have wrap : ∀ d : ℝ, -1 ≤ d → d < 1 →
      (if (d <. ((0 : ℤ) : ℝ)) = true then d + ((1 : ℤ) : ℝ)
        else if (d >. ((1 : ℤ) : ℝ)) = true then d - ((1 : ℤ) : ℝ) else d) = Int.fract d := by
    intro d h1 h2
    by_cases h0 : d < 0
    · rw [if_pos (by rw [Ideal.lt_eq]; simpa using h0)]
      push_cast
      rw [← Int.fract_add_one, Int.fract_eq_self.2 ⟨by linarith, by linarith⟩]
    · rw [if_neg (by rw [Ideal.lt_eq]; simpa using h0), if_neg (by
        rw [show (d >. ((1 : ℤ) : ℝ)) = (((1 : ℤ) : ℝ) <. d) from rfl, Ideal.lt_eq]; push_cast; linarith),
        Int.fract_eq_self.2 ⟨by linarith, h2⟩]
  refine congrArg Except.ok (List.cons_eq_cons.2 ⟨?_, List.cons_eq_cons.2 ⟨?_, rfl⟩⟩)
  · by_cases hC : M - m = 0
    · have e : (((0 : ℝ) / ((255 : ℤ) : ℝ)) ==. ((0 : ℤ) : ℝ)) = true := by rw [Ideal.eq_eq]; simp
      simp only [hC, e, if_true, Bool.not_true, Bool.false_eq_true, if_false]
      rw [wrap (((0 : ℤ) : ℝ) / ((6 : ℤ) : ℝ)) (by norm_num) (by norm_num)]; simp
    · have pos : 0 < M - m := lt_of_le_of_ne (by linarith) (Ne.symm hC)
      have e : (((M - m) / ((255 : ℤ) : ℝ)) ==. ((0 : ℤ) : ℝ)) = false := by
        rw [← Bool.not_eq_true, Ideal.eq_eq]; push_cast; exact (div_pos pos (by norm_num)).ne'
      simp only [e, hC, if_false, Bool.not_false, if_true]
      have q : ∀ a c : ℝ, (a / ((255 : ℤ) : ℝ) - c / ((255 : ℤ) : ℝ)) / ((M - m) / ((255 : ℤ) : ℝ)) = (a - c) / (M - m) := by
        intro a c; push_cast; rw [← sub_div, div_div_div_cancel_right₀ (by norm_num)]
      have bd : ∀ {a c : ℝ}, m ≤ a → a ≤ M → m ≤ c → c ≤ M → -1 ≤ (a - c) / (M - m) ∧ (a - c) / (M - m) ≤ 1 := by
        intro a c h1 h2 h3 h4
        rw [le_div_iff₀ pos, div_le_iff₀ pos]; constructor <;> linarith
      simp only [q]
      split
      · have := bd mG xG mB xB
        rw [wrap _ (by push_cast; linarith [this.1]) (by push_cast; linarith [this.2])]; norm_num
      split
      · have := bd mB xB mR xR
        rw [wrap _ (by push_cast; linarith [this.1]) (by push_cast; linarith [this.2]), Int.fract_eq_self.2]
        · norm_num
        · push_cast; constructor <;> linarith [this.1, this.2]
      · have := bd mR xR mG xG
        rw [wrap _ (by push_cast; linarith [this.1]) (by push_cast; linarith [this.2]), Int.fract_eq_self.2]
        · norm_num
        · push_cast; constructor <;> linarith [this.1, this.2]
  · by_cases h0 : M = 0
    · simp [h0]
    · simp only [h0, not_false_eq_true, if_true, if_false]
      push_cast
      rw [div_div_div_cancel_right₀ (by norm_num)]

theorem sectorRgb_scaled {M m : ℝ} (hM : M ≠ 0) (k : Nat) (f : ℝ) : sectorRgb k f ((M - m) / M) (M / 255) =
    (match k with
      | 0 => [M, m + (M - m) * f, m] | 1 => [M - (M - m) * f, M, m] | 2 => [m, M, m + (M - m) * f]
      | 3 => [m, M - (M - m) * f, M] | 4 => [m + (M - m) * f, m, M] | _ => [M, m, M - (M - m) * f]).map (· / 255) := by
  have p : M / 255 * (1 - (M - m) / M) = m / 255 := by field_simp; ring
  have q : M / 255 * (1 - (M - m) / M * f) = (M - (M - m) * f) / 255 := by field_simp
  have t : M / 255 * (1 - (M - m) / M * (1 - f)) = (m + (M - m) * f) / 255 := by field_simp; ring
  unfold sectorRgb
  simp only [p, q, t]
  split <;> rfl

/-- **C101** (one pixel) In exact arithmetic the two conversions are inverse: every byte colour comes back unchanged. -/
theorem c101_round_trip_pixel (r g b : UInt8) :
    ∃ hsv, rgbToHsvF32Pixel (F := ℝ) [r, g, b] = .ok hsv ∧ hsvToRgbF32Pixel hsv = .ok [r, g, b] := by
  obtain ⟨e, -, -⟩ := c101_forward_pixel r g b
  refine ⟨_, e, ?_⟩
  have hr : (0 : ℝ) ≤ r.toNat := by positivity
  have hg : (0 : ℝ) ≤ g.toNat := by positivity
  have hb : (0 : ℝ) ≤ b.toNat := by positivity
  have fin : ∀ {l : List ℝ}, l = [(r.toNat : ℝ) / 255, g.toNat / 255, b.toNat / 255] →
      (.ok (l.map fun c => toU8 (c * 255)) : Res (List UInt8)) = .ok [r, g, b] := by
    rintro _ rfl
    simp only [List.map_cons, List.map_nil]
    rw [toU8_real_nat r (by ring), toU8_real_nat g (by ring), toU8_real_nat b (by ring)]
  generalize (r.toNat : ℝ) = R at *
  generalize (g.toNat : ℝ) = G at *
  generalize (b.toNat : ℝ) = B at *
  clear e
  -- one sector, for any colour
  have sec : ∀ (M m h f : ℝ) (k : Nat), 0 ≤ m → m < M → k ≤ 5 → 6 * h = k + f → 0 ≤ f → f < 1 →
      (match k with
        | 0 => [M, m + (M - m) * f, m] | 1 => [M - (M - m) * f, M, m] | 2 => [m, M, m + (M - m) * f]
        | 3 => [m, M - (M - m) * f, M] | 4 => [m + (M - m) * f, m, M] | _ => [M, m, M - (M - m) * f]) = [R, G, B] →
      hsvToRgbF32Pixel [h, (M - m) / M, M / 255] = .ok [r, g, b] := by
    intro M m h f k h0 hlt hk hh f0 f1 hl
    have hM : M ≠ 0 := by linarith [lt_of_le_of_lt h0 hlt]
    rw [hsvReal_sector h _ _ (div_ne_zero (by linarith) hM) (k := k) (by omega) (by linarith) (by linarith),
      sectorRgb_scaled hM]
    apply fin
    rw [show 6 * h - k = f by linarith, hl]; rfl
  unfold hexHue hexSat
  simp only
  rcases le_or_gt G R with gr | gr
  · rcases le_or_gt B R with br | br
    · -- red is largest
      rw [max_eq_left gr, max_eq_left br, min_eq_right gr]
      rcases le_total B G with bg | bg
      · rw [min_eq_right bg]
        rcases br.eq_or_lt with rfl | br
        · have : G = B := le_antisymm gr bg
          subst this
          simp only [sub_self, if_true, zero_div, ite_self]
          rw [(c101_back_pixel 0 0 (G / 255) le_rfl one_pos)]
          simp only [hexRgb_grey]
          exact fin (l := [G / 255, G / 255, G / 255]) rfl
        · have pos : 0 < R - B := by linarith
          rw [if_neg pos.ne', if_neg (by linarith : R ≠ 0), if_pos rfl, Int.fract_eq_self.2]
          · rcases gr.eq_or_lt with rfl | gr
            · exact sec G B _ 0 1 hb br (by omega) (by field_simp; norm_num) (by norm_num) (by norm_num) (by simp)
            · exact sec R B _ ((G - B) / (R - B)) 0 hb br (by omega) (by field_simp; norm_num)
                (div_nonneg (by linarith) pos.le) (by rw [div_lt_one pos]; linarith)
                (by simp only; rw [mul_div_cancel₀ _ pos.ne']; ring_nf)
          · have a : 0 ≤ (G - B) / (R - B) := div_nonneg (by linarith) pos.le
            have b : (G - B) / (R - B) ≤ 1 := by rw [div_le_one pos]; linarith
            constructor <;> linarith
      · rw [min_eq_left bg]
        rcases bg.eq_or_lt with rfl | bg
        · -- red is largest, green and blue equal
          rcases br.eq_or_lt with rfl | br
          · simp only [sub_self, if_true, zero_div, ite_self]
            rw [(c101_back_pixel 0 0 (G / 255) le_rfl one_pos)]
            simp only [hexRgb_grey]
            exact fin (l := [G / 255, G / 255, G / 255]) rfl
          · have pos : 0 < R - G := by linarith
            rw [if_neg pos.ne', if_neg (by linarith : R ≠ 0), if_pos rfl]
            exact sec R G _ 0 0 hg br (by omega) (by simp) (by norm_num) (by norm_num) (by simp)
        · have pos : 0 < R - G := by linarith
          rw [if_neg pos.ne', if_neg (by linarith : R ≠ 0), if_pos rfl, ← Int.fract_add_one, Int.fract_eq_self.2]
          · exact sec R G _ ((G - B) / (R - G) + 1) 5 hg (by linarith) (by omega) (by ring)
                (by have : -1 ≤ (G - B) / (R - G) := by rw [le_div_iff₀ pos]; linarith
                    linarith)
                (by have : (G - B) / (R - G) < 0 := div_neg_of_neg_of_pos (by linarith) pos
                    linarith)
                (by simp only; rw [mul_add, mul_div_cancel₀ _ pos.ne']; ring_nf)
          · have a : -1 ≤ (G - B) / (R - G) := by rw [le_div_iff₀ pos]; linarith
            have b : (G - B) / (R - G) < 0 := div_neg_of_neg_of_pos (by linarith) pos
            constructor <;> linarith
    · -- blue is largest, green smallest
      have pos : 0 < B - G := by linarith
      rw [max_eq_left gr, max_eq_right br.le, min_eq_right gr, min_eq_left (by linarith), if_neg pos.ne',
        if_neg (by linarith : B ≠ 0), if_neg (by linarith), if_neg (by linarith)]
      exact sec B G _ ((R - G) / (B - G)) 4 hg (by linarith) (by omega) (by push_cast; ring)
        (div_nonneg (by linarith) pos.le) (by rw [div_lt_one pos]; linarith)
        (by simp only; rw [mul_div_cancel₀ _ pos.ne']; ring_nf)
  · rw [max_eq_right gr.le, min_eq_left gr.le]
    rcases le_or_gt B G with bg | bg
    · -- green is largest
      rw [max_eq_left bg]
      rcases lt_or_ge B R with br | br
      · have pos : 0 < G - B := by linarith
        rw [min_eq_right br.le, if_neg pos.ne', if_neg (by linarith : G ≠ 0), if_neg (by linarith), if_pos rfl]
        exact sec G B _ ((B - R) / (G - B) + 1) 1 hb (by linarith) (by omega) (by push_cast; ring)
          (by have : -1 ≤ (B - R) / (G - B) := by rw [le_div_iff₀ pos]; linarith
              linarith)
          (by have : (B - R) / (G - B) < 0 := div_neg_of_neg_of_pos (by linarith) pos
              linarith)
          (by simp only; rw [mul_add, mul_div_cancel₀ _ pos.ne']; ring_nf)
      · have pos : 0 < G - R := by linarith
        rw [min_eq_left br, if_neg pos.ne', if_neg (by linarith : G ≠ 0), if_neg (by linarith), if_pos rfl]
        rcases bg.eq_or_lt with rfl | bg
        · exact sec B R _ 0 3 hr gr (by omega) (by field_simp; norm_num) (by norm_num) (by norm_num) (by simp)
        · exact sec G R _ ((B - R) / (G - R)) 2 hr gr (by omega) (by push_cast; ring)
            (div_nonneg (by linarith) pos.le) (by rw [div_lt_one pos]; linarith)
            (by simp only; rw [mul_div_cancel₀ _ pos.ne']; ring_nf)
    · -- blue is largest, red smallest
      have pos : 0 < B - R := by linarith
      rw [max_eq_right bg.le, min_eq_left (by linarith), if_neg pos.ne', if_neg (by linarith : B ≠ 0),
        if_neg (by linarith), if_neg (by linarith)]
      exact sec B R _ ((R - G) / (B - R) + 1) 3 hr (by linarith) (by omega) (by push_cast; ring)
        (by have : -1 ≤ (R - G) / (B - R) := by rw [le_div_iff₀ pos]; linarith
            linarith)
        (by have : (R - G) / (B - R) < 0 := div_neg_of_neg_of_pos (by linarith) pos
            linarith)
        (by simp only; rw [mul_add, mul_div_cancel₀ _ pos.ne']; ring_nf)

/-- **C101** In exact arithmetic `hsv_to_rgb_f32(rgb_to_hsv_f32(img))` is `img`, for every image with three colour
channels, with or without alpha. -/
theorem c101_round_trip (P : Profile) (img : Image UInt8) (h : img.WF)
    (hpos : 0 < img.info.width ∧ 0 < img.info.height) (h3 : img.info.colours = 3) :
    ∃ mid : Image ℝ, rgbToHsvF32 P img = .ok mid ∧ hsvToRgbF32 P mid = .ok img := by
  let F1 : List UInt8 → List ℝ := fun p => match rgbToHsvF32Pixel (F := ℝ) p with | .ok q => q | .error _ => []
  let F2 : List ℝ → List UInt8 := fun p => match hsvToRgbF32Pixel (F := ℝ) p with | .ok q => q | .error _ => []
  obtain ⟨mid, e1, hm⟩ := h.CA.map3 P hpos h3 (S := ℝ)
    (f := fun channels out => do
      let p ← rgbToHsvF32Pixel channels
      .ok (out ++ p))
    (f' := F1) (g := fun a => .ok (ofU8 a /. num 255)) (g' := fun a => ofU8 a /. num 255)
    (fun a b c => ⟨rfl, rfl⟩) (fun _ => rfl)
  obtain ⟨out, e2, ho⟩ := hm.map3 P hpos h3 (S := UInt8)
    (f := fun channels out => do
      let p ← hsvToRgbF32Pixel channels
      .ok (out ++ p))
    (f' := F2) (g := fun a => .ok (toU8 (FloatOps.round (a *. num 255)))) (g' := fun a => toU8 (FloatOps.round (a *. num 255)))
    (fun a b c => by
      have : ∃ x y z, hsvToRgbF32Pixel [a, b, c] = .ok [x, y, z] := by
        unfold hsvToRgbF32Pixel
        simp only [idx_some (l := [a, b, c]) (i := 1) (a := b) rfl, idx_some (l := [a, b, c]) (i := 2) (a := c) rfl,
          idx_some (l := [a, b, c]) (i := 0) (a := a) rfl, ok_bind]
        repeat' split
        all_goals exact ⟨_, _, _, rfl⟩
      obtain ⟨x, y, z, e⟩ := this
      simp only [F2, e, ok_bind]
      exact ⟨rfl, rfl⟩) (fun _ => rfl)
  refine ⟨mid, e1, ?_⟩
  have : out = img := by
    refine Image.ext_px ho.wf h ho.info_eq fun x y hx hy => ?_
    have hx' : x < img.info.width := by rw [← ho.info_eq]; exact hx
    have hy' : y < img.info.height := by rw [← ho.info_eq]; exact hy
    have hc := ho.colour x y hx' hy'
    have ha := ho.alpha x y hx' hy'
    obtain ⟨r, g, b, e⟩ := pixel3 h3 (Image.px_length h hx' hy')
    obtain ⟨hsv, ef, eb⟩ := c101_round_trip_pixel r g b
    have k1 : F1 [r, g, b] = hsv := by simp only [F1, ef]
    have k2 : F2 hsv = [r, g, b] := by simp only [F2, eb]
    rw [e, k1, k2, ← e] at hc
    rw [List.map_map, show ((fun a => toU8 (FloatOps.round (a *. num 255))) ∘ fun a : UInt8 => (ofU8 a /. num 255 : ℝ)) = id
      from funext fun a => ?_, List.map_id] at ha
    · rw [← ImageInfo.colour_append img.info (out.px x y), ← ImageInfo.colour_append img.info (img.px x y), hc, ha]
    · show toU8 (FloatOps.round ((ofU8 a /. num 255 : ℝ) *. num 255)) = a
      have e255 : (ofU8 a /. num 255 : ℝ) *. num 255 = ((a.toNat : ℤ) : ℝ) := by
        simp only [Ideal.ofU8_eq, Ideal.div_eq, Ideal.mul_eq, Ideal.num_eq]; push_cast; ring
      rw [e255, Ideal.round_eq, realRound_int]
      exact toU8_real_nat a (by push_cast; rfl)
  rw [← this]; exact e2

example (P : Profile) : ∃ mid : Image ℝ, rgbToHsvF32 P demoA = .ok mid ∧ hsvToRgbF32 P mid = .ok demoA :=
  c101_round_trip P demoA demoA_WF (by decide) (by decide)
end Imgproc

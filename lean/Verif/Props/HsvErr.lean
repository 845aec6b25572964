import Verif.Props.HsvRound
import Verif.Props.HsvReal
import Verif.Props.GaussErr
import Verif.Proofs.RndShift
/-! Property C125: accuracy of the HSV conversions with float channels, in IEEE single precision. -/
namespace Imgproc
open FloatOps
variable [Libm f32]

/-! ### The conversion back -/

omit [Libm f32] in
/-- the largest single-precision number below one -/
theorem rep_below_1 {q : Rat} (h : f32.Exact q) (hq : q < 1) : q ≤ 1 - 1 / 16777216 := by
  obtain ⟨⟨m, e, rfl, hm, he⟩, -⟩ := h
  rcases le_or_gt (-24) e with h1 | h1
  · obtain ⟨t, rfl⟩ : ∃ t : Nat, e = -24 + t := ⟨(e + 24).toNat, by omega⟩
    rw [pow2_eq, zpow_add₀ (by norm_num), zpow_natCast, show ((2 : Rat) ^ (-24 : Int)) = 1 / 16777216 by norm_num] at hq ⊢
    have h2 : (m : Rat) * 2 ^ t < 16777216 := by linarith
    have h3 : m * 2 ^ t < 16777216 := by exact_mod_cast h2
    have h4 : m * 2 ^ t ≤ 16777215 := by omega
    have h5 : (m : Rat) * 2 ^ t ≤ 16777215 := by exact_mod_cast h4
    linarith
  · have b : pow2 e ≤ 1 / 33554432 := by
      rw [pow2_eq]
      calc (2 : Rat) ^ e ≤ 2 ^ (-25 : Int) := zpow_le_zpow_right₀ (by norm_num) (by omega)
        _ = _ := by norm_num
    have hm' : (m : Rat) ≤ 16777216 := by
      have h6 : |m| ≤ 16777216 := by
        have : (2 : Int) ^ f32.p = 16777216 := by decide
        have := hm; simp [f32] at this; omega
      exact_mod_cast le_trans (le_abs_self m) h6
    have p0 := pow2_pos e
    nlinarith

theorem chan_mid {v s w : F32} {V S W : Rat} (hv : v.Is V) (hs : s.Is S)
    (hw : App w W (3 / 16777216)) (hV : |V| ≤ 1) (hS : |S| ≤ 1) (hW : |W| ≤ 1) (hSW : |1 - S * W| ≤ 1) :
    App (v *. (num 1 -. s *. w) *. num 255) (V * (1 - S * W) * 255) (2600 / 16777216) := by
  have h1 := App.mul (App.exact hs) hw hS hW (e' := 5 / 16777216) (by norm_num) (by norm_num) (by norm_num)
  have n1 : App (num 1 : F32) 1 0 := by simpa using App.num (n := 1) (by decide)
  have n255 : App (num 255 : F32) 255 0 := by simpa using App.num (n := 255) (by decide)
  have h2 := App.sub n1 h1 (B := 1) (e' := 7 / 16777216) (by norm_num) hSW (by norm_num) (by norm_num)
  have h3 := App.mul (App.exact hv) h2 hV hSW (e' := 9 / 16777216) (by norm_num) (by norm_num) (by norm_num)
  have hb : |V * (1 - S * W)| ≤ 1 := by
    rw [abs_mul]; exact mul_le_one₀ hV (abs_nonneg _) hSW
  exact App.mul h3 n255 hb (C := 255) (by norm_num) (by norm_num) (by norm_num) (by norm_num)

theorem chan_top {v : F32} {V : Rat} (hv : v.Is V) (hV : |V| ≤ 1) :
    App (v *. num 255) (V * 255) (2600 / 16777216) := by
  have n255 : App (num 255 : F32) 255 0 := by simpa using App.num (n := 255) (by decide)
  exact App.mul (App.exact hv) n255 hV (C := 255) (by norm_num) (by norm_num) (by norm_num) (by norm_num)

theorem chan_low {v s : F32} {V S : Rat} (hv : v.Is V) (hs : s.Is S)
    (hV : |V| ≤ 1) (hS : |1 - S| ≤ 1) : App (v *. (num 1 -. s) *. num 255) (V * (1 - S) * 255) (2600 / 16777216) := by
  have n1 : App (num 1 : F32) 1 0 := by simpa using App.num (n := 1) (by decide)
  have n255 : App (num 255 : F32) 255 0 := by simpa using App.num (n := 255) (by decide)
  have h2 := App.sub n1 (App.exact hs) (B := 1) (e' := 7 / 16777216) (by norm_num) hS (by norm_num) (by norm_num)
  have h3 := App.mul (App.exact hv) h2 hV hS (e' := 9 / 16777216) (by norm_num) (by norm_num) (by norm_num)
  have hb : |V * (1 - S)| ≤ 1 := by
    rw [abs_mul]; exact mul_le_one₀ hV (abs_nonneg _) hS
  exact App.mul h3 n255 hb (C := 255) (by norm_num) (by norm_num) (by norm_num) (by norm_num)

omit [Libm f32] in
theorem App.shift2 {x : F32} {V S L L' : Rat} (h : App x (V * (1 - S * L) * 255) (2600 / 16777216)) (hV : |V| ≤ 1) (hS : |S| ≤ 1)
    (hL : |L - L'| ≤ 6 / 16777216) : App x (V * (1 - S * L') * 255) (1 / 4000) := by
  obtain ⟨a, ha, h⟩ := h
  refine ⟨a, ha, ?_⟩
  have e : a - V * (1 - S * L') * 255 = (a - V * (1 - S * L) * 255) + -(V * S * (L - L') * 255) := by ring
  have b : |V * S * (L - L') * 255| ≤ 1530 / 16777216 := by
    rw [abs_mul, abs_mul, abs_mul]
    have h1 : |V| * |S| ≤ 1 := mul_le_one₀ hV (abs_nonneg _) hS
    have h2 : |V| * |S| * |L - L'| ≤ 6 / 16777216 :=
      le_trans (mul_le_mul h1 hL (abs_nonneg _) zero_le_one) (by norm_num)
    have : |(255 : Rat)| = 255 := by norm_num
    rw [this]
    linarith
  rw [e]
  refine le_trans (abs_add_le _ _) ?_
  rw [abs_neg]; linarith

theorem back_near {h s v : F32} {a S V : Rat} (hh : h.Is a) (ha : 0 ≤ a) (hlt : a < 1)
    (hs : s.Is S) (hs0 : S ≠ 0) (hv : v.Is V) (V0 : 0 ≤ V) (V1 : V ≤ 1) (S0 : 0 ≤ S) (S1 : S ≤ 1) :
    ∃ X Y Z : F32, hsvToRgbF32Pixel [h, s, v] = .ok [toU8 X, toU8 Y, toU8 Z] ∧
      App X (V * (1 - S * lossR (6 * a)) * 255) (1 / 4000) ∧ App Y (V * (1 - S * lossG (6 * a)) * 255) (1 / 4000) ∧
      App Z (V * (1 - S * lossB (6 * a)) * 255) (1 / 4000) := by
  have aV : |V| ≤ 1 := abs_le.2 ⟨by linarith, V1⟩
  have aS : |S| ≤ 1 := abs_le.2 ⟨by linarith, S1⟩
  have a1S : |1 - S| ≤ 1 := abs_le.2 ⟨by linarith, by linarith⟩
  have aSW : ∀ {W : Rat}, 0 ≤ W → W ≤ 1 → |W| ≤ 1 ∧ |1 - S * W| ≤ 1 := by
    intro W w0 w1
    have := mul_nonneg S0 w0
    have := mul_le_one₀ S1 w0 w1
    exact ⟨abs_le.2 ⟨by linarith, w1⟩, abs_le.2 ⟨by linarith, by linarith⟩⟩
  -- six times the hue
  have hm1 := rep_below_1 hh.exact hlt
  have i6 := mul_is hh (num32 (n := 6) (by decide)) (ovf_between (by push_cast; linarith) (by push_cast; linarith))
  push_cast at i6
  have r0 : 0 ≤ f32.rnd (a * 6) := le_rndQ e0.1 (by linarith)
  have re := rnd_abs_err (q := a * 6) (B := 6) (abs_le.2 ⟨by linarith, by linarith⟩) (by norm_num)
  have hq6 : f32.rnd (a * 6) < 6 := by
    refine rnd_dn (u := 1 / 2097152) (by norm_num) ?_ (by linarith)
    have := f32_dy (m := 12582911) (k := 21) (by norm_num) (by norm_num)
    norm_num at this ⊢; exact this
  generalize f32.rnd (a * 6) = q at *
  have hqx : |q - 6 * a| ≤ 6 / 16777216 := by
    rw [show q - 6 * a = q - a * 6 by ring]; exact re
  obtain ⟨lR, lG, lB⟩ := loss_lip hqx
  have fl0 := rat_floor_le q
  have fl1 := rat_lt_floor q
  have hz0 : (0 : Int) ≤ q.floor := rat_le_floor.2 (by simpa using r0)
  have hz6 : q.floor < 6 := by
    have : (q.floor : Rat) < ((6 : Int) : Rat) := by push_cast; linarith
    exact_mod_cast this
  have ifl := floor_is i6 (f32_int (by rw [abs_of_nonneg hz0]; omega))
  obtain ⟨k, hk⟩ : ∃ k : Nat, q.floor = k := ⟨q.floor.toNat, by omega⟩
  rw [hk] at fl0 fl1 ifl
  push_cast at fl0 fl1 ifl
  have hkk : toU8 (FloatOps.floor (h *. num 6)) = UInt8.ofNat k := toU8_of_is ifl (by omega)
  have hf : App (h *. num 6 -. FloatOps.floor (h *. num 6)) (q - k) (1 / 16777216) :=
    App.sub (App.exact i6) (App.exact ifl) (B := 1) (by norm_num) (abs_le.2 ⟨by linarith, by linarith⟩) (by norm_num) (by norm_num)
  have n1 : App (num 1 : F32) 1 0 := by simpa using App.num (n := 1) (by decide)
  have hf' : App (num 1 -. (h *. num 6 -. FloatOps.floor (h *. num 6))) (1 - (q - k)) (3 / 16777216) :=
    App.sub n1 hf (B := 1) (by norm_num) (abs_le.2 ⟨by linarith, by linarith⟩) (by norm_num) (by norm_num)
  have g1 := aSW (W := q - k) (by linarith) (by linarith)
  have g2 := aSW (W := 1 - (q - k)) (by linarith) (by linarith)
  -- the four bytes
  have cV := chan_top hv aV
  have cP := chan_low hv hs aV a1S
  have cQ := chan_mid hv hs (hf.mono (by norm_num)) aV aS g1.1 g1.2
  have cT := chan_mid hv hs hf' aV aS g2.1 g2.2
  have fV : ∀ {L L' : Rat}, L = 0 → |L - L'| ≤ 6 / 16777216 → App (v *. num 255) (V * (1 - S * L') * 255) (1 / 4000) := by
    intro L L' h0 hl
    exact App.shift2 (L := L) (by rw [h0]; simpa using cV) aV aS hl
  have fP : ∀ {L L' : Rat}, L = 1 → |L - L'| ≤ 6 / 16777216 → App (v *. (num 1 -. s) *. num 255) (V * (1 - S * L') * 255) (1 / 4000) := by
    intro L L' h0 hl
    exact App.shift2 (L := L) (by rw [h0]; simpa using cP) aV aS hl
  have fQ : ∀ {L L' : Rat}, L = q - k → |L - L'| ≤ 6 / 16777216 →
      App (v *. (num 1 -. s *. (h *. num 6 -. FloatOps.floor (h *. num 6))) *. num 255) (V * (1 - S * L') * 255) (1 / 4000) := by
    intro L L' h0 hl
    exact App.shift2 (L := L) (by rw [h0]; exact cQ) aV aS hl
  have fT : ∀ {L L' : Rat}, L = 1 - (q - k) → |L - L'| ≤ 6 / 16777216 →
      App (v *. (num 1 -. s *. (num 1 -. (h *. num 6 -. FloatOps.floor (h *. num 6)))) *. num 255) (V * (1 - S * L') * 255) (1 / 4000) := by
    intro L L' h0 hl
    exact App.shift2 (L := L) (by rw [h0]; exact cT) aV aS hl
  unfold hsvToRgbF32Pixel
  simp only [idx_some (l := [h, s, v]) (i := 1) (a := s) rfl, idx_some (l := [h, s, v]) (i := 2) (a := v) rfl,
    idx_some (l := [h, s, v]) (i := 0) (a := h) rfl, ok_bind]
  rw [if_neg (by rw [eq_is hs (num32 (by decide)), decide_eq_true_eq]; simpa using hs0), hkk]
  have hk6 : k < 6 := by omega
  interval_cases k
  · obtain ⟨a1, a2, a3⟩ := loss0 (x := q) (by push_cast at fl0; linarith) (by push_cast at fl1; linarith)
    exact ⟨_, _, _, rfl, fV a1 lR, fT (by rw [a2]; push_cast; ring) lG, fP a3 lB⟩
  · obtain ⟨a1, a2, a3⟩ := loss1 (x := q) (by push_cast at fl0; linarith) (by push_cast at fl1; linarith)
    exact ⟨_, _, _, rfl, fQ (by rw [a1]; push_cast; ring) lR, fV a2 lG, fP a3 lB⟩
  · obtain ⟨a1, a2, a3⟩ := loss2 (x := q) (by push_cast at fl0; linarith) (by push_cast at fl1; linarith)
    exact ⟨_, _, _, rfl, fP a1 lR, fV a2 lG, fT (by rw [a3]; push_cast; ring) lB⟩
  · obtain ⟨a1, a2, a3⟩ := loss3 (x := q) (by push_cast at fl0; linarith) (by push_cast at fl1; linarith)
    exact ⟨_, _, _, rfl, fP a1 lR, fQ (by rw [a2]; push_cast; ring) lG, fV a3 lB⟩
  · obtain ⟨a1, a2, a3⟩ := loss4 (x := q) (by push_cast at fl0; linarith) (by push_cast at fl1; linarith)
    exact ⟨_, _, _, rfl, fT (by rw [a1]; push_cast; ring) lR, fP a2 lG, fV a3 lB⟩
  · obtain ⟨a1, a2, a3⟩ := loss5 (x := q) (by push_cast at fl0; linarith) (by push_cast at fl1; linarith)
    exact ⟨_, _, _, rfl, fV a1 lR, fP a2 lG, fQ (by rw [a3]; push_cast; ring) lB⟩

omit [Libm f32] in
/-- the textbook colour, through the shares used above -/
theorem hexRgb_loss {a S V : Rat} (h0 : 0 ≤ a) (h1 : a < 1) :
    hexRgb 5 a S V = ((V * (1 - S * lossR (6 * a)) : Rat) : ℝ) ∧ hexRgb 3 a S V = ((V * (1 - S * lossG (6 * a)) : Rat) : ℝ) ∧
      hexRgb 1 a S V = ((V * (1 - S * lossB (6 * a)) : Rat) : ℝ) := by
  have fl0 := rat_floor_le (6 * a)
  have fl1 := rat_lt_floor (6 * a)
  have hz0 : (0 : Int) ≤ (6 * a).floor := rat_le_floor.2 (by push_cast; linarith)
  have hz6 : (6 * a).floor < 6 := by
    have : ((6 * a).floor : Rat) < ((6 : Int) : Rat) := by push_cast; linarith
    exact_mod_cast this
  obtain ⟨k, hk⟩ : ∃ k : Nat, (6 * a).floor = k := ⟨(6 * a).floor.toNat, by omega⟩
  rw [hk] at fl0 fl1
  simp only [Int.cast_natCast] at fl0 fl1
  have k1 : (k : ℝ) ≤ 6 * (a : ℝ) := by have := (Rat.cast_le (K := ℝ)).2 fl0; push_cast at this; exact this
  have k2 : 6 * (a : ℝ) < k + 1 := by have := (Rat.cast_lt (K := ℝ)).2 fl1; push_cast at this; exact this
  have e5 := hexRgb_sector 5 k a S V k1 k2
  have e3 := hexRgb_sector 3 k a S V k1 k2
  have e1 := hexRgb_sector 1 k a S V k1 k2
  have hk6 : k < 6 := by omega
  simp only [Nat.cast_ofNat, Nat.cast_one] at e5 e3 e1
  rw [e5, e3, e1]
  interval_cases k
  · obtain ⟨a1, a2, a3⟩ := loss0 (x := 6 * a) (by push_cast at fl0; linarith) (by push_cast at fl1; linarith)
    rw [a1, a2, a3]; simp only [sectorShare]; push_cast; refine ⟨by ring, by ring, by ring⟩
  · obtain ⟨a1, a2, a3⟩ := loss1 (x := 6 * a) (by push_cast at fl0; linarith) (by push_cast at fl1; linarith)
    rw [a1, a2, a3]; simp only [sectorShare]; push_cast; refine ⟨by ring, by ring, by ring⟩
  · obtain ⟨a1, a2, a3⟩ := loss2 (x := 6 * a) (by push_cast at fl0; linarith) (by push_cast at fl1; linarith)
    rw [a1, a2, a3]; simp only [sectorShare]; push_cast; refine ⟨by ring, by ring, by ring⟩
  · obtain ⟨a1, a2, a3⟩ := loss3 (x := 6 * a) (by push_cast at fl0; linarith) (by push_cast at fl1; linarith)
    rw [a1, a2, a3]; simp only [sectorShare]; push_cast; refine ⟨by ring, by ring, by ring⟩
  · obtain ⟨a1, a2, a3⟩ := loss4 (x := 6 * a) (by push_cast at fl0; linarith) (by push_cast at fl1; linarith)
    rw [a1, a2, a3]; simp only [sectorShare]; push_cast; refine ⟨by ring, by ring, by ring⟩
  · obtain ⟨a1, a2, a3⟩ := loss5 (x := 6 * a) (by push_cast at fl0; linarith) (by push_cast at fl1; linarith)
    rw [a1, a2, a3]; simp only [sectorShare]; push_cast; refine ⟨by ring, by ring, by ring⟩

/-- truncating a number close to `q` in `[0, 255]` -/
theorem app_trunc {x : F32} {q e : Rat} (h : App x q e) (h0 : 0 ≤ q) (h1 : q ≤ 255) (he : e < 1) :
    q - 1 - e < (toU8 x).toNat ∧ ((toU8 x).toNat : Rat) ≤ q + e := by
  obtain ⟨a, ha, h⟩ := h
  have e0 : 0 ≤ e := (abs_nonneg _).trans h
  rw [abs_le] at h
  rw [toU8_toNat ha]
  unfold FP.truncQ
  split
  · rename_i ha0
    have f1 := rat_floor_le a
    have f2 := rat_lt_floor a
    have f0 : (0 : Int) ≤ a.floor := rat_le_floor.2 (by simpa using ha0)
    rcases le_or_gt a.floor 255 with hl | hl
    · rw [min_eq_right hl, max_eq_right f0]
      have : ((a.floor.toNat : Nat) : Rat) = (a.floor : Rat) := by
        rw [← Int.cast_natCast, Int.toNat_of_nonneg f0]
      rw [this]
      constructor <;> linarith [h.1, h.2]
    · rw [min_eq_left hl.le]
      have : ((256 : Int) : Rat) ≤ (a.floor : Rat) := by exact_mod_cast hl
      push_cast at this
      norm_num
      constructor <;> linarith [h.1, h.2]
  · rename_i ha0
    have f0 : (0 : Int) ≤ (-a).floor := rat_le_floor.2 (by push_cast; linarith)
    rw [max_eq_left (by omega)]
    norm_num
    constructor <;> linarith [h.1, h.2]

omit [Libm f32] in
theorem loss_chan {S V L : Rat} (V0 : 0 ≤ V) (V1 : V ≤ 1) (S0 : 0 ≤ S) (S1 : S ≤ 1) (L0 : 0 ≤ L) (L1 : L ≤ 1) :
    0 ≤ V * (1 - S * L) * 255 ∧ V * (1 - S * L) * 255 ≤ 255 := by
  have h1 : 0 ≤ S * L := mul_nonneg S0 L0
  have h2 : S * L ≤ 1 := mul_le_one₀ S1 L0 L1
  have h3 : 0 ≤ V * (1 - S * L) := mul_nonneg V0 (by linarith)
  have h4 : V * (1 - S * L) ≤ 1 := mul_le_one₀ V1 (by linarith) (by linarith)
  constructor <;> linarith

omit [Libm f32] in
theorem unitClamp_mem (x : Rat) : 0 ≤ unitClamp x ∧ unitClamp x ≤ 1 :=
  ⟨le_max_left _ _, max_le zero_le_one (min_le_left _ _)⟩

/-- spec: the byte `c` is the truncation of `255 x`, up to an error of 1/4000 of a step in `255 x` -/
def TruncOf (c : UInt8) (x : ℝ) : Prop := 255 * x - 1 - 1 / 4000 < (c.toNat : ℝ) ∧ (c.toNat : ℝ) ≤ 255 * x + 1 / 4000

/-- **C125** (one pixel, conversion back) For every hue in `[0, 1)` and saturation and value in `[0, 1]`, all
single-precision numbers, each byte `hsv_to_rgb_f32` returns is the textbook hexcone channel, truncated, where the
rounding errors before the truncation amount to at most 1/4000 of a step. -/
theorem c125_back_pixel (h s v : F32) {a S V : Rat} (hh : h.Is a) (hs : s.Is S) (hv : v.Is V) (h0 : 0 ≤ a) (h1 : a < 1)
    (S0 : 0 ≤ S) (S1 : S ≤ 1) (V0 : 0 ≤ V) (V1 : V ≤ 1) :
    ∃ r g b : UInt8, hsvToRgbF32Pixel [h, s, v] = .ok [r, g, b] ∧ TruncOf r (hexRgb 5 a S V) ∧
      TruncOf g (hexRgb 3 a S V) ∧ TruncOf b (hexRgb 1 a S V) := by
  have fin : ∀ {X : F32} {T : Rat}, App X (T * 255) (1 / 4000) → 0 ≤ T * 255 ∧ T * 255 ≤ 255 → TruncOf (toU8 X) (T : ℝ) := by
    intro X T hX hT
    obtain ⟨p1, p2⟩ := app_trunc hX hT.1 hT.2 (by norm_num)
    have p1 := (Rat.cast_lt (K := ℝ)).2 p1
    have p2 := (Rat.cast_le (K := ℝ)).2 p2
    push_cast at p1 p2
    constructor <;> linarith
  by_cases hz : S = 0
  · subst hz
    refine ⟨toU8 (v *. num 255), toU8 (v *. num 255), toU8 (v *. num 255), ?_, ?_⟩
    · unfold hsvToRgbF32Pixel
      simp only [idx_some (l := [h, s, v]) (i := 1) (a := s) rfl, idx_some (l := [h, s, v]) (i := 2) (a := v) rfl, ok_bind]
      rw [if_pos (by rw [eq_is hs (num32 (by decide)), decide_eq_true_eq]; simp)]
    · have k : TruncOf (toU8 (v *. num 255)) (V : ℝ) :=
        fin ((chan_top hv (abs_le.2 ⟨by linarith, V1⟩)).mono (by norm_num)) ⟨by linarith, by linarith⟩
      simp only [Rat.cast_zero, hexRgb_grey]
      exact ⟨k, k, k⟩
  · obtain ⟨X, Y, Z, e, hX, hY, hZ⟩ := back_near hh h0 h1 hs hz hv V0 V1 S0 S1
    obtain ⟨e5, e3, e1⟩ := hexRgb_loss (S := S) (V := V) h0 h1
    refine ⟨_, _, _, e, ?_⟩
    rw [e5, e3, e1]
    exact ⟨fin hX (loss_chan V0 V1 S0 S1 (unitClamp_mem _).1 (unitClamp_mem _).2),
      fin hY (loss_chan V0 V1 S0 S1 (unitClamp_mem _).1 (unitClamp_mem _).2),
      fin hZ (loss_chan V0 V1 S0 S1 (unitClamp_mem _).1 (unitClamp_mem _).2)⟩

/-! ### The forward conversion -/

/-- a byte over 255, relative error -/
theorem byte_rel (v : UInt8) (h : 0 < v.toNat) : Rel (ofU8 v /. num 255 : F32) ((v.toNat : ℝ) / 255) (1 / 16777216) := by
  have v1 : (1 : ℝ) ≤ v.toNat := by exact_mod_cast h
  have k : |(((v.toNat : Rat) / 255 : Rat) : ℝ) - (v.toNat : ℝ) / 255| ≤ 0 * |(v.toNat : ℝ) / 255| := by push_cast; simp
  have hlo : (1 : ℝ) / 2 ^ 60 ≤ |(v.toNat : ℝ) / 255| := by
    rw [abs_of_nonneg (by positivity)]
    rw [div_le_div_iff₀ (by norm_num) (by norm_num)]; nlinarith
  exact ⟨_, byteDiv_is v, (rnd_rel_real k (le_refl _) (by norm_num) hlo).trans (le_of_eq (by ring))⟩

omit [Libm f32] in
/-- the textbook hue of a byte colour that is not grey -/
theorem hexHue_hueQ (r g b : UInt8) (hne : ¬ (r = g ∧ g = b)) :
    hexHue r.toNat g.toNat b.toNat = ((hueQ r g b / 6 : Rat) : ℝ) := by
  have emx : (max (max r g) b).toNat = max (max r.toNat g.toNat) b.toNat := by rw [u8_max_toNat, u8_max_toNat]
  have emn : (min (min r g) b).toNat = min (min r.toNat g.toNat) b.toNat := by rw [u8_min_toNat, u8_min_toNat]
  have hlt : (min (min r g) b).toNat < (max (max r g) b).toNat := by
    rcases Nat.lt_or_ge (min (min r g) b).toNat (max (max r g) b).toNat with h | h
    · exact h
    · exfalso; apply hne
      rw [← UInt8.toNat_inj, ← UInt8.toNat_inj]; omega
  have cM : (((max (max r g) b).toNat : ℕ) : ℝ) = max (max (r.toNat : ℝ) g.toNat) b.toNat := by
    rw [emx]; push_cast; rfl
  have cm : (((min (min r g) b).toNat : ℕ) : ℝ) = min (min (r.toNat : ℝ) g.toNat) b.toNat := by
    rw [emn]; push_cast; rfl
  have iM : ∀ v : UInt8, max (max r g) b = v ↔ max (max (r.toNat : ℝ) g.toNat) b.toNat = v.toNat := by
    intro v; rw [← cM, Nat.cast_inj, UInt8.toNat_inj]
  have pos : (0 : ℝ) < max (max (r.toNat : ℝ) g.toNat) b.toNat - min (min (r.toNat : ℝ) g.toNat) b.toNat := by
    rw [← cM, ← cm]; have : ((min (min r g) b).toNat : ℝ) < (max (max r g) b).toNat := by exact_mod_cast hlt
    linarith
  unfold hexHue hueQ
  simp only [iM]
  rw [if_neg pos.ne']
  split
  · rename_i hM
    have key : ∀ d : Rat, -1 ≤ d → d < 1 → Int.fract (d : ℝ) = (((6 * if d < 0 then d + 1 else d) / 6 : Rat) : ℝ) := by
      intro d h1 h2
      have h1' : (-1 : ℝ) ≤ d := by exact_mod_cast h1
      have h2' : (d : ℝ) < 1 := by exact_mod_cast h2
      split
      · rename_i h0
        have h0' : (d : ℝ) < 0 := by exact_mod_cast h0
        rw [← Int.fract_add_one, Int.fract_eq_self.2 ⟨by linarith, by linarith⟩]; push_cast; ring
      · rename_i h0
        have h0' : (0 : ℝ) ≤ d := by exact_mod_cast not_lt.1 h0
        rw [Int.fract_eq_self.2 ⟨h0', h2'⟩]; push_cast; ring
    have posQ : (0 : Rat) < (max (max r g) b).toNat - (min (min r g) b).toNat := by
      have : ((min (min r g) b).toNat : Rat) < (max (max r g) b).toNat := by exact_mod_cast hlt
      linarith
    have g1 : (g.toNat : Rat) ≤ (max (max r g) b).toNat := by exact_mod_cast (by omega : g.toNat ≤ (max (max r g) b).toNat)
    have b1 : (b.toNat : Rat) ≤ (max (max r g) b).toNat := by exact_mod_cast (by omega : b.toNat ≤ (max (max r g) b).toNat)
    have g2 : ((min (min r g) b).toNat : Rat) ≤ g.toNat := by exact_mod_cast (by omega : (min (min r g) b).toNat ≤ g.toNat)
    have b2 : ((min (min r g) b).toNat : Rat) ≤ b.toNat := by exact_mod_cast (by omega : (min (min r g) b).toNat ≤ b.toNat)
    have d1 : -1 ≤ ((g.toNat : Rat) - b.toNat) / ((max (max r g) b).toNat - (min (min r g) b).toNat) := by
      rw [le_div_iff₀ posQ]; linarith
    have d2 : ((g.toNat : Rat) - b.toNat) / ((max (max r g) b).toNat - (min (min r g) b).toNat) ≤ 1 := by
      rw [div_le_iff₀ posQ]; linarith
    rw [← key _ (by linarith) (by linarith)]
    congr 1
    push_cast
    rw [cM, cm]
  · split
    · rw [← cM, ← cm]; push_cast; ring
    · rw [← cM, ← cm]; push_cast; ring

/-- a grey pixel has hue 0 -/
theorem grey_hue (r : UInt8) : ∃ h s v : F32, rgbToHsvF32Pixel [r, r, r] = .ok [h, s, v] ∧ h.Is 0 := by
  have mm : max (max r r) r - min (min r r) r = 0 := by
    have : min (min r r) r = r := by
      have e : (min (min r r) r).toNat = r.toNat := by rw [u8_min_toNat, u8_min_toNat]; omega
      exact UInt8.toNat_inj.1 e
    rw [max3_self, this, UInt8.sub_self]
  refine ⟨_, _, _, rfl, ?_⟩
  rw [mm]
  have hR := byteDiv_is 0
  have z : f32.rnd (((0 : UInt8).toNat : Rat) / 255) = 0 := by simp [Fmt.rnd, rndQ_zero]
  rw [z] at hR
  have e : ((ofU8 0 /. num 255 : F32) ==. num 0) = true := by
    rw [eq_is hR (num32 (by decide)), decide_eq_true_eq]; simp
  have h6 : (num 0 /. num 6 : F32).Is 0 := by
    have := div_is (num32 (n := 0) (by decide)) (num32 (n := 6) (by decide)) (by norm_num) (ovf_between (by norm_num) (by norm_num))
    simpa [Fmt.rnd, rndQ_zero] using this
  simp only [e, Bool.not_true, Bool.false_eq_true, if_false]
  have a1 : ((num 0 /. num 6 : F32) <. num 0) = false := by
    rw [lt_is h6 (num32 (n := 0) (by decide)), decide_eq_false_iff_not]; norm_num
  have a2 : ((num 0 /. num 6 : F32) >. num 1) = false := by
    show ((num 1 : F32) <. (num 0 /. num 6 : F32)) = false
    rw [lt_is (num32 (n := 1) (by decide)) h6, decide_eq_false_iff_not]; norm_num
  rw [a1, a2]
  exact h6

/-- spec: hue, saturation and value are in their ranges and close to the textbook ones of the byte colour `R G B` -/
structure HsvNear (a S V : Rat) (R G B : ℝ) : Prop where
  hue_range : 0 ≤ a ∧ a < 1
  sat_range : 0 ≤ S ∧ S ≤ 1
  val_range : 0 ≤ V ∧ V ≤ 1
  hue : |(a : ℝ) - hexHue R G B| ≤ 1 / 65536
  sat : |(S : ℝ) - hexSat R G B| ≤ 1 / 4194304
  val : |(V : ℝ) - max (max R G) B / 255| ≤ 1 / 16777216

/-- **C125** (one pixel, forward) `rgb_to_hsv_f32` in IEEE single precision: for every byte colour the hue lies in
`[0, 1)` and is within 2⁻¹⁶ of the textbook hue, the saturation is within 2⁻²² of the textbook saturation, and the value
is within 2⁻²⁴ of `max/255`. -/
theorem c125_forward_pixel (r g b : UInt8) : ∃ h s v : F32, rgbToHsvF32Pixel [r, g, b] = .ok [h, s, v] ∧
    ∃ a S V : Rat, h.Is a ∧ s.Is S ∧ v.Is V ∧ HsvNear a S V r.toNat g.toNat b.toNat := by
  have emx : (max (max r g) b).toNat = max (max r.toNat g.toNat) b.toNat := by rw [u8_max_toNat, u8_max_toNat]
  have cM : (((max (max r g) b).toNat : ℕ) : ℝ) = max (max (r.toNat : ℝ) g.toNat) b.toNat := by
    rw [emx]; push_cast; rfl
  have vErr : |((f32.rnd (((max (max r g) b).toNat : Rat) / 255) : Rat) : ℝ) - max (max (r.toNat : ℝ) g.toNat) b.toNat / 255| ≤ 1 / 16777216 := by
    have := (Rat.cast_le (K := ℝ)).2 (byteDiv_err (v := (max (max r g) b).toNat) (by have := (max (max r g) b).toNat_lt; omega))
    generalize f32.rnd (((max (max r g) b).toNat : Rat) / 255) = q at *
    push_cast at this
    rw [cM] at this; exact this
  obtain ⟨h0, s0, v0, ep, b1, ⟨S, iS, S0, S1⟩, ⟨V, iV, V0, V1⟩, hv, hgrey⟩ := c34_ranges r g b
  have eV : V = f32.rnd (((max (max r g) b).toNat : Rat) / 255) := by
    rw [hv] at iV; exact iV.unique (byteDiv_is _)
  by_cases hne : r = g ∧ g = b
  · obtain ⟨rfl, rfl⟩ := hne
    obtain ⟨h', s', v', ep', ih⟩ := grey_hue r
    rw [ep] at ep'
    obtain ⟨rfl, rfl, rfl⟩ : h0 = h' ∧ s0 = s' ∧ v0 = v' := by simpa using ep'
    have i0 := hgrey ⟨rfl, rfl⟩
    refine ⟨h0, s0, v0, ep, 0, 0, V, ih, i0, iV, by norm_num, by norm_num, ⟨V0, V1⟩, ?_, ?_, ?_⟩
    · simp [hexHue]
    · simp [hexSat]
    · rw [eV]; exact vErr
  · obtain ⟨h, s, v, a, xs, S', V', sq, e, ia, a0, a6, ae, isq, sq0, hs, hv', -, -, -, -, -, -, -, hxs, -, hsf, hvf⟩ := fwd_app r g b hne
    rw [ep] at e
    obtain ⟨rfl, rfl, rfl⟩ : h0 = h ∧ s0 = s ∧ v0 = v := by simpa using e
    refine ⟨h0, s0, v0, ep, a, S, V, ia, iS, iV, ⟨a0, by linarith⟩, ⟨S0, S1⟩, ⟨V0, V1⟩, ?_, ?_, ?_⟩
    · rw [hexHue_hueQ r g b hne, ← hxs]
      have : |a - xs / 6| ≤ 1 / 65536 := by
        rw [abs_le] at ae ⊢; constructor <;> linarith [ae.1, ae.2]
      have := (Rat.cast_le (K := ℝ)).2 this
      push_cast at this ⊢; exact this
    · have emn : (min (min r g) b).toNat = min (min r.toNat g.toNat) b.toNat := by rw [u8_min_toNat, u8_min_toNat]
      have hle : min (min r g) b ≤ max (max r g) b := by rw [UInt8.le_iff_toNat_le, emx, emn]; omega
      have hsub : (max (max r g) b - min (min r g) b).toNat = (max (max r g) b).toNat - (min (min r g) b).toNat :=
        UInt8.toNat_sub_of_le _ _ hle
      have hlt : (min (min r g) b).toNat < (max (max r g) b).toNat := by
        rcases Nat.lt_or_ge (min (min r g) b).toNat (max (max r g) b).toNat with h | h
        · exact h
        · exfalso; apply hne
          rw [← UInt8.toNat_inj, ← UInt8.toNat_inj]; omega
      have cC : (((max (max r g) b - min (min r g) b).toNat : ℕ) : ℝ) =
          max (max (r.toNat : ℝ) g.toNat) b.toNat - min (min (r.toNat : ℝ) g.toNat) b.toNat := by
        rw [hsub, Nat.cast_sub (UInt8.le_iff_toNat_le.1 hle), cM, emn]; push_cast; rfl
      have M1 : (1 : ℝ) ≤ (max (max r g) b).toNat := by exact_mod_cast (by omega : 1 ≤ (max (max r g) b).toNat)
      have C1 : (1 : ℝ) ≤ (max (max r g) b - min (min r g) b).toNat := by
        exact_mod_cast (by omega : 1 ≤ (max (max r g) b - min (min r g) b).toNat)
      have CM : ((max (max r g) b - min (min r g) b).toNat : ℝ) ≤ (max (max r g) b).toNat := by
        exact_mod_cast (by omega : (max (max r g) b - min (min r g) b).toNat ≤ (max (max r g) b).toNat)
      have M255 : ((max (max r g) b).toNat : ℝ) ≤ 255 := by
        have := (max (max r g) b).toNat_lt
        exact_mod_cast (by omega : (max (max r g) b).toNat ≤ 255)
      have ratio : ((max (max r g) b - min (min r g) b).toNat : ℝ) / 255 / (((max (max r g) b).toNat : ℝ) / 255) =
          hexSat r.toNat g.toNat b.toNat := by
        unfold hexSat
        simp only
        rw [← cM, if_neg (by linarith), div_div_div_cancel_right₀ (by norm_num), cC, cM]
      have rC := byte_rel (max (max r g) b - min (min r g) b) (by omega)
      have rM := byte_rel (max (max r g) b) (by omega)
      have bnd : |((max (max r g) b - min (min r g) b).toNat : ℝ) / 255 / (((max (max r g) b).toNat : ℝ) / 255)| ≤ 1 ∧
          1 / 2 ^ 60 ≤ |((max (max r g) b - min (min r g) b).toNat : ℝ) / 255 / (((max (max r g) b).toNat : ℝ) / 255)| := by
        rw [div_div_div_cancel_right₀ (by norm_num), abs_of_nonneg (by positivity)]
        refine ⟨(div_le_one (by linarith)).2 CM, ?_⟩
        rw [div_le_div_iff₀ (by norm_num) (by linarith)]
        nlinarith
      have := Rel.div rC rM (K := 1 / 4194304) (by norm_num) (by norm_num) (by norm_num) (by
        have : (0 : ℝ) < ((max (max r g) b).toNat : ℝ) / 255 := by positivity
        exact this.ne') bnd.2 (bnd.1.trans (by norm_num)) (by norm_num) (by norm_num)
      obtain ⟨S'', iS'', eS⟩ := this
      rw [← hsf] at iS''
      rw [← iS.unique iS''] at eS
      refine eS.trans ?_ |> (fun h => by rw [ratio] at h; exact h)
      calc _ ≤ (1 / 4194304 : ℝ) * 1 := mul_le_mul_of_nonneg_left bnd.1 (by norm_num)
        _ = _ := by norm_num
    · rw [eV]; exact vErr

/-! ### Whole images -/

/-- **C125** (forward) `rgb_to_hsv_f32` in IEEE single precision, for every image with three colour channels: it
succeeds, keeps the shape, every pixel holds a hue, saturation and value in their ranges within 2⁻¹⁶, 2⁻²² and 2⁻²⁴ of
the textbook ones, and the alpha channel, if any, is within 2⁻²⁴ of `byte/255`. -/
theorem c125_forward (P : Profile) (img : Image UInt8) (h : img.WF)
    (hpos : 0 < img.info.width ∧ 0 < img.info.height) (h3 : img.info.colours = 3) :
    ∃ out : Image F32, rgbToHsvF32 P img = .ok out ∧ out.WF ∧ out.info = img.info ∧
      ∀ x y, x < img.info.width → y < img.info.height →
        (∃ (r g b : UInt8) (h s v : F32) (a S V : Rat), img.info.colour (img.px x y) = [r, g, b] ∧
          img.info.colour (out.px x y) = [h, s, v] ∧ h.Is a ∧ s.Is S ∧ v.Is V ∧ HsvNear a S V r.toNat g.toNat b.toNat) ∧
        List.Forall₂ (fun (α : F32) (c : UInt8) => ∃ A : Rat, α.Is A ∧ |A - (c.toNat : Rat) / 255| ≤ 1 / 16777216)
          (img.info.alphaOf (out.px x y)) (img.info.alphaOf (img.px x y)) := by
  let F1 : List UInt8 → List F32 := fun p => match rgbToHsvF32Pixel (F := F32) p with | .ok q => q | .error _ => []
  obtain ⟨out, e1, ho⟩ := h.CA.map3 P hpos h3 (S := F32)
    (f := fun channels out => do
      let p ← rgbToHsvF32Pixel channels
      .ok (out ++ p))
    (f' := F1) (g := fun a => .ok (ofU8 a /. num 255)) (g' := fun a => ofU8 a /. num 255)
    (fun a b c => ⟨rfl, rfl⟩) (fun _ => rfl)
  refine ⟨out, e1, ho.wf, ho.info_eq, fun x y hx hy => ⟨?_, ?_⟩⟩
  · obtain ⟨r, g, b, e⟩ := pixel3 h3 (Image.px_length h hx hy)
    obtain ⟨hh, s, v, ef, a, S, V, i1, i2, i3, hn⟩ := c125_forward_pixel r g b
    have hc := ho.colour x y hx hy
    have k1 : F1 [r, g, b] = [hh, s, v] := by simp only [F1, ef]
    rw [e, k1] at hc
    exact ⟨r, g, b, hh, s, v, a, S, V, e, hc, i1, i2, i3, hn⟩
  · rw [ho.alpha x y hx hy, List.forall₂_map_left_iff]
    exact List.forall₂_same.2 fun c _ => ⟨_, byteDiv_is c, byteDiv_err (by have := c.toNat_lt; omega)⟩

/-- scaling an alpha value in `[0, 1]` to a byte rounds to the nearest, up to the rounding error of the product -/
theorem alpha_round {α : F32} {A : Rat} (hA : α.Is A) (h0 : 0 ≤ A) (h1 : A ≤ 1) :
    |((toU8 (FloatOps.round (α *. num 255))).toNat : Rat) - 255 * A| ≤ 1 / 2 + 1 / 4000 := by
  obtain ⟨q, iq, eq⟩ := chan_top hA (abs_le.2 ⟨by linarith, h1⟩)
  rw [toU8_toNat (round_is iq (roundAwayQ_exact (by decide) (by decide) iq.exact))]
  have tr : FP.truncQ ((FP.roundAwayQ q : Int) : Rat) = FP.roundAwayQ q := by
    unfold FP.truncQ
    split
    · exact Rat.floor_intCast _
    · rw [← Int.cast_neg, Rat.floor_intCast]; omega
  rw [tr]
  rw [abs_le] at eq
  have qlo : ((0 : Int) : Rat) ≤ q + 1 := by push_cast; linarith [eq.1]
  have r := roundAwayQ_abs q
  rw [abs_le] at r
  have l1 : (-1 : Int) < FP.roundAwayQ q := by
    have : ((-1 : Int) : Rat) < (FP.roundAwayQ q : Rat) := by push_cast; linarith [r.1, eq.1]
    exact_mod_cast this
  have l2 : FP.roundAwayQ q < 256 := by
    have : (FP.roundAwayQ q : Rat) < ((256 : Int) : Rat) := by push_cast; linarith [r.2, eq.2]
    exact_mod_cast this
  rw [min_eq_right (by omega), max_eq_right (by omega)]
  have : (((FP.roundAwayQ q).toNat : Nat) : Rat) = (FP.roundAwayQ q : Rat) := by
    rw [← Int.cast_natCast, Int.toNat_of_nonneg (by omega)]
  rw [this, abs_le]
  constructor <;> linarith [r.1, r.2, eq.1, eq.2]

/-- **C125** (back) `hsv_to_rgb_f32` in IEEE single precision, for every image with three colour channels that holds
hues in `[0, 1)` and saturations and values in `[0, 1]`: it succeeds, keeps the shape, and every byte is the truncated
textbook channel (up to 1/4000 of a step before truncating); an alpha value in `[0, 1]` becomes the nearest byte (up to
1/4000 of a step before rounding). -/
theorem c125_back (P : Profile) (img : Image F32) (h : img.WF)
    (hpos : 0 < img.info.width ∧ 0 < img.info.height) (h3 : img.info.colours = 3) (H S V : Nat → Nat → Rat)
    (hin : ∀ x y, x < img.info.width → y < img.info.height →
      (∃ a b c, img.info.colour (img.px x y) = [a, b, c] ∧ Flt.Is a (H x y) ∧ Flt.Is b (S x y) ∧ Flt.Is c (V x y)) ∧
      (0 ≤ H x y ∧ H x y < 1) ∧ (0 ≤ S x y ∧ S x y ≤ 1) ∧ (0 ≤ V x y ∧ V x y ≤ 1)) :
    ∃ out : Image UInt8, hsvToRgbF32 P img = .ok out ∧ out.WF ∧ out.info = img.info ∧
      ∀ x y, x < img.info.width → y < img.info.height →
        (∃ r g b : UInt8, img.info.colour (out.px x y) = [r, g, b] ∧ TruncOf r (hexRgb 5 (H x y) (S x y) (V x y)) ∧
          TruncOf g (hexRgb 3 (H x y) (S x y) (V x y)) ∧ TruncOf b (hexRgb 1 (H x y) (S x y) (V x y))) ∧
        List.Forall₂ (fun (c : UInt8) (α : F32) => ∀ A : Rat, α.Is A → 0 ≤ A → A ≤ 1 →
            |(c.toNat : Rat) - 255 * A| ≤ 1 / 2 + 1 / 4000)
          (img.info.alphaOf (out.px x y)) (img.info.alphaOf (img.px x y)) := by
  let F2 : List F32 → List UInt8 := fun p => match hsvToRgbF32Pixel (F := F32) p with | .ok q => q | .error _ => []
  obtain ⟨out, e2, ho⟩ := h.CA.map3 P hpos h3 (S := UInt8)
    (f := fun channels out => do
      let p ← hsvToRgbF32Pixel channels
      .ok (out ++ p))
    (f' := F2) (g := fun a => .ok (toU8 (FloatOps.round (a *. num 255)))) (g' := fun a => toU8 (FloatOps.round (a *. num 255)))
    (fun a b c => by
      have : ∃ x y z, hsvToRgbF32Pixel [a, b, c] = .ok [x, y, z] := by
        unfold hsvToRgbF32Pixel
        simp only [idx_some (l := [a, b, c]) (i := 1) (a := b) rfl, idx_some (l := [a, b, c]) (i := 2) (a := c) rfl,
          idx_some (l := [a, b, c]) (i := 0) (a := a) rfl, ok_bind]
        repeat' split
        all_goals exact ⟨_, _, _, rfl⟩
      obtain ⟨x, y, z, e⟩ := this
      simp only [F2, e, ok_bind]
      exact ⟨rfl, rfl⟩) (fun _ => rfl)
  refine ⟨out, e2, ho.wf, ho.info_eq, fun x y hx hy => ⟨?_, ?_⟩⟩
  · obtain ⟨⟨a, b, c, e, i1, i2, i3⟩, hH, hS, hV⟩ := hin x y hx hy
    obtain ⟨r, g, b', eb, hr⟩ := c125_back_pixel a b c i1 i2 i3 hH.1 hH.2 hS.1 hS.2 hV.1 hV.2
    have hc := ho.colour x y hx hy
    have k2 : F2 [a, b, c] = [r, g, b'] := by simp only [F2, eb]
    rw [e, k2] at hc
    exact ⟨r, g, b', hc, hr⟩
  · rw [ho.alpha x y hx hy, List.forall₂_map_left_iff]
    exact List.forall₂_same.2 fun c _ A hA a0 a1 => alpha_round hA a0 a1

/-- the hypotheses are met: the forward conversion of any byte image yields such an image -/
example (P : Profile) : letI := trivialLibm f32
    ∃ (mid : Image F32) (out : Image UInt8), rgbToHsvF32 P demoA = .ok mid ∧ hsvToRgbF32 P mid = .ok out ∧
      out.info = demoA.info := by
  let := trivialLibm f32
  obtain ⟨mid, e1, w, ei, hp⟩ := c125_forward P demoA demoA_WF (by decide) (by decide)
  have hx : ∀ x y, ∃ a S V : Rat, x < demoA.info.width → y < demoA.info.height →
      (∃ h s v, demoA.info.colour (mid.px x y) = [h, s, v] ∧ Flt.Is h a ∧ Flt.Is s S ∧ Flt.Is v V) ∧
      (0 ≤ a ∧ a < 1) ∧ (0 ≤ S ∧ S ≤ 1) ∧ (0 ≤ V ∧ V ≤ 1) := by
    intro x y
    by_cases hxy : x < demoA.info.width ∧ y < demoA.info.height
    · obtain ⟨r, g, b, h, s, v, a, S, V, -, e, i1, i2, i3, hn⟩ := (hp x y hxy.1 hxy.2).1
      exact ⟨a, S, V, fun _ _ => ⟨⟨h, s, v, e, i1, i2, i3⟩, hn.hue_range, hn.sat_range, hn.val_range⟩⟩
    · exact ⟨0, 0, 0, fun h1 h2 => absurd ⟨h1, h2⟩ hxy⟩
  choose H S V hHSV using hx
  obtain ⟨out, e2, -, ei2, -⟩ := c125_back P mid w (by rw [ei]; decide) (by rw [ei]; decide) H S V (by rw [ei]; exact hHSV)
  exact ⟨mid, out, e1, e2, ei2.trans ei⟩
end Imgproc

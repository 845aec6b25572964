import Verif.Proofs.Approx
import Verif.Props.HsvReal
import Verif.Props.TrimMean2
/-! Property C34: accuracy of the f32 HSV round trip. -/
namespace Imgproc
open FloatOps
variable [Libm f32]

/-- clamp to [0,1] -/
def unitClamp (x : Rat) : Rat := max 0 (min 1 x)
/-- share of the chroma missing from red, green and blue at hue `x` (in sixths of a turn, `0 ≤ x < 6`) -/
def lossR (x : Rat) : Rat := unitClamp (min (x - 1) (5 - x))
def lossG (x : Rat) : Rat := unitClamp (max (1 - x) (x - 3))
def lossB (x : Rat) : Rat := unitClamp (max (3 - x) (x - 5))

omit [Libm f32] in
theorem unitClamp_lip {x y d : Rat} (h : |x - y| ≤ d) : |unitClamp x - unitClamp y| ≤ d := by
  unfold unitClamp
  refine le_trans (abs_max_sub_max_le_max _ _ _ _) (max_le (by simpa using le_trans (abs_nonneg _) h) ?_)
  refine le_trans (abs_min_sub_min_le_max _ _ _ _) (max_le (by simpa using le_trans (abs_nonneg _) h) h)
omit [Libm f32] in
theorem unitClamp_unit (x : Rat) : |unitClamp x| ≤ 1 := by
  unfold unitClamp
  rw [abs_of_nonneg (le_max_left _ _)]
  exact max_le (by norm_num) (min_le_left _ _)

omit [Libm f32] in
theorem loss_lip {x y d : Rat} (h : |x - y| ≤ d) :
    |lossR x - lossR y| ≤ d ∧ |lossG x - lossG y| ≤ d ∧ |lossB x - lossB y| ≤ d := by
  rw [abs_le] at h
  refine ⟨unitClamp_lip (le_trans (abs_min_sub_min_le_max _ _ _ _) (max_le ?_ ?_)),
    unitClamp_lip (le_trans (abs_max_sub_max_le_max _ _ _ _) (max_le ?_ ?_)),
    unitClamp_lip (le_trans (abs_max_sub_max_le_max _ _ _ _) (max_le ?_ ?_))⟩
  all_goals rw [abs_le]; constructor <;> linarith [h.1, h.2]

omit [Libm f32] in
theorem unitClamp_zero {x : Rat} (h : x ≤ 0) : unitClamp x = 0 := by
  unfold unitClamp; rw [max_eq_left (le_trans (min_le_right _ _) h)]
omit [Libm f32] in
theorem unitClamp_one {x : Rat} (h : 1 ≤ x) : unitClamp x = 1 := by
  unfold unitClamp; rw [min_eq_left h]; norm_num
omit [Libm f32] in
theorem unitClamp_id {x : Rat} (h0 : 0 ≤ x) (h1 : x ≤ 1) : unitClamp x = x := by
  unfold unitClamp; rw [min_eq_right h1, max_eq_right h0]

omit [Libm f32] in
theorem ucMin_l {a b c : Rat} (h : a ≤ b) (h0 : 0 ≤ a) (h1 : a ≤ 1) (e : a = c) : unitClamp (min a b) = c := by
  rw [min_eq_left h, unitClamp_id h0 h1, e]
omit [Libm f32] in
theorem ucMin_r {a b c : Rat} (h : b ≤ a) (h0 : 0 ≤ b) (h1 : b ≤ 1) (e : b = c) : unitClamp (min a b) = c := by
  rw [min_eq_right h, unitClamp_id h0 h1, e]
omit [Libm f32] in
theorem ucMax_l {a b c : Rat} (h : b ≤ a) (h0 : 0 ≤ a) (h1 : a ≤ 1) (e : a = c) : unitClamp (max a b) = c := by
  rw [max_eq_left h, unitClamp_id h0 h1, e]
omit [Libm f32] in
theorem ucMax_r {a b c : Rat} (h : a ≤ b) (h0 : 0 ≤ b) (h1 : b ≤ 1) (e : b = c) : unitClamp (max a b) = c := by
  rw [max_eq_right h, unitClamp_id h0 h1, e]
omit [Libm f32] in
theorem ucMin_0l {a b : Rat} (h : a ≤ 0) : unitClamp (min a b) = 0 := unitClamp_zero (le_trans (min_le_left _ _) h)
omit [Libm f32] in
theorem ucMin_0r {a b : Rat} (h : b ≤ 0) : unitClamp (min a b) = 0 := unitClamp_zero (le_trans (min_le_right _ _) h)
omit [Libm f32] in
theorem ucMin_1 {a b : Rat} (h : 1 ≤ a) (h' : 1 ≤ b) : unitClamp (min a b) = 1 := unitClamp_one (le_min h h')
omit [Libm f32] in
theorem ucMax_0 {a b : Rat} (h : a ≤ 0) (h' : b ≤ 0) : unitClamp (max a b) = 0 := unitClamp_zero (max_le h h')
omit [Libm f32] in
theorem ucMax_1l {a b : Rat} (h : 1 ≤ a) : unitClamp (max a b) = 1 := unitClamp_one (le_trans h (le_max_left _ _))
omit [Libm f32] in
theorem ucMax_1r {a b : Rat} (h : 1 ≤ b) : unitClamp (max a b) = 1 := unitClamp_one (le_trans h (le_max_right _ _))

omit [Libm f32] in
/-- the losses in each of the six sectors -/
theorem loss0 {x : Rat} (h0 : 0 ≤ x) (h1 : x ≤ 1) : lossR x = 0 ∧ lossG x = 1 - x ∧ lossB x = 1 :=
  ⟨ucMin_0l (by linarith), ucMax_l (by linarith) (by linarith) (by linarith) rfl, ucMax_1l (by linarith)⟩
omit [Libm f32] in
theorem loss1 {x : Rat} (h0 : 1 ≤ x) (h1 : x ≤ 2) : lossR x = x - 1 ∧ lossG x = 0 ∧ lossB x = 1 :=
  ⟨ucMin_l (by linarith) (by linarith) (by linarith) rfl, ucMax_0 (by linarith) (by linarith), ucMax_1l (by linarith)⟩
omit [Libm f32] in
theorem loss2 {x : Rat} (h0 : 2 ≤ x) (h1 : x ≤ 3) : lossR x = 1 ∧ lossG x = 0 ∧ lossB x = 3 - x :=
  ⟨ucMin_1 (by linarith) (by linarith), ucMax_0 (by linarith) (by linarith), ucMax_l (by linarith) (by linarith) (by linarith) rfl⟩
omit [Libm f32] in
theorem loss3 {x : Rat} (h0 : 3 ≤ x) (h1 : x ≤ 4) : lossR x = 1 ∧ lossG x = x - 3 ∧ lossB x = 0 :=
  ⟨ucMin_1 (by linarith) (by linarith), ucMax_r (by linarith) (by linarith) (by linarith) rfl, ucMax_0 (by linarith) (by linarith)⟩
omit [Libm f32] in
theorem loss4 {x : Rat} (h0 : 4 ≤ x) (h1 : x ≤ 5) : lossR x = 5 - x ∧ lossG x = 1 ∧ lossB x = 0 :=
  ⟨ucMin_r (by linarith) (by linarith) (by linarith) rfl, ucMax_1r (by linarith), ucMax_0 (by linarith) (by linarith)⟩
omit [Libm f32] in
theorem loss5 {x : Rat} (h0 : 5 ≤ x) (h1 : x ≤ 6) : lossR x = 0 ∧ lossG x = 1 ∧ lossB x = x - 5 :=
  ⟨ucMin_0r (by linarith), ucMax_1r (by linarith), ucMax_r (by linarith) (by linarith) (by linarith) rfl⟩

/-- one channel of the conversion back: `v (1 - s w) * 255` up to rounding -/
theorem chan_app {v s w : F32} {V S W : Rat} (hv : App v V (1 / 16777216)) (hs : App s S (600 / 16777216))
    (hw : App w W (1300 / 16777216)) (hV : |V| ≤ 1) (hS : |S| ≤ 1) (hW : |W| ≤ 1) (hSW : |1 - S * W| ≤ 1) :
    App (v *. (num 1 -. s *. w) *. num 255) (V * (1 - S * W) * 255) (1 / 20) := by
  have h1 := App.mul hs hw hS hW (e' := 1902 / 16777216) (by norm_num) (by norm_num) (by norm_num)
  have n1 : App (num 1 : F32) 1 0 := by simpa using App.num (n := 1) (by decide)
  have n255 : App (num 255 : F32) 255 0 := by simpa using App.num (n := 255) (by decide)
  have h2 := App.sub n1 h1 (B := 1) (e' := 1904 / 16777216) (by norm_num) hSW (by norm_num) (by norm_num)
  have h3 := App.mul hv h2 hV hSW (e' := 1907 / 16777216) (by norm_num) (by norm_num) (by norm_num)
  have hb : |V * (1 - S * W)| ≤ 1 := by
    rw [abs_mul]; exact mul_le_one₀ hV (abs_nonneg _) hSW
  exact App.mul h3 n255 hb (C := 255) (by norm_num) (by norm_num) (by norm_num) (by norm_num)

theorem chan_full {v : F32} {V : Rat} (hv : App v V (1 / 16777216)) (hV : |V| ≤ 1) :
    App (v *. num 255) (V * 255) (1 / 20) := by
  have n255 : App (num 255 : F32) 255 0 := by simpa using App.num (n := 255) (by decide)
  exact App.mul hv n255 hV (C := 255) (by norm_num) (by norm_num) (by norm_num) (by norm_num)

theorem chan_least {v s : F32} {V S : Rat} (hv : App v V (1 / 16777216)) (hs : App s S (600 / 16777216))
    (hV : |V| ≤ 1) (hS : |1 - S| ≤ 1) : App (v *. (num 1 -. s) *. num 255) (V * (1 - S) * 255) (1 / 20) := by
  have n1 : App (num 1 : F32) 1 0 := by simpa using App.num (n := 1) (by decide)
  have n255 : App (num 255 : F32) 255 0 := by simpa using App.num (n := 255) (by decide)
  have h2 := App.sub n1 hs (B := 1) (e' := 1904 / 16777216) (by norm_num) hS (by norm_num) (by norm_num)
  have h3 := App.mul hv h2 hV hS (e' := 1907 / 16777216) (by norm_num) (by norm_num) (by norm_num)
  have hb : |V * (1 - S)| ≤ 1 := by
    rw [abs_mul]; exact mul_le_one₀ hV (abs_nonneg _) hS
  exact App.mul h3 n255 hb (C := 255) (by norm_num) (by norm_num) (by norm_num) (by norm_num)

omit [Libm f32] in
theorem App.shift {x : F32} {V S L L' : Rat} (h : App x (V * (1 - S * L) * 255) (1 / 20)) (hV : |V| ≤ 1) (hS : |S| ≤ 1)
    (hL : |L - L'| ≤ 1300 / 16777216) : App x (V * (1 - S * L') * 255) (1 / 10) := by
  obtain ⟨a, ha, h⟩ := h
  refine ⟨a, ha, ?_⟩
  have e : a - V * (1 - S * L') * 255 = (a - V * (1 - S * L) * 255) + -(V * S * (L - L') * 255) := by ring
  have b : |V * S * (L - L') * 255| ≤ 1 / 20 := by
    rw [abs_mul, abs_mul, abs_mul]
    have h1 : |V| * |S| ≤ 1 := mul_le_one₀ hV (abs_nonneg _) hS
    have h2 : |V| * |S| * |L - L'| ≤ 1300 / 16777216 :=
      le_trans (mul_le_mul h1 hL (abs_nonneg _) zero_le_one) (by norm_num)
    have : |(255 : Rat)| = 255 := by norm_num
    rw [this]
    have : (1300 / 16777216 : Rat) * 255 ≤ 1 / 20 := by norm_num
    nlinarith
  rw [e]
  refine le_trans (abs_add_le _ _) ?_
  rw [abs_neg]; linarith

theorem back_app {h s v : F32} {a xs S V sq : Rat} (hh : h.Is a) (ha : 0 ≤ a) (hlt : 6 * a ≤ 6 - 1 / 1000)
    (hx : |6 * a - xs| ≤ 1250 / 16777216) (hsq : s.Is sq) (hs0 : sq ≠ 0) (hs : App s S (600 / 16777216))
    (hv : App v V (1 / 16777216)) (V0 : 0 ≤ V) (V1 : V ≤ 1) (S0 : 0 ≤ S) (S1 : S ≤ 1) :
    ∃ X Y Z : F32, hsvToRgbF32Pixel [h, s, v] = .ok [toU8 X, toU8 Y, toU8 Z] ∧
      App X (V * (1 - S * lossR xs) * 255) (1 / 10) ∧ App Y (V * (1 - S * lossG xs) * 255) (1 / 10) ∧
      App Z (V * (1 - S * lossB xs) * 255) (1 / 10) := by
  have aV : |V| ≤ 1 := abs_le.2 ⟨by linarith, V1⟩
  have aS : |S| ≤ 1 := abs_le.2 ⟨by linarith, S1⟩
  have a1S : |1 - S| ≤ 1 := abs_le.2 ⟨by linarith, by linarith⟩
  have aSW : ∀ {W : Rat}, 0 ≤ W → W ≤ 1 → |W| ≤ 1 ∧ |1 - S * W| ≤ 1 := by
    intro W w0 w1
    have := mul_nonneg S0 w0
    have := mul_le_one₀ S1 w0 w1
    exact ⟨abs_le.2 ⟨by linarith, w1⟩, abs_le.2 ⟨by linarith, by linarith⟩⟩
  -- six times the hue
  have i6 := mul_is hh (num32 (n := 6) (by decide)) (ovf_between (by push_cast; linarith) (by push_cast; linarith))
  push_cast at i6
  have r0 : 0 ≤ f32.rnd (a * 6) := le_rndQ e0.1 (by linarith)
  have re := rnd_abs_err (q := a * 6) (B := 6) (abs_le.2 ⟨by linarith, by linarith⟩) (by norm_num)
  generalize f32.rnd (a * 6) = q at *
  have hq6 : q < 6 := by rw [abs_le] at re; linarith [re.2]
  have hqx : |q - xs| ≤ 1300 / 16777216 := by
    rw [show q - xs = (q - a * 6) + (6 * a - xs) by ring]
    refine le_trans (abs_add_le _ _) ?_
    linarith
  obtain ⟨lR, lG, lB⟩ := loss_lip hqx
  have fl0 := rat_floor_le q
  have fl1 := rat_lt_floor q
  have hz0 : (0 : Int) ≤ q.floor := rat_le_floor.2 (by simpa using r0)
  have hz6 : q.floor < 6 := by
    have : (q.floor : Rat) < ((6 : Int) : Rat) := by push_cast; linarith
    exact_mod_cast this
  have ifl := floor_is i6 (f32_int (by rw [abs_of_nonneg hz0]; omega))
  obtain ⟨k, hk⟩ : ∃ k : Nat, q.floor = k := ⟨q.floor.toNat, by omega⟩
  rw [hk] at fl0 fl1 ifl
  push_cast at fl0 fl1 ifl
  have hkk : toU8 (FloatOps.floor (h *. num 6)) = UInt8.ofNat k := toU8_of_is ifl (by omega)
  have hf : App (h *. num 6 -. FloatOps.floor (h *. num 6)) (q - k) (2 / 16777216) :=
    App.sub (App.exact i6) (App.exact ifl) (B := 1) (by norm_num) (abs_le.2 ⟨by linarith, by linarith⟩) (by norm_num) (by norm_num)
  have n1 : App (num 1 : F32) 1 0 := by simpa using App.num (n := 1) (by decide)
  have hf' : App (num 1 -. (h *. num 6 -. FloatOps.floor (h *. num 6))) (1 - (q - k)) (4 / 16777216) :=
    App.sub n1 hf (B := 1) (by norm_num) (abs_le.2 ⟨by linarith, by linarith⟩) (by norm_num) (by norm_num)
  have g1 := aSW (W := q - k) (by linarith) (by linarith)
  have g2 := aSW (W := 1 - (q - k)) (by linarith) (by linarith)
  -- the four bytes
  have cV := chan_full hv aV
  have cP := chan_least hv hs aV a1S
  have cQ := chan_app hv hs (hf.mono (by norm_num)) aV aS g1.1 g1.2
  have cT := chan_app hv hs (hf'.mono (by norm_num)) aV aS g2.1 g2.2
  have fV : ∀ {L L' : Rat}, L = 0 → |L - L'| ≤ 1300 / 16777216 → App (v *. num 255) (V * (1 - S * L') * 255) (1 / 10) := by
    intro L L' h0 hl
    exact App.shift (L := L) (by rw [h0]; simpa using cV) aV aS hl
  have fP : ∀ {L L' : Rat}, L = 1 → |L - L'| ≤ 1300 / 16777216 → App (v *. (num 1 -. s) *. num 255) (V * (1 - S * L') * 255) (1 / 10) := by
    intro L L' h0 hl
    exact App.shift (L := L) (by rw [h0]; simpa using cP) aV aS hl
  have fQ : ∀ {L L' : Rat}, L = q - k → |L - L'| ≤ 1300 / 16777216 →
      App (v *. (num 1 -. s *. (h *. num 6 -. FloatOps.floor (h *. num 6))) *. num 255) (V * (1 - S * L') * 255) (1 / 10) := by
    intro L L' h0 hl
    exact App.shift (L := L) (by rw [h0]; exact cQ) aV aS hl
  have fT : ∀ {L L' : Rat}, L = 1 - (q - k) → |L - L'| ≤ 1300 / 16777216 →
      App (v *. (num 1 -. s *. (num 1 -. (h *. num 6 -. FloatOps.floor (h *. num 6)))) *. num 255) (V * (1 - S * L') * 255) (1 / 10) := by
    intro L L' h0 hl
    exact App.shift (L := L) (by rw [h0]; exact cT) aV aS hl
  unfold hsvToRgbF32Pixel
  simp only [idx_some (l := [h, s, v]) (i := 1) (a := s) rfl, idx_some (l := [h, s, v]) (i := 2) (a := v) rfl,
    idx_some (l := [h, s, v]) (i := 0) (a := h) rfl, ok_bind]
  rw [if_neg (by rw [eq_is hsq (num32 (by decide)), decide_eq_true_eq]; simpa using hs0), hkk]
  have hk6 : k < 6 := by omega
  interval_cases k
  · obtain ⟨a1, a2, a3⟩ := loss0 (x := q) (by push_cast at fl0; linarith) (by push_cast at fl1; linarith)
    exact ⟨_, _, _, rfl, fV a1 lR, fT (by rw [a2]; push_cast; ring) lG, fP a3 lB⟩
  · obtain ⟨a1, a2, a3⟩ := loss1 (x := q) (by push_cast at fl0; linarith) (by push_cast at fl1; linarith)
    exact ⟨_, _, _, rfl, fQ (by rw [a1]; push_cast; ring) lR, fV a2 lG, fP a3 lB⟩
  · obtain ⟨a1, a2, a3⟩ := loss2 (x := q) (by push_cast at fl0; linarith) (by push_cast at fl1; linarith)
    exact ⟨_, _, _, rfl, fP a1 lR, fV a2 lG, fT (by rw [a3]; push_cast; ring) lB⟩
  · obtain ⟨a1, a2, a3⟩ := loss3 (x := q) (by push_cast at fl0; linarith) (by push_cast at fl1; linarith)
    exact ⟨_, _, _, rfl, fP a1 lR, fQ (by rw [a2]; push_cast; ring) lG, fV a3 lB⟩
  · obtain ⟨a1, a2, a3⟩ := loss4 (x := q) (by push_cast at fl0; linarith) (by push_cast at fl1; linarith)
    exact ⟨_, _, _, rfl, fT (by rw [a1]; push_cast; ring) lR, fP a2 lG, fV a3 lB⟩
  · obtain ⟨a1, a2, a3⟩ := loss5 (x := q) (by push_cast at fl0; linarith) (by push_cast at fl1; linarith)
    exact ⟨_, _, _, rfl, fV a1 lR, fP a2 lG, fQ (by rw [a3]; push_cast; ring) lB⟩

/-! exact hue, in sixths of a turn, and the three channels it stands for -/

omit [Libm f32] in
theorem hue_red {R G B m : Rat} (h1 : G ≤ R) (h2 : B ≤ R) (hm : m = min G B) (hp : 0 < R - m) :
    let xs := 6 * (if (G - B) / (R - m) / 6 < 0 then (G - B) / (R - m) / 6 + 1 else (G - B) / (R - m) / 6)
    R - (R - m) * lossR xs = R ∧ R - (R - m) * lossG xs = G ∧ R - (R - m) * lossB xs = B := by
  intro xs
  have c : (R - m) * ((G - B) / (R - m)) = G - B := mul_div_cancel₀ _ hp.ne'
  rcases le_or_gt B G with h | h
  · rw [min_eq_right h] at hm
    have d0 : 0 ≤ (G - B) / (R - m) := div_nonneg (by linarith) hp.le
    have d1 : (G - B) / (R - m) ≤ 1 := by rw [div_le_one hp]; linarith
    have e : xs = (G - B) / (R - m) := by simp only [xs]; rw [if_neg (by linarith)]; ring
    obtain ⟨a1, a2, a3⟩ := loss0 (x := xs) (by linarith) (by linarith)
    rw [a1, a2, a3, e]
    refine ⟨by ring, ?_, by linarith⟩
    rw [mul_sub, c]; linarith
  · rw [min_eq_left h.le] at hm
    have d0 : (G - B) / (R - m) < 0 := div_neg_of_neg_of_pos (by linarith) hp
    have d1 : -1 ≤ (G - B) / (R - m) := by rw [le_div_iff₀ hp]; linarith
    have e : xs = (G - B) / (R - m) + 6 := by simp only [xs]; rw [if_pos (by linarith)]; ring
    obtain ⟨a1, a2, a3⟩ := loss5 (x := xs) (by linarith) (by linarith)
    rw [a1, a2, a3, e]
    refine ⟨by ring, by linarith, ?_⟩
    rw [mul_sub, mul_add, c]; linarith

omit [Libm f32] in
theorem hue_green {R G B m : Rat} (h1 : R ≤ G) (h2 : B ≤ G) (hm : m = min R B) (hp : 0 < G - m) :
    let xs := (B - R) / (G - m) + 2
    G - (G - m) * lossR xs = R ∧ G - (G - m) * lossG xs = G ∧ G - (G - m) * lossB xs = B := by
  intro xs
  have c : (G - m) * ((B - R) / (G - m)) = B - R := mul_div_cancel₀ _ hp.ne'
  have d1 : (B - R) / (G - m) ≤ 1 := by
    rw [div_le_one hp]; linarith [min_le_left R B]
  have d2 : -1 ≤ (B - R) / (G - m) := by rw [le_div_iff₀ hp]; linarith [min_le_right R B]
  rcases le_or_gt R B with h | h
  · rw [min_eq_left h] at hm
    have d0 : 0 ≤ (B - R) / (G - m) := div_nonneg (by linarith) hp.le
    obtain ⟨a1, a2, a3⟩ := loss2 (x := xs) (by linarith) (by linarith)
    rw [a1, a2, a3]
    refine ⟨by linarith, by ring, ?_⟩
    simp only [xs]
    rw [mul_sub, mul_add, c]; linarith
  · rw [min_eq_right h.le] at hm
    have d0 : (B - R) / (G - m) < 0 := div_neg_of_neg_of_pos (by linarith) hp
    obtain ⟨a1, a2, a3⟩ := loss1 (x := xs) (by linarith) (by linarith)
    rw [a1, a2, a3]
    refine ⟨?_, by ring, by linarith⟩
    simp only [xs]
    rw [mul_sub, mul_add, c]; linarith

omit [Libm f32] in
theorem hue_blue {R G B m : Rat} (h1 : R ≤ B) (h2 : G ≤ B) (hm : m = min R G) (hp : 0 < B - m) :
    let xs := (R - G) / (B - m) + 4
    B - (B - m) * lossR xs = R ∧ B - (B - m) * lossG xs = G ∧ B - (B - m) * lossB xs = B := by
  intro xs
  have c : (B - m) * ((R - G) / (B - m)) = R - G := mul_div_cancel₀ _ hp.ne'
  have d1 : (R - G) / (B - m) ≤ 1 := by
    rw [div_le_one hp]; linarith [min_le_right R G]
  have d2 : -1 ≤ (R - G) / (B - m) := by rw [le_div_iff₀ hp]; linarith [min_le_left R G]
  rcases le_or_gt G R with h | h
  · rw [min_eq_right h] at hm
    have d0 : 0 ≤ (R - G) / (B - m) := div_nonneg (by linarith) hp.le
    obtain ⟨a1, a2, a3⟩ := loss4 (x := xs) (by linarith) (by linarith)
    rw [a1, a2, a3]
    refine ⟨?_, by linarith, by ring⟩
    simp only [xs]
    rw [mul_sub, mul_add, c]; linarith
  · rw [min_eq_left h.le] at hm
    have d0 : (R - G) / (B - m) < 0 := div_neg_of_neg_of_pos (by linarith) hp
    obtain ⟨a1, a2, a3⟩ := loss3 (x := xs) (by linarith) (by linarith)
    rw [a1, a2, a3]
    refine ⟨by linarith, ?_, by ring⟩
    simp only [xs]
    rw [mul_sub, mul_add, c]; linarith

/-- the hue wrap on an approximately known hue -/
theorem wrap_app {x : F32} {H : Rat} (hx : App x H (173 / 16777216)) (h1 : -(1 / 6) ≤ H) (h2 : H ≤ 5 / 6)
    (hn : H < 0 → H ≤ -(1 / 1530)) (hz : 0 ≤ H → ∃ a, x.Is a ∧ 0 ≤ a) :
    ∃ a, (if x <. num 0 then x +. num 1 else if x >. num 1 then x -. num 1 else x).Is a ∧ 0 ≤ a ∧ 6 * a ≤ 6 - 1 / 1000 ∧
      |6 * a - 6 * (if H < 0 then H + 1 else H)| ≤ 1250 / 16777216 := by
  obtain ⟨q, hq, he⟩ := hx
  have z0 := num32 (n := 0) (by decide)
  have z1 := num32 (n := 1) (by decide)
  rw [abs_le] at he
  by_cases h0 : H < 0
  · have := hn h0
    have q0 : q < 0 := by linarith [he.2]
    rw [if_pos (by rw [lt_is hq z0]; simpa using q0), if_pos h0]
    have ia := add_is hq z1 (ovf_between (by push_cast; linarith [he.1]) (by push_cast; linarith))
    push_cast at ia
    have re := rnd_abs_err (q := q + 1) (B := 1) (abs_le.2 ⟨by linarith [he.1], by linarith⟩) (by norm_num)
    rw [abs_le] at re
    refine ⟨_, ia, by linarith [re.1, he.1], by linarith [re.2, he.2], ?_⟩
    rw [abs_le]; constructor <;> linarith [re.1, re.2, he.1, he.2]
  · obtain ⟨a, ha, a0⟩ := hz (by linarith)
    obtain rfl := ha.unique hq
    rw [if_neg (by rw [lt_is hq z0]; simpa using a0), if_neg (by
      rw [show (x >. num 1) = (num 1 <. x) from rfl, lt_is z1 hq]
      simp only [decide_eq_true_eq]; push_cast; linarith [he.2]), if_neg h0]
    refine ⟨_, hq, a0, by linarith [he.2], ?_⟩
    rw [abs_le]; constructor <;> linarith [he.1, he.2]

/-- six times the exact hue of a byte colour that is not grey -/
def hueQ (r g b : UInt8) : Rat :=
  let mx := max (max r g) b
  let C : Rat := mx.toNat - (min (min r g) b).toNat
  if mx = r then
    6 * (if ((g.toNat : Rat) - b.toNat) / C / 6 < 0 then ((g.toNat : Rat) - b.toNat) / C / 6 + 1 else ((g.toNat : Rat) - b.toNat) / C / 6)
  else if mx = g then ((b.toNat : Rat) - r.toNat) / C + 2 else ((r.toNat : Rat) - g.toNat) / C + 4

theorem fwd_app (r g b : UInt8) (hne : ¬ (r = g ∧ g = b)) :
    ∃ (h s v : F32) (a xs S V sq : Rat), rgbToHsvF32Pixel [r, g, b] = .ok [h, s, v] ∧ h.Is a ∧ 0 ≤ a ∧
      6 * a ≤ 6 - 1 / 1000 ∧ |6 * a - xs| ≤ 1250 / 16777216 ∧ s.Is sq ∧ sq ≠ 0 ∧ App s S (600 / 16777216) ∧
      App v V (1 / 16777216) ∧ 0 ≤ V ∧ V ≤ 1 ∧ 0 ≤ S ∧ S ≤ 1 ∧ V * (1 - S * lossR xs) * 255 = r.toNat ∧
      V * (1 - S * lossG xs) * 255 = g.toNat ∧ V * (1 - S * lossB xs) * 255 = b.toNat ∧ xs = hueQ r g b ∧
      V = ((max (max r g) b).toNat : Rat) / 255 ∧ s = ofU8 (max (max r g) b - min (min r g) b) /. num 255 /. (ofU8 (max (max r g) b) /. num 255) ∧
      v = ofU8 (max (max r g) b) /. num 255 := by
  set mx := max (max r g) b with hmx
  set mn := min (min r g) b with hmn
  have emx : mx.toNat = max (max r.toNat g.toNat) b.toNat := by rw [hmx, u8_max_toNat, u8_max_toNat]
  have emn : mn.toNat = min (min r.toNat g.toNat) b.toNat := by rw [hmn, u8_min_toNat, u8_min_toNat]
  have hle : mn ≤ mx := by rw [UInt8.le_iff_toNat_le, emx, emn]; omega
  have hsub : (mx - mn).toNat = mx.toNat - mn.toNat := UInt8.toNat_sub_of_le _ _ hle
  have lmx := mx.toNat_lt
  have hlt : mn.toNat < mx.toNat := by
    rcases Nat.lt_or_ge mn.toNat mx.toNat with h | h
    · exact h
    · exfalso; apply hne
      rw [← UInt8.toNat_inj, ← UInt8.toNat_inj]; omega
  have csub : (((mx - mn).toNat : Nat) : Rat) = mx.toNat - mn.toNat := by
    rw [hsub, Nat.cast_sub hlt.le]
  have cC := App.byte (mx - mn)
  rw [csub] at cC
  have cV := App.byte mx
  have C1 : (1 : Rat) ≤ (mx.toNat : Rat) - mn.toNat := by
    rw [le_sub_iff_add_le]; exact_mod_cast (by omega : 1 + mn.toNat ≤ mx.toNat)
  have M1 : (1 : Rat) ≤ mx.toNat := by exact_mod_cast (by omega : 1 ≤ mx.toNat)
  have M255 : (mx.toNat : Rat) ≤ 255 := by exact_mod_cast (by omega : mx.toNat ≤ 255)
  have m0 : (0 : Rat) ≤ mn.toNat := by positivity
  have hmx0 : mx ≠ 0 := by intro h; rw [h] at hlt; simp at hlt
  have hrange : ((ofU8 (mx - mn) /. num 255 : F32) ==. num 0) = false := by
    obtain ⟨c, hc, hc'⟩ := cC
    rw [eq_is hc (num32 (by decide)), decide_eq_false_iff_not]
    rw [abs_le] at hc'
    have : (1 : Rat) / 255 ≤ ((mx.toNat : Rat) - mn.toNat) / 255 := by
      rw [div_le_div_iff_of_pos_right (by norm_num)]; exact C1
    push_cast
    intro h0; rw [h0] at hc'; linarith [hc'.1]
  have hS : App (ofU8 (mx - mn) /. num 255 /. (ofU8 mx /. num 255) : F32) (((mx.toNat : Rat) - mn.toNat) / mx.toNat) (600 / 16777216) := by
    have := App.div cC cV (L := 1 / 255) (e' := 600 / 16777216) (by
      rw [abs_of_nonneg (by apply div_nonneg <;> linarith), div_le_div_iff_of_pos_right (by norm_num)]; linarith)
      (by rw [div_le_div_iff_of_pos_right (by norm_num)]; exact M1) (by norm_num) (by norm_num) (by norm_num)
    rwa [div_div_div_cancel_right₀ (by norm_num)] at this
  have S0 : 1 / 255 ≤ ((mx.toNat : Rat) - mn.toNat) / mx.toNat := by
    rw [div_le_div_iff₀ (by norm_num) (by linarith)]; linarith
  have S1 : ((mx.toNat : Rat) - mn.toNat) / mx.toNat ≤ 1 := by rw [div_le_one (by linarith)]; linarith
  -- the ratio of channel differences
  have hd : ∀ a c : UInt8, mn.toNat ≤ a.toNat → a.toNat ≤ mx.toNat → mn.toNat ≤ c.toNat → c.toNat ≤ mx.toNat →
      App ((ofU8 a /. num 255 -. ofU8 c /. num 255 : F32) /. (ofU8 (mx - mn) /. num 255))
        (((a.toNat : Rat) - c.toNat) / (mx.toNat - mn.toNat)) (1025 / 16777216) ∧
      -1 ≤ ((a.toNat : Rat) - c.toNat) / (mx.toNat - mn.toNat) ∧ ((a.toNat : Rat) - c.toNat) / (mx.toNat - mn.toNat) ≤ 1 := by
    intro a c h1 h2 h3 h4
    have h1 : (mn.toNat : Rat) ≤ a.toNat := by exact_mod_cast h1
    have h2 : (a.toNat : Rat) ≤ mx.toNat := by exact_mod_cast h2
    have h3 : (mn.toNat : Rat) ≤ c.toNat := by exact_mod_cast h3
    have h4 : (c.toNat : Rat) ≤ mx.toNat := by exact_mod_cast h4
    have hb : |(a.toNat : Rat) / 255 - c.toNat / 255| ≤ (mx.toNat - mn.toNat) / 255 := by
      rw [← sub_div, abs_div, abs_of_pos (by norm_num : (0 : Rat) < 255), div_le_div_iff_of_pos_right (by norm_num), abs_le]
      constructor <;> linarith
    have hb1 : ((mx.toNat : Rat) - mn.toNat) / 255 ≤ 1 := by rw [div_le_one (by norm_num)]; linarith
    have s1 := App.sub (App.byte a) (App.byte c) (B := 1) (e' := 301 / 100 / 16777216) (by norm_num) (by linarith)
      (by norm_num) (by norm_num)
    have s2 := App.div s1 cC (L := 1 / 255) (e' := 1025 / 16777216) hb
      (by rw [div_le_div_iff_of_pos_right (by norm_num)]; exact C1) (by norm_num) (by norm_num) (by norm_num)
    rw [← sub_div, div_div_div_cancel_right₀ (by norm_num)] at s2
    refine ⟨s2, ?_, ?_⟩
    · rw [le_div_iff₀ (by linarith)]; linarith
    · rw [div_le_one (by linarith)]; linarith
  have back : ∀ L : Rat, (mx.toNat : Rat) / 255 * (1 - (mx.toNat - mn.toNat) / mx.toNat * L) * 255 = mx.toNat - (mx.toNat - mn.toNat) * L := by
    intro L
    have : (mx.toNat : Rat) ≠ 0 := by linarith
    field_simp
  -- the hue before wrapping
  have hue : ∃ xs, ∃ a, (let hue : F32 := (if mx = r then (ofU8 g /. num 255 -. ofU8 b /. num 255 : F32) /. (ofU8 (mx - mn) /. num 255)
          else if mx = g then (ofU8 b /. num 255 -. ofU8 r /. num 255 : F32) /. (ofU8 (mx - mn) /. num 255) +. num 2
          else (ofU8 r /. num 255 -. ofU8 g /. num 255 : F32) /. (ofU8 (mx - mn) /. num 255) +. num 4) /. num 6
        if hue <. num 0 then hue +. num 1 else if hue >. num 1 then hue -. num 1 else hue).Is a ∧ 0 ≤ a ∧
      6 * a ≤ 6 - 1 / 1000 ∧ |6 * a - xs| ≤ 1250 / 16777216 ∧
      mx.toNat - (mx.toNat - mn.toNat) * lossR xs = r.toNat ∧ mx.toNat - (mx.toNat - mn.toNat) * lossG xs = g.toNat ∧
      mx.toNat - (mx.toNat - mn.toNat) * lossB xs = b.toNat ∧ xs = hueQ r g b := by
    by_cases hr : mx = r
    · rw [if_pos hr]
      obtain ⟨d, d1, d2⟩ := hd g b (by omega) (by omega) (by omega) (by omega)
      have d6 := App.divN d (n := 6) (B := 1) (e' := 173 / 16777216) (by decide) (by decide)
        (by push_cast; rw [abs_le]; constructor <;> linarith) (by norm_num) (by norm_num) (by norm_num)
      push_cast at d6
      have em : mn.toNat = min g.toNat b.toNat := by have := congrArg UInt8.toNat hr; omega
      have id := hue_red (R := (mx.toNat : Rat)) (G := g.toNat) (B := b.toNat) (m := mn.toNat)
        (by exact_mod_cast (by omega : g.toNat ≤ mx.toNat)) (by exact_mod_cast (by omega : b.toNat ≤ mx.toNat))
        (by rw [em]; push_cast; rfl) (by linarith)
      obtain ⟨a, ia, a0, a6, ae⟩ := wrap_app d6 (by linarith) (by linarith)
        (by
          intro hn
          have hn : ((g.toNat : Rat) - b.toNat) / (mx.toNat - mn.toNat) < 0 := by linarith
          have hgb : (g.toNat : Rat) - b.toNat < 0 := by
            by_contra hc
            have := div_nonneg (not_lt.1 hc) (by linarith : (0 : Rat) ≤ (mx.toNat : Rat) - mn.toNat)
            linarith
          have hgb : g.toNat < b.toNat := by
            have : (g.toNat : Rat) < b.toNat := by linarith
            exact_mod_cast this
          have hgb : (g.toNat : Rat) + 1 ≤ b.toNat := by exact_mod_cast hgb
          have : ((g.toNat : Rat) - b.toNat) / (mx.toNat - mn.toNat) ≤ -(1 / 255) := by
            rw [div_le_iff₀ (by linarith)]; linarith
          linarith)
        (by
          intro hz
          rcases eq_or_ne g.toNat b.toNat with he | he
          · have he := UInt8.toNat_inj.1 he
            subst he
            have i1 := sub_is (byteDiv_is g) (byteDiv_is g) (f32_ovf (by simp))
            rw [sub_self, show f32.rnd 0 = 0 by simp [Fmt.rnd, rndQ_zero]] at i1
            obtain ⟨c, hc, hc'⟩ := cC
            have c0 : c ≠ 0 := by
              rw [abs_le] at hc'
              have : (1 : Rat) / 255 ≤ ((mx.toNat : Rat) - mn.toNat) / 255 := by
                rw [div_le_div_iff_of_pos_right (by norm_num)]; exact C1
              intro h0; rw [h0] at hc'; linarith [hc'.1]
            have i2 := div_is i1 hc c0 (f32_ovf (by simp))
            rw [zero_div, show f32.rnd 0 = 0 by simp [Fmt.rnd, rndQ_zero]] at i2
            have i3 := div_is i2 (num32 (n := 6) (by decide)) (by norm_num) (f32_ovf (by simp))
            rw [zero_div, show f32.rnd 0 = 0 by simp [Fmt.rnd, rndQ_zero]] at i3
            exact ⟨0, i3, le_refl _⟩
          · obtain ⟨a, ia, hae⟩ := d6
            refine ⟨a, ia, ?_⟩
            have hz : 0 ≤ ((g.toNat : Rat) - b.toNat) / (mx.toNat - mn.toNat) := by linarith
            have hgb : 0 ≤ (g.toNat : Rat) - b.toNat := by
              by_contra hc
              have := div_neg_of_neg_of_pos (not_le.1 hc) (by linarith : (0 : Rat) < (mx.toNat : Rat) - mn.toNat)
              linarith
            have hgb : b.toNat ≤ g.toNat := by
              have : (b.toNat : Rat) ≤ g.toNat := by linarith
              exact_mod_cast this
            have hgb : (b.toNat : Rat) + 1 ≤ g.toNat := by exact_mod_cast (by omega : b.toNat + 1 ≤ g.toNat)
            have : 1 / 255 ≤ ((g.toNat : Rat) - b.toNat) / (mx.toNat - mn.toNat) := by
              rw [div_le_div_iff₀ (by norm_num) (by linarith)]; linarith
            rw [abs_le] at hae
            linarith [hae.1])
      refine ⟨_, a, ia, a0, a6, ae, ?_⟩
      have hr' : (r.toNat : Rat) = mx.toNat := by rw [hr]
      rw [hr']
      exact ⟨id.1, id.2.1, id.2.2, by unfold hueQ; simp only [← hmx, ← hmn]; rw [if_pos hr]⟩
    · rw [if_neg hr]
      have hr' : mx.toNat ≠ r.toNat := fun h => hr (UInt8.toNat_inj.1 h)
      by_cases hg : mx = g
      · rw [if_pos hg]
        obtain ⟨d, d1, d2⟩ := hd b r (by omega) (by omega) (by omega) (by omega)
        have n2 : App (num 2 : F32) 2 0 := by simpa using App.num (n := 2) (by decide)
        have da := App.add d n2 (B := 5) (e' := 1031 / 16777216) (by norm_num) (by rw [abs_le]; constructor <;> linarith)
          (by norm_num) (by norm_num)
        have d6 := App.divN da (n := 6) (B := 1) (e' := 173 / 16777216) (by decide) (by decide)
          (by push_cast; rw [abs_le]; constructor <;> linarith) (by norm_num) (by norm_num) (by norm_num)
        push_cast at d6
        have em : mn.toNat = min r.toNat b.toNat := by have := congrArg UInt8.toNat hg; omega
        have id := hue_green (R := (r.toNat : Rat)) (G := mx.toNat) (B := b.toNat) (m := mn.toNat)
          (by exact_mod_cast (by omega : r.toNat ≤ mx.toNat)) (by exact_mod_cast (by omega : b.toNat ≤ mx.toNat))
          (by rw [em]; push_cast; rfl) (by linarith)
        obtain ⟨a, ia, a0, a6, ae⟩ := wrap_app d6 (by linarith) (by linarith) (by intro h; linarith)
          (by
            intro hz
            obtain ⟨a, ia, hae⟩ := d6
            rw [abs_le] at hae
            exact ⟨a, ia, by linarith [hae.1]⟩)
        rw [if_neg (by linarith), mul_div_cancel₀ _ (by norm_num : (6 : Rat) ≠ 0)] at ae
        refine ⟨_, a, ia, a0, a6, ae, ?_⟩
        have hg' : (g.toNat : Rat) = mx.toNat := by rw [hg]
        rw [hg']
        exact ⟨id.1, id.2.1, id.2.2, by unfold hueQ; simp only [← hmx, ← hmn]; rw [if_neg hr, if_pos hg]⟩
      · rw [if_neg hg]
        have hg' : mx.toNat ≠ g.toNat := fun h => hg (UInt8.toNat_inj.1 h)
        have hb : mx = b := UInt8.toNat_inj.1 (by omega)
        obtain ⟨d, d1, d2⟩ := hd r g (by omega) (by omega) (by omega) (by omega)
        have n4 : App (num 4 : F32) 4 0 := by simpa using App.num (n := 4) (by decide)
        have da := App.add d n4 (B := 5) (e' := 1031 / 16777216) (by norm_num) (by rw [abs_le]; constructor <;> linarith)
          (by norm_num) (by norm_num)
        have d6 := App.divN da (n := 6) (B := 1) (e' := 173 / 16777216) (by decide) (by decide)
          (by push_cast; rw [abs_le]; constructor <;> linarith) (by norm_num) (by norm_num) (by norm_num)
        push_cast at d6
        have em : mn.toNat = min r.toNat g.toNat := by have := congrArg UInt8.toNat hb; omega
        have id := hue_blue (R := (r.toNat : Rat)) (G := g.toNat) (B := mx.toNat) (m := mn.toNat)
          (by exact_mod_cast (by omega : r.toNat ≤ mx.toNat)) (by exact_mod_cast (by omega : g.toNat ≤ mx.toNat))
          (by rw [em]; push_cast; rfl) (by linarith)
        obtain ⟨a, ia, a0, a6, ae⟩ := wrap_app d6 (by linarith) (by linarith) (by intro h; linarith)
          (by
            intro hz
            obtain ⟨a, ia, hae⟩ := d6
            rw [abs_le] at hae
            exact ⟨a, ia, by linarith [hae.1]⟩)
        rw [if_neg (by linarith), mul_div_cancel₀ _ (by norm_num : (6 : Rat) ≠ 0)] at ae
        refine ⟨_, a, ia, a0, a6, ae, ?_⟩
        have hb' : (b.toNat : Rat) = mx.toNat := by rw [hb]
        rw [hb']
        exact ⟨id.1, id.2.1, id.2.2, by unfold hueQ; simp only [← hmx, ← hmn]; rw [if_neg hr, if_neg hg]⟩
  obtain ⟨xs, a, ia, a0, a6, ae, l1, l2, l3, l4⟩ := hue
  obtain ⟨sq, hsq, hse⟩ := hS
  refine ⟨_, _, _, a, xs, _, _, sq, ?_, ia, a0, a6, ae, hsq, ?_, ⟨sq, hsq, hse⟩, cV, by positivity, by rw [div_le_one (by norm_num)]; exact M255,
    by linarith, S1, ?_, ?_, ?_, l4, rfl, rfl, rfl⟩
  · unfold rgbToHsvF32Pixel
    simp only [idx_some (l := [r, g, b]) (i := 0) (a := r) rfl, idx_some (l := [r, g, b]) (i := 1) (a := g) rfl,
      idx_some (l := [r, g, b]) (i := 2) (a := b) rfl, ok_bind]
    rw [← hmx, ← hmn, hrange, if_pos hmx0]
    rfl
  · rw [abs_le] at hse; intro h0; rw [h0] at hse; linarith [hse.1]
  · rw [back]; exact l1
  · rw [back]; exact l2
  · rw [back]; exact l3

/-- **C34** (one pixel, accuracy) After `rgb_to_hsv_f32` and `hsv_to_rgb_f32` in IEEE single precision every colour
channel is the original byte or one less (the truncation can lose one step, never more, and nothing gets brighter). -/
theorem c34_accuracy_pixel (r g b : UInt8) :
    ∃ hsv : List F32, rgbToHsvF32Pixel [r, g, b] = .ok hsv ∧ ∃ r' g' b' : UInt8, hsvToRgbF32Pixel hsv = .ok [r', g', b'] ∧
      (r'.toNat ≤ r.toNat ∧ r.toNat ≤ r'.toNat + 1) ∧ (g'.toNat ≤ g.toNat ∧ g.toNat ≤ g'.toNat + 1) ∧
      (b'.toNat ≤ b.toNat ∧ b.toNat ≤ b'.toNat + 1) := by
  by_cases hne : r = g ∧ g = b
  · obtain ⟨h, s, v, ep, b1, b2, b3, hv, hgrey⟩ := c34_ranges r g b
    obtain ⟨r', g', b', eb, hmax, hs0⟩ := c34_back_pixel h s v b1 b2 b3
    refine ⟨_, ep, r', g', b', eb, ?_⟩
    obtain ⟨t1, t2, t3⟩ := hs0 (hgrey hne)
    obtain ⟨rfl, rfl⟩ := hne
    have hvb : toU8 (v *. num 255) = max (max r r) r := by rw [hv]; exact value_back _
    rw [max3_self] at hvb
    rw [hvb] at t1 t2 t3
    rw [t1, t2, t3]; omega
  · obtain ⟨h, s, v, a, xs, S, V, sq, e, ia, a0, a6, ae, isq, sq0, hs, hv, V0, V1, S0, S1, l1, l2, l3, -⟩ := fwd_app r g b hne
    obtain ⟨X, Y, Z, eb, aX, aY, aZ⟩ := back_app ia a0 a6 ae isq sq0 hs hv V0 V1 S0 S1
    rw [l1] at aX; rw [l2] at aY; rw [l3] at aZ
    have lr := r.toNat_lt
    have lg := g.toNat_lt
    have lb := b.toNat_lt
    exact ⟨_, e, _, _, _, eb, aX.toU8 (by norm_num) (by omega), aY.toU8 (by norm_num) (by omega), aZ.toU8 (by norm_num) (by omega)⟩

/-- **C34** (accuracy) In IEEE single precision `hsv_to_rgb_f32(rgb_to_hsv_f32(img))`, for every image with three colour
channels, has every colour channel equal to the original or one less, and the alpha channel unchanged. -/
theorem c34_accuracy (P : Profile) (img : Image UInt8) (h : img.WF)
    (hpos : 0 < img.info.width ∧ 0 < img.info.height) (h3 : img.info.colours = 3) :
    ∃ (mid : Image F32) (out : Image UInt8), rgbToHsvF32 P img = .ok mid ∧ hsvToRgbF32 P mid = .ok out ∧
      out.info = img.info ∧ ∀ x y, x < img.info.width → y < img.info.height →
        img.info.alphaOf (out.px x y) = img.info.alphaOf (img.px x y) ∧
        List.Forall₂ (fun v' v : UInt8 => v'.toNat ≤ v.toNat ∧ v.toNat ≤ v'.toNat + 1)
          (img.info.colour (out.px x y)) (img.info.colour (img.px x y)) := by
  let F1 : List UInt8 → List F32 := fun p => match rgbToHsvF32Pixel (F := F32) p with | .ok q => q | .error _ => []
  let F2 : List F32 → List UInt8 := fun p => match hsvToRgbF32Pixel (F := F32) p with | .ok q => q | .error _ => []
  obtain ⟨mid, e1, hm⟩ := h.CA.map3 P hpos h3 (S := F32)
    (f := fun channels out => do
      let p ← rgbToHsvF32Pixel channels
      .ok (out ++ p))
    (f' := F1) (g := fun a => .ok (ofU8 a /. num 255)) (g' := fun a => ofU8 a /. num 255)
    (fun a b c => ⟨rfl, rfl⟩) (fun _ => rfl)
  obtain ⟨out, e2, ho⟩ := hm.map3 P hpos h3 (S := UInt8)
    (f := fun channels out => do
      let p ← hsvToRgbF32Pixel channels
      .ok (out ++ p))
    (f' := F2) (g := fun a => .ok (toU8 (FloatOps.round (a *. num 255)))) (g' := fun a => toU8 (FloatOps.round (a *. num 255)))
    (fun a b c => by
      have : ∃ x y z, hsvToRgbF32Pixel [a, b, c] = .ok [x, y, z] := by
        unfold hsvToRgbF32Pixel
        simp only [idx_some (l := [a, b, c]) (i := 1) (a := b) rfl, idx_some (l := [a, b, c]) (i := 2) (a := c) rfl,
          idx_some (l := [a, b, c]) (i := 0) (a := a) rfl, ok_bind]
        repeat' split
        all_goals exact ⟨_, _, _, rfl⟩
      obtain ⟨x, y, z, e⟩ := this
      simp only [F2, e, ok_bind]
      exact ⟨rfl, rfl⟩) (fun _ => rfl)
  refine ⟨mid, out, e1, e2, ho.info_eq, fun x y hx hy => ?_⟩
  have hc := ho.colour x y hx hy
  have ha := ho.alpha x y hx hy
  obtain ⟨r, g, b, e⟩ := pixel3 h3 (Image.px_length h hx hy)
  obtain ⟨hsv, ef, r', g', b', eb, h1, h2, h3⟩ := c34_accuracy_pixel r g b
  have k1 : F1 [r, g, b] = hsv := by simp only [F1, ef]
  have k2 : F2 hsv = [r', g', b'] := by simp only [F2, eb]
  rw [e, k1, k2] at hc
  constructor
  · rw [ha, List.map_map]
    rw [show ((fun a => toU8 (FloatOps.round (a *. num 255))) ∘ fun a : UInt8 => (ofU8 a /. num 255 : F32)) = id from
      funext alpha_back_scaled, List.map_id]
  · rw [hc, e]
    exact .cons h1 (.cons h2 (.cons h3 .nil))

example (P : Profile) : letI := trivialLibm f32
    ∃ (mid : Image F32) (out : Image UInt8), rgbToHsvF32 P demoA = .ok mid ∧ hsvToRgbF32 P mid = .ok out ∧
      out.info = demoA.info := by
  letI := trivialLibm f32
  obtain ⟨mid, out, e1, e2, e3, -⟩ := c34_accuracy P demoA demoA_WF (by decide) (by decide)
  exact ⟨mid, out, e1, e2, e3⟩

/-- the result is exactly these bytes, as a Boolean the kernel can evaluate -/
def Res.isBytes (r : Res (List UInt8)) (l : List UInt8) : Bool := match r with | .ok a => a == l | .error _ => false
omit [Libm f32] in
theorem Res.isBytes_eq {r : Res (List UInt8)} {l : List UInt8} (h : r.isBytes l = true) : r = .ok l := by
  unfold Res.isBytes at h
  split at h
  · rw [eq_of_beq h]
  · cases h

set_option maxRecDepth 100000 in
/-- **C34** (counterexample) The bound is sharp: the colour (11, 7, 3) comes back as (11, 7, 2) whatever libm is used,
although exact arithmetic returns it unchanged. -/
theorem c34_not_lossless : ∃ hsv : List F32, rgbToHsvF32Pixel [11, 7, 3] = .ok hsv ∧ hsvToRgbF32Pixel hsv = .ok [11, 7, 2] :=
  ⟨_, rfl, Res.isBytes_eq (by kernel_eval)⟩
end Imgproc

import Verif.Spec.Demo
import Verif.Props.Summed
import Verif.Props.Filter2
import Verif.Model.Morphology
/-! Properties C72 to C76: binary morphology. -/
namespace Imgproc
open FloatOps

/-! ### specification -/

/-- spec: the pixel at `(x, y)` exists and is white -/
def IsWhite (img : Image UInt8) (x y : Nat) : Prop := ∀ P : Profile, img.getPixel P x y = .ok [255]
/-- spec: a one-channel image all of whose pixels are 0 or 255 -/
structure Binary (img : Image UInt8) : Prop where
  wf : img.WF
  channels : img.info.channels = 1
  alpha : img.info.alpha = false
  value : ∀ (P : Profile) (x y : Nat), x < img.info.width → y < img.info.height →
    img.getPixel P x y = .ok [0] ∨ img.getPixel P x y = .ok [255]

open Classical in
/-- spec: `out` is the binary image with header `info` whose white pixels are those in `S` -/
def Image.Draws (out : Image UInt8) (info : ImageInfo) (S : Nat → Nat → Prop) : Prop :=
  out.Shows info fun x y => [if S x y then 255 else 0]

/-- spec: every pixel of the `(2r+1) x (2r+1)` window around `(x, y)` lies in the image and is white -/
def Eroded (img : Image UInt8) (r x y : Nat) : Prop :=
  ∀ i j : Int, |i - x| ≤ r → |j - y| ≤ r → ∃ a b : Nat, i = a ∧ j = b ∧ IsWhite img a b
/-- spec: some pixel of the image in the `(2r+1) x (2r+1)` window around `(x, y)` is white -/
def Dilated (img : Image UInt8) (r x y : Nat) : Prop :=
  ∃ a b : Nat, |(a : Int) - x| ≤ r ∧ |(b : Int) - y| ≤ r ∧ IsWhite img a b

/-! ### windows -/

/-- first column of the window actually used by the code -/
def spanLo (r c : Nat) : Nat := if r ≤ c then c - r else c
/-- last column of the window actually used by the code -/
def spanHi (r n c : Nat) : Nat := if c + r < n then c + r else c

theorem spanLo_le (r c : Nat) : spanLo r c ≤ c := by unfold spanLo; split <;> omega
theorem le_spanHi (r n c : Nat) : c ≤ spanHi r n c := by unfold spanHi; split <;> omega
theorem spanHi_lt {r n c : Nat} (h : c < n) : spanHi r n c < n := by unfold spanHi; split <;> omega
theorem spanLo_le_spanHi (r n c : Nat) : spanLo r c ≤ spanHi r n c := (spanLo_le r c).trans (le_spanHi r n c)

theorem morphSpan_ok {P : Profile} {c n r : Nat} (hn : n < U32SIZE) (hr : r ≤ n) :
    morphSpan P c n r = .ok (spanLo r c, spanHi r n c) := by
  unfold morphSpan spanLo spanHi
  rw [u32Sub_ok hr, ok_bind]
  by_cases h : c < n - r
  · rw [if_pos h, u32Add_ok (by omega), ok_bind, if_pos (show c + r < n by omega)]
  · rw [if_neg h, ok_bind, if_neg (show ¬ c + r < n by omega)]

section
variable {F : Type} [FloatOps F]

/-- what the window sum evaluates to, in the arithmetic at hand -/
def winExpr (f : Nat → Nat → F) (x0 y0 x1 y1 : Nat) : F :=
  satOf f (x1 + 1) (y1 + 1) -. satOf f (x1 + 1) y0 -. satOf f x0 (y1 + 1) +. satOf f x0 y0

theorem Image.write_self {T : Type} {img : Image T} (h : img.WF) {x y : Nat} (hx : x < img.info.width)
    (hy : y < img.info.height) : img.write (y * img.info.width + x) (img.px x y) = img := by
  refine Image.ext_px (Image.write_WF h (row_lt hx hy) (Image.px_length h hx hy)) h rfl fun x' y' hx' hy' => ?_
  rw [Image.px_write h hx hy hx' hy' (Image.px_length h hx hy)]
  split
  · next e => rw [e.1, e.2]
  · rfl

theorem imageU8ToFloat_shows (P : Profile) {img : Image UInt8} (h : img.WF) :
    ∃ f : Image F, imageU8ToFloat P img = .ok f ∧ f.Shows img.info fun x y => (img.px x y).map ofU8 :=
  ⟨_, Image.mapChannels_eq P h (f := fun c => .ok (ofU8 c)) (f' := ofU8) (fun _ _ => rfl), Image.mapChannels_shows h ofU8⟩

theorem morphScan_eq (P : Profile) {img : Image UInt8} (h : img.WF) (hch : img.info.channels = 1) {r : Nat}
    (hrw : r ≤ img.info.width) (hrh : r ≤ img.info.height) (f : Image F) (hf : f.WF) (hfi : f.info = img.info)
    (test : F → Bool) :
    ∃ table out, generateSummedAreaTable P f = .ok table ∧ morphScan P img r table test = .ok out ∧
      out.Shows img.info fun x y => [if test (winExpr (f.chan 0) (spanLo r x) (spanLo r y)
        (spanHi r img.info.width x) (spanHi r img.info.height y)) then 255 else 0] := by
  obtain ⟨table, et, ht⟩ := summedAreaTable_eq P f hf
  have hti : table.info = img.info := ht.info_eq.trans hfi
  obtain ⟨b, eb, hb⟩ := Image.blank_eq P u8Num h.infoWF
  have hbi := hb.info_eq
  obtain ⟨out, e, ho⟩ := Image.fillRect hb.WF 0 img.info.width 0 img.info.height (by rw [hbi]) (by rw [hbi])
    (fun x y => [if test (winExpr (f.chan 0) (spanLo r x) (spanLo r y)
        (spanHi r img.info.width x) (spanHi r img.info.height y)) then (255 : UInt8) else 0])
    (fun x y _ _ _ _ => by rw [hbi, hch]; rfl)
    (fun y x output => do
      let (xTop, xBot) ← morphSpan P x img.info.width r
      let (yTop, yBot) ← morphSpan P y img.info.height r
      let s ← rectangularIntensitySum P table xTop yTop xBot yBot
      let s0 ← idx s 0
      if test s0 then output.setPixel P x y [255] else .ok output)
    (by
      intro x y o _ hx _ hy ow oi op
      rw [hbi] at oi op
      rw [morphSpan_ok h.width hrw, ok_bind]
      dsimp only
      rw [morphSpan_ok h.height hrh, ok_bind]
      dsimp only
      rw [rectangularSum_eq P (T := fun c => satOf (f.chan c)) (by rw [ht.info_eq]; exact ht)
          (fun _ _ => satOf_zero_left _ _) (fun _ _ => satOf_zero_right _ _)
          (spanLo_le_spanHi _ _ _) (spanLo_le_spanHi _ _ _) (by rw [hti]; exact spanHi_lt hx)
          (by rw [hti]; exact spanHi_lt hy), ok_bind, hti, hch]
      show (do let s0 ← idx [winExpr (f.chan 0) _ _ _ _] 0; _) = _
      rw [show ∀ a : F, idx [a] 0 = .ok a from fun _ => rfl, ok_bind, hbi]
      by_cases hT : test (winExpr (f.chan 0) (spanLo r x) (spanLo r y)
        (spanHi r img.info.width x) (spanHi r img.info.height y)) = true
      · rw [if_pos hT, if_pos hT, Image.setPixel_eq P ow (by rw [oi]; exact hx) (by rw [oi]; exact hy)
          (by rw [oi, hch]; rfl), oi]
      · rw [if_neg hT, if_neg hT]
        have := Image.write_self ow (x := x) (y := y) (by rw [oi]; exact hx) (by rw [oi]; exact hy)
        rw [op x y hx hy, if_neg (by unfold FillDone; omega), hb.px_eq hx hy, oi, hch] at this
        exact congrArg _ this.symm)
  refine ⟨table, out, et, ?_, ?_⟩
  · unfold morphScan
    rw [eb, ok_bind]; exact e
  · rw [hbi] at ho
    exact ho.congr fun x y hx hy => by rw [if_pos ⟨Nat.zero_le _, hx, Nat.zero_le _, hy⟩]

theorem morphMaxSum_ok {P : Profile} {r : Nat} (h : (2 * r + 1) * (2 * r + 1) * 255 < U32SIZE) :
    morphMaxSum P r = .ok (ofNat ((2 * r + 1) * (2 * r + 1) * 255) : F) := by
  unfold morphMaxSum
  have h1 : 2 * r + 1 ≤ (2 * r + 1) * (2 * r + 1) := Nat.le_mul_self _
  rw [u32Mul_ok (by omega), ok_bind, u32Add_ok (by omega), ok_bind, u32Mul_ok (by omega), ok_bind,
    u32Mul_ok h, ok_bind]
end

/-! ### sums of bytes over rectangles -/
section
open Finset

/-- the byte at `(x, y)` of a one-channel image, as an integer -/
def Image.level (img : Image UInt8) (x y : Nat) : Int := (((img.px x y).getD 0 0).toNat : Int)

theorem Image.level_nonneg (img : Image UInt8) (x y : Nat) : 0 ≤ img.level x y := by unfold Image.level; omega
theorem Image.level_le (img : Image UInt8) (x y : Nat) : img.level x y ≤ 255 := by
  unfold Image.level
  have := ((img.px x y).getD 0 0).toNat_lt
  omega

theorem byte_white {img : Image UInt8} (h : img.WF) (hch : img.info.channels = 1) {x y : Nat}
    (hx : x < img.info.width) (hy : y < img.info.height) : img.level x y = 255 ↔ IsWhite img x y := by
  have hl := Image.px_length h hx hy
  rw [hch] at hl
  obtain ⟨a, ha⟩ := List.length_eq_one_iff.1 hl
  unfold IsWhite Image.level
  simp only [Image.getPixel_eq _ h hx hy, ha, List.getD_cons_zero]
  constructor
  · intro e P
    have : a.toNat = (255 : UInt8).toNat := by show a.toNat = 255; omega
    rw [UInt8.toNat_inj.1 this]
  · intro e
    have := e .debug
    injection this with this
    injection this with this
    rw [this]; rfl

theorem IsWhite.lt {img : Image UInt8} {x y : Nat} (h : IsWhite img x y) : x < img.info.width ∧ y < img.info.height := by
  by_contra hh
  have := h .debug
  rw [Image.getPixel_panic _ hh] at this
  cases this

theorem Binary.level {img : Image UInt8} (h : Binary img) {x y : Nat} (hx : x < img.info.width)
    (hy : y < img.info.height) : img.level x y = 0 ∨ img.level x y = 255 := by
  rcases h.value .debug x y hx hy with e | e <;>
  · rw [Image.getPixel_eq _ h.wf hx hy] at e
    injection e with e
    unfold Image.level
    rw [e]; decide

theorem rectSum_const (k : Int) (x0 y0 x1 y1 : Nat) :
    rectSum (fun _ _ => k) x0 y0 x1 y1 = ((x1 + 1 - x0 : Nat) : Int) * (((y1 + 1 - y0 : Nat) : Int) * k) := by
  unfold rectSum; simp [sum_const, Nat.card_Icc]

theorem rectSum_le {v w : Nat → Nat → Int} (h : ∀ i j, v i j ≤ w i j) (x0 y0 x1 y1 : Nat) :
    rectSum v x0 y0 x1 y1 ≤ rectSum w x0 y0 x1 y1 :=
  sum_le_sum fun i _ => sum_le_sum fun j _ => h i j

theorem rectSum_full {v : Nat → Nat → Int} (h : ∀ i j, v i j ≤ 255) {x0 y0 x1 y1 : Nat} :
    rectSum v x0 y0 x1 y1 = rectSum (fun _ _ => 255) x0 y0 x1 y1 ↔
      ∀ i j, x0 ≤ i → i ≤ x1 → y0 ≤ j → j ≤ y1 → v i j = 255 := by
  unfold rectSum
  rw [sum_eq_sum_iff_of_le fun i _ => sum_le_sum fun j _ => h i j]
  constructor
  · intro e i j hi hi' hj hj'
    have := e i (mem_Icc.2 ⟨hi, hi'⟩)
    rw [sum_eq_sum_iff_of_le fun j _ => h i j] at this
    exact this j (mem_Icc.2 ⟨hj, hj'⟩)
  · intro e i hi
    rw [mem_Icc] at hi
    refine sum_congr rfl fun j hj => ?_
    rw [mem_Icc] at hj
    exact e i j hi.1 hi.2 hj.1 hj.2

theorem rectSum_some {v : Nat → Nat → Int} {x0 y0 x1 y1 : Nat} (h0 : ∀ i j, 0 ≤ v i j)
    (h : ∀ i j, x0 ≤ i → i ≤ x1 → y0 ≤ j → j ≤ y1 → v i j = 0 ∨ v i j = 255) :
    255 ≤ rectSum v x0 y0 x1 y1 ↔ ∃ i j, x0 ≤ i ∧ i ≤ x1 ∧ y0 ≤ j ∧ j ≤ y1 ∧ v i j = 255 := by
  constructor
  · intro hs
    by_contra hn
    push Not at hn
    have : rectSum v x0 y0 x1 y1 = 0 := by
      unfold rectSum
      refine sum_eq_zero fun i hi => sum_eq_zero fun j hj => ?_
      rw [mem_Icc] at hi hj
      rcases h i j hi.1 hi.2 hj.1 hj.2 with e | e
      · exact e
      · exact absurd e (hn i j hi.1 hi.2 hj.1 hj.2)
    omega
  · rintro ⟨i, j, hi, hi', hj, hj', e⟩
    rw [← e]
    unfold rectSum
    refine le_trans ?_ (single_le_sum (f := fun i => ∑ j ∈ Icc y0 y1, v i j) (fun i _ => sum_nonneg fun j _ => h0 i j) (mem_Icc.2 ⟨hi, hi'⟩))
    exact single_le_sum (f := fun j => v i j) (fun j _ => h0 i j) (mem_Icc.2 ⟨hj, hj'⟩)

/-- sum of the bytes in the window the code uses -/
def winSum (img : Image UInt8) (r x y : Nat) : Int :=
  rectSum img.level (spanLo r x) (spanLo r y) (spanHi r img.info.width x) (spanHi r img.info.height y)

/-- the window the code uses is completely white exactly when the whole `(2r+1) x (2r+1)` window is -/
theorem winSum_eroded {img : Image UInt8} (h : img.WF) (hch : img.info.channels = 1) {r x y : Nat}
    (hx : x < img.info.width) (hy : y < img.info.height) :
    winSum img r x y = (((2 * r + 1) * (2 * r + 1) * 255 : Nat) : Int) ↔ Eroded img r x y := by
  have hle : winSum img r x y ≤ _ := rectSum_le (fun i j => img.level_le i j) _ _ _ _
  have hb : ∀ {n c}, spanHi r n c + 1 - spanLo r c ≤ 2 * r + 1 := by
    intro n c; unfold spanHi spanLo; split <;> split <;> omega
  constructor
  · intro e
    have hsx : spanHi r img.info.width x + 1 - spanLo r x = 2 * r + 1 ∧
        spanHi r img.info.height y + 1 - spanLo r y = 2 * r + 1 := by
      by_contra hne
      rw [rectSum_const, e] at hle
      have hlt : (spanHi r img.info.width x + 1 - spanLo r x) * (spanHi r img.info.height y + 1 - spanLo r y) <
          (2 * r + 1) * (2 * r + 1) := by
        have b1 := hb (n := img.info.width) (c := x)
        have b2 := hb (n := img.info.height) (c := y)
        rcases Nat.lt_or_ge (spanHi r img.info.width x + 1 - spanLo r x) (2 * r + 1) with h1 | h1
        · exact Nat.mul_lt_mul_of_lt_of_le h1 b2 (by omega)
        · have h2 : spanHi r img.info.height y + 1 - spanLo r y < 2 * r + 1 := by omega
          exact Nat.mul_lt_mul_of_le_of_lt b1 h2 (by omega)
      generalize spanHi r img.info.width x + 1 - spanLo r x = A at *
      generalize spanHi r img.info.height y + 1 - spanLo r y = B at *
      rw [← mul_assoc, ← Nat.cast_mul] at hle
      generalize A * B = C at *
      push_cast at hle hlt ⊢
      have : (C : Int) < (2 * r + 1) * (2 * r + 1) := by exact_mod_cast hlt
      omega
    have hr : (r ≤ x ∧ x + r < img.info.width ∨ r = 0) ∧ (r ≤ y ∧ y + r < img.info.height ∨ r = 0) := by
      have := hsx.1; have := hsx.2
      unfold spanHi spanLo at *
      constructor <;> split_ifs at * <;> omega
    have hfull : winSum img r x y = rectSum (fun _ _ => 255) (spanLo r x) (spanLo r y) (spanHi r img.info.width x) (spanHi r img.info.height y) := by
      rw [e, rectSum_const, hsx.1, hsx.2]; push_cast; ring
    have hall := (rectSum_full (fun i j => img.level_le i j)).1 hfull
    intro i j hi hj
    rw [abs_le] at hi hj
    obtain ⟨a, rfl⟩ : ∃ a : Nat, i = a := ⟨i.toNat, by omega⟩
    obtain ⟨b, rfl⟩ : ∃ b : Nat, j = b := ⟨j.toNat, by omega⟩
    refine ⟨a, b, rfl, rfl, (byte_white h hch (by omega) (by omega)).1 (hall a b ?_ ?_ ?_ ?_)⟩ <;>
    · simp only [spanLo, spanHi]; split_ifs <;> omega
  · intro he
    obtain ⟨a, b, e1, e2, ew⟩ := he (x - r) (y - r) (by simp) (by simp)
    obtain ⟨a', b', e1', e2', ew'⟩ := he (x + r) (y + r) (by simp) (by simp)
    have := ew'.lt
    have hX : spanLo r x = x - r ∧ spanHi r img.info.width x = x + r := by
      unfold spanLo spanHi; split_ifs <;> omega
    have hY : spanLo r y = y - r ∧ spanHi r img.info.height y = y + r := by
      unfold spanLo spanHi; split_ifs <;> omega
    unfold winSum
    rw [hX.1, hX.2, hY.1, hY.2, (rectSum_full (fun i j => img.level_le i j)).2 ?_, rectSum_const,
      show x + r + 1 - (x - r) = 2 * r + 1 by omega, show y + r + 1 - (y - r) = 2 * r + 1 by omega]
    · push_cast; ring
    · intro i j hi hi' hj hj'
      obtain ⟨a, b, e1, e2, ew⟩ := he i j (by rw [abs_le]; omega) (by rw [abs_le]; omega)
      have := ew.lt
      have : i = a := by omega
      have : j = b := by omega
      subst i j
      exact (byte_white h hch (by omega) (by omega)).2 ew

/-- the window the code uses contains a white pixel -/
def CodeDilated (img : Image UInt8) (r x y : Nat) : Prop :=
  ∃ a b : Nat, spanLo r x ≤ a ∧ a ≤ spanHi r img.info.width x ∧ spanLo r y ≤ b ∧ b ≤ spanHi r img.info.height y ∧ IsWhite img a b

theorem winSum_dilated {img : Image UInt8} (h : Binary img) {r x y : Nat}
    (hx : x < img.info.width) (hy : y < img.info.height) :
    255 ≤ winSum img r x y ↔ CodeDilated img r x y := by
  have hxx := spanHi_lt (r := r) hx
  have hyy := spanHi_lt (r := r) hy
  unfold winSum
  rw [rectSum_some (fun i j => img.level_nonneg i j) (fun i j _ _ _ _ => h.level (by omega) (by omega))]
  constructor
  · rintro ⟨i, j, h1, h2, h3, h4, e⟩
    exact ⟨i, j, h1, h2, h3, h4, (byte_white h.wf h.channels (by omega) (by omega)).1 e⟩
  · rintro ⟨i, j, h1, h2, h3, h4, e⟩
    exact ⟨i, j, h1, h2, h3, h4, (byte_white h.wf h.channels (by omega) (by omega)).2 e⟩
end

/-! ### exactness of the comparisons -/

/-- The two comparisons the code makes on window sums decide the corresponding comparison of integers. -/
structure MorphExact (F : Type) [FloatOps F] (img : Image UInt8) (r : Nat) : Prop where
  ge : ∀ f : Image F, (f.Shows img.info fun x y => (img.px x y).map ofU8) → ∀ x y, x < img.info.width →
    y < img.info.height → (winExpr (f.chan 0) (spanLo r x) (spanLo r y) (spanHi r img.info.width x)
      (spanHi r img.info.height y) >=. num 255) = decide (255 ≤ winSum img r x y)
  full : ∀ f : Image F, (f.Shows img.info fun x y => (img.px x y).map ofU8) → ∀ x y, x < img.info.width →
    y < img.info.height → isFull (ofNat ((2 * r + 1) * (2 * r + 1) * 255)) (winExpr (f.chan 0) (spanLo r x) (spanLo r y)
      (spanHi r img.info.width x) (spanHi r img.info.height y)) =
      decide (winSum img r x y = (((2 * r + 1) * (2 * r + 1) * 255 : Nat) : Int))

theorem chan_ofU8 {F : Type} [FloatOps F] {img : Image UInt8} (h : img.WF) (hch : img.info.channels = 1) {f : Image F}
    (hf : f.Shows img.info fun x y => (img.px x y).map ofU8) {x y : Nat} (hx : x < img.info.width)
    (hy : y < img.info.height) : f.chan 0 x y = ofU8 ((img.px x y).getD 0 0) := by
  have hl := Image.px_length h hx hy
  rw [hch] at hl
  obtain ⟨a, ha⟩ := List.length_eq_one_iff.1 hl
  unfold Image.chan
  rw [hf.px_eq hx hy, ha]; rfl

section
open Finset

theorem boxSum_congr {A : Type} [AddCommGroup A] {v w : Nat → Nat → A} {X Y : Nat}
    (h : ∀ i j, i < X → j < Y → v i j = w i j) : boxSum v X Y = boxSum w X Y :=
  sum_congr rfl fun i hi => sum_congr rfl fun j hj => h i j (mem_range.1 hi) (mem_range.1 hj)

/-- in exact arithmetic the comparisons are right for all images -/
theorem morphExact_real {img : Image UInt8} (h : img.WF) (hch : img.info.channels = 1) (r : Nat) : MorphExact ℝ img r := by
  have key : ∀ f : Image ℝ, (f.Shows img.info fun x y => (img.px x y).map ofU8) → ∀ x y, x < img.info.width →
    y < img.info.height → winExpr (f.chan 0) (spanLo r x) (spanLo r y) (spanHi r img.info.width x)
      (spanHi r img.info.height y) = ((winSum img r x y : Int) : ℝ) := by
    intro f hf x y hx hy
    have hxx := spanHi_lt (r := r) hx
    have hyy := spanHi_lt (r := r) hy
    have hb : ∀ X Y, X ≤ img.info.width → Y ≤ img.info.height →
        satOf (f.chan 0) X Y = ((boxSum img.level X Y : Int) : ℝ) := by
      intro X Y hX hY
      rw [satOf_real, boxSum_congr (w := fun i j => ((img.level i j : Int) : ℝ))]
      · unfold boxSum; push_cast; rfl
      · intro i j hi hj
        rw [chan_ofU8 h hch hf (by omega) (by omega), Ideal.ofU8_eq]; unfold Image.level; push_cast; rfl
    have hlx := spanLo_le_spanHi r img.info.width x
    have hly := spanLo_le_spanHi r img.info.height y
    unfold winExpr winSum
    rw [hb _ _ (by omega) (by omega), hb _ _ (by omega) (by omega), hb _ _ (by omega) (by omega),
      hb _ _ (by omega) (by omega), rectSum_boxes _ hlx hly]
    simp
  constructor
  · intro f hf x y hx hy
    rw [key f hf x y hx hy]
    show decide ((num 255 : ℝ) ≤ _) = _
    rw [decide_eq_decide]
    simp only [Ideal.num_eq]
    exact_mod_cast Iff.rfl
  · intro f hf x y hx hy
    rw [key f hf x y hx hy]
    unfold isFull
    show decide (|((winSum img r x y : Int) : ℝ) - FloatOps.ofNat _| < (FloatOps.epsilon : ℝ)) = _
    rw [decide_eq_decide]
    generalize (2 * r + 1) * (2 * r + 1) * 255 = m
    have e : ((winSum img r x y : Int) : ℝ) - (FloatOps.ofNat m : ℝ) = ((winSum img r x y - (m : Int) : Int) : ℝ) := by
      simp
    rw [e, ← Int.cast_abs]
    have e2 : (FloatOps.epsilon : ℝ) = 1 / 8388608 := by unfold epsilon; simp
    rw [e2]
    constructor
    · intro hlt
      have : ((|winSum img r x y - (m : Int)| : Int) : ℝ) < ((1 : Int) : ℝ) := by push_cast at hlt ⊢; linarith
      have := Int.cast_lt.1 this
      have := abs_lt.1 this
      omega
    · intro e; rw [e]; norm_num

variable [Libm f32]
/-- in IEEE f32 the comparisons are right while `width * height * 255 ≤ 2^23` -/
theorem morphExact_ieee {img : Image UInt8} (h : img.WF) (hch : img.info.channels = 1) {r : Nat}
    (hr : (2 * r + 1) * (2 * r + 1) * 255 < U32SIZE)
    (hsmall : img.info.width * img.info.height * 255 ≤ 8388608) : MorphExact F32 img r := by
  have hB : boxSum (fun i j => |img.level i j|) img.info.width img.info.height ≤ 8388608 := by
    have : boxSum (fun i j => |img.level i j|) img.info.width img.info.height ≤
        ∑ i ∈ range img.info.width, ∑ j ∈ range img.info.height, (255 : Int) :=
      sum_le_sum fun i _ => sum_le_sum fun j _ => by
        show |img.level i j| ≤ 255
        rw [abs_of_nonneg (img.level_nonneg i j)]; exact img.level_le i j
    refine this.trans ?_
    simp only [sum_const, card_range, nsmul_eq_mul]
    rw [← mul_assoc]
    exact_mod_cast hsmall
  have key : ∀ f : Image F32, (f.Shows img.info fun x y => (img.px x y).map ofU8) → ∀ x y, x < img.info.width →
    y < img.info.height → (winExpr (f.chan 0) (spanLo r x) (spanLo r y) (spanHi r img.info.width x)
      (spanHi r img.info.height y)).Is ((winSum img r x y : Int) : Rat) := by
    intro f hf x y hx hy
    exact rect_is (W := img.info.width) (H := img.info.height) (fun X Y hX hY =>
      satOf_is (W := img.info.width) (H := img.info.height) (fun i j hi hj => by
        rw [chan_ofU8 h hch hf hi hj]
        have := ofU8_is ((img.px i j).getD 0 0)
        unfold Image.level
        exact_mod_cast this) hB X Y hX hY)
      hB (spanLo_le_spanHi _ _ _) (spanLo_le_spanHi _ _ _) (spanHi_lt hx) (spanHi_lt hy)
  have hbound : ∀ x y, x < img.info.width → y < img.info.height → 0 ≤ winSum img r x y ∧ winSum img r x y ≤ 8388608 := by
    intro x y hx hy
    have hxx := spanHi_lt (r := r) hx
    have hyy := spanHi_lt (r := r) hy
    constructor
    · unfold winSum rectSum
      exact sum_nonneg fun i _ => sum_nonneg fun j _ => img.level_nonneg i j
    · refine le_trans ?_ hB
      unfold winSum rectSum boxSum
      calc ∑ i ∈ Icc _ _, ∑ j ∈ Icc _ _, img.level i j ≤ ∑ i ∈ Icc (spanLo r x) (spanHi r img.info.width x),
            ∑ j ∈ range img.info.height, |img.level i j| := by
            refine sum_le_sum fun i _ => (sum_le_sum fun j _ => le_abs_self _).trans ?_
            refine sum_le_sum_of_subset_of_nonneg ?_ fun _ _ _ => abs_nonneg _
            intro k hk; simp at hk ⊢; omega
        _ ≤ _ := by
            refine sum_le_sum_of_subset_of_nonneg ?_ fun _ _ _ => sum_nonneg fun _ _ => abs_nonneg _
            intro k hk; simp at hk ⊢; omega
  constructor
  · intro f hf x y hx hy
    have := le_is (num32 (n := 255) (by decide)) (key f hf x y hx hy)
    show (num 255 <=. _) = _
    rw [this, decide_eq_decide]
    exact_mod_cast Iff.rfl
  · intro f hf x y hx hy
    have hk := key f hf x y hx hy
    obtain ⟨h0, h1⟩ := hbound x y hx hy
    obtain ⟨m, em⟩ : ∃ m, (2 * r + 1) * (2 * r + 1) * 255 = m := ⟨_, rfl⟩
    rw [em] at hr ⊢
    unfold isFull
    have heps : (FloatOps.epsilon : F32).Is (1 / 8388608) := lit_exact (by
      have := f32_dyadic (m := 1) (by decide)
      have e : (1 / 8388608 : Rat) = ((1 : Int) : Rat) * pow2 (-23) := by rw [pow2_eq]; norm_num
      rw [e]
      refine ⟨RepQ.dyadic (by decide) (by decide), ?_⟩
      rw [← e]; norm_num [pow2, f32])
    by_cases hm : m ≤ 16777216
    · have s := sub_exact hk (nat32 hm) (by
        rw [show ((m : Nat) : Rat) = ((m : Int) : Rat) by push_cast; rfl, ← Int.cast_sub]
        exact f32_int (by rw [abs_le]; omega))
      rw [lt_is (abs_is s) heps, decide_eq_decide]
      have e : ((winSum img r x y : Int) : Rat) - ((m : Nat) : Rat) = ((winSum img r x y - (m : Int) : Int) : Rat) := by
        push_cast; rfl
      rw [e, ← Int.cast_abs]
      constructor
      · intro hlt
        have : ((|winSum img r x y - (m : Int)| : Int) : Rat) < ((1 : Int) : Rat) := by push_cast at hlt ⊢; linarith
        have := Int.cast_lt.1 this
        have := abs_lt.1 this
        omega
      · intro e; rw [e]; norm_num
    · have hm32 : (m : Rat) ≤ 4294967296 := by exact_mod_cast (le_of_lt hr : m ≤ 4294967296)
      have hm' : (16777216 : Rat) ≤ (m : Rat) := by exact_mod_cast (by omega : 16777216 ≤ m)
      have hs1 : ((winSum img r x y : Int) : Rat) ≤ 8388608 := by exact_mod_cast h1
      have hs0 : (0 : Rat) ≤ ((winSum img r x y : Int) : Rat) := by exact_mod_cast h0
      have e24 : f32.Exact (16777216 : Rat) := by have := f32_int (n := 16777216) (by decide); exact_mod_cast this
      have e23 : f32.Exact (8388608 : Rat) := by have := f32_int (n := 8388608) (by decide); exact_mod_cast this
      have e32 : f32.Exact (4294967296 : Rat) := by
        have e : (4294967296 : Rat) = ((1 : Int) : Rat) * pow2 32 := by rw [pow2_eq]; norm_num
        rw [e]
        refine ⟨RepQ.dyadic (by decide) (by decide), ?_⟩
        rw [← e]; norm_num [pow2, f32]
      have iM : (FloatOps.ofNat m : F32).Is (f32.rnd ((m : Int) : Rat)) := ofInt_is (f32_ovf (by
        rw [abs_of_nonneg (by push_cast; linarith)]; push_cast; linarith))
      have hM1 : 16777216 ≤ f32.rnd ((m : Int) : Rat) := le_rndQ e24.1 (by push_cast; exact hm')
      have hM2 : f32.rnd ((m : Int) : Rat) ≤ 4294967296 := rndQ_le e32.1 (by push_cast; exact hm32)
      have s := sub_is hk iM (f32_ovf (by rw [abs_le]; constructor <;> linarith))
      rw [lt_is (abs_is s) heps, decide_eq_decide]
      constructor
      · intro hlt
        exfalso
        rw [show ∀ q, |f32.rnd q| = f32.rnd |q| from fun q => abs_rndQ q] at hlt
        have : 8388608 ≤ f32.rnd |((winSum img r x y : Int) : Rat) - f32.rnd ((m : Int) : Rat)| :=
          le_rndQ e23.1 (by rw [abs_of_nonpos (by linarith)]; linarith)
        linarith
      · intro e; omega
end

/-! ### what the functions draw, in any arithmetic whose comparisons are right -/
section
variable {F : Type} [FloatOps F]

open Classical in
theorem Image.Draws.congr {out : Image UInt8} {info : ImageInfo} {S T : Nat → Nat → Prop} (h : out.Draws info S)
    (hST : ∀ x y, x < info.width → y < info.height → (S x y ↔ T x y)) : out.Draws info T := by
  unfold Image.Draws at *
  exact Image.Shows.congr h fun x y hx hy => congrArg (fun b : UInt8 => [b]) (if_congr (hST x y hx hy) rfl rfl)

theorem Image.Draws.white {out : Image UInt8} {info : ImageInfo} {S : Nat → Nat → Prop} (h : out.Draws info S)
    {x y : Nat} (hx : x < info.width) (hy : y < info.height) : IsWhite out x y ↔ S x y := by
  unfold IsWhite
  simp only [h.2.2 _ x y hx hy]
  by_cases hS : S x y
  · simp [hS]
  · simp only [hS, iff_false]
    intro hP
    have := hP .debug
    simp at this

theorem Image.Draws.white' {out : Image UInt8} {info : ImageInfo} {S : Nat → Nat → Prop} (h : out.Draws info S)
    {x y : Nat} : IsWhite out x y ↔ x < info.width ∧ y < info.height ∧ S x y := by
  constructor
  · intro hw
    have hl := hw.lt
    rw [h.2.1] at hl
    exact ⟨hl.1, hl.2, (h.white hl.1 hl.2).1 hw⟩
  · rintro ⟨hx, hy, hS⟩; exact (h.white hx hy).2 hS

theorem Image.Draws.binary {out : Image UInt8} {info : ImageInfo} {S : Nat → Nat → Prop} (h : out.Draws info S)
    (hc : info.channels = 1) (ha : info.alpha = false) : Binary out := by
  refine ⟨h.1, by rw [h.2.1, hc], by rw [h.2.1, ha], fun P x y hx hy => ?_⟩
  rw [h.2.1] at hx hy
  rw [h.2.2 P x y hx hy]
  by_cases hS : S x y
  · right; simp [hS]
  · left; simp [hS]

open Classical in
theorem draws_of_test {out : Image UInt8} {info : ImageInfo} {t : Nat → Nat → Bool} {S : Nat → Nat → Prop}
    (h : out.Shows info fun x y => [if t x y then 255 else 0])
    (ht : ∀ x y, x < info.width → y < info.height → (t x y = true ↔ S x y)) : out.Draws info S := by
  unfold Image.Draws
  exact h.congr fun x y hx hy => congrArg (fun b : UInt8 => [b]) (if_congr (ht x y hx hy) rfl rfl)

theorem erode_core (P : Profile) {img : Image UInt8} (h : img.WF) (hch : img.info.channels = 1)
    (ha : img.info.alpha = false) {r : Nat} (hrw : r ≤ img.info.width) (hrh : r ≤ img.info.height)
    (hr : (2 * r + 1) * (2 * r + 1) * 255 < U32SIZE) (E : MorphExact F img r) :
    ∃ out, erode F P img r = .ok out ∧ out.Draws img.info (Eroded img r) := by
  obtain ⟨f, ef, hf⟩ := imageU8ToFloat_shows (F := F) P h
  obtain ⟨table, out, et, eo, ho⟩ := morphScan_eq P h hch hrw hrh f hf.WF hf.info_eq
    (isFull (ofNat ((2 * r + 1) * (2 * r + 1) * 255)))
  refine ⟨out, ?_, draws_of_test ho fun x y hx hy => ?_⟩
  · unfold erode
    rw [checkGrayscale_ok (Or.inl ⟨ha, hch⟩), ok_bind, morphMaxSum_ok hr, ok_bind, ef, ok_bind, et, ok_bind, eo]
  · rw [E.full f hf x y hx hy, decide_eq_true_iff, winSum_eroded h hch hx hy]

theorem dilate_core (P : Profile) {img : Image UInt8} (h : Binary img) {r : Nat} (hrw : r ≤ img.info.width)
    (hrh : r ≤ img.info.height) (E : MorphExact F img r) :
    ∃ out, dilate F P img r = .ok out ∧ out.Draws img.info (CodeDilated img r) := by
  obtain ⟨f, ef, hf⟩ := imageU8ToFloat_shows (F := F) P h.wf
  obtain ⟨table, out, et, eo, ho⟩ := morphScan_eq P h.wf h.channels hrw hrh f hf.WF hf.info_eq (fun s => s >=. num 255)
  refine ⟨out, ?_, draws_of_test ho fun x y hx hy => ?_⟩
  · unfold dilate
    rw [checkGrayscale_ok (Or.inl ⟨h.alpha, h.channels⟩), ok_bind, ef, ok_bind, et, ok_bind, eo]
  · rw [E.ge f hf x y hx hy, decide_eq_true_iff, winSum_dilated h hx hy]

theorem gradient_core (P : Profile) {img : Image UInt8} (h : Binary img) {r : Nat} (hrw : r ≤ img.info.width)
    (hrh : r ≤ img.info.height) (hr : (2 * r + 1) * (2 * r + 1) * 255 < U32SIZE) (E : MorphExact F img r) :
    ∃ out, gradient F P img r = .ok out ∧ out.Draws img.info fun x y => CodeDilated img r x y ∧ ¬ Eroded img r x y := by
  obtain ⟨f, ef, hf⟩ := imageU8ToFloat_shows (F := F) P h.wf
  obtain ⟨table, out, et, eo, ho⟩ := morphScan_eq P h.wf h.channels hrw hrh f hf.WF hf.info_eq
    (fun s => xor (isFull (ofNat ((2 * r + 1) * (2 * r + 1) * 255)) s) (s >=. num 255))
  refine ⟨out, ?_, draws_of_test ho fun x y hx hy => ?_⟩
  · unfold gradient
    rw [checkGrayscale_ok (Or.inl ⟨h.alpha, h.channels⟩), ok_bind, morphMaxSum_ok hr, ok_bind, ef, ok_bind, et, ok_bind, eo]
  · rw [E.full f hf x y hx hy, E.ge f hf x y hx hy, ← winSum_eroded h.wf h.channels hx hy, ← winSum_dilated h hx hy]
    generalize winSum img r x y = s
    have : 255 ≤ (2 * r + 1) * (2 * r + 1) * 255 := Nat.le_mul_of_pos_left _ (Nat.mul_pos (by omega) (by omega))
    obtain ⟨m, em⟩ : ∃ m, (2 * r + 1) * (2 * r + 1) * 255 = m := ⟨_, rfl⟩
    rw [em] at this ⊢
    by_cases h1 : s = (m : Int)
    · have h2 : 255 ≤ s := by omega
      simp [h1, h2, show (255 : Int) ≤ m by omega]
    · by_cases h2 : 255 ≤ s <;> simp [h1, h2]
end

/-- the radius is bounded by the image size, and image size by the exactness bound -/
theorem radius_bound {img : Image UInt8} {r : Nat} (hrw : r ≤ img.info.width) (hrh : r ≤ img.info.height)
    (hsmall : img.info.width * img.info.height * 255 ≤ 8388608) : (2 * r + 1) * (2 * r + 1) * 255 < U32SIZE := by
  have h1 : r * r ≤ img.info.width * img.info.height := Nat.mul_le_mul hrw hrh
  have h2 : r ≤ 181 := by
    by_contra hc
    have : 182 * 182 ≤ r * r := Nat.mul_le_mul (by omega) (by omega)
    omega
  have : (2 * r + 1) * (2 * r + 1) ≤ 363 * 363 := Nat.mul_le_mul (by omega) (by omega)
  show _ < 4294967296
  omega

/-! ### C72: erosion -/
section
variable [Libm f32]

/-- **C72** erode draws the erosion (pixels outside the image count as black), in IEEE f32, for every one-channel
image (binary or not), every radius up to the smaller side, and both build profiles, while
`width * height * 255 ≤ 2^23`. -/
theorem c72_erode (P : Profile) {img : Image UInt8} (h : img.WF) (hch : img.info.channels = 1)
    (ha : img.info.alpha = false) {r : Nat} (hrw : r ≤ img.info.width) (hrh : r ≤ img.info.height)
    (hsmall : img.info.width * img.info.height * 255 ≤ 8388608) :
    ∃ out, erode F32 P img r = .ok out ∧ out.Draws img.info (Eroded img r) :=
  erode_core P h hch ha hrw hrh (radius_bound hrw hrh hsmall)
    (morphExact_ieee h hch (radius_bound hrw hrh hsmall) hsmall)

example (P : Profile) (a b c d e f : UInt8) : ∃ out, erode F32 P (gray6 a b c d e f) 1 = .ok out ∧
    out.Draws (gray6 a b c d e f).info (Eroded (gray6 a b c d e f) 1) :=
  c72_erode P (gray6_WF ..) rfl rfl (by dims) (by dims) (by dims)

omit [Libm f32] in
/-- **C72** in exact arithmetic, with no bound on the image; `(2r+1)^2 * 255` has to fit in a u32 -/
theorem c72_erode_exact (P : Profile) {img : Image UInt8} (h : img.WF) (hch : img.info.channels = 1)
    (ha : img.info.alpha = false) {r : Nat} (hrw : r ≤ img.info.width) (hrh : r ≤ img.info.height)
    (hr : (2 * r + 1) * (2 * r + 1) * 255 < U32SIZE) :
    ∃ out, erode ℝ P img r = .ok out ∧ out.Draws img.info (Eroded img r) :=
  erode_core P h hch ha hrw hrh hr (morphExact_real h hch r)

/-! ### C73: dilation -/

/-- **C73, what the code draws**: the pixels whose *code window* contains a white pixel, where the code window
extends `r` to the left only if `r` columns exist there (otherwise not at all), and likewise to the right, top
and bottom. -/
theorem c73_exact_window (P : Profile) {img : Image UInt8} (h : Binary img) {r : Nat} (hrw : r ≤ img.info.width)
    (hrh : r ≤ img.info.height) (hsmall : img.info.width * img.info.height * 255 ≤ 8388608) :
    ∃ out, dilate F32 P img r = .ok out ∧ out.Draws img.info fun x y =>
      ∃ a b : Nat, (if r ≤ x then x - r else x) ≤ a ∧ a ≤ (if x + r < img.info.width then x + r else x) ∧
        (if r ≤ y then y - r else y) ≤ b ∧ b ≤ (if y + r < img.info.height then y + r else y) ∧ IsWhite img a b :=
  dilate_core P h hrw hrh (morphExact_ieee h.wf h.channels (radius_bound hrw hrh hsmall) hsmall)

omit [Libm f32] in
theorem CodeDilated.dilated {img : Image UInt8} {r x y : Nat} (h : CodeDilated img r x y) : Dilated img r x y := by
  obtain ⟨a, b, h1, h2, h3, h4, hw⟩ := h
  refine ⟨a, b, ?_, ?_, hw⟩ <;>
  · unfold spanLo at *; unfold spanHi at *
    rw [abs_le]; split_ifs at * <;> omega

omit [Libm f32] in
theorem codeDilated_iff {img : Image UInt8} {r x y : Nat}
    (hx : r ≤ 1 ∨ (r ≤ x ∧ x + r < img.info.width)) (hy : r ≤ 1 ∨ (r ≤ y ∧ y + r < img.info.height)) :
    CodeDilated img r x y ↔ Dilated img r x y := by
  refine ⟨CodeDilated.dilated, ?_⟩
  rintro ⟨a, b, h1, h2, hw⟩
  have hl := hw.lt
  rw [abs_le] at h1 h2
  refine ⟨a, b, ?_, ?_, ?_, ?_, hw⟩ <;>
  · simp only [spanLo, spanHi]; split_ifs <;> omega

/-- **C73** holds for radius 0 and 1 everywhere -/
theorem c73_radius_one_partial (P : Profile) {img : Image UInt8} (h : Binary img) {r : Nat} (hr : r ≤ 1)
    (hrw : r ≤ img.info.width) (hrh : r ≤ img.info.height)
    (hsmall : img.info.width * img.info.height * 255 ≤ 8388608) :
    ∃ out, dilate F32 P img r = .ok out ∧ out.Draws img.info (Dilated img r) := by
  obtain ⟨out, e, ho⟩ := c73_exact_window P h hrw hrh hsmall
  exact ⟨out, e, ho.congr fun x y _ _ => codeDilated_iff (Or.inl hr) (Or.inl hr)⟩

/-- **C73** for every radius: white output pixels are always in the dilation, and at least `r` away from the border
the output is the dilation. Missing: pixels within `r` of the border when `r ≥ 2` (`c73_violated`). -/
theorem c73_interior_partial (P : Profile) {img : Image UInt8} (h : Binary img) {r : Nat}
    (hrw : r ≤ img.info.width) (hrh : r ≤ img.info.height)
    (hsmall : img.info.width * img.info.height * 255 ≤ 8388608) :
    ∃ out, dilate F32 P img r = .ok out ∧ Binary out ∧ out.info = img.info ∧
      (∀ x y, IsWhite out x y → Dilated img r x y) ∧
      (∀ x y, r ≤ x → x + r < img.info.width → r ≤ y → y + r < img.info.height →
        (IsWhite out x y ↔ Dilated img r x y)) := by
  obtain ⟨out, e, ho⟩ := c73_exact_window P h hrw hrh hsmall
  refine ⟨out, e, ho.binary h.channels h.alpha, ho.2.1, fun x y hw => ?_, fun x y h1 h2 h3 h4 => ?_⟩
  · exact CodeDilated.dilated ((ho.white' (x := x) (y := y)).1 hw).2.2
  · rw [ho.white (x := x) (y := y) (by omega) (by omega)]
    exact codeDilated_iff (Or.inr ⟨h1, h2⟩) (Or.inr ⟨h3, h4⟩)
end
end Imgproc

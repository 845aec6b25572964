import Verif.Proofs.NoErr
import Verif.Proofs.Colour
import Verif.Proofs.IEEE
import Verif.Props.Util
import Verif.Props.Hsv
import Verif.Props.Convert
import Mathlib.Tactic.Linarith
/-! Properties C19, C20, C22, C23, C24 (tone operations). -/
namespace Imgproc
open FloatOps

/-! ## C19 — parameter validation -/

theorem invalidArg_of_bind {α β} {r : Res α} {k : α → Res β} (h : Res.InvalidArg r) : Res.InvalidArg (r >>= k) := by
  unfold Res.InvalidArg at *; rw [h]; rfl
theorem not_invalidArg {α} {r : Res α} (h : NoErr r) : ¬ Res.InvalidArg r := h _

/-- an i16 magnitude above 255 -/
def BeyondByte (b : Int) : Prop := 255 < b ∨ b < -255
/-- a float that is a number (or infinity) strictly below zero -/
def Negative {f : Fmt} (x : Flt f) : Prop :=
  match x.val with
  | .nan => False | .inf neg => neg = true | .negZero => False | .fin q => q < 0
/-- a float that is a number (or infinity) outside [0,1]; NaN is not -/
def OutsideUnit {f : Fmt} (x : Flt f) : Prop :=
  match x.val with
  | .nan => False | .inf _ => True | .negZero => False | .fin q => q < 0 ∨ 1 < q

theorem checkInRange_byte {b : Int} : checkInRange (intNum I16HALF) b (-255) 255 =
    if b < -255 ∨ 255 < b then invalidArg else .ok () := by
  unfold checkInRange intNum
  simp only [Bool.or_eq_true, decide_eq_true_eq]

theorem i16Abs_ok {P b} (h : b ≠ -32768) (hr : -32768 ≤ b ∧ b < 32768) :
    i16Abs P b = .ok (if b < 0 then -b else b) := by
  unfold i16Abs
  exact wrapInt_ok (by split <;> omega) (by split <;> omega)

theorem guard_iff {α} {c : Prop} [Decidable c] {k : Unit → Res α} (hk : NoErr (k ())) :
    Res.InvalidArg ((if c then invalidArg else .ok ()) >>= k) ↔ c := by
  constructor
  · intro h
    by_contra hc
    rw [if_neg hc] at h
    exact not_invalidArg hk h
  · intro hc; rw [if_pos hc]; rfl

/-- the validation common to `brightness` and `brightness_lab` -/
theorem bias_check {α} {P : Profile} {bias : Int} {k : Unit → Res α} (hk : NoErr (k ()))
    (hr : -32768 ≤ bias ∧ bias < 32768) (hmin : P = .release ∨ bias ≠ -32768) :
    Res.InvalidArg (do
      let a ← i16Abs P bias
      checkInRange (intNum I16HALF) a (-255) 255
      k ()) ↔ BeyondByte bias := by
  unfold BeyondByte
  by_cases hb : bias = -32768
  · have hP : P = .release := by rcases hmin with h | h; exact h; exact absurd hb h
    subst hP hb
    refine ⟨fun _ => .inr (by decide), fun _ => ?_⟩
    rw [show i16Abs .release (-32768) = .ok (-32768) by decide +kernel, ok_bind, checkInRange_byte,
      guard_iff hk]
    decide
  · rw [i16Abs_ok hb hr, ok_bind, checkInRange_byte, guard_iff hk]
    split <;> omega

/-- **C19** `brightness` rejects exactly the biases beyond ±255 (with or without AVX2, for every image);
missing: `i16::MIN` in a debug build, where `abs` panics instead (`c19_brightness_violated`). -/
theorem c19_brightness_partial (avx2 : Bool) (P : Profile) (img : Image UInt8) (bias : Int)
    (hr : -32768 ≤ bias ∧ bias < 32768) (hmin : P = .release ∨ bias ≠ -32768) :
    Res.InvalidArg (brightness avx2 P img bias) ↔ BeyondByte bias := by
  unfold brightness
  refine bias_check (k := fun _ => if avx2 then adds256U8 P img bias else brightnessRgbNorm P img bias) ?_ hr hmin
  refine .ite .adds256U8 ?_
  unfold brightnessRgbNorm
  exact .bind (.generateLookupTable fun _ => .addClampU8) fun _ => .mapChannelsIfAlpha (fun _ => .idx) (fun _ => .ok _)

/-- **C19** the exception: in a debug build `brightness` (and `brightness_lab`) of `i16::MIN` panics. -/
theorem c19_brightness_violated (avx2 : Bool) (img : Image UInt8) :
    Res.Panics (brightness avx2 .debug img (-32768)) := by
  unfold brightness
  rw [show i16Abs .debug (-32768) = panic .overflow by decide +kernel]
  exact ⟨_, rfl⟩

/-- **C19** `brightness_lab`, likewise -/
theorem c19_brightness_lab_partial {F} [FloatOps F] (P : Profile) (img : Image UInt8) (bias : Int)
    (hr : -32768 ≤ bias ∧ bias < 32768) (hmin : P = .release ∨ bias ≠ -32768) :
    Res.InvalidArg (brightnessLab F P img bias) ↔ BeyondByte bias := by
  unfold brightnessLab
  refine bias_check (k := fun _ => _) ?_ hr hmin
  exact .bind .srgbToLab fun _ => .bind (.editChannel fun _ => .ok _) fun _ => .labToSrgb

/-- **C19** `saturation` rejects exactly the parameters beyond ±255 -/
theorem c19_saturation (avx2 : Bool) (P : Profile) (img : Image UInt8) (s : Int) :
    Res.InvalidArg (saturation avx2 P img s) ↔ BeyondByte s := by
  unfold saturation
  rw [checkInRange_byte, guard_iff]
  · unfold BeyondByte; omega
  · refine .bind .rgbToHsv fun _ => ?_
    cases avx2
    · simp only [Bool.false_eq_true, if_false, saturationNorm]
      exact .bind (.editChannel fun _ => .addClampU8) fun _ => .hsvToRgb
    · simp only [if_true]
      exact .bind .addsN256U8 fun _ => .hsvToRgb

section
variable {f : Fmt} [Libm f]

theorem lt_zero_iff (h1 : f.Exact 0) (x : Flt f) : (x <. (ofU8 0 : Flt f)) = true ↔ Negative x := by
  have h0 : (ofU8 0 : Flt f).Is 0 := by
    have := ofInt_exact (f := f) (n := 0) (by simpa using h1); simpa [ofU8] using this
  unfold Negative
  have hv : ∀ q, x.Is q → ((x <. (ofU8 0 : Flt f)) = true ↔ q < 0) := by
    intro q hq; rw [lt_is hq h0, decide_eq_true_eq]
  match hx : x.val with
  | .nan => rw [lt_nan_left hx]; simp
  | .inf s => rw [lt_inf_left hx h0]
  | .negZero => simp only [iff_false]; rw [hv 0 (by simp [Flt.Is, hx, FP.toQ?])]; exact lt_irrefl _
  | .fin q => simp only; exact hv q (by simp [Flt.Is, hx, FP.toQ?])

theorem outside_unit_iff (h1 : f.Exact 1) (x : Flt f) :
    ((x <. (num 0 : Flt f)) = true ∨ ((num 1 : Flt f) <. x) = true) ↔ OutsideUnit x := by
  have h0 : (num 0 : Flt f).Is 0 := by
    have := num_exact (f := f) (n := 0) (by simpa using Fmt.Exact.zero); simpa using this
  have h1 : (num 1 : Flt f).Is 1 := by
    have := num_exact (f := f) (n := 1) (by simpa using h1); simpa using this
  unfold OutsideUnit
  have hv : ∀ q, x.Is q → (((x <. (num 0 : Flt f)) = true ∨ ((num 1 : Flt f) <. x) = true) ↔ (q < 0 ∨ 1 < q)) := by
    intro q hq; rw [lt_is hq h0, lt_is h1 hq, decide_eq_true_eq, decide_eq_true_eq]
  match hx : x.val with
  | .nan => rw [lt_nan_left hx, lt_nan_right hx]; simp
  | .inf s => rw [lt_inf_left hx h0, lt_inf_right h1 hx]; cases s <;> simp
  | .negZero =>
    simp only [iff_false]; rw [hv 0 (by simp [Flt.Is, hx, FP.toQ?])]; norm_num
  | .fin q => simp only; exact hv q (by simp [Flt.Is, hx, FP.toQ?])
end

theorem negative_outside {f : Fmt} {x : Flt f} (h : Negative x) : OutsideUnit x := by
  unfold Negative OutsideUnit at *
  cases hx : x.val <;> rw [hx] at h <;> simp_all

/-- the validation common to `contrast` and `contrast_lab` -/
theorem gain_check {α} [Libm f32] {gain : F32} {k : Unit → Res α} (hk : NoErr (k ())) :
    Res.InvalidArg (do
      checkNonNeg (FloatOps.rnum (F := F32)) gain
      checkInRange (FloatOps.rnum (F := F32)) gain (num 0) (num 1)
      k ()) ↔ OutsideUnit gain := by
  have e1 : f32.Exact 1 := by simpa using f32_int (n := 1) (by decide)
  unfold checkNonNeg checkInRange
  show Res.InvalidArg ((if (gain <. (ofU8 0 : F32)) = true then invalidArg else .ok ()) >>= fun _ =>
    (if ((gain <. (num 0 : F32)) || ((num 1 : F32) <. gain)) = true then invalidArg else .ok ()) >>= k) ↔ _
  by_cases hn : (gain <. (ofU8 0 : F32)) = true
  · rw [if_pos hn]
    exact ⟨fun _ => negative_outside ((lt_zero_iff Fmt.Exact.zero _).1 hn), fun _ => rfl⟩
  · rw [if_neg hn, ok_bind, guard_iff hk, Bool.or_eq_true]
    exact outside_unit_iff e1 gain

/-- **C19** `contrast` rejects exactly the gains that are numbers outside [0,1]; NaN is accepted. -/
theorem c19_contrast [Libm f32] (P : Profile) (img : Image UInt8) (gain : F32) :
    Res.InvalidArg (contrast P img gain) ↔ OutsideUnit gain := by
  unfold contrast
  refine gain_check (k := fun _ => _) ?_
  exact .bind (.generateLookupTable fun _ => .bind .clamp fun _ => .ok _) fun _ =>
    .mapChannelsIfAlpha (fun _ => .idx) (fun _ => .ok _)

/-- **C19** `contrast_lab`, likewise -/
theorem c19_contrast_lab [Libm f32] (P : Profile) (img : Image UInt8) (gain : F32) :
    Res.InvalidArg (contrastLab P img gain) ↔ OutsideUnit gain := by
  unfold contrastLab
  refine gain_check (k := fun _ => _) ?_
  exact .bind .srgbToLab fun _ => .bind (.editChannel fun _ => .ok _) fun _ => .labToSrgb

/-- **C19** `gamma` rejects exactly the negative exponents; NaN is accepted. -/
theorem c19_gamma [Libm f32] (P : Profile) (img : Image UInt8) (g : F32) (max : UInt8) :
    Res.InvalidArg (gammaOp P img g max) ↔ Negative g := by
  unfold gammaOp checkNonNeg
  show Res.InvalidArg ((if (g <. (ofU8 0 : F32)) = true then invalidArg else .ok ()) >>= fun _ => _) ↔ _
  rw [guard_iff]
  · exact lt_zero_iff Fmt.Exact.zero _
  · exact .mapChannelsIfAlpha (fun _ => .ok _) (fun _ => .ok _)

/-- **C19** `histogram_equalization` rejects exactly negative precisions and alphas outside [0,1]. -/
theorem c19_histogram_equalization [Libm f32] (P : Profile) (img : Image UInt8) (alpha : F32) (white : White)
    (precision : F32) :
    Res.InvalidArg (histogramEqualization P img alpha white precision) ↔
      Negative precision ∨ OutsideUnit alpha := by
  have e1 : f32.Exact 1 := by simpa using f32_int (n := 1) (by decide)
  unfold histogramEqualization checkNonNeg checkInRange
  show Res.InvalidArg ((if (precision <. (ofU8 0 : F32)) = true then invalidArg else .ok ()) >>= fun _ =>
    (if ((alpha <. (num 0 : F32)) || ((num 1 : F32) <. alpha)) = true then invalidArg else .ok ()) >>= fun _ => _) ↔ _
  rw [← lt_zero_iff Fmt.Exact.zero precision, ← outside_unit_iff e1 alpha]
  by_cases hn : (precision <. (ofU8 0 : F32)) = true
  · rw [if_pos hn]; exact ⟨fun _ => .inl hn, fun _ => rfl⟩
  · rw [if_neg hn, ok_bind, guard_iff, Bool.or_eq_true]
    · exact ⟨.inr, fun h => h.resolve_left hn⟩
    · refine .bind .srgbToLab fun _ => .bind .percentiles fun _ => .bind (.editChannel fun _ => ?_) fun _ => .labToSrgb
      unfold equalizeValue
      no_err

example : BeyondByte 256 ∧ ¬ BeyondByte 255 := by unfold BeyondByte; decide
example : OutsideUnit (Flt.ofRat f32 2) ∧ ¬ OutsideUnit (Flt.ofRat f32 (1/2)) ∧ ¬ Negative (⟨.nan, trivial⟩ : F32) := by
  have h1 : (Flt.ofRat f32 2).val = .fin 2 := by decide +kernel
  have h2 : (Flt.ofRat f32 (1/2)).val = .fin (1/2) := by decide +kernel
  unfold OutsideUnit Negative
  rw [h1, h2]; norm_num

/-! ## C20 — brightness -/

/-- spec: `v + bias` saturated to a byte -/
def satAdd (v : UInt8) (bias : Int) : UInt8 := UInt8.ofNat (max 0 (min 255 ((v.toNat : Int) + bias))).toNat

theorem satAdd_toNat (v : UInt8) (bias : Int) :
    ((satAdd v bias).toNat : Int) = max 0 (min 255 ((v.toNat : Int) + bias)) := by
  unfold satAdd
  rw [UInt8.toNat_ofNat_of_lt' (show _ < 256 by omega)]; omega

theorem addClampU8_eq {P : Profile} {v : UInt8} {b : Int} (h : -255 ≤ b ∧ b ≤ 255) :
    addClampU8 P v b = .ok (satAdd v b) := by
  have hv := v.toNat_lt
  unfold addClampU8
  rw [i16Add_ok (by omega) (by omega), ok_bind]
  unfold intClamp
  rw [if_pos (by decide), ok_bind]
  congr 1
  unfold intToU8 satAdd
  congr 1
  split
  · omega
  · split <;> omega

/-- **C20** Without AVX2, `brightness` keeps the header, adds the bias to every colour value with
saturation, and leaves alpha alone. -/
theorem c20_brightness (P : Profile) (img : Image UInt8) (bias : Int) (h : img.WF)
    (hc : img.info.alpha = true → 0 < img.info.channels) (hb : -255 ≤ bias ∧ bias ≤ 255) :
    ∃ out, brightness false P img bias = .ok out ∧ out.Shows img.info (fun x y =>
      (img.info.colour (img.px x y)).map (satAdd · bias) ++ img.info.alphaOf (img.px x y)) := by
  unfold brightness
  rw [i16Abs_ok (by omega) (by omega), ok_bind, checkInRange_byte, if_neg (by split <;> omega), ok_bind]
  simp only [Bool.false_eq_true, if_false]
  unfold brightnessRgbNorm
  have : (fun i => addClampU8 P i bias) = fun i => .ok (satAdd i bias) := by
    funext i; exact addClampU8_eq hb
  rw [this, c78_table_map P img _ List.length_replicate]
  obtain ⟨out, e, ho⟩ := Image.mapChannelsIfAlpha_colour P h hc (f := fun c => .ok (satAdd c bias))
    (g := fun a => .ok a) (f' := (satAdd · bias)) (g' := id) (fun _ _ => rfl) (fun _ _ => rfl)
  exact ⟨out, e, by simpa using ho⟩

/-- **C20** the saturating sum, in words -/
theorem c20_satAdd (v : UInt8) (bias : Int) :
    (0 ≤ (v.toNat : Int) + bias → (v.toNat : Int) + bias ≤ 255 → ((satAdd v bias).toNat : Int) = v.toNat + bias) ∧
    ((v.toNat : Int) + bias < 0 → satAdd v bias = 0) ∧ (255 < (v.toNat : Int) + bias → satAdd v bias = 255) := by
  have h := satAdd_toNat v bias
  refine ⟨fun h1 h2 => by omega, fun h1 => UInt8.toNat_inj.1 ?_, fun h1 => UInt8.toNat_inj.1 ?_⟩
  · show _ = 0; omega
  · show _ = 255; omega

example : brightness false .debug demoA 250 = .ok (Image.fromVec 2 1 4 true [251, 252, 253, 4, 255, 255, 255, 8]) := by decide +kernel
example : satAdd 250 10 = 255 ∧ satAdd 3 (-10) = 0 ∧ satAdd 3 4 = 7 := by decide

/-! ## C22 — contrast -/

/-- spec: the nearest byte (halves up) to the f32 product of `v` and the gain value `q` -/
def IsContrast (q : Rat) (v w : UInt8) : Prop := NearestByte (f32.rnd (v.toNat * q)) w.toNat

/-- the table function of `contrast` -/
def contrastVal [Libm f32] (gain : F32) (v : UInt8) : UInt8 :=
  match FloatOps.clamp (FloatOps.round (ofU8 (F := F32) v *. gain)) (num 0) (num 255) with
  | .ok y => toU8 y
  | .error _ => 0

theorem prod_bounds {v : UInt8} {q : Rat} (h0 : 0 ≤ q) (h1 : q ≤ 1) :
    0 ≤ f32.rnd (v.toNat * q) ∧ f32.rnd (v.toNat * q) ≤ v.toNat := by
  have hv := v.toNat_lt
  have hn : (0 : Rat) ≤ (v.toNat : Rat) := Nat.cast_nonneg _
  constructor
  · exact rndQ_nonneg (mul_nonneg hn h0)
  · exact rndQ_le (f32_nat (by omega)).1 (by nlinarith)

theorem contrastVal_is [Libm f32] {gain : F32} {q : Rat} (hg : gain.Is q) (h0 : 0 ≤ q) (h1 : q ≤ 1) (v : UInt8) :
    ∃ y : F32, FloatOps.clamp (FloatOps.round (ofU8 (F := F32) v *. gain)) (num 0) (num 255) = .ok y ∧
      y.Is (FP.roundAwayQ (f32.rnd (v.toNat * q)) : Rat) ∧
      0 ≤ FP.roundAwayQ (f32.rnd (v.toNat * q)) ∧ FP.roundAwayQ (f32.rnd (v.toNat * q)) ≤ v.toNat := by
  have hv := v.toNat_lt
  obtain ⟨b0, b1⟩ := prod_bounds (v := v) h0 h1
  have hb : |f32.rnd ((v.toNat : Rat) * q)| < pow2 f32.emax := by
    rw [abs_of_nonneg b0]
    exact lt_of_le_of_lt (le_trans b1 (le_abs_self _)) (f32_nat (n := v.toNat) (by omega)).2
  have hm := mul_is (ofU8_is v) hg hb
  have hr := round_is hm (roundAwayQ_exact (by decide) (by decide) (Fmt.rnd_exact hb))
  have r0 : 0 ≤ FP.roundAwayQ (f32.rnd (v.toNat * q)) := le_roundAwayQ (by simpa using b0)
  have r1 : FP.roundAwayQ (f32.rnd (v.toNat * q)) ≤ v.toNat := roundAwayQ_le (by simpa using b1)
  obtain ⟨y, e, hy⟩ := clamp_is hr (num32 (n := 0) (by decide)) (num32 (n := 255) (by decide)) (by norm_num)
  refine ⟨y, e, ?_, r0, r1⟩
  have c0 : ((0 : Int) : Rat) ≤ (FP.roundAwayQ (f32.rnd (v.toNat * q)) : Rat) := by exact_mod_cast r0
  have c1 : (FP.roundAwayQ (f32.rnd (v.toNat * q)) : Rat) ≤ ((255 : Int) : Rat) := by
    exact_mod_cast (show FP.roundAwayQ (f32.rnd (v.toNat * q)) ≤ 255 by omega)
  rwa [min_eq_right c1, max_eq_right c0] at hy

theorem contrastVal_toNat [Libm f32] {gain : F32} {q : Rat} (hg : gain.Is q) (h0 : 0 ≤ q) (h1 : q ≤ 1) (v : UInt8) :
    ((contrastVal gain v).toNat : Int) = FP.roundAwayQ (f32.rnd (v.toNat * q)) := by
  have hv := v.toNat_lt
  obtain ⟨y, e, hy, r0, r1⟩ := contrastVal_is hg h0 h1 v
  unfold contrastVal
  rw [e]; simp only
  rw [toU8_toNat hy, truncQ_int]; omega

/-- the image part of `contrast`, once the gain is accepted -/
theorem contrast_image [Libm f32] (P : Profile) (img : Image UInt8) (h : img.WF)
    (hc : img.info.alpha = true → 0 < img.info.channels) (gain : F32) (hg : ¬ OutsideUnit gain)
    (hok : ∀ v : UInt8, ∃ y, FloatOps.clamp (FloatOps.round (ofU8 (F := F32) v *. gain)) (num 0) (num 255) = .ok y) :
    ∃ out, contrast P img gain = .ok out ∧ out.Shows img.info (fun x y =>
      (img.info.colour (img.px x y)).map (contrastVal gain) ++ img.info.alphaOf (img.px x y)) := by
  have e1 : f32.Exact 1 := by simpa using f32_int (n := 1) (by decide)
  have hn : ¬ Negative gain := fun hn => hg (negative_outside hn)
  unfold contrast checkNonNeg checkInRange
  rw [if_neg (by rw [show (rnum (F := F32)).lt gain ((rnum (F := F32)).ofU8 0) = (gain <. (ofU8 0 : F32)) from rfl,
      lt_zero_iff Fmt.Exact.zero]; exact hn), ok_bind,
    if_neg (by
      rw [show ((rnum (F := F32)).lt gain (num 0) || (rnum (F := F32)).lt (num 1) gain) =
        ((gain <. (num 0 : F32)) || ((num 1 : F32) <. gain)) from rfl, Bool.or_eq_true, outside_unit_iff e1]
      exact hg), ok_bind]
  have ht : (fun i : UInt8 => do
      let v ← FloatOps.clamp (FloatOps.round (ofU8 (F := F32) i *. gain)) (num 0) (num 255)
      (.ok (toU8 v) : Res UInt8)) = fun i => .ok (contrastVal gain i) := by
    funext i
    obtain ⟨y, e⟩ := hok i
    unfold contrastVal
    rw [e, ok_bind]
  rw [ht, c78_table_map P img _ List.length_replicate]
  obtain ⟨out, e, ho⟩ := Image.mapChannelsIfAlpha_colour P h hc (f := fun c => .ok (contrastVal gain c))
    (g := fun a => .ok a) (f' := contrastVal gain) (g' := id) (fun _ _ => rfl) (fun _ _ => rfl)
  exact ⟨out, e, by simpa using ho⟩

/-- **C22** For a gain in [0,1] `contrast` keeps header and alpha and maps every colour value `v` to
`m v`, where `m v` is the rounding of the f32 product `v·gain`; `m` is monotone and never exceeds its
argument. -/
theorem c22_contrast [Libm f32] (P : Profile) (img : Image UInt8) (h : img.WF)
    (hc : img.info.alpha = true → 0 < img.info.channels) (gain : F32) (q : Rat) (hg : gain.Is q)
    (h0 : 0 ≤ q) (h1 : q ≤ 1) :
    ∃ out, ∃ m : UInt8 → UInt8, contrast P img gain = .ok out ∧ out.Shows img.info (fun x y =>
        (img.info.colour (img.px x y)).map m ++ img.info.alphaOf (img.px x y)) ∧
      (∀ v, IsContrast q v (m v)) ∧ (∀ v w, v ≤ w → m v ≤ m w) ∧ (∀ v, m v ≤ v) ∧
      (q = 1 → ∀ v, m v = v) ∧ (q = 0 → ∀ v, m v = 0) := by
  have hout : ¬ OutsideUnit gain := by
    unfold OutsideUnit
    rcases FP.toQ?_cases hg with e | ⟨e, rfl⟩ <;> rw [e]
    · simp only; push Not; exact ⟨h0, h1⟩
    · simp
  obtain ⟨out, e, ho⟩ := contrast_image P img h hc gain hout
    (fun v => let ⟨y, e, _⟩ := contrastVal_is hg h0 h1 v; ⟨y, e⟩)
  have key := fun v => contrastVal_toNat hg h0 h1 v
  refine ⟨out, contrastVal gain, e, ho, ?_, ?_, ?_, ?_, ?_⟩
  · intro v
    have hv := v.toNat_lt
    have := nearestByte_round (f32.rnd (v.toNat * q))
    unfold IsContrast
    obtain ⟨_, _, _, r0, r1⟩ := contrastVal_is hg h0 h1 v
    rw [show (max 0 (min 255 (FP.roundAwayQ (f32.rnd (v.toNat * q))))).toNat = (contrastVal gain v).toNat by
      have := key v; omega] at this
    exact this
  · intro v w hvw
    rw [UInt8.le_iff_toNat_le] at *
    have : (v.toNat : Rat) ≤ w.toNat := by exact_mod_cast hvw
    have := roundAwayQ_mono (rndQ_mono (f := f32.toRFmt) (mul_le_mul_of_nonneg_right this h0))
    have k1 := key v; have k2 := key w
    unfold Fmt.rnd at k1 k2
    omega
  · intro v
    obtain ⟨_, _, _, r0, r1⟩ := contrastVal_is hg h0 h1 v
    rw [UInt8.le_iff_toNat_le]
    have := key v; omega
  · rintro rfl v
    have hv := v.toNat_lt
    have := key v
    rw [mul_one, (f32_nat (n := v.toNat) (by omega)).rnd,
      show FP.roundAwayQ (v.toNat : Rat) = v.toNat by simpa using roundAwayQ_int (v.toNat : Int)] at this
    exact UInt8.toNat_inj.1 (by omega)
  · rintro rfl v
    have := key v
    rw [mul_zero, Fmt.Exact.zero.rnd, ← Int.cast_zero, roundAwayQ_int] at this
    exact UInt8.toNat_inj.1 (by show _ = 0; omega)

/-- **C22** NaN is accepted as a gain and turns every colour value into 0. -/
theorem c22_contrast_nan [Libm f32] (P : Profile) (img : Image UInt8) (h : img.WF)
    (hc : img.info.alpha = true → 0 < img.info.channels) (gain : F32) (hg : gain.val = .nan) :
    ∃ out, contrast P img gain = .ok out ∧ out.Shows img.info (fun x y =>
        (img.info.colour (img.px x y)).map (fun _ => 0) ++ img.info.alphaOf (img.px x y)) := by
  have hm : ∀ v : UInt8, (FloatOps.round (ofU8 (F := F32) v *. gain)).val = .nan := by
    intro v
    show FP.roundAway f32 (FP.mul f32 (ofU8 v : F32).val gain.val) = .nan
    have h' : (ofU8 v : F32).val.toQ? = some (v.toNat : Rat) := ofU8_is v
    rw [hg]
    unfold FP.mul
    rw [h']; rfl
  have hcl : ∀ v : UInt8, FloatOps.clamp (FloatOps.round (ofU8 (F := F32) v *. gain)) (num 0) (num 255) =
      .ok (FloatOps.round (ofU8 (F := F32) v *. gain)) := fun v =>
    clamp_nan (hm v) (num32 (n := 0) (by decide)) (num32 (n := 255) (by decide)) (by norm_num)
  obtain ⟨out, e, ho⟩ := contrast_image P img h hc gain (by unfold OutsideUnit; rw [hg]; exact id)
    (fun v => ⟨_, hcl v⟩)
  refine ⟨out, e, ?_⟩
  have : contrastVal gain = fun _ => 0 := by
    funext v
    unfold contrastVal
    rw [hcl v]
    simp only
    unfold toU8
    show UInt8.ofNat (FP.toInt 0 255 (FloatOps.round (ofU8 (F := F32) v *. gain)).val).toNat = 0
    rw [hm v]; rfl
  rwa [this] at ho

example : (Flt.ofRat f32 (1/2)).Is (1/2) := by
  show (Flt.ofRat f32 (1/2)).val.toQ? = some (1/2); decide +kernel

/-! ## C23 — gamma -/

/-- **C23** `gamma` with an accepted exponent keeps header and alpha for every exponent, maximum and
libm. -/
theorem c23_gamma_shape [Libm f32] (P : Profile) (img : Image UInt8) (h : img.WF)
    (hc : img.info.alpha = true → 0 < img.info.channels) (g : F32) (hg : ¬ Negative g) (max : UInt8) :
    ∃ out, ∃ m : UInt8 → UInt8, gammaOp P img g max = .ok out ∧ out.Shows img.info (fun x y =>
        (img.info.colour (img.px x y)).map m ++ img.info.alphaOf (img.px x y)) ∧
      ∀ v, m v = toU8 (FloatOps.round (FloatOps.pow (ofU8 (F := F32) v /. ofU8 max) g *. ofU8 max)) := by
  unfold gammaOp checkNonNeg
  rw [if_neg (by rw [show (rnum (F := F32)).lt g ((rnum (F := F32)).ofU8 0) = (g <. (ofU8 0 : F32)) from rfl,
      lt_zero_iff Fmt.Exact.zero]; exact hg), ok_bind]
  obtain ⟨out, e, ho⟩ := Image.mapChannelsIfAlpha_colour P h hc
    (f := fun c => .ok (toU8 (FloatOps.round (FloatOps.pow (ofU8 (F := F32) c /. ofU8 max) g *. ofU8 max))))
    (g := fun a => .ok a) (g' := id) (fun _ _ => rfl) (fun _ _ => rfl)
  exact ⟨out, _, e, by simpa using ho, fun _ => rfl⟩

/-- `v/255*255` in f32 rounds back to `v` -/
theorem div255_mul255 [Libm f32] (v : UInt8) :
    toU8 (FloatOps.round ((ofU8 (F := F32) v /. ofU8 255) *. ofU8 255)) = v := by
  have hv := v.toNat_lt
  have h255 : (ofU8 255 : F32).Is 255 := by simpa using ofU8_is (255 : UInt8)
  by_cases h0 : v.toNat = 0
  · have hv0 : v = 0 := UInt8.toNat_inj.1 h0
    have hz : (ofU8 v : F32).Is 0 := by have := ofU8_is v; rw [h0] at this; simpa using this
    have h1 : (ofU8 v /. ofU8 255 : F32).Is (0 / 255) := div_exact hz h255 (by norm_num) (by simpa using Fmt.Exact.zero)
    have h2 := mul_exact h1 h255 (by simpa using Fmt.Exact.zero)
    rw [show (0 / 255 * 255 : Rat) = ((0 : Int) : Rat) by norm_num] at h2
    have hr := round_is h2 (by rw [roundAwayQ_int]; exact f32_int (by decide))
    rw [roundAwayQ_int] at hr
    rw [toU8_of_is (n := 0) (by simpa using hr) (by decide), hv0]; rfl
  · have hp : (1 : Rat) ≤ v.toNat := by exact_mod_cast Nat.one_le_iff_ne_zero.2 h0
    have hle : (v.toNat : Rat) ≤ 255 := by exact_mod_cast Nat.le_of_lt_succ hv
    obtain ⟨a1, a2⟩ := f32_bounds (q := (v.toNat : Rat) / 255) (by
      have : (1 : Rat) / 255 ≤ v.toNat / 255 := by linarith
      refine le_trans ?_ this; norm_num)
    have h1 : (ofU8 v /. ofU8 255 : F32).Is (f32.rnd (v.toNat / 255)) := div_is (ofU8_is v) h255 (by norm_num)
      (f32_ovf (by rw [abs_of_nonneg (by positivity)]; linarith))
    set t := f32.rnd ((v.toNat : Rat) / 255) with ht
    have t0 : 1 / 256 ≤ t := by linarith
    have t1 : t ≤ 2 := by linarith
    obtain ⟨b1, b2⟩ := f32_bounds (q := t * 255) (by
      have : (1 : Rat) / 2 ^ 126 ≤ 1 / 256 := by norm_num
      linarith)
    have h2 : ((ofU8 v /. ofU8 255) *. ofU8 255 : F32).Is (f32.rnd (t * 255)) := mul_is h1 h255
      (f32_ovf (by rw [abs_of_nonneg (by positivity)]; linarith))
    have hr : FP.roundAwayQ (f32.rnd (t * 255)) = (v.toNat : Int) := roundAwayQ_eq (by
      rw [abs_lt, Int.cast_natCast]; constructor <;> linarith)
    have h3 := round_is h2 (by rw [hr]; exact f32_int (by rw [abs_of_nonneg (by omega)]; omega))
    rw [hr, Int.cast_natCast] at h3
    rw [toU8_of_is h3 hv, UInt8.ofNat_toNat]

/-- **C23** with `max = 255` and a libm in which `powf(x, 1) = x`, `gamma(1)` is the identity. -/
theorem c23_gamma_one [Libm f32] (P : Profile) (img : Image UInt8) (h : img.WF)
    (hc : img.info.alpha = true → 0 < img.info.channels)
    (hpow : ∀ x : F32, FloatOps.pow x (num 1) = x) : gammaOp P img (num 1 : F32) 255 = .ok img := by
  have hn : ¬ Negative (num 1 : F32) := by
    rw [← lt_zero_iff Fmt.Exact.zero, lt_is (num32 (n := 1) (by decide)) (by simpa using ofU8_is (0 : UInt8))]
    norm_num
  obtain ⟨out, m, e, ho, hm⟩ := c23_gamma_shape P img h hc (num 1) hn 255
  rw [e]
  congr 1
  refine Image.Shows.ext ho (h.shows.congr fun x y _ _ => ?_)
  have : m = id := by
    funext v; rw [hm v, hpow, div255_mul255]; rfl
  rw [this, List.map_id, img.info.colour_append]

example : ¬ Negative (Flt.ofRat f32 (1/2)) := by
  have h : (Flt.ofRat f32 (1/2)).val = .fin (1/2) := by decide +kernel
  unfold Negative; rw [h]; norm_num
example : letI := trivialLibm f32; ∀ x : F32, FloatOps.pow x (num 1) = x := fun _ => rfl

/-! ## C24 — saturation -/

/-- spec: `q` is the RGB triple obtained from the RGB triple `p` by going to HSV, adding `s` to the
saturation with clamping to a byte, and going back -/
def IsSaturated (s : Int) (q p : List UInt8) : Prop :=
  ∃ r g b H S V r' g' b' : UInt8, p = [r, g, b] ∧ q = [r', g', b'] ∧
    (H.toNat : Int) = hueSpec r.toNat g.toNat b.toNat ∧
    (S.toNat : Int) = satSpec r.toNat g.toNat b.toNat ∧
    (V.toNat : Int) = max3i r.toNat g.toNat b.toNat ∧
    ((r'.toNat : Int), (g'.toNat : Int), (b'.toNat : Int)) = rgbSpec H.toNat (satAdd S s).toNat V.toNat

/-- **C24** Without AVX2, `saturation` keeps header and alpha and shifts only the saturation. -/
theorem c24_saturation (P : Profile) (img : Image UInt8) (h : img.WF)
    (hpos : 0 < img.info.width ∧ 0 < img.info.height) (h3 : img.info.colours = 3) (s : Int)
    (hs : -255 ≤ s ∧ s ≤ 255) :
    ∃ out, saturation false P img s = .ok out ∧ out.WF ∧ out.info = img.info ∧
      ∀ x y, x < img.info.width → y < img.info.height →
        img.info.alphaOf (out.px x y) = img.info.alphaOf (img.px x y) ∧
        IsSaturated s (img.info.colour (out.px x y)) (img.info.colour (img.px x y)) := by
  obtain ⟨hsv, F, e, hsh, hF⟩ := c32_rgb_to_hsv P img h hpos h3
  have hi := hsh.info_eq
  have hch := (three_colours h3).2
  obtain ⟨hsv', e', hsh'⟩ := c08_edit_channel P hsv hsh.WF (satAdd · s) 1 (by rw [hi, ← hch]; omega)
  have hi' := hsh'.info_eq
  have hpx : ∀ x y, x < img.info.width → y < img.info.height →
      hsv'.px x y = (F (img.info.colour (img.px x y)) ++ img.info.alphaOf (img.px x y)).modify 1 (satAdd · s) := by
    intro x y hx hy
    rw [hsh'.px_eq (by rw [hi]; exact hx) (by rw [hi]; exact hy), hsh.px_eq hx hy]
  obtain ⟨out, G, e'', ho, hG⟩ := c32_hsv_to_rgb P hsv' hsh'.WF (by rw [hi', hi]; exact hpos) (by rw [hi', hi]; exact h3)
  rw [hi', hi] at ho hG
  refine ⟨out, ?_, ho.WF, ho.info_eq, ?_⟩
  · unfold saturation
    rw [checkInRange_byte, if_neg (by omega), ok_bind, e, ok_bind]
    simp only [Bool.false_eq_true, if_false]
    unfold saturationNorm
    have : (fun s' => addClampU8 P s' s) = fun v => .ok (satAdd v s) := by
      funext v; exact addClampU8_eq hs
    rw [this, e', ok_bind, e'']
  · intro x y hx hy
    have hal := img.info.alphaOf_length (Image.px_length h hx hy) (three_colours h3).1
    obtain ⟨r, g, b, H, S, V, ep, eq, eH, eS, eV⟩ := hF x y hx hy
    have k1 := hpx x y hx hy
    rw [eq] at k1
    have k1' : hsv'.px x y = [H, satAdd S s, V] ++ img.info.alphaOf (img.px x y) := k1
    obtain ⟨c1, c2⟩ := img.info.colour_of_append (q := [H, satAdd S s, V])
      (a := img.info.alphaOf (img.px x y)) hal
    have k2 := ho.px_eq hx hy
    rw [k1', c1, c2] at k2
    obtain ⟨d1, d2⟩ := img.info.colour_of_append (q := G [H, satAdd S s, V])
      (a := img.info.alphaOf (img.px x y)) hal
    rw [k2, d1, d2]
    refine ⟨rfl, ?_⟩
    have hg := hG x y hx hy
    rw [k1', c1] at hg
    obtain ⟨H', S', V', r', g', b', e1, e2, e3⟩ := hg
    cases e1
    exact ⟨r, g, b, H, S, V, r', g', b', ep, e2, eH, eS, eV, e3⟩

/-- **C24** the shift keeps the largest colour value of every pixel ... -/
theorem c24_keeps_max {s : Int} {q p : List UInt8} (h : IsSaturated s q p) (m : UInt8)
    (hm : m ∈ p ∧ ∀ v ∈ p, v ≤ m) : m ∈ q ∧ ∀ v ∈ q, v ≤ m := by
  obtain ⟨r, g, b, H, S, V, r', g', b', rfl, rfl, eH, eS, eV, e⟩ := h
  have hV : V = m := by
    apply UInt8.toNat_inj.1
    simp only [List.mem_cons, List.not_mem_nil, or_false, forall_eq_or_imp, forall_eq,
      UInt8.le_iff_toNat_le] at hm
    unfold max3i at eV
    rcases hm.1 with rfl | rfl | rfl <;> omega
  subst hV
  have hb := rgbSpec_bytes (u8_byte H) (u8_byte (satAdd S s)) (u8_byte V)
  rw [← e] at hb
  have inj : ∀ a c : UInt8, (c.toNat : Int) = a.toNat → a = c := fun a c h => UInt8.toNat_inj.1 (by omega)
  constructor
  · unfold rgbSpec at e
    simp only [List.mem_cons, List.not_mem_nil, or_false]
    split_ifs at e
    all_goals
      simp only [Prod.mk.injEq] at e
      first
        | exact .inl (inj _ _ (by omega))
        | exact .inr (.inl (inj _ _ (by omega)))
        | exact .inr (.inr (inj _ _ (by omega)))
  · intro w hw
    simp only [List.mem_cons, List.not_mem_nil, or_false] at hw
    have := hb w.toNat (by rcases hw with rfl | rfl | rfl <;> simp)
    rw [UInt8.le_iff_toNat_le]; omega

/-- **C24** ... and `-255` turns every pixel into the grey of its largest value. -/
theorem c24_desaturates {q p : List UInt8} (h : IsSaturated (-255) q p) (m : UInt8)
    (hm : m ∈ p ∧ ∀ v ∈ p, v ≤ m) : q = [m, m, m] := by
  obtain ⟨r, g, b, H, S, V, r', g', b', rfl, rfl, eH, eS, eV, e⟩ := h
  have hV : V = m := by
    apply UInt8.toNat_inj.1
    simp only [List.mem_cons, List.not_mem_nil, or_false, forall_eq_or_imp, forall_eq,
      UInt8.le_iff_toNat_le] at hm
    unfold max3i at eV
    rcases hm.1 with rfl | rfl | rfl <;> omega
  subst hV
  have hS := S.toNat_lt
  have := satAdd_toNat S (-255)
  unfold rgbSpec at e
  rw [if_pos (by omega)] at e
  simp only [Prod.mk.injEq] at e
  have inj : ∀ a c : UInt8, (a.toNat : Int) = c.toNat → a = c := fun a c h => UInt8.toNat_inj.1 (by omega)
  rw [inj _ _ e.1, inj _ _ e.2.1, inj _ _ e.2.2]

example : saturation false .debug demoA (-255) = .ok (Image.fromVec 2 1 4 true [3, 3, 3, 4, 7, 7, 7, 8]) := by
  decide +kernel
end Imgproc

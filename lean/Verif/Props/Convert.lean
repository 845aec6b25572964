import Verif.Proofs.IEEE
import Verif.Core.Ideal
import Verif.Proofs.Fill
import Verif.Model.Convert
import Verif.Props.Image
/-! Properties C14–C18: channel type conversions, in IEEE arithmetic. -/
namespace Imgproc
open FloatOps

/-- a libm to instantiate examples with (its functions are irrelevant to them) -/
@[reducible] def trivialLibm (f : Fmt) : Libm f := ⟨fun a _ => a, id, id⟩

/-! ## C14 -/

theorem round_ofU8 {f : Fmt} [Libm f] {v : UInt8} (h : (ofU8 v : Flt f).Is (v.toNat : Rat))
    (he : f.emin ≤ 0) (hE : (f.p : Int) < f.emax) : toU8 (FloatOps.round (ofU8 v : Flt f)) = v := by
  have hr := round_is h (roundAwayQ_exact he hE h.exact)
  rw [← Int.cast_natCast, roundAwayQ_int, Int.cast_natCast] at hr
  rw [toU8_of_is hr v.toNat_lt, UInt8.ofNat_toNat]

theorem ofU8_is64 [Libm f64] (v : UInt8) : (ofU8 v : F64).Is (v.toNat : Rat) := by
  have h := v.toNat_lt
  have := ofInt_exact (f := f64) (n := (v.toNat : Int)) (f64_int (by rw [abs_of_nonneg (by omega)]; omega))
  rwa [Int.cast_natCast] at this

/-- **C14** A u8 image converted to f32 (or f64) holds exactly its channel values, and converting back
returns the original image. -/
theorem c14_f32_round_trip [Libm f32] (P : Profile) (img : Image UInt8) (h : img.WF) :
    ∃ mid : Image F32, imageU8ToFloat P img = .ok mid ∧ mid.info = img.info ∧
      (∀ i : Nat, (mid.data[i]?).map (fun x => x.val.toQ?) = (img.data[i]?).map (fun v => some (v.toNat : Rat))) ∧
      imageFloatToU8 P mid = .ok img := by
  refine ⟨_, Image.mapChannels_eq P h (fun _ _ => rfl), rfl, ?_, ?_⟩
  · intro i
    simp only [List.getElem?_map, Option.map_map]
    congr 1; funext v
    exact ofU8_is v
  · unfold imageFloatToU8
    rw [Image.mapChannels_eq P (Image.mapChannels_WF h _) (f' := fun c => toU8 (FloatOps.round c)) (fun _ _ => rfl)]
    simp only [List.map_map]
    congr 1
    have : (fun c : F32 => toU8 (FloatOps.round c)) ∘ (fun v => ofU8 v) = id := by
      funext v; exact round_ofU8 (ofU8_is v) (by decide) (by decide)
    rw [this, List.map_id]

/-- **C14** through f64 -/
theorem c14_f64_round_trip [Libm f64] (P : Profile) (img : Image UInt8) (h : img.WF) :
    ∃ mid : Image F64, imageU8ToFloat P img = .ok mid ∧ mid.info = img.info ∧
      (∀ i : Nat, (mid.data[i]?).map (fun x => x.val.toQ?) = (img.data[i]?).map (fun v => some (v.toNat : Rat))) ∧
      imageFloatToU8 P mid = .ok img := by
  refine ⟨_, Image.mapChannels_eq P h (fun _ _ => rfl), rfl, ?_, ?_⟩
  · intro i
    simp only [List.getElem?_map, Option.map_map]
    congr 1; funext v
    exact ofU8_is64 v
  · unfold imageFloatToU8
    rw [Image.mapChannels_eq P (Image.mapChannels_WF h _) (f' := fun c => toU8 (FloatOps.round c)) (fun _ _ => rfl)]
    simp only [List.map_map]
    congr 1
    have : (fun c : F64 => toU8 (FloatOps.round c)) ∘ (fun v => ofU8 v) = id := by
      funext v; exact round_ofU8 (ofU8_is64 v) (by decide) (by decide)
    rw [this, List.map_id]

example : ∃ mid : Image F32, letI := trivialLibm f32; imageU8ToFloat .debug demo = .ok mid ∧
    imageFloatToU8 .debug mid = .ok demo :=
  letI := trivialLibm f32
  let ⟨m, h1, _, _, h2⟩ := c14_f32_round_trip .debug demo demo_WF; ⟨m, h1, h2⟩

/-! ## C15 -/

/-- spec: `n` is the byte nearest to `q`, halves rounding up (away from zero), saturating -/
def NearestByte (q : Rat) (n : Nat) : Prop :=
  (q < 1 / 2 ∧ n = 0) ∨ (509 / 2 ≤ q ∧ n = 255) ∨ ((n : Rat) - 1 / 2 ≤ q ∧ q < n + 1 / 2 ∧ n ≤ 255)

/-- spec of the float → u8 conversion on every float datum -/
def U8OfFloat (x : FP) (n : Nat) : Prop :=
  match x with
  | .nan => n = 0
  | .inf neg => n = if neg then 0 else 255
  | .negZero => n = 0
  | .fin q => NearestByte q n

theorem nearestByte_round (q : Rat) : NearestByte q (max 0 (min 255 (FP.roundAwayQ q))).toNat := by
  unfold NearestByte
  by_cases h1 : q < 1 / 2
  · left; refine ⟨h1, ?_⟩
    have : FP.roundAwayQ q ≤ 0 := by
      unfold FP.roundAwayQ
      split
      · have := rat_floor_lt (q := q + 1/2) (z := 1) |>.2 (by push_cast; linarith); omega
      · have := rat_le_floor (q := -q + 1/2) (z := 0) |>.2 (by push_cast; linarith); omega
    omega
  · push Not at h1
    by_cases h2 : 509 / 2 ≤ q
    · right; left; refine ⟨h2, ?_⟩
      have : 255 ≤ FP.roundAwayQ q := by
        unfold FP.roundAwayQ
        rw [if_pos (by linarith)]
        exact rat_le_floor.2 (by push_cast; linarith)
      omega
    · push Not at h2
      right; right
      have h0 : 0 ≤ q := by linarith
      have hr : FP.roundAwayQ q = (q + 1 / 2).floor := if_pos h0
      have ha := rat_floor_le (q + 1 / 2)
      have hb := rat_lt_floor (q + 1 / 2)
      have hc : 1 ≤ (q + 1 / 2).floor := rat_le_floor.2 (by push_cast; linarith)
      have hd : (q + 1 / 2).floor < 255 := rat_floor_lt.2 (by push_cast; linarith)
      rw [hr]
      have he : max 0 (min 255 (q + 1 / 2).floor) = (q + 1 / 2).floor := by omega
      rw [he]
      have hf : (((q + 1 / 2).floor.toNat : Nat) : Rat) = ((q + 1 / 2).floor : Rat) := by
        rw [← Int.cast_natCast, Int.toNat_of_nonneg (by omega)]
      rw [hf]
      refine ⟨by linarith, by linarith, by omega⟩

theorem toU8_round_spec {f : Fmt} [Libm f] (he : f.emin ≤ 0) (hE : (f.p : Int) < f.emax) (x : Flt f) :
    U8OfFloat x.val (toU8 (FloatOps.round x)).toNat := by
  have key : ∀ q, x.Is q → NearestByte q (toU8 (FloatOps.round x)).toNat := by
    intro q h
    have hr := round_is h (roundAwayQ_exact he hE h.exact)
    rw [toU8_toNat hr, truncQ_int]
    exact nearestByte_round q
  obtain ⟨v, r⟩ := x
  cases v with
  | nan => rfl
  | inf b => cases b <;> rfl
  | negZero =>
    rcases key 0 rfl with h | h | h
    · exact h.2
    · norm_num at h
    · have := h.1
      simp only [U8OfFloat]
      have h3 : ((toU8 (FloatOps.round (⟨.negZero, r⟩ : Flt f))).toNat : Rat) < 1 := by linarith
      have h4 : (toU8 (FloatOps.round (⟨.negZero, r⟩ : Flt f))).toNat < 1 := by exact_mod_cast h3
      omega
  | fin q => exact key q rfl

theorem NearestByte.mono {q q' : Rat} {n n' : Nat} (hq : q ≤ q') (h : NearestByte q n) (h' : NearestByte q' n') :
    n ≤ n' := by
  unfold NearestByte at *
  rcases h with ⟨a, rfl⟩ | ⟨a, rfl⟩ | ⟨a, b, c⟩
  · exact Nat.zero_le _
  · rcases h' with ⟨a', rfl⟩ | ⟨a', rfl⟩ | ⟨a', b', c'⟩
    · linarith
    · rfl
    · have : (254 : Rat) < n' := by linarith
      have : 254 < n' := by exact_mod_cast this
      omega
  · rcases h' with ⟨a', rfl⟩ | ⟨a', rfl⟩ | ⟨a', b', c'⟩
    · have : (n : Rat) < 1 := by linarith
      have : n < 1 := by exact_mod_cast this
      omega
    · exact c
    · have : (n : Rat) < n' + 1 := by linarith
      have : n < n' + 1 := by exact_mod_cast this
      omega

/-- **C15** `Image<u8>::from(Image<f32>)` never fails, keeps the header and maps every channel as
specified: nearest byte with halves up, saturating, NaN to 0. -/
theorem c15_f32_to_u8 [Libm f32] (P : Profile) (img : Image F32) (h : img.WF) :
    ∃ out, imageFloatToU8 P img = .ok out ∧ out.info = img.info ∧ out.data.length = img.data.length ∧
      ∀ (i : Nat) x, img.data[i]? = some x → ∃ v, out.data[i]? = some v ∧ U8OfFloat x.val v.toNat := by
  refine ⟨_, Image.mapChannels_eq P h (fun _ _ => rfl), rfl, by simp, ?_⟩
  intro i x hx
  exact ⟨toU8 (FloatOps.round x), by simp [List.getElem?_map, hx], toU8_round_spec (by decide) (by decide) x⟩

/-- **C15** for f64 -/
theorem c15_f64_to_u8 [Libm f64] (P : Profile) (img : Image F64) (h : img.WF) :
    ∃ out, imageFloatToU8 P img = .ok out ∧ out.info = img.info ∧ out.data.length = img.data.length ∧
      ∀ (i : Nat) x, img.data[i]? = some x → ∃ v, out.data[i]? = some v ∧ U8OfFloat x.val v.toNat := by
  refine ⟨_, Image.mapChannels_eq P h (fun _ _ => rfl), rfl, by simp, ?_⟩
  intro i x hx
  exact ⟨toU8 (FloatOps.round x), by simp [List.getElem?_map, hx], toU8_round_spec (by decide) (by decide) x⟩

/-- **C15** (uniqueness) the specification determines the byte, so it is a full description -/
theorem c15_spec_unique (x : FP) (n n' : Nat) (h : U8OfFloat x n) (h' : U8OfFloat x n') : n = n' := by
  cases x with
  | fin q => exact Nat.le_antisymm (h.mono (le_refl q) h') (h'.mono (le_refl q) h)
  | _ => exact Eq.trans h (Eq.symm h')

/-- **C15** the conversion is monotone: `x <= y` (float comparison) implies the bytes are ordered. -/
theorem c15_monotone (x y : FP) (n n' : Nat) (hxy : FP.le x y = true) (h : U8OfFloat x n)
    (h' : U8OfFloat y n') : n ≤ n' := by
  have h0 : ∀ n : Nat, n = 0 → NearestByte 0 n := fun n hn => .inl ⟨by norm_num, hn⟩
  have h255 : ∀ q n, NearestByte q n → n ≤ 255 := by
    rintro q n (⟨_, rfl⟩ | ⟨_, rfl⟩ | ⟨_, _, h⟩) <;> omega
  cases x with
  | nan => cases y <;> simp [FP.le, FP.toQ?] at hxy
  | inf b =>
    cases b
    · cases y with
      | inf b => cases b
                 · rw [show n = 255 from h, show n' = 255 from h']
                 · simp [FP.le, FP.toQ?, FP.sign] at hxy
      | _ => simp [FP.le, FP.toQ?, FP.sign] at hxy
    · rw [show n = 0 from h]; exact Nat.zero_le _
  | negZero =>
    rw [show n = 0 from h]; exact Nat.zero_le _
  | fin q =>
    cases y with
    | nan => simp [FP.le, FP.toQ?] at hxy
    | inf b =>
      cases b
      · rw [show n' = 255 from h']; exact h255 q n h
      · simp [FP.le, FP.toQ?, FP.sign] at hxy
    | negZero =>
      simp only [FP.le, FP.toQ?, decide_eq_true_eq] at hxy
      exact NearestByte.mono hxy h (h0 _ h')
    | fin r =>
      simp only [FP.le, FP.toQ?, decide_eq_true_eq] at hxy
      exact NearestByte.mono hxy h h'

example : U8OfFloat (.fin (5 / 2)) 3 := .inr (.inr (by norm_num))
example : U8OfFloat (.fin 300) 255 := .inr (.inl (by norm_num))

/-! ## C16 -/

/-- the byte survives division by 255, scaling, unscaling and multiplication by 255 -/
theorem scale_round_trip_channel [Libm f32] (v : UInt8) {s : Nat} (h1 : 1 ≤ s) (h2 : s < U32SIZE) :
    toU8 (FloatOps.round (((ofU8 v : F32) /. num 255) *. ofNat s /. ofNat s *. num 255)) = v := by
  have hv := v.toNat_lt
  have hvQ : ((v.toNat : Nat) : Rat) ≤ 255 := by exact_mod_cast (by omega : v.toNat ≤ 255)
  have hv0 : (0 : Rat) ≤ (v.toNat : Rat) := by positivity
  -- the scale, rounded
  have hsQ : (1 : Rat) ≤ (s : Rat) := by exact_mod_cast h1
  have hsQ2 : (s : Rat) ≤ 2 ^ 32 := by exact_mod_cast h2.le
  have hSb := f32_bounds (q := (s : Rat)) (by norm_num; linarith)
  have hS : (FloatOps.ofNat s : F32).Is (f32.rnd (s : Rat)) := by
    have := ofInt_is (f := f32) (n := (s : Int)) (f32_ovf (by
      rw [Int.cast_natCast, abs_of_nonneg (by linarith)]; norm_num; linarith))
    rwa [Int.cast_natCast] at this
  set S := f32.rnd (s : Rat) with hSdef
  have hSlo : (1 : Rat) ≤ S := by
    have := le_rndQ (f := f32.toRFmt) (r := 1) (q := (s : Rat)) (by
      have := (f32_int (n := 1) (by decide)).1; simpa using this) hsQ
    exact this
  have hShi : S ≤ 2 ^ 33 := by nlinarith [hSb.2]
  have hS0 : S ≠ 0 := by linarith
  have h255 : (num 255 : F32).Is 255 := by simpa using num32 (n := 255) (by decide)
  -- a = v / 255
  have ha := div_is (ofU8_is v) h255 (by norm_num) (f32_ovf (by
    rw [abs_of_nonneg (by positivity)]; norm_num; linarith))
  by_cases hz : v.toNat = 0
  · -- zero stays zero
    have hz' : v = 0 := UInt8.toNat_inj.1 hz
    rw [hz] at ha
    simp only [Nat.cast_zero, zero_div, Fmt.rnd, rndQ_zero] at ha
    have hb := mul_exact ha hS (by rw [zero_mul]; exact Fmt.Exact.zero)
    have hc := div_exact hb hS hS0 (by rw [zero_mul, zero_div]; exact Fmt.Exact.zero)
    have hd := mul_exact hc h255 (by rw [zero_mul, zero_div, zero_mul]; exact Fmt.Exact.zero)
    rw [zero_mul, zero_div, zero_mul] at hd
    have hr0 : FP.roundAwayQ 0 = 0 := by have := roundAwayQ_int 0; simpa using this
    have hr := round_is hd (by rw [hr0]; simpa using (Fmt.Exact.zero (f := f32)))
    rw [hr0] at hr
    rw [toU8_of_is (n := 0) (by simpa using hr) (by decide), hz']; rfl
  · have hv1 : (1 : Rat) ≤ (v.toNat : Rat) := by exact_mod_cast (by omega : 1 ≤ v.toNat)
    have hab := f32_bounds (q := (v.toNat : Rat) / 255) (by norm_num; linarith)
    set V := (v.toNat : Rat) with hV
    set a := f32.rnd (V / 255) with had
    have ha_lo : V / 255 * (1 - 1 / 16777216) ≤ a := hab.1
    have ha_hi : a ≤ V / 255 * (1 + 1 / 16777216) := hab.2
    have ha_pos : (1 : Rat) / 512 ≤ a := by linarith
    have ha_le : a ≤ 2 := by linarith
    have haS : (1 : Rat) / 512 ≤ a * S := by nlinarith
    have haS2 : a * S ≤ 2 ^ 34 := by nlinarith
    have hb := mul_is ha hS (f32_ovf (by
      rw [abs_of_nonneg (by linarith)]; norm_num at *; linarith))
    have hbb := f32_bounds (q := a * S) (by norm_num at *; linarith)
    set b := f32.rnd (a * S) with hbd
    -- c = b / S
    have hSpos : (0 : Rat) < S := by linarith
    have hc1 : a * (1 - 1 / 16777216) ≤ b / S := by
      rw [le_div_iff₀ hSpos]; nlinarith [hbb.1]
    have hc2 : b / S ≤ a * (1 + 1 / 16777216) := by
      rw [div_le_iff₀ hSpos]; nlinarith [hbb.2]
    have hc := div_is hb hS hS0 (f32_ovf (by
      rw [abs_of_nonneg (by linarith)]; norm_num; linarith))
    have hcb := f32_bounds (q := b / S) (by norm_num; linarith)
    set c := f32.rnd (b / S) with hcd
    -- d = c * 255
    have hd := mul_is hc h255 (f32_ovf (by
      rw [abs_of_nonneg (by nlinarith)]; norm_num; nlinarith))
    have hdb := f32_bounds (q := c * 255) (by norm_num; nlinarith)
    set d := f32.rnd (c * 255) with hdd
    have hnear : |d - ((v.toNat : Int) : Rat)| < 1 / 2 := by
      rw [Int.cast_natCast, ← hV, abs_lt]
      constructor <;> linarith [hcb.1, hcb.2, hdb.1, hdb.2]
    have hr := round_is hd (roundAwayQ_exact (by decide) (by decide) hd.exact)
    rw [roundAwayQ_eq hnear, Int.cast_natCast] at hr
    rw [toU8_of_is hr hv, UInt8.ofNat_toNat]

/-- **C16** Converting a u8 image to f32 in the range 0..scale and back returns the image, for every
scale from 1 to u32::MAX, rounding included. -/
theorem c16_scale_round_trip [Libm f32] (P : Profile) (img : Image UInt8) (h : img.WF) (s : Nat)
    (h1 : 1 ≤ s) (h2 : s < U32SIZE) :
    ∃ mid : Image F32, u8ToF32Scale P img s = .ok mid ∧ mid.info = img.info ∧
      f32ToU8Scale P mid s = .ok img := by
  refine ⟨_, Image.mapChannels_eq P h (fun _ _ => rfl), rfl, ?_⟩
  unfold f32ToU8Scale
  rw [Image.mapChannels_eq P (Image.mapChannels_WF h _)
    (f' := fun c => toU8 (FloatOps.round (c /. ofNat s *. num 255))) (fun _ _ => rfl)]
  simp only [List.map_map]
  congr 1
  have : (fun c : F32 => toU8 (FloatOps.round (c /. ofNat s *. num 255))) ∘
      (fun c => (ofU8 c /. num 255) *. ofNat s) = id := by
    funext v; exact scale_round_trip_channel v h1 h2
  rw [this, List.map_id]

example : ∃ mid : Image F32, letI := trivialLibm f32; u8ToF32Scale .debug demo 100 = .ok mid ∧
    f32ToU8Scale .debug mid 100 = .ok demo :=
  letI := trivialLibm f32
  let ⟨m, h1, _, h2⟩ := c16_scale_round_trip .debug demo demo_WF 100 (by decide) (by decide); ⟨m, h1, h2⟩

/-! ## C17 -/

/-- nonzero floats have a nonzero rounded difference (gradual underflow) -/
theorem rnd_sub_pos {f : Fmt} {a b : Rat} (ha : f.Exact a) (hb : f.Exact b) (h : a < b) :
    0 < f.rnd (b - a) := by
  obtain ⟨m, e, rfl, hm, he⟩ := ha.1
  obtain ⟨m', e', rfl, hm', he'⟩ := hb.1
  -- both are multiples of 2^emin
  have mult : ∀ (m e : Int), f.emin ≤ e → ∃ k : Int, (m : Rat) * pow2 e = k * pow2 f.emin := by
    intro m e he
    refine ⟨m * 2 ^ (e - f.emin).toNat, ?_⟩
    have : pow2 e = pow2 (e - f.emin) * pow2 f.emin := by rw [← pow2_add]; congr 1; ring
    rw [this, pow2_int (by omega : 0 ≤ e - f.emin)]; push_cast; ring
  obtain ⟨k, hk⟩ := mult m e he
  obtain ⟨k', hk'⟩ := mult m' e' he'
  rw [hk, hk'] at h ⊢
  have hlt : k < k' := by
    have := lt_of_mul_lt_mul_right h (pow2_pos f.emin).le
    exact_mod_cast this
  have hr : RepQ f.toRFmt (pow2 f.emin) := ⟨1, f.emin, by simp, by
    rw [abs_one]; exact one_le_pow₀ (by decide), le_refl _⟩
  refine lt_of_lt_of_le (pow2_pos f.emin) (le_rndQ hr ?_)
  rw [← sub_mul]
  have : (1 : Rat) ≤ (k' : Rat) - k := by
    have : 1 ≤ k' - k := by omega
    exact_mod_cast this
  nlinarith [pow2_pos f.emin]

section
variable [Libm f32]
/-- **C17** (lower end, IEEE) a channel equal to `current_min` becomes `scaled_min`. -/
theorem c17_min_to_min (c cmin smin cmax smax : F32) (c0 a0 s0 a1 s1 : Rat) (hc : c.Is c0)
    (h1 : cmin.Is a0) (h2 : smin.Is s0) (h3 : cmax.Is a1) (h4 : smax.Is s1) (hcm : c0 = a0)
    (hlt : a0 < a1) (hov : |f32.rnd (a1 - a0)| < pow2 f32.emax)
    (hov' : |f32.rnd (s1 - s0)| < pow2 f32.emax) :
    ((c -. cmin) /. (cmax -. cmin) *. (smax -. smin) +. smin).Is s0 := by
  subst hcm
  have e1 := sub_exact hc h1 (by rw [sub_self]; exact Fmt.Exact.zero)
  rw [sub_self] at e1
  have e2 := sub_is h3 h1 hov
  have e3 := sub_is h4 h2 hov'
  have hpos := rnd_sub_pos (f := f32) h1.exact h3.exact hlt
  have e4 := div_exact e1 e2 hpos.ne' (by rw [zero_div]; exact Fmt.Exact.zero)
  rw [zero_div] at e4
  have e5 := mul_exact e4 e3 (by rw [zero_mul]; exact Fmt.Exact.zero)
  rw [zero_mul] at e5
  have e6 := add_exact e5 h2 (by rw [zero_add]; exact h2.exact)
  rwa [zero_add] at e6

/-- **C17** (upper end, IEEE) a channel equal to `current_max` becomes the float
`(scaled_max - scaled_min) + scaled_min`, which is `scaled_max` exactly when `scaled_min = 0`. -/
theorem c17_max_to_max (c cmin smin cmax smax : F32) (c0 a0 s0 a1 s1 : Rat) (hc : c.Is c0)
    (h1 : cmin.Is a0) (h2 : smin.Is s0) (h3 : cmax.Is a1) (h4 : smax.Is s1) (hcm : c0 = a1)
    (hlt : a0 < a1) (hov : |f32.rnd (a1 - a0)| < pow2 f32.emax)
    (hov' : |f32.rnd (s1 - s0)| < pow2 f32.emax)
    (hov'' : |f32.rnd (f32.rnd (s1 - s0) + s0)| < pow2 f32.emax) :
    ((c -. cmin) /. (cmax -. cmin) *. (smax -. smin) +. smin).Is (f32.rnd (f32.rnd (s1 - s0) + s0)) ∧
    (s0 = 0 → ((c -. cmin) /. (cmax -. cmin) *. (smax -. smin) +. smin).Is s1) := by
  subst hcm
  have e1 := sub_is hc h1 hov
  have e2 := sub_is h3 h1 hov
  have e3 := sub_is h4 h2 hov'
  have hpos := rnd_sub_pos (f := f32) h1.exact h3.exact hlt
  have one : f32.Exact 1 := by simpa using f32_int (n := 1) (by decide)
  have e4 := div_exact e1 e2 hpos.ne' (by rw [div_self hpos.ne']; exact one)
  rw [div_self hpos.ne'] at e4
  have e5 := mul_exact e4 e3 (by rw [one_mul]; exact e3.exact)
  rw [one_mul] at e5
  have e6 := add_is e5 h2 hov''
  refine ⟨e6, fun h0 => ?_⟩
  subst h0
  rw [sub_zero, add_zero, h4.exact.rnd, h4.exact.rnd] at e6
  exact e6

/-- **C17** (image level) `scale_channels` applies the expression to every channel, keeps the header and
never fails; with `c17_min_to_min` / `c17_max_to_max` this gives the endpoint claims. -/
theorem c17_scale_channels (P : Profile) (img : Image F32) (h : img.WF) (cmin smin cmax smax : F32) :
    ∃ out, scaleChannels P img cmin smin cmax smax = .ok out ∧
      out.Shows img.info (fun x y => (img.px x y).map fun c =>
        (c -. cmin) /. (cmax -. cmin) *. (smax -. smin) +. smin) :=
  ⟨_, Image.mapChannels_eq P h (fun _ _ => rfl), Image.mapChannels_shows h _⟩

example : ∃ (c cmin smin cmax smax : F32), c.Is 1 ∧ cmin.Is 1 ∧ smin.Is 0 ∧ cmax.Is 3 ∧ smax.Is 255 :=
  ⟨num 1, num 1, num 0, num 3, num 255, by simpa using num32 (n := 1) (by decide),
    by simpa using num32 (n := 1) (by decide), by simpa using num32 (n := 0) (by decide),
    by simpa using num32 (n := 3) (by decide), by simpa using num32 (n := 255) (by decide)⟩
end

/-- **C17** (exact arithmetic) the channel map is the affine bijection of `[cmin, cmax]` onto
`[smin, smax]`: affine, endpoints to endpoints, and undone by the call with the ranges swapped. -/
theorem c17_affine_exact (P : Profile) (img : Image ℝ) (h : img.WF) (cmin smin cmax smax : ℝ)
    (h1 : cmin < cmax) (h2 : smin < smax) :
    ∃ (out : Image ℝ) (m : ℝ → ℝ), scaleChannels P img cmin smin cmax smax = .ok out ∧
      out.Shows img.info (fun x y => (img.px x y).map m) ∧
      (∃ a b, 0 < a ∧ ∀ c, m c = a * c + b) ∧ m cmin = smin ∧ m cmax = smax ∧
      scaleChannels P out smin cmin smax cmax = .ok img := by
  have d1 : cmax - cmin ≠ 0 := by linarith
  have d2 : smax - smin ≠ 0 := by linarith
  refine ⟨_, fun c => (c - cmin) / (cmax - cmin) * (smax - smin) + smin,
    Image.mapChannels_eq P h (fun _ _ => rfl), Image.mapChannels_shows h _, ?_, ?_, ?_, ?_⟩
  · refine ⟨(smax - smin) / (cmax - cmin), smin - cmin * (smax - smin) / (cmax - cmin),
      div_pos (by linarith) (by linarith), fun c => ?_⟩
    field_simp; ring
  · simp
  · simp only []
    rw [div_self d1]; ring
  · unfold scaleChannels
    rw [Image.mapChannels_eq P (Image.mapChannels_WF h _)
      (f' := fun c : ℝ => (c -. smin) /. (smax -. smin) *. (cmax -. cmin) +. cmin) (fun _ _ => rfl)]
    simp only [List.map_map]
    congr 1
    have : (fun c : ℝ => (c -. smin) /. (smax -. smin) *. (cmax -. cmin) +. cmin) ∘
        (fun c => (c -. cmin) /. (cmax -. cmin) *. (smax -. smin) +. smin) = id := by
      funext c
      simp only [Function.comp, Ideal.add_eq, Ideal.sub_eq, Ideal.mul_eq, Ideal.div_eq, id]
      field_simp; ring
    rw [this, List.map_id]

/-! ## C18 -/

/-- **C18** An image of unsigned integers all below 2^53 (every u8/u16/u32 image) converts to an f64
image holding exactly the same values. -/
theorem c18_exact [Libm f64] (P : Profile) (img : Image Nat) (h : img.WF)
    (hv : ∀ v ∈ img.data, v ≤ 9007199254740992) :
    ∃ out : Image F64, imageNatToFloat P img = .ok out ∧ out.info = img.info ∧
      out.data.length = img.data.length ∧
      ∀ (i : Nat) v, img.data[i]? = some v → ∃ x, out.data[i]? = some x ∧ x.Is (v : Rat) := by
  refine ⟨_, Image.mapChannels_eq P h (fun _ _ => rfl), rfl, by simp, ?_⟩
  intro i v hi
  refine ⟨_, by rw [List.getElem?_map, hi]; rfl, ?_⟩
  have hm := hv v (List.mem_of_getElem? hi)
  have := f64_int (n := (v : Int)) (by rw [abs_of_nonneg (by omega)]; omega)
  exact ofNat_exact (by simpa using this)

/-- **C18** hence the conversion is injective on such images -/
theorem c18_injective [Libm f64] (P : Profile) (a b : Image Nat) (ha : a.WF) (hb : b.WF)
    (hva : ∀ v ∈ a.data, v ≤ 9007199254740992) (hvb : ∀ v ∈ b.data, v ≤ 9007199254740992)
    (e : (imageNatToFloat P a : Res (Image F64)) = imageNatToFloat P b) : a = b := by
  obtain ⟨o, eo, io, lo, ho⟩ := c18_exact P a ha hva
  obtain ⟨o', eo', io', lo', ho'⟩ := c18_exact P b hb hvb
  rw [eo, eo'] at e
  cases e
  have hi : a.info = b.info := io.symm.trans io'
  have hl : a.data.length = b.data.length := lo.symm.trans lo'
  have hd : a.data = b.data := by
    apply List.ext_getElem?
    intro i
    by_cases hlt : i < a.data.length
    · obtain ⟨x, hx, hxi⟩ := ho i _ (List.getElem?_eq_getElem hlt)
      obtain ⟨y, hy, hyi⟩ := ho' i _ (List.getElem?_eq_getElem (hl ▸ hlt))
      rw [hx] at hy; cases hy
      have := hxi.unique hyi
      rw [List.getElem?_eq_getElem hlt, List.getElem?_eq_getElem (hl ▸ hlt)]
      congr 1; exact_mod_cast this
    · rw [List.getElem?_eq_none (by omega), List.getElem?_eq_none (by omega)]
  cases a; cases b; cases hi; cases hd; rfl

/-- **C18** (the bound is sharp) 2^53 and 2^53+1 convert to the same f64. -/
theorem c18_loss [Libm f64] :
    (FloatOps.ofNat 9007199254740992 : F64) = FloatOps.ofNat 9007199254740993 := by
  apply Flt.ext
  have : FP.round f64 false (((9007199254740992 : Nat) : Int) : Rat) =
      FP.round f64 false (((9007199254740993 : Nat) : Int) : Rat) := by decide +kernel
  exact this

example : ∃ out : Image F64, letI := trivialLibm f64;
    imageNatToFloat .debug (Image.fromVec 1 2 1 false [4294967295, 7]) = .ok out ∧
    ∃ x, out.data[0]? = some x ∧ x.Is 4294967295 :=
  letI := trivialLibm f64
  let ⟨o, h1, _, _, h2⟩ := c18_exact .debug (Image.fromVec 1 2 1 false [4294967295, 7])
    ⟨by decide, by decide, by decide, by decide, by decide, by decide⟩ (by decide)
  let ⟨x, hx, hi⟩ := h2 0 4294967295 rfl
  ⟨o, h1, x, hx, by simpa using hi⟩
end Imgproc

import Verif.Props.LabErr
import Verif.Props.Trip3
import Verif.Props.Dyadic
/-! Property C126: `unlinearize_srgb_f32` computes its curve, in exact arithmetic and in f32, and the curve drops. -/
namespace Imgproc
open FloatOps

/-! ### Specification -/

/-- spec: the curve of `unlinearize_srgb_f32`: a linear value to a level between 0 and 255 -/
noncomputable def srgbCurve (x : ℝ) : ℝ := if x ≤ 0.0031308 then 3294.6 * x else 269.025 * x ^ (1 / 2.2 : ℝ) - 14.025

/-- spec: `c` is the truncation to a byte (saturating at 0 and 255) of a number within `e` of `x` -/
def TruncTo (c : UInt8) (x e : ℝ) : Prop :=
  (c.toNat : ℝ) ≤ max 0 (min 255 (x + e)) ∧ max 0 (min 255 (x - e)) < c.toNat + 1

theorem TruncTo.widen {c : UInt8} {x y e f : ℝ} (h : TruncTo c x e) (hxy : |x - y| ≤ f) : TruncTo c y (e + f) := by
  have := abs_le.1 hxy
  refine ⟨h.1.trans (max_le_max (le_refl _) (min_le_min (le_refl _) (by linarith))),
    lt_of_le_of_lt (max_le_max (le_refl _) (min_le_min (le_refl _) (by linarith))) h.2⟩

/-- conversion of a float to a byte -/
theorem toU8_trunc [Libm f32] {x : F32} {q : Rat} (h : x.Is q) : TruncTo (toU8 x) (q : ℝ) 0 := by
  unfold TruncTo
  rw [add_zero, sub_zero, toU8_toNat h]
  unfold FP.truncQ
  split
  · rename_i h0
    have f1 : ((q.floor : Rat) : ℝ) ≤ (q : ℝ) := Rat.cast_le.2 (rat_floor_le q)
    have f2 : (q : ℝ) < ((q.floor + 1 : Rat) : ℝ) := Rat.cast_lt.2 (rat_lt_floor q)
    push_cast at f1 f2
    have f0 : (0 : Int) ≤ q.floor := rat_le_floor.2 (by simpa using h0)
    have q0 : (0 : ℝ) ≤ q := by exact_mod_cast h0
    rcases le_or_gt q.floor 255 with hl | hl
    · rw [min_eq_right hl, max_eq_right f0]
      have e : ((q.floor.toNat : Nat) : ℝ) = (q.floor : ℝ) := by
        rw [← Int.cast_natCast, Int.toNat_of_nonneg f0]
      have l' : (q.floor : ℝ) ≤ 255 := by exact_mod_cast hl
      rw [e]
      refine ⟨le_trans (le_min l' f1) (le_max_right _ _), max_lt (by have : (0 : ℝ) ≤ q.floor := by exact_mod_cast f0
                                                                     linarith) (lt_of_le_of_lt (min_le_right _ _) f2)⟩
    · rw [min_eq_left hl.le]
      have l' : (256 : ℝ) ≤ q.floor := by exact_mod_cast hl
      rw [show Int.toNat (max 0 255) = 255 from rfl]
      push_cast
      have : (255 : ℝ) ≤ q := by linarith
      rw [min_eq_left this]; norm_num
  · rename_i h0
    have q0 : (q : ℝ) < 0 := by exact_mod_cast not_le.1 h0
    have f0 : (0 : Int) ≤ (-q).floor := rat_le_floor.2 (by push_cast; linarith)
    rw [max_eq_left (by omega)]
    rw [max_eq_left ((min_le_right _ _).trans q0.le)]; norm_num

theorem trunc_near [Libm f32] {x : F32} {r e : ℝ} (h : Near x r e) : TruncTo (toU8 x) r e := by
  obtain ⟨a, ha, h⟩ := h
  have := (toU8_trunc ha).widen h
  rwa [zero_add] at this

/-! ### The curve -/

theorem srgbCurve_dark {x : ℝ} (h : x ≤ 0.0031308) : srgbCurve x = 3294.6 * x := if_pos h
theorem srgbCurve_bright {x : ℝ} (h : 0.0031308 < x) : srgbCurve x = 269.025 * x ^ (1 / 2.2 : ℝ) - 14.025 := if_neg (not_le.2 h)

/-- comparing the eleventh powers: `u ≤ x^(5/11)` -/
theorem le_curve_root {x u : ℝ} (hx : 0 ≤ x) (h : u ^ 11 ≤ x ^ 5) : u ≤ x ^ (1 / 2.2 : ℝ) := by
  refine le_of_pow_le_pow_left₀ (n := 11) (by decide) (by positivity) ?_
  rw [← Real.rpow_natCast (x ^ (1 / 2.2 : ℝ)), ← Real.rpow_mul hx, show (1 / 2.2 : ℝ) * ((11 : ℕ) : ℝ) = ((5 : ℕ) : ℝ) by norm_num,
    Real.rpow_natCast]
  exact h

theorem curve_root_le {x u : ℝ} (hx : 0 ≤ x) (hu : 0 ≤ u) (h : x ^ 5 ≤ u ^ 11) : x ^ (1 / 2.2 : ℝ) ≤ u := by
  refine le_of_pow_le_pow_left₀ (n := 11) (by decide) hu ?_
  rw [← Real.rpow_natCast (x ^ (1 / 2.2 : ℝ)), ← Real.rpow_mul hx, show (1 / 2.2 : ℝ) * ((11 : ℕ) : ℝ) = ((5 : ℕ) : ℝ) by norm_num,
    Real.rpow_natCast]
  exact h

/-- **C126** (the curve) Below the threshold and above it the curve increases, but at the threshold it falls from above 10.3 to
below 5.6, and that is the most it ever loses: for `x ≤ y` the level of `y` is at least that of `x` minus 4.8. -/
theorem c126_curve : (∀ x y : ℝ, x ≤ y → (y ≤ 0.0031308 ∨ 0.0031308 < x) → srgbCurve x ≤ srgbCurve y) ∧
    10.3 < srgbCurve 0.0031308 ∧ (∀ y : ℝ, 0.0031308 < y → y ≤ 0.003137 → srgbCurve y < 5.6) ∧
    (∀ x y : ℝ, x ≤ y → srgbCurve x ≤ srgbCurve y + 4.8) := by
  have mono : ∀ x y : ℝ, 0.0031308 < x → x ≤ y → srgbCurve x ≤ srgbCurve y := by
    intro x y h h'
    rw [srgbCurve_bright h, srgbCurve_bright (lt_of_lt_of_le h h')]
    have := Real.rpow_le_rpow (by linarith) h' (show (0 : ℝ) ≤ 1 / 2.2 by norm_num)
    linarith
  refine ⟨fun x y h hy => ?_, ?_, fun y h1 h2 => ?_, fun x y h => ?_⟩
  · rcases hy with hy | hy
    · rw [srgbCurve_dark hy, srgbCurve_dark (h.trans hy)]; linarith
    · exact mono x y hy h
  · rw [srgbCurve_dark (le_refl _)]; norm_num
  · rw [srgbCurve_bright h1]
    have := curve_root_le (x := y) (u := 0.0729) (by linarith) (by norm_num) (by
      calc y ^ 5 ≤ (0.003137 : ℝ) ^ 5 := by gcongr
        _ ≤ _ := by norm_num)
    linarith
  · rcases le_or_gt y 0.0031308 with hy | hy
    · rw [srgbCurve_dark hy, srgbCurve_dark (h.trans hy)]; linarith
    rcases le_or_gt x 0.0031308 with hx | hx
    · rw [srgbCurve_dark hx, srgbCurve_bright hy]
      have := le_curve_root (x := y) (u := 0.07268) (by linarith) (by
        calc (0.07268 : ℝ) ^ 11 ≤ (0.0031308 : ℝ) ^ 5 := by norm_num
          _ ≤ _ := by gcongr)
      linarith
    · have := mono x y hx h; linarith

/-! ### Exact arithmetic -/

theorem unlinearize_curve (n : ℝ) : unlinearizeEntry (F := ℝ) n = toU8 (srgbCurve n) := by
  rw [unlinearizeEntry_real]
  unfold srgbCurve
  split
  · rw [mul_comm]
  · rfl

/-! ### Single precision -/

section
variable [Libm f32]

/-- the dark branch in f32 -/
theorem unlin_dark {n : F32} {a : Rat} (ha : n.Is a) (h0 : -2 ≤ (a : ℝ)) (h1 : (a : ℝ) ≤ 1.9) :
    TruncTo (toU8 (n *. lit 3294.6)) (3294.6 * a) (1 / 1000) := by
  have l : Near (lit 3294.6 : F32) 3294.6 2e-4 :=
    ((Near.lit (q := 3294.6) (B := 3294.6) (by norm_num) (by norm_num [abs_of_pos]) (by norm_num)).of_eq (by norm_num)).mono
      (by norm_num)
  have := Near.mul (B := 2) (C := 3294.6) (e' := 1 / 1000) (Near.exact ha) l (by rw [abs_le]; constructor <;> linarith)
    (by norm_num [abs_of_pos]) (by norm_num) (by norm_num) (by norm_num)
  exact trunc_near (this.of_eq (mul_comm _ _))

/-- the bright branch in f32 -/
theorem unlin_bright (hp : PowAccurate) {n : F32} {a : Rat} (ha : n.Is a) (h0 : 0.003 ≤ (a : ℝ)) (h1 : (a : ℝ) ≤ 1.9) :
    TruncTo (toU8 (lit 269.025 *. FloatOps.pow n (num 1 /. GAMMA) -. lit 14.025)) (269.025 * (a : ℝ) ^ (1 / 2.2 : ℝ) - 14.025) (1 / 1000) := by
  set T : ℝ := (a : ℝ) ^ (1 / 2.2 : ℝ) with hT
  have T0 : 0 ≤ T := Real.rpow_nonneg (by linarith) _
  have T1 : T ≤ 1.4 := curve_root_le (by linarith) (by norm_num) (by
    calc (a : ℝ) ^ 5 ≤ (1.9 : ℝ) ^ 5 := by gcongr
      _ ≤ _ := by norm_num)
  have np : Near (FloatOps.pow n (num 1 /. GAMMA)) T 1.9e-6 := by
    have n0 : Near n (a : ℝ) (0 * a) := by rw [zero_mul]; exact Near.exact ha
    have := Near.pow hp (S := 1) (κ := 6e-7) (Λ := (6 : ℕ)) n0 invGamma_near (by norm_num; linarith) (by linarith) (by norm_num)
      (by norm_num) (by norm_num) (by norm_num) (log_bound (by linarith) (by norm_num) (by norm_num; linarith))
      (by norm_num) (by norm_num)
    refine this.mono ?_
    rw [← hT]; nlinarith
  have l2 : Near (lit 269.025 : F32) 269.025 (269.025 / 16777216) :=
    (Near.lit (q := 269.025) (B := 269.025) (by norm_num) (by norm_num [abs_of_pos]) (by norm_num)).of_eq (by norm_num)
  have nm : Near (lit 269.025 *. FloatOps.pow n (num 1 /. GAMMA)) (269.025 * T) 7e-4 :=
    Near.mul (B := 269.025) (C := 1.4) l2 np (by norm_num [abs_of_pos]) (by rw [abs_of_nonneg T0]; exact T1)
      (by norm_num) (by norm_num) (by norm_num)
  have l3 : Near (lit 14.025 : F32) 14.025 (14.025 / 16777216) :=
    (Near.lit (q := 14.025) (B := 14.025) (by norm_num) (by norm_num [abs_of_pos]) (by norm_num)).of_eq (by norm_num)
  have ns : Near (lit 269.025 *. FloatOps.pow n (num 1 /. GAMMA) -. lit 14.025) (269.025 * T - 14.025) (1 / 1000) :=
    Near.sub (B := 400) nm l3 (by norm_num) (by rw [abs_le]; constructor <;> linarith) (by norm_num) (by norm_num)
  exact trunc_near ns

/-- one channel in f32 -/
theorem unlinearize_f32 (hp : PowAccurate) {n : F32} {a : Rat} (ha : n.Is a) (h0 : -2 ≤ (a : ℝ)) (h1 : (a : ℝ) ≤ 1.9)
    (hj : (a : ℝ) ≤ 0.0031308 ∨ 0.00313081 ≤ (a : ℝ)) : TruncTo (unlinearizeEntry n) (srgbCurve a) (1 / 1000) := by
  obtain ⟨t, ht, t1⟩ := threshold_near
  have ht' : (lit 0.0031308 : F32).Is (f32.rnd 0.0031308) := lit_is (ovf_between (by norm_num) (by norm_num))
  have et : t = f32.rnd 0.0031308 := ht.unique ht'
  have t2 := abs_le.1 t1
  unfold unlinearizeEntry
  rw [le_is ha ht]
  rcases hj with hj | hj
  · rw [if_pos (decide_eq_true (by
      have hq : a ≤ (0.0031308 : Rat) := by rw [← Rat.cast_le (K := ℝ)]; push_cast; norm_num at hj ⊢; exact hj
      have := rndQ_mono (f := f32.toRFmt) hq
      rw [show rndQ f32.toRFmt a = a from rndQ_of_rep ha.exact.1] at this
      rw [et]; exact this))]
    rw [srgbCurve_dark hj]
    exact unlin_dark ha h0 h1
  · rw [if_neg (by
      rw [decide_eq_true_eq, not_le]
      have : (t : ℝ) < a := by linarith
      exact_mod_cast this)]
    rw [srgbCurve_bright (by linarith)]
    exact unlin_bright hp ha (by linarith) h1

omit [Libm f32] in
theorem forall₂_map_left' {α β : Type} {R : β → α → Prop} {f : α → β} (l : List α) (h : ∀ a ∈ l, R (f a) a) :
    List.Forall₂ R (l.map f) l := by
  rw [List.forall₂_map_left_iff]; exact List.forall₂_same.2 h

/-- **C126** (f32) `unlinearize_srgb_f32` of every image of floats: it succeeds and keeps the shape; every colour channel holding a
number between -2 and 1.9 (outside a gap of 1e-8 right above the threshold) becomes the truncated level of the curve, with rounding
errors of at most 1/1000 of a level before the truncation; alpha is rounded to the nearest byte. -/
theorem c126_f32 (hp : PowAccurate) (P : Profile) (img : Image F32) (h : img.WF) (hc : img.info.alpha = true → 0 < img.info.channels) :
    ∃ out : Image UInt8, unlinearizeSrgb P img = .ok out ∧ out.WF ∧ out.info = img.info ∧
      ∀ x y, x < img.info.width → y < img.info.height →
        List.Forall₂ (fun (c : UInt8) (n : F32) => ∀ a : Rat, n.Is a → -2 ≤ (a : ℝ) → (a : ℝ) ≤ 1.9 →
            (a : ℝ) ≤ 0.0031308 ∨ 0.00313081 ≤ (a : ℝ) → TruncTo c (srgbCurve a) (1 / 1000))
          (img.info.colour (out.px x y)) (img.info.colour (img.px x y)) ∧
        List.Forall₂ (fun (c : UInt8) (n : F32) => U8OfFloat n.val c.toNat)
          (img.info.alphaOf (out.px x y)) (img.info.alphaOf (img.px x y)) := by
  obtain ⟨out, e, ho⟩ := unlinearize_CA P h.CA hc
  refine ⟨out, e, ho.wf, ho.info_eq, fun x y hx hy => ⟨?_, ?_⟩⟩
  · rw [ho.colour x y hx hy]
    exact forall₂_map_left' _ fun n _ a ha h0 h1 hj => unlinearize_f32 hp ha h0 h1 hj
  · rw [ho.alpha x y hx hy]
    exact forall₂_map_left' _ fun n _ => toU8_round_spec (by decide) (by decide) n

/-- **C126** (f32, defect) In every image, linear values between 0.0031 and the threshold 0.0031308 become level 10, but the brighter
ones from there to 0.0032 become level 5: the conversion is not monotone. -/
theorem c126_drop (hp : PowAccurate) (P : Profile) (img : Image F32) (h : img.WF) (hc : img.info.alpha = true → 0 < img.info.channels) :
    ∃ out : Image UInt8, unlinearizeSrgb P img = .ok out ∧ out.info = img.info ∧
      ∀ x y, x < img.info.width → y < img.info.height →
        List.Forall₂ (fun (c : UInt8) (n : F32) => ∀ a : Rat, n.Is a →
            (0.0031 ≤ a → a ≤ 0.0031308 → c = 10) ∧ (0.00313081 ≤ a → a ≤ 0.0032 → c = 5))
          (img.info.colour (out.px x y)) (img.info.colour (img.px x y)) := by
  obtain ⟨out, e, -, ei, ho⟩ := c126_f32 hp P img h hc
  refine ⟨out, e, ei, fun x y hx hy => ?_⟩
  refine (ho x y hx hy).1.imp fun c n hcn a ha => ⟨fun h0 h1 => ?_, fun h0 h1 => ?_⟩
  · have h0' := (Rat.cast_le (K := ℝ)).2 h0
    have h1' := (Rat.cast_le (K := ℝ)).2 h1
    have h0' : (0.0031 : ℝ) ≤ a := by push_cast at h0'; norm_num at h0' ⊢; exact h0'
    have h1' : (a : ℝ) ≤ 0.0031308 := by push_cast at h1'; norm_num at h1' ⊢; exact h1'
    obtain ⟨k1, k2⟩ := hcn a ha (by linarith) (by linarith) (.inl h1')
    rw [srgbCurve_dark h1'] at k1 k2
    have u : (c.toNat : ℝ) < ((11 : ℕ) : ℝ) := lt_of_le_of_lt k1 (max_lt (by norm_num) (lt_of_le_of_lt (min_le_right _ _) (by push_cast; linarith)))
    have l : ((10 : ℕ) : ℝ) < ((c.toNat + 1 : ℕ) : ℝ) := by
      push_cast
      refine lt_of_le_of_lt ?_ k2
      exact le_trans (le_min (by norm_num) (by linarith)) (le_max_right _ _)
    have u' : c.toNat < 11 := by exact_mod_cast u
    have l' : 10 < c.toNat + 1 := by exact_mod_cast l
    exact UInt8.toNat_inj.1 (by show c.toNat = 10; omega)
  · have h0' := (Rat.cast_le (K := ℝ)).2 h0
    have h1' := (Rat.cast_le (K := ℝ)).2 h1
    have h0' : (0.00313081 : ℝ) ≤ a := by push_cast at h0'; norm_num at h0' ⊢; exact h0'
    have h1' : (a : ℝ) ≤ 0.0032 := by push_cast at h1'; norm_num at h1' ⊢; exact h1'
    obtain ⟨k1, k2⟩ := hcn a ha (by linarith) (by linarith) (.inr h0')
    rw [srgbCurve_bright (by linarith)] at k1 k2
    have r1 := le_curve_root (x := a) (u := 0.0726) (by linarith) (by
        calc (0.0726 : ℝ) ^ 11 ≤ (0.00313081 : ℝ) ^ 5 := by norm_num
          _ ≤ _ := by gcongr)
    have r2 := curve_root_le (x := a) (u := 0.074) (by linarith) (by norm_num) (by
        calc (a : ℝ) ^ 5 ≤ (0.0032 : ℝ) ^ 5 := by gcongr
          _ ≤ _ := by norm_num)
    have u : (c.toNat : ℝ) < ((6 : ℕ) : ℝ) := lt_of_le_of_lt k1 (max_lt (by norm_num) (lt_of_le_of_lt (min_le_right _ _) (by push_cast; linarith)))
    have l : ((5 : ℕ) : ℝ) < ((c.toNat + 1 : ℕ) : ℝ) := by
      push_cast
      refine lt_of_le_of_lt ?_ k2
      exact le_trans (le_min (by norm_num) (by linarith)) (le_max_right _ _)
    have u' : c.toNat < 6 := by exact_mod_cast u
    have l' : 5 < c.toNat + 1 := by exact_mod_cast l
    exact UInt8.toNat_inj.1 (by show c.toNat = 5; omega)
end

/-- **C126** (exact arithmetic) `unlinearize_srgb_f32` computes the truncated curve and rounds alpha. -/
theorem c126_exact (P : Profile) (img : Image ℝ) (h : img.WF) (hc : img.info.alpha = true → 0 < img.info.channels) :
    ∃ out : Image UInt8, unlinearizeSrgb P img = .ok out ∧ out.WF ∧ out.info = img.info ∧
      ∀ x y, x < img.info.width → y < img.info.height →
        img.info.colour (out.px x y) = (img.info.colour (img.px x y)).map (fun n => toU8 (srgbCurve n)) ∧
        img.info.alphaOf (out.px x y) = (img.info.alphaOf (img.px x y)).map (fun n => toU8 ((realRound n : ℤ) : ℝ)) := by
  obtain ⟨out, e, ho⟩ := unlinearize_CA P h.CA hc
  refine ⟨out, e, ho.wf, ho.info_eq, fun x y hx hy => ⟨?_, ?_⟩⟩
  · rw [ho.colour x y hx hy]; exact List.map_congr_left fun n _ => unlinearize_curve n
  · rw [ho.alpha x y hx hy]; rfl

/-- both sides of the drop in one pixel: 51/16384 = 0.00311 becomes 10, the larger 13/4096 = 0.00317 becomes 5 -/
example (P : Profile) : letI := accurateLibm
    ∃ (out : Image UInt8) (c : UInt8), unlinearizeSrgb P (rgba1 (lit (51 / 16384)) (lit (13 / 4096)) (num 1) (num 7) : Image F32) = .ok out ∧
      out.info.colour (out.px 0 0) = [10, 5, c] := by
  let := accurateLibm
  obtain ⟨out, e, ei, ho⟩ := c126_drop accurateLibm_spec P (rgba1 (lit (51 / 16384)) (lit (13 / 4096)) (num 1) (num 7) : Image F32)
    (rgba1_WF ..) (fun _ => by dims)
  have e1 : f32.Exact (51 / 16384) := by have := f32_dy (m := 51) (k := 14) (by norm_num) (by norm_num); norm_num at this ⊢; exact this
  have e2 : f32.Exact (13 / 4096) := by have := f32_dy (m := 13) (k := 12) (by norm_num) (by norm_num); norm_num at this ⊢; exact this
  have := ho 0 0 (by dims) (by dims)
  rw [show (rgba1 (lit (51 / 16384)) (lit (13 / 4096)) (num 1) (num 7) : Image F32).info.colour ((rgba1 (lit (51 / 16384)) (lit (13 / 4096)) (num 1) (num 7) : Image F32).px 0 0) =
    [lit (51 / 16384), lit (13 / 4096), num 1] from rfl, ← ei] at this
  match h : out.info.colour (out.px 0 0), this with
  | [a, b, c], .cons h1 (.cons h2 (.cons h3 .nil)) =>
    rw [(h1 _ (lit_exact e1)).1 (by norm_num) (by norm_num), (h2 _ (lit_exact e2)).2 (by norm_num) (by norm_num)] at h
    exact ⟨out, c, e, h⟩
end Imgproc

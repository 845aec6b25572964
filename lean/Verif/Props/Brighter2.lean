import Verif.Props.Brighter
import Verif.Props.ScaleErr

/-!
# C133, continued: bilinear enlargement and reduction never darken
-/
namespace Imgproc
open FloatOps

theorem FP.mul_comm (f : Fmt) (x y : FP) : FP.mul f x y = FP.mul f y x := by
  unfold FP.mul
  cases x.toQ? <;> cases y.toQ? <;> simp [Bool.xor_comm, _root_.mul_comm, or_comm]

theorem EndAlike.forRange_lt {α β : Type} {Q : α → β → Prop} {f : Nat → α → Res α} {f' : Nat → β → Res β} (n : Nat) {a : α} {b : β}
    (q : Q a b) (h : ∀ i a b, i < n → Q a b → EndAlike Q (f i a) (f' i b)) :
    EndAlike Q (Imgproc.forRange 0 n a f) (Imgproc.forRange 0 n b f') := by
  have : ∀ k i a b, i + k ≤ n → Q a b → EndAlike Q (Imgproc.loopFrom f k i a) (Imgproc.loopFrom f' k i b) := by
    intro k
    induction k with
    | zero => intro i a b _ q; exact q
    | succ k ih => intro i a b hk q; exact (h i a b (by omega) q).bind fun _ _ q' => ih _ _ _ (by omega) q'
  exact this _ _ _ _ (by omega) q

section
variable [Libm f32]

theorem is_not_negative {x : F32} {q : Rat} (h : x.Is q) (hq : 0 ≤ q) : (x <. num 0) = false := by
  have z : (num 0 : F32).Is (0 : Rat) := by show (num 0 : F32).val.toQ? = _; rw [num_zero_val]; rfl
  rw [lt_is h z]
  exact decide_eq_false (not_lt.2 hq)

/-- the weights of bilinear interpolation are not negative -/
theorem biWeight_good {f : F32} {q : Rat} (hf : f.Is q) (hq : 0 < q) {w : Nat} (hw : 0 < w) (hw' : w ≤ 16777216)
    (hsmall : (w : Rat) * q ≤ 4194304) {x : Nat} (hx : x < scaleDim w f) :
    (biWeight f x <. num 0) = false ∧ ((num 1 -. biWeight f x) <. num 0) = false := by
  obtain ⟨p1, x24, p0, pb⟩ := pos_lt hf hq hw hw' hsmall hx
  obtain ⟨-, e1, -, -, d0, d1⟩ := bi_pos hf hq hw hw' hsmall hx
  have hlt := biLo_lt hf hq hw hw' hsmall hx
  have hd : (ofNat x /. f : F32).Is (f32Pos q x) := div_is (nat32 x24) hf hq.ne' (f32_ovf pb)
  generalize f32Pos q x = s at *
  have fl0 : 0 ≤ s.floor := rat_le_floor.2 (by simpa using p0)
  have hn : (ofNat (biLo f x) : F32).Is (s.floor : Rat) := by
    have := nat32 (n := biLo f x) (by omega)
    rw [e1] at this ⊢
    have c : ((s.floor.toNat : Nat) : Rat) = (s.floor : Rat) := by
      have : ((s.floor.toNat : Nat) : Int) = s.floor := Int.toNat_of_nonneg fl0
      exact_mod_cast congrArg (fun z : Int => (z : Rat)) this
    rwa [c] at this
  have hwt := sub_is hd hn (f32_ovf (le_trans (abs_le.2 ⟨by linarith, d1⟩) (by norm_num : (1 : Rat) ≤ 2 ^ 100)))
  have one : f32.Exact (1 : Rat) := by have := f32_int (n := 1) (by decide); exact_mod_cast this
  have w0 := rndQ_nonneg (f := f32.toRFmt) d0
  have w1 := rndQ_le (f := f32.toRFmt) one.1 d1
  refine ⟨is_not_negative hwt w0, ?_⟩
  have h1 : (num 1 : F32).Is (1 : Rat) := by have := num32 (n := 1) (by decide); simpa using this
  have r1 : f32.rnd (s - s.floor) = rndQ f32.toRFmt (s - s.floor) := rfl
  have := sub_is h1 hwt (f32_ovf (le_trans (abs_le.2 ⟨by rw [r1]; linarith, by rw [r1]; linarith⟩) (by norm_num : (1 : Rat) ≤ 2 ^ 100)))
  exact is_not_negative this (rndQ_nonneg (f := f32.toRFmt) (by rw [r1]; linarith))

theorem notDarker_add {a b c d : F32} (h : NotDarker a b) (k : NotDarker c d) : NotDarker (a +. c) (b +. d) := FP.add_mono h k
theorem notDarker_mul {a b w : F32} (h : NotDarker a b) (hw : (w <. num 0) = false) : NotDarker (a *. w) (b *. w) := by
  show FP.lt (FP.mul f32 b.val w.val) (FP.mul f32 a.val w.val) = false
  rw [FP.mul_comm, FP.mul_comm f32 a.val]
  exact FP.mul_mono (by have : FP.lt w.val (num 0 : F32).val = false := hw
                        rwa [num_zero_val] at this) h

variable {a b : Image F32}

theorem alike_bilinear (h : a.Alike NotDarker b) (P : Profile) {xf yf : F32} {x y : Nat}
    (hx : (biWeight xf x <. num 0) = false ∧ ((num 1 -. biWeight xf x) <. num 0) = false)
    (hy : (biWeight yf y <. num 0) = false ∧ ((num 1 -. biWeight yf y) <. num 0) = false) :
    EndAlike (List.Forall₂ NotDarker) (interpolateBilinear P a xf yf x y) (interpolateBilinear P b xf yf x y) := by
  unfold interpolateBilinear
  rw [h.header]
  refine EndAlike.step _ fun w1 => EndAlike.step _ fun h1 => (alike_getPixel h P _ _).bind fun _ _ p1 => (alike_getPixel h P _ _).bind fun _ _ p2 =>
    (alike_getPixel h P _ _).bind fun _ _ p3 => (alike_getPixel h P _ _).bind fun _ _ p4 => ?_
  refine EndAlike.forRange _ _ List.Forall₂.nil fun c o o' q => ?_
  refine (alike_idx p1 c).bind fun _ _ v1 => (alike_idx p2 c).bind fun _ _ v2 => (alike_idx p3 c).bind fun _ _ v3 =>
    (alike_idx p4 c).bind fun _ _ v4 => ?_
  exact alike_snoc q (notDarker_add (notDarker_add (notDarker_add
    (notDarker_mul (notDarker_mul v1 hx.1) hy.1)
    (notDarker_mul (notDarker_mul v2 hx.2) hy.1))
    (notDarker_mul (notDarker_mul v3 hx.1) hy.2))
    (notDarker_mul (notDarker_mul v4 hx.2) hy.2))

/-- **C133** bilinear scaling, for every positive factor and all images whose sides fit a float exactly -/
theorem c133_bilinear (h : a.Alike NotDarker b) (P : Profile) {xf yf : F32} {qx qy : Rat}
    (hx : xf.Is qx) (hy : yf.Is qy) (hqx : 0 < qx) (hqy : 0 < qy)
    (w0 : 0 < a.info.width) (w1 : a.info.width ≤ 16777216) (h0 : 0 < a.info.height) (h1 : a.info.height ≤ 16777216)
    (hw : (a.info.width : Rat) * qx ≤ 4194304) (hh : (a.info.height : Rat) * qy ≤ 4194304) :
    EndAlike (Image.Alike NotDarker) (scale P a xf yf .bilinear) (scale P b xf yf .bilinear) := by
  have gx := fun x => biWeight_good (x := x) hx hqx w0 w1 hw
  have gy := fun y => biWeight_good (x := y) hy hqy h0 h1 hh
  unfold scale
  rw [scaleLoop_eq, scaleLoop_eq, ← h.header]
  refine EndAlike.step _ fun _ => EndAlike.step _ fun _ => (alike_blank (R := NotDarker) (notDarker_survives (kernel := []) (by simp [NonNegative])).blank P _).bind
    fun o o' q => ?_
  exact EndAlike.forRange_lt _ q fun y o o' ly q => EndAlike.forRange_lt _ q fun x o o' lx q =>
    (alike_bilinear h P (gx x lx) (gy y ly)).bind fun _ _ p => alike_setPixel q p P _ _

/-- **C133** bilinear scaling (rayon), for every two schedules -/
theorem c133_bilinear_par (h : a.Alike NotDarker b) (wa : a.WF) (P : Profile) {xf yf : F32} {qx qy : Rat}
    (hx : xf.Is qx) (hy : yf.Is qy) (hqx : 0 < qx) (hqy : 0 < qy)
    (w0 : 0 < a.info.width) (w1 : a.info.width ≤ 16777216) (h0 : 0 < a.info.height) (h1 : a.info.height ≤ 16777216)
    (hw : (a.info.width : Rat) * qx ≤ 4194304) (hh : (a.info.height : Rat) * qy ≤ 4194304)
    (hsz : P = .debug ∨ (scaleDim a.info.width xf * scaleDim a.info.height yf < U32SIZE ∧
      scaleDim a.info.width xf * scaleDim a.info.height yf * a.info.channels < U32SIZE))
    {order order' : List Nat} (ho : order.Perm (List.range (scaleDim a.info.width xf * scaleDim a.info.height yf)))
    (ho' : order'.Perm (List.range (scaleDim a.info.width xf * scaleDim a.info.height yf)))
    {o o' : Image F32} (ea : scalePar order P a xf yf .bilinear = .ok o) (eb : scalePar order' P b xf yf .bilinear = .ok o') :
    o.Alike NotDarker o' := by
  have wb : b.WF := by
    obtain ⟨x1, x2, x3, x4, x5, x6⟩ := wa
    rw [h.header] at x1 x2 x3 x4 x5 x6
    exact ⟨x1, x2, x3, x4, x5, h.values.length_eq ▸ x6⟩
  have sa := ((c48_scale_partial P a wa xf yf .bilinear hsz order ho).1 _).2 ea
  rw [h.header] at hsz ho'
  have sb := ((c48_scale_partial P b wb xf yf .bilinear hsz order' ho').1 _).2 eb
  have := c133_bilinear h P hx hy hqx hqy w0 w1 h0 h1 hw hh
  rwa [sa, sb] at this

/-- non-vacuity: a 3 x 2 image and the same made brighter at one value, twice as wide and high: all hypotheses hold, both calls return,
the results differ -/
example : letI := trivialLibm f32
    ∃ o o', scale .debug sixDark (num 2) (num 2) .bilinear = .ok o ∧ scale .debug sixBright (num 2) (num 2) .bilinear = .ok o' ∧
      o.Alike NotDarker o' ∧ o ≠ o' := by
  let := trivialLibm f32
  have two : (num 2 : F32).Is (2 : Rat) := by have := num32 (n := 2) (by decide); simpa using this
  have k := c133_bilinear sixDark_bright .debug two two (by norm_num) (by norm_num) (by decide) (by decide) (by decide) (by decide)
    (by show ((3 : Nat) : Rat) * 2 ≤ _; norm_num) (by show ((2 : Nat) : Rat) * 2 ≤ _; norm_num)
  have ea : (scale .debug sixDark (num 2) (num 2) .bilinear).toBool = true := by decide +kernel
  have ne : scale .debug sixDark (num 2) (num 2) .bilinear ≠ scale .debug sixBright (num 2) (num 2) .bilinear := by decide +kernel
  cases e : scale .debug sixDark (num 2) (num 2) .bilinear with
  | error _ => rw [e] at ea; cases ea
  | ok o =>
    cases e' : scale .debug sixBright (num 2) (num 2) .bilinear with
    | error _ => rw [e, e'] at k; exact k.elim
    | ok o' =>
      rw [e, e'] at k ne
      exact ⟨o, o', rfl, rfl, k, fun h => ne (by rw [h])⟩

end
end Imgproc

import Verif.Spec.Polarity
import Verif.Props.Brighter2
import Verif.Props.Moves
/-! Lemmas for C134. -/
namespace Imgproc
open FloatOps

namespace FP
variable {f : Fmt}

/-- `y` is the opposite of `x`, for data -/
inductive Opp : FP → FP → Prop
  | num {a b : FP} {q : Rat} (ha : a.toQ? = some q) (hb : b.toQ? = some (-q)) : Opp a b
  | inf (s : Bool) : Opp (inf s) (inf (!s))
  | nan : Opp nan nan

theorem Opp.zeros (s t : Bool) : Opp (zero s) (zero t) :=
  .num (q := 0) (by cases s <;> rfl) (by cases t <;> simp [zero, toQ?])

theorem round_opp (s t : Bool) (q : Rat) : Opp (round f s q) (round f t (-q)) := by
  have h0 := pow2_pos f.emax
  unfold round
  by_cases hq : q = 0
  · subst hq; rw [if_pos rfl, if_pos (by simp)]; exact .zeros _ _
  · have hq' : ¬ -q = 0 := by simpa using hq
    rw [if_neg hq, if_neg hq']
    dsimp only
    rw [rndQ_neg]
    by_cases hr : rndQ f.toRFmt q = 0
    · rw [if_pos hr, if_pos (by simpa using hr)]; exact .zeros _ _
    · have hr' : ¬ -rndQ f.toRFmt q = 0 := by simpa using hr
      rw [if_neg hr, if_neg hr', abs_neg]
      split
      · exact .num rfl rfl
      · have : decide (-q < 0) = !decide (q < 0) := by
          rcases lt_or_gt_of_ne hq with h | h
          · simp [h, h.le]
          · simp [h, h.le]
        rw [this]
        exact .inf _

theorem add_num {x y : FP} {a b : Rat} (hx : x.toQ? = some a) (hy : y.toQ? = some b) :
    (x = negZero ∧ y = negZero) ∨ add f x y = round f false (a + b) := by
  cases x <;> simp only [toQ?, Option.some.injEq, reduceCtorEq] at hx <;> cases y <;> simp only [toQ?, Option.some.injEq, reduceCtorEq] at hy <;>
    subst hx <;> subst hy
  · exact .inl ⟨rfl, rfl⟩
  all_goals exact .inr rfl

theorem add_inf' {x : FP} {a : Rat} (s : Bool) (hx : x.toQ? = some a) : add f x (inf s) = inf s := by cases x <;> simp_all [toQ?, add]
theorem inf_add' {x : FP} {a : Rat} (s : Bool) (hx : x.toQ? = some a) : add f (inf s) x = inf s := by cases x <;> simp_all [toQ?, add]

theorem add_nan (x : FP) : add f x nan = nan := by cases x <;> simp [add]

theorem add_opp {a b c d : FP} (h : Opp a b) (k : Opp c d) : Opp (add f a c) (add f b d) := by
  cases h with
  | nan => simpa [add] using Opp.nan
  | inf s =>
    cases k with
    | nan => simpa [add] using Opp.nan
    | inf t => cases s <;> cases t <;> simp [add] <;> first | exact Opp.nan | exact Opp.inf _
    | num hc hd => rw [inf_add' _ hc, inf_add' _ hd]; exact .inf s
  | num ha hb =>
    cases k with
    | nan => rw [add_nan, add_nan]; exact .nan
    | inf t => rw [add_inf' _ ha, add_inf' _ hb]; exact .inf t
    | num hc hd =>
      rename_i p q
      have key : ∀ {x y : FP} {u v : Rat}, x.toQ? = some u → y.toQ? = some v →
          add f x y = round f false (u + v) ∨ (u + v = 0 ∧ add f x y = zero true) := by
        intro x y u v hx hy
        rcases add_num (f := f) hx hy with ⟨rfl, rfl⟩ | e
        · cases hx; cases hy; exact .inr ⟨by norm_num, rfl⟩
        · exact .inl e
      have z : ∀ s, round f s 0 = zero s := fun s => by simp [round]
      have e : -p + -q = -(p + q) := by ring
      rcases key ha hc with h1 | ⟨h0, h1⟩ <;> rcases key hb hd with h2 | ⟨h3, h2⟩ <;> rw [h1, h2]
      · rw [e]; exact round_opp _ _ _
      · have : p + q = 0 := by linarith
        rw [this, z]; exact .zeros _ _
      · have : -p + -q = 0 := by linarith
        rw [this, z]; exact .zeros _ _
      · exact .zeros _ _

theorem mul_opp (k : FP) {a b : FP} (h : Opp a b) : Opp (mul f k a) (mul f k b) := by
  cases h with
  | nan => cases k <;> simp [mul, toQ?] <;> exact Opp.nan
  | inf s =>
    rcases Option.eq_none_or_eq_some k.toQ? with e | ⟨q, e⟩
    · have e1 : (inf s).toQ? = none := rfl
      have e2 : (inf (!s)).toQ? = none := rfl
      simp only [mul, e, e1, e2]
      by_cases hk : k = .nan
      · simp [hk]; exact Opp.nan
      · simp [hk, sign]
        cases k.sign <;> cases s <;> exact Opp.inf _
    · have e1 : (inf s).toQ? = none := rfl
      have e2 : (inf (!s)).toQ? = none := rfl
      simp only [mul, e, e1, e2]
      by_cases hk : q = 0
      · simp [hk]; exact Opp.nan
      · simp [hk, sign]
        cases k.sign <;> cases s <;> exact Opp.inf _
  | num ha hb =>
    rename_i q
    rcases Option.eq_none_or_eq_some k.toQ? with e | ⟨p, e⟩
    · simp only [mul, e, ha, hb]
      by_cases hk : k = .nan
      · simp [hk]; exact Opp.nan
      · by_cases hq : q = 0
        · simp [hq]; exact Opp.nan
        · have sb : b.sign = !a.sign := by
            rcases lt_or_gt_of_ne hq with h | h
            · rw [sign_of_neg ha h, sign_of_pos hb (by linarith)]; rfl
            · rw [sign_of_pos ha h, sign_of_neg hb (by linarith)]; rfl
          simp [hk, hq, sb]
          cases k.sign <;> cases a.sign <;> exact Opp.inf _
    · simp only [mul, e, ha, hb]
      rw [mul_neg]
      exact round_opp _ _ _
end FP

theorem opposite_iff {f : Fmt} (a b : Flt f) : Opposite a b ↔ FP.Opp a.val b.val := by
  constructor
  · rintro (⟨ha, hb⟩ | ⟨ha, hb⟩ | ⟨ha, hb⟩)
    · exact .num ha hb
    · rw [ha, hb]; exact .inf _
    · rw [ha, hb]; exact .nan
  · intro h
    generalize ha : a.val = u at h
    generalize hb : b.val = v at h
    cases h with
    | num h1 h2 => subst ha; subst hb; exact .num h1 h2
    | inf s => exact .inf ha hb
    | nan => exact .nan ha hb

/-- the negation of a float is its opposite -/
theorem opposite_neg {f : Fmt} [Libm f] (a : Flt f) : Opposite a (FloatOps.neg a) := by
  rw [opposite_iff]
  show FP.Opp a.val (FP.neg a.val)
  cases a.val with
  | nan => exact .nan
  | inf s => exact .inf s
  | negZero => exact .num (q := 0) rfl (by simp [FP.neg, FP.toQ?])
  | fin q =>
    unfold FP.neg
    dsimp only
    split
    · rename_i h; subst h; exact .num rfl (by simp [FP.toQ?])
    · exact .num rfl rfl

section
variable [Libm f32]

theorem opposite_survives (kernel : List F32) : SurvivesSums (Opposite (f := f32)) kernel where
  zero := .num (q := 0) (by show (num 0 : F32).val.toQ? = _; rw [num_zero_val]; rfl) (by show (num 0 : F32).val.toQ? = _; rw [num_zero_val]; simp [FP.toQ?])
  blank := by
    have e : (ofU8 0 : F32).val = .fin 0 := num_zero_val
    exact .num (q := 0) (by show (ofU8 0 : F32).val.toQ? = _; rw [e]; rfl) (by show (ofU8 0 : F32).val.toQ? = _; rw [e]; simp [FP.toQ?])
  add h1 h2 := (opposite_iff _ _).2 (FP.add_opp ((opposite_iff _ _).1 h1) ((opposite_iff _ _).1 h2))
  mul k _ _ _ h := (opposite_iff _ _).2 (FP.mul_opp k.val ((opposite_iff _ _).1 h))


theorem opposite_right {a b : F32} (h : Opposite a b) (w : F32) : Opposite (a *. w) (b *. w) := by
  rw [opposite_iff] at *
  show FP.Opp (FP.mul f32 a.val w.val) (FP.mul f32 b.val w.val)
  rw [FP.mul_comm, FP.mul_comm f32 b.val]
  exact FP.mul_opp _ h
theorem opposite_add {a b c d : F32} (h : Opposite a b) (k : Opposite c d) : Opposite (a +. c) (b +. d) :=
  (opposite_survives []).add h k

variable {a b : Image F32}

theorem opposite_bilinear (h : a.Alike Opposite b) (P : Profile) (xf yf : F32) (x y : Nat) :
    EndAlike (List.Forall₂ Opposite) (interpolateBilinear P a xf yf x y) (interpolateBilinear P b xf yf x y) := by
  unfold interpolateBilinear
  rw [h.header]
  refine EndAlike.step _ fun w1 => EndAlike.step _ fun h1 => (alike_getPixel h P _ _).bind fun _ _ p1 => (alike_getPixel h P _ _).bind fun _ _ p2 =>
    (alike_getPixel h P _ _).bind fun _ _ p3 => (alike_getPixel h P _ _).bind fun _ _ p4 => ?_
  refine EndAlike.forRange _ _ List.Forall₂.nil fun c o o' q => ?_
  refine (alike_idx p1 c).bind fun _ _ v1 => (alike_idx p2 c).bind fun _ _ v2 => (alike_idx p3 c).bind fun _ _ v3 =>
    (alike_idx p4 c).bind fun _ _ v4 => ?_
  exact alike_snoc q (opposite_add (opposite_add (opposite_add
    (opposite_right (opposite_right v1 _) _) (opposite_right (opposite_right v2 _) _))
    (opposite_right (opposite_right v3 _) _)) (opposite_right (opposite_right v4 _) _))

theorem opposite_accum {p p' : List F32} (hp : List.Forall₂ Opposite p p') (n : Nat) (r : F32) {o o' : List F32} (q : List.Forall₂ Opposite o o') :
    EndAlike (List.Forall₂ Opposite) (accumPixel n p r o) (accumPixel n p' r o') := by
  unfold accumPixel
  exact EndAlike.forRange _ _ q fun c o o' q => (alike_idx q c).bind fun _ _ v => (alike_idx hp c).bind fun _ _ w =>
    alike_setIdx q c (opposite_add v (opposite_right w r))

omit [Libm f32] in
theorem alike_getPixelUnchecked {T S : Type} {R : T → S → Prop} {a : Image T} {b : Image S} (h : a.Alike R b) (P : Profile) (x y : Nat) :
    EndAlike (List.Forall₂ R) (a.getPixelUnchecked P x y) (b.getPixelUnchecked P x y) := by
  unfold Image.getPixelUnchecked
  rw [h.header]
  exact EndAlike.step _ fun _ => EndAlike.step _ fun _ => alike_at h P _

theorem zeros_opposite (n : Nat) : List.Forall₂ Opposite (List.replicate n (num 0 : F32)) (List.replicate n (num 0)) :=
  forall₂_replicate (opposite_survives []).zero n

theorem opposite_bicubic (h : a.Alike Opposite b) (P : Profile) (xf yf : F32) (x y : Nat) :
    EndAlike (List.Forall₂ Opposite) (interpolateBicubic P a xf yf x y) (interpolateBicubic P b xf yf x y) := by
  unfold interpolateBicubic forRangeI
  rw [h.header]
  exact EndAlike.forRange _ _ (zeros_opposite _) fun _ o o' q => EndAlike.step _ fun _ => EndAlike.forRange _ _ q fun _ o o' q =>
    EndAlike.step _ fun _ => (alike_getPixelUnchecked h P _ _).bind fun _ _ p => opposite_accum p _ _ q

/-- two interpolations giving opposite pixels everywhere -/
structure OppositePixels (i i' : Nat → Nat → Res (List F32)) : Prop where
  all : ∀ x y, EndAlike (List.Forall₂ Opposite) (i x y) (i' x y)

theorem opposite_lanczos (h : a.Alike Opposite b) (P : Profile) (xf yf : F32) (size : Nat) :
    OppositePixels (interpolateLanczos P a xf yf size) (interpolateLanczos P b xf yf size) := by
  constructor
  intro x y
  unfold interpolateLanczos forRangeI
  rw [h.header]
  generalize i32Sub P 1 (Imgproc.toI32 size) = lo
  generalize i32Add P (Imgproc.toI32 size) 1 = hi
  exact EndAlike.step _ fun _ => EndAlike.step _ fun _ => EndAlike.forRange _ _ (zeros_opposite _) fun _ o o' q => EndAlike.step _ fun _ =>
    EndAlike.forRange _ _ q fun _ o o' q =>
    EndAlike.step _ fun _ => (alike_getPixelUnchecked h P _ _).bind fun _ _ p => opposite_accum p _ _ q

theorem opposite_interpolate (h : a.Alike Opposite b) (P : Profile) (xf yf : F32) (m : Scale) :
    OppositePixels (interpolate P a xf yf m) (interpolate P b xf yf m) := by
  cases m
  · exact ⟨alike_nearest h P xf yf⟩
  · exact ⟨opposite_bilinear h P xf yf⟩
  · exact ⟨opposite_bicubic h P xf yf⟩
  · exact opposite_lanczos h P xf yf 3

omit [Libm f32] in
theorem opposite_loop {i i' : Nat → Nat → Res (List F32)} (hi : OppositePixels i i') (P : Profile)
    {o o' : Image F32} (q : o.Alike Opposite o') : EndAlike (Image.Alike Opposite) (scaleLoop P o i) (scaleLoop P o' i') := by
  unfold scaleLoop
  rw [q.header]
  refine EndAlike.forRange _ _ q fun j o o' q => ?_
  rw [q.header]
  exact EndAlike.forRange _ _ q fun x o o' q => (hi.all x j).bind fun _ _ p => alike_setPixel q p P _ _

omit [Libm f32] in
theorem opposite_loop_par {i i' : Nat → Nat → Res (List F32)} (hi : OppositePixels i i') (order : List Nat)
    (P : Profile) (info : ImageInfo) : EndAlike (Image.Alike Opposite) (scaleLoopPar order P info i) (scaleLoopPar order P info i') := by
  unfold scaleLoopPar
  exact EndAlike.step _ fun n => EndAlike.bind (alike_parCollect order n fun k => EndAlike.step _ fun _ => hi.all _ _) fun _ _ v => alike_concat' v P _ _ _ _

end
end Imgproc

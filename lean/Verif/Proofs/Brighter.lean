import Verif.Spec.Brighter
import Verif.Proofs.Moves
import Verif.Core.IEEE
import Verif.Core.Round
/-! Lemmas for C133. -/
namespace Imgproc
open List FloatOps
section
variable {T S : Type} {R : T → S → Prop} {a : Image T} {b : Image S}

/-- two sub-images with the same header whose pixels are related value by value -/
structure SubAlike (R : T → S → Prop) (a : SubImage T) (b : SubImage S) : Prop where
  header : a.info = b.info
  values : Forall₂ (Forall₂ R) a.data b.data

theorem alike_idx {Q : T → S → Prop} {l : List T} {l' : List S} (h : Forall₂ Q l l') (i : Nat) : EndAlike Q (idx l i) (idx l' i) := by
  induction h generalizing i with
  | nil => rfl
  | cons e _ ih =>
    cases i with
    | zero => exact e
    | succ i =>
      have := ih i
      unfold idx at this ⊢
      simpa using this

theorem alike_setIdx {Q : T → S → Prop} {l : List T} {l' : List S} (h : Forall₂ Q l l') (i : Nat) {u : T} {v : S} (q : Q u v) :
    EndAlike (Forall₂ Q) (setIdx l i u) (setIdx l' i v) := by
  unfold setIdx
  rw [h.length_eq]
  split
  · exact forall₂_set h q i
  · rfl

theorem alike_snoc {Q : T → S → Prop} {l : List T} {l' : List S} (h : Forall₂ Q l l') {u : T} {v : S} (q : Q u v) :
    Forall₂ Q (l ++ [u]) (l' ++ [v]) := rel_append h (Forall₂.cons q Forall₂.nil)

theorem alike_neighborhood1d (h : a.Alike R b) (P : Profile) (x y n : Nat) (v : Bool) :
    EndAlike (SubAlike R) (a.getNeighborhood1d P x y n v) (b.getNeighborhood1d P x y n v) := by
  unfold Image.getNeighborhood1d
  rw [h.header]
  refine EndAlike.step _ fun _ => ?_
  cases v
  all_goals
    simp only [reduceIte, Bool.false_eq_true]
    generalize Image.neighborStart P _ n = r
    refine EndAlike.step _ ?_
    intro s
    refine EndAlike.bind (Q := Forall₂ (Forall₂ R)) ?_ fun _ _ q => ⟨rfl, q⟩
    refine EndAlike.forRange _ _ Forall₂.nil ?_
    intro i d d' q
    refine EndAlike.step _ ?_
    intro c
    refine EndAlike.bind (alike_getPixel h P _ _) ?_
    intro _ _ p
    exact alike_snoc q p

theorem alike_neighborhood2d (h : a.Alike R b) (P : Profile) (x y n : Nat) :
    EndAlike (SubAlike R) (a.getNeighborhood2d P x y n) (b.getNeighborhood2d P x y n) := by
  unfold Image.getNeighborhood2d
  rw [h.header]
  refine EndAlike.step _ fun _ => ?_
  generalize Image.neighborStart P x n = r
  generalize Image.neighborStart P y n = r'
  refine EndAlike.step _ fun s => EndAlike.step _ fun _ => EndAlike.bind (Q := Forall₂ (Forall₂ R)) ?_ fun _ _ q => ⟨rfl, q⟩
  refine EndAlike.forRange _ _ Forall₂.nil fun i d d' q => EndAlike.forRange _ _ q fun j d d' q => ?_
  exact EndAlike.step _ fun _ => EndAlike.step _ fun _ => (alike_getPixel h P _ _).bind fun _ _ p => alike_snoc q p

end

section
variable {F : Type} [FloatOps F] {R : F → F → Prop} {kernel : List F}

theorem alike_kernelStep (C : SurvivesSums R kernel) {s s' : SubImage F} (h : SubAlike R s s') (i : Nat) {o o' : List F} (q : Forall₂ R o o') :
    EndAlike (Forall₂ R) (kernelStep kernel s i o) (kernelStep kernel s' i o') := by
  unfold kernelStep
  rw [q.length_eq]
  refine EndAlike.forRange _ _ q fun j o o' q => ?_
  refine EndAlike.bind (Q := fun k k' => k = k' ∧ k ∈ kernel) ?_ fun k k' hk => ?_
  · unfold idx
    cases e : kernel[i]? with
    | none => rfl
    | some k => exact ⟨rfl, List.mem_of_getElem? e⟩
  · obtain ⟨rfl, hk⟩ := hk
    exact (alike_idx h.values i).bind fun p p' hp => (alike_idx hp j).bind fun v v' hv => (alike_idx q j).bind fun w w' hw =>
      alike_setIdx q j (C.add hw (C.mul k hk hv))

theorem alike_apply1d (C : SurvivesSums R kernel) {s s' : SubImage F} (h : SubAlike R s s') (P : Profile) :
    EndAlike (Forall₂ R) (apply1dKernel P s kernel) (apply1dKernel P s' kernel) := by
  unfold apply1dKernel
  rw [h.header]
  exact EndAlike.step _ fun n => EndAlike.step _ fun _ => EndAlike.step _ fun _ =>
    EndAlike.forRange _ _ (forall₂_replicate C.zero _) fun i o o' q => alike_kernelStep C h i q

theorem alike_apply2d (C : SurvivesSums R kernel) {s s' : SubImage F} (h : SubAlike R s s') (P : Profile) :
    EndAlike (Forall₂ R) (apply2dKernel P s kernel) (apply2dKernel P s' kernel) := by
  unfold apply2dKernel
  rw [h.header]
  exact EndAlike.step _ fun n => EndAlike.step _ fun _ => EndAlike.step _ fun _ =>
    EndAlike.forRange _ _ (forall₂_replicate C.zero _) fun y o o' q => EndAlike.forRange _ _ q fun x o o' q =>
      EndAlike.step _ fun _ => EndAlike.step _ fun _ => alike_kernelStep C h _ q

theorem EndAlike.unwrap {α β : Type} {Q : α → β → Prop} {r : Res α} {r' : Res β} (h : EndAlike Q r r') :
    EndAlike Q (unwrapRes r) (unwrapRes r') := by
  cases r with
  | ok _ => cases r' with
    | ok _ => exact h
    | error _ => exact h.elim
  | error e => cases r' with
    | ok _ => exact h.elim
    | error e' =>
      obtain rfl : e = e' := h
      cases e <;> rfl
end

/-! ### Order on floats -/
namespace FP
variable {f : Fmt}

/-- position of a datum on the extended number line (NaN excluded by the users of this function) -/
def pos : FP → WithBot (WithTop Rat)
  | nan => ⊥
  | inf true => ⊥
  | inf false => ((⊤ : WithTop Rat) : WithBot (WithTop Rat))
  | negZero => (((0 : Rat) : WithTop Rat) : WithBot (WithTop Rat))
  | fin q => ((q : WithTop Rat) : WithBot (WithTop Rat))

theorem lt_pos (x y : FP) (hx : x ≠ nan) (hy : y ≠ nan) : lt x y = true ↔ x.pos < y.pos := by
  cases x with
  | nan => exact (hx rfl).elim
  | inf s => cases s <;> cases y with
    | nan => exact (hy rfl).elim
    | inf t => cases t <;> simp [lt, toQ?, pos, sign]
    | negZero => simp [lt, toQ?, pos, sign]
    | fin q => simp [lt, toQ?, pos, sign]
  | negZero => cases y with
    | nan => exact (hy rfl).elim
    | inf t => cases t <;> first
        | exact ⟨fun _ => WithBot.coe_lt_coe.2 (WithTop.coe_lt_top _), fun _ => by simp [lt, toQ?, sign]⟩
        | simp [lt, toQ?, pos, sign]
    | negZero => simp [lt, toQ?, pos]
    | fin q => simp [lt, toQ?, pos]
  | fin p => cases y with
    | nan => exact (hy rfl).elim
    | inf t => cases t <;> first
        | exact ⟨fun _ => WithBot.coe_lt_coe.2 (WithTop.coe_lt_top _), fun _ => by simp [lt, toQ?, sign]⟩
        | simp [lt, toQ?, pos, sign]
    | negZero => simp [lt, toQ?, pos]
    | fin q => simp [lt, toQ?, pos]

theorem lt_nan_left (y : FP) : lt nan y = false := by cases y <;> simp [lt, toQ?]
theorem lt_nan_right (x : FP) : lt x nan = false := by cases x <;> simp [lt, toQ?]

/-- "not brighter" in terms of positions -/
theorem not_lt_iff (a b : FP) : lt b a = false ↔ a = nan ∨ b = nan ∨ a.pos ≤ b.pos := by
  by_cases ha : a = nan
  · subst ha; simp [lt_nan_right]
  by_cases hb : b = nan
  · subst hb; simp [lt_nan_left]
  have := lt_pos b a hb ha
  rw [Bool.eq_false_iff, ne_eq, this, not_lt]
  simp [ha, hb]

theorem pos_zero (s : Bool) : (zero s).pos = (((0 : Rat) : WithTop Rat) : WithBot (WithTop Rat)) := by cases s <;> rfl

theorem round_pos (s : Bool) (q : Rat) : (round f s q).pos =
    if |rndQ f.toRFmt q| < pow2 f.emax then ((rndQ f.toRFmt q : WithTop Rat) : WithBot (WithTop Rat))
    else if q < 0 then ⊥ else ((⊤ : WithTop Rat) : WithBot (WithTop Rat)) := by
  have h0 := pow2_pos f.emax
  unfold round
  split
  · rename_i h
    rw [h, rndQ_zero, abs_zero, if_pos h0, pos_zero]
  · dsimp only
    split
    · rename_i h
      rw [h, abs_zero, if_pos h0, pos_zero]
    · split
      · rfl
      · by_cases hq : q < 0
        · rw [decide_eq_true hq, if_pos hq]; rfl
        · rw [decide_eq_false hq, if_neg hq]; rfl

theorem round_pos_mono (s t : Bool) {q r : Rat} (h : q ≤ r) : (round f s q).pos ≤ (round f t r).pos := by
  have h0 := pow2_pos f.emax
  have hm := rndQ_mono (f := f.toRFmt) h
  rw [round_pos, round_pos]
  by_cases hq : |rndQ f.toRFmt q| < pow2 f.emax <;> by_cases hr : |rndQ f.toRFmt r| < pow2 f.emax
  · rw [if_pos hq, if_pos hr]; simpa using hm
  · rw [if_pos hq, if_neg hr]
    have : ¬ r < 0 := by
      intro hr0
      have h1 := rndQ_nonpos (f := f.toRFmt) hr0.le
      rw [abs_of_nonpos h1] at hr
      rw [abs_of_nonpos (hm.trans h1)] at hq
      exact hr (lt_of_le_of_lt (neg_le_neg hm) hq)
    rw [if_neg this]
    exact WithBot.coe_le_coe.2 le_top
  · rw [if_neg hq, if_pos hr]
    have : q < 0 := by
      by_contra hq0
      have h1 := rndQ_nonneg (f := f.toRFmt) (not_lt.1 hq0)
      rw [abs_of_nonneg h1] at hq
      rw [abs_of_nonneg (h1.trans hm)] at hr
      exact hq (lt_of_le_of_lt hm hr)
    rw [if_pos this]
    exact bot_le
  · rw [if_neg hq, if_neg hr]
    by_cases hr0 : r < 0
    · rw [if_pos (lt_of_le_of_lt h hr0), if_pos hr0]
    · rw [if_neg hr0]
      split
      · exact bot_le
      · exact le_refl _

theorem add_fin {x y : FP} {a b : Rat} (hx : x.toQ? = some a) (hy : y.toQ? = some b) : (add f x y).pos = (round f false (a + b)).pos := by
  cases x <;> simp only [toQ?, Option.some.injEq, reduceCtorEq] at hx <;> cases y <;> simp only [toQ?, Option.some.injEq, reduceCtorEq] at hy <;>
    subst hx <;> subst hy
  · show negZero.pos = _
    rw [add_zero]
    simp [round, pos, zero]
  all_goals rfl

theorem pos_of_toQ {x : FP} {a : Rat} (h : x.toQ? = some a) : x.pos = ((a : WithTop Rat) : WithBot (WithTop Rat)) := by
  cases x <;> simp only [toQ?, Option.some.injEq, reduceCtorEq] at h <;> subst h <;> rfl

theorem toQ_cases (x : FP) (h : x ≠ nan) : x = inf true ∨ x = inf false ∨ ∃ a, x.toQ? = some a := by
  cases x with
  | nan => exact (h rfl).elim
  | inf s => cases s <;> simp
  | negZero => simp [toQ?]
  | fin q => simp [toQ?]

theorem add_inf {x : FP} (s : Bool) (h : add f x (inf s) ≠ nan) : add f x (inf s) = inf s := by
  cases x with
  | nan => exact (h (by simp [add])).elim
  | inf t =>
    by_cases e : t = s
    · simp [add, e]
    · exact (h (by simp [add, e])).elim
  | negZero => rfl
  | fin _ => rfl

theorem inf_add {x : FP} (s : Bool) (h : add f (inf s) x ≠ nan) : add f (inf s) x = inf s := by
  cases x with
  | nan => exact (h (by simp [add])).elim
  | inf t =>
    by_cases e : s = t
    · simp [add, e]
    · exact (h (by simp [add, e])).elim
  | negZero => rfl
  | fin _ => rfl

theorem ne_nan_of_add {x y : FP} (h : add f x y ≠ nan) : x ≠ nan ∧ y ≠ nan := by
  constructor
  · rintro rfl; exact h (by simp [add])
  · rintro rfl; exact h (by cases x <;> simp [add])

theorem coe_le_bot (a : Rat) : ¬ ((a : WithTop Rat) : WithBot (WithTop Rat)) ≤ ⊥ := by simp
theorem top_le_coe (a : Rat) : ¬ ((⊤ : WithTop Rat) : WithBot (WithTop Rat)) ≤ ((a : WithTop Rat) : WithBot (WithTop Rat)) := by
  rw [WithBot.coe_le_coe]; simp
theorem top_le_bot : ¬ ((⊤ : WithTop Rat) : WithBot (WithTop Rat)) ≤ ⊥ := by simp

theorem add_mono {a b c d : FP} (hab : lt b a = false) (hcd : lt d c = false) : lt (add f b d) (add f a c) = false := by
  rw [not_lt_iff] at *
  by_cases h1 : add f a c = nan
  · exact .inl h1
  by_cases h2 : add f b d = nan
  · exact .inr (.inl h2)
  refine .inr (.inr ?_)
  obtain ⟨na, nc⟩ := ne_nan_of_add h1
  obtain ⟨nb, nd⟩ := ne_nan_of_add h2
  replace hab : a.pos ≤ b.pos := by simpa [na, nb] using hab
  replace hcd : c.pos ≤ d.pos := by simpa [nc, nd] using hcd
  rcases toQ_cases a na with rfl | rfl | ⟨qa, ea⟩
  · rw [inf_add _ h1]; exact bot_le
  · rcases toQ_cases b nb with rfl | rfl | ⟨qb, eb⟩
    · exact (top_le_bot hab).elim
    · rw [inf_add _ h2]
      exact (show _ ≤ ((⊤ : WithTop Rat) : WithBot (WithTop Rat)) from by
        cases (add f (inf false) c).pos with
        | bot => exact bot_le
        | coe x => exact WithBot.coe_le_coe.2 le_top)
    · rw [pos_of_toQ eb] at hab; exact (top_le_coe _ hab).elim
  · rw [pos_of_toQ ea] at hab
    rcases toQ_cases b nb with rfl | rfl | ⟨qb, eb⟩
    · exact (coe_le_bot _ hab).elim
    · rw [inf_add _ h2]
      exact (show _ ≤ ((⊤ : WithTop Rat) : WithBot (WithTop Rat)) from by
        cases (add f a c).pos with
        | bot => exact bot_le
        | coe x => exact WithBot.coe_le_coe.2 le_top)
    · rw [pos_of_toQ eb] at hab
      rcases toQ_cases c nc with rfl | rfl | ⟨qc, ec⟩
      · rw [add_inf _ h1]; exact bot_le
      · rcases toQ_cases d nd with rfl | rfl | ⟨qd, ed⟩
        · exact (top_le_bot hcd).elim
        · rw [add_inf _ h2, add_inf _ h1]
        · rw [pos_of_toQ ed] at hcd; exact (top_le_coe _ hcd).elim
      · rw [pos_of_toQ ec] at hcd
        rcases toQ_cases d nd with rfl | rfl | ⟨qd, ed⟩
        · exact (coe_le_bot _ hcd).elim
        · rw [add_inf _ h2]
          exact (show _ ≤ ((⊤ : WithTop Rat) : WithBot (WithTop Rat)) from by
            cases (add f a c).pos with
            | bot => exact bot_le
            | coe x => exact WithBot.coe_le_coe.2 le_top)
        · rw [pos_of_toQ ed] at hcd
          rw [add_fin ea ec, add_fin eb ed]
          exact round_pos_mono _ _ (_root_.add_le_add (by simpa using hab) (by simpa using hcd))

theorem sign_of_pos {k : FP} {q : Rat} (h : k.toQ? = some q) (hq : 0 < q) : k.sign = false := by
  cases k <;> simp only [toQ?, Option.some.injEq, reduceCtorEq] at h
  · subst h; exact (lt_irrefl _ hq).elim
  · subst h; simpa [sign] using hq.le

theorem sign_of_neg {k : FP} {q : Rat} (h : k.toQ? = some q) (hq : q < 0) : k.sign = true := by
  cases k <;> simp only [toQ?, Option.some.injEq, reduceCtorEq] at h
  · subst h; exact (lt_irrefl _ hq).elim
  · subst h; simpa [sign] using hq

theorem mul_mono {k a b : FP} (hk : lt k (fin 0) = false) (hab : lt b a = false) : lt (mul f k b) (mul f k a) = false := by
  rw [not_lt_iff] at *
  by_cases h1 : mul f k a = nan
  · exact .inl h1
  by_cases h2 : mul f k b = nan
  · exact .inr (.inl h2)
  refine .inr (.inr ?_)
  have nk : k ≠ nan := by rintro rfl; exact h1 (by cases a <;> simp [mul, toQ?])
  have na : a ≠ nan := by rintro rfl; exact h1 (by cases k <;> simp [mul, toQ?])
  have nb : b ≠ nan := by rintro rfl; exact h2 (by cases k <;> simp [mul, toQ?])
  replace hab : a.pos ≤ b.pos := by simpa [na, nb] using hab
  replace hk : (fin 0).pos ≤ k.pos := by simpa [nk] using hk
  have top : ∀ x : FP, x.pos ≤ ((⊤ : WithTop Rat) : WithBot (WithTop Rat)) := fun x => by
    cases x.pos with
    | bot => exact bot_le
    | coe x => exact WithBot.coe_le_coe.2 le_top
  rcases toQ_cases k nk with rfl | rfl | ⟨qk, ek⟩
  · exact (coe_le_bot _ hk).elim
  · -- an infinite weight
    have hi : (inf false).toQ? = none := rfl
    rcases toQ_cases a na with rfl | rfl | ⟨qa, ea⟩
    · rw [show mul f (inf false) (inf true) = inf true from rfl]; exact bot_le
    · rcases toQ_cases b nb with rfl | rfl | ⟨qb, eb⟩
      · exact (top_le_bot hab).elim
      · exact le_refl _
      · rw [pos_of_toQ eb] at hab; exact (top_le_coe _ hab).elim
    · have qa0 : qa ≠ 0 := by rintro rfl; exact h1 (by simp [mul, hi, ea])
      have ma : mul f (inf false) a = inf a.sign := by
        rw [mul, hi, ea]
        simp [qa0, show (inf false).sign = false from rfl]
      rcases lt_or_gt_of_ne qa0 with hn | hp
      · rw [ma, sign_of_neg ea hn]; exact bot_le
      · rw [pos_of_toQ ea] at hab
        rcases toQ_cases b nb with rfl | rfl | ⟨qb, eb⟩
        · exact (coe_le_bot _ hab).elim
        · exact top _
        · rw [pos_of_toQ eb] at hab
          have hq : qa ≤ qb := by simpa using hab
          have hb : 0 < qb := lt_of_lt_of_le hp hq
          have mb : mul f (inf false) b = inf b.sign := by
            rw [mul, hi, eb]
            simp [hb.ne', show (inf false).sign = false from rfl]
          rw [ma, mb, sign_of_pos ea hp, sign_of_pos eb hb]
  · have hk0 : 0 ≤ qk := by rw [pos_of_toQ ek] at hk; simpa [pos] using hk
    rcases hk0.eq_or_lt with rfl | hkp
    · -- weight zero
      have z : ∀ {x : FP}, mul f k x ≠ nan → (mul f k x).pos = (((0 : Rat) : WithTop Rat) : WithBot (WithTop Rat)) := by
        intro x hx
        rcases Option.eq_none_or_eq_some x.toQ? with e | ⟨q, e⟩
        · exact (hx (by simp [mul, ek, e])).elim
        · simp [mul, ek, e, round, pos_zero]
      rw [z h1, z h2]
    · have sk := sign_of_pos ek hkp
      have mi : ∀ s, mul f k (inf s) = inf s := fun s => by
        have hx : (inf s).toQ? = none := rfl
        rw [mul, ek, hx]
        simp [hkp.ne', sk, show (inf s).sign = s from rfl]
      have mf : ∀ {x : FP} {q : Rat}, x.toQ? = some q → ∃ t, (mul f k x).pos = (round f t (qk * q)).pos := fun e => by
        simp only [mul, ek, e]; exact ⟨_, rfl⟩
      rcases toQ_cases a na with rfl | rfl | ⟨qa, ea⟩
      · rw [mi]; exact bot_le
      · rcases toQ_cases b nb with rfl | rfl | ⟨qb, eb⟩
        · exact (top_le_bot hab).elim
        · exact le_refl _
        · rw [pos_of_toQ eb] at hab; exact (top_le_coe _ hab).elim
      · rw [pos_of_toQ ea] at hab
        rcases toQ_cases b nb with rfl | rfl | ⟨qb, eb⟩
        · exact (coe_le_bot _ hab).elim
        · rw [mi]; exact top _
        · rw [pos_of_toQ eb] at hab
          have hq : qa ≤ qb := by simpa using hab
          obtain ⟨s, es⟩ := mf ea
          obtain ⟨t, et⟩ := mf eb
          rw [es, et]
          exact round_pos_mono _ _ (mul_le_mul_of_nonneg_left hq hkp.le)
end FP

section
variable [Libm f32]

theorem num_zero_val : (num 0 : F32).val = FP.fin 0 := by
  show FP.round f32 false (((0 : Int) : Rat)) = _
  simp [FP.round, FP.zero]

/-- "not darker" survives sums with weights that are not negative, for all floats, infinities and NaNs included -/
theorem notDarker_survives {kernel : List F32} (hk : NonNegative kernel) : SurvivesSums (NotDarker (F := F32)) kernel where
  zero := (FP.not_lt_iff _ _).2 (.inr (.inr (le_refl _)))
  blank := (FP.not_lt_iff _ _).2 (.inr (.inr (le_refl _)))
  add h1 h2 := FP.add_mono h1 h2
  mul k hk' a b h := FP.mul_mono (by have := hk k hk'; unfold FloatOps.lt instFloatOpsFlt at this; dsimp only at this; rw [num_zero_val] at this; exact this) h

/-- a quotient of two counts is not negative (it may be infinite or NaN) -/
theorem ratio_not_negative (m n : Nat) : ((ofNat m : F32) /. ofNat n <. num 0) = false := by
  have sg : ∀ n : Nat, ((ofNat n : F32).val).sign = false ∧ (ofNat n : F32).val ≠ .nan ∧ ∀ q, ((ofNat n : F32).val).toQ? = some q → 0 ≤ q := by
    intro n
    have e : (ofNat n : F32).val = FP.round f32 false (((n : Int) : Rat)) := rfl
    have hn : (0 : Rat) ≤ ((n : Int) : Rat) := by exact_mod_cast Int.natCast_nonneg n
    have hr := rndQ_nonneg (f := f32.toRFmt) hn
    rw [e]
    unfold FP.round
    split
    · exact ⟨by decide, by decide, fun q h => by cases h; exact le_refl _⟩
    · dsimp only
      split
      · rw [decide_eq_false (not_lt.2 hn)]
        exact ⟨by decide, by decide, fun q h => by cases h; exact le_refl _⟩
      · split
        · exact ⟨decide_eq_false (not_lt.2 hr), by simp, fun q h => by cases h; exact hr⟩
        · rw [decide_eq_false (not_lt.2 hn)]
          exact ⟨rfl, by simp, fun q h => by cases h⟩
  obtain ⟨s1, n1, q1⟩ := sg m
  obtain ⟨s2, n2, q2⟩ := sg n
  show FP.lt (FP.div f32 (ofNat m : F32).val (ofNat n : F32).val) (num 0 : F32).val = false
  rw [num_zero_val, FP.not_lt_iff]
  have top : (FP.fin 0).pos ≤ (FP.inf false).pos := WithBot.coe_le_coe.2 le_top
  unfold FP.div
  rw [s1, s2]
  cases e1 : (ofNat m : F32).val.toQ? with
  | none =>
    cases e2 : (ofNat n : F32).val.toQ? with
    | none => simp
    | some q => right; right; rw [if_neg n1]; exact top
  | some p =>
    cases e2 : (ofNat n : F32).val.toQ? with
    | none => right; right; rw [if_neg n2]; exact le_refl _
    | some q =>
      dsimp only
      split
      · split
        · right; left; rfl
        · right; right; exact top
      · right; right
        have := FP.round_pos_mono (f := f32) false (xor false false) (div_nonneg (q1 _ e1) (q2 _ e2))
        refine le_trans (le_of_eq ?_) this
        simp [FP.round, FP.zero]
end
end Imgproc

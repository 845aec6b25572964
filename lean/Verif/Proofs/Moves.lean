import Verif.Spec.Moves
import Verif.Model.Transform
import Mathlib.Data.List.Forall2
/-! Lemmas for C132: the building blocks of the geometric operations run alike on related values. -/
namespace Imgproc
open List
section
variable {α β α' β' T S : Type}

theorem EndAlike.bind {Q : α → β → Prop} {Q' : α' → β' → Prop} {r : Res α} {r' : Res β} {k : α → Res α'} {k' : β → Res β'}
    (h : EndAlike Q r r') (hk : ∀ a b, Q a b → EndAlike Q' (k a) (k' b)) : EndAlike Q' (r >>= k) (r' >>= k') := by
  cases r <;> cases r' <;> first | exact hk _ _ h | exact h.elim | exact h

theorem EndAlike.same (Q : α → α → Prop) (h : ∀ a, Q a a) (r : Res α) : EndAlike Q r r := by
  cases r <;> simp [EndAlike, h]

/-- a computation that does not look at channel values, followed by related ones -/
theorem EndAlike.step {Q' : α' → β' → Prop} (r : Res α) {k : α → Res α'} {k' : α → Res β'}
    (hk : ∀ a, EndAlike Q' (k a) (k' a)) : EndAlike Q' (r >>= k) (r >>= k') := by
  cases r with
  | ok a => exact hk a
  | error e => rfl

theorem EndAlike.loopFrom {Q : α → β → Prop} {f : Nat → α → Res α} {f' : Nat → β → Res β}
    (h : ∀ i a b, Q a b → EndAlike Q (f i a) (f' i b)) :
    ∀ n i a b, Q a b → EndAlike Q (Imgproc.loopFrom f n i a) (Imgproc.loopFrom f' n i b)
  | 0, _, _, _, q => q
  | n + 1, i, _, _, q => (h i _ _ q).bind fun _ _ q' => EndAlike.loopFrom h n (i + 1) _ _ q'

theorem EndAlike.forRange {Q : α → β → Prop} {f : Nat → α → Res α} {f' : Nat → β → Res β} (lo hi : Nat) {a : α} {b : β} (q : Q a b)
    (h : ∀ i a b, Q a b → EndAlike Q (f i a) (f' i b)) :
    EndAlike Q (Imgproc.forRange lo hi a f) (Imgproc.forRange lo hi b f') := EndAlike.loopFrom h _ _ _ _ q

theorem EndAlike.forList {γ : Type} {Q : α → β → Prop} {f : γ → α → Res α} {f' : γ → β → Res β}
    (h : ∀ c a b, Q a b → EndAlike Q (f c a) (f' c b)) :
    ∀ (l : List γ) {a b}, Q a b → EndAlike Q (Imgproc.forList l a f) (Imgproc.forList l b f')
  | [], _, _, q => q
  | c :: l, _, _, q => (h c _ _ q).bind fun _ _ q' => EndAlike.forList h l q'

theorem EndAlike.forList₂ {γ δ : Type} {E : γ → δ → Prop} {Q : α → β → Prop} {f : γ → α → Res α} {f' : δ → β → Res β}
    (h : ∀ c d a b, E c d → Q a b → EndAlike Q (f c a) (f' d b)) {l : List γ} {l' : List δ} (hl : Forall₂ E l l') :
    ∀ {a b}, Q a b → EndAlike Q (Imgproc.forList l a f) (Imgproc.forList l' b f') := by
  induction hl with
  | nil => intro a b q; exact q
  | cons e _ ih => intro a b q; exact (h _ _ _ _ e q).bind fun _ _ q' => ih q'

variable {R : T → S → Prop}

theorem alike_slice {l : List T} {l' : List S} (h : Forall₂ R l l') (a b : Nat) :
    EndAlike (Forall₂ R) (slice l a b) (slice l' a b) := by
  unfold slice
  rw [h.length_eq]
  split
  · exact forall₂_take _ (forall₂_drop _ h)
  · rfl

theorem alike_writeSlice {l p : List T} {l' p' : List S} (h : Forall₂ R l l') (hp : Forall₂ R p p') (a b : Nat) :
    EndAlike (Forall₂ R) (writeSlice l a b p) (writeSlice l' a b p') := by
  unfold writeSlice
  rw [h.length_eq, hp.length_eq]
  split
  · exact rel_append (rel_append (forall₂_take _ h) hp) (forall₂_drop _ h)
  · rfl

theorem alike_gather {l : List (Option α)} {l' : List (Option β)} {Q : α → β → Prop} (h : Forall₂ (Option.Rel Q) l l') :
    EndAlike (Forall₂ Q) (gather l) (gather l') := by
  induction h with
  | nil => exact Forall₂.nil
  | cons e _ ih =>
    cases e with
    | none => rfl
    | some q => exact ih.bind fun _ _ h => Forall₂.cons q h

theorem forall₂_set {Q : α → β → Prop} {l : List α} {l' : List β} (h : Forall₂ Q l l') {a : α} {b : β} (q : Q a b) :
    ∀ i, Forall₂ Q (l.set i a) (l'.set i b) := by
  induction h with
  | nil => intro i; exact Forall₂.nil
  | cons e h ih =>
    intro i
    cases i with
    | zero => exact Forall₂.cons q h
    | succ i => exact Forall₂.cons e (ih i)

theorem forall₂_replicate {Q : α → β → Prop} {a : α} {b : β} (q : Q a b) : ∀ n, Forall₂ Q (replicate n a) (replicate n b)
  | 0 => Forall₂.nil
  | n + 1 => Forall₂.cons q (forall₂_replicate q n)

theorem alike_parCollect {Q : α → β → Prop} (order : List Nat) (n : Nat) {f : Nat → Res α} {f' : Nat → Res β}
    (h : ∀ i, EndAlike Q (f i) (f' i)) : EndAlike (Forall₂ Q) (parCollect order n f) (parCollect order n f') := by
  unfold parCollect runTasks
  refine EndAlike.bind (Q := Forall₂ (Option.Rel Q)) (EndAlike.forList (fun i a b q => (h i).bind fun v w r => ?_) order
    (forall₂_replicate Option.Rel.none n)) fun _ _ h => alike_gather h
  exact forall₂_set q (Option.Rel.some r) i

variable {a : Image T} {b : Image S}

theorem alike_at (h : a.Alike R b) (P : Profile) (i : Nat) : EndAlike (Forall₂ R) (a.at' P i) (b.at' P i) := by
  unfold Image.at'
  rw [h.header]
  exact EndAlike.step _ fun _ => EndAlike.step _ fun _ => alike_slice h.values _ _

theorem alike_getPixel (h : a.Alike R b) (P : Profile) (x y : Nat) :
    EndAlike (Forall₂ R) (a.getPixel P x y) (b.getPixel P x y) := by
  unfold Image.getPixel
  rw [h.header]
  exact EndAlike.step _ fun _ => EndAlike.step _ fun _ => EndAlike.step _ fun _ => alike_at h P _

theorem alike_setPixel (h : a.Alike R b) {p : List T} {q : List S} (hp : Forall₂ R p q) (P : Profile) (x y : Nat) :
    EndAlike (Image.Alike R) (a.setPixel P x y p) (b.setPixel P x y q) := by
  unfold Image.setPixel Image.index
  rw [h.header, hp.length_eq]
  exact EndAlike.step _ fun _ => EndAlike.step _ fun _ => EndAlike.step _ fun _ => EndAlike.step _ fun _ =>
    (alike_writeSlice h.values hp _ _).bind fun _ _ v => ⟨rfl, v⟩

theorem alike_blank {N : RNum T} {M : RNum S} (z : R (N.ofU8 0) (M.ofU8 0)) (P : Profile) (i : ImageInfo) :
    EndAlike (Image.Alike R) (Image.blank P N i) (Image.blank P M i) := by
  unfold Image.blank
  exact EndAlike.step _ fun n => ⟨rfl, forall₂_replicate z n⟩

theorem alike_concat {l : List (List T)} {l' : List (List S)} (h : Forall₂ (Forall₂ R) l l') (P : Profile) (w k c : Nat) (al : Bool) :
    EndAlike (Image.Alike R) (Image.fromVecOfSlice P w k c al l) (Image.fromVecOfSlice P w k c al l') := by
  unfold Image.fromVecOfSlice
  refine EndAlike.step _ fun _ => EndAlike.step _ fun _ => EndAlike.bind (Q := Forall₂ R) ?_ fun _ _ v => ⟨rfl, v⟩
  exact EndAlike.forList₂ (E := Forall₂ R) (Q := Forall₂ R) (fun c d a b e q => by
    show Forall₂ R (a ++ c) (b ++ d)
    exact rel_append q e) h Forall₂.nil

theorem alike_concat' {l : List (List T)} {l' : List (List S)} (h : Forall₂ (Forall₂ R) l l') (P : Profile) (w k c : Nat) (al : Bool) :
    EndAlike (Image.Alike R) (Image.fromVecOfVec P w k c al l) (Image.fromVecOfVec P w k c al l') := by
  unfold Image.fromVecOfVec
  refine EndAlike.step _ fun _ => EndAlike.step _ fun _ => EndAlike.bind (Q := Forall₂ R) ?_ fun _ _ v => ⟨rfl, v⟩
  exact EndAlike.forList₂ (E := Forall₂ R) (Q := Forall₂ R) (fun c d a b e q => by
    show Forall₂ R (a ++ c) (b ++ d)
    exact rel_append q e) h Forall₂.nil

end
end Imgproc

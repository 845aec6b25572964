import Verif.Proofs.Moves
import Verif.Spec.Demo
import Verif.Core.IEEE
import Verif.Props.Image
import Verif.Props.Shear

/-!
# C132: the geometric operations only move channel values

`crop`, `overlay`, `translate`, `reflect`, `shear`, `rotate` and nearest-neighbour scaling never compute with, compare or branch on
channel values. For *every* relation `R` between channel values that relates the two zeros, running the operation on two images whose values
are related gives images whose values are related, and if one of the runs stops with an error or a panic, so does the other, with the same one.
No hypothesis is made on the images, the parameters or the build profile. Relations that are of use: "changed by `g`" (the operation commutes
with every per-channel map that keeps zero, also between channel types), `≤` (monotone), "within ε" (stable), "is a value of the input or zero".
-/
namespace Imgproc
open FloatOps (num ofNat)

section
variable {T S : Type} {R : T → S → Prop} {a : Image T} {b : Image S}

/-- **C132** `get_pixel` -/
theorem c132_get_pixel (h : a.Alike R b) (P : Profile) (x y : Nat) :
    EndAlike (List.Forall₂ R) (a.getPixel P x y) (b.getPixel P x y) := alike_getPixel h P x y

/-- **C132** `set_pixel` -/
theorem c132_set_pixel (h : a.Alike R b) {p : List T} {q : List S} (hp : List.Forall₂ R p q) (P : Profile) (x y : Nat) :
    EndAlike (Image.Alike R) (a.setPixel P x y p) (b.setPixel P x y q) := alike_setPixel h hp P x y

/-- **C132** `crop` -/
theorem c132_crop {N : RNum T} {M : RNum S} (z : R (N.ofU8 0) (M.ofU8 0)) (h : a.Alike R b) (P : Profile) (x y w k : Nat) :
    EndAlike (Image.Alike R) (crop P N a x y w k) (crop P M b x y w k) := by
  unfold crop cropCheck
  rw [h.header]
  refine EndAlike.step _ fun _ => (alike_blank z P _).bind fun o o' q => ?_
  exact EndAlike.forRange _ _ q fun j o o' q => EndAlike.forRange _ _ q fun i o o' q =>
    EndAlike.step _ fun _ => EndAlike.step _ fun _ => (alike_getPixel h P _ _).bind fun _ _ p => alike_setPixel q p P i j

/-- **C132** `crop` (rayon), for every schedule -/
theorem c132_crop_par (h : a.Alike R b) (order : List Nat) (P : Profile) (x y w k : Nat) :
    EndAlike (Image.Alike R) (cropPar order P a x y w k) (cropPar order P b x y w k) := by
  unfold cropPar cropCheck
  rw [h.header]
  refine EndAlike.step _ fun _ => EndAlike.step _ fun n => EndAlike.bind (alike_parCollect order n fun i => ?_)
    fun _ _ v => alike_concat v P _ _ _ _
  exact EndAlike.step _ fun _ => EndAlike.step _ fun _ => EndAlike.step _ fun _ => alike_getPixel h P _ _

/-- **C132** `overlay` -/
theorem c132_overlay {front : Image T} {front' : Image S} (h : a.Alike R b) (hf : front.Alike R front') (P : Profile) (x y : Nat) :
    EndAlike (Image.Alike R) (overlay P a front x y) (overlay P b front' x y) := by
  unfold overlay
  rw [h.header, hf.header]
  refine EndAlike.step _ fun _ => EndAlike.step _ fun _ => EndAlike.step _ fun _ => ?_
  exact EndAlike.forRange _ _ h fun j o o' q => EndAlike.forRange _ _ q fun i o o' q =>
    EndAlike.step _ fun _ => EndAlike.step _ fun _ => (alike_getPixel hf P _ _).bind fun _ _ p => alike_setPixel q p P i j

/-- **C132** `translate` -/
theorem c132_translate {N : RNum T} {M : RNum S} (z : R (N.ofU8 0) (M.ofU8 0)) (h : a.Alike R b) (P : Profile) (x y : Nat) :
    EndAlike (Image.Alike R) (translate P N a x y) (translate P M b x y) := by
  unfold translate
  rw [h.header]
  refine (alike_blank z P _).bind fun o o' q => ?_
  rw [q.header]
  refine EndAlike.forRange _ _ q fun j o o' q => ?_
  rw [q.header]
  exact EndAlike.forRange _ _ q fun i o o' q =>
    EndAlike.step _ fun _ => EndAlike.step _ fun _ => (alike_getPixel h P _ _).bind fun _ _ p => alike_setPixel q p P i j

/-- **C132** `reflect` -/
theorem c132_reflect {N : RNum T} {M : RNum S} (z : R (N.ofU8 0) (M.ofU8 0)) (h : a.Alike R b) (P : Profile) (axis : Refl) :
    EndAlike (Image.Alike R) (reflect P N a axis) (reflect P M b axis) := by
  unfold reflect
  rw [h.header]
  refine (alike_blank z P _).bind fun o o' q => ?_
  rw [q.header]
  cases axis <;>
  exact EndAlike.forRange _ _ q fun j o o' q => EndAlike.forRange _ _ q fun i o o' q =>
    EndAlike.step _ fun _ => EndAlike.step _ fun _ => (alike_getPixel h P _ _).bind fun _ _ p => alike_setPixel q p P _ _
end

section
variable {F : Type} [FloatOps F] {R : F → F → Prop} {a b : Image F}

/-- **C132** `shear` -/
theorem c132_shear (z : R ((FloatOps.rnum (F := F)).ofU8 0) ((FloatOps.rnum (F := F)).ofU8 0)) (h : a.Alike R b) (P : Profile) (u v : F) :
    EndAlike (Image.Alike R) (shear P a u v) (shear P b u v) := by
  unfold shear
  rw [h.header]
  refine EndAlike.step _ fun _ => EndAlike.step _ fun _ => (alike_blank z P _).bind fun o o' q => ?_
  exact EndAlike.forRange _ _ q fun j o o' q => EndAlike.forRange _ _ q fun i o o' q =>
    EndAlike.step _ fun _ => EndAlike.step _ fun _ => EndAlike.step _ fun _ => (alike_getPixel h P _ _).bind fun _ _ p => alike_setPixel q p P _ _

/-- **C132** `rotate` -/
theorem c132_rotate (z : R ((FloatOps.rnum (F := F)).ofU8 0) ((FloatOps.rnum (F := F)).ofU8 0)) (h : a.Alike R b) (P : Profile) (d : F) :
    EndAlike (Image.Alike R) (rotate P a d) (rotate P b d) := by
  unfold rotate
  rw [h.header]
  refine EndAlike.step _ fun _ => EndAlike.step _ fun _ => EndAlike.step _ fun _ => EndAlike.step _ fun _ => EndAlike.step _ fun _ =>
    EndAlike.step _ fun _ => EndAlike.step _ fun _ => EndAlike.step _ fun _ => EndAlike.step _ fun _ => EndAlike.step _ fun _ =>
    EndAlike.step _ fun _ => EndAlike.step _ fun _ => EndAlike.step _ fun _ => (alike_blank z P _).bind fun o o' q => ?_
  refine EndAlike.forRange _ _ q fun j o o' q => EndAlike.forRange _ _ q fun i o o' q =>
    EndAlike.step _ fun _ => EndAlike.step _ fun _ => EndAlike.step _ fun _ => (alike_getPixel h P _ _).bind fun _ _ p =>
    (alike_setPixel q p P _ _).bind fun o o' q => ?_
  split
  · exact EndAlike.step _ fun _ => (alike_getPixel h P _ _).bind fun _ _ p => alike_setPixel q p P _ _
  · exact q

theorem alike_nearest (h : a.Alike R b) (P : Profile) (u v : F) (x y : Nat) :
    EndAlike (List.Forall₂ R) (interpolateNearestNeighbor P a u v x y) (interpolateNearestNeighbor P b u v x y) := by
  unfold interpolateNearestNeighbor
  exact EndAlike.step _ fun _ => EndAlike.step _ fun _ => alike_getPixel h P _ _

/-- **C132** nearest-neighbour scaling -/
theorem c132_scale_nearest (z : R ((FloatOps.rnum (F := F)).ofU8 0) ((FloatOps.rnum (F := F)).ofU8 0)) (h : a.Alike R b) (P : Profile) (u v : F) :
    EndAlike (Image.Alike R) (scale P a u v .nearestNeighbor) (scale P b u v .nearestNeighbor) := by
  unfold scale scaleLoop
  rw [h.header]
  refine EndAlike.step _ fun _ => EndAlike.step _ fun _ => (alike_blank z P _).bind fun o o' q => ?_
  rw [q.header]
  refine EndAlike.forRange _ _ q fun j o o' q => ?_
  rw [q.header]
  exact EndAlike.forRange _ _ q fun i o o' q =>
    (alike_nearest h P u v i j).bind fun _ _ p => alike_setPixel q p P i j

/-- **C132** nearest-neighbour scaling (rayon), for every schedule -/
theorem c132_scale_nearest_par (h : a.Alike R b) (order : List Nat) (P : Profile) (u v : F) :
    EndAlike (Image.Alike R) (scalePar order P a u v .nearestNeighbor) (scalePar order P b u v .nearestNeighbor) := by
  unfold scalePar scaleLoopPar
  rw [h.header]
  refine EndAlike.step _ fun _ => EndAlike.step _ fun _ => EndAlike.step _ fun n =>
    EndAlike.bind (alike_parCollect order n fun i => ?_) fun _ _ v => alike_concat' v P _ _ _ _
  exact EndAlike.step _ fun _ => alike_nearest h P u v _ _
end

section
variable {T S : Type}

theorem alike_recolour {g : T → S} {a : Image T} {b : Image S} (h : a.Alike (fun t s => s = g t) b) : b = a.recolour g := by
  obtain ⟨h1, h2⟩ := h
  have k : ∀ {l : List T} {l' : List S}, List.Forall₂ (fun t s => s = g t) l l' → l' = l.map g := by
    intro l l' h
    induction h with
    | nil => rfl
    | cons e _ ih => rw [List.map_cons, ← e, ← ih]
  have := k h2
  cases b
  simp_all [Image.recolour]

theorem recolour_alike (g : T → S) (a : Image T) : a.Alike (fun t s => s = g t) (a.recolour g) := by
  refine ⟨rfl, ?_⟩
  unfold Image.recolour
  rw [List.forall₂_map_right_iff]
  exact List.forall₂_same.2 fun _ _ => rfl

theorem commutes_of {P : Profile} {g : T → S} {op : Image T → Res (Image T)} {op' : Image S → Res (Image S)}
    (h : ∀ a b, a.Alike (fun t s => s = g t) b → EndAlike (Image.Alike fun t s => s = g t) (op a) (op' b)) :
    CommutesWithMap P g op op' := by
  intro img m w e
  have e' : m = img.recolour g := by
    rw [Image.mapChannels_eq P w (fun _ _ => rfl)] at e
    injection e with e
    exact e.symm
  subst e'
  have k := h _ _ (recolour_alike g img)
  refine ⟨fun o ho wo => ?_, fun e he => ?_⟩
  · rw [ho] at k
    cases r : op' (img.recolour g) with
    | error _ => rw [r] at k; exact k.elim
    | ok o' =>
      rw [r] at k
      refine ⟨o', rfl, ?_⟩
      rw [Image.mapChannels_eq P wo (fun _ _ => rfl), alike_recolour k]
      rfl
  · rw [he] at k
    cases r : op' (img.recolour g) with
    | error _ => rw [r] at k; rw [show e = _ from k]
    | ok o' => rw [r] at k; exact k.elim

theorem only_moves_of {zero : T} {op : Image T → Res (Image T)}
    (h : ∀ (R : T → T → Prop) a b, R zero zero → a.Alike R b → EndAlike (Image.Alike R) (op a) (op b)) : OnlyMoves zero op := by
  intro img o e v hv
  have k := h (fun t _ => t ∈ img.data ∨ t = zero) img img (.inr rfl) ⟨rfl, List.forall₂_same.2 fun _ h => .inl h⟩
  rw [e] at k
  exact List.forall₂_same.1 k.values v hv

/-- **C132** Images of one channel type turned into another (or the same): cropping, moving and mirroring can be done before or after. -/
theorem c132_commute (P : Profile) (N : RNum T) (M : RNum S) (g : T → S) (hg : g (N.ofU8 0) = M.ofU8 0) :
    (∀ x y w k, CommutesWithMap P g (fun i => crop P N i x y w k) (fun i => crop P M i x y w k)) ∧
    (∀ order x y w k, CommutesWithMap P g (fun i => cropPar order P i x y w k) (fun i => cropPar order P i x y w k)) ∧
    (∀ x y, CommutesWithMap P g (fun i => translate P N i x y) (fun i => translate P M i x y)) ∧
    (∀ axis, CommutesWithMap P g (fun i => reflect P N i axis) (fun i => reflect P M i axis)) ∧
    (∀ front x y, CommutesWithMap P g (fun i => overlay P i front x y) (fun i => overlay P i (front.recolour g) x y)) :=
  ⟨fun x y w k => commutes_of fun _ _ h => c132_crop hg.symm h P x y w k,
   fun order x y w k => commutes_of fun _ _ h => c132_crop_par h order P x y w k,
   fun x y => commutes_of fun _ _ h => c132_translate hg.symm h P x y,
   fun axis => commutes_of fun _ _ h => c132_reflect hg.symm h P axis,
   fun front x y => commutes_of fun _ _ h => c132_overlay h (recolour_alike g front) P x y⟩

/-- **C132** Every channel value of the result is a value of the input or zero. -/
theorem c132_only_moves (P : Profile) (N : RNum T) :
    (∀ x y w k, OnlyMoves (N.ofU8 0) (fun i => crop P N i x y w k)) ∧
    (∀ order x y w k, OnlyMoves (N.ofU8 0) (fun i => cropPar order P i x y w k)) ∧
    (∀ x y, OnlyMoves (N.ofU8 0) (fun i => translate P N i x y)) ∧
    (∀ axis, OnlyMoves (N.ofU8 0) (fun i => reflect P N i axis)) :=
  ⟨fun x y w k => only_moves_of fun _ _ _ z h => c132_crop z h P x y w k,
   fun order x y w k => only_moves_of fun _ _ _ _ h => c132_crop_par h order P x y w k,
   fun x y => only_moves_of fun _ _ _ z h => c132_translate z h P x y,
   fun axis => only_moves_of fun _ _ _ z h => c132_reflect z h P axis⟩
end

section
variable {F : Type} [FloatOps F]

/-- **C132** The same for the operations on float images. -/
theorem c132_commute_float (P : Profile) (g : F → F) (hg : g (FloatOps.ofU8 0) = FloatOps.ofU8 0) :
    (∀ u v, CommutesWithMap P g (fun i => shear P i u v) (fun i => shear P i u v)) ∧
    (∀ d, CommutesWithMap P g (fun i => rotate P i d) (fun i => rotate P i d)) ∧
    (∀ u v, CommutesWithMap P g (fun i => scale P i u v .nearestNeighbor) (fun i => scale P i u v .nearestNeighbor)) ∧
    (∀ order u v, CommutesWithMap P g (fun i => scalePar order P i u v .nearestNeighbor) (fun i => scalePar order P i u v .nearestNeighbor)) :=
  ⟨fun u v => commutes_of fun _ _ h => c132_shear hg.symm h P u v,
   fun d => commutes_of fun _ _ h => c132_rotate hg.symm h P d,
   fun u v => commutes_of fun _ _ h => c132_scale_nearest hg.symm h P u v,
   fun order u v => commutes_of fun _ _ h => c132_scale_nearest_par h order P u v⟩

/-- **C132** No new values appear: nearest-neighbour scaling, shearing and rotating give values of the input or zero. -/
theorem c132_only_moves_float (P : Profile) :
    (∀ u v, OnlyMoves (FloatOps.ofU8 0) (fun i : Image F => shear P i u v)) ∧
    (∀ d, OnlyMoves (FloatOps.ofU8 0) (fun i : Image F => rotate P i d)) ∧
    (∀ u v, OnlyMoves (FloatOps.ofU8 0) (fun i : Image F => scale P i u v .nearestNeighbor)) :=
  ⟨fun u v => only_moves_of fun _ _ _ z h => c132_shear z h P u v,
   fun d => only_moves_of fun _ _ _ z h => c132_rotate z h P d,
   fun u v => only_moves_of fun _ _ _ z h => c132_scale_nearest z h P u v⟩
end

/-- non-vacuity: an image with three colours, a map that keeps zero, and what comes out -/
example : (gray6 (T := UInt8) 1 2 3 4 5 6).WF ∧ (fun v : UInt8 => v / 2) (u8Num.ofU8 0) = u8Num.ofU8 0 ∧
    (∃ o, translate .debug u8Num (gray6 (T := UInt8) 1 2 3 4 5 6) 1 0 = .ok o ∧ o.WF ∧ o.data = [0, 1, 2, 0, 4, 5]) := by
  refine ⟨gray6_WF .., by decide, gray6 (T := UInt8) 0 1 2 0 4 5, by decide +kernel, gray6_WF .., rfl⟩

/-- relations other than maps: two images, one darker than the other at every value, stay so -/
example (a b : Image UInt8) (h : a.Alike (· ≤ ·) b) (P : Profile) (x y w k : Nat) :
    EndAlike (Image.Alike (· ≤ ·)) (crop P u8Num a x y w k) (crop P u8Num b x y w k) := c132_crop (by decide) h P x y w k

end Imgproc

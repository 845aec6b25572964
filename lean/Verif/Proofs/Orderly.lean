import Verif.Model.Error
import Verif.Model.Filter
import Verif.Model.Median
import Verif.Spec.Orderly
/-!
Which errors the library returns (C129): machinery and base rules. For every model function there is a rule saying that it is
orderly; the tactic `od` applies them call by call.
-/
namespace Imgproc
open FloatOps
set_option linter.unusedVariables false
set_option linter.unusedSectionVars false
variable {T S F : Type} [FloatOps F]

theorem Orderly.bind {α β : Type} {d : Res α} {f : α → Res β} (h : Orderly d) (hf : ∀ a, Orderly (f a)) : Orderly (d >>= f) := by
  cases h with
  | value a => exact hf a
  | panicked k => exact .panicked k
  | invalid => exact .invalid

theorem Orderly.ite {α : Type} {c : Prop} [Decidable c] {a b : Res α} (h1 : c → Orderly a) (h2 : ¬ c → Orderly b) :
    Orderly (if c then a else b) := by
  by_cases h : c
  · rw [if_pos h]; exact h1 h
  · rw [if_neg h]; exact h2 h

theorem Orderly.panics {α : Type} {k : PanicKind} : Orderly (panic k : Res α) := .panicked k
theorem Orderly.invalidArg {α : Type} : Orderly (Imgproc.invalidArg : Res α) := .invalid

theorem Orderly.unwrap {α : Type} {d : Res α} (h : Orderly d) : Orderly (unwrapRes d) := by
  cases h with
  | value a => exact .value a
  | panicked k => exact .panicked k
  | invalid => exact .panicked _

theorem Orderly.loopFrom {σ : Type} {f : Nat → σ → Res σ} (h : ∀ i s, Orderly (f i s)) (n i : Nat) (s : σ) :
    Orderly (loopFrom f n i s) := by
  induction n generalizing i s with
  | zero => exact .value _
  | succ n ih => exact .bind (h i s) fun s' => ih (i + 1) s'

theorem Orderly.forRange {σ : Type} {f : Nat → σ → Res σ} {a b : Nat} {s : σ} (h : ∀ i s, Orderly (f i s)) :
    Orderly (forRange a b s f) := Orderly.loopFrom h _ _ _

theorem Orderly.forRangeI {σ : Type} {f : Int → σ → Res σ} {a b : Int} {s : σ} (h : ∀ i s, Orderly (f i s)) :
    Orderly (forRangeI a b s f) := Orderly.forRange fun _ s => h _ s

theorem Orderly.forStep {σ : Type} {f : Nat → σ → Res σ} {a b k : Nat} {s : σ} (h : ∀ i s, Orderly (f i s)) :
    Orderly (forStep a b k s f) := by
  unfold Imgproc.forStep
  exact .ite (fun _ => .panics) fun _ => Orderly.forRange fun _ s => h _ s

theorem Orderly.forList {α σ : Type} {f : α → σ → Res σ} {l : List α} {s : σ} (h : ∀ a s, Orderly (f a s)) :
    Orderly (forList l s f) := by
  induction l generalizing s with
  | nil => exact .value _
  | cons a l ih => exact .bind (h a s) fun s' => ih

theorem Orderly.forEnum {α σ : Type} {f : Nat → α → σ → Res σ} {l : List α} {k : Nat} {s : σ} (h : ∀ k a s, Orderly (f k a s)) :
    Orderly (forEnum l k s f) := by
  induction l generalizing s k with
  | nil => exact .value _
  | cons a l ih => exact .bind (h k a s) fun s' => ih

/-- one step of the tactic `od` (rules are added below) -/
syntax "od_step" : tactic
macro_rules | `(tactic| od_step) => `(tactic| fail)
macro_rules | `(tactic| od_step) => `(tactic| split)
macro_rules | `(tactic| od_step) => `(tactic| with_reducible apply Orderly.ite)
macro_rules | `(tactic| od_step) => `(tactic| with_reducible apply Orderly.bind)
macro_rules | `(tactic| od_step) => `(tactic| with_reducible apply Orderly.unwrap)
macro_rules | `(tactic| od_step) => `(tactic| with_reducible apply Orderly.forRange)
macro_rules | `(tactic| od_step) => `(tactic| with_reducible apply Orderly.forRangeI)
macro_rules | `(tactic| od_step) => `(tactic| with_reducible apply Orderly.forStep)
macro_rules | `(tactic| od_step) => `(tactic| with_reducible apply Orderly.forList)
macro_rules | `(tactic| od_step) => `(tactic| with_reducible apply Orderly.forEnum)
macro_rules | `(tactic| od_step) => `(tactic| with_reducible exact Orderly.panics)
macro_rules | `(tactic| od_step) => `(tactic| with_reducible exact Orderly.invalidArg)
macro_rules | `(tactic| od_step) => `(tactic| with_reducible exact Orderly.value _)
macro_rules | `(tactic| od_step) => `(tactic| first | with_reducible apply $(Lean.mkIdent `hf) | with_reducible apply $(Lean.mkIdent `hg) | with_reducible apply $(Lean.mkIdent `hN) | with_reducible apply $(Lean.mkIdent `hinterp))
macro_rules | `(tactic| od_step) => `(tactic| exact absurd ‹false = true› Bool.false_ne_true)
macro_rules | `(tactic| od_step) => `(tactic| intro)

/-- an operation is orderly, call by call -/
macro "od" : tactic => `(tactic| ((try dsimp only); repeat' (first | od_step | fail)))

/-! ### Machine arithmetic and slices -/

theorem od_wrapNat (P : Profile) (n v : Nat) : Orderly (wrapNat P n v) := by
  unfold wrapNat; refine .ite (fun _ => .value _) fun _ => ?_; cases P
  · exact .panics
  · exact .value _
macro_rules | `(tactic| od_step) => `(tactic| with_reducible apply od_wrapNat)
theorem od_wrapInt (P : Profile) (h v : Int) : Orderly (wrapInt P h v) := by
  unfold wrapInt; refine .ite (fun _ => .value _) fun _ => ?_; cases P
  · exact .panics
  · exact .value _
macro_rules | `(tactic| od_step) => `(tactic| with_reducible apply od_wrapInt)
theorem od_u32Sub (P : Profile) (a b : Nat) : Orderly (u32Sub P a b) := by
  unfold u32Sub; refine .ite (fun _ => .value _) fun _ => ?_; cases P
  · exact .panics
  · exact .value _
macro_rules | `(tactic| od_step) => `(tactic| with_reducible apply od_u32Sub)
theorem od_usizeSub (P : Profile) (a b : Nat) : Orderly (usizeSub P a b) := by
  unfold usizeSub; refine .ite (fun _ => .value _) fun _ => ?_; cases P
  · exact .panics
  · exact .value _
macro_rules | `(tactic| od_step) => `(tactic| with_reducible apply od_usizeSub)
theorem od_u32Add (P : Profile) (a b : Nat) : Orderly (u32Add P a b) := by
  exact od_wrapNat _ _ _
macro_rules | `(tactic| od_step) => `(tactic| with_reducible apply od_u32Add)
theorem od_u32Mul (P : Profile) (a b : Nat) : Orderly (u32Mul P a b) := by
  exact od_wrapNat _ _ _
macro_rules | `(tactic| od_step) => `(tactic| with_reducible apply od_u32Mul)
theorem od_usizeAdd (P : Profile) (a b : Nat) : Orderly (usizeAdd P a b) := by
  exact od_wrapNat _ _ _
macro_rules | `(tactic| od_step) => `(tactic| with_reducible apply od_usizeAdd)
theorem od_usizeMul (P : Profile) (a b : Nat) : Orderly (usizeMul P a b) := by
  exact od_wrapNat _ _ _
macro_rules | `(tactic| od_step) => `(tactic| with_reducible apply od_usizeMul)
theorem od_i32Add (P : Profile) (a b : Int) : Orderly (i32Add P a b) := by
  exact od_wrapInt _ _ _
macro_rules | `(tactic| od_step) => `(tactic| with_reducible apply od_i32Add)
theorem od_i32Sub (P : Profile) (a b : Int) : Orderly (i32Sub P a b) := by
  exact od_wrapInt _ _ _
macro_rules | `(tactic| od_step) => `(tactic| with_reducible apply od_i32Sub)
theorem od_i32Mul (P : Profile) (a b : Int) : Orderly (i32Mul P a b) := by
  exact od_wrapInt _ _ _
macro_rules | `(tactic| od_step) => `(tactic| with_reducible apply od_i32Mul)
theorem od_i16Add (P : Profile) (a b : Int) : Orderly (i16Add P a b) := by
  exact od_wrapInt _ _ _
macro_rules | `(tactic| od_step) => `(tactic| with_reducible apply od_i16Add)
theorem od_i16Abs (P : Profile) (a : Int) : Orderly (i16Abs P a) := by
  exact od_wrapInt _ _ _
macro_rules | `(tactic| od_step) => `(tactic| with_reducible apply od_i16Abs)
theorem od_natDiv (a b : Nat) : Orderly (natDiv a b) := by
  unfold natDiv; exact .ite (fun _ => .panics) fun _ => .value _
macro_rules | `(tactic| od_step) => `(tactic| with_reducible apply od_natDiv)
theorem od_natMod (a b : Nat) : Orderly (natMod a b) := by
  unfold natMod; exact .ite (fun _ => .panics) fun _ => .value _
macro_rules | `(tactic| od_step) => `(tactic| with_reducible apply od_natMod)
theorem od_i32Div (a b : Int) : Orderly (i32Div a b) := by
  unfold i32Div; exact .ite (fun _ => .panics) fun _ => .ite (fun _ => .panics) fun _ => .value _
macro_rules | `(tactic| od_step) => `(tactic| with_reducible apply od_i32Div)
theorem od_i16Div (a b : Int) : Orderly (i16Div a b) := by
  unfold i16Div; exact .ite (fun _ => .panics) fun _ => .ite (fun _ => .panics) fun _ => .value _
macro_rules | `(tactic| od_step) => `(tactic| with_reducible apply od_i16Div)
theorem od_intClamp (v lo hi : Int) : Orderly (intClamp v lo hi) := by
  unfold intClamp; exact .ite (fun _ => .value _) fun _ => .panics
macro_rules | `(tactic| od_step) => `(tactic| with_reducible apply od_intClamp)
theorem od_natClamp (v lo hi : Nat) : Orderly (natClamp v lo hi) := by
  unfold natClamp; exact .ite (fun _ => .value _) fun _ => .panics
macro_rules | `(tactic| od_step) => `(tactic| with_reducible apply od_natClamp)
theorem od_idx (l : List T) (i : Nat) : Orderly (idx l i) := by
  unfold idx; cases l[i]?
  · exact .panics
  · exact .value _
macro_rules | `(tactic| od_step) => `(tactic| with_reducible apply od_idx)
theorem od_setIdx (l : List T) (i : Nat) (v : T) : Orderly (setIdx l i v) := by
  unfold setIdx; exact .ite (fun _ => .value _) fun _ => .panics
macro_rules | `(tactic| od_step) => `(tactic| with_reducible apply od_setIdx)
theorem od_slice (l : List T) (a b : Nat) : Orderly (slice l a b) := by
  unfold slice; exact .ite (fun _ => .value _) fun _ => .panics
macro_rules | `(tactic| od_step) => `(tactic| with_reducible apply od_slice)
theorem od_writeSlice (l : List T) (a b : Nat) (p : List T) : Orderly (writeSlice l a b p) := by
  unfold writeSlice; exact .ite (fun _ => .value _) fun _ => .panics
macro_rules | `(tactic| od_step) => `(tactic| with_reducible apply od_writeSlice)
theorem od_clamp (x lo hi : F) : Orderly (clamp x lo hi) := by
  unfold clamp; exact .ite (fun _ => .value _) fun _ => .panics
macro_rules | `(tactic| od_step) => `(tactic| with_reducible apply od_clamp)
theorem od_checkSquare (v : F) : Orderly (checkSquare v) := by
  unfold checkSquare; exact .ite (fun _ => .invalidArg) fun _ => .value _
macro_rules | `(tactic| od_step) => `(tactic| with_reducible apply od_checkSquare)
macro_rules | `(tactic| od_step) => `(tactic| with_reducible apply RNum.Orderly.add)
macro_rules | `(tactic| od_step) => `(tactic| with_reducible apply RNum.Orderly.sub)
macro_rules | `(tactic| od_step) => `(tactic| with_reducible apply RNum.Orderly.mul)
macro_rules | `(tactic| od_step) => `(tactic| with_reducible apply RNum.Orderly.rem)
theorem u8Num_orderly : u8Num.Orderly := by
  constructor
  · intro P a b; refine .ite (fun _ => .value _) fun _ => ?_; cases P <;> first | exact .panics | exact .value _
  · intro P a b; refine .ite (fun _ => .value _) fun _ => ?_; cases P <;> first | exact .panics | exact .value _
  · intro P a b; refine .ite (fun _ => .value _) fun _ => ?_; cases P <;> first | exact .panics | exact .value _
  · intro a b; exact .ite (fun _ => .panics) fun _ => .value _
theorem u32Num_orderly : u32Num.Orderly := ⟨od_u32Add, od_u32Sub, od_u32Mul, od_natMod⟩
theorem usizeNum_orderly : usizeNum.Orderly := ⟨od_usizeAdd, od_usizeSub, od_usizeMul, od_natMod⟩
theorem intNum_orderly (h : Int) : (intNum h).Orderly :=
  ⟨fun _ _ _ => od_wrapInt .., fun _ _ _ => od_wrapInt .., fun _ _ _ => od_wrapInt ..,
    fun _ _ => .ite (fun _ => .panics) fun _ => .ite (fun _ => .panics) fun _ => .value _⟩
theorem rnum_orderly {F : Type} [FloatOps F] : (FloatOps.rnum (F := F)).Orderly :=
  ⟨fun _ _ _ => .value _, fun _ _ _ => .value _, fun _ _ _ => .value _, fun _ _ => .value _⟩
macro_rules | `(tactic| od_step) => `(tactic| with_reducible exact u8Num_orderly)
macro_rules | `(tactic| od_step) => `(tactic| with_reducible exact u32Num_orderly)
macro_rules | `(tactic| od_step) => `(tactic| with_reducible exact usizeNum_orderly)
macro_rules | `(tactic| od_step) => `(tactic| with_reducible exact intNum_orderly _)
macro_rules | `(tactic| od_step) => `(tactic| with_reducible exact rnum_orderly)

/-! ### Error -/
theorem od_checkChannels (channels len : Nat) : Orderly (checkChannels channels len) := by unfold checkChannels; od
macro_rules | `(tactic| od_step) => `(tactic| with_reducible apply od_checkChannels)

theorem od_checkXY (x y width height : Nat) : Orderly (checkXY x y width height) := by unfold checkXY; od
macro_rules | `(tactic| od_step) => `(tactic| with_reducible apply od_checkXY)

theorem od_checkOdd {T : Type} (N : RNum T) (val : T) (hN : N.Orderly) : Orderly (checkOdd (T := T) N val) := by unfold checkOdd; od
macro_rules | `(tactic| od_step) => `(tactic| with_reducible apply od_checkOdd)

theorem od_checkEven {T : Type} (N : RNum T) (val : T) (hN : N.Orderly) : Orderly (checkEven (T := T) N val) := by unfold checkEven; od
macro_rules | `(tactic| od_step) => `(tactic| with_reducible apply od_checkEven)

theorem od_checkNonNeg {T : Type} (N : RNum T) (val : T) (hN : N.Orderly) : Orderly (checkNonNeg (T := T) N val) := by unfold checkNonNeg; od
macro_rules | `(tactic| od_step) => `(tactic| with_reducible apply od_checkNonNeg)

theorem od_checkEqual {T : Type} [DecidableEq T] (a b : T) : Orderly (checkEqual (T := T) a b) := by unfold checkEqual; od
macro_rules | `(tactic| od_step) => `(tactic| with_reducible apply od_checkEqual)

theorem od_checkInRange {T : Type} (N : RNum T) (val min max : T) (hN : N.Orderly) : Orderly (checkInRange (T := T) N val min max) := by unfold checkInRange; od
macro_rules | `(tactic| od_step) => `(tactic| with_reducible apply od_checkInRange)
/-! ### Par -/
theorem od_runTasks {α : Type} (f : Nat → Res α) (order : List Nat) (slots : List (Option α)) (hf : ∀ a0, Orderly (f a0)) : Orderly (runTasks (α := α) f order slots) := by unfold runTasks; od
macro_rules | `(tactic| od_step) => `(tactic| with_reducible apply od_runTasks)

theorem od_gather {T : Type} (l : List (Option T)) : Orderly (gather l) := by
  induction l with
  | nil => simp only [gather]; od
  | cons a l ih => cases a <;> simp only [gather] <;> od <;> apply ih
macro_rules | `(tactic| od_step) => `(tactic| with_reducible apply od_gather)

theorem od_parCollect {α : Type} (order : List Nat) (n : Nat) (f : Nat → Res α) (hf : ∀ a0, Orderly (f a0)) : Orderly (parCollect (α := α) order n f) := by unfold parCollect; od
macro_rules | `(tactic| od_step) => `(tactic| with_reducible apply od_parCollect)
/-! ### Image -/
theorem od_ImageInfo_channelsNonAlpha (P : Profile) (i : ImageInfo) : Orderly (ImageInfo.channelsNonAlpha P i) := by unfold ImageInfo.channelsNonAlpha; od
macro_rules | `(tactic| od_step) => `(tactic| with_reducible apply od_ImageInfo_channelsNonAlpha)

theorem od_ImageInfo_size (P : Profile) (i : ImageInfo) : Orderly (ImageInfo.size P i) := by unfold ImageInfo.size; od
macro_rules | `(tactic| od_step) => `(tactic| with_reducible apply od_ImageInfo_size)

theorem od_ImageInfo_fullSize (P : Profile) (i : ImageInfo) : Orderly (ImageInfo.fullSize P i) := by unfold ImageInfo.fullSize; od
macro_rules | `(tactic| od_step) => `(tactic| with_reducible apply od_ImageInfo_fullSize)

theorem od_Pixel_alpha (P : Profile) (p : List T) : Orderly (Pixel.alpha P p) := by unfold Pixel.alpha; od
macro_rules | `(tactic| od_step) => `(tactic| with_reducible apply od_Pixel_alpha)

theorem od_Pixel_channelsWithoutAlpha (P : Profile) (p : List T) : Orderly (Pixel.channelsWithoutAlpha P p) := by unfold Pixel.channelsWithoutAlpha; od
macro_rules | `(tactic| od_step) => `(tactic| with_reducible apply od_Pixel_channelsWithoutAlpha)

theorem od_Pixel_mapAll (p : List T) (f : T → Res S) (hf : ∀ a0, Orderly (f a0)) : Orderly (Pixel.mapAll p f) := by unfold Pixel.mapAll; od
macro_rules | `(tactic| od_step) => `(tactic| with_reducible apply od_Pixel_mapAll)

theorem od_Pixel_mapAlpha (P : Profile) (p : List T) (f g : T → Res S) (hf : ∀ a0, Orderly (f a0)) (hg : ∀ a0, Orderly (g a0)) : Orderly (Pixel.mapAlpha P p f g) := by unfold Pixel.mapAlpha; od
macro_rules | `(tactic| od_step) => `(tactic| with_reducible apply od_Pixel_mapAlpha)

theorem od_Pixel_apply (p : List T) (f : T → Res T) (hf : ∀ a0, Orderly (f a0)) : Orderly (Pixel.apply p f) := by unfold Pixel.apply; od
macro_rules | `(tactic| od_step) => `(tactic| with_reducible apply od_Pixel_apply)

theorem od_Pixel_applyAlpha (P : Profile) (p : List T) (f g : T → Res T) (hf : ∀ a0, Orderly (f a0)) (hg : ∀ a0, Orderly (g a0)) : Orderly (Pixel.applyAlpha P p f g) := by unfold Pixel.applyAlpha; od
macro_rules | `(tactic| od_step) => `(tactic| with_reducible apply od_Pixel_applyAlpha)

theorem od_Pixel_isBlackAlpha (P : Profile) (N : RNum T) (p : List T) (hN : N.Orderly) : Orderly (Pixel.isBlackAlpha P N p) := by unfold Pixel.isBlackAlpha; od
macro_rules | `(tactic| od_step) => `(tactic| with_reducible apply od_Pixel_isBlackAlpha)

theorem od_SubImage_index (s : SubImage T) (i : Nat) : Orderly (SubImage.index s i) := by unfold SubImage.index; od
macro_rules | `(tactic| od_step) => `(tactic| with_reducible apply od_SubImage_index)

theorem od_SubImage_toVec (P : Profile) (s : SubImage T) : Orderly (SubImage.toVec P s) := by unfold SubImage.toVec; od
macro_rules | `(tactic| od_step) => `(tactic| with_reducible apply od_SubImage_toVec)

theorem od_SubImage_getPixel (P : Profile) (s : SubImage T) (x y : Nat) : Orderly (SubImage.getPixel P s x y) := by unfold SubImage.getPixel; od
macro_rules | `(tactic| od_step) => `(tactic| with_reducible apply od_SubImage_getPixel)

theorem od_Image_fromVecOfVec (P : Profile) (width height channels : Nat) (alpha : Bool) (data : List (List T)) : Orderly (Image.fromVecOfVec P width height channels alpha data) := by unfold Image.fromVecOfVec; od
macro_rules | `(tactic| od_step) => `(tactic| with_reducible apply od_Image_fromVecOfVec)

theorem od_Image_fromVecOfSlice (P : Profile) (width height channels : Nat) (alpha : Bool) (data : List (List T)) : Orderly (Image.fromVecOfSlice P width height channels alpha data) := by unfold Image.fromVecOfSlice; od
macro_rules | `(tactic| od_step) => `(tactic| with_reducible apply od_Image_fromVecOfSlice)

theorem od_Image_blank (P : Profile) (N : RNum T) (info : ImageInfo) (hN : N.Orderly) : Orderly (Image.blank P N info) := by unfold Image.blank; od
macro_rules | `(tactic| od_step) => `(tactic| with_reducible apply od_Image_blank)

theorem od_Image_empty (P : Profile) (info : ImageInfo) : Orderly (Image.empty (T := T) P info) := by unfold Image.empty; od
macro_rules | `(tactic| od_step) => `(tactic| with_reducible apply od_Image_empty)

theorem od_Image_index (P : Profile) (img : Image T) (x y : Nat) : Orderly (Image.index P img x y) := by unfold Image.index; od
macro_rules | `(tactic| od_step) => `(tactic| with_reducible apply od_Image_index)

theorem od_Image_at' (P : Profile) (img : Image T) (i : Nat) : Orderly (Image.at' P img i) := by unfold Image.at'; od
macro_rules | `(tactic| od_step) => `(tactic| with_reducible apply od_Image_at')

theorem od_Image_atMut (P : Profile) (img : Image T) (i : Nat) : Orderly (Image.atMut P img i) := by unfold Image.atMut; od
macro_rules | `(tactic| od_step) => `(tactic| with_reducible apply od_Image_atMut)

theorem od_Image_getPixel (P : Profile) (img : Image T) (x y : Nat) : Orderly (Image.getPixel P img x y) := by unfold Image.getPixel; od
macro_rules | `(tactic| od_step) => `(tactic| with_reducible apply od_Image_getPixel)

theorem od_Image_getPixelUnchecked (P : Profile) (img : Image T) (x y : Nat) : Orderly (Image.getPixelUnchecked P img x y) := by unfold Image.getPixelUnchecked; od
macro_rules | `(tactic| od_step) => `(tactic| with_reducible apply od_Image_getPixelUnchecked)

theorem od_Image_getPixelMut (P : Profile) (img : Image T) (x y : Nat) : Orderly (Image.getPixelMut P img x y) := by unfold Image.getPixelMut; od
macro_rules | `(tactic| od_step) => `(tactic| with_reducible apply od_Image_getPixelMut)

theorem od_Image_getPixelMutUnchecked (P : Profile) (img : Image T) (x y : Nat) : Orderly (Image.getPixelMutUnchecked P img x y) := by unfold Image.getPixelMutUnchecked; od
macro_rules | `(tactic| od_step) => `(tactic| with_reducible apply od_Image_getPixelMutUnchecked)

theorem od_Image_getSubimage (P : Profile) (img : Image T) (x y width height : Nat) : Orderly (Image.getSubimage P img x y width height) := by unfold Image.getSubimage; od
macro_rules | `(tactic| od_step) => `(tactic| with_reducible apply od_Image_getSubimage)

theorem od_Image_neighborCoord (P : Profile) (start : Int) (i n c : Nat) : Orderly (Image.neighborCoord P start i n c) := by unfold Image.neighborCoord; od
macro_rules | `(tactic| od_step) => `(tactic| with_reducible apply od_Image_neighborCoord)

theorem od_Image_neighborStart (P : Profile) (x size : Nat) : Orderly (Image.neighborStart P x size) := by unfold Image.neighborStart; od
macro_rules | `(tactic| od_step) => `(tactic| with_reducible apply od_Image_neighborStart)

theorem od_Image_getNeighborhood1d (P : Profile) (img : Image T) (x y size : Nat) (isVert : Bool) : Orderly (Image.getNeighborhood1d P img x y size isVert) := by unfold Image.getNeighborhood1d; od
macro_rules | `(tactic| od_step) => `(tactic| with_reducible apply od_Image_getNeighborhood1d)

theorem od_Image_getNeighborhood2d (P : Profile) (img : Image T) (x y size : Nat) : Orderly (Image.getNeighborhood2d P img x y size) := by unfold Image.getNeighborhood2d; od
macro_rules | `(tactic| od_step) => `(tactic| with_reducible apply od_Image_getNeighborhood2d)

theorem od_Image_setPixel (P : Profile) (img : Image T) (x y : Nat) (pixel : List T) : Orderly (Image.setPixel P img x y pixel) := by unfold Image.setPixel; od
macro_rules | `(tactic| od_step) => `(tactic| with_reducible apply od_Image_setPixel)

theorem od_Image_setPixelIndexed (P : Profile) (img : Image T) (index : Nat) (pixel : List T) : Orderly (Image.setPixelIndexed P img index pixel) := by unfold Image.setPixelIndexed; od
macro_rules | `(tactic| od_step) => `(tactic| with_reducible apply od_Image_setPixelIndexed)

theorem od_Image_mapPixels (P : Profile) (img : Image T) (f : List T → List S → Res (List S)) (hf : ∀ a0 a1, Orderly (f a0 a1)) : Orderly (Image.mapPixels P img f) := by unfold Image.mapPixels; od
macro_rules | `(tactic| od_step) => `(tactic| with_reducible apply od_Image_mapPixels)

theorem od_Image_mapPixelsIfAlpha (P : Profile) (img : Image T) (f : List T → List S → Res (List S)) (g : T → Res S) (hf : ∀ a0 a1, Orderly (f a0 a1)) (hg : ∀ a0, Orderly (g a0)) : Orderly (Image.mapPixelsIfAlpha P img f g) := by unfold Image.mapPixelsIfAlpha; od
macro_rules | `(tactic| od_step) => `(tactic| with_reducible apply od_Image_mapPixelsIfAlpha)

theorem od_Image_mapChannels (P : Profile) (img : Image T) (f : T → Res S) (hf : ∀ a0, Orderly (f a0)) : Orderly (Image.mapChannels P img f) := by unfold Image.mapChannels; od
macro_rules | `(tactic| od_step) => `(tactic| with_reducible apply od_Image_mapChannels)

theorem od_Image_mapChannelsIfAlpha (P : Profile) (img : Image T) (f g : T → Res S) (hf : ∀ a0, Orderly (f a0)) (hg : ∀ a0, Orderly (g a0)) : Orderly (Image.mapChannelsIfAlpha P img f g) := by unfold Image.mapChannelsIfAlpha; od
macro_rules | `(tactic| od_step) => `(tactic| with_reducible apply od_Image_mapChannelsIfAlpha)

theorem od_Image_applyPixels (P : Profile) (img : Image T) (f : List T → List T → Res (List T)) (hf : ∀ a0 a1, Orderly (f a0 a1)) : Orderly (Image.applyPixels P img f) := by unfold Image.applyPixels; od
macro_rules | `(tactic| od_step) => `(tactic| with_reducible apply od_Image_applyPixels)

theorem od_Image_applyPixelsIfAlpha (P : Profile) (img : Image T) (f : List T → List T → Res (List T)) (g : T → Res T) (hf : ∀ a0 a1, Orderly (f a0 a1)) (hg : ∀ a0, Orderly (g a0)) : Orderly (Image.applyPixelsIfAlpha P img f g) := by unfold Image.applyPixelsIfAlpha; od
macro_rules | `(tactic| od_step) => `(tactic| with_reducible apply od_Image_applyPixelsIfAlpha)

theorem od_Image_applyChannels (P : Profile) (img : Image T) (f : T → Res T) (hf : ∀ a0, Orderly (f a0)) : Orderly (Image.applyChannels P img f) := by unfold Image.applyChannels; od
macro_rules | `(tactic| od_step) => `(tactic| with_reducible apply od_Image_applyChannels)

theorem od_Image_applyChannelsIfAlpha (P : Profile) (img : Image T) (f g : T → Res T) (hf : ∀ a0, Orderly (f a0)) (hg : ∀ a0, Orderly (g a0)) : Orderly (Image.applyChannelsIfAlpha P img f g) := by unfold Image.applyChannelsIfAlpha; od
macro_rules | `(tactic| od_step) => `(tactic| with_reducible apply od_Image_applyChannelsIfAlpha)

theorem od_Image_editChannel (P : Profile) (img : Image T) (f : T → Res T) (index : Nat) (hf : ∀ a0, Orderly (f a0)) : Orderly (Image.editChannel P img f index) := by unfold Image.editChannel; od
macro_rules | `(tactic| od_step) => `(tactic| with_reducible apply od_Image_editChannel)

theorem od_PixelIter_new (P : Profile) (img : Image T) : Orderly (PixelIter.new P img) := by unfold PixelIter.new; od
macro_rules | `(tactic| od_step) => `(tactic| with_reducible apply od_PixelIter_new)

theorem od_PixelIter_next (P : Profile) (img : Image T) (it : PixelIter) : Orderly (PixelIter.next P img it) := by unfold PixelIter.next; od
macro_rules | `(tactic| od_step) => `(tactic| with_reducible apply od_PixelIter_next)

theorem od_PixelIter_sizeHint (P : Profile) (it : PixelIter) : Orderly (PixelIter.sizeHint P it) := by unfold PixelIter.sizeHint; od
macro_rules | `(tactic| od_step) => `(tactic| with_reducible apply od_PixelIter_sizeHint)
/-! ### Math -/
theorem od_vectorMulLoops (P : Profile) (N : RNum T) (mat input output : List T) (rows : Nat) (hN : N.Orderly) : Orderly (vectorMulLoops P N mat input output rows) := by unfold vectorMulLoops; od
macro_rules | `(tactic| od_step) => `(tactic| with_reducible apply od_vectorMulLoops)

theorem od_vectorMul (P : Profile) (N : RNum T) (mat input : List T) (hN : N.Orderly) : Orderly (vectorMul P N mat input) := by unfold vectorMul; od
macro_rules | `(tactic| od_step) => `(tactic| with_reducible apply od_vectorMul)

theorem od_vectorMulMut (P : Profile) (N : RNum T) (mat input output : List T) (hN : N.Orderly) : Orderly (vectorMulMut P N mat input output) := by unfold vectorMulMut; od
macro_rules | `(tactic| od_step) => `(tactic| with_reducible apply od_vectorMulMut)

theorem od_col0Scaled (m : List F) (size : Nat) (scalar : F) : Orderly (col0Scaled m size scalar) := by unfold col0Scaled; od
macro_rules | `(tactic| od_step) => `(tactic| with_reducible apply od_col0Scaled)

theorem od_separateKernel (svd : Svd F) (kernel : List F) : Orderly (separateKernel svd kernel) := by unfold separateKernel; od
macro_rules | `(tactic| od_step) => `(tactic| with_reducible apply od_separateKernel)

theorem od_kernelStep (kernel : List F) (input : SubImage F) (i : Nat) (output : List F) : Orderly (kernelStep kernel input i output) := by unfold kernelStep; od
macro_rules | `(tactic| od_step) => `(tactic| with_reducible apply od_kernelStep)

theorem od_apply1dKernel (P : Profile) (input : SubImage F) (kernel : List F) : Orderly (apply1dKernel P input kernel) := by unfold apply1dKernel; od
macro_rules | `(tactic| od_step) => `(tactic| with_reducible apply od_apply1dKernel)

theorem od_apply2dKernel (P : Profile) (input : SubImage F) (kernel : List F) : Orderly (apply2dKernel P input kernel) := by unfold apply2dKernel; od
macro_rules | `(tactic| od_step) => `(tactic| with_reducible apply od_apply2dKernel)

theorem od_apply1dKernelInto (P : Profile) (input : SubImage F) (output kernel : List F) : Orderly (apply1dKernelInto P input output kernel) := by unfold apply1dKernelInto; od
macro_rules | `(tactic| od_step) => `(tactic| with_reducible apply od_apply1dKernelInto)

theorem od_apply2dKernelInto (P : Profile) (input : SubImage F) (output kernel : List F) : Orderly (apply2dKernelInto P input output kernel) := by unfold apply2dKernelInto; od
macro_rules | `(tactic| od_step) => `(tactic| with_reducible apply od_apply2dKernelInto)

theorem od_gaussianFn (x sigma : F) : Orderly (gaussianFn x sigma) := by unfold gaussianFn; od
macro_rules | `(tactic| od_step) => `(tactic| with_reducible apply od_gaussianFn)
/-! ### Util -/
theorem od_get2dCoords (P : Profile) (i width : Nat) : Orderly (get2dCoords P i width) := by unfold get2dCoords; od
macro_rules | `(tactic| od_step) => `(tactic| with_reducible apply od_get2dCoords)

theorem od_generateLookupTable {T : Type} (table : List T) (f : UInt8 → Res T) (hf : ∀ a0, Orderly (f a0)) : Orderly (generateLookupTable (T := T) table f) := by unfold generateLookupTable; od
macro_rules | `(tactic| od_step) => `(tactic| with_reducible apply od_generateLookupTable)

theorem od_histBump (P : Profile) (key : Int) (l : List (Int × Int)) : Orderly (histBump P key l) := by
  induction l with
  | nil => simp only [histBump]; od
  | cons a l ih => obtain ⟨k, c⟩ := a; simp only [histBump]; od <;> apply ih
macro_rules | `(tactic| od_step) => `(tactic| with_reducible apply od_histBump)

theorem od_generateHistogramPercentiles (P : Profile) (input : Image F) (percentiles : List (Int × F)) (precision : F) : Orderly (generateHistogramPercentiles P input percentiles precision) := by unfold generateHistogramPercentiles; od
macro_rules | `(tactic| od_step) => `(tactic| with_reducible apply od_generateHistogramPercentiles)

theorem od_kernelSet (P : Profile) (filter : List F) (i j : Int) (size : Nat) (v : F) : Orderly (kernelSet P filter i j size v) := by unfold kernelSet; od
macro_rules | `(tactic| od_step) => `(tactic| with_reducible apply od_kernelSet)

theorem od_kernelDist2 (P : Profile) (i j k : Int) : Orderly (kernelDist2 P i j k) := by unfold kernelDist2; od
macro_rules | `(tactic| od_step) => `(tactic| with_reducible apply od_kernelDist2)

theorem od_kernelFill (P : Profile) (size : Nat) (entry : Int → F) : Orderly (kernelFill P size entry) := by unfold kernelFill; od
macro_rules | `(tactic| od_step) => `(tactic| with_reducible apply od_kernelFill)

theorem od_generateGaussianKernel (P : Profile) (size : Nat) (sigma : F) : Orderly (generateGaussianKernel P size sigma) := by unfold generateGaussianKernel; od
macro_rules | `(tactic| od_step) => `(tactic| with_reducible apply od_generateGaussianKernel)

theorem od_generateLogKernel (P : Profile) (size : Nat) (sigma : F) : Orderly (generateLogKernel P size sigma) := by unfold generateLogKernel; od
macro_rules | `(tactic| od_step) => `(tactic| with_reducible apply od_generateLogKernel)

theorem od_matSet (P : Profile) (size : Nat) (mat : List F) (a b : Nat) (g : F) : Orderly (matSet P size mat a b g) := by unfold matSet; od
macro_rules | `(tactic| od_step) => `(tactic| with_reducible apply od_matSet)

theorem od_generateSpatialMat (P : Profile) (size : Nat) (spatial : F) : Orderly (generateSpatialMat P size spatial) := by unfold generateSpatialMat; od
macro_rules | `(tactic| od_step) => `(tactic| with_reducible apply od_generateSpatialMat)

theorem od_pixelOr (P : Profile) (img : Image F) (cond : Bool) (x y : Nat) (zeroes : List F) : Orderly (pixelOr P img cond x y zeroes) := by unfold pixelOr; od
macro_rules | `(tactic| od_step) => `(tactic| with_reducible apply od_pixelOr)

theorem od_generateSummedAreaTable (P : Profile) (input : Image F) : Orderly (generateSummedAreaTable P input) := by unfold generateSummedAreaTable; od
macro_rules | `(tactic| od_step) => `(tactic| with_reducible apply od_generateSummedAreaTable)

theorem od_rectangularIntensitySum (P : Profile) (table : Image F) (x0 y0 x1 y1 : Nat) : Orderly (rectangularIntensitySum P table x0 y0 x1 y1) := by unfold rectangularIntensitySum; od
macro_rules | `(tactic| od_step) => `(tactic| with_reducible apply od_rectangularIntensitySum)
end Imgproc

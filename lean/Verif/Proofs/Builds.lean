import Verif.Model.Image
import Verif.Model.Math
import Verif.Model.Util
import Verif.Model.Par
import Verif.Spec.Builds
/-!
Debug and release builds (C128): machinery and the functions of `Image`. For every model function that mentions the build profile
there is a rule saying that its two builds agree; the tactic `ba` applies them call by call.
-/
namespace Imgproc
open FloatOps
set_option linter.unusedVariables false

variable {T S : Type}

theorem BuildsAgree.refl {α : Type} (r : Res α) : BuildsAgree r r := .same rfl

theorem BuildsAgree.bind {α β : Type} {d r : Res α} {f g : α → Res β} (h : BuildsAgree d r) (hf : ∀ a, BuildsAgree (f a) (g a)) : BuildsAgree (d >>= f) (r >>= g) := by
  rcases h with rfl | rfl
  · exact .stopped rfl
  · cases d with
    | error e => exact .same rfl
    | ok a => exact hf a

theorem BuildsAgree.ite {α : Type} {c : Prop} [Decidable c] {a a' b b' : Res α} (h1 : c → BuildsAgree a a') (h2 : ¬ c → BuildsAgree b b') :
    BuildsAgree (if c then a else b) (if c then a' else b') := by
  by_cases h : c
  · rw [if_pos h, if_pos h]; exact h1 h
  · rw [if_neg h, if_neg h]; exact h2 h

theorem BuildsAgree.overflow {α : Type} {r : Res α} : BuildsAgree (panic .overflow) r := .stopped rfl

theorem BuildsAgree.unwrap {α : Type} {d r : Res α} (h : BuildsAgree d r) : BuildsAgree (unwrapRes d) (unwrapRes r) := by
  rcases h with rfl | rfl
  · exact .stopped rfl
  · exact .same rfl

theorem BuildsAgree.loopFrom {σ : Type} {f g : Nat → σ → Res σ} (h : ∀ i s, BuildsAgree (f i s) (g i s)) (n i : Nat) (s : σ) :
    BuildsAgree (loopFrom f n i s) (Imgproc.loopFrom g n i s) := by
  induction n generalizing i s with
  | zero => exact .refl _
  | succ n ih => exact .bind (h i s) fun s' => ih (i + 1) s'

theorem BuildsAgree.forRange {σ : Type} {f g : Nat → σ → Res σ} {a b : Nat} {s : σ} (h : ∀ i s, BuildsAgree (f i s) (g i s)) :
    BuildsAgree (forRange a b s f) (Imgproc.forRange a b s g) := BuildsAgree.loopFrom h _ _ _

theorem BuildsAgree.forRangeI {σ : Type} {f g : Int → σ → Res σ} {a b : Int} {s : σ} (h : ∀ i s, BuildsAgree (f i s) (g i s)) :
    BuildsAgree (forRangeI a b s f) (Imgproc.forRangeI a b s g) := BuildsAgree.forRange fun _ s => h _ s

theorem BuildsAgree.forStep {σ : Type} {f g : Nat → σ → Res σ} {a b k : Nat} {s : σ} (h : ∀ i s, BuildsAgree (f i s) (g i s)) :
    BuildsAgree (forStep a b k s f) (Imgproc.forStep a b k s g) := by
  unfold Imgproc.forStep
  exact .ite (fun _ => .refl _) fun _ => BuildsAgree.forRange fun _ s => h _ s

theorem BuildsAgree.forList {α σ : Type} {f g : α → σ → Res σ} {l : List α} {s : σ} (h : ∀ a s, BuildsAgree (f a s) (g a s)) :
    BuildsAgree (forList l s f) (Imgproc.forList l s g) := by
  induction l generalizing s with
  | nil => exact .refl _
  | cons a l ih => exact .bind (h a s) fun s' => ih

theorem BuildsAgree.forEnum {α σ : Type} {f g : Nat → α → σ → Res σ} {l : List α} {k : Nat} {s : σ} (h : ∀ k a s, BuildsAgree (f k a s) (g k a s)) :
    BuildsAgree (forEnum l k s f) (Imgproc.forEnum l k s g) := by
  induction l generalizing s k with
  | nil => exact .refl _
  | cons a l ih => exact .bind (h k a s) fun s' => ih

/-- one step of the tactic `ba` (rules are added below and in later modules) -/
syntax "ba_step" : tactic
macro_rules | `(tactic| ba_step) => `(tactic| fail)
macro_rules | `(tactic| ba_step) => `(tactic| split)
macro_rules | `(tactic| ba_step) => `(tactic| with_reducible apply BuildsAgree.ite)
macro_rules | `(tactic| ba_step) => `(tactic| with_reducible apply BuildsAgree.bind)
macro_rules | `(tactic| ba_step) => `(tactic| with_reducible apply BuildsAgree.unwrap)
macro_rules | `(tactic| ba_step) => `(tactic| with_reducible apply BuildsAgree.forRange)
macro_rules | `(tactic| ba_step) => `(tactic| with_reducible apply BuildsAgree.forRangeI)
macro_rules | `(tactic| ba_step) => `(tactic| with_reducible apply BuildsAgree.forStep)
macro_rules | `(tactic| ba_step) => `(tactic| with_reducible apply BuildsAgree.forList)
macro_rules | `(tactic| ba_step) => `(tactic| with_reducible apply BuildsAgree.forEnum)
macro_rules | `(tactic| ba_step) => `(tactic| with_reducible exact BuildsAgree.overflow)
macro_rules | `(tactic| ba_step) => `(tactic| first | with_reducible apply $(Lean.mkIdent `hf) | with_reducible apply $(Lean.mkIdent `hg) | with_reducible apply $(Lean.mkIdent `hN) | with_reducible apply $(Lean.mkIdent `hinterp))
macro_rules | `(tactic| ba_step) => `(tactic| with_reducible exact BuildsAgree.refl _)
macro_rules | `(tactic| ba_step) => `(tactic| intro)

/-- compare the two builds of a function, call by call -/
macro "ba" : tactic => `(tactic| ((try dsimp only); repeat' (first | ba_step | fail)))

/-! ### Integer arithmetic -/

theorem ba_wrapNat (n v : Nat) : BuildsAgree (wrapNat .debug n v) (wrapNat .release n v) := by
  unfold wrapNat; exact .ite (fun _ => .refl _) fun _ => .overflow
theorem ba_wrapInt (h v : Int) : BuildsAgree (wrapInt .debug h v) (wrapInt .release h v) := by
  unfold wrapInt; exact .ite (fun _ => .refl _) fun _ => .overflow
macro_rules | `(tactic| ba_step) => `(tactic| with_reducible apply ba_wrapNat)
macro_rules | `(tactic| ba_step) => `(tactic| with_reducible apply ba_wrapInt)
theorem ba_u32Add (a b : Nat) : BuildsAgree (u32Add .debug a b) (u32Add .release a b) := ba_wrapNat _ _
macro_rules | `(tactic| ba_step) => `(tactic| with_reducible apply ba_u32Add)
theorem ba_u32Mul (a b : Nat) : BuildsAgree (u32Mul .debug a b) (u32Mul .release a b) := ba_wrapNat _ _
macro_rules | `(tactic| ba_step) => `(tactic| with_reducible apply ba_u32Mul)
theorem ba_u32Sub (a b : Nat) : BuildsAgree (u32Sub .debug a b) (u32Sub .release a b) := by
  unfold u32Sub; exact .ite (fun _ => .refl _) fun _ => .overflow
macro_rules | `(tactic| ba_step) => `(tactic| with_reducible apply ba_u32Sub)
theorem ba_usizeAdd (a b : Nat) : BuildsAgree (usizeAdd .debug a b) (usizeAdd .release a b) := ba_wrapNat _ _
macro_rules | `(tactic| ba_step) => `(tactic| with_reducible apply ba_usizeAdd)
theorem ba_usizeMul (a b : Nat) : BuildsAgree (usizeMul .debug a b) (usizeMul .release a b) := ba_wrapNat _ _
macro_rules | `(tactic| ba_step) => `(tactic| with_reducible apply ba_usizeMul)
theorem ba_usizeSub (a b : Nat) : BuildsAgree (usizeSub .debug a b) (usizeSub .release a b) := by
  unfold usizeSub; exact .ite (fun _ => .refl _) fun _ => .overflow
macro_rules | `(tactic| ba_step) => `(tactic| with_reducible apply ba_usizeSub)
theorem ba_i32Add (a b : Int) : BuildsAgree (i32Add .debug a b) (i32Add .release a b) := ba_wrapInt _ _
macro_rules | `(tactic| ba_step) => `(tactic| with_reducible apply ba_i32Add)
theorem ba_i32Sub (a b : Int) : BuildsAgree (i32Sub .debug a b) (i32Sub .release a b) := ba_wrapInt _ _
macro_rules | `(tactic| ba_step) => `(tactic| with_reducible apply ba_i32Sub)
theorem ba_i32Mul (a b : Int) : BuildsAgree (i32Mul .debug a b) (i32Mul .release a b) := ba_wrapInt _ _
macro_rules | `(tactic| ba_step) => `(tactic| with_reducible apply ba_i32Mul)
theorem ba_i16Add (a b : Int) : BuildsAgree (i16Add .debug a b) (i16Add .release a b) := ba_wrapInt _ _
macro_rules | `(tactic| ba_step) => `(tactic| with_reducible apply ba_i16Add)
theorem ba_i16Abs (a : Int) : BuildsAgree (i16Abs .debug a) (i16Abs .release a) := ba_wrapInt _ _
macro_rules | `(tactic| ba_step) => `(tactic| with_reducible apply ba_i16Abs)

macro_rules | `(tactic| ba_step) => `(tactic| with_reducible apply RNum.Agrees.add)
macro_rules | `(tactic| ba_step) => `(tactic| with_reducible apply RNum.Agrees.sub)
macro_rules | `(tactic| ba_step) => `(tactic| with_reducible apply RNum.Agrees.mul)

theorem u8Num_agrees : u8Num.Agrees := by
  constructor <;> intro a b <;> exact .ite (fun _ => .refl _) fun _ => .overflow
theorem u32Num_agrees : u32Num.Agrees := ⟨ba_u32Add, ba_u32Sub, ba_u32Mul⟩
theorem usizeNum_agrees : usizeNum.Agrees := ⟨ba_usizeAdd, ba_usizeSub, ba_usizeMul⟩
theorem intNum_agrees (h : Int) : (intNum h).Agrees := ⟨fun _ _ => ba_wrapInt .., fun _ _ => ba_wrapInt .., fun _ _ => ba_wrapInt ..⟩
theorem rnum_agrees {F : Type} [FloatOps F] : (FloatOps.rnum (F := F)).Agrees := ⟨fun _ _ => .refl _, fun _ _ => .refl _, fun _ _ => .refl _⟩
macro_rules | `(tactic| ba_step) => `(tactic| with_reducible exact u8Num_agrees)
macro_rules | `(tactic| ba_step) => `(tactic| with_reducible exact u32Num_agrees)
macro_rules | `(tactic| ba_step) => `(tactic| with_reducible exact usizeNum_agrees)
macro_rules | `(tactic| ba_step) => `(tactic| with_reducible exact intNum_agrees _)

/-! ### Image -/
theorem ba_ImageInfo_channelsNonAlpha (i : ImageInfo) : BuildsAgree (ImageInfo.channelsNonAlpha .debug i) (ImageInfo.channelsNonAlpha .release i) := by unfold ImageInfo.channelsNonAlpha; ba
macro_rules | `(tactic| ba_step) => `(tactic| with_reducible apply ba_ImageInfo_channelsNonAlpha)

theorem ba_ImageInfo_size (i : ImageInfo) : BuildsAgree (ImageInfo.size .debug i) (ImageInfo.size .release i) := by unfold ImageInfo.size; ba
macro_rules | `(tactic| ba_step) => `(tactic| with_reducible apply ba_ImageInfo_size)

theorem ba_ImageInfo_fullSize (i : ImageInfo) : BuildsAgree (ImageInfo.fullSize .debug i) (ImageInfo.fullSize .release i) := by unfold ImageInfo.fullSize; ba
macro_rules | `(tactic| ba_step) => `(tactic| with_reducible apply ba_ImageInfo_fullSize)

theorem ba_Pixel_alpha (p : List T) : BuildsAgree (Pixel.alpha .debug p) (Pixel.alpha .release p) := by unfold Pixel.alpha; ba
macro_rules | `(tactic| ba_step) => `(tactic| with_reducible apply ba_Pixel_alpha)

theorem ba_Pixel_channelsWithoutAlpha (p : List T) : BuildsAgree (Pixel.channelsWithoutAlpha .debug p) (Pixel.channelsWithoutAlpha .release p) := by unfold Pixel.channelsWithoutAlpha; ba
macro_rules | `(tactic| ba_step) => `(tactic| with_reducible apply ba_Pixel_channelsWithoutAlpha)

theorem ba_Pixel_mapAlpha (p : List T) {f f' g g' : T → Res S} (hf : ∀ a0, BuildsAgree (f a0) (f' a0)) (hg : ∀ a0, BuildsAgree (g a0) (g' a0)) : BuildsAgree (Pixel.mapAlpha .debug p f g) (Pixel.mapAlpha .release p f' g') := by unfold Pixel.mapAlpha; ba
macro_rules | `(tactic| ba_step) => `(tactic| with_reducible apply ba_Pixel_mapAlpha)

theorem ba_Pixel_applyAlpha (p : List T) {f f' g g' : T → Res T} (hf : ∀ a0, BuildsAgree (f a0) (f' a0)) (hg : ∀ a0, BuildsAgree (g a0) (g' a0)) : BuildsAgree (Pixel.applyAlpha .debug p f g) (Pixel.applyAlpha .release p f' g') := by unfold Pixel.applyAlpha; ba
macro_rules | `(tactic| ba_step) => `(tactic| with_reducible apply ba_Pixel_applyAlpha)

theorem ba_Pixel_isBlackAlpha (N : RNum T) (p : List T) (hN : N.Agrees) : BuildsAgree (Pixel.isBlackAlpha .debug N p) (Pixel.isBlackAlpha .release N p) := by unfold Pixel.isBlackAlpha; ba
macro_rules | `(tactic| ba_step) => `(tactic| with_reducible apply ba_Pixel_isBlackAlpha)

theorem ba_SubImage_toVec (s : SubImage T) : BuildsAgree (SubImage.toVec .debug s) (SubImage.toVec .release s) := by unfold SubImage.toVec; ba
macro_rules | `(tactic| ba_step) => `(tactic| with_reducible apply ba_SubImage_toVec)

theorem ba_SubImage_getPixel (s : SubImage T) (x y : Nat) : BuildsAgree (SubImage.getPixel .debug s x y) (SubImage.getPixel .release s x y) := by unfold SubImage.getPixel; ba
macro_rules | `(tactic| ba_step) => `(tactic| with_reducible apply ba_SubImage_getPixel)

theorem ba_Image_fromVecOfVec (width height channels : Nat) (alpha : Bool) (data : List (List T)) : BuildsAgree (Image.fromVecOfVec .debug width height channels alpha data) (Image.fromVecOfVec .release width height channels alpha data) := by unfold Image.fromVecOfVec; ba
macro_rules | `(tactic| ba_step) => `(tactic| with_reducible apply ba_Image_fromVecOfVec)

theorem ba_Image_fromVecOfSlice (width height channels : Nat) (alpha : Bool) (data : List (List T)) : BuildsAgree (Image.fromVecOfSlice .debug width height channels alpha data) (Image.fromVecOfSlice .release width height channels alpha data) := by unfold Image.fromVecOfSlice; ba
macro_rules | `(tactic| ba_step) => `(tactic| with_reducible apply ba_Image_fromVecOfSlice)

theorem ba_Image_blank (N : RNum T) (info : ImageInfo) (hN : N.Agrees) : BuildsAgree (Image.blank .debug N info) (Image.blank .release N info) := by unfold Image.blank; ba
macro_rules | `(tactic| ba_step) => `(tactic| with_reducible apply ba_Image_blank)

theorem ba_Image_empty (info : ImageInfo) : BuildsAgree (Image.empty (T := T) .debug info) (Image.empty (T := T) .release info) := by unfold Image.empty; ba
macro_rules | `(tactic| ba_step) => `(tactic| with_reducible apply ba_Image_empty)

theorem ba_Image_index (img : Image T) (x y : Nat) : BuildsAgree (Image.index .debug img x y) (Image.index .release img x y) := by unfold Image.index; ba
macro_rules | `(tactic| ba_step) => `(tactic| with_reducible apply ba_Image_index)

theorem ba_Image_at' (img : Image T) (i : Nat) : BuildsAgree (Image.at' .debug img i) (Image.at' .release img i) := by unfold Image.at'; ba
macro_rules | `(tactic| ba_step) => `(tactic| with_reducible apply ba_Image_at')

theorem ba_Image_atMut (img : Image T) (i : Nat) : BuildsAgree (Image.atMut .debug img i) (Image.atMut .release img i) := by unfold Image.atMut; ba
macro_rules | `(tactic| ba_step) => `(tactic| with_reducible apply ba_Image_atMut)

theorem ba_Image_getPixel (img : Image T) (x y : Nat) : BuildsAgree (Image.getPixel .debug img x y) (Image.getPixel .release img x y) := by unfold Image.getPixel; ba
macro_rules | `(tactic| ba_step) => `(tactic| with_reducible apply ba_Image_getPixel)

theorem ba_Image_getPixelUnchecked (img : Image T) (x y : Nat) : BuildsAgree (Image.getPixelUnchecked .debug img x y) (Image.getPixelUnchecked .release img x y) := by unfold Image.getPixelUnchecked; ba
macro_rules | `(tactic| ba_step) => `(tactic| with_reducible apply ba_Image_getPixelUnchecked)

theorem ba_Image_getPixelMut (img : Image T) (x y : Nat) : BuildsAgree (Image.getPixelMut .debug img x y) (Image.getPixelMut .release img x y) := by unfold Image.getPixelMut; ba
macro_rules | `(tactic| ba_step) => `(tactic| with_reducible apply ba_Image_getPixelMut)

theorem ba_Image_getPixelMutUnchecked (img : Image T) (x y : Nat) : BuildsAgree (Image.getPixelMutUnchecked .debug img x y) (Image.getPixelMutUnchecked .release img x y) := by unfold Image.getPixelMutUnchecked; ba
macro_rules | `(tactic| ba_step) => `(tactic| with_reducible apply ba_Image_getPixelMutUnchecked)

theorem ba_Image_getSubimage (img : Image T) (x y width height : Nat) : BuildsAgree (Image.getSubimage .debug img x y width height) (Image.getSubimage .release img x y width height) := by unfold Image.getSubimage; ba
macro_rules | `(tactic| ba_step) => `(tactic| with_reducible apply ba_Image_getSubimage)

theorem ba_Image_neighborCoord (start : Int) (i n c : Nat) : BuildsAgree (Image.neighborCoord .debug start i n c) (Image.neighborCoord .release start i n c) := by unfold Image.neighborCoord; ba
macro_rules | `(tactic| ba_step) => `(tactic| with_reducible apply ba_Image_neighborCoord)

theorem ba_Image_neighborStart (x size : Nat) : BuildsAgree (Image.neighborStart .debug x size) (Image.neighborStart .release x size) := by unfold Image.neighborStart; ba
macro_rules | `(tactic| ba_step) => `(tactic| with_reducible apply ba_Image_neighborStart)

theorem ba_Image_getNeighborhood1d (img : Image T) (x y size : Nat) (isVert : Bool) : BuildsAgree (Image.getNeighborhood1d .debug img x y size isVert) (Image.getNeighborhood1d .release img x y size isVert) := by unfold Image.getNeighborhood1d; ba
macro_rules | `(tactic| ba_step) => `(tactic| with_reducible apply ba_Image_getNeighborhood1d)

theorem ba_Image_getNeighborhood2d (img : Image T) (x y size : Nat) : BuildsAgree (Image.getNeighborhood2d .debug img x y size) (Image.getNeighborhood2d .release img x y size) := by unfold Image.getNeighborhood2d; ba
macro_rules | `(tactic| ba_step) => `(tactic| with_reducible apply ba_Image_getNeighborhood2d)

theorem ba_Image_setPixel (img : Image T) (x y : Nat) (pixel : List T) : BuildsAgree (Image.setPixel .debug img x y pixel) (Image.setPixel .release img x y pixel) := by unfold Image.setPixel; ba
macro_rules | `(tactic| ba_step) => `(tactic| with_reducible apply ba_Image_setPixel)

theorem ba_Image_setPixelIndexed (img : Image T) (index : Nat) (pixel : List T) : BuildsAgree (Image.setPixelIndexed .debug img index pixel) (Image.setPixelIndexed .release img index pixel) := by unfold Image.setPixelIndexed; ba
macro_rules | `(tactic| ba_step) => `(tactic| with_reducible apply ba_Image_setPixelIndexed)

theorem ba_Image_mapPixels (img : Image T) {f f' : List T → List S → Res (List S)} (hf : ∀ a0 a1, BuildsAgree (f a0 a1) (f' a0 a1)) : BuildsAgree (Image.mapPixels .debug img f) (Image.mapPixels .release img f') := by unfold Image.mapPixels; ba
macro_rules | `(tactic| ba_step) => `(tactic| with_reducible apply ba_Image_mapPixels)

theorem ba_Image_mapPixelsIfAlpha (img : Image T) {f f' : List T → List S → Res (List S)} {g g' : T → Res S} (hf : ∀ a0 a1, BuildsAgree (f a0 a1) (f' a0 a1)) (hg : ∀ a0, BuildsAgree (g a0) (g' a0)) : BuildsAgree (Image.mapPixelsIfAlpha .debug img f g) (Image.mapPixelsIfAlpha .release img f' g') := by unfold Image.mapPixelsIfAlpha; ba
macro_rules | `(tactic| ba_step) => `(tactic| with_reducible apply ba_Image_mapPixelsIfAlpha)

theorem ba_Image_mapChannels (img : Image T) {f f' : T → Res S} (hf : ∀ a0, BuildsAgree (f a0) (f' a0)) : BuildsAgree (Image.mapChannels .debug img f) (Image.mapChannels .release img f') := by unfold Image.mapChannels; ba
macro_rules | `(tactic| ba_step) => `(tactic| with_reducible apply ba_Image_mapChannels)

theorem ba_Image_mapChannelsIfAlpha (img : Image T) {f f' g g' : T → Res S} (hf : ∀ a0, BuildsAgree (f a0) (f' a0)) (hg : ∀ a0, BuildsAgree (g a0) (g' a0)) : BuildsAgree (Image.mapChannelsIfAlpha .debug img f g) (Image.mapChannelsIfAlpha .release img f' g') := by unfold Image.mapChannelsIfAlpha; ba
macro_rules | `(tactic| ba_step) => `(tactic| with_reducible apply ba_Image_mapChannelsIfAlpha)

theorem ba_Image_applyPixels (img : Image T) {f f' : List T → List T → Res (List T)} (hf : ∀ a0 a1, BuildsAgree (f a0 a1) (f' a0 a1)) : BuildsAgree (Image.applyPixels .debug img f) (Image.applyPixels .release img f') := by unfold Image.applyPixels; ba
macro_rules | `(tactic| ba_step) => `(tactic| with_reducible apply ba_Image_applyPixels)

theorem ba_Image_applyPixelsIfAlpha (img : Image T) {f f' : List T → List T → Res (List T)} {g g' : T → Res T} (hf : ∀ a0 a1, BuildsAgree (f a0 a1) (f' a0 a1)) (hg : ∀ a0, BuildsAgree (g a0) (g' a0)) : BuildsAgree (Image.applyPixelsIfAlpha .debug img f g) (Image.applyPixelsIfAlpha .release img f' g') := by unfold Image.applyPixelsIfAlpha; ba
macro_rules | `(tactic| ba_step) => `(tactic| with_reducible apply ba_Image_applyPixelsIfAlpha)

theorem ba_Image_applyChannels (img : Image T) {f f' : T → Res T} (hf : ∀ a0, BuildsAgree (f a0) (f' a0)) : BuildsAgree (Image.applyChannels .debug img f) (Image.applyChannels .release img f') := by unfold Image.applyChannels; ba
macro_rules | `(tactic| ba_step) => `(tactic| with_reducible apply ba_Image_applyChannels)

theorem ba_Image_applyChannelsIfAlpha (img : Image T) {f f' g g' : T → Res T} (hf : ∀ a0, BuildsAgree (f a0) (f' a0)) (hg : ∀ a0, BuildsAgree (g a0) (g' a0)) : BuildsAgree (Image.applyChannelsIfAlpha .debug img f g) (Image.applyChannelsIfAlpha .release img f' g') := by unfold Image.applyChannelsIfAlpha; ba
macro_rules | `(tactic| ba_step) => `(tactic| with_reducible apply ba_Image_applyChannelsIfAlpha)

theorem ba_Image_editChannel (img : Image T) {f f' : T → Res T} (index : Nat) (hf : ∀ a0, BuildsAgree (f a0) (f' a0)) : BuildsAgree (Image.editChannel .debug img f index) (Image.editChannel .release img f' index) := by unfold Image.editChannel; ba
macro_rules | `(tactic| ba_step) => `(tactic| with_reducible apply ba_Image_editChannel)

theorem ba_PixelIter_new (img : Image T) : BuildsAgree (PixelIter.new .debug img) (PixelIter.new .release img) := by unfold PixelIter.new; ba
macro_rules | `(tactic| ba_step) => `(tactic| with_reducible apply ba_PixelIter_new)

theorem ba_PixelIter_next (img : Image T) (it : PixelIter) : BuildsAgree (PixelIter.next .debug img it) (PixelIter.next .release img it) := by unfold PixelIter.next; ba
macro_rules | `(tactic| ba_step) => `(tactic| with_reducible apply ba_PixelIter_next)

theorem ba_PixelIter_sizeHint (it : PixelIter) : BuildsAgree (PixelIter.sizeHint .debug it) (PixelIter.sizeHint .release it) := by unfold PixelIter.sizeHint; ba
macro_rules | `(tactic| ba_step) => `(tactic| with_reducible apply ba_PixelIter_sizeHint)

end Imgproc

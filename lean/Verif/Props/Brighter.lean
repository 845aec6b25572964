import Verif.Proofs.Brighter
import Verif.Spec.Demo
import Verif.Props.Median2
import Verif.Props.Convert

/-!
# C133: brightening an image never darkens its filtered version

For filters whose weights are not negative this holds in `f32`, rounding, overflow, infinities and NaNs included, and without any
condition on the images or the size of the values. It follows from a more general fact: a relation between channel values that survives
weighted sums with the weights of the kernel also holds between the two filtered images, and the two calls end alike.
The median filter of this library does not have the property.
-/
namespace Imgproc
open FloatOps

section
variable {F : Type} [FloatOps F] {R : F → F → Prop} {kernel : List F} {a b : Image F}

/-- **C133** `filter_1d` -/
theorem c133_filter_1d (C : SurvivesSums R kernel) (h : a.Alike R b) (P : Profile) (v : Bool) :
    EndAlike (Image.Alike R) (filter1d P a kernel v) (filter1d P b kernel v) := by
  unfold filter1d
  rw [h.header]
  refine EndAlike.step _ fun _ => (alike_blank (R := R) C.blank P _).bind fun o o' q => ?_
  exact EndAlike.forRange _ _ q fun y o o' q => EndAlike.forRange _ _ q fun x o o' q =>
    (alike_neighborhood1d h P _ _ _ _).bind fun _ _ n => (alike_apply1d C n P).bind fun _ _ p => alike_setPixel q p P _ _

/-- **C133** `filter_1d` (rayon), for every schedule -/
theorem c133_filter_1d_par (C : SurvivesSums R kernel) (h : a.Alike R b) (order : List Nat) (P : Profile) (v : Bool) :
    EndAlike (Image.Alike R) (filter1dPar order P a kernel v) (filter1dPar order P b kernel v) := by
  unfold filter1dPar
  rw [h.header]
  refine EndAlike.step _ fun _ => EndAlike.step _ fun n => EndAlike.bind (alike_parCollect order n fun i => ?_)
    fun _ _ v => alike_concat' v P _ _ _ _
  exact EndAlike.step _ fun _ => (alike_neighborhood1d h P _ _ _ _).bind fun _ _ n => (alike_apply1d C n P).unwrap

/-- **C133** `separable_filter` -/
theorem c133_separable {horz : List F} (C : SurvivesSums R kernel) (C' : SurvivesSums R horz) (h : a.Alike R b) (P : Profile) :
    EndAlike (Image.Alike R) (separableFilter P a kernel horz) (separableFilter P b kernel horz) := by
  unfold separableFilter
  exact EndAlike.step _ fun _ => EndAlike.step _ fun _ => EndAlike.step _ fun _ =>
    (c133_filter_1d C h P _).bind fun _ _ q => c133_filter_1d C' q P _

/-- **C133** `unseparable_filter` -/
theorem c133_unseparable (C : SurvivesSums R kernel) (h : a.Alike R b) (P : Profile) :
    EndAlike (Image.Alike R) (unseparableFilter P a kernel) (unseparableFilter P b kernel) := by
  unfold unseparableFilter
  rw [h.header]
  refine EndAlike.step _ fun _ => EndAlike.step _ fun _ => (alike_blank (R := R) C.blank P _).bind fun o o' q => ?_
  exact EndAlike.forRange _ _ q fun y o o' q => EndAlike.forRange _ _ q fun x o o' q =>
    (alike_neighborhood2d h P _ _ _).bind fun _ _ n => (alike_apply2d C n P).bind fun _ _ p => alike_setPixel q p P _ _

/-- **C133** `unseparable_filter` (rayon), for every schedule -/
theorem c133_unseparable_par (C : SurvivesSums R kernel) (h : a.Alike R b) (order : List Nat) (P : Profile) :
    EndAlike (Image.Alike R) (unseparableFilterPar order P a kernel) (unseparableFilterPar order P b kernel) := by
  unfold unseparableFilterPar
  rw [h.header]
  refine EndAlike.step _ fun _ => EndAlike.step _ fun _ => EndAlike.step _ fun n => EndAlike.bind (alike_parCollect order n fun i => ?_)
    fun _ _ v => alike_concat' v P _ _ _ _
  exact EndAlike.step _ fun _ => (alike_neighborhood2d h P _ _ _).bind fun _ _ n => (alike_apply2d C n P).unwrap
end

section
variable [Libm f32] {a b : Image F32}

/-- **C133** The linear filters with weights that are not negative, sequential and rayon (for every schedule). -/
theorem c133_brighter (h : a.Alike NotDarker b) {kernel : List F32} (hk : NonNegative kernel) {horz : List F32} (hh : NonNegative horz)
    (P : Profile) (order : List Nat) (v : Bool) :
    EndAlike (Image.Alike NotDarker) (filter1d P a kernel v) (filter1d P b kernel v) ∧
    EndAlike (Image.Alike NotDarker) (filter1dPar order P a kernel v) (filter1dPar order P b kernel v) ∧
    EndAlike (Image.Alike NotDarker) (separableFilter P a kernel horz) (separableFilter P b kernel horz) ∧
    EndAlike (Image.Alike NotDarker) (unseparableFilter P a kernel) (unseparableFilter P b kernel) ∧
    EndAlike (Image.Alike NotDarker) (unseparableFilterPar order P a kernel) (unseparableFilterPar order P b kernel) :=
  have C := notDarker_survives hk
  ⟨c133_filter_1d C h P v, c133_filter_1d_par C h order P v, c133_separable C (notDarker_survives hh) h P,
    c133_unseparable C h P, c133_unseparable_par C h order P⟩

/-- **C133** `box_filter`, for every size -/
theorem c133_box (h : a.Alike NotDarker b) (P : Profile) (size : Nat) :
    EndAlike (Image.Alike NotDarker) (boxFilter P a size) (boxFilter P b size) := by
  unfold boxFilter
  refine EndAlike.step _ fun _ => EndAlike.step _ fun len => ?_
  have C : SurvivesSums (NotDarker (F := F32)) (List.replicate len ((num 1 : F32) /. ofNat len)) := notDarker_survives fun k hk => by
    rw [List.eq_of_mem_replicate hk]
    exact ratio_not_negative _ _
  exact c133_separable C C h P

/-- **C133** `weighted_avg_filter`, for every size and weight -/
theorem c133_weighted_avg (h : a.Alike NotDarker b) (P : Profile) (size weight : Nat) :
    EndAlike (Image.Alike NotDarker) (weightedAvgFilter P a size weight) (weightedAvgFilter P b size weight) := by
  unfold weightedAvgFilter
  refine EndAlike.step _ fun _ => ?_
  cases e : weightedAvgKernel (F := F32) P size weight with
  | error _ => rfl
  | ok kernel =>
    refine c133_unseparable (notDarker_survives fun k hk => ?_) h P
    unfold weightedAvgKernel at e
    obtain ⟨_, _, e⟩ := bind_eq_ok e
    obtain ⟨_, _, e⟩ := bind_eq_ok e
    obtain ⟨_, _, e⟩ := bind_eq_ok e
    obtain ⟨_, _, e⟩ := bind_eq_ok e
    obtain ⟨_, _, e⟩ := bind_eq_ok e
    obtain ⟨_, _, e⟩ := bind_eq_ok e
    unfold setIdx at e
    split at e
    · injection e with e
      rw [← e] at hk
      rcases List.mem_or_eq_of_mem_set hk with hk | rfl
      · rw [List.eq_of_mem_replicate hk]; exact ratio_not_negative _ _
      · exact ratio_not_negative _ _
    · cases e
end

/-- before and after brightening two values -/
def medDark : Image UInt8 := ⟨⟨3, 3, 1, false⟩, [2, 1, 0, 1, 0, 1, 0, 0, 0]⟩
def medBright : Image UInt8 := ⟨⟨3, 3, 1, false⟩, [2, 2, 0, 1, 0, 2, 0, 0, 0]⟩

theorem medDark_input : MedianInput ℝ medDark 1 :=
  medianInput_real ⟨by decide, by decide, by decide, by decide, by decide, rfl⟩ (by decide) (by decide) (by decide) (by decide) (by decide)
theorem medBright_input : MedianInput ℝ medBright 1 :=
  medianInput_real ⟨by decide, by decide, by decide, by decide, by decide, rfl⟩ (by decide) (by decide) (by decide) (by decide) (by decide)

/-- **C133 is violated by the median filter**: brightening two values turns the value in the middle of the filtered image from 1 to 0 -/
theorem c133_median_violated : medDark.Alike (· ≤ ·) medBright ∧ ∀ P, ∃ o o', medianFilter ℝ P medDark 1 = .ok o ∧
    medianFilter ℝ P medBright 1 = .ok o' ∧ o.getPixel P 1 1 = .ok [1] ∧ o'.getPixel P 1 1 = .ok [0] := by
  have a0 : median (medDark.window 1 0 1 0) = 1 := (median_rank_unique (by decide) (by decide) (by decide)).symm
  have a1 : median (medDark.window 1 0 1 1) = 0 := (median_rank_unique (by decide) (by decide) (by decide)).symm
  have b0 : median (medBright.window 1 0 1 0) = 2 := (median_rank_unique (by decide) (by decide) (by decide)).symm
  have b1 : median (medBright.window 1 0 1 1) = 0 := (median_rank_unique (by decide) (by decide) (by decide)).symm
  refine ⟨⟨rfl, by decide⟩, fun P => ?_⟩
  obtain ⟨o, e, hs⟩ := c56_exact ℝ P medDark_input
  obtain ⟨o', e', hs'⟩ := c56_exact ℝ P medBright_input
  refine ⟨o, o', e, e', ?_, ?_⟩
  · rw [hs.2.2 P 1 1 (by decide) (by decide)]
    have : medianColumn medDark.info.width (medianNCols ℝ 1) 1 = 1 := by unfold medianColumn; rw [if_neg (by decide)]
    dsimp only
    rw [this]
    show Except.ok [UInt8.ofNat (slidingMedian medDark 1 0 1 1)] = _
    unfold slidingMedian slidingMedian
    rw [a0, a1]
    decide
  · rw [hs'.2.2 P 1 1 (by decide) (by decide)]
    have : medianColumn medBright.info.width (medianNCols ℝ 1) 1 = 1 := by unfold medianColumn; rw [if_neg (by decide)]
    dsimp only
    rw [this]
    show Except.ok [UInt8.ofNat (slidingMedian medBright 1 0 1 1)] = _
    unfold slidingMedian slidingMedian
    rw [b0, b1]
    decide

/-- non-vacuity: a 3 x 2 image and the same made brighter at one value -/
def sixDark : Image F32 := gray6 (Flt.ofRat f32 1) (Flt.ofRat f32 2) (Flt.ofRat f32 3) (Flt.ofRat f32 4) (Flt.ofRat f32 5) (Flt.ofRat f32 6)
def sixBright : Image F32 := gray6 (Flt.ofRat f32 1) (Flt.ofRat f32 2) (Flt.ofRat f32 3) (Flt.ofRat f32 4) (Flt.ofRat f32 9) (Flt.ofRat f32 6)

theorem sixDark_bright [Libm f32] : sixDark.Alike (NotDarker (F := F32)) sixBright := by
  refine ⟨rfl, ?_⟩
  have r : ∀ x : F32, NotDarker x x := fun x => (FP.not_lt_iff _ _).2 (.inr (.inr (le_refl _)))
  refine .cons (r _) (.cons (r _) (.cons (r _) (.cons (r _) (.cons ?_ (.cons (r _) .nil)))))
  show FP.lt (Flt.ofRat f32 9).val (Flt.ofRat f32 5).val = false
  decide +kernel

/-- the box filter returns on both, and gives brighter values -/
example : letI := trivialLibm f32
    ∃ o o', boxFilter .debug sixDark 3 = .ok o ∧ boxFilter .debug sixBright 3 = .ok o' ∧ o.Alike NotDarker o' ∧ o ≠ o' := by
  let := trivialLibm f32
  have k := c133_box sixDark_bright .debug 3
  have ea : (boxFilter .debug sixDark 3).toBool = true := by decide +kernel
  have ne : boxFilter .debug sixDark 3 ≠ boxFilter .debug sixBright 3 := by decide +kernel
  cases e : boxFilter .debug sixDark 3 with
  | error _ => rw [e] at ea; cases ea
  | ok o =>
    cases e' : boxFilter .debug sixBright 3 with
    | error _ => rw [e, e'] at k; exact k.elim
    | ok o' =>
      rw [e, e'] at k ne
      exact ⟨o, o', rfl, rfl, k, fun h => ne (by rw [h])⟩

end Imgproc

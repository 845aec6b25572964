import Verif.Proofs.Polarity
import Verif.Props.EdgeF32

/-!
# C134: filters and scaling treat dark and bright alike

Every linear filter and every scaling method gives on the negative of an image exactly the negative of what it gives on the image: rounding,
overflow, infinities and NaNs included, for every kernel, size and factor. The edge filters, which take the length of two such
responses, give the same image on both.
-/
namespace Imgproc
open FloatOps
section
variable [Libm f32] {a b : Image F32}

/-- an image and its negative -/
theorem negative_opposite (a : Image F32) : a.Alike Opposite ⟨a.info, a.data.map FloatOps.neg⟩ :=
  ⟨rfl, by rw [List.forall₂_map_right_iff]; exact List.forall₂_same.2 fun x _ => opposite_neg x⟩

/-- **C134** Every linear filter, of every kernel: the filtered negative is exactly the negative of the filtered image. -/
theorem c134_filters (h : a.Alike Opposite b) (kernel horz : List F32) (P : Profile) (order : List Nat) (v : Bool) :
    EndAlike (Image.Alike Opposite) (filter1d P a kernel v) (filter1d P b kernel v) ∧
    EndAlike (Image.Alike Opposite) (filter1dPar order P a kernel v) (filter1dPar order P b kernel v) ∧
    EndAlike (Image.Alike Opposite) (separableFilter P a kernel horz) (separableFilter P b kernel horz) ∧
    EndAlike (Image.Alike Opposite) (unseparableFilter P a kernel) (unseparableFilter P b kernel) ∧
    EndAlike (Image.Alike Opposite) (unseparableFilterPar order P a kernel) (unseparableFilterPar order P b kernel) :=
  have C := opposite_survives kernel
  ⟨c133_filter_1d C h P v, c133_filter_1d_par C h order P v, c133_separable C (opposite_survives horz) h P,
    c133_unseparable C h P, c133_unseparable_par C h order P⟩

/-- **C134** `linear_filter`, whatever the singular value decomposition returns for the kernel -/
theorem c134_linear_filter (svd : Svd F32) (h : a.Alike Opposite b) (kernel : List F32) (P : Profile) :
    EndAlike (Image.Alike Opposite) (linearFilter svd P a kernel) (linearFilter svd P b kernel) := by
  unfold linearFilter
  refine EndAlike.step _ fun _ => EndAlike.step _ fun _ => EndAlike.step _ fun sep => ?_
  cases sep with
  | none => exact c133_unseparable (opposite_survives _) h P
  | some p => exact c133_separable (opposite_survives _) (opposite_survives _) h P

/-- **C134** the named filters: box, weighted average, Gaussian blur, sharpen, unsharp masking, Laplacian, Laplacian of Gaussian -/
theorem c134_named (svd : Svd F32) (h : a.Alike Opposite b) (P : Profile) (size weight : Nat) (sigma : F32) :
    EndAlike (Image.Alike Opposite) (boxFilter P a size) (boxFilter P b size) ∧
    EndAlike (Image.Alike Opposite) (weightedAvgFilter P a size weight) (weightedAvgFilter P b size weight) ∧
    EndAlike (Image.Alike Opposite) (gaussianBlur svd P a size sigma) (gaussianBlur svd P b size sigma) ∧
    EndAlike (Image.Alike Opposite) (sharpen P a) (sharpen P b) ∧
    EndAlike (Image.Alike Opposite) (unsharpMasking P a) (unsharpMasking P b) ∧
    EndAlike (Image.Alike Opposite) (laplacian P a) (laplacian P b) ∧
    EndAlike (Image.Alike Opposite) (laplacianOfGaussian P a size sigma) (laplacianOfGaussian P b size sigma) := by
  refine ⟨?_, ?_, ?_, c133_unseparable (opposite_survives _) h P, c133_unseparable (opposite_survives _) h P,
    c133_unseparable (opposite_survives _) h P, ?_⟩
  · unfold boxFilter
    exact EndAlike.step _ fun _ => EndAlike.step _ fun _ => c133_separable (opposite_survives _) (opposite_survives _) h P
  · unfold weightedAvgFilter
    exact EndAlike.step _ fun _ => EndAlike.step _ fun _ => c133_unseparable (opposite_survives _) h P
  · unfold gaussianBlur
    exact EndAlike.step _ fun _ => c134_linear_filter svd h _ P
  · unfold laplacianOfGaussian
    exact EndAlike.step _ fun _ => c133_unseparable (opposite_survives _) h P

/-- **C134** Scaling, with every method and factor, sequential and rayon. -/
theorem c134_scale (h : a.Alike Opposite b) (P : Profile) (order : List Nat) (xf yf : F32) (m : Scale) (size : Nat) :
    EndAlike (Image.Alike Opposite) (scale P a xf yf m) (scale P b xf yf m) ∧
    EndAlike (Image.Alike Opposite) (scalePar order P a xf yf m) (scalePar order P b xf yf m) ∧
    EndAlike (Image.Alike Opposite) (scaleLanczos P a xf yf size) (scaleLanczos P b xf yf size) ∧
    EndAlike (Image.Alike Opposite) (scaleLanczosPar order P a xf yf size) (scaleLanczosPar order P b xf yf size) := by
  have z := (opposite_survives []).blank
  have k := opposite_lanczos h P xf yf size
  refine ⟨?_, ?_, ?_, ?_⟩
  · unfold scale
    rw [h.header]
    exact EndAlike.step _ fun _ => EndAlike.step _ fun _ => (alike_blank z P _).bind fun _ _ q => opposite_loop (opposite_interpolate h P xf yf m) P q
  · unfold scalePar
    rw [h.header]
    exact EndAlike.step _ fun _ => EndAlike.step _ fun _ => opposite_loop_par (opposite_interpolate h P xf yf m) order P _
  · unfold scaleLanczos
    rw [h.header]
    generalize checkNonNeg u32Num size = r
    refine EndAlike.step _ ?_
    intro _
    refine EndAlike.step _ ?_
    intro _
    refine EndAlike.step r ?_
    intro _
    refine (alike_blank z P _).bind ?_
    intro _ _ q
    exact opposite_loop k P q
  · unfold scaleLanczosPar
    rw [h.header]
    generalize checkNonNeg u32Num size = r
    refine EndAlike.step _ ?_
    intro _
    refine EndAlike.step _ ?_
    intro _
    refine EndAlike.step r ?_
    intro _
    exact opposite_loop_par k order P _

/-- **C134** the derivative masks -/
theorem c134_derivative_mask (hp : EvenSquare) (h : a.Alike Opposite b) (P : Profile) (vert horz : List F32) :
    derivativeMask P a vert horz = derivativeMask P b vert horz := by
  suffices k : EndAlike (· = ·) (derivativeMask P a vert horz) (derivativeMask P b vert horz) by
    revert k
    cases derivativeMask P a vert horz <;> cases derivativeMask P b vert horz <;> simp [EndAlike]
  unfold derivativeMask checkGrayscale
  rw [h.header]
  refine EndAlike.step _ fun _ => (c134_filters h vert horz P [] true).2.2.1.bind fun u u' qu =>
    (c134_filters h horz vert P [] true).2.2.1.bind fun w w' qw => EndAlike.step _ fun o => EndAlike.step _ fun n => ?_
  refine EndAlike.forRange _ _ rfl fun i o o' q => ?_
  subst q
  refine (alike_at qu P i).bind fun _ _ p => (alike_idx p 0).bind fun gx gx' hx => (alike_at qw P i).bind fun _ _ p =>
    (alike_idx p 0).bind fun gy gy' hy => ?_
  rw [hp _ _ hx, hp _ _ hy]
  exact EndAlike.same _ (fun _ => rfl) _

/-- **C134** The edge filters do not see polarity: the negative of an image has the same edges, exactly. -/
theorem c134_edges (hp : EvenSquare) (h : a.Alike Opposite b) (P : Profile) (weight : Nat) :
    sobel P a = sobel P b ∧ prewitt P a = prewitt P b ∧ sobelWeighted P a weight = sobelWeighted P b weight :=
  ⟨c134_derivative_mask hp h P _ _, c134_derivative_mask hp h P _ _, c134_derivative_mask hp h P _ _⟩

end

theorem squareLibm_even : @EvenSquare squareLibm := by
  rintro x y (⟨ha, hb⟩ | ⟨ha, hb⟩ | ⟨ha, hb⟩)
  all_goals
    apply Flt.ext
    show FP.mul f32 x.val x.val = FP.mul f32 y.val y.val
  · have ha' : x.val.toQ? = some _ := ha
    have hb' : y.val.toQ? = some _ := hb
    simp only [FP.mul, ha', hb', Bool.xor_self, neg_mul_neg]
  · rw [ha, hb]; simp [FP.mul, FP.toQ?]
  · rw [ha, hb]

/-- non-vacuity: a 3 x 2 image and its negative: the box filter returns on both, with opposite and different results -/
example : letI := trivialLibm f32
    let n : Image F32 := ⟨sixBright.info, sixBright.data.map FloatOps.neg⟩
    ∃ o o', boxFilter .debug sixBright 3 = .ok o ∧ boxFilter .debug n 3 = .ok o' ∧ o.Alike Opposite o' ∧ o ≠ o' := by
  let := trivialLibm f32
  intro n
  have k := (c134_named (fun _ _ => none) (negative_opposite sixBright) .debug 3 0 (num 1)).1
  have ea : (boxFilter .debug sixBright 3).toBool = true := by decide +kernel
  have ne : boxFilter .debug sixBright 3 ≠ boxFilter .debug n 3 := by decide +kernel
  cases e : boxFilter .debug sixBright 3 with
  | error _ => rw [e] at ea; cases ea
  | ok o =>
    cases e' : boxFilter .debug n 3 with
    | error _ => rw [e, e'] at k; exact k.elim
    | ok o' =>
      rw [e, e'] at k ne
      exact ⟨o, o', rfl, rfl, k, fun h => ne (by rw [h])⟩

/-- non-vacuity: on such a platform the Sobel filter returns the same image for both -/
example : letI := squareLibm
    let n : Image F32 := ⟨sixBright.info, sixBright.data.map FloatOps.neg⟩
    ∃ o, sobel .debug sixBright = .ok o ∧ sobel .debug n = .ok o ∧ n ≠ sixBright := by
  let := squareLibm
  intro n
  have k := (c134_edges squareLibm_even (negative_opposite sixBright) .debug 0).1
  have ea : (sobel .debug sixBright).toBool = true := by decide +kernel
  cases e : sobel .debug sixBright with
  | error _ => rw [e] at ea; cases ea
  | ok o => exact ⟨o, rfl, k ▸ e, by decide +kernel⟩

end Imgproc

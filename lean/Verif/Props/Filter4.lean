import Verif.Props.Convert
import Verif.Spec.Demo
import Verif.Proofs.ExactSum
import Verif.Props.Filter2
import Verif.Proofs.ImageOps
/-! Properties C51 (constants under sharpening and Laplacian) and C54 (derivative masks). -/
namespace Imgproc
open FloatOps
section
variable [Libm f32]

/-- u8 images convert to float images holding the same integers -/
theorem imageU8ToFloat_values (P : Profile) {img : Image UInt8} (h : img.WF) :
    ∃ f : Image F32, imageU8ToFloat P img = .ok f ∧ f.ShowsValues img.info fun x y c =>
      ((((img.px x y).getD c 0).toNat : Int) : Rat) := by
  refine ⟨_, Image.mapChannels_eq P h (f := fun c => .ok (ofU8 c)) (f' := ofU8) (fun _ _ => rfl), ?_⟩
  refine (Image.mapChannels_shows h ofU8).values (fun x y hx hy => ?_) (fun x y c hx hy hc => ?_)
  · rw [List.length_map, Image.px_length h hx hy]
  · have hl : c < (img.px x y).length := by rw [Image.px_length h hx hy]; exact hc
    refine ⟨ofU8 (img.px x y)[c], by rw [List.getElem?_map, List.getElem?_eq_getElem hl]; rfl, ?_⟩
    rw [List.getD_eq_getElem?_getD, List.getElem?_eq_getElem hl]
    simpa using ofU8_is (img.px x y)[c]

omit [Libm f32] in
theorem num_getD {F : Type} [FloatOps F] (l : List Int) (i : Nat) : (l.map (num : Int → F)).getD i (num 0) = num (l.getD i 0) := by
  rw [List.getD_eq_getElem?_getD, List.getD_eq_getElem?_getD, List.getElem?_map]
  cases l[i]? <;> rfl

theorem intKernel_is (l : List Int) (hb : ∀ a ∈ l, |a| ≤ 65536) (i : Nat) :
    ((l.map (num : Int → F32)).getD i (num 0)).Is ((l.getD i 0 : Int) : Rat) := by
  rw [num_getD]
  apply num32
  rw [List.getD_eq_getElem?_getD]
  cases h : l[i]? with
  | none => simp
  | some a =>
    have := hb a (List.mem_of_getElem? h)
    simp only [Option.getD_some]; omega

theorem ratioKernel_is (l : List Int) (hb : ∀ a ∈ l, |a| ≤ 65536) {i : Nat} (hi : i < l.length) :
    ((l.map (fun a => (ratio a 256 : F32))).getD i (num 0)).Is ((l.getD i 0 : Int) / 256 : Rat) := by
  rw [List.getD_eq_getElem?_getD, List.getD_eq_getElem?_getD, List.getElem?_map, List.getElem?_eq_getElem hi]
  have := hb _ (List.getElem_mem hi)
  have h256 : (num 256 : F32).Is 256 := by
    have := num32 (n := 256) (by simp); simpa using this
  exact div_exact (num32 (by omega)) h256 (by norm_num) (f32_dyadic (show |l[i]| ≤ _ by omega))

/-- the kernel weights of `sharpen`, `laplacian` (units) and `unsharp_masking` (1/256), src/util/constants.rs -/
def sharpenW : List Int := [0, -1, 0, -1, 5, -1, 0, -1, 0]
def laplacianW : List Int := [0, -1, 0, -1, 4, -1, 0, -1, 0]
def unsharpW : List Int := [-1, -4, -6, -4, -1, -4, -16, -24, -16, -4, -6, -24, 476, -24, -6,
  -4, -16, -24, -16, -4, -1, -4, -6, -4, -1]

theorem unit3_exact (P : Profile) {img : Image F32} {v : Nat → Nat → Nat → Int}
    (h : img.ShowsValues img.info fun x y c => (v x y c : Rat)) (w : List Int) (hl : w.length = 9)
    (hb : ∀ a ∈ w, |a| ≤ 16)
    (hv : ∀ x y c, x < img.info.width → y < img.info.height → c < img.info.channels → |v x y c| ≤ 255)
    (hw : img.info.width + 3 ≤ 2147483648) (hh : img.info.height + 3 ≤ 2147483648) :
    ∃ out, unseparableFilter P img (w.map num) = .ok out ∧ out.ShowsValues img.info fun x y c =>
      ((intResponse2d img.info (fun i => w.getD i 0) 3 v x y c : Int) : Rat) := by
  have hbd : ∀ i, |w.getD i 0| ≤ 16 := by
    intro i
    rw [List.getD_eq_getElem?_getD]
    cases h : w[i]? with
    | none => simp
    | some a => exact hb a (List.mem_of_getElem? h)
  obtain ⟨out, e, hs⟩ := unseparable_exact P h (w.map num) 3 (fun i => 256 * w.getD i 0) 255 rfl
    (by simp [hl]) (by decide)
    (by
      intro i _
      have := intKernel_is w (fun a ha => by have := hb a ha; omega) i
      convert this using 1
      push_cast; ring)
    hv
    (by
      rw [List.length_map, hl]
      have : ∑ i ∈ Finset.range 9, |256 * w.getD i 0| ≤ ∑ i ∈ Finset.range 9, (4096 : Int) := by
        apply Finset.sum_le_sum
        intro i _
        rw [abs_mul]; have := hbd i
        rw [show |(256 : Int)| = 256 from rfl]; omega
      rw [Finset.sum_const, Finset.card_range, nsmul_eq_mul] at this; push_cast at this
      omega)
    hw hh
  refine ⟨out, e, ?_⟩
  have : (fun x y c => ((intResponse2d img.info (fun i => 256 * w.getD i 0) 3 v x y c : Int) : Rat) / 256) =
      fun x y c => ((intResponse2d img.info (fun i => w.getD i 0) 3 v x y c : Int) : Rat) := by
    funext x y c
    unfold intResponse2d
    simp only [mul_assoc, ← Finset.mul_sum]
    push_cast; ring
  rw [← this]; exact hs

/-- **C51** (exactness, beyond constants) on every image of integers of magnitude up to 255, `sharpen` in IEEE
f32 gives exactly the padded correlation with its integer kernel -/
theorem c51_sharpen_exact (P : Profile) {img : Image F32} {v : Nat → Nat → Nat → Int}
    (h : img.ShowsValues img.info fun x y c => (v x y c : Rat))
    (hv : ∀ x y c, x < img.info.width → y < img.info.height → c < img.info.channels → |v x y c| ≤ 255)
    (hw : img.info.width + 3 ≤ 2147483648) (hh : img.info.height + 3 ≤ 2147483648) :
    ∃ out, sharpen P img = .ok out ∧ out.ShowsValues img.info fun x y c =>
      ((intResponse2d img.info (fun i => sharpenW.getD i 0) 3 v x y c : Int) : Rat) :=
  unit3_exact P h sharpenW rfl (by decide) hv hw hh

/-- **C51** the same for `laplacian` -/
theorem c51_laplacian_exact (P : Profile) {img : Image F32} {v : Nat → Nat → Nat → Int}
    (h : img.ShowsValues img.info fun x y c => (v x y c : Rat))
    (hv : ∀ x y c, x < img.info.width → y < img.info.height → c < img.info.channels → |v x y c| ≤ 255)
    (hw : img.info.width + 3 ≤ 2147483648) (hh : img.info.height + 3 ≤ 2147483648) :
    ∃ out, laplacian P img = .ok out ∧ out.ShowsValues img.info fun x y c =>
      ((intResponse2d img.info (fun i => laplacianW.getD i 0) 3 v x y c : Int) : Rat) :=
  unit3_exact P h laplacianW rfl (by decide) hv hw hh

/-- **C51** the same for `unsharp_masking` (weights in 1/256) -/
theorem c51_unsharp_exact (P : Profile) {img : Image F32} {v : Nat → Nat → Nat → Int}
    (h : img.ShowsValues img.info fun x y c => (v x y c : Rat))
    (hv : ∀ x y c, x < img.info.width → y < img.info.height → c < img.info.channels → |v x y c| ≤ 255)
    (hw : img.info.width + 5 ≤ 2147483648) (hh : img.info.height + 5 ≤ 2147483648) :
    ∃ out, unsharpMasking P img = .ok out ∧ out.ShowsValues img.info fun x y c =>
      ((intResponse2d img.info (fun i => unsharpW.getD i 0) 5 v x y c : Int) : Rat) / 256 :=
  unseparable_exact P h K_UNSHARP_MASKING 5 (fun i => unsharpW.getD i 0) 255 rfl rfl (by decide)
    (fun i hi => ratioKernel_is unsharpW (by decide) hi) hv
    (show (∑ i ∈ Finset.range 25, |unsharpW.getD i 0|) * 255 ≤ 16777216 by decide) hw hh

/-- every 8-bit image (here a 3×2 one with arbitrary bytes) meets the hypotheses after conversion -/
example (P : Profile) (a b c d e f : UInt8) : ∃ g out₁ out₂ out₃ : Image F32,
    imageU8ToFloat P (gray6 a b c d e f) = .ok g ∧ sharpen P g = .ok out₁ ∧ laplacian P g = .ok out₂ ∧
      unsharpMasking P g = .ok out₃ := by
  obtain ⟨g, hg, hs⟩ := imageU8ToFloat_values P (gray6_WF a b c d e f)
  have hi := hs.2.1
  have hs' := hs
  rw [← hi] at hs'
  have hb : ∀ x y c', |((((gray6 a b c d e f).px x y).getD c' 0).toNat : Int)| ≤ 255 := by
    intro x y c'
    have := (((gray6 a b c d e f).px x y).getD c' 0).toNat_lt
    rw [abs_le]; constructor <;> omega
  have hw : g.info.width + 5 ≤ 2147483648 := by rw [hi]; dims
  have hh : g.info.height + 5 ≤ 2147483648 := by rw [hi]; dims
  obtain ⟨o₁, h₁, -⟩ := c51_sharpen_exact P hs' (fun x y c' _ _ _ => hb x y c') (by omega) (by omega)
  obtain ⟨o₂, h₂, -⟩ := c51_laplacian_exact P hs' (fun x y c' _ _ _ => hb x y c') (by omega) (by omega)
  obtain ⟨o₃, h₃, -⟩ := c51_unsharp_exact P hs' (fun x y c' _ _ _ => hb x y c') hw hh
  exact ⟨g, o₁, o₂, o₃, hg, h₁, h₂, h₃⟩

omit [Libm f32] in
theorem intResponse2d_const (info : ImageInfo) (m : Nat → Int) (n : Nat) (v : Nat → Int) (x y c : Nat) :
    intResponse2d info m n (fun _ _ c => v c) x y c = (∑ k ∈ Finset.range (n * n), m k) * v c := by
  unfold intResponse2d
  rw [sum_range_mul_int, Finset.sum_mul]
  apply Finset.sum_congr rfl; intro i _
  rw [Finset.sum_mul]

/-- **C51** `sharpen` and `unsharp_masking` return a constant image of integers 0..=255 unchanged and `laplacian`
maps it to zero, exactly in IEEE f32, whatever the image size. -/
theorem c51_constants (P : Profile) {img : Image F32} {v : Nat → UInt8}
    (h : img.ShowsValues img.info fun _ _ c => ((v c).toNat : Rat))
    (hw : img.info.width + 5 ≤ 2147483648) (hh : img.info.height + 5 ≤ 2147483648) :
    (∃ out, sharpen P img = .ok out ∧ out.ShowsValues img.info fun _ _ c => ((v c).toNat : Rat)) ∧
    (∃ out, unsharpMasking P img = .ok out ∧ out.ShowsValues img.info fun _ _ c => ((v c).toNat : Rat)) ∧
    (∃ out, laplacian P img = .ok out ∧ out.ShowsValues img.info fun _ _ _ => 0) := by
  have h' : img.ShowsValues img.info fun x y c => (((fun _ _ c => ((v c).toNat : Int)) : Nat → Nat → Nat → Int) x y c : Rat) := by
    simpa using h
  have hv : ∀ x y c, x < img.info.width → y < img.info.height → c < img.info.channels →
      |((fun _ _ c => ((v c).toNat : Int)) : Nat → Nat → Nat → Int) x y c| ≤ 255 := by
    intro x y c _ _ _
    have := (v c).toNat_lt
    show |((v c).toNat : Int)| ≤ 255
    rw [abs_of_nonneg (by omega)]; omega
  refine ⟨?_, ?_, ?_⟩
  · obtain ⟨out, e, hs⟩ := c51_sharpen_exact P h' hv (by omega) (by omega)
    refine ⟨out, e, ?_⟩
    simp only [intResponse2d_const] at hs
    rw [show ∑ k ∈ Finset.range (3 * 3), sharpenW.getD k 0 = 1 by decide] at hs
    simpa using hs
  · obtain ⟨out, e, hs⟩ := c51_unsharp_exact P h' hv hw hh
    refine ⟨out, e, ?_⟩
    simp only [intResponse2d_const] at hs
    rw [show ∑ k ∈ Finset.range (5 * 5), unsharpW.getD k 0 = 256 by decide] at hs
    simpa using hs
  · obtain ⟨out, e, hs⟩ := c51_laplacian_exact P h' hv (by omega) (by omega)
    refine ⟨out, e, ?_⟩
    simp only [intResponse2d_const] at hs
    rw [show ∑ k ∈ Finset.range (3 * 3), laplacianW.getD k 0 = 0 by decide] at hs
    simpa using hs

/-- C51: a converted u8 image meets the hypothesis -/
example : ∃ f : Image F32, imageU8ToFloat .debug (Image.fromVec 2 1 1 false [7, 7]) = .ok f ∧
    f.ShowsValues (Image.fromVec 2 1 1 false [(7 : UInt8), 7]).info fun x y c =>
      (((((Image.fromVec 2 1 1 false [(7 : UInt8), 7]).px x y).getD c 0).toNat : Int) : Rat) :=
  imageU8ToFloat_values .debug ⟨show 2 < _ by decide, show 1 < _ by decide, show 1 < _ by decide,
    show 2 * 1 < _ by decide, show 2 * 1 * 1 < _ by decide, rfl⟩
end

/-! ### C54 -/
section
variable {F : Type} [FloatOps F]

/-- **C54** on one-channel images `derivative_mask` is the root of the sum of squares of the two separable
responses (themselves characterised by C47) at every pixel, with unchanged info. -/
theorem c54_derivative_mask_partial (P : Profile) (img : Image F) (h : img.WF) (vert horz : List F)
    (hch : img.info.channels = 1) (ha : img.info.alpha = false)
    (hodd : vert.length % 2 = 1) (heq : vert.length = horz.length)
    (hw : img.info.width + vert.length ≤ 2147483648) (hh : img.info.height + vert.length ≤ 2147483648) :
    ∃ gx gy out, separableFilter P img vert horz = .ok gx ∧ separableFilter P img horz vert = .ok gy ∧
      derivativeMask P img vert horz = .ok out ∧ out.Shows img.info fun x y =>
        [FloatOps.sqrt (FloatOps.pow ((gx.px x y).getD 0 (num 0)) (num 2) +.
          FloatOps.pow ((gy.px x y).getD 0 (num 0)) (num 2))] := by
  obtain ⟨m1, gx, ex, -, sx⟩ := c47_separable_partial P img h vert horz hodd heq hw hh
  obtain ⟨m2, gy, ey, -, sy⟩ := c47_separable_partial P img h horz vert (by omega) heq.symm (by omega) (by omega)
  obtain ⟨b, eb, hb⟩ := Image.blank_eq P (FloatOps.rnum (F := F)) h.infoWF
  have hbi : b.info = img.info := hb.info_eq
  obtain ⟨out, eo, ho⟩ := Image.applyLoop hb.WF
    (fun i output => do
      let px ← gx.at' P i
      let g1 ← idx px 0
      let py ← gy.at' P i
      let g2 ← idx py 0
      output.setPixelIndexed P i [FloatOps.sqrt (FloatOps.pow g1 (num 2) +. FloatOps.pow g2 (num 2))])
    (fun i => [FloatOps.sqrt (FloatOps.pow ((chunk gx.data 1 i).getD 0 (num 0)) (num 2) +.
          FloatOps.pow ((chunk gy.data 1 i).getD 0 (num 0)) (num 2))])
    (by intro i _; rw [hbi, hch]; rfl)
    (by
      intro i hi im hw hinfo _
      have hgx : gx.info = img.info := sx.info_eq
      have hgy : gy.info = img.info := sy.info_eq
      rw [hbi] at hi
      have l1 : (chunk gx.data 1 i).length = 1 := by
        have := chunk_length (i := i) sx.WF.length (by rw [hgx]; exact hi)
        rwa [hgx, hch] at this
      have l2 : (chunk gy.data 1 i).length = 1 := by
        have := chunk_length (i := i) sy.WF.length (by rw [hgy]; exact hi)
        rwa [hgy, hch] at this
      have i1 : idx (chunk gx.data 1 i) 0 = .ok ((chunk gx.data 1 i).getD 0 (num 0)) := by
        rw [idx_ok (by omega), List.getD_eq_getElem?_getD, List.getElem?_eq_getElem (by omega)]; rfl
      have i2 : idx (chunk gy.data 1 i) 0 = .ok ((chunk gy.data 1 i).getD 0 (num 0)) := by
        rw [idx_ok (by omega), List.getD_eq_getElem?_getD, List.getElem?_eq_getElem (by omega)]; rfl
      rw [Image.at_eq P sx.WF (by rw [hgx]; exact hi), ok_bind, hgx, hch, i1, ok_bind,
        Image.at_eq P sy.WF (by rw [hgy]; exact hi), ok_bind, hgy, hch, i2, ok_bind,
        Image.setPixelIndexed_eq P hw (by rw [hinfo, hbi]; exact hi) (by rw [hinfo, hbi, hch]; rfl)])
  refine ⟨gx, gy, out, ex, ey, ?_, ?_⟩
  · unfold derivativeMask
    rw [checkGrayscale_ok (Or.inl ⟨ha, hch⟩), ok_bind, ex, ok_bind, ey, ok_bind, eb, ok_bind]
    rw [ImageInfo.fullSize_eq P (by rw [hbi]; exact h.infoWF), ok_bind]
    rw [show b.info.width * b.info.height * b.info.channels = b.info.width * b.info.height by
      rw [hbi, hch, Nat.mul_one]]
    exact eo
  · rw [hbi] at ho
    refine ho.congr ?_
    intro x y _ _
    rw [Image.px_eq_chunk, Image.px_eq_chunk, sx.info_eq, sy.info_eq, hch]

example (P : Profile) (a b c d e f : F) : ∃ out,
    derivativeMask P (gray6 a b c d e f) [num 1, num 2, num 1] [num 1, num 0, num (-1)] = .ok out := by
  obtain ⟨_, _, out, -, -, h, -⟩ := c54_derivative_mask_partial P _ (gray6_WF a b c d e f)
    [num 1, num 2, num 1] [num 1, num 0, num (-1)] rfl rfl (by simp) (by simp) (by dims) (by dims)
  exact ⟨out, h⟩

/-- **C54** images that are not grayscale give an error -/
theorem c54_error (P : Profile) (img : Image F) (vert horz : List F) (hg : ¬ Grayscale img.info) :
    derivativeMask P img vert horz = invalidArg := by
  unfold derivativeMask; rw [checkGrayscale_err hg]; rfl

example (P : Profile) (a b c d e g : F) (vert horz : List F) :
    derivativeMask P (rgb2 a b c d e g) vert horz = invalidArg :=
  c54_error P _ vert horz (by simp [Grayscale, rgb2, Image.fromVec])

/-- **C54** even or unequal kernels give an error -/
theorem c54_kernel_error (P : Profile) (img : Image F) (vert horz : List F) 
    (hbad : vert.length % 2 = 0 ∨ horz.length % 2 = 0 ∨ vert.length ≠ horz.length) :
    Res.InvalidArg (derivativeMask P img vert horz) := by
  unfold derivativeMask
  by_cases hg : Grayscale img.info
  · rw [checkGrayscale_ok hg, ok_bind]
    have := c47_separable_err P img vert horz hbad
    unfold Res.InvalidArg at this ⊢
    rw [this]; rfl
  · rw [checkGrayscale_err hg]; rfl

/-- **C54 is violated** for the documented grayscale-with-alpha input: every non-empty image with an alpha channel
panics (a one-element slice is copied into a two-channel pixel). -/
theorem c54_violated_alpha (P : Profile) (img : Image F) (h : img.WF) (vert horz : List F)
    (hch : img.info.channels = 2) (ha : img.info.alpha = true) (hpos : 0 < img.info.width ∧ 0 < img.info.height)
    (hodd : vert.length % 2 = 1) (heq : vert.length = horz.length)
    (hw : img.info.width + vert.length ≤ 2147483648) (hh : img.info.height + vert.length ≤ 2147483648) :
    Res.Panics (derivativeMask P img vert horz) := by
  obtain ⟨m1, gx, ex, -, sx⟩ := c47_separable_partial P img h vert horz hodd heq hw hh
  obtain ⟨m2, gy, ey, -, sy⟩ := c47_separable_partial P img h horz vert (by omega) heq.symm (by omega) (by omega)
  obtain ⟨b, eb, hb⟩ := Image.blank_eq P (FloatOps.rnum (F := F)) h.infoWF
  have hbi : b.info = img.info := hb.info_eq
  unfold derivativeMask
  rw [checkGrayscale_ok (Or.inr ⟨ha, hch⟩), ok_bind, ex, ok_bind, ey, ok_bind, eb, ok_bind,
    ImageInfo.fullSize_eq P (by rw [hbi]; exact h.infoWF), ok_bind]
  have hp : 0 < img.info.width * img.info.height := Nat.mul_pos hpos.1 hpos.2
  rw [forRange_cons (by rw [hbi, hch]; omega)]
  have hgx : gx.info = img.info := sx.info_eq
  have hgy : gy.info = img.info := sy.info_eq
  rw [Image.at_eq P sx.WF (by rw [hgx]; exact hp), ok_bind, Image.at_eq P sy.WF (by rw [hgy]; exact hp)]
  have l1 := chunk_length (i := 0) sx.WF.length (by rw [hgx]; exact hp)
  have l2 := chunk_length (i := 0) sy.WF.length (by rw [hgy]; exact hp)
  rw [hgx, hch] at l1
  rw [hgy, hch] at l2
  rw [hgx, hgy, hch, idx_ok (by omega), ok_bind, ok_bind, idx_ok (by omega), ok_bind]
  unfold Image.setPixelIndexed
  rw [hbi, hch]
  exact ⟨_, rfl⟩

example (P : Profile) (a b c d : F) :
    Res.Panics (derivativeMask P (grayAlpha2 a b c d) [num 1, num 2, num 1] [num 1, num 0, num (-1)]) :=
  c54_violated_alpha P _ (grayAlpha2_WF ..) _ _ rfl rfl (by dims) (by simp) (by simp) (by dims) (by dims)
end

section
variable [Libm f32]

theorem separable_const (P : Profile) {img : Image F32} {v : Nat → UInt8}
    (h : img.ShowsValues img.info fun _ _ c => ((v c).toNat : Rat)) (a b : List Int) (la : a.length = 3) (lb : b.length = 3)
    (ha : ∀ z ∈ a, |z| ≤ 2) (hb : ∀ z ∈ b, |z| ≤ 2) (hz : a.sum * b.sum = 0)
    (hw : img.info.width + 3 ≤ 2147483648) (hh : img.info.height + 3 ≤ 2147483648) :
    ∃ out, separableFilter P img (a.map num) (b.map num) = .ok out ∧ out.ShowsValues img.info fun _ _ _ => 0 := by
  have h' : img.ShowsValues img.info fun x y c => (((fun _ _ c => ((v c).toNat : Int)) : Nat → Nat → Nat → Int) x y c : Rat) := by
    simpa using h
  have bd : ∀ l : List Int, l.length = 3 → (∀ z ∈ l, |z| ≤ 2) →
      ∑ i ∈ Finset.range (l.map (num : Int → F32)).length, |l.getD i 0| ≤ 6 ∧
      ∑ i ∈ Finset.range (l.map (num : Int → F32)).length, l.getD i 0 = l.sum := by
    intro l hl hb
    obtain ⟨p, q, r, rfl⟩ := List.length_eq_three.1 hl
    simp only [List.mem_cons, List.not_mem_nil, or_false, forall_eq_or_imp, forall_eq] at hb
    simp [Finset.sum_range_succ]
    constructor <;> omega
  obtain ⟨A1, A2⟩ := bd a la ha
  obtain ⟨B1, B2⟩ := bd b lb hb
  have asum : |a.sum| ≤ 6 := by
    rw [← A2]; exact le_trans (Finset.abs_sum_le_sum_abs _ _) A1
  have la' : (a.map (num : Int → F32)).length = 3 := by simp [la]
  have lb' : (b.map (num : Int → F32)).length = 3 := by simp [lb]
  obtain ⟨m, e1, s1⟩ := filter1d_exact P h' (a.map num) true (fun i => a.getD i 0) 255 (by rw [la'])
    (fun i _ => intKernel_is a (fun z hz => by have := ha z hz; omega) i)
    (by
      intro x y c _ _ _
      have := (v c).toNat_lt
      show |((v c).toNat : Int)| ≤ 255
      rw [abs_of_nonneg (by omega)]; omega)
    (by omega) (by rw [la']; exact hw) (by rw [la']; exact hh)
  have hmi : m.info = img.info := s1.2.1
  have c1 : ∀ x y c, intResponse1d img.info (fun i => a.getD i 0) (a.map (num : Int → F32)).length true
      ((fun _ _ c => ((v c).toNat : Int)) : Nat → Nat → Nat → Int) x y c = a.sum * (v c).toNat := by
    intro x y c
    unfold intResponse1d
    simp only [if_true]
    rw [← Finset.sum_mul, A2]
  obtain ⟨o, e2, s2⟩ := filter1d_exact P (img := m) (v := fun _ _ c => a.sum * (v c).toNat)
    (by rw [hmi]; simpa only [c1] using s1) (b.map num) false (fun i => b.getD i 0) 1530 (by rw [lb'])
    (fun i _ => intKernel_is b (fun z hz => by have := hb z hz; omega) i)
    (by
      intro x y c _ _ _
      have := (v c).toNat_lt
      show |a.sum * ((v c).toNat : Int)| ≤ 1530
      rw [abs_mul, abs_of_nonneg (show (0 : Int) ≤ ((v c).toNat : Int) by omega)]
      have : |a.sum| * ((v c).toNat : Int) ≤ 6 * 255 := mul_le_mul asum (by omega) (by omega) (by omega)
      omega)
    (by omega) (by rw [lb', hmi]; exact hw) (by rw [lb', hmi]; exact hh)
  refine ⟨o, ?_, ?_⟩
  · unfold separableFilter
    rw [checkOdd_usize_ok (by rw [la']), ok_bind, checkOdd_usize_ok (by rw [lb']), ok_bind,
      checkEqual_ok (by rw [la', lb']), ok_bind, e1, ok_bind, e2]
  · rw [hmi] at s2
    have c2 : ∀ x y c, intResponse1d img.info (fun i => b.getD i 0) (b.map (num : Int → F32)).length false
      ((fun _ _ c => a.sum * ((v c).toNat : Int)) : Nat → Nat → Nat → Int) x y c = 0 := by
      intro x y c
      unfold intResponse1d
      simp only [Bool.false_eq_true, if_false]
      rw [← Finset.sum_mul, B2, ← mul_assoc, mul_comm b.sum, hz, zero_mul]
    simpa only [c2, Int.cast_zero] using s2

/-- **C54** Sobel and Prewitt map every constant integer image to zero, in IEEE f32, for every math library whose
`powf` squares zero to zero. -/
theorem c54_constant_zero (P : Profile) {img : Image F32} {v : Nat → UInt8}
    (h : img.ShowsValues img.info fun _ _ c => ((v c).toNat : Rat))
    (hch : img.info.channels = 1) (ha : img.info.alpha = false)
    (hpow : ∀ z : F32, z.Is 0 → (FloatOps.pow z (num 2 : F32)).Is 0)
    (hw : img.info.width + 3 ≤ 2147483648) (hh : img.info.height + 3 ≤ 2147483648) :
    (∃ out, sobel P img = .ok out ∧ out.ShowsValues img.info fun _ _ _ => 0) ∧
    (∃ out, prewitt P img = .ok out ∧ out.ShowsValues img.info fun _ _ _ => 0) := by
  have key : ∀ a b : List Int, a.length = 3 → b.length = 3 → (∀ z ∈ a, |z| ≤ 2) → (∀ z ∈ b, |z| ≤ 2) →
      a.sum * b.sum = 0 →
      ∃ out, derivativeMask P img (a.map num) (b.map num) = .ok out ∧ out.ShowsValues img.info fun _ _ _ => 0 := by
    intro a b la lb ba bb hz
    obtain ⟨gx, gy, out, ex, ey, eo, so⟩ := c54_derivative_mask_partial P img h.1 (a.map num) (b.map num) hch ha
      (by simp [la]) (by simp [la, lb]) (by simpa [la] using hw) (by simpa [la] using hh)
    refine ⟨out, eo, so.values (fun _ _ _ _ => by rw [hch]; rfl) ?_⟩
    intro x y c hx hy hc
    obtain rfl : c = 0 := by omega
    obtain ⟨gx', ex', sx⟩ := separable_const P h a b la lb ba bb hz hw hh
    obtain ⟨gy', ey', sy⟩ := separable_const P h b a lb la bb ba (by rw [mul_comm]; exact hz) hw hh
    rw [ex] at ex'; cases ex'
    rw [ey] at ey'; cases ey'
    refine ⟨_, rfl, ?_⟩
    have h1 := hpow _ (sx.px hx hy hc (num 0))
    have h2 := hpow _ (sy.px hx hy hc (num 0))
    have h3 := add_exact h1 h2 (by simpa using f32_int (n := 0) (by simp))
    rw [add_zero] at h3
    have := sqrt_zero_is h3
    exact this
  exact ⟨key [1, 2, 1] [-1, 0, 1] rfl rfl (by decide) (by decide) (by decide),
    key [1, 1, 1] [-1, 0, 1] rfl rfl (by decide) (by decide) (by decide)⟩

/-- the hypothesis on `powf` (0² = 0) is satisfiable -/
example (z : F32) (h : z.Is 0) : letI := trivialLibm f32; (FloatOps.pow z (num 2 : F32)).Is 0 := h

example (P : Profile) (hpow : ∀ z : F32, z.Is 0 → (FloatOps.pow z (num 2 : F32)).Is 0) (v : UInt8) :
    ∃ g out : Image F32, imageU8ToFloat P (gray6 v v v v v v) = .ok g ∧ sobel P g = .ok out ∧
      out.ShowsValues (gray6 v v v v v v).info fun _ _ _ => 0 := by
  obtain ⟨g, hg, hs⟩ := imageU8ToFloat_values P (gray6_WF v v v v v v)
  have hi := hs.2.1
  have hs' : g.ShowsValues g.info fun _ _ c => (((fun _ => v : Nat → UInt8) c).toNat : Rat) := by
    rw [hi]
    refine ⟨hs.1, hi, fun P x y hx hy => ?_⟩
    obtain ⟨p, h1, h2, h3⟩ := hs.2.2 P x y hx hy
    refine ⟨p, h1, h2, fun c hc => ?_⟩
    obtain ⟨r, h4, h5⟩ := h3 c hc
    refine ⟨r, h4, ?_⟩
    have hx : x < 3 := hx
    have hy : y < 2 := hy
    have hc : c < 1 := hc
    have : ((gray6 v v v v v v).px x y).getD c 0 = v := by
      interval_cases x <;> interval_cases y <;> interval_cases c <;> rfl
    simp only [this] at h5
    simpa using h5
  obtain ⟨⟨out, h, ho⟩, -⟩ := c54_constant_zero P hs' (by rw [hi]; rfl) (by rw [hi]; rfl) hpow
    (by rw [hi]; dims) (by rw [hi]; dims)
  exact ⟨g, out, hg, h, by rw [← hi]; exact ho⟩
end
end Imgproc

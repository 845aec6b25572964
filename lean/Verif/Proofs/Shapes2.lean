import Verif.Proofs.Shapes
import Verif.Core.IEEE
/-!
C131, continued: the shape rule of every operation of the library that returns an image.
-/
namespace Imgproc
open FloatOps
variable {T S F : Type} [FloatOps F] {i : ImageInfo} {P : Profile}

/-! ### Conversions -/
theorem gives_scaleChannels {img : Image F} (h : Shaped i img) {a b c d : F} : Gives (Shaped i) (scaleChannels P img a b c d) :=
  gives_mapChannels h
theorem gives_f32ToU8Scale {img : Image F} (h : Shaped i img) {n : Nat} : Gives (Shaped i) (f32ToU8Scale P img n) := gives_mapChannels h
theorem gives_u8ToF32Scale {img : Image UInt8} (h : Shaped i img) {n : Nat} : Gives (Shaped i) (u8ToF32Scale (F := F) P img n) :=
  gives_mapChannels h
theorem gives_imageU8ToFloat {img : Image UInt8} (h : Shaped i img) : Gives (Shaped i) (imageU8ToFloat (F := F) P img) :=
  gives_mapChannels h
theorem gives_imageNatToFloat {img : Image Nat} (h : Shaped i img) : Gives (Shaped i) (imageNatToFloat (F := F) P img) :=
  gives_mapChannels h
theorem gives_imageFloatToU8 {img : Image F} (h : Shaped i img) : Gives (Shaped i) (imageFloatToU8 P img) := gives_mapChannels h

/-! ### Colour spaces -/

theorem gives_linearizeSrgb {img : Image UInt8} (h : Shaped i img) : Gives (Shaped i) (linearizeSrgb (F := F) P img) :=
  .bindAny fun _ => gives_mapChannelsIfAlpha h
theorem gives_unlinearizeSrgb {img : Image F} (h : Shaped i img) : Gives (Shaped i) (unlinearizeSrgb P img) := gives_mapChannelsIfAlpha h

/-- a pixel function with at most as many output values as the pixel has colours -/
theorem gives_recolour {c : Nat} {img : Image T} (h : Shaped i img) {f : List T → List S → Res (List S)} {g : T → Res S}
    (hf : ∀ p, Gives (fun q => q.length = c ∧ c ≤ p.length) (f p [])) :
    Gives (Shaped (i.recolour c)) (img.mapPixelsIfAlpha P f g) := by
  obtain ⟨h, rfl⟩ := h
  refine gives_mapPixelsIfAlpha (B := c ≤ img.info.colours) h (fun p hp => (hf p).mono fun q hq => ⟨hq.1, hp ▸ hq.2⟩) fun b ha => ?_
  have hle : (img.info.recolour c).channels ≤ img.info.channels := by
    unfold ImageInfo.colours at b
    unfold ImageInfo.recolour
    dsimp only
    split at b
    · have := ha (by assumption); simp [*]; omega
    · simp [*]
  exact ⟨hle.trans_lt h.channels, (Nat.mul_le_mul_left _ hle).trans_lt h.full⟩

theorem gives_idx {l : List T} {k : Nat} : Gives (fun _ => k < l.length) (idx l k) := by
  intro v e
  unfold idx at e
  split at e
  · rename_i hv
    exact (List.getElem?_eq_some_iff.1 hv).1
  · cases e

/-- a pixel function that reads the third colour and returns three values -/
theorem gives_three {p : List T} {q : Res (List S)} (h : Gives (fun q => q.length = 3 ∧ 3 ≤ p.length) q) :
    Gives (fun q => q.length = 3 ∧ 3 ≤ p.length) (q >>= fun o => .ok ([] ++ o)) :=
  .bind h fun _ ho => .ok ho

theorem gives_list3 {p : List T} {a b c : S} (hp : 2 < p.length) :
    Gives (fun q => q.length = 3 ∧ 3 ≤ p.length) (.ok [a, b, c]) := .ok ⟨rfl, hp⟩
/-- all branches return three values -/
macro "list3" : tactic => `(tactic| (dsimp only; repeat' (first
  | with_reducible exact gives_list3 (by assumption)
  | with_reducible apply Gives.ite
  | with_reducible apply Gives.bindAny
  | with_reducible intro _)))

theorem gives_rgbToHsv {img : Image UInt8} (h : Shaped i img) : Gives (Shaped (i.recolour 3)) (rgbToHsv P img) := by
  refine gives_recolour h fun p => gives_three ?_
  unfold rgbToHsvPixel
  refine .bindAny fun _ => .bindAny fun _ => .bind gives_idx fun _ hp => ?_
  list3
theorem gives_hsvToRgb {img : Image UInt8} (h : Shaped i img) : Gives (Shaped (i.recolour 3)) (hsvToRgb P img) := by
  refine gives_recolour h fun p => gives_three ?_
  unfold hsvToRgbPixel
  refine .bindAny fun _ => .ite (fun _ => .bind gives_idx fun _ hp => gives_list3 hp) fun _ => ?_
  refine .bindAny fun _ => .bind gives_idx fun _ hp => ?_
  list3
theorem gives_rgbToHsvF32 {img : Image UInt8} (h : Shaped i img) : Gives (Shaped (i.recolour 3)) (rgbToHsvF32 (F := F) P img) := by
  refine gives_recolour h fun p => gives_three ?_
  unfold rgbToHsvF32Pixel
  exact .bindAny fun _ => .bindAny fun _ => .bind gives_idx fun _ hp => gives_list3 hp
theorem gives_hsvToRgbF32 {img : Image F} (h : Shaped i img) : Gives (Shaped (i.recolour 3)) (hsvToRgbF32 P img) := by
  refine gives_recolour h fun p => gives_three ?_
  unfold hsvToRgbF32Pixel
  refine .bindAny fun _ => .ite (fun _ => .bind gives_idx fun _ hp => gives_list3 hp) fun _ => ?_
  refine .bindAny fun _ => .bind gives_idx fun _ hp => ?_
  list3
theorem gives_xyzToLab {img : Image F} (h : Shaped i img) {w : White} : Gives (Shaped (i.recolour 3)) (xyzToLab P img w) := by
  refine gives_recolour h fun p => gives_three ?_
  unfold xyzToLabPixel
  exact .bindAny fun _ => .bindAny fun _ => .bind gives_idx fun _ hp => gives_list3 hp
theorem gives_labToXyz {img : Image F} (h : Shaped i img) {w : White} : Gives (Shaped (i.recolour 3)) (labToXyz P img w) := by
  refine gives_recolour h fun p => gives_three ?_
  unfold labToXyzPixel
  exact .bindAny fun _ => .bindAny fun _ => .bind gives_idx fun _ hp => gives_list3 hp

theorem gives_checkEqual {a b : Nat} : Gives (fun _ => a = b) (checkEqual a b) := by
  unfold checkEqual
  exact .ite (fun _ => .invalid) fun h => .ok (by simpa using h)

/-- a vector multiplied by a 3×3 matrix has three components -/
theorem gives_vectorMulMut {N : RNum T} {m p o : List T} (hm : m.length = 9) :
    Gives (fun q => q.length = 3 ∧ 3 ≤ p.length) (vectorMulMut P N m p o) := by
  unfold vectorMulMut
  dsimp only
  intro q e
  obtain ⟨n, en, e⟩ := bind_eq_ok e
  obtain ⟨u, eu, e⟩ := bind_eq_ok e
  have hn := gives_checkEqual u eu
  have hp : p.length = 3 := by
    unfold natDiv at en
    split at en
    · cases en
    · cases en
      rw [hm] at hn
      generalize p.length = n at *
      match n, hn with
      | 1, hn => simp at hn
      | 2, hn => simp at hn
      | 3, hn => rfl
      | 4, hn => simp at hn
      | 5, hn => simp at hn
      | 6, hn => simp at hn
      | 7, hn => simp at hn
      | 8, hn => simp at hn
      | 9, hn => simp at hn
      | n + 10, hn => rw [Nat.div_eq_of_lt (by omega)] at hn; omega
  obtain ⟨o1, e1, e⟩ := bind_eq_ok e
  have h1 := Gives.push (a := 0) (n := p.length) (l := []) (c := 1) (f := fun _ o => .ok (o ++ [N.ofU8 0])) (fun k s => .ok (by simp)) o1 (by rw [Nat.zero_add]; exact e1)
  refine ⟨?_, by omega⟩
  have : Gives (fun q => q.length = o1.length) (vectorMulLoops P N m p o1 p.length) := by
    unfold vectorMulLoops
    refine .loop rfl fun k s hs => .loop hs fun k s hs => ?_
    exact .bindAny fun _ => .bindAny fun _ => .bindAny fun _ => .bindAny fun _ => .bindAny fun _ => .bindAny fun _ => .bindAny fun _ =>
      gives_setIdx.mono fun d hd => hd.trans hs
  rw [this q e, h1, hp]; rfl

theorem gives_srgbLinToXyz {img : Image F} (h : Shaped i img) : Gives (Shaped (i.recolour 3)) (srgbLinToXyz P img) :=
  gives_recolour h fun _ => .unwrap (gives_vectorMulMut (by simp [SRGB_TO_XYZ_MAT]))
theorem gives_xyzToSrgbLin {img : Image F} (h : Shaped i img) : Gives (Shaped (i.recolour 3)) (xyzToSrgbLin P img) :=
  gives_recolour h fun _ => .unwrap (gives_vectorMulMut (by simp [XYZ_TO_SRGB_MAT]))

theorem recolour_recolour {c d : Nat} : (i.recolour c).recolour d = i.recolour d := rfl

theorem gives_srgbToXyz {img : Image UInt8} (h : Shaped i img) : Gives (Shaped (i.recolour 3)) (srgbToXyz (F := F) P img) :=
  .bind (gives_linearizeSrgb h) fun _ h => gives_srgbLinToXyz h
theorem gives_xyzToSrgb {img : Image F} (h : Shaped i img) : Gives (Shaped (i.recolour 3)) (xyzToSrgb P img) :=
  .bind (gives_xyzToSrgbLin h) fun _ h => gives_unlinearizeSrgb h
theorem gives_srgbToLab {img : Image UInt8} (h : Shaped i img) {w : White} : Gives (Shaped (i.recolour 3)) (srgbToLab (F := F) P img w) :=
  .bind (gives_srgbToXyz h) fun _ h => gives_xyzToLab (i := i.recolour 3) h
theorem gives_labToSrgb {img : Image F} (h : Shaped i img) {w : White} : Gives (Shaped (i.recolour 3)) (labToSrgb P img w) :=
  .bind (gives_labToXyz h) fun _ h => gives_xyzToSrgb (i := i.recolour 3) h

theorem gives_rgbToGrayscaleNorm {img : Image UInt8} (h : Shaped i img) : Gives (Shaped (i.recolour 1)) (rgbToGrayscaleNorm P img) := by
  refine gives_recolour h fun p => .bindAny fun s => ?_
  intro q e
  obtain ⟨v, ev, e⟩ := bind_eq_ok e
  cases e
  refine ⟨rfl, ?_⟩
  unfold i16Div at ev
  split at ev
  · cases ev
  · rename_i h0
    rcases Nat.eq_zero_or_pos p.length with h | h
    · rw [h] at h0; exact absurd rfl h0
    · exact h
/-- the average of the colours: an image whose pixels are an alpha value only is excluded -/
theorem gives_rgbToGrayscaleF32 {img : Image F} (h : Shaped i img) (h2 : i.alpha = true → 2 ≤ i.channels) :
    Gives (Shaped (i.recolour 1)) (rgbToGrayscaleF32 P img) := by
  obtain ⟨h, rfl⟩ := h
  unfold rgbToGrayscaleF32
  refine gives_mapPixelsIfAlpha (B := True) h (fun p _ => .bindAny fun s => .ok ⟨rfl, trivial⟩) fun _ _ => ?_
  unfold ImageInfo.recolour
  dsimp only
  have hw := h.size
  have hf := h.full
  have hc := h.channels
  cases ha : img.info.alpha
  · simpa using hw
  · simp only [if_true]
    exact ⟨by omega, (Nat.mul_le_mul_left _ (h2 ha)).trans_lt hf⟩

/-! ### Tone -/
theorem gives_brightness {img : Image UInt8} (h : Shaped i img) {b : Int} : Gives (Shaped i) (brightness false P img b) :=
  .bindAny fun _ => .bindAny fun _ => .bindAny fun _ => gives_mapChannelsIfAlpha h
theorem gives_saturation {img : Image UInt8} (h : Shaped i img) {b : Int} : Gives (Shaped (i.recolour 3)) (saturation false P img b) :=
  .bindAny fun _ => .bind (gives_rgbToHsv h) fun _ h => .bind (gives_editChannel h) fun _ h => gives_hsvToRgb (i := i.recolour 3) h
theorem gives_brightnessLab {img : Image UInt8} (h : Shaped i img) {b : Int} : Gives (Shaped (i.recolour 3)) (brightnessLab F P img b) :=
  .bindAny fun _ => .bindAny fun _ => .bind (gives_srgbToLab h) fun _ h => .bind (gives_editChannel h) fun _ h => gives_labToSrgb (i := i.recolour 3) h
theorem gives_contrast {img : Image UInt8} (h : Shaped i img) {g : F} : Gives (Shaped i) (contrast P img g) :=
  .bindAny fun _ => .bindAny fun _ => .bindAny fun _ => gives_mapChannelsIfAlpha h
theorem gives_contrastLab {img : Image UInt8} (h : Shaped i img) {g : F} : Gives (Shaped (i.recolour 3)) (contrastLab P img g) :=
  .bindAny fun _ => .bindAny fun _ => .bind (gives_srgbToLab h) fun _ h => .bind (gives_editChannel h) fun _ h => gives_labToSrgb (i := i.recolour 3) h
theorem gives_gammaOp {img : Image UInt8} (h : Shaped i img) {g : F} {m : UInt8} : Gives (Shaped i) (gammaOp P img g m) :=
  .bindAny fun _ => gives_mapChannelsIfAlpha h
theorem gives_histogramEqualization {img : Image UInt8} (h : Shaped i img) {a p : F} {w : White} :
    Gives (Shaped (i.recolour 3)) (histogramEqualization P img a w p) :=
  .bindAny fun _ => .bindAny fun _ => .bind (gives_srgbToLab h) fun _ h => .bindAny fun _ => .bind (gives_editChannel h) fun _ h =>
    gives_labToSrgb (i := i.recolour 3) h

/-! ### Filters -/
section
theorem gives_filter1d {img : Image F} (h : Shaped i img) {k : List F} {v : Bool} : Gives (Shaped i) (filter1d P img k v) := by
  obtain ⟨h, rfl⟩ := h
  unfold filter1d
  refine .bindAny fun _ => .bind (gives_blank h.infoWF) fun o ho => ?_
  sh
theorem gives_separableFilter {img : Image F} (h : Shaped i img) {k l : List F} : Gives (Shaped i) (separableFilter P img k l) :=
  .bindAny fun _ => .bindAny fun _ => .bindAny fun _ => .bind (gives_filter1d h) fun _ h => gives_filter1d h
theorem gives_unseparableFilter {img : Image F} (h : Shaped i img) {k : List F} : Gives (Shaped i) (unseparableFilter P img k) := by
  obtain ⟨h, rfl⟩ := h
  unfold unseparableFilter
  refine .bindAny fun _ => .bindAny fun _ => .bind (gives_blank h.infoWF) fun o ho => ?_
  sh
theorem gives_linearFilter {svd : Svd F} {img : Image F} (h : Shaped i img) {k : List F} : Gives (Shaped i) (linearFilter svd P img k) := by
  refine .bindAny fun _ => .bindAny fun _ => .bindAny fun s => ?_
  split
  · exact gives_separableFilter h
  · exact gives_unseparableFilter h
theorem gives_boxFilter {img : Image F} (h : Shaped i img) {n : Nat} : Gives (Shaped i) (boxFilter P img n) :=
  .bindAny fun _ => .bindAny fun _ => gives_separableFilter h
theorem gives_weightedAvgFilter {img : Image F} (h : Shaped i img) {n w : Nat} : Gives (Shaped i) (weightedAvgFilter P img n w) :=
  .bindAny fun _ => .bindAny fun _ => gives_unseparableFilter h
theorem gives_gaussianBlur {svd : Svd F} {img : Image F} (h : Shaped i img) {n : Nat} {s : F} :
    Gives (Shaped i) (gaussianBlur svd P img n s) := .bindAny fun _ => gives_linearFilter h
theorem gives_sharpen {img : Image F} (h : Shaped i img) : Gives (Shaped i) (sharpen P img) := gives_unseparableFilter h
theorem gives_unsharpMasking {img : Image F} (h : Shaped i img) : Gives (Shaped i) (unsharpMasking P img) := gives_unseparableFilter h
theorem gives_threshold {img : Image F} (h : Shaped i img) {t m : F} {k : Thresh} : Gives (Shaped i) (threshold P img t m k) := by
  refine .bindAny fun _ => ?_
  cases k <;> exact gives_mapChannelsIfAlpha h
theorem gives_derivativeMask {img : Image F} (h : Shaped i img) {k l : List F} : Gives (Shaped i) (derivativeMask P img k l) := by
  obtain ⟨h, rfl⟩ := h
  unfold derivativeMask
  refine .bindAny fun _ => .bindAny fun _ => .bindAny fun _ => .bind (gives_blank h.infoWF) fun o ho => .bindAny fun _ => ?_
  sh
theorem gives_prewitt {img : Image F} (h : Shaped i img) : Gives (Shaped i) (prewitt P img) := gives_derivativeMask h
theorem gives_sobel {img : Image F} (h : Shaped i img) : Gives (Shaped i) (sobel P img) := gives_derivativeMask h
theorem gives_sobelWeighted {img : Image F} (h : Shaped i img) {w : Nat} : Gives (Shaped i) (sobelWeighted P img w) := gives_derivativeMask h
theorem gives_laplacian {img : Image F} (h : Shaped i img) : Gives (Shaped i) (laplacian P img) := gives_unseparableFilter h
theorem gives_laplacianOfGaussian {img : Image F} (h : Shaped i img) {n : Nat} {s : F} :
    Gives (Shaped i) (laplacianOfGaussian P img n s) := .bindAny fun _ => gives_unseparableFilter h
theorem gives_normalizeLaplacian {img : Image F} (h : Shaped i img) : Gives (Shaped i) (normalizeLaplacian P img) :=
  .bindAny fun _ => .bindAny fun _ => .bindAny fun _ => .bind (gives_scaleChannels h) fun _ h => gives_imageFloatToU8 h
theorem gives_bilateralFilter {img : Image UInt8} (h : Shaped i img) {r s : F} : Gives (Shaped (i.recolour 3)) (bilateralFilter P img r s) := by
  unfold bilateralFilter
  refine .bindAny fun _ => .bindAny fun _ => .bindAny fun _ => .bind (gives_srgbToLab h) fun l hl => ?_
  obtain ⟨hl, e⟩ := hl
  rw [e]
  refine .bind (gives_blank (e ▸ hl.infoWF)) fun o ho => .bind (q := Shaped (i.recolour 3)) ?_ fun o ho => gives_labToSrgb (i := i.recolour 3) ho
  sh

/-- nested loops appending a fixed number of values per round -/
theorem gives_residual {N : RNum T} {a b : Image T} (h : Shaped i a) : Gives (Shaped i) (residual P N a b) := by
  obtain ⟨h, rfl⟩ := h
  unfold residual
  refine .bindAny fun _ => .bind (q := fun d => d.length = a.info.width * a.info.height * a.info.channels) ?_ fun d hd =>
    .ok (shaped_of h.infoWF rfl hd)
  have := Gives.push (a := 0) (n := a.info.height) (l := ([] : List T)) (c := a.info.width * a.info.channels)
    (f := fun y data => forRange 0 a.info.width data fun x data => do
      let p1 ← a.getPixel P x y
      let p2 ← b.getPixel P x y
      forRange 0 a.info.channels data fun c data => do
        let u ← idx p1 c
        let v ← idx p2 c
        let d ← N.sub P u v
        .ok (data ++ [d])) (fun y s => by
      have := Gives.push (a := 0) (n := a.info.width) (l := s) (c := a.info.channels)
        (f := fun x data => do
          let p1 ← a.getPixel P x y
          let p2 ← b.getPixel P x y
          forRange 0 a.info.channels data fun c data => do
            let u ← idx p1 c
            let v ← idx p2 c
            let d ← N.sub P u v
            .ok (data ++ [d])) (fun x s => .bindAny fun p1 => .bindAny fun p2 => by
          have := Gives.push (a := 0) (n := a.info.channels) (l := s) (c := 1)
            (f := fun c data => do
              let u ← idx p1 c
              let v ← idx p2 c
              let d ← N.sub P u v
              .ok (data ++ [d])) (fun c s => .bindAny fun _ => .bindAny fun _ => .bindAny fun _ => .ok (by simp))
          simpa using this)
      simpa using this)
  refine (show Gives _ _ from (Nat.zero_add a.info.height ▸ this)).mono fun d hd => ?_
  rw [hd, List.length_nil, Nat.zero_add, ← Nat.mul_assoc, Nat.mul_comm a.info.height]
end

/-! ### Morphology and the summed-area table -/
theorem gives_generateSummedAreaTable {img : Image F} (h : Shaped i img) : Gives (Shaped i) (generateSummedAreaTable P img) := by
  obtain ⟨h, rfl⟩ := h
  unfold generateSummedAreaTable
  refine .bind (gives_blank h.infoWF) fun o ho => ?_
  sh
theorem gives_morphScan {img : Image UInt8} (h : Shaped i img) {r : Nat} {t : Image F} {f : F → Bool} :
    Gives (Shaped i) (morphScan P img r t f) := by
  obtain ⟨h, rfl⟩ := h
  unfold morphScan
  refine .bind (gives_blank h.infoWF) fun o ho => .loop ho fun y s hs => .loop hs fun x s hs => ?_
  refine .bindAny fun _ => .bindAny fun _ => .bindAny fun _ => .bindAny fun _ => .ite (fun _ => gives_setPixel hs) fun _ => .ok hs
theorem gives_erode {img : Image UInt8} (h : Shaped i img) {r : Nat} : Gives (Shaped i) (erode F P img r) :=
  .bindAny fun _ => .bindAny fun _ => .bindAny fun _ => .bindAny fun _ => gives_morphScan h
theorem gives_dilate {img : Image UInt8} (h : Shaped i img) {r : Nat} : Gives (Shaped i) (dilate F P img r) :=
  .bindAny fun _ => .bindAny fun _ => .bindAny fun _ => gives_morphScan h
theorem gives_majority {img : Image UInt8} (h : Shaped i img) {r : Nat} : Gives (Shaped i) (majority F P img r) :=
  .bindAny fun _ => .bindAny fun _ => .bindAny fun _ => gives_morphScan h
theorem gives_gradient {img : Image UInt8} (h : Shaped i img) {r : Nat} : Gives (Shaped i) (gradient F P img r) :=
  .bindAny fun _ => .bindAny fun _ => .bindAny fun _ => .bindAny fun _ => gives_morphScan h
theorem gives_morphOpen {img : Image UInt8} (h : Shaped i img) {r : Nat} : Gives (Shaped i) (morphOpen F P img r) :=
  .bind (gives_erode h) fun _ h => gives_dilate h
theorem gives_morphClose {img : Image UInt8} (h : Shaped i img) {r : Nat} : Gives (Shaped i) (morphClose F P img r) :=
  .bind (gives_dilate h) fun _ h => gives_erode h

/-! ### Median and alpha-trimmed mean -/
theorem gives_writeClamped {img : Image UInt8} (h : Shaped i img) {x k y : Nat} {p : List UInt8} :
    Gives (Shaped i) (writeClamped P img x k y p) := .bindAny fun _ => .bindAny fun _ => .bindAny fun _ => gives_setPixel h
theorem gives_initColsMed {a o : Image UInt8} (h : Shaped i o) {hs : List MedianHist} {r : Nat} {c : Int} {n x : Nat} :
    Gives (fun s => Shaped i s.1) (initColsMed P a o hs r c n x) := by
  unfold initColsMed
  refine .bindAny fun _ => .bindAny fun _ => .bindAny fun _ => .loop h fun k s hs => ?_
  exact .bindAny fun _ => .bind (gives_writeClamped hs) fun _ h => .bindAny fun _ => .ok h
theorem gives_processRowMed {o : Image UInt8} (h : Shaped i o) {hs : List MedianHist} {c : Int} {n x y : Nat} :
    Gives (fun s => Shaped i s.1) (processRowMed P o hs c n x y) := by
  unfold processRowMed
  refine .loop h fun k s hs => ?_
  exact .bindAny fun _ => .bind (gives_writeClamped hs) fun _ h => .bindAny fun _ => .ok h
theorem gives_processColsMed {a o : Image UInt8} (h : Shaped i o) {r n x : Nat} : Gives (Shaped i) (processColsMed P a o r n x) := by
  unfold processColsMed
  refine .bindAny fun _ => .bindAny fun _ => .bindAny fun _ => .bindAny fun _ => .bind (gives_initColsMed h) fun s hs =>
    .bind (Gives.loop hs fun k s hs => ?_) fun s hs => .ok hs
  exact .bindAny fun _ => .bindAny fun _ => .bindAny fun _ => .bindAny fun _ => .bindAny fun _ => gives_processRowMed hs
theorem gives_medianFilter {img : Image UInt8} (h : Shaped i img) {r : Nat} : Gives (Shaped i) (medianFilter F P img r) := by
  obtain ⟨h, rfl⟩ := h
  unfold medianFilter
  exact .bind (gives_blank h.infoWF) fun o ho => .step ho fun k s hs => gives_processColsMed hs
theorem gives_initColsMean {bs : BinSearch} {a o : Image UInt8} (h : Shaped i o) {hs : List (MeanHist F)} {r al n x : Nat} :
    Gives (fun s => Shaped i s.1) (initColsMean bs P a o hs r al n x) := by
  unfold initColsMean
  refine .bindAny fun _ => .bindAny fun _ => .bindAny fun _ => .bindAny fun _ => .bindAny fun _ => .bindAny fun _ => .bindAny fun _ =>
    .loop h fun k s hs => ?_
  exact .bindAny fun _ => .bind (gives_writeClamped hs) fun _ h => .ok h
theorem gives_processColsMean {bs : BinSearch} {a o : Image UInt8} (h : Shaped i o) {r al n x : Nat} :
    Gives (Shaped i) (processColsMean bs P F a o r al n x) := by
  unfold processColsMean
  refine .bindAny fun _ => .bind (gives_initColsMean h) fun s hs => .bind (Gives.loop hs fun k s hs => ?_) fun s hs => .ok hs
  refine .bindAny fun _ => .bindAny fun _ => .bindAny fun _ => .bindAny fun _ => .bindAny fun _ => .bind (q := Shaped i) ?_ fun _ h => .ok h
  exact .loop hs fun k s hs => .bindAny fun _ => gives_writeClamped hs
theorem gives_alphaTrimmedMeanFilter {bs : BinSearch} {img : Image UInt8} (h : Shaped i img) {r al : Nat} :
    Gives (Shaped i) (alphaTrimmedMeanFilter F bs P img r al) := by
  obtain ⟨h, rfl⟩ := h
  unfold alphaTrimmedMeanFilter
  refine .bindAny fun _ => .bindAny fun _ => .bindAny fun _ => .bindAny fun _ => .ite (fun _ => .invalid) fun _ => ?_
  exact .bind (gives_blank h.infoWF) fun o ho => .step ho fun k s hs => gives_processColsMean hs

/-! ### Transformations that keep the size -/
theorem gives_overlay {a b : Image T} (h : Shaped i a) {x y : Nat} : Gives (Shaped i) (overlay P a b x y) := by
  unfold overlay
  sh
theorem gives_superimpose {a b : Image F} (h : Shaped i a) {x y : Nat} {al : F} : Gives (Shaped i) (superimpose P a b x y al) := by
  unfold superimpose
  sh
theorem gives_translate {N : RNum T} {a : Image T} (h : Shaped i a) {x y : Nat} : Gives (Shaped i) (translate P N a x y) := by
  obtain ⟨h, rfl⟩ := h
  unfold translate
  refine .bind (gives_blank h.infoWF) fun o ho => ?_
  sh
theorem gives_reflect {N : RNum T} {a : Image T} (h : Shaped i a) {r : Refl} : Gives (Shaped i) (reflect P N a r) := by
  obtain ⟨h, rfl⟩ := h
  unfold reflect
  refine .bind (gives_blank h.infoWF) fun o ho => ?_
  cases r <;> sh
end Imgproc

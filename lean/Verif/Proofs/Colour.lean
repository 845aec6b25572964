import Verif.Proofs.Fill
/-! Maps over the colour part of every pixel, with and without an alpha channel, in one form. -/
namespace Imgproc
variable {T S : Type}

theorem ImageInfo.colour_append (i : ImageInfo) (p : List T) : i.colour p ++ i.alphaOf p = p := by
  unfold ImageInfo.colour ImageInfo.alphaOf
  cases i.alpha
  · simp
  · simp only [if_true]
    rcases List.eq_nil_or_concat p with rfl | ⟨q, a, rfl⟩
    · rfl
    · simp

theorem ImageInfo.colour_length (i : ImageInfo) {p : List T} (h : p.length = i.channels) :
    (i.colour p).length = i.colours := by
  unfold ImageInfo.colour ImageInfo.colours
  cases i.alpha <;> simp [h]

theorem ImageInfo.alphaOf_length (i : ImageInfo) {p : List T} (h : p.length = i.channels)
    (hc : i.alpha = true → 0 < i.channels) : (i.alphaOf p).length = if i.alpha then 1 else 0 := by
  unfold ImageInfo.alphaOf
  cases ha : i.alpha
  · simp
  · simp only [if_true]
    have := hc ha
    have hne : p ≠ [] := by intro h0; rw [h0] at h; simp at h; omega
    rw [List.getLast?_eq_some_getLast hne]; rfl

theorem ImageInfo.colour_map (i : ImageInfo) (f : T → S) (p : List T) :
    i.colour (p.map f) = (i.colour p).map f := by
  unfold ImageInfo.colour; cases i.alpha <;> simp

theorem ImageInfo.alphaOf_map (i : ImageInfo) (f : T → S) (p : List T) :
    i.alphaOf (p.map f) = (i.alphaOf p).map f := by
  unfold ImageInfo.alphaOf
  cases i.alpha
  · simp
  · simp only [if_true, List.getLast?_map]; cases p.getLast? <;> rfl

/-- colour and alpha part of a rebuilt pixel -/
theorem ImageInfo.colour_of_append (i : ImageInfo) {q a : List T}
    (ha : a.length = if i.alpha then 1 else 0) : i.colour (q ++ a) = q ∧ i.alphaOf (q ++ a) = a := by
  unfold ImageInfo.colour ImageInfo.alphaOf
  cases h : i.alpha
  · rw [h] at ha
    have : a = [] := List.length_eq_zero_iff.1 (by simpa using ha)
    simp [this]
  · rw [h] at ha
    obtain ⟨b, rfl⟩ := List.length_eq_one_iff.1 (by simpa using ha)
    simp

theorem onAlphaPixel_colour {i : ImageInfo} (ha : i.alpha = true) (f : List T → List S) (g : T → S) (p : List T) :
    onAlphaPixel f g p = f (i.colour p) ++ (i.alphaOf p).map g := by
  unfold onAlphaPixel ImageInfo.colour ImageInfo.alphaOf
  rw [ha]; simp only [if_true]; cases p.getLast? <;> rfl

theorem onAlpha_colour {i : ImageInfo} (ha : i.alpha = true) (f g : T → S) (p : List T) :
    onAlpha f g p = (i.colour p).map f ++ (i.alphaOf p).map g := by
  unfold onAlpha ImageInfo.colour ImageInfo.alphaOf
  rw [ha]; simp only [if_true]; cases p.getLast? <;> rfl

variable {img : Image T}

theorem chunk_eq_px {i : Nat} (hi : i < img.info.width * img.info.height) :
    ∃ x y, x < img.info.width ∧ y < img.info.height ∧ i = y * img.info.width + x ∧
      chunk img.data img.info.channels i = img.px x y := by
  have hw : 0 < img.info.width := by
    rcases Nat.eq_zero_or_pos img.info.width with h | h
    · rw [h] at hi; simp at hi
    · exact h
  refine ⟨i % img.info.width, i / img.info.width, Nat.mod_lt _ hw, Nat.div_lt_of_lt_mul hi, ?_, ?_⟩
  · rw [Nat.mul_comm]; exact (Nat.div_add_mod i _).symm
  · rw [Image.px_eq_chunk]; congr 1
    rw [Nat.mul_comm]; exact (Nat.div_add_mod i _).symm

/-- `map_pixels_if_alpha` with a closure that pushes `f' (colour part)` -/
theorem Image.mapPixelsIfAlpha_colour (P : Profile) (h : img.WF)
    (hpos : 0 < img.info.width ∧ 0 < img.info.height) (hc : img.info.alpha = true → 0 < img.info.channels)
    {k : Nat} (hk : k + (if img.info.alpha then 1 else 0) < 256)
    (hfull : img.info.width * img.info.height * (k + (if img.info.alpha then 1 else 0)) < U32SIZE)
    {f : List T → List S → Res (List S)} {f' : List T → List S} {g : T → Res S} {g' : T → S}
    (hf : ∀ x y, x < img.info.width → y < img.info.height →
      f (img.info.colour (img.px x y)) [] = .ok (f' (img.info.colour (img.px x y))) ∧
      (f' (img.info.colour (img.px x y))).length = k)
    (hg : ∀ v ∈ img.data, g v = .ok (g' v)) :
    ∃ out, img.mapPixelsIfAlpha P f g = .ok out ∧
      out.Shows { img.info with channels := k + (if img.info.alpha then 1 else 0) }
        (fun x y => f' (img.info.colour (img.px x y)) ++ (img.info.alphaOf (img.px x y)).map g') := by
  have hp : 0 < img.info.width * img.info.height := Nat.mul_pos hpos.1 hpos.2
  cases ha : img.info.alpha with
  | true =>
    simp only [ha, if_true] at hk hfull
    have hf1 : ∀ i < img.info.width * img.info.height,
        f (chunk img.data img.info.channels i).dropLast [] =
          .ok (f' (chunk img.data img.info.channels i).dropLast) ∧
        (f' (chunk img.data img.info.channels i).dropLast).length = k := by
      intro i hi
      obtain ⟨x, y, hx, hy, _, e⟩ := chunk_eq_px hi
      rw [e]
      have := hf x y hx hy
      simpa [ImageInfo.colour, ha] using this
    obtain ⟨out, e, ho⟩ := Image.mapPixels_alpha_eq P h ha hp (hc ha) hk hfull
      (fun i hi => (hf1 i hi).1) (fun i hi => (hf1 i hi).2) hg
    refine ⟨out, e, ?_⟩
    simp only [if_true]
    exact ho.congr (fun x y _ _ => onAlphaPixel_colour ha _ _ _)
  | false =>
    simp only [ha, Bool.false_eq_true, if_false, Nat.add_zero] at hk hfull
    have hf1 : ∀ i < img.info.width * img.info.height,
        f (chunk img.data img.info.channels i) [] =
          .ok (f' (chunk img.data img.info.channels i)) ∧
        (f' (chunk img.data img.info.channels i)).length = k := by
      intro i hi
      obtain ⟨x, y, hx, hy, _, e⟩ := chunk_eq_px hi
      rw [e]
      have := hf x y hx hy
      simpa [ImageInfo.colour, ha] using this
    obtain ⟨out, e, ho⟩ := Image.mapPixels_eq P h hp hk hfull
      (fun i hi => (hf1 i hi).1) (fun i hi => (hf1 i hi).2)
    refine ⟨out, ?_, ?_⟩
    · unfold Image.mapPixelsIfAlpha; rw [ha]; simpa using e
    · simp only [Bool.false_eq_true, if_false, Nat.add_zero]
      exact ho.congr (fun x y _ _ => by simp [ImageInfo.colour, ImageInfo.alphaOf, ha])

/-- `map_channels_if_alpha` in the same form -/
theorem Image.mapChannelsIfAlpha_colour (P : Profile) (h : img.WF)
    (hc : img.info.alpha = true → 0 < img.info.channels)
    {f g : T → Res S} {f' g' : T → S}
    (hf : ∀ v ∈ img.data, f v = .ok (f' v)) (hg : ∀ v ∈ img.data, g v = .ok (g' v)) :
    ∃ out, img.mapChannelsIfAlpha P f g = .ok out ∧
      out.Shows img.info (fun x y => (img.info.colour (img.px x y)).map f' ++
        (img.info.alphaOf (img.px x y)).map g') := by
  cases ha : img.info.alpha with
  | true =>
    obtain ⟨out, e, ho⟩ := Image.mapChannelsIfAlpha_eq P h ha (hc ha) hf hg
    exact ⟨out, e, ho.congr (fun x y _ _ => onAlpha_colour ha _ _ _)⟩
  | false =>
    refine ⟨_, ?_, (Image.mapChannels_shows h f').congr
      (fun x y _ _ => by simp [ImageInfo.colour, ImageInfo.alphaOf, ha])⟩
    unfold Image.mapChannelsIfAlpha; rw [ha]
    simpa using Image.mapChannels_eq P h hf

theorem Image.px_subset {x y : Nat} {v : T} (hv : v ∈ img.px x y) : v ∈ img.data := by
  rw [Image.px_eq_chunk] at hv; exact chunk_subset hv

theorem Image.pos_of_lt {x y : Nat} (hx : x < img.info.width) (hy : y < img.info.height) :
    0 < img.info.width ∧ 0 < img.info.height := ⟨by omega, by omega⟩

end Imgproc

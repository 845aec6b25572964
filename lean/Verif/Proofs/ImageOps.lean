import Verif.Proofs.Image
/-! Equations for the map/apply functions of `Image`. -/
namespace Imgproc
variable {T S : Type} {img : Image T}

theorem usizeSub_len {P : Profile} {p : List T} (h : p ≠ []) :
    usizeSub P p.length 1 = .ok (p.length - 1) := by
  apply usizeSub_ok
  exact List.length_pos_iff.2 h

theorem Pixel.alpha_eq (P : Profile) {p : List T} (h : p ≠ []) :
    Pixel.alpha P p = .ok (p.getLast h) := by
  unfold Pixel.alpha
  have hl := List.length_pos_iff.2 h
  rw [usizeSub_len h, ok_bind, idx_ok (by omega)]
  rw [List.getLast_eq_getElem]

theorem Pixel.channelsWithoutAlpha_eq (P : Profile) {p : List T} (h : p ≠ []) :
    Pixel.channelsWithoutAlpha P p = .ok p.dropLast := by
  unfold Pixel.channelsWithoutAlpha
  have hl := List.length_pos_iff.2 h
  rw [usizeSub_len h, ok_bind, slice_ok (by omega) (by omega)]
  simp [List.dropLast_eq_take]

theorem Pixel.alpha_nil (P : Profile) : Res.Panics (Pixel.alpha P ([] : List T)) := by
  cases P
  · exact ⟨.overflow, rfl⟩
  · exact ⟨.index, by simp [Pixel.alpha, usizeSub, idx, panic]⟩

theorem Pixel.channelsWithoutAlpha_nil (P : Profile) :
    Res.Panics (Pixel.channelsWithoutAlpha P ([] : List T)) := by
  cases P
  · exact ⟨.overflow, rfl⟩
  · exact ⟨.index, by simp [Pixel.channelsWithoutAlpha, usizeSub, slice, panic]⟩

theorem onAlpha_eq (f g : T → S) {p : List T} (h : p ≠ []) :
    onAlpha f g p = p.dropLast.map f ++ [g (p.getLast h)] := by
  simp [onAlpha, List.getLast?_eq_some_getLast h]

theorem onAlphaPixel_eq (f : List T → List S) (g : T → S) {p : List T} (h : p ≠ []) :
    onAlphaPixel f g p = f p.dropLast ++ [g (p.getLast h)] := by
  simp [onAlphaPixel, List.getLast?_eq_some_getLast h]

theorem onAlpha_length (f g : T → S) (p : List T) : (onAlpha f g p).length = p.length := by
  by_cases h : p = []
  · subst h; rfl
  · have := List.length_pos_iff.2 h
    simp [onAlpha_eq f g h]; omega

theorem Pixel.mapAll_eq {p : List T} {f : T → Res S} {f' : T → S}
    (hf : ∀ v ∈ p, f v = .ok (f' v)) : Pixel.mapAll p f = .ok (p.map f') :=
  forList_map p f f' hf

theorem Pixel.mapAlpha_eq (P : Profile) {p : List T} {f g : T → Res S} {f' g' : T → S}
    (h : p ≠ []) (hf : ∀ v ∈ p, f v = .ok (f' v)) (hg : ∀ v ∈ p, g v = .ok (g' v)) :
    Pixel.mapAlpha P p f g = .ok (onAlpha f' g' p) := by
  unfold Pixel.mapAlpha
  rw [Pixel.channelsWithoutAlpha_eq P h, ok_bind,
    forList_map _ f f' (fun a ha => hf a (List.dropLast_subset _ ha)), ok_bind,
    Pixel.alpha_eq P h, ok_bind, hg _ (List.getLast_mem h), ok_bind, onAlpha_eq _ _ h]

/-- in-place element-wise update of a prefix -/
theorem forRange_applyList {p : List T} {f : T → Res T} {f' : T → T} {n : Nat}
    (hn : n ≤ p.length) (hf : ∀ v ∈ p, f v = .ok (f' v)) :
    (forRange 0 n p fun i p => do
      let c ← idx p i
      let v ← f c
      setIdx p i v) = .ok ((p.take n).map f' ++ p.drop n) := by
  obtain ⟨s, e, h⟩ := forRange_rule (a := 0) (b := n) (s := p)
    (f := fun i p => do
      let c ← idx p i
      let v ← f c
      setIdx p i v)
    (fun k s => s = (p.take k).map f' ++ p.drop k) (Nat.zero_le _) (by simp)
    (by
      rintro k s - hk rfl
      have hkl : k < p.length := by omega
      have e1 : ((p.take k).map f').length = k := by simp; omega
      refine ⟨(p.take (k + 1)).map f' ++ p.drop (k + 1), ?_, rfl⟩
      have hget : ((p.take k).map f' ++ p.drop k)[k]? = some p[k] := by
        rw [List.getElem?_append_right (by omega), e1, Nat.sub_self]
        rw [List.getElem?_drop, Nat.add_zero, List.getElem?_eq_getElem hkl]
      simp only [idx_some hget, ok_bind, hf _ (List.getElem_mem hkl)]
      rw [setIdx_ok (by simp; omega)]
      congr 1
      rw [List.set_append_right _ _ (by omega), e1, Nat.sub_self,
        List.drop_eq_getElem_cons hkl, List.set_cons_zero, List.take_succ_eq_append_getElem hkl]
      simp only [List.map_append, List.map_cons, List.map_nil, List.append_assoc, List.cons_append, List.nil_append])
  rw [e, h]

theorem Pixel.apply_eq {p : List T} {f : T → Res T} {f' : T → T}
    (hf : ∀ v ∈ p, f v = .ok (f' v)) : Pixel.apply p f = .ok (p.map f') := by
  unfold Pixel.apply
  rw [forRange_applyList (Nat.le_refl _) hf]; simp

theorem Pixel.applyAlpha_eq (P : Profile) {p : List T} {f g : T → Res T} {f' g' : T → T}
    (h : p ≠ []) (hf : ∀ v ∈ p, f v = .ok (f' v)) (hg : ∀ v ∈ p, g v = .ok (g' v)) :
    Pixel.applyAlpha P p f g = .ok (onAlpha f' g' p) := by
  have hl := List.length_pos_iff.2 h
  unfold Pixel.applyAlpha
  rw [usizeSub_len h, ok_bind, forRange_applyList (by omega) hf, ok_bind]
  have hlast : p.drop (p.length - 1) = [p.getLast h] := by
    rw [List.drop_eq_getElem_cons (by omega), List.getLast_eq_getElem, List.drop_eq_nil_of_le (by omega)]
  rw [hlast]
  have hne : (List.map f' (p.take (p.length - 1)) ++ [p.getLast h]) ≠ [] := by simp
  rw [Pixel.alpha_eq P hne, ok_bind, List.getLast_concat, hg _ (List.getLast_mem h), ok_bind,
    usizeSub_len hne, ok_bind, setIdx_ok (by simp)]
  rw [onAlpha_eq _ _ h, List.dropLast_eq_take]
  congr 1
  rw [List.set_append_right _ _ (by simp)]
  simp

theorem Pixel.isBlack_eq (N : RNum T) (p : List T) :
    Pixel.isBlack N p = p.all (fun c => N.eq c (N.ofU8 0)) := by
  induction p with
  | nil => rfl
  | cons a p ih =>
    simp only [Pixel.isBlack, List.all_cons, ih]
    cases N.eq a (N.ofU8 0) <;> simp

/-! maps over images -/

theorem Image.mapChannels_eq (P : Profile) (h : img.WF) {f : T → Res S} {f' : T → S}
    (hf : ∀ v ∈ img.data, f v = .ok (f' v)) :
    img.mapChannels P f = .ok { info := img.info, data := img.data.map f' } := by
  unfold Image.mapChannels
  rw [ImageInfo.fullSize_eq P h.infoWF, ok_bind]
  have : ∀ i acc, i < img.info.width * img.info.height * img.info.channels →
      (do let c ← idx img.data i
          let v ← f c
          (.ok (acc ++ [v]) : Res (List S))) = .ok (acc ++ ((img.data[i]?).map f').toList) := by
    intro i acc hi
    have hi' : i < img.data.length := by rw [h.length]; exact hi
    rw [idx_ok hi', ok_bind, hf _ (List.getElem_mem hi'), ok_bind, List.getElem?_eq_getElem hi']
    rfl
  rw [forRange_collect0 _ _ this, ok_bind]
  congr 2
  rw [← h.length]
  apply List.ext_getElem?
  intro k
  have hlen : ∀ i < img.data.length, (((img.data[i]?).map f').toList).length = 1 := by
    intro i hi; simp [List.getElem?_eq_getElem hi]
  by_cases hk : k < img.data.length
  · have h1 := chunk_flatMap_range _ 1 _ hlen k hk
    have h2 := congrArg (fun l => l[0]?) h1
    simp only [chunk_getElem? _ _ _ _ (Nat.zero_lt_one), Nat.mul_one, Nat.add_zero] at h2
    rw [h2]
    simp [List.getElem?_eq_getElem hk]
  · rw [List.getElem?_eq_none, List.getElem?_eq_none]
    · simpa using hk
    · rw [flatMap_range_length _ 1 _ hlen]; omega

theorem chunk_map (l : List T) (f : T → S) (c i : Nat) : chunk (l.map f) c i = (chunk l c i).map f := by
  simp [chunk, List.map_drop, List.map_take]

theorem Image.mapChannels_WF (h : img.WF) (f : T → S) :
    Image.WF ({ info := img.info, data := img.data.map f } : Image S) :=
  ⟨h.width, h.height, h.channels, h.size, h.full, by simp [h.length]⟩

theorem Image.mapChannels_shows (h : img.WF) (f : T → S) :
    ({ info := img.info, data := img.data.map f } : Image S).Shows img.info
      (fun x y => (img.px x y).map f) :=
  Image.shows_iff.2 ⟨Image.mapChannels_WF h f, rfl, fun x y _ _ => by
    rw [Image.px_eq_chunk]; exact chunk_map _ _ _ _⟩

theorem chunk_subset {l : List T} {c i : Nat} {v : T} (h : v ∈ chunk l c i) : v ∈ l :=
  List.mem_of_mem_drop (List.mem_of_mem_take h)

/-- an image whose buffer is the concatenation of `n` blocks -/
theorem Image.of_flatMap {info : ImageInfo} (hi : info.WF) (B : Nat → List S)
    (hB : ∀ i < info.width * info.height, (B i).length = info.channels) :
    ({ info := info, data := (List.range (info.width * info.height)).flatMap B } : Image S).Shows
      info (fun x y => B (y * info.width + x)) := by
  refine Image.shows_iff.2 ⟨⟨hi.width, hi.height, hi.channels, hi.size, hi.full,
    flatMap_range_length B _ _ hB⟩, rfl, ?_⟩
  intro x y hx hy
  exact chunk_flatMap_range B _ _ hB _ (row_lt hx hy)

theorem chunk_ne_nil {l : List T} {c i n : Nat} (hl : l.length = n * c) (hi : i < n) (hc : 0 < c) :
    chunk l c i ≠ [] := by
  intro h0
  have := chunk_length hl hi
  rw [h0] at this; simp at this; omega

theorem Image.mapChannelsIfAlpha_eq (P : Profile) (h : img.WF) (ha : img.info.alpha = true)
    (hc : 0 < img.info.channels) {f g : T → Res S} {f' g' : T → S}
    (hf : ∀ v ∈ img.data, f v = .ok (f' v)) (hg : ∀ v ∈ img.data, g v = .ok (g' v)) :
    ∃ out, img.mapChannelsIfAlpha P f g = .ok out ∧
      out.Shows img.info (fun x y => onAlpha f' g' (img.px x y)) := by
  unfold Image.mapChannelsIfAlpha
  rw [ha]
  simp only [Bool.not_true, Bool.false_eq_true, if_false]
  rw [ImageInfo.fullSize_eq P h.infoWF, ok_bind, ImageInfo.size_eq P h.infoWF, ok_bind]
  have : ∀ i acc, i < img.info.width * img.info.height →
      (do let p ← img.at' P i
          let q ← Pixel.mapAlpha P p f g
          (.ok (acc ++ q) : Res (List S))) =
        .ok (acc ++ onAlpha f' g' (chunk img.data img.info.channels i)) := by
    intro i acc hi
    rw [Image.at_eq P h hi, ok_bind, Pixel.mapAlpha_eq P (chunk_ne_nil h.length hi hc)
      (fun v hv => hf v (chunk_subset hv)) (fun v hv => hg v (chunk_subset hv)), ok_bind]
  rw [forRange_collect0 _ _ this, ok_bind]
  exact ⟨_, rfl, Image.of_flatMap h.infoWF _ (fun i hi => by
    rw [onAlpha_length, chunk_length h.length hi])⟩

theorem Image.mapPixels_eq (P : Profile) (h : img.WF) (hpos : 0 < img.info.width * img.info.height)
    {k : Nat} (hk : k < 256) (hfull : img.info.width * img.info.height * k < U32SIZE)
    {f : List T → List S → Res (List S)} {f' : List T → List S}
    (hf : ∀ i < img.info.width * img.info.height,
      f (chunk img.data img.info.channels i) [] = .ok (f' (chunk img.data img.info.channels i)))
    (hlen : ∀ i < img.info.width * img.info.height,
      (f' (chunk img.data img.info.channels i)).length = k) :
    ∃ out, img.mapPixels P f = .ok out ∧
      out.Shows { img.info with channels := k } (fun x y => f' (img.px x y)) := by
  unfold Image.mapPixels
  rw [ImageInfo.size_eq P h.infoWF, ok_bind]
  have : ∀ i acc, i < img.info.width * img.info.height →
      (do let p ← img.at' P i
          let out ← f p []
          (.ok (acc ++ out) : Res (List S))) =
        .ok (acc ++ f' (chunk img.data img.info.channels i)) := by
    intro i acc hi
    rw [Image.at_eq P h hi, ok_bind, hf i hi, ok_bind]
  rw [forRange_collect0 _ _ this, ok_bind, ok_bind]
  rw [flatMap_range_length _ _ _ hlen, usizeToU32, Nat.mod_eq_of_lt hfull, natDiv_ok (by omega),
    ok_bind, Nat.mul_div_cancel_left _ hpos, natToU8, Nat.mod_eq_of_lt hk]
  refine ⟨_, rfl, ?_⟩
  exact Image.of_flatMap (info := { img.info with channels := k })
    ⟨h.width, h.height, hk, h.size, hfull⟩ _ hlen

theorem Image.mapPixels_alpha_eq (P : Profile) (h : img.WF) (ha : img.info.alpha = true)
    (hpos : 0 < img.info.width * img.info.height) (hc : 0 < img.info.channels)
    {k : Nat} (hk : k + 1 < 256) (hfull : img.info.width * img.info.height * (k + 1) < U32SIZE)
    {f : List T → List S → Res (List S)} {f' : List T → List S} {g : T → Res S} {g' : T → S}
    (hf : ∀ i < img.info.width * img.info.height,
      f (chunk img.data img.info.channels i).dropLast [] =
        .ok (f' (chunk img.data img.info.channels i).dropLast))
    (hlen : ∀ i < img.info.width * img.info.height,
      (f' (chunk img.data img.info.channels i).dropLast).length = k)
    (hg : ∀ v ∈ img.data, g v = .ok (g' v)) :
    ∃ out, img.mapPixelsIfAlpha P f g = .ok out ∧
      out.Shows { img.info with channels := k + 1 } (fun x y => onAlphaPixel f' g' (img.px x y)) := by
  unfold Image.mapPixelsIfAlpha
  rw [ha]
  simp only [Bool.not_true, Bool.false_eq_true, if_false]
  rw [ImageInfo.size_eq P h.infoWF, ok_bind]
  have : ∀ i acc, i < img.info.width * img.info.height →
      (do let p ← img.at' P i
          let cs ← Pixel.channelsWithoutAlpha P p
          let out ← f cs []
          let p' ← img.at' P i
          let a ← Pixel.alpha P p'
          let ga ← g a
          (.ok (acc ++ (out ++ [ga])) : Res (List S))) =
        .ok (acc ++ onAlphaPixel f' g' (chunk img.data img.info.channels i)) := by
    intro i acc hi
    have hne := chunk_ne_nil h.length hi hc
    rw [Image.at_eq P h hi, ok_bind, Pixel.channelsWithoutAlpha_eq P hne, ok_bind, hf i hi, ok_bind,
      ok_bind, Pixel.alpha_eq P hne, ok_bind, hg _ (chunk_subset (List.getLast_mem hne)), ok_bind,
      onAlphaPixel_eq _ _ hne]
  have hlen' : ∀ i < img.info.width * img.info.height,
      (onAlphaPixel f' g' (chunk img.data img.info.channels i)).length = k + 1 := by
    intro i hi
    rw [onAlphaPixel_eq _ _ (chunk_ne_nil h.length hi hc)]; simp [hlen i hi]
  rw [forRange_collect0 _ _ this, ok_bind, ok_bind]
  rw [flatMap_range_length _ _ _ hlen', usizeToU32, Nat.mod_eq_of_lt hfull, natDiv_ok (by omega),
    ok_bind, Nat.mul_div_cancel_left _ hpos, natToU8, Nat.mod_eq_of_lt hk]
  refine ⟨_, rfl, ?_⟩
  exact Image.of_flatMap (info := { img.info with channels := k + 1 })
    ⟨h.width, h.height, hk, h.size, hfull⟩ _ hlen'

/-! in-place loops -/

/-- A loop that rewrites block `i` in iteration `i` from its old value. -/
theorem Image.applyLoop (h : img.WF) (step : Nat → Image T → Res (Image T)) (F : Nat → List T)
    (hlen : ∀ i < img.info.width * img.info.height, (F i).length = img.info.channels)
    (hstep : ∀ i, i < img.info.width * img.info.height → ∀ im : Image T, im.WF → im.info = img.info →
      chunk im.data img.info.channels i = chunk img.data img.info.channels i →
      step i im = .ok (im.write i (F i))) :
    ∃ out, forRange 0 (img.info.width * img.info.height) img step = .ok out ∧
      out.Shows img.info (fun x y => F (y * img.info.width + x)) := by
  obtain ⟨s, e, hw, hi, hd⟩ := forRange_rule (a := 0) (b := img.info.width * img.info.height) (s := img)
    (f := step)
    (fun k s => s.WF ∧ s.info = img.info ∧ ∀ i < img.info.width * img.info.height,
      chunk s.data img.info.channels i =
        if i < k then F i else chunk img.data img.info.channels i) (Nat.zero_le _)
    ⟨h, rfl, fun i hi => by simp⟩
    (by
      rintro k s - hk ⟨hw, hi, hd⟩
      refine ⟨_, hstep k hk s hw hi (by rw [hd k hk]; simp), ?_, ?_, ?_⟩
      · exact Image.write_WF hw (by rw [hi]; exact hk) (by rw [hi]; exact hlen k hk)
      · rw [Image.write_info, hi]
      · intro i hi'
        rw [← hi] at hi' hk ⊢
        rw [Image.chunk_write hw hk hi' (by rw [hi]; exact hlen k (by rw [hi] at hk; exact hk)), hi]
        by_cases hik : i = k
        · subst hik; simp
        · rw [if_neg hik, hd i (by rw [hi] at hi'; exact hi')]
          by_cases hlt : i < k
          · rw [if_pos hlt, if_pos (by omega)]
          · rw [if_neg hlt, if_neg (by omega)])
  refine ⟨s, e, Image.shows_iff.2 ⟨hw, hi, ?_⟩⟩
  intro x y hx hy
  rw [Image.px_eq_chunk, hi, hd _ (row_lt hx hy), if_pos (row_lt hx hy)]

theorem Image.applyPixels_eq (P : Profile) (h : img.WF)
    {f : List T → List T → Res (List T)} {f' : List T → List T}
    (hf : ∀ i < img.info.width * img.info.height,
      f (chunk img.data img.info.channels i) [] = .ok (f' (chunk img.data img.info.channels i)))
    (hlen : ∀ i < img.info.width * img.info.height,
      (f' (chunk img.data img.info.channels i)).length = img.info.channels) :
    ∃ out, img.applyPixels P f = .ok out ∧ out.Shows img.info (fun x y => f' (img.px x y)) := by
  unfold Image.applyPixels
  rw [ImageInfo.size_eq P h.infoWF, ok_bind]
  refine Image.applyLoop h _ (fun i => f' (chunk img.data img.info.channels i)) hlen ?_
  intro i hi im hw hinfo hch
  rw [Image.at_eq P hw (by rw [hinfo]; exact hi), ok_bind, hinfo, hch, hf i hi, ok_bind,
    Image.setPixelIndexed_eq P hw (by rw [hinfo]; exact hi) (by rw [hinfo]; exact hlen i hi)]

theorem Image.applyPixels_alpha_eq (P : Profile) (h : img.WF) (ha : img.info.alpha = true)
    (hc : 0 < img.info.channels)
    {f : List T → List T → Res (List T)} {f' : List T → List T} {g : T → Res T} {g' : T → T}
    (hf : ∀ i < img.info.width * img.info.height,
      f (chunk img.data img.info.channels i).dropLast [] =
        .ok (f' (chunk img.data img.info.channels i).dropLast))
    (hlen : ∀ i < img.info.width * img.info.height,
      (f' (chunk img.data img.info.channels i).dropLast).length + 1 = img.info.channels)
    (hg : ∀ v ∈ img.data, g v = .ok (g' v)) :
    ∃ out, img.applyPixelsIfAlpha P f g = .ok out ∧
      out.Shows img.info (fun x y => onAlphaPixel f' g' (img.px x y)) := by
  unfold Image.applyPixelsIfAlpha
  rw [ha]
  simp only [Bool.not_true, Bool.false_eq_true, if_false]
  rw [ImageInfo.size_eq P h.infoWF, ok_bind]
  have hlen' : ∀ i < img.info.width * img.info.height,
      (onAlphaPixel f' g' (chunk img.data img.info.channels i)).length = img.info.channels := by
    intro i hi
    rw [onAlphaPixel_eq _ _ (chunk_ne_nil h.length hi hc)]; simp [hlen i hi]
  refine Image.applyLoop h _ (fun i => onAlphaPixel f' g' (chunk img.data img.info.channels i)) hlen' ?_
  intro i hi im hw hinfo hch
  have hne := chunk_ne_nil h.length hi hc
  rw [Image.at_eq P hw (by rw [hinfo]; exact hi), ok_bind, hinfo, hch,
    Pixel.channelsWithoutAlpha_eq P hne, ok_bind, hf i hi, ok_bind, ok_bind, Pixel.alpha_eq P hne,
    ok_bind, hg _ (chunk_subset (List.getLast_mem hne)), ok_bind, ← onAlphaPixel_eq _ _ hne,
    Image.setPixelIndexed_eq P hw (by rw [hinfo]; exact hi) (by rw [hinfo]; exact hlen' i hi)]

theorem Image.applyChannels_eq (P : Profile) (h : img.WF) {f : T → Res T} {f' : T → T}
    (hf : ∀ v ∈ img.data, f v = .ok (f' v)) :
    img.applyChannels P f = .ok { info := img.info, data := img.data.map f' } := by
  unfold Image.applyChannels
  rw [ImageInfo.fullSize_eq P h.infoWF, ok_bind, ← h.length]
  obtain ⟨s, e, h1, h2⟩ := forRange_rule (a := 0) (b := img.data.length) (s := img)
    (f := fun i img => do
      let c ← idx img.data i
      let v ← f c
      let d ← setIdx img.data i v
      .ok { img with data := d })
    (fun k s => s.info = img.info ∧ s.data = (img.data.take k).map f' ++ img.data.drop k)
    (Nat.zero_le _) (by simp)
    (by
      rintro k s - hk ⟨hi, hd⟩
      have e1 : ((img.data.take k).map f').length = k := by simp; omega
      have hget : s.data[k]? = some img.data[k] := by
        rw [hd, List.getElem?_append_right (by omega), e1, Nat.sub_self,
          List.getElem?_drop, Nat.add_zero, List.getElem?_eq_getElem hk]
      refine ⟨{ s with data := s.data.set k (f' img.data[k]) }, ?_, hi, ?_⟩
      · rw [idx_some hget, ok_bind, hf _ (List.getElem_mem hk), ok_bind,
          setIdx_ok (by rw [hd]; simp; omega), ok_bind]
      · show s.data.set _ _ = _
        rw [hd, List.set_append_right _ _ (by omega), e1, Nat.sub_self,
          List.drop_eq_getElem_cons hk, List.set_cons_zero, List.take_succ_eq_append_getElem hk]
        simp only [List.map_append, List.map_cons, List.map_nil, List.append_assoc, List.cons_append,
          List.nil_append])
  rw [e]
  cases s
  simp_all

theorem Image.applyChannels_alpha_eq (P : Profile) (h : img.WF) (ha : img.info.alpha = true)
    (hc : 0 < img.info.channels) {f g : T → Res T} {f' g' : T → T}
    (hf : ∀ v ∈ img.data, f v = .ok (f' v)) (hg : ∀ v ∈ img.data, g v = .ok (g' v)) :
    ∃ out, img.applyChannelsIfAlpha P f g = .ok out ∧
      out.Shows img.info (fun x y => onAlpha f' g' (img.px x y)) := by
  unfold Image.applyChannelsIfAlpha
  rw [ha]
  simp only [Bool.not_true, Bool.false_eq_true, if_false]
  rw [ImageInfo.size_eq P h.infoWF, ok_bind]
  refine Image.applyLoop h _ (fun i => onAlpha f' g' (chunk img.data img.info.channels i)) ?_ ?_
  · intro i hi; rw [onAlpha_length, chunk_length h.length hi]
  intro i hi im hw hinfo hch
  have hne := chunk_ne_nil h.length hi hc
  have h1 : (i + 1) * im.info.channels ≤ im.info.width * im.info.height * im.info.channels :=
    Nat.mul_le_mul_right _ (by rw [hinfo]; exact hi)
  rw [Nat.succ_mul] at h1
  have hfull := hw.full
  have hl := hw.length
  have : im.atMut P i = .ok (chunk im.data im.info.channels i,
      fun p => im.write i p) := by
    unfold Image.atMut
    rw [usizeMul_ok (by omega), ok_bind, usizeAdd_ok (by omega), ok_bind,
      slice_ok (by omega) (by omega), ok_bind]
    simp [chunk, Image.write]
  rw [this, ok_bind]
  simp only
  rw [hinfo, hch, Pixel.applyAlpha_eq P hne (fun v hv => hf v (chunk_subset hv))
    (fun v hv => hg v (chunk_subset hv)), ok_bind]

end Imgproc

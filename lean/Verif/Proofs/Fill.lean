import Verif.Proofs.ImageOps
/-! Nested loops that write one pixel per coordinate of a rectangle. -/
namespace Imgproc
variable {T : Type}

/-- the coordinates already written when a row-major fill of `[x0,x1) × [y0,y1)` reaches `(i, j)` -/
def FillDone (x0 x1 y0 i j x y : Nat) : Prop :=
  (y0 ≤ y ∧ y < j ∧ x0 ≤ x ∧ x < x1) ∨ (y = j ∧ x0 ≤ x ∧ x < i)

instance (x0 x1 y0 i j x y : Nat) : Decidable (FillDone x0 x1 y0 i j x y) := by
  unfold FillDone; infer_instance

theorem Image.fillRect {out0 : Image T} (h : out0.WF) (x0 x1 y0 y1 : Nat)
    (hx : x1 ≤ out0.info.width) (hy : y1 ≤ out0.info.height) (G : Nat → Nat → List T)
    (hlen : ∀ x y, x0 ≤ x → x < x1 → y0 ≤ y → y < y1 → (G x y).length = out0.info.channels)
    (step : Nat → Nat → Image T → Res (Image T))
    (hstep : ∀ i j (out : Image T), x0 ≤ i → i < x1 → y0 ≤ j → j < y1 → out.WF →
      out.info = out0.info →
      (∀ x y, x < out0.info.width → y < out0.info.height →
        out.px x y = if FillDone x0 x1 y0 i j x y then G x y else out0.px x y) →
      step j i out = .ok (out.write (j * out0.info.width + i) (G i j))) :
    ∃ out, (forRange y0 y1 out0 fun j o => forRange x0 x1 o fun i o => step j i o) = .ok out ∧
      out.Shows out0.info (fun x y =>
        if x0 ≤ x ∧ x < x1 ∧ y0 ≤ y ∧ y < y1 then G x y else out0.px x y) := by
  by_cases hyy : y1 ≤ y0
  · rw [forRange_empty hyy]
    refine ⟨out0, rfl, Image.shows_iff.2 ⟨h, rfl, fun x y _ _ => ?_⟩⟩
    rw [if_neg (by omega)]
  by_cases hxx : x1 ≤ x0
  · have : (forRange y0 y1 out0 fun j o => forRange x0 x1 o fun i o => step j i o) = .ok out0 := by
      obtain ⟨s, e, hs⟩ := forRange_rule (a := y0) (b := y1) (s := out0)
        (f := fun j o => forRange x0 x1 o fun i o => step j i o) (fun _ s => s = out0) (by omega) rfl
        (by rintro k s _ _ rfl; exact ⟨_, forRange_empty hxx _ _, rfl⟩)
      rw [e, hs]
    rw [this]
    refine ⟨out0, rfl, Image.shows_iff.2 ⟨h, rfl, fun x y _ _ => ?_⟩⟩
    rw [if_neg (by omega)]
  obtain ⟨out, e, hw, hi, hp⟩ := forRange_rule (a := y0) (b := y1) (s := out0)
    (f := fun j o => forRange x0 x1 o fun i o => step j i o)
    (fun j (s : Image T) => s.WF ∧ s.info = out0.info ∧ ∀ x y, x < out0.info.width → y < out0.info.height →
      s.px x y = if FillDone x0 x1 y0 x0 j x y then G x y else out0.px x y) (by omega)
    ⟨h, rfl, fun x y _ _ => by rw [if_neg (by unfold FillDone; omega)]⟩
    (by
      rintro j s hj1 hj2 ⟨sw, si, sp⟩
      obtain ⟨o, e, ow, oi, op⟩ := forRange_rule (a := x0) (b := x1) (s := s)
        (f := fun i o => step j i o)
        (fun i (s : Image T) => s.WF ∧ s.info = out0.info ∧ ∀ x y, x < out0.info.width → y < out0.info.height →
          s.px x y = if FillDone x0 x1 y0 i j x y then G x y else out0.px x y) (by omega)
        ⟨sw, si, sp⟩
        (by
          rintro i s hi1 hi2 ⟨sw, si, sp⟩
          have hl := hlen i j hi1 hi2 hj1 hj2
          refine ⟨_, hstep i j s hi1 hi2 hj1 hj2 sw si sp, ?_, si, ?_⟩
          · exact Image.write_WF sw (by rw [si]; exact row_lt (by omega) (by omega)) (by rw [si]; exact hl)
          · intro x y hxw hyh
            have := Image.px_write (img := s) sw (x := i) (y := j) (x' := x) (y' := y) (p := G i j)
              (by rw [si]; omega) (by rw [si]; omega) (by rw [si]; omega) (by rw [si]; omega)
              (by rw [si]; exact hl)
            rw [si] at this
            rw [this, sp x y hxw hyh]
            by_cases hxy : x = i ∧ y = j
            · rw [if_pos hxy, if_pos (by unfold FillDone; omega), hxy.1, hxy.2]
            · rw [if_neg hxy]
              have : FillDone x0 x1 y0 (i + 1) j x y ↔ FillDone x0 x1 y0 i j x y := by
                unfold FillDone; omega
              simp only [this])
      refine ⟨o, e, ow, oi, ?_⟩
      intro x y hxw hyh
      rw [op x y hxw hyh]
      have : FillDone x0 x1 y0 x1 j x y ↔ FillDone x0 x1 y0 x0 (j + 1) x y := by
        unfold FillDone; omega
      simp only [this])
  refine ⟨out, e, Image.shows_iff.2 ⟨hw, hi, fun x y hx' hy' => ?_⟩⟩
  rw [hp x y hx' hy']
  by_cases hc : x0 ≤ x ∧ x < x1 ∧ y0 ≤ y ∧ y < y1
  · rw [if_pos hc, if_pos (by unfold FillDone; omega)]
  · rw [if_neg hc, if_neg (by unfold FillDone; omega)]

/-- Fill where each step just computes a pixel and stores it with `set_pixel`. -/
theorem Image.fillRect_set (P : Profile) {out0 : Image T} (h : out0.WF) (x0 x1 y0 y1 : Nat)
    (hx : x1 ≤ out0.info.width) (hy : y1 ≤ out0.info.height) (G : Nat → Nat → List T)
    (hlen : ∀ x y, x0 ≤ x → x < x1 → y0 ≤ y → y < y1 → (G x y).length = out0.info.channels)
    (f : Nat → Nat → Res (List T))
    (hf : ∀ i j, x0 ≤ i → i < x1 → y0 ≤ j → j < y1 → f j i = .ok (G i j)) :
    ∃ out, (forRange y0 y1 out0 fun j o => forRange x0 x1 o fun i o => do
        let p ← f j i
        o.setPixel P i j p) = .ok out ∧
      out.Shows out0.info (fun x y =>
        if x0 ≤ x ∧ x < x1 ∧ y0 ≤ y ∧ y < y1 then G x y else out0.px x y) := by
  apply Image.fillRect h x0 x1 y0 y1 hx hy G hlen
    (fun j i o => do
        let p ← f j i
        o.setPixel P i j p)
  intro i j out hi1 hi2 hj1 hj2 ow oi _
  simp only [hf i j hi1 hi2 hj1 hj2, ok_bind]
  rw [Image.setPixel_eq P ow (by rw [oi]; omega) (by rw [oi]; omega)
    (by rw [oi]; exact hlen i j hi1 hi2 hj1 hj2), oi]

/-- a blank image -/
theorem Image.blank_eq (P : Profile) (N : RNum T) {info : ImageInfo} (h : info.WF) :
    ∃ out, Image.blank P N info = .ok out ∧
      out.Shows info (fun _ _ => List.replicate info.channels (N.ofU8 0)) := by
  unfold Image.blank
  rw [ImageInfo.fullSize_eq P h, ok_bind]
  have hw : Image.WF ({ info := info, data := List.replicate (info.width * info.height * info.channels) (N.ofU8 0) } : Image T) :=
    ⟨h.width, h.height, h.channels, h.size, h.full, by simp⟩
  refine ⟨_, rfl, Image.shows_iff.2 ⟨hw, rfl, fun x y hx hy => ?_⟩⟩
  apply List.eq_replicate_iff.2
  refine ⟨Image.px_length hw hx hy, fun b hb => ?_⟩
  exact List.eq_of_mem_replicate (chunk_subset (c := info.channels) hb)

/-- Full fill of a blank image. -/
theorem Image.fillAll_set (P : Profile) (N : RNum T) {info : ImageInfo} (h : info.WF)
    (G : Nat → Nat → List T)
    (hlen : ∀ x y, x < info.width → y < info.height → (G x y).length = info.channels)
    (f : Nat → Nat → Res (List T))
    (hf : ∀ i j, i < info.width → j < info.height → f j i = .ok (G i j)) :
    ∃ blank out, Image.blank P N info = .ok blank ∧ blank.info = info ∧
      (forRange 0 info.height blank fun j o => forRange 0 info.width o fun i o => do
        let p ← f j i
        o.setPixel P i j p) = .ok out ∧ out.Shows info G := by
  obtain ⟨b, eb, hb⟩ := Image.blank_eq P N h
  obtain ⟨bw, bi, bp⟩ := Image.shows_iff.1 hb
  obtain ⟨out, e, ho⟩ := Image.fillRect_set P bw 0 info.width 0 info.height (by simp [bi]) (by simp [bi])
    G (fun x y _ hx _ hy => by rw [bi]; exact hlen x y hx hy) f (fun i j _ hi _ hj => hf i j hi hj)
  refine ⟨b, out, eb, bi, e, ?_⟩
  rw [bi] at ho
  obtain ⟨ow, oi, op⟩ := Image.shows_iff.1 ho
  refine Image.shows_iff.2 ⟨ow, oi, fun x y hx hy => ?_⟩
  rw [op x y hx hy, if_pos ⟨Nat.zero_le _, hx, Nat.zero_le _, hy⟩]

/-- if a step of the fill faults at the first coordinate reached with a fault, and all others are
fine, the loop faults: used for panic statements -/
theorem forRange_fault_nested {σ} {x0 x1 y0 y1 : Nat} {s : σ} {f : Nat → Nat → σ → Res σ} {e : Fault}
    (hy : y0 < y1) (hx : x0 < x1) (hf : f y0 x0 s = .error e) :
    (forRange y0 y1 s fun j s => forRange x0 x1 s fun i s => f j i s) = .error e := by
  rw [forRange_cons hy, forRange_cons hx, hf]; rfl

theorem forRange_congr_inv {σ} {a b : Nat} {s : σ} {f g : Nat → σ → Res σ} (I : σ → Prop) (h0 : I s)
    (hg : ∀ k s s', I s → g k s = .ok s' → I s')
    (h : ∀ k s, I s → f k s = g k s) : forRange a b s f = forRange a b s g := by
  obtain ⟨d, hd⟩ : ∃ d, d = b - a := ⟨_, rfl⟩
  induction d generalizing a s with
  | zero => rw [forRange_empty (by omega), forRange_empty (by omega)]
  | succ d ih =>
    rw [forRange_cons (by omega), forRange_cons (by omega), h a s h0]
    cases hgs : g a s with
    | error e => rfl
    | ok s' => rw [ok_bind, ok_bind]; exact ih (hg a s s' h0 hgs) (by omega)

theorem forRange_preserves {σ} {a b : Nat} {s s' : σ} {f : Nat → σ → Res σ} (I : σ → Prop)
    (hf : ∀ k s s', I s → f k s = .ok s' → I s') (h0 : I s) (h : forRange a b s f = .ok s') : I s' := by
  obtain ⟨d, hd⟩ : ∃ d, d = b - a := ⟨_, rfl⟩
  induction d generalizing a s with
  | zero => rw [forRange_empty (by omega)] at h; cases h; exact h0
  | succ d ih =>
    rw [forRange_cons (by omega)] at h
    cases hgs : f a s with
    | error e => rw [hgs] at h; cases h
    | ok s1 => rw [hgs, ok_bind] at h; exact ih (hf a s s1 h0 hgs) h (by omega)

theorem Image.setPixel_info {P : Profile} {img out : Image T} {x y : Nat} {p : List T}
    (h : img.setPixel P x y p = .ok out) : out.info = img.info := by
  unfold Image.setPixel at h
  obtain ⟨_, _, h⟩ := bind_eq_ok h
  obtain ⟨_, _, h⟩ := bind_eq_ok h
  obtain ⟨_, _, h⟩ := bind_eq_ok h
  obtain ⟨_, _, h⟩ := bind_eq_ok h
  obtain ⟨_, _, h⟩ := bind_eq_ok h
  cases h; rfl

/-- the column bound may be re-read from the (unchanged) header of the image being written -/
theorem fill_bound_congr {out0 : Image T} {x0 y0 y1 x1 : Nat} (xb : Image T → Nat)
    (hxb : ∀ o : Image T, o.info = out0.info → xb o = x1)
    (step : Nat → Nat → Image T → Res (Image T))
    (hs : ∀ j i o o', step j i o = .ok o' → o'.info = o.info) :
    (forRange y0 y1 out0 fun j o => forRange x0 (xb o) o fun i o => step j i o) =
    (forRange y0 y1 out0 fun j o => forRange x0 x1 o fun i o => step j i o) := by
  apply forRange_congr_inv (fun o : Image T => o.info = out0.info) rfl
  · intro k s s' h1 h2
    exact forRange_preserves (fun o : Image T => o.info = out0.info)
      (fun k s s' h1 h2 => (hs _ _ _ _ h2).trans h1) h1 h2
  · intro k s h; rw [hxb s h]

theorem Image.Shows.WF {img : Image T} {info f} (h : img.Shows info f) : img.WF := h.1
theorem Image.Shows.info_eq {img : Image T} {info f} (h : img.Shows info f) : img.info = info := h.2.1
theorem Image.Shows.congr {img : Image T} {info : ImageInfo} {f g : Nat → Nat → List T} (h : img.Shows info f)
    (hfg : ∀ x y, x < info.width → y < info.height → f x y = g x y) : img.Shows info g :=
  ⟨h.1, h.2.1, fun P x y hx hy => by rw [← hfg x y hx hy]; exact h.2.2 P x y hx hy⟩
theorem Image.Shows.px_eq {img : Image T} {info : ImageInfo} {f : Nat → Nat → List T} (h : img.Shows info f)
    {x y : Nat} (hx : x < info.width) (hy : y < info.height) : img.px x y = f x y :=
  (Image.shows_iff.1 h).2.2 x y hx hy

end Imgproc

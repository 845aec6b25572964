import Verif.Model.Filter
import Verif.Model.Median
import Verif.Model.Tone
import Verif.Spec.Shapes
import Verif.Proofs.Fill
/-!
Machinery for C131: for every model function that returns an image, a rule about the shape of the image it returns; the
tactic `sh` applies them call by call.
-/
namespace Imgproc
open FloatOps
variable {T S F : Type} [FloatOps F] {i : ImageInfo}

section
variable {α β σ : Type}
theorem Gives.ok {p : α → Prop} {a : α} (h : p a) : Gives p (.ok a) := fun _ e => by cases e; exact h
theorem Gives.error {p : α → Prop} {e : Fault} : Gives p (.error e) := fun _ h => by cases h
theorem Gives.panics {p : α → Prop} {k : PanicKind} : Gives p (panic k) := fun _ h => by cases h
theorem Gives.invalid {p : α → Prop} : Gives p invalidArg := fun _ h => by cases h
theorem Gives.any {r : Res α} : Gives (fun _ => True) r := fun _ _ => trivial
theorem Gives.mono {p q : α → Prop} {r : Res α} (h : Gives p r) (hpq : ∀ a, p a → q a) : Gives q r := fun a e => hpq a (h a e)

theorem Gives.bind {q : α → Prop} {p : β → Prop} {d : Res α} {f : α → Res β} (h : Gives q d) (hf : ∀ a, q a → Gives p (f a)) :
    Gives p (d >>= f) := fun b e => by
  obtain ⟨a, ea, eb⟩ := bind_eq_ok e
  exact hf a (h a ea) b eb

theorem Gives.bindAny {p : β → Prop} {d : Res α} {f : α → Res β} (hf : ∀ a, Gives p (f a)) : Gives p (d >>= f) :=
  Gives.bind (q := fun _ => True) .any fun a _ => hf a

theorem Gives.ite {p : α → Prop} {c : Prop} [Decidable c] {a b : Res α} (h1 : c → Gives p a) (h2 : ¬ c → Gives p b) :
    Gives p (if c then a else b) := by
  split
  · exact h1 ‹_›
  · exact h2 ‹_›

theorem Gives.unwrap {p : α → Prop} {d : Res α} (h : Gives p d) : Gives p (unwrapRes d) := fun a e => by
  cases d with
  | ok v => exact h a e
  | error er => cases er <;> cases e

theorem Gives.loop {p : σ → Prop} {a b : Nat} {s : σ} {f : Nat → σ → Res σ} (h0 : p s) (hf : ∀ k s, p s → Gives p (f k s)) :
    Gives p (forRange a b s f) := fun _ e =>
  forRange_preserves p (fun k s s' h e => hf k s h s' e) h0 e

theorem Gives.step {p : σ → Prop} {a b k : Nat} {s : σ} {f : Nat → σ → Res σ} (h0 : p s) (hf : ∀ k s, p s → Gives p (f k s)) :
    Gives p (forStep a b k s f) := by
  unfold forStep
  exact .ite (fun _ => .panics) fun _ => Gives.loop h0 fun k s h => hf _ s h

/-- a loop that appends one element per round -/
theorem Gives.push {a n : Nat} {l : List α} {f : Nat → List α → Res (List α)} {c : Nat}
    (hf : ∀ k s, Gives (fun s' => s'.length = s.length + c) (f k s)) :
    Gives (fun s => s.length = l.length + n * c) (forRange a (a + n) l f) := by
  induction n generalizing a l with
  | zero => rw [forRange_empty (by omega)]; exact .ok (by simp)
  | succ n ih =>
    rw [forRange_cons (by omega), show a + (n + 1) = a + 1 + n by omega]
    refine .bind (hf a l) fun s hs => ?_
    refine (ih (a := a + 1) (l := s)).mono fun s' hs' => ?_
    rw [hs', hs, Nat.succ_mul]; omega

theorem Gives.pushList {l : List β} {s : List α} {f : β → List α → Res (List α)} {c : Nat}
    (hf : ∀ b s, Gives (fun s' => s'.length = s.length + c) (f b s)) :
    Gives (fun s' => s'.length = s.length + l.length * c) (forList l s f) := by
  induction l generalizing s with
  | nil => exact .ok (by simp)
  | cons b l ih =>
    refine .bind (hf b s) fun s1 h1 => ?_
    refine (ih (s := s1)).mono fun s' hs' => ?_
    rw [hs', h1, List.length_cons, Nat.succ_mul]; omega
end

theorem Shaped.wf {img : Image T} (h : Shaped i img) : img.WF := h.1
theorem Shaped.info {img : Image T} (h : Shaped i img) : img.info = i := h.2
theorem Shaped.infoWF {img : Image T} (h : Shaped i img) : i.WF := h.2 ▸ h.1.infoWF
theorem Image.WF.shaped {img : Image T} (h : img.WF) : Shaped img.info img := ⟨h, rfl⟩
theorem Shaped.length {img : Image T} (h : Shaped i img) : img.data.length = i.width * i.height * i.channels := by
  rw [h.1.length, h.2]
theorem shaped_of (h : i.WF) {img : Image T} (hi : img.info = i) (hl : img.data.length = i.width * i.height * i.channels) :
    Shaped i img := by
  subst hi
  exact ⟨⟨h.width, h.height, h.channels, h.size, h.full, hl⟩, rfl⟩
theorem Shaped.withData {img : Image T} (h : Shaped i img) {d : List T} (hl : d.length = img.data.length) :
    Shaped i { img with data := d } := shaped_of h.infoWF h.2 (hl.trans h.length)

theorem gives_writeSlice {l p : List T} {a b : Nat} : Gives (fun d => d.length = l.length) (writeSlice l a b p) := by
  unfold writeSlice
  refine .ite (fun h => .ok ?_) fun _ => .panics
  simp; omega
theorem gives_setIdx {l : List T} {k : Nat} {v : T} : Gives (fun d => d.length = l.length) (setIdx l k v) := by
  unfold setIdx
  exact .ite (fun h => .ok (by simp)) fun _ => .panics
theorem gives_slice {l : List T} {a b : Nat} : Gives (fun d => d.length = b - a) (slice l a b) := by
  unfold slice
  refine .ite (fun h => .ok ?_) fun _ => .panics
  simp; omega

theorem gives_setPixel {P : Profile} {img : Image T} (h : Shaped i img) {x y : Nat} {p : List T} :
    Gives (Shaped i) (img.setPixel P x y p) := by
  unfold Image.setPixel
  refine .bindAny fun _ => .bindAny fun _ => .bindAny fun _ => .bindAny fun _ => .bind gives_writeSlice fun d hd => .ok (h.withData hd)

theorem gives_setPixelIndexed {P : Profile} {img : Image T} (h : Shaped i img) {k : Nat} {p : List T} :
    Gives (Shaped i) (img.setPixelIndexed P k p) := by
  unfold Image.setPixelIndexed
  refine .bindAny fun _ => .bindAny fun _ => .bindAny fun _ => .bind gives_writeSlice fun d hd => .ok (h.withData hd)

theorem gives_size {P : Profile} (h : i.WF) : Gives (fun n => n = i.width * i.height) (i.size P) := by
  unfold ImageInfo.size
  rw [u32Mul_ok h.size]; exact .ok rfl
theorem gives_fullSize {P : Profile} (h : i.WF) : Gives (fun n => n = i.width * i.height * i.channels) (i.fullSize P) := by
  unfold ImageInfo.fullSize
  rw [u32Mul_ok h.size, ok_bind, u32Mul_ok h.full]; exact .ok rfl

theorem gives_blank {P : Profile} {N : RNum T} (h : i.WF) : Gives (Shaped i) (Image.blank P N i) := by
  unfold Image.blank
  refine .bind (gives_fullSize h) fun n hn => .ok (shaped_of h rfl ?_)
  simp [hn]

/-- in a build with overflow checks `blank` itself refuses sizes that do not fit -/
theorem gives_blank_debug {N : RNum T} (hw : i.width < U32SIZE) (hh : i.height < U32SIZE) (hc : i.channels < 256) :
    Gives (Shaped i) (Image.blank .debug N i) := by
  by_cases h1 : i.width * i.height < U32SIZE
  · by_cases h2 : i.width * i.height * i.channels < U32SIZE
    · exact gives_blank ⟨hw, hh, hc, h1, h2⟩
    · intro o e
      unfold Image.blank ImageInfo.fullSize at e
      rw [u32Mul_ok h1, ok_bind] at e
      simp only [u32Mul, wrapNat, if_neg h2] at e
      cases e
  · intro o e
    unfold Image.blank ImageInfo.fullSize at e
    simp only [u32Mul, wrapNat, if_neg h1] at e
    cases e

/-! ### The tactic -/

/-- the image a call returns has the expected shape: loops and pixel writes -/
macro "sh" : tactic => `(tactic| ((try dsimp only); repeat' (first
  | with_reducible assumption
  | with_reducible intro _
  | with_reducible exact Gives.panics
  | with_reducible exact Gives.invalid
  | with_reducible refine Gives.ok ?_
  | with_reducible apply gives_setPixel
  | with_reducible apply gives_setPixelIndexed
  | with_reducible apply Gives.loop
  | with_reducible apply Gives.step
  | with_reducible apply Gives.unwrap
  | with_reducible apply Gives.ite
  | with_reducible apply Gives.bindAny)))

/-! ### Maps over an image -/

theorem gives_mapChannels {P : Profile} {img : Image T} (h : Shaped i img) {f : T → Res S} :
    Gives (Shaped i) (img.mapChannels P f) := by
  obtain ⟨h, rfl⟩ := h
  unfold Image.mapChannels
  refine .bind (gives_fullSize h.infoWF) fun n hn => ?_
  rw [show forRange 0 n = forRange 0 (0 + n) by rw [Nat.zero_add]]
  refine .bind (Gives.push (c := 1) fun k s => .bindAny fun _ => .bindAny fun _ => .ok (by simp)) fun d hd => ?_
  exact .ok (shaped_of h.infoWF rfl (by simp [hd, hn]))

theorem gives_wrap {P : Profile} {n v : Nat} (hn : 0 < n) : Gives (fun a => a < n) (wrapNat P n v) := by
  unfold wrapNat
  refine .ite (fun h => .ok h) fun _ => ?_
  cases P
  · exact .panics
  · exact .ok (Nat.mod_lt _ hn)

theorem gives_at {P : Profile} {img : Image T} (h : img.WF) {k : Nat} : Gives (fun p => p.length = img.info.channels) (img.at' P k) := by
  unfold Image.at'
  have hc := h.channels
  refine .bind (gives_wrap (n := USIZE) (by decide)) fun a ha => ?_
  intro p e
  obtain ⟨b, hb, e⟩ := bind_eq_ok e
  have hp := gives_slice p e
  unfold slice at e
  split at e
  case isFalse => cases e
  case isTrue hle =>
    unfold usizeAdd wrapNat at hb
    split at hb
    · cases hb; rw [hp]; omega
    · cases P
      · cases hb
      · cases hb
        rw [Nat.mod_eq_sub_mod (by omega), Nat.mod_eq_of_lt (by omega)] at hle
        omega

theorem gives_colours {P : Profile} {p : List T} : Gives (fun q => q.length + 1 = p.length) (Pixel.channelsWithoutAlpha P p) := by
  unfold Pixel.channelsWithoutAlpha
  intro q e
  obtain ⟨n, hn, e⟩ := bind_eq_ok e
  have hq := gives_slice q e
  unfold slice at e
  split at e
  case isFalse => cases e
  case isTrue hle =>
    unfold usizeSub at hn
    split at hn
    · cases hn; omega
    · cases P
      · cases hn
      · cases hn; omega

theorem gives_mapAlpha {P : Profile} {p : List T} {f g : T → Res S} : Gives (fun q => q.length = p.length) (Pixel.mapAlpha P p f g) := by
  unfold Pixel.mapAlpha
  refine .bind gives_colours fun cs hcs => .bind (Gives.pushList (c := 1) fun b s => .bindAny fun _ => .ok (by simp)) fun o ho =>
    .bindAny fun _ => .bindAny fun _ => .ok ?_
  rw [List.length_append, ho]
  simp; omega

theorem gives_mapChannelsIfAlpha {P : Profile} {img : Image T} (h : Shaped i img) {f g : T → Res S} :
    Gives (Shaped i) (img.mapChannelsIfAlpha P f g) := by
  unfold Image.mapChannelsIfAlpha
  refine .ite (fun _ => gives_mapChannels h) fun _ => .bindAny fun _ => ?_
  obtain ⟨h, rfl⟩ := h
  refine .bind (gives_size h.infoWF) fun n hn => ?_
  rw [show forRange 0 n = forRange 0 (0 + n) by rw [Nat.zero_add]]
  refine .bind (Gives.push (c := img.info.channels) fun k s => .bind (gives_at h) fun p hp => .bind gives_mapAlpha fun q hq =>
    .ok (by rw [List.length_append, hq, hp])) fun d hd => ?_
  exact .ok (shaped_of h.infoWF rfl (by simp [hd, hn]))
/-- the loop of `map_pixels`: every round appends `c` values, and some round ran -/
theorem gives_mapLoop {n c : Nat} {B : Prop} {f : Nat → List S → Res (List S)} (hn : 0 < n)
    (hf : ∀ k s, Gives (fun s' => s'.length = s.length + c ∧ B) (f k s)) :
    Gives (fun s => s.length = n * c ∧ B) (forRange 0 n [] f) := by
  intro s e
  have h1 := Gives.push (a := 0) (n := n) (l := []) (c := c) (fun k s => (hf k s).mono fun _ h => h.1) s (by rw [Nat.zero_add]; exact e)
  rw [forRange_cons hn] at e
  obtain ⟨s1, e1, -⟩ := bind_eq_ok e
  exact ⟨by simpa using h1, (hf 0 [] s1 e1).2⟩

theorem gives_mapClose {c : Nat} {B : Prop} {P : Profile} {img : Image T} (h : img.WF) {f : Nat → List S → Res (List S)}
    (hf : ∀ k s, Gives (fun s' => s'.length = s.length + c ∧ B) (f k s))
    (hB : B → c < 256 ∧ img.info.width * img.info.height * c < U32SIZE) :
    Gives (Shaped ⟨img.info.width, img.info.height, c, img.info.alpha⟩) (do
      let n ← img.info.size P
      let data ← forRange 0 n [] f
      let n' ← img.info.size P
      let channels ← natDiv (usizeToU32 data.length) n'
      .ok ({ info := { img.info with channels := natToU8 channels }, data := data } : Image S)) := by
  refine .bind (gives_size h.infoWF) fun n hn => ?_
  rcases Nat.eq_zero_or_pos n with h0 | h0
  · refine .bindAny fun d => .bind (gives_size h.infoWF) fun n' hn' => ?_
    rw [show natDiv (usizeToU32 d.length) n' = panic .divZero from if_pos (by omega)]
    exact .error
  refine .bind (gives_mapLoop h0 hf) fun d hd => .bind (gives_size h.infoWF) fun n' hn' => ?_
  obtain ⟨hc, hs⟩ := hB hd.2
  have hn0 : n' ≠ 0 := by omega
  rw [show natDiv (usizeToU32 d.length) n' = .ok (usizeToU32 d.length / n') from if_neg hn0, ok_bind]
  have e : natToU8 (usizeToU32 d.length / n') = c := by
    rw [hd.1, usizeToU32, hn, Nat.mod_eq_of_lt hs, hn', Nat.mul_div_cancel_left _ (by omega), natToU8, Nat.mod_eq_of_lt hc]
  rw [e]
  refine .ok (shaped_of (i := ⟨img.info.width, img.info.height, c, img.info.alpha⟩) ⟨h.width, h.height, hc, h.size, hs⟩ rfl ?_)
  exact (by rw [hd.1, hn] : d.length = img.info.width * img.info.height * c)

theorem gives_mapPixels {c : Nat} {B : Prop} {P : Profile} {img : Image T} (h : img.WF) {f : List T → List S → Res (List S)}
    (hf : ∀ p, p.length = img.info.channels → Gives (fun q => q.length = c ∧ B) (f p []))
    (hB : B → c < 256 ∧ img.info.width * img.info.height * c < U32SIZE) :
    Gives (Shaped ⟨img.info.width, img.info.height, c, img.info.alpha⟩) (img.mapPixels P f) := by
  unfold Image.mapPixels
  refine gives_mapClose (B := B) h (fun k s => .bind (gives_at h) fun p hp => .bind (hf p hp) fun q hq => .ok ?_) hB
  exact ⟨by rw [List.length_append, hq.1], hq.2⟩

/-- the header of an image with `c` colour channels -/
def ImageInfo.recolour (i : ImageInfo) (c : Nat) : ImageInfo := ⟨i.width, i.height, if i.alpha then c + 1 else c, i.alpha⟩

theorem gives_mapPixelsIfAlpha {c : Nat} {B : Prop} {P : Profile} {img : Image T} (h : img.WF) {f : List T → List S → Res (List S)}
    {g : T → Res S} (hf : ∀ p, p.length = img.info.colours → Gives (fun q => q.length = c ∧ B) (f p []))
    (hB : B → (img.info.alpha = true → 1 ≤ img.info.channels) →
      (img.info.recolour c).channels < 256 ∧ img.info.width * img.info.height * (img.info.recolour c).channels < U32SIZE) :
    Gives (Shaped (img.info.recolour c)) (img.mapPixelsIfAlpha P f g) := by
  unfold Image.mapPixelsIfAlpha
  unfold ImageInfo.colours at hf
  unfold ImageInfo.recolour at hB ⊢
  cases ha : img.info.alpha with
  | false =>
    simp only [ha, Bool.false_eq_true, if_false, Bool.not_false, if_true] at hf hB ⊢
    have := gives_mapPixels (P := P) h hf fun b => hB b (by simp)
    rw [ha] at this; exact this
  | true =>
    simp only [ha, if_true, Bool.not_true, Bool.false_eq_true, if_false] at hf hB ⊢
    have := gives_mapClose (c := c + 1) (B := B ∧ 1 ≤ img.info.channels) (P := P) h (f := fun i data => do
      let p ← img.at' P i
      let cs ← Pixel.channelsWithoutAlpha P p
      let out ← f cs []
      let p' ← img.at' P i
      let a ← Pixel.alpha P p'
      let ga ← g a
      .ok (data ++ (out ++ [ga])))
      (fun k s => .bind (gives_at h) fun p hp => .bind gives_colours fun cs hcs => .bind (hf cs (by omega)) fun q hq =>
        .bindAny fun _ => .bindAny fun _ => .bindAny fun _ => .ok ⟨by simp [hq.1], hq.2, by omega⟩)
      (fun b => hB b.1 fun _ => b.2)
    simp only [ha] at this; exact this

/-! ### Edits in place -/

theorem gives_applyPixels {P : Profile} {img : Image T} (h : Shaped i img) {f : List T → List T → Res (List T)} :
    Gives (Shaped i) (img.applyPixels P f) := by
  unfold Image.applyPixels; sh
theorem gives_applyPixelsIfAlpha {P : Profile} {img : Image T} (h : Shaped i img) {f : List T → List T → Res (List T)} {g : T → Res T} :
    Gives (Shaped i) (img.applyPixelsIfAlpha P f g) := by
  unfold Image.applyPixelsIfAlpha
  refine .ite (fun _ => gives_applyPixels h) fun _ => ?_
  sh
theorem gives_applyChannels {P : Profile} {img : Image T} (h : Shaped i img) {f : T → Res T} :
    Gives (Shaped i) (img.applyChannels P f) := by
  unfold Image.applyChannels
  refine .bindAny fun _ => .loop h fun k s hs => .bindAny fun _ => .bindAny fun _ => .bind gives_setIdx fun d hd => .ok (hs.withData hd)
theorem gives_editChannel {P : Profile} {img : Image T} (h : Shaped i img) {f : T → Res T} {k : Nat} :
    Gives (Shaped i) (img.editChannel P f k) := by
  unfold Image.editChannel
  refine .bindAny fun _ => .step h fun k s hs => .bindAny fun _ => .bindAny fun _ => .bind gives_setIdx fun d hd => .ok (hs.withData hd)
theorem gives_applyAlpha {P : Profile} {p : List T} {f g : T → Res T} : Gives (fun q => q.length = p.length) (Pixel.applyAlpha P p f g) := by
  unfold Pixel.applyAlpha
  refine .bindAny fun _ => .bind (q := fun q => q.length = p.length) (Gives.loop rfl fun k s hs => .bindAny fun _ => .bindAny fun _ => gives_setIdx.mono fun d hd => hd.trans hs) fun q hq => ?_
  exact .bindAny fun _ => .bindAny fun _ => .bindAny fun _ => gives_setIdx.mono fun d hd => hd.trans hq
/-- a borrowed pixel: writing back a pixel of the same length keeps the shape -/
theorem gives_atMut {P : Profile} {img : Image T} (h : Shaped i img) {k : Nat} :
    Gives (fun r => ∀ q, q.length = r.1.length → Shaped i (r.2 q)) (img.atMut P k) := by
  unfold Image.atMut
  refine .bindAny fun a => .bindAny fun b => ?_
  intro r e
  obtain ⟨s, es, e⟩ := bind_eq_ok e
  cases e
  intro q hq
  have hs := gives_slice s es
  unfold slice at es
  split at es
  case isFalse => cases es
  case isTrue hle => exact h.withData (by simp only [List.length_append, List.length_take, List.length_drop] at hq ⊢; omega)
theorem gives_getPixelMut {P : Profile} {img : Image T} (h : Shaped i img) {x y : Nat} :
    Gives (fun r => ∀ q, q.length = r.1.length → Shaped i (r.2 q)) (img.getPixelMut P x y) := by
  unfold Image.getPixelMut
  refine .bindAny fun _ => .bindAny fun a => .bindAny fun b => ?_
  intro r e
  obtain ⟨s, es, e⟩ := bind_eq_ok e
  cases e
  intro q hq
  have hs := gives_slice s es
  unfold slice at es
  split at es
  case isFalse => cases es
  case isTrue hle => exact h.withData (by simp only [List.length_append, List.length_take, List.length_drop] at hq ⊢; omega)
theorem gives_getPixelMutUnchecked {P : Profile} {img : Image T} (h : Shaped i img) {x y : Nat} :
    Gives (fun r => ∀ q, q.length = r.1.length → Shaped i (r.2 q)) (img.getPixelMutUnchecked P x y) := by
  unfold Image.getPixelMutUnchecked
  exact .bindAny fun _ => .bindAny fun _ => gives_atMut h
theorem gives_applyChannelsIfAlpha {P : Profile} {img : Image T} (h : Shaped i img) {f g : T → Res T} :
    Gives (Shaped i) (img.applyChannelsIfAlpha P f g) := by
  unfold Image.applyChannelsIfAlpha
  refine .ite (fun _ => gives_applyChannels h) fun _ => .bindAny fun _ => .loop h fun k s hs => ?_
  exact .bind (gives_atMut hs) fun r hr => .bind gives_applyAlpha fun q hq => .ok (hr q hq)
end Imgproc

import Verif.Proofs.Res
import Verif.Spec.Image
/-! Helper lemmas about image buffers. -/
namespace Imgproc

/-- `c`-sized block number `i` of a list -/
def chunk {T} (l : List T) (c i : Nat) : List T := (l.drop (i * c)).take c

theorem Image.px_eq_chunk {T} (img : Image T) (x y : Nat) :
    img.px x y = chunk img.data img.info.channels (y * img.info.width + x) := rfl

theorem chunk_getElem? {T} (l : List T) (c i k : Nat) (h : k < c) :
    (chunk l c i)[k]? = l[i * c + k]? := by
  simp [chunk, List.getElem?_take, h, List.getElem?_drop]

theorem chunk_length {T} {l : List T} {c i n : Nat} (hl : l.length = n * c) (hi : i < n) :
    (chunk l c i).length = c := by
  simp only [chunk, List.length_take, List.length_drop, hl]
  have : (i + 1) * c ≤ n * c := Nat.mul_le_mul_right c hi
  rw [Nat.succ_mul] at this
  omega

theorem chunk_ext {T} {l l' : List T} {c n : Nat} (hl : l.length = n * c) (hl' : l'.length = n * c)
    (h : ∀ i < n, chunk l c i = chunk l' c i) : l = l' := by
  apply List.ext_getElem?
  intro k
  by_cases hk : k < n * c
  · have hc : 0 < c := by
      rcases Nat.eq_zero_or_pos c with h0 | h0
      · subst h0; simp at hk
      · exact h0
    have hi : k / c < n := (Nat.div_lt_iff_lt_mul hc).2 hk
    have hm : k % c < c := Nat.mod_lt _ hc
    have := congrArg (fun l => l[k % c]?) (h _ hi)
    simp only [chunk_getElem? _ _ _ _ hm] at this
    rw [show k / c * c + k % c = k from Nat.div_add_mod' k c] at this
    exact this
  · rw [List.getElem?_eq_none (by omega), List.getElem?_eq_none (by omega)]

theorem flatMap_range_length {T} (B : Nat → List T) (c : Nat) :
    ∀ n, (∀ i < n, (B i).length = c) → ((List.range n).flatMap B).length = n * c
  | 0, _ => by simp
  | n + 1, h => by
    rw [List.range_succ, List.flatMap_append, List.length_append,
      flatMap_range_length B c n (fun i hi => h i (by omega))]
    simp [h n (by omega), Nat.succ_mul]

theorem chunk_append_left {T} {l r : List T} {c n i : Nat} (hl : l.length = n * c) (hi : i < n) :
    chunk (l ++ r) c i = chunk l c i := by
  have h1 : (i + 1) * c ≤ n * c := Nat.mul_le_mul_right c hi
  rw [Nat.succ_mul] at h1
  unfold chunk
  rw [List.drop_append_of_le_length (by omega), List.take_append_of_le_length (by
    rw [List.length_drop]; omega)]

theorem chunk_append_right {T} {l r : List T} {c n : Nat} (hl : l.length = n * c)
    (hr : r.length = c) : chunk (l ++ r) c n = r := by
  unfold chunk
  rw [← hl, List.drop_left, ← hr, List.take_length]

theorem chunk_flatMap_range {T} (B : Nat → List T) (c : Nat) :
    ∀ n, (∀ i < n, (B i).length = c) → ∀ i < n, chunk ((List.range n).flatMap B) c i = B i
  | 0, _, i, hi => by omega
  | n + 1, h, i, hi => by
    have hn := flatMap_range_length B c n (fun i hi => h i (by omega))
    rw [List.range_succ, List.flatMap_append]
    by_cases hin : i < n
    · rw [chunk_append_left hn hin]
      exact chunk_flatMap_range B c n (fun i hi => h i (by omega)) i hin
    · have : i = n := by omega
      subst this
      rw [chunk_append_right hn (by simpa using h i (by omega))]
      simp

theorem flatMap_chunk {T} {l : List T} {c n : Nat} (hl : l.length = n * c) :
    (List.range n).flatMap (chunk l c) = l := by
  have hlen : ∀ i < n, (chunk l c i).length = c := fun i hi => chunk_length hl hi
  exact chunk_ext (flatMap_range_length _ _ _ hlen) hl
    (fun i hi => chunk_flatMap_range _ _ _ hlen i hi)

theorem chunk_write {T} {l p : List T} {c n j i : Nat} (hl : l.length = n * c)
    (hj : j < n) (hi : i < n) (hp : p.length = c) :
    chunk (l.take (j * c) ++ p ++ l.drop (j * c + c)) c i = if i = j then p else chunk l c i := by
  have hj1 : (j + 1) * c ≤ n * c := Nat.mul_le_mul_right c hj
  rw [Nat.succ_mul] at hj1
  have htl : (l.take (j * c)).length = j * c := by rw [List.length_take]; omega
  rcases Nat.lt_trichotomy i j with h | h | h
  · rw [if_neg (by omega), List.append_assoc, chunk_append_left htl h]
    have h1 : (i + 1) * c ≤ j * c := Nat.mul_le_mul_right c h
    rw [Nat.succ_mul] at h1
    unfold chunk
    rw [List.drop_take, List.take_take]
    congr 1; omega
  · subst h
    rw [if_pos rfl, List.append_assoc]
    unfold chunk
    rw [List.drop_left' htl, List.take_left' hp]
  · rw [if_neg (by omega)]
    have h1 : (j + 1) * c ≤ i * c := Nat.mul_le_mul_right c h
    rw [Nat.succ_mul] at h1
    unfold chunk
    have : (l.take (j * c) ++ p).length = j * c + c := by rw [List.length_append, htl, hp]
    rw [List.drop_append, List.drop_eq_nil_of_le (by rw [this]; omega), List.nil_append,
      List.drop_drop, this]
    congr 2; omega

theorem write_length {T} {l p : List T} {c n j : Nat} (hl : l.length = n * c)
    (hj : j < n) (hp : p.length = c) :
    (l.take (j * c) ++ p ++ l.drop (j * c + c)).length = n * c := by
  have hj1 : (j + 1) * c ≤ n * c := Nat.mul_le_mul_right c hj
  rw [Nat.succ_mul] at hj1
  simp only [List.length_append, List.length_take, List.length_drop, hl, hp]; omega

theorem row_lt {x y w h : Nat} (hx : x < w) (hy : y < h) : y * w + x < w * h := by
  have : (y + 1) * w ≤ h * w := Nat.mul_le_mul_right w hy
  rw [Nat.succ_mul, Nat.mul_comm h] at this; omega

theorem row_inj {x y x' y' w : Nat} (hx : x < w) (hx' : x' < w) :
    y * w + x = y' * w + x' ↔ x = x' ∧ y = y' := by
  constructor
  · intro h
    have h1 := congrArg (· % w) h
    have h2 := congrArg (· / w) h
    have hw : 0 < w := by omega
    simp [Nat.mod_eq_of_lt hx, Nat.mod_eq_of_lt hx',
      Nat.mul_comm _ w, Nat.mul_add_div hw, Nat.div_eq_of_lt hx,
      Nat.div_eq_of_lt hx'] at h1 h2
    exact ⟨h1, h2⟩
  · rintro ⟨rfl, rfl⟩; rfl

section
variable {T : Type} {img : Image T}

theorem Image.WF.infoWF (h : img.WF) : img.info.WF := ⟨h.width, h.height, h.channels, h.size, h.full⟩

theorem checkXY_ok {x y w h : Nat} (hx : x < w) (hy : y < h) : checkXY x y w h = .ok () := by
  unfold checkXY; rw [if_neg (by omega), if_neg (by omega)]
theorem checkXY_panic {x y w h : Nat} (hh : ¬ (x < w ∧ y < h)) :
    checkXY x y w h = panic .explicit := by
  unfold checkXY
  split
  · rfl
  · split
    · rfl
    · omega

theorem Image.at_eq (P : Profile) (h : img.WF) {i : Nat} (hi : i < img.info.width * img.info.height) :
    img.at' P i = .ok (chunk img.data img.info.channels i) := by
  have h1 : (i + 1) * img.info.channels ≤ img.info.width * img.info.height * img.info.channels :=
    Nat.mul_le_mul_right _ hi
  rw [Nat.succ_mul] at h1
  have hf := h.full
  have hl := h.length
  unfold Image.at'
  rw [usizeMul_ok (by omega), ok_bind, usizeAdd_ok (by omega), ok_bind, slice_ok (by omega) (by omega)]
  simp [chunk]

theorem Image.index_eq (P : Profile) (h : img.WF) {x y : Nat} (hx : x < img.info.width)
    (hy : y < img.info.height) :
    img.index P x y = .ok ((y * img.info.width + x) * img.info.channels) := by
  have h0 := row_lt hx hy
  have h1 : (y * img.info.width + x) * img.info.channels ≤
      img.info.width * img.info.height * img.info.channels := Nat.mul_le_mul_right _ (by omega)
  have hs := h.size
  have hf := h.full
  unfold Image.index
  rw [u32Mul_ok (by omega), ok_bind, u32Add_ok (by omega), ok_bind, u32Mul_ok (by omega)]

theorem Image.getPixel_eq (P : Profile) (h : img.WF) {x y : Nat} (hx : x < img.info.width)
    (hy : y < img.info.height) : img.getPixel P x y = .ok (img.px x y) := by
  have h0 := row_lt hx hy
  have hs := h.size
  unfold Image.getPixel
  rw [checkXY_ok hx hy, ok_bind, u32Mul_ok (by omega), ok_bind, u32Add_ok (by omega), ok_bind,
    Image.at_eq P h h0]
  rfl

theorem Image.getPixel_panic (P : Profile) {x y : Nat}
    (hh : ¬ (x < img.info.width ∧ y < img.info.height)) :
    img.getPixel P x y = panic .explicit := by
  unfold Image.getPixel
  rw [checkXY_panic hh]; rfl

theorem Image.px_length (h : img.WF) {x y : Nat} (hx : x < img.info.width)
    (hy : y < img.info.height) : (img.px x y).length = img.info.channels :=
  chunk_length h.length (row_lt hx hy)

/-- result of a successful pixel write -/
def Image.write (img : Image T) (j : Nat) (p : List T) : Image T :=
  { img with data := img.data.take (j * img.info.channels) ++ p ++
      img.data.drop (j * img.info.channels + img.info.channels) }

theorem Image.write_WF (h : img.WF) {j : Nat} {p : List T}
    (hj : j < img.info.width * img.info.height) (hp : p.length = img.info.channels) :
    (img.write j p).WF :=
  ⟨h.width, h.height, h.channels, h.size, h.full, write_length h.length hj hp⟩

@[simp] theorem Image.write_info (j : Nat) (p : List T) : (img.write j p).info = img.info := rfl

theorem Image.chunk_write (h : img.WF) {j i : Nat} {p : List T}
    (hj : j < img.info.width * img.info.height) (hi : i < img.info.width * img.info.height)
    (hp : p.length = img.info.channels) :
    chunk (img.write j p).data img.info.channels i =
      if i = j then p else chunk img.data img.info.channels i :=
  Imgproc.chunk_write h.length hj hi hp

theorem checkChannels_ok {c n : Nat} (hc : c < 256) (h : n = c) : checkChannels c n = .ok () := by
  subst h; simp [checkChannels, natToU8, Nat.mod_eq_of_lt hc]

theorem Image.setPixelIndexed_eq (P : Profile) (h : img.WF) {j : Nat} {p : List T}
    (hj : j < img.info.width * img.info.height) (hp : p.length = img.info.channels) :
    img.setPixelIndexed P j p = .ok (img.write j p) := by
  have h1 : (j + 1) * img.info.channels ≤ img.info.width * img.info.height * img.info.channels :=
    Nat.mul_le_mul_right _ hj
  rw [Nat.succ_mul] at h1
  have hf := h.full
  have hl := h.length
  unfold Image.setPixelIndexed
  rw [checkChannels_ok h.channels hp, ok_bind, usizeMul_ok (by omega), ok_bind,
    usizeAdd_ok (by omega), ok_bind, writeSlice, if_pos ⟨by omega, by omega, by omega⟩, ok_bind]
  simp [Image.write, Nat.add_comm]

theorem Image.setPixel_eq (P : Profile) (h : img.WF) {x y : Nat} {p : List T}
    (hx : x < img.info.width) (hy : y < img.info.height) (hp : p.length = img.info.channels) :
    img.setPixel P x y p = .ok (img.write (y * img.info.width + x) p) := by
  have h0 := row_lt hx hy
  have h1 : (y * img.info.width + x + 1) * img.info.channels ≤
    img.info.width * img.info.height * img.info.channels := Nat.mul_le_mul_right _ h0
  rw [Nat.succ_mul] at h1
  have hf := h.full
  have hl := h.length
  unfold Image.setPixel
  rw [checkChannels_ok h.channels hp, ok_bind, checkXY_ok hx hy, ok_bind, Image.index_eq P h hx hy,
    ok_bind, usizeAdd_ok (by omega), ok_bind, writeSlice, if_pos ⟨by omega, by omega, by omega⟩, ok_bind]
  simp [Image.write, Nat.add_comm]

theorem Image.px_write (h : img.WF) {x y x' y' : Nat} {p : List T}
    (hx : x < img.info.width) (hy : y < img.info.height)
    (hx' : x' < img.info.width) (hy' : y' < img.info.height) (hp : p.length = img.info.channels) :
    (img.write (y * img.info.width + x) p).px x' y' =
      if x' = x ∧ y' = y then p else img.px x' y' := by
  rw [Image.px_eq_chunk, Image.write_info, Image.chunk_write h (row_lt hx hy) (row_lt hx' hy') hp,
    Image.px_eq_chunk]
  congr 1
  exact propext (row_inj hx' hx)

theorem Image.size_eq (P : Profile) (h : img.info.WF) :
    img.info.size P = .ok (img.info.width * img.info.height) := u32Mul_ok h.size
theorem ImageInfo.fullSize_eq (P : Profile) {i : ImageInfo} (h : i.WF) :
    i.fullSize P = .ok (i.width * i.height * i.channels) := by
  unfold ImageInfo.fullSize; rw [u32Mul_ok h.size, ok_bind, u32Mul_ok h.full]
theorem ImageInfo.size_eq (P : Profile) {i : ImageInfo} (h : i.WF) :
    i.size P = .ok (i.width * i.height) := u32Mul_ok h.size

/-- Two well-formed images with the same header and pixels are equal. -/
theorem Image.ext_px {a b : Image T} (ha : a.WF) (hb : b.WF) (hi : a.info = b.info)
    (h : ∀ x y, x < a.info.width → y < a.info.height → a.px x y = b.px x y) : a = b := by
  have : a.data = b.data := by
    refine chunk_ext (n := a.info.width * a.info.height) (c := a.info.channels) ha.length
      (by rw [hb.length, hi]) ?_
    intro i hlt
    have hw : 0 < a.info.width := by
      rcases Nat.eq_zero_or_pos a.info.width with h0 | h0
      · rw [h0] at hlt; simp at hlt
      · exact h0
    have hx : i % a.info.width < a.info.width := Nat.mod_lt _ hw
    have hy : i / a.info.width < a.info.height := by
      rw [Nat.div_lt_iff_lt_mul hw, Nat.mul_comm]; exact hlt
    have := h _ _ hx hy
    rw [Image.px_eq_chunk, Image.px_eq_chunk, ← hi, Nat.div_add_mod'] at this
    exact this
  cases a; cases b; simp_all

theorem Image.Shows.ext {a b : Image T} {info : ImageInfo} {f : Nat → Nat → List T}
    (ha : a.Shows info f) (hb : b.Shows info f) : a = b := by
  obtain ⟨wa, ia, pa⟩ := ha
  obtain ⟨wb, ib, pb⟩ := hb
  refine Image.ext_px wa wb (ia.trans ib.symm) ?_
  intro x y hx hy
  have h1 := pa .debug x y (ia ▸ hx) (ia ▸ hy)
  have h2 := pb .debug x y (ia ▸ hx) (ia ▸ hy)
  rw [Image.getPixel_eq _ wa hx hy] at h1
  rw [Image.getPixel_eq _ wb (by rw [ib, ← ia]; exact hx) (by rw [ib, ← ia]; exact hy)] at h2
  injection h1 with h1; injection h2 with h2
  rw [h1, h2]

theorem Image.shows_iff {info : ImageInfo} {f : Nat → Nat → List T} :
    img.Shows info f ↔ img.WF ∧ img.info = info ∧
      ∀ x y, x < info.width → y < info.height → img.px x y = f x y := by
  constructor
  · rintro ⟨w, rfl, p⟩
    refine ⟨w, rfl, fun x y hx hy => ?_⟩
    have := p .debug x y hx hy
    rw [Image.getPixel_eq _ w hx hy] at this
    injection this
  · rintro ⟨w, rfl, p⟩
    exact ⟨w, rfl, fun P x y hx hy => by rw [Image.getPixel_eq _ w hx hy, p x y hx hy]⟩

theorem Image.WF.shows (h : img.WF) : img.Shows img.info img.px :=
  Image.shows_iff.2 ⟨h, rfl, fun _ _ _ _ => rfl⟩
end

/-! ### Loops that collect a vector -/

/-- A loop pushing a block per index collects the blocks. -/
theorem forRange_collect {S} {a b : Nat} (init : List S) (g : Nat → List S → Res (List S))
    (B : Nat → List S)
    (hg : ∀ i acc, a ≤ i → i < b → g i acc = .ok (acc ++ B i)) (hab : a ≤ b) :
    forRange a b init g = .ok (init ++ (List.range (b - a)).flatMap (fun k => B (a + k))) := by
  obtain ⟨s, e, h⟩ := forRange_rule (s := init) (f := g) (a := a) (b := b)
    (fun k s => s = init ++ (List.range (k - a)).flatMap (fun k => B (a + k))) hab (by simp)
    (by
      rintro k s hk1 hk2 rfl
      refine ⟨_, hg k _ hk1 hk2, ?_⟩
      rw [show k + 1 - a = k - a + 1 by omega, List.range_succ, List.flatMap_append]
      simp [show a + (k - a) = k by omega])
  rw [e, h]

theorem forRange_collect0 {S} {n : Nat} (g : Nat → List S → Res (List S))
    (B : Nat → List S)
    (hg : ∀ i acc, i < n → g i acc = .ok (acc ++ B i)) :
    forRange 0 n [] g = .ok ((List.range n).flatMap B) := by
  rw [forRange_collect [] g B (fun i acc _ h => hg i acc h) (Nat.zero_le _)]
  simp

theorem forList_collect {α S} (l : List α) (init : List S) (g : α → List S → Res (List S))
    (B : α → List S) (hg : ∀ a ∈ l, ∀ acc, g a acc = .ok (acc ++ B a)) :
    forList l init g = .ok (init ++ l.flatMap B) := by
  induction l generalizing init with
  | nil => simp [forList]
  | cons a l ih =>
    simp only [forList, hg a (by simp), ok_bind]
    rw [ih _ (fun b hb => hg b (by simp [hb]))]
    simp

theorem forList_map {α S} (l : List α) (f : α → Res S) (f' : α → S)
    (hf : ∀ a ∈ l, f a = .ok (f' a)) :
    (forList l [] fun c out => do
      let v ← f c
      .ok (out ++ [v])) = .ok (l.map f') := by
  rw [forList_collect l [] _ (fun a => [f' a]) (fun a ha acc => by simp [hf a ha])]
  rw [List.nil_append, List.map_eq_flatMap]

end Imgproc

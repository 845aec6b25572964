import Verif.Proofs.Colour
/-! Properties C01–C10, C13: the image container. -/
namespace Imgproc
variable {T S : Type}

/-! ## C01 — pixel writes behave like a map -/

/-- The ways a caller can write one pixel: `set_pixel`, `set_pixel_indexed` (flat index) and
assigning through `get_pixel_mut` / `get_pixel_mut_unchecked` / `IndexMut`. -/
inductive WriteOp (T : Type) where
  | set (x y : Nat) (p : List T)
  | setIndexed (i : Nat) (p : List T)
  | viaMut (x y : Nat) (p : List T)
  | viaMutUnchecked (x y : Nat) (p : List T)
  | viaIndexMut (i : Nat) (p : List T)

/-- run one write on the model -/
def WriteOp.run (P : Profile) (img : Image T) : WriteOp T → Res (Image T)
  | .set x y p => img.setPixel P x y p
  | .setIndexed i p => img.setPixelIndexed P i p
  | .viaMut x y p => do let (_, back) ← img.getPixelMut P x y; .ok (back p)
  | .viaMutUnchecked x y p => do let (_, back) ← img.getPixelMutUnchecked P x y; .ok (back p)
  | .viaIndexMut i p => do let (_, back) ← img.atMut P i; .ok (back p)

/-- the coordinate a write names, in an image of width `w` -/
def WriteOp.coord (w : Nat) : WriteOp T → Nat × Nat
  | .set x y _ | .viaMut x y _ | .viaMutUnchecked x y _ => (x, y)
  | .setIndexed i _ | .viaIndexMut i _ => (i % w, i / w)
/-- the pixel value written -/
def WriteOp.value : WriteOp T → List T
  | .set _ _ p | .viaMut _ _ p | .viaMutUnchecked _ _ p | .setIndexed _ p | .viaIndexMut _ p => p

/-- the write names a coordinate inside the image and a pixel of the right length -/
def WriteOp.InRange (info : ImageInfo) (op : WriteOp T) : Prop :=
  (op.coord info.width).1 < info.width ∧ (op.coord info.width).2 < info.height ∧
    op.value.length = info.channels

/-- a finite history of writes -/
def runWrites (P : Profile) (img : Image T) : List (WriteOp T) → Res (Image T)
  | [] => .ok img
  | op :: ops => op.run P img >>= fun img' => runWrites P img' ops

/-- abstract map semantics: the last write naming `(x, y)` wins -/
def lastWrite (w : Nat) (ops : List (WriteOp T)) (x y : Nat) : Option (List T) :=
  (ops.reverse.find? (fun op => op.coord w == (x, y))).map WriteOp.value

theorem WriteOp.run_eq (P : Profile) {img : Image T} (h : img.WF) {op : WriteOp T}
    (hr : op.InRange img.info) :
    op.run P img = .ok (img.write ((op.coord img.info.width).2 * img.info.width +
      (op.coord img.info.width).1) op.value) := by
  obtain ⟨hx, hy, hp⟩ := hr
  have key : ∀ i, i < img.info.width * img.info.height →
      img.atMut P i = .ok (chunk img.data img.info.channels i, fun p => img.write i p) := by
    intro i hi
    have h1 : (i + 1) * img.info.channels ≤ img.info.width * img.info.height * img.info.channels :=
      Nat.mul_le_mul_right _ hi
    rw [Nat.succ_mul] at h1
    have hf := h.full
    have hl := h.length
    unfold Image.atMut
    rw [usizeMul_ok (by omega), ok_bind, usizeAdd_ok (by omega), ok_bind,
      slice_ok (by omega) (by omega), ok_bind]
    simp [chunk, Image.write]
  cases op with
  | set x y p => exact Image.setPixel_eq P h hx hy hp
  | setIndexed i p =>
    simp only [WriteOp.coord, WriteOp.run, WriteOp.value] at *
    have := row_lt hx hy
    rw [Nat.div_add_mod'] at this ⊢
    exact Image.setPixelIndexed_eq P h this hp
  | viaMut x y p =>
    simp only [WriteOp.coord, WriteOp.run, WriteOp.value] at *
    have h0 := row_lt hx hy
    have h1 : (y * img.info.width + x + 1) * img.info.channels ≤
      img.info.width * img.info.height * img.info.channels := Nat.mul_le_mul_right _ h0
    rw [Nat.succ_mul] at h1
    have hf := h.full
    have hl := h.length
    unfold Image.getPixelMut
    rw [checkXY_ok hx hy, ok_bind, Image.index_eq P h hx hy, ok_bind, usizeAdd_ok (by omega),
      ok_bind, slice_ok (by omega) (by omega), ok_bind]
    simp [Image.write]
  | viaMutUnchecked x y p =>
    simp only [WriteOp.coord, WriteOp.run, WriteOp.value] at *
    have h0 := row_lt hx hy
    have hs := h.size
    unfold Image.getPixelMutUnchecked
    rw [u32Mul_ok (by omega), ok_bind, u32Add_ok (by omega), ok_bind, key _ h0]
    rfl
  | viaIndexMut i p =>
    simp only [WriteOp.coord, WriteOp.run, WriteOp.value] at *
    have := row_lt hx hy
    rw [Nat.div_add_mod'] at this ⊢
    rw [key _ this]; rfl

/-- **C01** After any in-range history of pixel writes, `get_pixel` returns the last value written
to that coordinate, else the original pixel; the header never changes. -/
theorem c01_writes_are_a_map (P : Profile) (img : Image T) (h : img.WF) (ops : List (WriteOp T))
    (hr : ∀ op ∈ ops, op.InRange img.info) :
    ∃ out, runWrites P img ops = .ok out ∧ out.info = img.info ∧ out.WF ∧
      ∀ Q x y, x < img.info.width → y < img.info.height →
        out.getPixel Q x y = match lastWrite img.info.width ops x y with
          | some p => .ok p
          | none => img.getPixel Q x y := by
  induction ops generalizing img with
  | nil => exact ⟨img, rfl, rfl, h, fun Q x y _ _ => rfl⟩
  | cons op ops ih =>
    have hop := hr op (by simp)
    have e := WriteOp.run_eq P h hop
    obtain ⟨hx, hy, hp⟩ := hop
    have hw := Image.write_WF h (row_lt hx hy) hp
    obtain ⟨out, e', hi, hwf, hpx⟩ := ih _ hw (fun o ho => hr o (by simp [ho]))
    refine ⟨out, by simp only [runWrites, e, ok_bind, e'], hi, hwf, ?_⟩
    intro Q x y hx' hy'
    rw [hpx Q x y hx' hy']
    simp only [Image.write_info]
    have hlast : lastWrite img.info.width (op :: ops) x y =
        (lastWrite img.info.width ops x y).or
          (if op.coord img.info.width = (x, y) then some op.value else none) := by
      unfold lastWrite
      rw [List.reverse_cons, List.find?_append]
      cases ops.reverse.find? (fun op => op.coord img.info.width == (x, y)) with
      | some o => simp
      | none => by_cases hc : op.coord img.info.width = (x, y) <;> simp [hc]
    rw [hlast]
    cases lastWrite img.info.width ops x y with
    | some p => simp
    | none =>
      simp only [Option.none_or]
      rw [Image.getPixel_eq Q hw hx' hy', Image.px_write h hx hy hx' hy' hp]
      by_cases hc : op.coord img.info.width = (x, y)
      · rw [if_pos hc, if_pos (by rw [hc]; exact ⟨rfl, rfl⟩)]
      · rw [if_neg hc, if_neg (by rintro ⟨h1, h2⟩; exact hc (Prod.ext h1.symm h2.symm)),
          ← Image.getPixel_eq Q h hx' hy']

/-- a 2×2 RGB image used for the non-vacuity examples -/
def demo : Image UInt8 := Image.fromVec 2 2 3 false [1, 2, 3, 4, 5, 6, 7, 8, 9, 10, 11, 12]
theorem demo_WF : demo.WF := ⟨by decide, by decide, by decide, by decide, by decide, by decide⟩
/-- a 2×1 RGBA image -/
def demoA : Image UInt8 := Image.fromVec 2 1 4 true [1, 2, 3, 4, 5, 6, 7, 8]
theorem demoA_WF : demoA.WF := ⟨by decide, by decide, by decide, by decide, by decide, by decide⟩

example : ∃ out, runWrites .debug demo
      [.set 1 0 [9, 9, 9], .setIndexed 3 [7, 7, 7], .viaMut 1 0 [8, 8, 8]] = .ok out ∧
    out.getPixel .debug 1 0 = .ok [8, 8, 8] := ⟨_, rfl, rfl⟩
example : ∀ op ∈ ([.set 1 0 [9, 9, 9], .setIndexed 3 [7, 7, 7], .viaMut 1 0 [8, 8, 8]] :
    List (WriteOp UInt8)), op.InRange demo.info := by
  simp [WriteOp.InRange, WriteOp.coord, WriteOp.value, demo, Image.fromVec]

/-! ## C02 — checked access panics exactly when documented -/

/-- **C02** `get_pixel` returns iff the coordinate is inside, and otherwise panics. -/
theorem c02_get_pixel (P : Profile) (img : Image T) (h : img.WF) (x y : Nat) :
    (Res.Returns (img.getPixel P x y) ↔ x < img.info.width ∧ y < img.info.height) ∧
    (Res.Panics (img.getPixel P x y) ↔ ¬ (x < img.info.width ∧ y < img.info.height)) := by
  by_cases hh : x < img.info.width ∧ y < img.info.height
  · exact Res.iff_of_ok (Image.getPixel_eq P h hh.1 hh.2) hh
  · exact Res.iff_of_panics ⟨_, Image.getPixel_panic P hh⟩ hh

/-- **C02** the same for `get_pixel_mut`. -/
theorem c02_get_pixel_mut (P : Profile) (img : Image T) (h : img.WF) (x y : Nat) :
    (Res.Returns (img.getPixelMut P x y) ↔ x < img.info.width ∧ y < img.info.height) ∧
    (Res.Panics (img.getPixelMut P x y) ↔ ¬ (x < img.info.width ∧ y < img.info.height)) := by
  by_cases hh : x < img.info.width ∧ y < img.info.height
  · obtain ⟨hx, hy⟩ := hh
    have h0 := row_lt hx hy
    have h1 : (y * img.info.width + x + 1) * img.info.channels ≤
      img.info.width * img.info.height * img.info.channels := Nat.mul_le_mul_right _ h0
    rw [Nat.succ_mul] at h1
    have hf := h.full
    have hl := h.length
    have : ∃ r, img.getPixelMut P x y = .ok r := by
      unfold Image.getPixelMut
      rw [checkXY_ok hx hy, ok_bind, Image.index_eq P h hx hy, ok_bind, usizeAdd_ok (by omega),
        ok_bind, slice_ok (by omega) (by omega), ok_bind]
      exact ⟨_, rfl⟩
    obtain ⟨r, hr⟩ := this
    exact Res.iff_of_ok hr ⟨hx, hy⟩
  · have : img.getPixelMut P x y = panic .explicit := by
      unfold Image.getPixelMut; rw [checkXY_panic hh]; rfl
    exact Res.iff_of_panics ⟨_, this⟩ hh

/-- **C02** `set_pixel` returns iff the coordinate is inside and the slice length is exactly the
channel count; otherwise it panics (for every slice length, in both profiles). -/
theorem c02_set_pixel (P : Profile) (img : Image T) (h : img.WF) (x y : Nat) (p : List T) :
    (Res.Returns (img.setPixel P x y p) ↔
      x < img.info.width ∧ y < img.info.height ∧ p.length = img.info.channels) ∧
    (Res.Panics (img.setPixel P x y p) ↔
      ¬ (x < img.info.width ∧ y < img.info.height ∧ p.length = img.info.channels)) := by
  by_cases hh : x < img.info.width ∧ y < img.info.height ∧ p.length = img.info.channels
  · obtain ⟨hx, hy, hp⟩ := hh
    exact Res.iff_of_ok (Image.setPixel_eq P h hx hy hp) ⟨hx, hy, hp⟩
  · have : Res.Panics (img.setPixel P x y p) := by
      unfold Image.setPixel
      by_cases hc : img.info.channels = natToU8 p.length
      · rw [checkChannels, if_neg (by simpa using hc), ok_bind]
        by_cases hxy : x < img.info.width ∧ y < img.info.height
        · have hp : p.length ≠ img.info.channels := fun e => hh ⟨hxy.1, hxy.2, e⟩
          obtain ⟨hx, hy⟩ := hxy
          have h0 := row_lt hx hy
          have h1 : (y * img.info.width + x + 1) * img.info.channels ≤
            img.info.width * img.info.height * img.info.channels := Nat.mul_le_mul_right _ h0
          rw [Nat.succ_mul] at h1
          have hf := h.full
          rw [checkXY_ok hx hy, ok_bind, Image.index_eq P h hx hy, ok_bind, usizeAdd_ok (by omega),
            ok_bind, writeSlice, if_neg (by rintro ⟨-, -, h3⟩; omega)]
          exact ⟨_, rfl⟩
        · rw [checkXY_panic hxy]; exact ⟨_, rfl⟩
      · rw [checkChannels, if_pos (by simpa using hc)]; exact ⟨_, rfl⟩
    exact Res.iff_of_panics this hh

-- a slice of 3 + 256 values passes the u8 length check but is still refused
example : checkChannels 3 259 = .ok () ∧
    Res.Panics (demo.setPixel .release 0 0 (List.replicate 259 0)) :=
  ⟨rfl, ((c02_set_pixel .release demo demo_WF 0 0 _).2).2 (by
    rintro ⟨-, -, h⟩; rw [List.length_replicate] at h; exact absurd h (by decide))⟩
example : Res.Returns (demo.setPixel .debug 1 1 [0, 0, 0]) := ⟨_, rfl⟩

/-! ## C03 — addressing -/

/-- **C03** All addressing functions give the same slice of `data()`. -/
theorem c03_addressing_agrees (P : Profile) (img : Image T) (h : img.WF) (x y : Nat)
    (hx : x < img.info.width) (hy : y < img.info.height) :
    ∃ p i, img.getPixel P x y = .ok p ∧ img.getPixelUnchecked P x y = .ok p ∧
      img.at' P (y * img.info.width + x) = .ok p ∧
      img.index P x y = .ok i ∧ slice img.data i (i + img.info.channels) = .ok p ∧
      ∃ back, img.getPixelMut P x y = .ok (p, back) ∧
        ∃ back', img.getPixelMutUnchecked P x y = .ok (p, back') ∧
          ∀ q, q.length = img.info.channels → back' q = back q ∧ img.setPixel P x y q = .ok (back q) := by
  have h0 := row_lt hx hy
  have h1 : (y * img.info.width + x + 1) * img.info.channels ≤
    img.info.width * img.info.height * img.info.channels := Nat.mul_le_mul_right _ h0
  rw [Nat.succ_mul] at h1
  have hf := h.full
  have hl := h.length
  have hs := h.size
  refine ⟨img.px x y, (y * img.info.width + x) * img.info.channels, Image.getPixel_eq P h hx hy,
    ?_, Image.at_eq P h h0, Image.index_eq P h hx hy, ?_, ?_⟩
  · unfold Image.getPixelUnchecked
    rw [u32Mul_ok (by omega), ok_bind, u32Add_ok (by omega), ok_bind, Image.at_eq P h h0]; rfl
  · rw [slice_ok (by omega) (by omega)]
    simp [Image.px]
  · unfold Image.getPixelMut
    rw [checkXY_ok hx hy, ok_bind, Image.index_eq P h hx hy, ok_bind, usizeAdd_ok (by omega),
      ok_bind, slice_ok (by omega) (by omega), ok_bind]
    refine ⟨_, by rw [Nat.add_sub_cancel_left]; rfl, ?_⟩
    unfold Image.getPixelMutUnchecked
    rw [u32Mul_ok (by omega), ok_bind, u32Add_ok (by omega), ok_bind]
    unfold Image.atMut
    rw [usizeMul_ok (by omega), ok_bind, usizeAdd_ok (by omega), ok_bind, slice_ok (by omega) (by omega), ok_bind]
    refine ⟨_, by rw [Nat.add_sub_cancel_left]; rfl, fun q hq => ⟨rfl, ?_⟩⟩
    rw [Image.setPixel_eq P h hx hy hq]
    simp [Image.write, Nat.add_comm]

/-- **C03** Distinct coordinates own disjoint index ranges, all inside the buffer. -/
theorem c03_disjoint (P : Profile) (img : Image T) (h : img.WF) (x y x' y' i i' : Nat)
    (hx : x < img.info.width) (hy : y < img.info.height)
    (hx' : x' < img.info.width) (hy' : y' < img.info.height) (hne : (x, y) ≠ (x', y'))
    (hi : img.index P x y = .ok i) (hi' : img.index P x' y' = .ok i') :
    (i + img.info.channels ≤ i' ∨ i' + img.info.channels ≤ i) ∧
      i + img.info.channels ≤ img.data.length := by
  rw [Image.index_eq P h hx hy] at hi
  rw [Image.index_eq P h hx' hy'] at hi'
  injection hi with hi; injection hi' with hi'
  subst hi; subst hi'
  have hne' : y * img.info.width + x ≠ y' * img.info.width + x' := by
    intro e; obtain ⟨a, b⟩ := (row_inj hx hx').1 e; exact hne (by rw [a, b])
  constructor
  · rcases Nat.lt_or_gt_of_ne hne' with hlt | hlt
    · left
      have := Nat.mul_le_mul_right img.info.channels (Nat.succ_le_of_lt hlt)
      rw [Nat.succ_mul] at this; exact this
    · right
      have := Nat.mul_le_mul_right img.info.channels (Nat.succ_le_of_lt hlt)
      rw [Nat.succ_mul] at this; exact this
  · have := Nat.mul_le_mul_right img.info.channels (Nat.succ_le_of_lt (row_lt hx hy))
    rw [Nat.succ_mul] at this; rw [h.length]; exact this

theorem range_mul_flatMap {S} (w : Nat) (B : Nat → List S) :
    ∀ h, (List.range (w * h)).flatMap B =
      (List.range h).flatMap (fun y => (List.range w).flatMap (fun x => B (y * w + x)))
  | 0 => by simp
  | h + 1 => by
    rw [List.range_succ, List.flatMap_append, ← range_mul_flatMap w B h, Nat.mul_succ,
      List.range_add, List.flatMap_append]
    simp [List.flatMap_map, Nat.mul_comm]

/-- **C03** The pixel slices, read in row-major order, are exactly `data()`. -/
theorem c03_tiles (img : Image T) (h : img.WF) (f : Nat → Nat → List T)
    (hf : ∀ x y, x < img.info.width → y < img.info.height → img.getPixel .debug x y = .ok (f x y)) :
    (List.range img.info.height).flatMap
      (fun y => (List.range img.info.width).flatMap (fun x => f x y)) = img.data := by
  have : (List.range img.info.height).flatMap
      (fun y => (List.range img.info.width).flatMap (fun x => f x y)) =
    (List.range img.info.height).flatMap
      (fun y => (List.range img.info.width).flatMap
        (fun x => chunk img.data img.info.channels (y * img.info.width + x))) := by
    refine flatMap_congr' fun y hy => flatMap_congr' fun x hx => ?_
    rw [List.mem_range] at hx hy
    have := hf x y hx hy
    rw [Image.getPixel_eq _ h hx hy] at this
    injection this with this
    rw [← this]; rfl
  rw [this, ← range_mul_flatMap, flatMap_chunk h.length]

example : ∃ i, demo.index .debug 1 1 = .ok i ∧ i = 9 ∧ demo.getPixel .debug 1 1 = .ok [10, 11, 12] :=
  ⟨_, rfl, rfl, rfl⟩

/-! ## C04 — constructors -/

/-- block number `i` of `c` consecutive values -/
def group (l : List T) (c i : Nat) : List T := (l.drop (i * c)).take c

/-- the caller's header fits the machine types -/
def Fits (w h c : Nat) : Prop :=
  w < U32SIZE ∧ h < U32SIZE ∧ c < 256 ∧ w * h < U32SIZE ∧ w * h * c < U32SIZE

theorem Fits.wf {w h c : Nat} (hf : Fits w h c) (al : Bool) : (ImageInfo.mk w h c al).WF :=
  ⟨hf.1, hf.2.1, hf.2.2.1, hf.2.2.2.1, hf.2.2.2.2⟩

theorem of_data {w h c : Nat} {al : Bool} (hf : Fits w h c) {d : List T} (hd : d.length = w * h * c) :
    (Image.fromVec w h c al d).Shows ⟨w, h, c, al⟩ (fun x y => group d c (y * w + x)) :=
  Image.shows_iff.2 ⟨⟨hf.1, hf.2.1, hf.2.2.1, hf.2.2.2.1, hf.2.2.2.2, hd⟩, rfl, fun _ _ _ _ => rfl⟩

/-- **C04** `from_slice` and `from_vec`. -/
theorem c04_from_vec {w h c : Nat} (al : Bool) (hf : Fits w h c) (d : List T)
    (hd : d.length = w * h * c) :
    (Image.fromVec w h c al d).Shows ⟨w, h, c, al⟩ (fun x y => group d c (y * w + x)) ∧
    (Image.fromSlice w h c al d).Shows ⟨w, h, c, al⟩ (fun x y => group d c (y * w + x)) ∧
    (Image.fromVec w h c al d).data = d ∧ (Image.fromSlice w h c al d).data = d :=
  ⟨of_data hf hd, of_data hf hd, rfl, rfl⟩

/-- **C04** `from_vec_of_vec` and `from_vec_of_slice`: pixel `(x, y)` is the `(y*w+x)`-th group of
the concatenation, however the parts are cut. -/
theorem c04_from_vec_of (P : Profile) {w h c : Nat} (al : Bool) (hf : Fits w h c)
    (parts : List (List T)) (hd : parts.flatten.length = w * h * c) :
    ∃ img, Image.fromVecOfVec P w h c al parts = .ok img ∧
      Image.fromVecOfSlice P w h c al parts = .ok img ∧ img.data = parts.flatten ∧
      img.Shows ⟨w, h, c, al⟩ (fun x y => group parts.flatten c (y * w + x)) := by
  have e : (forList parts [] fun v out => (.ok (out ++ v) : Res (List T))) = .ok parts.flatten := by
    rw [forList_collect parts [] (fun v out => .ok (out ++ v)) id (fun a _ acc => rfl)]
    simp
  refine ⟨Image.fromVec w h c al parts.flatten, ?_, ?_, rfl, of_data hf hd⟩
  · unfold Image.fromVecOfVec
    rw [u32Mul_ok hf.2.2.2.1, ok_bind, u32Mul_ok hf.2.2.2.2, ok_bind, e]; rfl
  · unfold Image.fromVecOfSlice
    rw [u32Mul_ok hf.2.2.2.1, ok_bind, u32Mul_ok hf.2.2.2.2, ok_bind, e]; rfl

/-- **C04** In particular, a vector of `w*h` pixel slices of `c` values places slice `y*w+x` at
`(x, y)`. -/
theorem c04_from_pixels (P : Profile) {w h c : Nat} (al : Bool) (hf : Fits w h c)
    (pixels : List (List T)) (hn : pixels.length = w * h) (hc : ∀ p ∈ pixels, p.length = c) :
    ∃ img, Image.fromVecOfSlice P w h c al pixels = .ok img ∧
      ∀ Q x y p, x < w → y < h → pixels[y * w + x]? = some p → img.getPixel Q x y = .ok p := by
  have hB : ∀ i < w * h, ((pixels[i]?).getD []).length = c := by
    intro i hi
    rw [List.getElem?_eq_getElem (by omega)]
    exact hc _ (List.getElem_mem _)
  have hfl : (List.range (w * h)).flatMap (fun i => (pixels[i]?).getD []) = pixels.flatten := by
    rw [List.flatMap_def]
    congr 1
    rw [← hn]
    apply List.ext_getElem?
    intro k
    by_cases hk : k < pixels.length
    · simp [List.getElem?_map, List.getElem?_range hk, List.getElem?_eq_getElem hk]
    · rw [List.getElem?_eq_none (by simpa using hk), List.getElem?_eq_none (by omega)]
  have hlen : pixels.flatten.length = w * h * c := by
    rw [← hfl]; exact flatMap_range_length _ c _ hB
  obtain ⟨img, -, e, -, hs⟩ := c04_from_vec_of P al hf pixels hlen
  refine ⟨img, e, fun Q x y p hx hy hp => ?_⟩
  rw [hs.2.2 Q x y hx hy]
  have := chunk_flatMap_range _ c _ hB _ (row_lt hx hy)
  rw [hfl, hp] at this
  exact congrArg Except.ok this

/-- **C04** `blank` is all zeros; in overflow-checked builds it panics exactly when the size
product does not fit u32. -/
theorem c04_blank (P : Profile) (N : RNum T) {w h c : Nat} (al : Bool) (hf : Fits w h c) :
    ∃ img, Image.blank P N ⟨w, h, c, al⟩ = .ok img ∧
      img.Shows ⟨w, h, c, al⟩ (fun _ _ => List.replicate c (N.ofU8 0)) := by
  unfold Image.blank
  rw [ImageInfo.fullSize_eq P (hf.wf al), ok_bind]
  refine ⟨_, rfl, Image.shows_iff.2 ⟨⟨hf.1, hf.2.1, hf.2.2.1, hf.2.2.2.1, hf.2.2.2.2, by simp⟩, rfl, ?_⟩⟩
  intro x y hx hy
  have h1 := Nat.mul_le_mul_right c (Nat.succ_le_of_lt (row_lt (w := w) (h := h) hx hy))
  rw [Nat.succ_mul] at h1
  simp only [Image.px, List.drop_replicate, List.take_replicate]
  congr 1; omega

/-- **C04** (overflow) In debug builds `blank` panics when the number of pixels or of channel values does not fit in 32 bits. -/
theorem c04_blank_overflow (N : RNum T) (w h c : Nat) (al : Bool)
    (hov : ¬ (w * h < U32SIZE ∧ w * h * c < U32SIZE)) :
    Res.Panics (Image.blank .debug N ⟨w, h, c, al⟩) := by
  unfold Image.blank ImageInfo.fullSize u32Mul wrapNat
  by_cases h1 : w * h < U32SIZE
  · simp only [h1, if_true, ok_bind]
    rw [if_neg (fun h2 => hov ⟨h1, h2⟩)]; exact ⟨_, rfl⟩
  · simp only [h1, if_false]; exact ⟨_, rfl⟩

example : Fits 2 2 3 ∧ ([[1, 2, 3], [4, 5, 6], [7, 8, 9], [10, 11, 12]] : List (List UInt8)).flatten.length
    = 2 * 2 * 3 := by unfold Fits; decide
example : (Image.fromVecOfVec .debug 2 2 3 false
    ([[1, 2, 3], [4, 5, 6], [7, 8, 9], [10, 11, 12]] : List (List UInt8))) = .ok demo := rfl

/-! ## C05 — map_channels -/

/-- **C05** `map_channels f` applies `f` to every channel and keeps the header. -/
theorem c05_map_channels (P : Profile) (img : Image T) (h : img.WF) (f : T → S) :
    ∃ out, img.mapChannels P (fun v => .ok (f v)) = .ok out ∧
      out.Shows img.info (fun x y => (img.px x y).map f) :=
  ⟨_, Image.mapChannels_eq P h (fun _ _ => rfl), Image.mapChannels_shows h f⟩

/-- **C05** `map_channels_if_alpha f g` on an image with alpha: `g` on the last channel, `f` on the
others; without alpha it is `map_channels f`. -/
theorem c05_map_channels_if_alpha (P : Profile) (img : Image T) (h : img.WF) (f g : T → S)
    (hc : img.info.alpha = true → 0 < img.info.channels) :
    ∃ out, img.mapChannelsIfAlpha P (fun v => .ok (f v)) (fun v => .ok (g v)) = .ok out ∧
      out.Shows img.info (fun x y =>
        if img.info.alpha then onAlpha f g (img.px x y) else (img.px x y).map f) := by
  cases ha : img.info.alpha with
  | true =>
    simpa using Image.mapChannelsIfAlpha_eq P h ha (hc ha) (f' := f) (g' := g) (fun _ _ => rfl)
      (fun _ _ => rfl)
  | false =>
    obtain ⟨out, e, hs⟩ := c05_map_channels P img h f
    refine ⟨out, ?_, by simpa using hs⟩
    unfold Image.mapChannelsIfAlpha
    rw [ha]; simpa using e

example : ∃ out, demoA.mapChannelsIfAlpha .debug (fun v => .ok (v + 10)) (fun v => .ok (v + 100)) = .ok out
    ∧ out.data = [11, 12, 13, 104, 15, 16, 17, 108] := ⟨_, rfl, rfl⟩

/-! ## C06 — map_pixels -/

/-- a closure that pushes `f p` onto the output vector -/
def pushes (f : List T → List S) : List T → List S → Res (List S) := fun p out => .ok (out ++ f p)

/-- **C06** `map_pixels`. -/
theorem c06_map_pixels (P : Profile) (img : Image T) (h : img.WF)
    (hpos : 0 < img.info.width ∧ 0 < img.info.height) (k : Nat) (hk : k < 256)
    (hfull : img.info.width * img.info.height * k < U32SIZE) (f : List T → List S)
    (hf : ∀ p, p.length = img.info.channels → (f p).length = k) :
    ∃ out, img.mapPixels P (pushes f) = .ok out ∧
      out.Shows { img.info with channels := k } (fun x y => f (img.px x y)) :=
  Image.mapPixels_eq P h (Nat.mul_pos hpos.1 hpos.2) hk hfull (fun _ _ => by simp [pushes])
    (fun _ hi => hf _ (chunk_length h.length hi))

/-- **C06** `map_pixels_if_alpha` on an image with alpha: the closure sees the colour part. -/
theorem c06_map_pixels_if_alpha (P : Profile) (img : Image T) (h : img.WF) (ha : img.info.alpha = true)
    (hc : 0 < img.info.channels)
    (hpos : 0 < img.info.width ∧ 0 < img.info.height) (k : Nat) (hk : k + 1 < 256)
    (hfull : img.info.width * img.info.height * (k + 1) < U32SIZE) (f : List T → List S) (g : T → S)
    (hf : ∀ p, p.length + 1 = img.info.channels → (f p).length = k) :
    ∃ out, img.mapPixelsIfAlpha P (pushes f) (fun v => .ok (g v)) = .ok out ∧
      out.Shows { img.info with channels := k + 1 } (fun x y => onAlphaPixel f g (img.px x y)) :=
  Image.mapPixels_alpha_eq P h ha (Nat.mul_pos hpos.1 hpos.2) hc hk hfull (fun _ _ => by simp [pushes])
    (fun _ hi => hf _ (by rw [List.length_dropLast, chunk_length h.length hi]; omega)) (fun _ _ => rfl)

/-- **C06** without alpha, `map_pixels_if_alpha` is `map_pixels`. -/
theorem c06_map_pixels_if_no_alpha (P : Profile) (img : Image T) (ha : img.info.alpha = false)
    (f : List T → List S → Res (List S)) (g : T → Res S) :
    img.mapPixelsIfAlpha P f g = img.mapPixels P f := by
  unfold Image.mapPixelsIfAlpha; simp [ha]

/-- **C06** an image without pixels makes both panic. -/
theorem c06_zero_size_panics (P : Profile) (img : Image T)
    (h0 : img.info.width = 0 ∨ img.info.height = 0)
    (f : List T → List S → Res (List S)) (g : T → Res S) :
    Res.Panics (img.mapPixels P f) ∧ Res.Panics (img.mapPixelsIfAlpha P f g) := by
  have hz : img.info.width * img.info.height = 0 := Nat.mul_eq_zero.2 h0
  have e : img.info.size P = .ok 0 := by
    unfold ImageInfo.size; rw [u32Mul_ok (by rw [hz]; decide), hz]
  have h1 : Res.Panics (img.mapPixels P f) := by
    unfold Image.mapPixels
    rw [e, ok_bind, forRange_empty (Nat.le_refl _), ok_bind, ok_bind]
    exact ⟨_, rfl⟩
  refine ⟨h1, ?_⟩
  unfold Image.mapPixelsIfAlpha
  cases img.info.alpha
  · simpa using h1
  · simp only [Bool.not_true, Bool.false_eq_true, if_false]
    rw [e, ok_bind, forRange_empty (Nat.le_refl _), ok_bind, ok_bind]
    exact ⟨_, rfl⟩

example : ∃ out, demo.mapPixels .debug (pushes (fun p => p.take 1)) = .ok out ∧
    out = Image.fromVec 2 2 1 false [1, 4, 7, 10] := ⟨_, rfl, rfl⟩
example : ∃ out, demoA.mapPixelsIfAlpha .debug (pushes (fun p => p.take 1)) (fun a => .ok a) = .ok out ∧
    out = Image.fromVec 2 1 2 true [1, 4, 5, 8] := ⟨_, rfl, rfl⟩

/-! ## C07 — in-place = copying -/

/-- **C07** `apply_pixels` = `map_pixels`. -/
theorem c07_apply_pixels (P : Profile) (img : Image T) (h : img.WF)
    (hpos : 0 < img.info.width ∧ 0 < img.info.height) (f : List T → List T)
    (hf : ∀ p, p.length = img.info.channels → (f p).length = img.info.channels) :
    ∃ out, img.applyPixels P (pushes f) = .ok out ∧ img.mapPixels P (pushes f) = .ok out := by
  obtain ⟨o1, e1, s1⟩ := c06_map_pixels P img h hpos img.info.channels h.channels h.full f hf
  obtain ⟨o2, e2, s2⟩ := Image.applyPixels_eq P h (f := pushes f) (f' := f) (fun _ _ => by simp [pushes])
    (fun _ hi => hf _ (chunk_length h.length hi))
  have : o1 = o2 := Image.Shows.ext s1 s2
  exact ⟨o2, e2, this ▸ e1⟩

/-- **C07** `apply_pixels_if_alpha` = `map_pixels_if_alpha`. -/
theorem c07_apply_pixels_if_alpha (P : Profile) (img : Image T) (h : img.WF)
    (hc : img.info.alpha = true → 0 < img.info.channels)
    (hpos : 0 < img.info.width ∧ 0 < img.info.height) (f : List T → List T) (g : T → T)
    (hf : ∀ p : List T, (f p).length = p.length) :
    ∃ out, img.applyPixelsIfAlpha P (pushes f) (fun v => .ok (g v)) = .ok out ∧
      img.mapPixelsIfAlpha P (pushes f) (fun v => .ok (g v)) = .ok out := by
  cases ha : img.info.alpha with
  | false =>
    obtain ⟨out, e1, e2⟩ := c07_apply_pixels P img h hpos f (fun p hp => by rw [hf, hp])
    refine ⟨out, ?_, ?_⟩
    · unfold Image.applyPixelsIfAlpha; simpa [ha] using e1
    · unfold Image.mapPixelsIfAlpha; simpa [ha] using e2
  | true =>
    have hc' := hc ha
    obtain ⟨k, hk⟩ : ∃ k, img.info.channels = k + 1 := ⟨img.info.channels - 1, by omega⟩
    obtain ⟨o1, e1, s1⟩ := c06_map_pixels_if_alpha P img h ha hc' hpos k (by have := h.channels; omega)
      (by rw [← hk]; exact h.full) f g (fun p hp => by rw [hf]; omega)
    obtain ⟨o2, e2, s2⟩ := Image.applyPixels_alpha_eq P h ha hc' (f := pushes f) (f' := f)
      (g := fun v => .ok (g v)) (g' := g)
      (fun _ _ => by simp [pushes])
      (fun i hi => by rw [hf, List.length_dropLast, chunk_length h.length hi]; omega) (fun _ _ => rfl)
    have : o1 = o2 := by
      refine Image.Shows.ext s1 ?_
      rw [← hk]; exact s2
    exact ⟨o2, e2, this ▸ e1⟩

/-- **C07** `apply_channels` = `map_channels`. -/
theorem c07_apply_channels (P : Profile) (img : Image T) (h : img.WF) (f : T → T) :
    ∃ out, img.applyChannels P (fun v => .ok (f v)) = .ok out ∧
      img.mapChannels P (fun v => .ok (f v)) = .ok out :=
  ⟨_, Image.applyChannels_eq P h (fun _ _ => rfl), Image.mapChannels_eq P h (fun _ _ => rfl)⟩

/-- **C07** `apply_channels_if_alpha` = `map_channels_if_alpha`. -/
theorem c07_apply_channels_if_alpha (P : Profile) (img : Image T) (h : img.WF)
    (hc : img.info.alpha = true → 0 < img.info.channels) (f g : T → T) :
    ∃ out, img.applyChannelsIfAlpha P (fun v => .ok (f v)) (fun v => .ok (g v)) = .ok out ∧
      img.mapChannelsIfAlpha P (fun v => .ok (f v)) (fun v => .ok (g v)) = .ok out := by
  cases ha : img.info.alpha with
  | false =>
    obtain ⟨out, e1, e2⟩ := c07_apply_channels P img h f
    refine ⟨out, ?_, ?_⟩
    · unfold Image.applyChannelsIfAlpha; simpa [ha] using e1
    · unfold Image.mapChannelsIfAlpha; simpa [ha] using e2
  | true =>
    obtain ⟨o1, e1, s1⟩ := Image.mapChannelsIfAlpha_eq P h ha (hc ha) (f := fun v => .ok (f v))
      (g := fun v => .ok (g v)) (f' := f) (g' := g) (fun _ _ => rfl) (fun _ _ => rfl)
    obtain ⟨o2, e2, s2⟩ := Image.applyChannels_alpha_eq P h ha (hc ha) (f := fun v => .ok (f v))
      (g := fun v => .ok (g v)) (f' := f) (g' := g) (fun _ _ => rfl) (fun _ _ => rfl)
    have : o1 = o2 := Image.Shows.ext s1 s2
    exact ⟨o2, e2, this ▸ e1⟩

example : ∃ out, demoA.applyPixelsIfAlpha .debug (pushes List.reverse) (fun a => .ok (a + 1)) = .ok out ∧
    out.data = [3, 2, 1, 5, 7, 6, 5, 9] := ⟨_, rfl, rfl⟩

/-! ## C08 — edit_channel -/

theorem forStep_eq_range {σ} {N c i : Nat} (hi : i < c) (s : σ) (f : Nat → σ → Res σ) :
    forStep i (N * c) c s f = forRange 0 N s (fun k s => f (i + k * c) s) := by
  unfold forStep
  rw [if_neg (by omega)]
  congr 1
  rcases Nat.eq_zero_or_pos N with h0 | h0
  · subst h0; simp; omega
  · have : c ≤ N * c := Nat.le_mul_of_pos_left c h0
    have e : N * c - i + c - 1 = (c - 1 - i) + N * c := by omega
    rw [e, Nat.add_mul_div_right _ _ (by omega), Nat.div_eq_of_lt (by omega), Nat.zero_add]

theorem Image.editChannel_eq (P : Profile) {img : Image T} (h : img.WF) {f : T → Res T} {g : T → T} {k : Nat}
    (hk : k < img.info.channels)
    (hf : ∀ x y, x < img.info.width → y < img.info.height → ∀ v, (img.px x y)[k]? = some v → f v = .ok (g v)) :
    ∃ out, img.editChannel P f k = .ok out ∧
      out.Shows img.info (fun x y => (img.px x y).modify k g) := by
  unfold Image.editChannel
  rw [ImageInfo.fullSize_eq P h.infoWF, ok_bind, forStep_eq_range hk]
  refine Image.applyLoop h _ (fun i => (chunk img.data img.info.channels i).modify k g) ?_ ?_
  · intro i hi; rw [List.length_modify, chunk_length h.length hi]
  intro i hi im hw hinfo hch
  have h1 := Nat.mul_le_mul_right im.info.channels (Nat.succ_le_of_lt hi)
  rw [Nat.succ_mul, ← hinfo] at h1
  have hl := hw.length
  have hval : ∀ v, (chunk img.data img.info.channels i)[k]? = some v → f v = .ok (g v) := by
    obtain ⟨x, y, hx, hy, -, e⟩ := chunk_eq_px hi
    rw [e]; exact hf x y hx hy
  rw [← hinfo] at hk hi hch hval ⊢
  have hlt : k + i * im.info.channels < im.data.length := by rw [hl]; omega
  have hv := hval im.data[k + i * im.info.channels] (by
    rw [← hch, chunk_getElem? _ _ _ _ hk, Nat.add_comm, List.getElem?_eq_getElem hlt])
  rw [idx_ok hlt, ok_bind, hv, ok_bind, setIdx_ok hlt, ok_bind]
  congr 1
  unfold Image.write
  congr 1
  rw [← hch]
  -- setting one entry of the buffer = rewriting the block with that entry modified
  have hclen := chunk_length hl hi
  apply List.ext_getElem?
  intro j
  rw [List.getElem?_set]
  have ht : (im.data.take (i * im.info.channels)).length = i * im.info.channels := by
    rw [List.length_take]; omega
  rcases Nat.lt_or_ge j (i * im.info.channels) with hj | hj
  · rw [if_neg (by omega), List.append_assoc, List.getElem?_append_left (by omega),
      List.getElem?_take, if_pos hj]
  · rw [List.append_assoc, List.getElem?_append_right (by omega), ht]
    rcases Nat.lt_or_ge (j - i * im.info.channels) im.info.channels with hj2 | hj2
    · rw [List.getElem?_append_left (by simp [hclen]; omega), List.getElem?_modify,
        chunk_getElem? _ _ _ _ hj2]
      rw [show i * im.info.channels + (j - i * im.info.channels) = j by omega]
      by_cases hjk : k + i * im.info.channels = j
      · subst hjk
        simp [hlt]
      · rw [if_neg hjk]
        simp only [show ¬ (k = j - i * im.info.channels) by omega, if_false]; simp
    · rw [List.getElem?_append_right (by simp [hclen]; omega), if_neg (by omega),
        List.getElem?_drop, List.length_modify, hclen]
      congr 1; omega

/-- **C08** `edit_channel f k` replaces channel `k` of every pixel by `f` of it and changes nothing
else. -/
theorem c08_edit_channel (P : Profile) (img : Image T) (h : img.WF) (f : T → T) (k : Nat)
    (hk : k < img.info.channels) :
    ∃ out, img.editChannel P (fun v => .ok (f v)) k = .ok out ∧
      out.Shows img.info (fun x y => (img.px x y).modify k f) :=
  Image.editChannel_eq P h hk (fun _ _ _ _ _ _ => rfl)

example : ∃ out, demo.editChannel .debug (fun v => .ok (v + 100)) 1 = .ok out ∧
    out.data = [1, 102, 3, 4, 105, 6, 7, 108, 9, 10, 111, 12] := ⟨_, rfl, rfl⟩

/-! ## C09, C10 — the pixel iterator -/

/-- outputs of the first `k` calls of `next`, and the iterator afterwards -/
def iterate (P : Profile) (img : Image T) :
    Nat → PixelIter → Res (List (Option (Nat × Nat × List T)) × PixelIter)
  | 0, it => .ok ([], it)
  | k + 1, it => do
    let (outs, it) ← iterate P img k it
    let (o, it) ← it.next P img
    .ok (outs ++ [o], it)

/-- state of the iterator after `k` calls -/
def iterState (w h k : Nat) : PixelIter :=
  let k := min k (w * h)
  if k = 0 then ⟨0, 0, w - 1, h - 1⟩ else ⟨(k - 1) % w + 1, (k - 1) / w, w - 1, h - 1⟩

theorem next_spec (P : Profile) (img : Image T) (h : img.WF) (hw : 0 < img.info.width)
    (hh : 0 < img.info.height) (k : Nat) :
    (iterState img.info.width img.info.height k).next P img = .ok
      (if k < img.info.width * img.info.height then
        some (k % img.info.width, k / img.info.width, img.px (k % img.info.width) (k / img.info.width))
       else none, iterState img.info.width img.info.height (k + 1)) := by
  have hwl := h.width
  have hhl := h.height
  have hpos := Nat.mul_pos hw hh
  by_cases hk : k < img.info.width * img.info.height
  · rw [if_pos hk]
    have hdiv : k / img.info.width < img.info.height := by
      rw [Nat.div_lt_iff_lt_mul hw, Nat.mul_comm]; exact hk
    have hmod : k % img.info.width < img.info.width := Nat.mod_lt _ hw
    have hst : iterState img.info.width img.info.height (k + 1) =
        ⟨k % img.info.width + 1, k / img.info.width, img.info.width - 1, img.info.height - 1⟩ := by
      unfold iterState
      rw [Nat.min_eq_left (by omega)]
      simp
    rw [hst]
    -- the coordinates the call reads, and the state it leaves
    have key : ∀ it : PixelIter, it.xMax = img.info.width - 1 → it.yMax = img.info.height - 1 →
        ((it.x = k % img.info.width ∧ it.y = k / img.info.width) ∨
         (it.x = img.info.width ∧ k % img.info.width = 0 ∧ it.y + 1 = k / img.info.width)) →
        it.next P img = .ok (some (k % img.info.width, k / img.info.width,
            img.px (k % img.info.width) (k / img.info.width)),
          ⟨k % img.info.width + 1, k / img.info.width, img.info.width - 1, img.info.height - 1⟩) := by
      rintro ⟨x, y, xm, ym⟩ rfl rfl (⟨hx, hy⟩ | ⟨hx, hm, hy⟩)
      · simp only at hx hy
        subst hx; subst hy
        unfold PixelIter.next
        simp only
        rw [if_neg (by omega), if_neg (by omega), ok_bind]
        simp only
        rw [u32Add_ok (by omega), ok_bind, Image.getPixel_eq P h hmod hdiv, ok_bind]
      · simp only at hx hm hy
        subst hx
        unfold PixelIter.next
        simp only
        rw [if_neg (by omega), if_pos (by omega), u32Add_ok (by omega), ok_bind, ok_bind]
        simp only
        rw [u32Add_ok (by omega), ok_bind, hy, ← hm, Image.getPixel_eq P h hmod hdiv, ok_bind]
    apply key
    · unfold iterState; simp only; split <;> rfl
    · unfold iterState; simp only; split <;> rfl
    · unfold iterState
      simp only
      rw [Nat.min_eq_left (by omega)]
      by_cases hk0 : k = 0
      · subst hk0; simp
      · rw [if_neg hk0]
        simp only
        by_cases hm0 : k % img.info.width = 0
        · right
          have hd := Nat.div_add_mod k img.info.width
          rw [hm0] at hd
          have hqpos : 0 < k / img.info.width := by
            rcases Nat.eq_zero_or_pos (k / img.info.width) with h0 | h0
            · rw [h0] at hd; simp at hd; omega
            · exact h0
          obtain ⟨q, hq⟩ : ∃ q, k / img.info.width = q + 1 := ⟨_, (Nat.succ_pred_eq_of_pos hqpos).symm⟩
          rw [hq, Nat.mul_succ] at hd
          have e : k - 1 = img.info.width * q + (img.info.width - 1) := by omega
          refine ⟨?_, hm0, ?_⟩
          · rw [e, Nat.mul_add_mod, Nat.mod_eq_of_lt (by omega)]; omega
          · rw [e, Nat.mul_add_div hw, Nat.div_eq_of_lt (by omega), hq]
        · left
          have hd := Nat.div_add_mod k img.info.width
          have e : k - 1 = img.info.width * (k / img.info.width) + (k % img.info.width - 1) := by omega
          refine ⟨?_, ?_⟩
          · rw [e, Nat.mul_add_mod, Nat.mod_eq_of_lt (by omega)]; omega
          · rw [e, Nat.mul_add_div hw, Nat.div_eq_of_lt (show k % img.info.width - 1 < img.info.width by omega), Nat.add_zero]
  · rw [if_neg hk]
    have hst : ∀ m, img.info.width * img.info.height ≤ m →
        iterState img.info.width img.info.height m =
          ⟨img.info.width, img.info.height - 1, img.info.width - 1, img.info.height - 1⟩ := by
      intro m hm
      unfold iterState
      rw [Nat.min_eq_right hm]
      simp only
      rw [if_neg (by omega)]
      obtain ⟨q, hq⟩ : ∃ q, img.info.height = q + 1 := ⟨_, (Nat.succ_pred_eq_of_pos hh).symm⟩
      have e : img.info.width * img.info.height - 1 = img.info.width * q + (img.info.width - 1) := by
        rw [hq, Nat.mul_succ]; omega
      rw [e, Nat.mul_add_mod, Nat.mod_eq_of_lt (by omega), Nat.mul_add_div hw,
        Nat.div_eq_of_lt (by omega), hq, Nat.add_zero, show img.info.width - 1 + 1 = img.info.width by omega]
      rfl
    rw [hst k (by omega), hst (k + 1) (by omega)]
    unfold PixelIter.next
    simp only
    rw [if_pos ⟨by omega, Nat.le_refl _⟩]

theorem new_eq (P : Profile) (img : Image T) (hw : 0 < img.info.width) (hh : 0 < img.info.height) :
    PixelIter.new P img = .ok (iterState img.info.width img.info.height 0) := by
  unfold PixelIter.new
  rw [u32Sub_ok (by omega), ok_bind, u32Sub_ok (by omega), ok_bind]
  simp [iterState]

theorem iterate_eq (P : Profile) (img : Image T) (h : img.WF) (hw : 0 < img.info.width)
    (hh : 0 < img.info.height) : ∀ k, iterate P img k (iterState img.info.width img.info.height 0) = .ok
      ((List.range k).map (fun i => if i < img.info.width * img.info.height then
        some (i % img.info.width, i / img.info.width, img.px (i % img.info.width) (i / img.info.width))
        else none), iterState img.info.width img.info.height k)
  | 0 => rfl
  | k + 1 => by
    unfold iterate
    rw [iterate_eq P img h hw hh k, ok_bind]
    simp only
    rw [next_spec P img h hw hh k, ok_bind]
    simp only [List.range_succ, List.map_append, List.map_cons, List.map_nil]

/-- **C09** The first `n` calls of `next` (any `n`) return, in order, the pixels
`(i mod w, i div w)` with their `get_pixel` value for `i < w*h`, and `None` from then on. -/
theorem c09_iterator (P : Profile) (img : Image T) (h : img.WF) (hw : 0 < img.info.width)
    (hh : 0 < img.info.height) (n : Nat) :
    ∃ it0 it outs, PixelIter.new P img = .ok it0 ∧ iterate P img n it0 = .ok (outs, it) ∧
      outs.length = n ∧
      (∀ i, i < n → i < img.info.width * img.info.height → ∃ p,
        img.getPixel P (i % img.info.width) (i / img.info.width) = .ok p ∧
        outs[i]? = some (some (i % img.info.width, i / img.info.width, p))) ∧
      (∀ i, i < n → img.info.width * img.info.height ≤ i → outs[i]? = some none) := by
  refine ⟨_, _, _, new_eq P img hw hh, iterate_eq P img h hw hh n, by simp, ?_, ?_⟩
  · intro i hi hN
    have hdiv : i / img.info.width < img.info.height := by
      rw [Nat.div_lt_iff_lt_mul hw, Nat.mul_comm]; exact hN
    refine ⟨_, Image.getPixel_eq P h (Nat.mod_lt _ hw) hdiv, ?_⟩
    rw [List.getElem?_map, List.getElem?_range hi]; simp [hN]
  · intro i hi hN
    rw [List.getElem?_map, List.getElem?_range hi]; simp; omega

example : ∃ outs it, (do let it ← PixelIter.new .debug demo; iterate .debug demo 5 it) = .ok (outs, it) ∧
    outs = [some (0, 0, [1, 2, 3]), some (1, 0, [4, 5, 6]), some (0, 1, [7, 8, 9]),
      some (1, 1, [10, 11, 12]), none] := ⟨_, _, rfl, rfl⟩

/-- The std contract of `size_hint` with `remaining` items to come. -/
def HintContract (remaining : Nat) (hint : Nat × Option Nat) : Prop :=
  hint.1 ≤ remaining ∧ ∀ u, hint.2 = some u → remaining ≤ u

/-- **C10** (violated by the code) The hint is the total pixel count at every position, so the
contract holds exactly before the first `next` (`k = 0`): this is the part that is true.
Missing for the full property: positions `k ≥ 1`, where the lower bound is too large. -/
theorem c10_size_hint_partial (P : Profile) (img : Image T) (h : img.WF) (hw : 0 < img.info.width)
    (hh : 0 < img.info.height) (k : Nat) (hk : k ≤ img.info.width * img.info.height) :
    ∃ it0 outs it hint, PixelIter.new P img = .ok it0 ∧ iterate P img k it0 = .ok (outs, it) ∧
      it.sizeHint P = .ok hint ∧
      (HintContract (img.info.width * img.info.height - k) hint ↔ k = 0) := by
  refine ⟨_, _, _, (img.info.width * img.info.height, some (img.info.width * img.info.height)),
    new_eq P img hw hh, iterate_eq P img h hw hh k, ?_, ?_⟩
  · have hx : (iterState img.info.width img.info.height k).xMax = img.info.width - 1 := by
      unfold iterState; simp only; split <;> rfl
    have hy : (iterState img.info.width img.info.height k).yMax = img.info.height - 1 := by
      unfold iterState; simp only; split <;> rfl
    have hwl := h.width
    have hhl := h.height
    unfold PixelIter.sizeHint
    rw [hx, hy, u32Add_ok (by omega), ok_bind, u32Add_ok (by omega), ok_bind,
      show img.info.width - 1 + 1 = img.info.width by omega,
      show img.info.height - 1 + 1 = img.info.height by omega, u32Mul_ok h.size, ok_bind]
  · have := Nat.mul_pos hw hh
    unfold HintContract
    simp only [Option.some.injEq]
    constructor
    · rintro ⟨h1, -⟩; omega
    · rintro rfl; exact ⟨by omega, fun u hu => by omega⟩

/-- **C10** counterexample: a 1×1 image after one `next` has nothing left but promises one item. -/
theorem c10_violated : ∃ it outs, (do
      let it ← PixelIter.new .debug (Image.fromVec 1 1 1 false [(0 : UInt8)])
      iterate .debug (Image.fromVec 1 1 1 false [(0 : UInt8)]) 1 it) = .ok (outs, it) ∧
    it.sizeHint .debug = .ok (1, some 1) ∧ ¬ HintContract 0 (1, some 1) :=
  ⟨_, _, rfl, rfl, by simp [HintContract]⟩

/-! ## C13 — pixel slices -/

/-- **C13** `alpha`, `channels_without_alpha` and the maps on a non-empty slice. -/
theorem c13_pixel_helpers (P : Profile) (q : List T) (a : T) (f g : T → S) :
    Pixel.alpha P (q ++ [a]) = .ok a ∧
    Pixel.channelsWithoutAlpha P (q ++ [a]) = .ok q ∧
    Pixel.mapAlpha P (q ++ [a]) (fun v => .ok (f v)) (fun v => .ok (g v)) = .ok (q.map f ++ [g a]) ∧
    Pixel.mapAll (q ++ [a]) (fun v => .ok (f v)) = .ok ((q ++ [a]).map f) := by
  have hne : q ++ [a] ≠ [] := by simp
  refine ⟨?_, ?_, ?_, ?_⟩
  · rw [Pixel.alpha_eq P hne]; simp
  · rw [Pixel.channelsWithoutAlpha_eq P hne]; simp
  · rw [Pixel.mapAlpha_eq P hne (f' := f) (g' := g) (fun _ _ => rfl) (fun _ _ => rfl), onAlpha_eq _ _ hne]
    simp
  · exact Pixel.mapAll_eq (fun _ _ => rfl)

/-- **C13** in-place `apply`/`apply_alpha` agree with `map_all`/`map_alpha` on every slice. -/
theorem c13_apply_eq_map (P : Profile) (p : List T) (f g : T → T) :
    Pixel.apply p (fun v => .ok (f v)) = Pixel.mapAll p (fun v => .ok (f v)) ∧
    (p ≠ [] → Pixel.applyAlpha P p (fun v => .ok (f v)) (fun v => .ok (g v)) =
      Pixel.mapAlpha P p (fun v => .ok (f v)) (fun v => .ok (g v))) := by
  refine ⟨?_, fun hne => ?_⟩
  · rw [Pixel.apply_eq (f' := f) (fun _ _ => rfl), Pixel.mapAll_eq (f' := f) (fun _ _ => rfl)]
  · rw [Pixel.applyAlpha_eq P hne (f' := f) (g' := g) (fun _ _ => rfl) (fun _ _ => rfl),
      Pixel.mapAlpha_eq P hne (f' := f) (g' := g) (fun _ _ => rfl) (fun _ _ => rfl)]

/-- **C13** blackness tests (for any channel type, `==` against `0.into()`). -/
theorem c13_is_black (P : Profile) (N : RNum T) (p : List T) :
    (Pixel.isBlack N p = true ↔ ∀ c ∈ p, N.eq c (N.ofU8 0) = true) ∧
    (p ≠ [] → ∃ b, Pixel.isBlackAlpha P N p = .ok b ∧
      (b = true ↔ ∀ c ∈ p.dropLast, N.eq c (N.ofU8 0) = true)) := by
  refine ⟨by rw [Pixel.isBlack_eq]; simp, fun hne => ?_⟩
  refine ⟨Pixel.isBlack N p.dropLast, ?_, by rw [Pixel.isBlack_eq]; simp⟩
  unfold Pixel.isBlackAlpha
  rw [Pixel.channelsWithoutAlpha_eq P hne, ok_bind]

/-- **C13** on an empty slice every alpha-based helper panics. -/
theorem c13_empty_panics (P : Profile) (N : RNum T) (f g : T → Res S) (f1 g1 : T → Res T) :
    Res.Panics (Pixel.alpha P ([] : List T)) ∧
    Res.Panics (Pixel.channelsWithoutAlpha P ([] : List T)) ∧
    Res.Panics (Pixel.mapAlpha P ([] : List T) f g) ∧
    Res.Panics (Pixel.isBlackAlpha P N ([] : List T)) ∧
    (P = .debug → Res.Panics (Pixel.applyAlpha P ([] : List T) f1 g1)) := by
  refine ⟨Pixel.alpha_nil P, Pixel.channelsWithoutAlpha_nil P,
    (Pixel.channelsWithoutAlpha_nil P).bind _, (Pixel.channelsWithoutAlpha_nil P).bind _, ?_⟩
  rintro rfl
  exact ⟨.overflow, rfl⟩

/-- **C13** `apply_alpha` on an empty slice panics in release builds too (the wrapped loop bound
`0 - 1` makes the first element access fail). -/
theorem c13_apply_alpha_empty_release (f g : T → Res T) :
    Res.Panics (Pixel.applyAlpha .release ([] : List T) f g) := by
  refine ⟨.index, ?_⟩
  unfold Pixel.applyAlpha
  have : usizeSub .release ([] : List T).length 1 = .ok 18446744073709551615 := rfl
  rw [this, ok_bind, forRange_cons (by decide)]
  rfl

example : Pixel.isBlack u8Num [0, 0, 0] = true ∧ Pixel.isBlackAlpha .debug u8Num [0, 0, 255] = .ok true :=
  ⟨rfl, rfl⟩

end Imgproc

import Verif.Props.SubImage
/-! Properties C80 and C81: dimension arithmetic of `ImageInfo`, and reading sub-images. -/
namespace Imgproc
variable {T : Type}

/-! ## C80 — dimension arithmetic -/

/-- what a checked (`debug`) and an unchecked (`release`) build return for the u32 value of `n` -/
def U32Result (P : Profile) (r : Res Nat) (n : Nat) : Prop :=
  match P with
  | .debug => if n < 2 ^ 32 then r = .ok n else Res.Panics r
  | .release => r = .ok (n % 2 ^ 32)

/-- **C80** `size()` is width × height: an overflowing product panics in checked builds and wraps in
unchecked ones. -/
theorem c80_size (P : Profile) (i : ImageInfo) : U32Result P (i.size P) (i.width * i.height) := by
  unfold ImageInfo.size u32Mul wrapNat U32Result
  cases P with
  | debug =>
    by_cases h : i.width * i.height < 2 ^ 32
    · simp only [if_pos h]
    · simp only [if_neg h]; exact ⟨_, rfl⟩
  | release =>
    by_cases h : i.width * i.height < 2 ^ 32
    · simp only [if_pos h]; rw [Nat.mod_eq_of_lt h]
    · simp only [if_neg h]

/-- **C80** `full_size()` is width × height × channels, with the same overflow behaviour. -/
theorem c80_full_size (P : Profile) (i : ImageInfo) (hc : 1 ≤ i.channels) :
    U32Result P (i.fullSize P) (i.width * i.height * i.channels) := by
  have hle : i.width * i.height ≤ i.width * i.height * i.channels := Nat.le_mul_of_pos_right _ hc
  unfold ImageInfo.fullSize u32Mul wrapNat U32Result
  generalize i.width * i.height = a at *
  cases P with
  | debug =>
    by_cases h : a < 2 ^ 32
    · simp only [if_pos h, ok_bind]
      by_cases h' : a * i.channels < 2 ^ 32
      · simp only [if_pos h']
      · simp only [if_neg h']; exact ⟨_, rfl⟩
    · have h' : ¬ a * i.channels < 2 ^ 32 := by omega
      simp only [if_neg h, if_neg h']
      exact ⟨_, rfl⟩
  | release =>
    have key : ∀ b : Nat, (if b < 2 ^ 32 then Except.ok b else Except.ok (b % 2 ^ 32) : Res Nat)
        = .ok (b % 2 ^ 32) := by
      intro b
      by_cases h : b < 2 ^ 32
      · rw [if_pos h, Nat.mod_eq_of_lt h]
      · rw [if_neg h]
    simp only []
    rw [key, ok_bind, key, Nat.mod_mul_mod]

/-- **C80** `channels_non_alpha()` counts the channels that are not alpha; an image claiming an alpha
channel but no channels makes it panic in checked builds. -/
theorem c80_channels_non_alpha (P : Profile) (i : ImageInfo) :
    (i.alpha = false → i.channelsNonAlpha P = .ok i.channels) ∧
    (i.alpha = true → ∀ n, i.channels = n + 1 → i.channelsNonAlpha P = .ok n) ∧
    (i.alpha = true → i.channels = 0 → Res.Panics (i.channelsNonAlpha .debug)) := by
  unfold ImageInfo.channelsNonAlpha
  refine ⟨fun h => by simp [h], fun h n hn => by simp [h, hn], fun h h0 => ?_⟩
  simp only [h, h0]
  exact ⟨_, rfl⟩

/-- **C80** in a well-formed image `full_size()` is exactly the length of `data()`. -/
theorem c80_data_length (P : Profile) (img : Image T) (h : img.WF) :
    img.info.size P = .ok (img.info.width * img.info.height) ∧
    img.info.fullSize P = .ok img.data.length := by
  refine ⟨ImageInfo.size_eq P h.infoWF, ?_⟩
  rw [h.length]
  exact ImageInfo.fullSize_eq P h.infoWF

example : U32Result .debug (ImageInfo.size .debug ⟨65536, 65536, 3, false⟩) (65536 * 65536) :=
  c80_size _ _
example : Res.Panics (ImageInfo.size .debug ⟨65536, 65536, 3, false⟩) := ⟨_, rfl⟩
example : ImageInfo.fullSize .release ⟨65536, 65537, 3, false⟩ = .ok 196608 := rfl
example : ImageInfo.channelsNonAlpha .debug ⟨2, 2, 4, true⟩ = .ok 3 := rfl

/-! ## C81 — reading a sub-image -/

/-- **C81** `sub.get_pixel(x, y)` returns exactly for coordinates inside the sub-image, and then it is
the `y * width + x`-th stored pixel. -/
theorem c81_get_pixel (P : Profile) (s : SubImage T) (hlen : s.data.length = s.info.width * s.info.height)
    (hsz : s.info.width * s.info.height < 2 ^ 32) (x y : Nat) :
    (Res.Returns (s.getPixel P x y) ↔ x < s.info.width ∧ y < s.info.height) ∧
    (Res.Panics (s.getPixel P x y) ↔ ¬ (x < s.info.width ∧ y < s.info.height)) ∧
    ∀ p, s.getPixel P x y = .ok p → s.data[y * s.info.width + x]? = some p := by
  by_cases h : x < s.info.width ∧ y < s.info.height
  · obtain ⟨hx, hy⟩ := h
    have h0 := row_lt hx hy
    have e : s.getPixel P x y = .ok (s.data[y * s.info.width + x]'(by omega)) := by
      unfold SubImage.getPixel SubImage.index
      rw [checkXY_ok hx hy, ok_bind, u32Mul_ok (by show _ < 4294967296; omega), ok_bind,
        u32Add_ok (by show _ < 4294967296; omega), ok_bind, idx_ok (by omega)]
    refine ⟨⟨fun _ => ⟨hx, hy⟩, fun _ => ⟨_, e⟩⟩, ⟨?_, fun hn => absurd ⟨hx, hy⟩ hn⟩, ?_⟩
    · rintro ⟨k, hk⟩; rw [e] at hk; cases hk
    · intro p hp; rw [e] at hp; injection hp with hp; rw [← hp, List.getElem?_eq_getElem]
  · have e : s.getPixel P x y = panic .explicit := by
      unfold SubImage.getPixel
      rw [checkXY_panic h]; rfl
    refine ⟨⟨?_, fun hn => absurd hn h⟩, ⟨fun _ => h, fun _ => ⟨_, e⟩⟩, ?_⟩
    · rintro ⟨k, hk⟩; rw [e] at hk; cases hk
    · intro p hp; rw [e] at hp; cases hp

/-- **C81** `to_vec` is the concatenation of the stored pixels, in order. -/
theorem c81_to_vec (P : Profile) (s : SubImage T) (hlen : s.data.length = s.info.width * s.info.height)
    (hsz : s.info.width * s.info.height < 2 ^ 32) : s.toVec P = .ok s.data.flatten := by
  unfold SubImage.toVec ImageInfo.size
  rw [u32Mul_ok hsz, ok_bind]
  obtain ⟨r, e, hr⟩ := forRange_rule (a := 0) (b := s.info.width * s.info.height) (s := ([] : List T))
    (f := fun i data => do let p ← s.index i; .ok (data ++ p))
    (fun k r => r = (s.data.take k).flatten) (Nat.zero_le _) (by simp) (by
      intro k r _ hk hr
      refine ⟨r ++ s.data[k]'(by omega), ?_, ?_⟩
      · show (s.index k >>= _) = _
        unfold SubImage.index
        rw [idx_ok (by omega), ok_bind]
      · rw [hr, List.take_succ_eq_append_getElem (by omega), List.flatten_append]
        simp)
  rw [e, hr, ← hlen, List.take_length]

/-- **C81** hence for a neighborhood of a well-formed image `to_vec` lists, position by position, the
channels of its pixels: value `k * channels + c` is channel `c` of the `k`-th pixel. -/
theorem c81_to_vec_channels (P : Profile) (s : SubImage T) (ch : Nat)
    (hlen : s.data.length = s.info.width * s.info.height)
    (hsz : s.info.width * s.info.height < 2 ^ 32) (hch : ∀ p ∈ s.data, p.length = ch) (k c : Nat)
    (hk : k < s.data.length) (hc : c < ch) :
    ∃ v, s.toVec P = .ok v ∧ v.length = s.data.length * ch ∧
      v[k * ch + c]? = (s.data[k]'hk)[c]? := by
  refine ⟨_, c81_to_vec P s hlen hsz, ?_, ?_⟩
  · clear hk hlen hsz
    generalize s.data = l at *
    induction l with
    | nil => simp
    | cons a l ih =>
      rw [List.flatten_cons, List.length_append, hch a (by simp), ih (fun p hp => hch p (by simp [hp])),
        List.length_cons, Nat.succ_mul]; omega
  · clear hlen hsz
    generalize s.data = l at *
    induction l generalizing k with
    | nil => simp at hk
    | cons a l ih =>
      have ha := hch a (by simp)
      cases k with
      | zero =>
        rw [List.flatten_cons, Nat.zero_mul, Nat.zero_add, List.getElem?_append_left (by omega)]
        rfl
      | succ k =>
        rw [List.flatten_cons, List.getElem?_append_right (by rw [ha, Nat.succ_mul]; omega), ha,
          show (k + 1) * ch + c - ch = k * ch + c by rw [Nat.succ_mul]; omega,
          ih k (fun p hp => hch p (by simp [hp])) (by simpa using hk)]
        rfl

-- the 3×3 neighborhood of the demo image, flattened
example : ∃ s, demo.getNeighborhood2d .debug 0 0 3 = .ok s ∧
    s.data.length = s.info.width * s.info.height ∧ s.toVec .debug = .ok s.data.flatten := by
  refine ⟨_, rfl, rfl, c81_to_vec _ _ rfl (by decide)⟩
end Imgproc

import Verif.Props.Scale7
/-! Properties C66, C67, C85, C86 for the nearest neighbour method: what it returns and when, for arbitrary factors. -/
namespace Imgproc
open FloatOps

/-- if a loop returns, so does each of its steps -/
theorem forRange_each {σ} {f : Nat → σ → Res σ} (I : σ → Prop) (hf : ∀ k s s', I s → f k s = .ok s' → I s') :
    ∀ {a b : Nat} {s s' : σ}, I s → forRange a b s f = .ok s' → ∀ k, a ≤ k → k < b → ∃ t t', I t ∧ f k t = .ok t' := by
  intro a b
  obtain ⟨d, hd⟩ : ∃ d, d = b - a := ⟨_, rfl⟩
  induction d generalizing a with
  | zero => intro s s' _ _ k h1 h2; omega
  | succ n ih =>
    intro s s' h0 h k h1 h2
    rw [forRange_cons (by omega)] at h
    obtain ⟨t, e, h⟩ := bind_eq_ok h
    rcases Nat.eq_or_lt_of_le h1 with rfl | h1
    · exact ⟨s, t, h0, e⟩
    · exact ih (a := a + 1) (by omega) (hf _ _ _ h0 e) h k h1 h2

section
variable {F : Type} [FloatOps F]

/-- the source column of output column `x` in the arithmetic of `F` -/
def nearestCol (f : F) (x : Nat) : Nat := toU32 (FloatOps.ceil (ofNat (F := F) (x + 1) /. f) -. num 1)

theorem nearest_eq (P : Profile) {img : Image F} (h : img.WF) {xf yf : F} {x y : Nat} (hx : x + 1 < 4294967296) (hy : y + 1 < 4294967296) :
    interpolateNearestNeighbor P img xf yf x y = img.getPixel P (nearestCol xf x) (nearestCol yf y) := by
  unfold interpolateNearestNeighbor
  rw [u32Add_ok (by omega), ok_bind]
  dsimp only
  rw [u32Add_ok (by omega), ok_bind]
  rfl

theorem getPixel_lt {P : Profile} {img : Image F} {x y : Nat} {p : List F} (h : img.getPixel P x y = .ok p) :
    x < img.info.width ∧ y < img.info.height := by
  by_contra hc
  unfold Image.getPixel at h
  rw [checkXY_panic hc] at h
  cases h

/-- nearest neighbour scaling returns exactly if every source position is in the image, and then copies the pixels there -/
theorem nearest_core (P : Profile) {img : Image F} (h : img.WF) {xf yf : F} {W H : Nat}
    (hx : checkNonNeg (FloatOps.rnum (F := F)) xf = .ok ()) (hy : checkNonNeg (FloatOps.rnum (F := F)) yf = .ok ())
    (hW : scaleDim img.info.width xf = W) (hH : scaleDim img.info.height yf = H)
    (hi : ImageInfo.WF ⟨W, H, img.info.channels, img.info.alpha⟩) :
    ((∃ out, scale P img xf yf .nearestNeighbor = .ok out) ↔
      ∀ x y, x < W → y < H → nearestCol xf x < img.info.width ∧ nearestCol yf y < img.info.height) ∧
    ∀ out, scale P img xf yf .nearestNeighbor = .ok out →
      out.Shows ⟨W, H, img.info.channels, img.info.alpha⟩ fun x y => img.px (nearestCol xf x) (nearestCol yf y) := by
  have hWl : W < 4294967296 := hi.width
  have hHl : H < 4294967296 := hi.height
  have fwd : (∃ out, scale P img xf yf .nearestNeighbor = .ok out) →
      ∀ x y, x < W → y < H → nearestCol xf x < img.info.width ∧ nearestCol yf y < img.info.height := by
    rintro ⟨out, e⟩ x y h1 h2
    obtain ⟨b, eb, hb⟩ := Image.blank_eq P (FloatOps.rnum (F := F)) hi
    unfold scale at e
    rw [hx, ok_bind, hy, ok_bind, hW, hH, eb, ok_bind] at e
    unfold scaleLoop at e
    have hb' := hb.2.1
    have stepInfo : ∀ j i (o o' : Image F), o.info = b.info → (do
        let p ← interpolate P img xf yf .nearestNeighbor i j
        o.setPixel P i j p) = .ok o' → o'.info = b.info := by
      intro j i o o' h0 h
      obtain ⟨_, _, h⟩ := bind_eq_ok h
      exact (Image.setPixel_info h).trans h0
    obtain ⟨t, t', ht, e1⟩ := forRange_each (fun o => o.info = b.info)
      (fun k s s' h0 h => forRange_preserves (fun o => o.info = b.info) (fun i s s' h0 h => stepInfo k i s s' h0 h) h0 h)
      rfl e y (Nat.zero_le _) (by rw [hb']; exact h2)
    obtain ⟨u, u', _, e2⟩ := forRange_each (fun o => o.info = b.info) (fun i s s' h0 h => stepInfo y i s s' h0 h) ht e1 x
      (Nat.zero_le _) (by rw [ht, hb']; exact h1)
    obtain ⟨p, e3, _⟩ := bind_eq_ok e2
    have e3 : interpolateNearestNeighbor P img xf yf x y = .ok p := e3
    rw [nearest_eq P h (by omega) (by omega)] at e3
    exact getPixel_lt e3
  have bwd : (∀ x y, x < W → y < H → nearestCol xf x < img.info.width ∧ nearestCol yf y < img.info.height) →
      ∃ out, scale P img xf yf .nearestNeighbor = .ok out ∧
        out.Shows ⟨W, H, img.info.channels, img.info.alpha⟩ fun x y => img.px (nearestCol xf x) (nearestCol yf y) := by
    intro hin
    refine scale_core P hx hy hW hH hi _ (fun x y h1 h2 => ?_) (fun x y h1 h2 => ?_)
    · exact Image.px_length h (hin x y h1 h2).1 (hin x y h1 h2).2
    · show interpolateNearestNeighbor P img xf yf x y = _
      rw [nearest_eq P h (by omega) (by omega)]
      exact Image.getPixel_eq P h (hin x y h1 h2).1 (hin x y h1 h2).2
  refine ⟨⟨fwd, fun hh => let ⟨o, e, _⟩ := bwd hh; ⟨o, e⟩⟩, fun out e => ?_⟩
  obtain ⟨o, e', ho⟩ := bwd (fwd ⟨out, e⟩)
  rw [e] at e'
  cases e'
  exact ho
end

/-- **C86, nearest neighbour** (IEEE f32 and every other arithmetic): whatever the factors, every pixel of the result is a
pixel of the image; so constant images stay constant. -/
theorem c86_nearest_partial {F : Type} [FloatOps F] (P : Profile) {img out : Image F} (h : img.WF) {xf yf : F}
    (hi : ImageInfo.WF ⟨scaleDim img.info.width xf, scaleDim img.info.height yf, img.info.channels, img.info.alpha⟩)
    (e : scale P img xf yf .nearestNeighbor = .ok out) :
    ∀ x y, x < out.info.width → y < out.info.height →
      ∃ x' y', x' < img.info.width ∧ y' < img.info.height ∧ out.px x y = img.px x' y' := by
  have hx : checkNonNeg (FloatOps.rnum (F := F)) xf = .ok () := by
    have e := e
    unfold scale at e
    obtain ⟨_, e1, _⟩ := bind_eq_ok e
    exact e1
  have hy : checkNonNeg (FloatOps.rnum (F := F)) yf = .ok () := by
    have e := e
    unfold scale at e
    obtain ⟨_, _, e⟩ := bind_eq_ok e
    obtain ⟨_, e1, _⟩ := bind_eq_ok e
    exact e1
  obtain ⟨h1, h2⟩ := nearest_core P h hx hy rfl rfl hi
  have hs := h2 out e
  intro x y hx hy
  rw [hs.2.1] at hx hy
  obtain ⟨l1, l2⟩ := h1.1 ⟨out, e⟩ x y hx hy
  exact ⟨_, _, l1, l2, hs.px_eq hx hy⟩

section
variable [Libm f32]
/-- **C85, nearest neighbour** (IEEE f32) -/
theorem c85_nearest_partial (P : Profile) {img : Image F32} (h : img.WF) {xf yf : F32} (hxf : xf.Is 1) (hyf : yf.Is 1)
    (hw : img.info.width ≤ 16777216) (hh : img.info.height ≤ 16777216) :
    scale P img xf yf .nearestNeighbor = .ok img := c66_identity P h hxf hyf hw hh
end

/-- **Specification**: the column of the original in which output column `x` ends, `(x + 1) / f` being a position in
the original and column `k` being the positions in `(k, k + 1]` -/
noncomputable def sourceCol (f : ℝ) (x : Nat) : Nat := ⌈((x : ℝ) + 1) / f⌉₊ - 1

theorem sourceCol_spec {f : ℝ} (hf : 0 < f) (x : Nat) :
    (sourceCol f x : ℝ) < ((x : ℝ) + 1) / f ∧ ((x : ℝ) + 1) / f ≤ sourceCol f x + 1 := by
  have hp : 0 < ((x : ℝ) + 1) / f := by positivity
  have h1 : 1 ≤ ⌈((x : ℝ) + 1) / f⌉₊ := Nat.one_le_ceil_iff.2 hp
  unfold sourceCol
  rw [Nat.cast_sub h1]
  have h2 := Nat.le_ceil (((x : ℝ) + 1) / f)
  have h3 := Nat.ceil_lt_add_one hp.le
  push_cast
  constructor <;> linarith

theorem nearestCol_real {f : ℝ} (hf : 0 < f) {x : Nat} : nearestCol f x = min (sourceCol f x) 4294967295 := by
  have hp : 0 < ((x : ℝ) + 1) / f := by positivity
  have h1 : 1 ≤ ⌈((x : ℝ) + 1) / f⌉₊ := Nat.one_le_ceil_iff.2 hp
  unfold nearestCol toU32 sourceCol
  rw [Ideal.toInt_eq]
  have e : (FloatOps.ceil (ofNat (F := ℝ) (x + 1) /. f) -. num 1 : ℝ) = (((⌈((x : ℝ) + 1) / f⌉₊ : ℤ) - 1 : ℤ) : ℝ) := by
    show ((⌈(ofNat (F := ℝ) (x + 1) /. f : ℝ)⌉ : ℤ) : ℝ) - (num 1 : ℝ) = _
    simp only [Ideal.ofNat_eq, Ideal.div_eq, Ideal.num_eq]
    push_cast
    rw [← Int.natCast_ceil_eq_ceil hp.le]
    push_cast; rfl
  rw [e, realTrunc_int]
  omega

/-- **C66, arbitrary factors** (exact arithmetic): the pixel at `(x, y)` of the result is the pixel of the original in
whose column and row the position `((x + 1) / fx, (y + 1) / fy)` lies. -/
theorem c66_value (P : Profile) {img out : Image ℝ} {xf yf : ℝ} (h : BilinearInput img xf yf)
    (e : scale P img xf yf .nearestNeighbor = .ok out) :
    out.Shows ⟨scaledDim img.info.width xf, scaledDim img.info.height yf, img.info.channels, img.info.alpha⟩
      fun x y => img.px (sourceCol xf x) (sourceCol yf y) := by
  obtain ⟨h1, h2⟩ := nearest_core P h.wf (nonNeg_real h.xpos.le) (nonNeg_real h.ypos.le)
    (scaleDim_real h.xpos.le h.width) (scaleDim_real h.ypos.le h.height) h.info
  have := h2 out e
  have hin := h1.1 ⟨out, e⟩
  have hw := h.wf.width
  have hh := h.wf.height
  refine this.congr fun x y hx hy => ?_
  obtain ⟨l1, l2⟩ := hin x y hx hy
  rw [nearestCol_real h.xpos] at l1 ⊢
  rw [nearestCol_real h.ypos] at l2 ⊢
  congr 1 <;> omega

/-- the last output column has its source in the image iff the output width was not rounded up -/
theorem sourceCol_all {f : ℝ} (hf : 0 < f) {w : Nat} (hpos : 0 < scaledDim w f) :
    (∀ x, x < scaledDim w f → sourceCol f x < w) ↔ (scaledDim w f : ℝ) ≤ w * f := by
  constructor
  · intro h
    have := h (scaledDim w f - 1) (by omega)
    have hs := (sourceCol_spec hf (scaledDim w f - 1)).2
    rw [Nat.cast_sub hpos] at hs
    have hw : (sourceCol f (scaledDim w f - 1) : ℝ) + 1 ≤ w := by exact_mod_cast this
    have := hs.trans hw
    rw [div_le_iff₀ hf] at this
    push_cast at this
    linarith
  · intro h x hx
    have hs := (sourceCol_spec hf x).1
    have hx' : (x : ℝ) + 1 ≤ scaledDim w f := by exact_mod_cast hx
    have : ((x : ℝ) + 1) / f ≤ w := by rw [div_le_iff₀ hf]; linarith
    exact_mod_cast hs.trans_le this

/-- **C67, when nearest neighbour scaling returns** (exact arithmetic, non-empty output): exactly if neither side of the
output was rounded up, `round(W fx) <= W fx` and `round(H fy) <= H fy`. Otherwise it panics. -/
theorem c67_nearest_iff (P : Profile) {img : Image ℝ} {xf yf : ℝ} (h : BilinearInput img xf yf)
    (hw : 0 < scaledDim img.info.width xf) (hh : 0 < scaledDim img.info.height yf) :
    (∃ out, scale P img xf yf .nearestNeighbor = .ok out) ↔
      (scaledDim img.info.width xf : ℝ) ≤ img.info.width * xf ∧ (scaledDim img.info.height yf : ℝ) ≤ img.info.height * yf := by
  obtain ⟨h1, _⟩ := nearest_core P h.wf (nonNeg_real h.xpos.le) (nonNeg_real h.ypos.le)
    (scaleDim_real h.xpos.le h.width) (scaleDim_real h.ypos.le h.height) h.info
  have hw' := h.wf.width
  have hh' := h.wf.height
  rw [h1, ← sourceCol_all h.xpos hw, ← sourceCol_all h.ypos hh]
  have c : ∀ {f : ℝ}, 0 < f → ∀ {w x : Nat}, w < 4294967296 → (nearestCol f x < w ↔ sourceCol f x < w) := by
    intro f hf w x hw
    rw [nearestCol_real hf]; omega
  constructor
  · intro hin
    exact ⟨fun x hx => (c h.xpos hw').1 (hin x 0 hx hh).1, fun y hy => (c h.ypos hh').1 (hin 0 y hw hy).2⟩
  · rintro ⟨a, b⟩ x y hx hy
    exact ⟨(c h.xpos hw').2 (a x hx), (c h.ypos hh').2 (b y hy)⟩

/-- the row 0, 100 scaled by 4 returns; by 1.3 (output width 3, rounded up from 2.6) it does not -/
example (P : Profile) : (∃ out, scale P ramp 4 1 .nearestNeighbor = .ok out) := by
  have e1 : scaledDim 2 4 = 8 := by
    unfold scaledDim; rw [Nat.floor_eq_iff (by positivity)]; constructor <;> norm_num
  rw [c67_nearest_iff P ramp_input (by show 0 < scaledDim 2 4; rw [e1]; decide) (by show 0 < scaledDim 1 1; rw [scaledDim_one]; decide)]
  show ((scaledDim 2 4 : Nat) : ℝ) ≤ (2 : Nat) * 4 ∧ ((scaledDim 1 1 : Nat) : ℝ) ≤ (1 : Nat) * 1
  rw [e1, scaledDim_one]; norm_num

example (P : Profile) : ¬ ∃ out, scale P ramp 1.3 1 .nearestNeighbor = .ok out := by
  have e1 : scaledDim 2 1.3 = 3 := by
    unfold scaledDim; rw [Nat.floor_eq_iff (by positivity)]; constructor <;> norm_num
  have hin : BilinearInput ramp 1.3 1 := by
    refine ⟨ramp_input.wf, by norm_num, one_pos, ?_, ?_, ?_⟩
    · show scaledDim 2 1.3 < _; rw [e1]; decide
    · show scaledDim 1 1 < _; rw [scaledDim_one]; decide
    · show scaledDim 2 1.3 * scaledDim 1 1 * max 1 1 < _; rw [e1, scaledDim_one]; decide
  rw [c67_nearest_iff P hin (by show 0 < scaledDim 2 1.3; rw [e1]; decide) (by show 0 < scaledDim 1 1; rw [scaledDim_one]; decide)]
  show ¬ (((scaledDim 2 1.3 : Nat) : ℝ) ≤ (2 : Nat) * 1.3 ∧ ((scaledDim 1 1 : Nat) : ℝ) ≤ (1 : Nat) * 1)
  rw [e1, scaledDim_one]; norm_num
section
variable [Libm f32]
/-- **C66, composition** (IEEE f32): enlarging by integer factors `(kx, ky)` and then `(lx, ly)` gives the same image as
enlarging by `(kx lx, ky ly)`. -/
theorem c66_compose (P : Profile) {img : Image F32} (h : img.WF) {k1 k2 l1 l2 m1 m2 : F32} {kx ky lx ly : Nat}
    (hk1 : k1.Is (kx : Rat)) (hk2 : k2.Is (ky : Rat)) (hl1 : l1.Is (lx : Rat)) (hl2 : l2.Is (ly : Rat))
    (hm1 : m1.Is ((lx * kx : Nat) : Rat)) (hm2 : m2.Is ((ly * ky : Nat) : Rat))
    (hkx : 0 < kx) (hky : 0 < ky) (hlx : 0 < lx) (hly : 0 < ly)
    (hw0 : 0 < img.info.width) (hh0 : 0 < img.info.height)
    (hw : lx * kx * img.info.width ≤ 16777216) (hh : ly * ky * img.info.height ≤ 16777216)
    (hsize : lx * kx * img.info.width * (ly * ky * img.info.height) * max 1 img.info.channels < 4294967296) :
    (scale P img k1 k2 .nearestNeighbor >>= fun s => scale P s l1 l2 .nearestNeighbor) =
      scale P img m1 m2 .nearestNeighbor ∧ ∃ out, scale P img m1 m2 .nearestNeighbor = .ok out := by
  have a1 : lx ≤ lx * kx := Nat.le_mul_of_pos_right _ hkx
  have a2 : ly ≤ ly * ky := Nat.le_mul_of_pos_right _ hky
  have a3 : kx * img.info.width ≤ lx * kx * img.info.width :=
    Nat.mul_le_mul_right _ (Nat.le_mul_of_pos_left _ hlx)
  have a4 : ky * img.info.height ≤ ly * ky * img.info.height :=
    Nat.mul_le_mul_right _ (Nat.le_mul_of_pos_left _ hly)
  have b1 : lx * kx ≤ lx * kx * img.info.width := Nat.le_mul_of_pos_right _ hw0
  have b2 : ly * ky ≤ ly * ky * img.info.height := Nat.le_mul_of_pos_right _ hh0
  have b3 : kx ≤ kx * img.info.width := Nat.le_mul_of_pos_right _ hw0
  have b4 : ky ≤ ky * img.info.height := Nat.le_mul_of_pos_right _ hh0
  obtain ⟨s, es, hs⟩ := c66_nearest_integer P h hk1 hk2 hkx hky (by omega) (by omega) (by omega) (by omega)
    (lt_of_le_of_lt (Nat.mul_le_mul_right _ (Nat.mul_le_mul a3 a4)) hsize)
  have hi := hs.2.1
  obtain ⟨o, eo, ho⟩ := c66_nearest_integer P hs.1 hl1 hl2 hlx hly
    (by rw [hi]; show lx * (kx * img.info.width) ≤ _; rw [← mul_assoc]; exact hw)
    (by rw [hi]; show ly * (ky * img.info.height) ≤ _; rw [← mul_assoc]; exact hh) (by omega) (by omega)
    (by rw [hi]; show lx * (kx * img.info.width) * (ly * (ky * img.info.height)) * _ < _
        rw [← mul_assoc lx, ← mul_assoc ly]; exact hsize)
  obtain ⟨m, em, hm⟩ := c66_nearest_integer P h hm1 hm2 (Nat.mul_pos hlx hkx) (Nat.mul_pos hly hky) hw hh (by omega)
    (by omega) hsize
  refine ⟨?_, m, em⟩
  rw [es, ok_bind, eo, em]
  congr 1
  have ii : o.info = m.info := by
    rw [ho.2.1, hm.2.1, hi]; simp only [mul_assoc]
  refine Image.ext_px ho.1 hm.1 ii ?_
  intro x y hx hy
  have hx' : x < lx * kx * img.info.width := by rw [ii, hm.2.1] at hx; exact hx
  have hy' : y < ly * ky * img.info.height := by rw [ii, hm.2.1] at hy; exact hy
  have c1 : x / lx < kx * img.info.width := by rw [Nat.div_lt_iff_lt_mul hlx]; rw [mul_comm, ← mul_assoc]; exact hx'
  have c2 : y / ly < ky * img.info.height := by rw [Nat.div_lt_iff_lt_mul hly]; rw [mul_comm, ← mul_assoc]; exact hy'
  rw [ho.2.1] at hx hy
  rw [ho.px_eq hx hy, hm.px_eq hx' hy', hs.px_eq c1 c2, Nat.div_div_eq_div_mul, Nat.div_div_eq_div_mul]

/-- a 3 x 2 image enlarged by (2, 1) and then by (1, 3) -/
example (P : Profile) (a b c d e f : F32) :
    (scale P (gray6 a b c d e f) (num 2) (num 1) .nearestNeighbor >>= fun s => scale P s (num 1) (num 3) .nearestNeighbor) =
      scale P (gray6 a b c d e f) (num 2) (num 3) .nearestNeighbor :=
  (c66_compose P (gray6_WF a b c d e f) (kx := 2) (ky := 1) (lx := 1) (ly := 3)
    (by simpa using num32 (n := 2) (by decide)) (by simpa using num32 (n := 1) (by decide))
    (by simpa using num32 (n := 1) (by decide)) (by simpa using num32 (n := 3) (by decide))
    (by simpa using num32 (n := 2) (by decide)) (by simpa using num32 (n := 3) (by decide))
    (by decide) (by decide) (by decide) (by decide) (by dims) (by dims) (by dims) (by dims) (by dims)).1
end
end Imgproc

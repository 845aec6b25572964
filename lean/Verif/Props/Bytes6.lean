import Verif.Props.Bytes5

/-!
# C143: enlarging a byte image bilinearly by whole numbers gives the exact blends, rounded
-/
namespace Imgproc
open FloatOps

/-- spec: `kx * ky` times the blend of the four pixels around `(x / kx, y / ky)`; the code gives the fractional part of the
position as weight to the *left* and *upper* pixels -/
def bilinearSum (img : Image UInt8) (kx ky x y c : Nat) : Int :=
  let x1 := x / kx
  let x2 := min ((x + kx - 1) / kx) (img.info.width - 1)
  let y1 := y / ky
  let y2 := min ((y + ky - 1) / ky) (img.info.height - 1)
  ((x % kx : Nat) : Int) * (y % ky : Nat) * img.byteAt x1 y1 c + ((kx : Int) - (x % kx : Nat)) * (y % ky : Nat) * img.byteAt x2 y1 c +
    ((x % kx : Nat) : Int) * ((ky : Int) - (y % ky : Nat)) * img.byteAt x1 y2 c +
    ((kx : Int) - (x % kx : Nat)) * ((ky : Int) - (y % ky : Nat)) * img.byteAt x2 y2 c

/-- the f32 position of an output column of a whole-number enlargement -/
theorem f32Pos_int {k x w : Nat} (hk : 0 < k) (hx : x < k * w) (hw : k * w ≤ 4194304) :
    (f32Pos k x).floor.toNat = x / k ∧ (f32Pos k x).ceil.toNat = (x + k - 1) / k ∧
      |f32Pos k x - (f32Pos k x).floor - ((x % k : Nat) : Rat) / k| ≤ (w + 1) / 2 ^ 24 := by
  have hk' : (0 : Rat) < k := by exact_mod_cast hk
  have hdm := Nat.div_add_mod x k
  have hr := Nat.mod_lt x hk
  set m := x / k
  set r := x % k
  have hmx : m ≤ x := Nat.div_le_self x k
  have q : (x : Rat) / k = m + (r : Rat) / k := by
    rw [eq_comm, ← hdm]; push_cast; field_simp
  unfold f32Pos
  rcases Nat.eq_zero_or_pos r with h0 | h0
  · have e : f32.rnd ((x : Rat) / k) = (m : Int) := by
      rw [q, h0]
      have := (f32_nat (n := m) (by omega)).rnd
      simpa using this
    have d : (x + k - 1) / k = m := by
      rw [← hdm, h0, Nat.add_zero, Nat.add_sub_assoc hk, Nat.mul_add_div hk, Nat.div_eq_of_lt (by omega), Nat.add_zero]
    rw [e, Rat.floor_intCast, Rat.ceil_intCast, d]
    refine ⟨Int.toNat_natCast m, Int.toNat_natCast m, ?_⟩
    rw [h0]
    simp
    positivity
  · have he := rnd_err_add ((x : Rat) / k)
    have q0 : (0 : Rat) ≤ (x : Rat) / k := by positivity
    rw [abs_of_nonneg q0] at he
    have xw : (x : Rat) / k ≤ w := by
      rw [div_le_iff₀ hk']
      have : (x : Rat) ≤ ((k * w : Nat) : Rat) := by exact_mod_cast hx.le
      push_cast at this; linarith
    have w1 : 1 ≤ w := by rcases Nat.eq_zero_or_pos w with rfl | h <;> omega
    have hkb : k ≤ 4194304 := le_trans (Nat.le_mul_of_pos_right k w1) hw
    have hkb' : (k : Rat) ≤ 4194304 := by exact_mod_cast hkb
    have e1 : (x : Rat) / k / 2 ^ 24 ≤ 1 / (4 * k) := by
      rw [div_div, div_le_div_iff₀ (by positivity) (by positivity)]
      have : (x : Rat) ≤ 4194304 := by exact_mod_cast (by omega : x ≤ 4194304)
      nlinarith
    have e2 : (1 : Rat) / 2 ^ 150 ≤ 1 / (4 * k) := by
      rw [div_le_div_iff₀ (by positivity) (by positivity)]
      have : (4 : Rat) * 4194304 ≤ 2 ^ 150 := by norm_num
      linarith
    have half : 1 / (4 * (k : Rat)) + 1 / (4 * k) = 1 / 2 * (1 / k) := by field_simp; norm_num
    have kpos : 0 < 1 / (k : Rat) := by positivity
    have hab := abs_le.1 he
    have r1 : 1 / (k : Rat) ≤ (r : Rat) / k := by gcongr; exact_mod_cast h0
    have r2 : (r : Rat) / k ≤ 1 - 1 / k := by
      rw [le_sub_iff_add_le, ← add_div, div_le_one hk']
      exact_mod_cast (by omega : r + 1 ≤ k)
    have fl : (f32.rnd ((x : Rat) / k)).floor = (m : Int) := by
      have h1 : (m : Int) ≤ (f32.rnd ((x : Rat) / k)).floor := rat_le_floor.2 (by push_cast; linarith [hab.1])
      have h2 : (f32.rnd ((x : Rat) / k)).floor < (m : Int) + 1 := rat_floor_lt.2 (by push_cast; linarith [hab.2])
      omega
    have ce : (f32.rnd ((x : Rat) / k)).ceil = (m : Int) + 1 := by
      have h1 : (f32.rnd ((x : Rat) / k)).ceil ≤ (m : Int) + 1 := Rat.ceil_le_iff.2 (by push_cast; linarith [hab.2])
      have h2 : ¬ (f32.rnd ((x : Rat) / k)).ceil ≤ (m : Int) := fun h => by
        have := Rat.ceil_le_iff.1 h
        push_cast at this; linarith [hab.1]
      omega
    have d : (x + k - 1) / k = m + 1 := by
      have e3 : x + k - 1 = k * (m + 1) + (r - 1) := by rw [Nat.mul_add]; omega
      have e4 : r - 1 < k := by omega
      rw [e3, Nat.mul_add_div hk, Nat.div_eq_of_lt e4, Nat.add_zero]
    rw [fl, ce, d]
    refine ⟨Int.toNat_natCast m, Int.toNat_natCast (m + 1), ?_⟩
    have : f32.rnd ((x : Rat) / k) - ((m : Int) : Rat) - (r : Rat) / k = f32.rnd ((x : Rat) / k) - (x : Rat) / k := by
      rw [q]; push_cast; ring
    rw [this]
    refine he.trans ?_
    have : (1 : Rat) / 2 ^ 150 ≤ 1 / 2 ^ 24 := by norm_num
    have : (x : Rat) / k / 2 ^ 24 ≤ w / 2 ^ 24 := by gcongr
    rw [add_div]
    linarith

theorem blend4_lip {s t s' t' v1 v2 v3 v4 : Rat} (s0 : 0 ≤ s') (s1 : s' ≤ 1) (t0 : 0 ≤ t) (t1 : t ≤ 1) (h1 : 0 ≤ v1 ∧ v1 ≤ 255)
    (h2 : 0 ≤ v2 ∧ v2 ≤ 255) (h3 : 0 ≤ v3 ∧ v3 ≤ 255) (h4 : 0 ≤ v4 ∧ v4 ≤ 255) :
    |blend4 s t v1 v2 v3 v4 - blend4 s' t' v1 v2 v3 v4| ≤ |s - s'| * 255 + |t - t'| * 255 := by
  have e : blend4 s t v1 v2 v3 v4 - blend4 s' t' v1 v2 v3 v4 =
      (s - s') * (t * (v1 - v2) + (1 - t) * (v3 - v4)) + (t - t') * (s' * (v1 - v3) + (1 - s') * (v2 - v4)) := by
    unfold blend4; ring
  have key : ∀ {p a b : Rat}, 0 ≤ p → p ≤ 1 → |a| ≤ 255 → |b| ≤ 255 → |p * a + (1 - p) * b| ≤ 255 := by
    intro p a b p0 p1 ha hb
    refine (abs_add_le _ _).trans ?_
    rw [abs_mul, abs_mul, abs_of_nonneg p0, abs_of_nonneg (by linarith : 0 ≤ 1 - p)]
    have := mul_le_mul_of_nonneg_left ha p0
    have := mul_le_mul_of_nonneg_left hb (by linarith : 0 ≤ 1 - p)
    linarith
  have d : ∀ {a b : Rat}, 0 ≤ a ∧ a ≤ 255 → 0 ≤ b ∧ b ≤ 255 → |a - b| ≤ 255 := fun ha hb => abs_le.2 ⟨by linarith, by linarith⟩
  rw [e]
  refine (abs_add_le _ _).trans ?_
  rw [abs_mul, abs_mul]
  exact add_le_add (mul_le_mul_of_nonneg_left (key t0 t1 (d h1 h2) (d h3 h4)) (abs_nonneg _))
    (mul_le_mul_of_nonneg_left (key s0 s1 (d h1 h3) (d h2 h4)) (abs_nonneg _))

section
variable [Libm f32]

/-- **C143** bilinear enlargement of a byte image by whole numbers: every byte is the exact blend of four bytes, rounded, as long as
`kx * ky * (width + height)` stays below about 32000 -/
theorem c143_bilinear (P : Profile) {img : Image UInt8} (h : img.WF) (w0 : 0 < img.info.width) (h0 : 0 < img.info.height)
    {xf yf : F32} {kx ky : Nat} (hx : xf.Is kx) (hy : yf.Is ky) (hkx : 0 < kx) (hky : 0 < ky)
    (hw : kx * img.info.width ≤ 4194304) (hh : ky * img.info.height ≤ 4194304)
    (hout : kx * img.info.width * (ky * img.info.height) * max 1 img.info.channels < 4294967296)
    (hacc : kx * ky * (img.info.width + img.info.height + 66) * 510 < 16777216) :
    ExactFraction (onBytes P (fun f => scale P f xf yf .bilinear) img)
      ⟨kx * img.info.width, ky * img.info.height, img.info.channels, img.info.alpha⟩ (bilinearSum img kx ky) (kx * ky) := by
  refine onBytes_of (Q := fun r => ExactFraction r ⟨kx * img.info.width, ky * img.info.height, img.info.channels, img.info.alpha⟩
    (bilinearSum img kx ky) (kx * ky)) h fun f hi hf => ?_
  have hv : f.Numbers fun x y c => (img.byteAt x y c : Rat) := by
    intro x y c hx hy hc
    obtain ⟨p, ep, hl, hp⟩ := hf.2.2 .debug x y (hi ▸ hx) (hi ▸ hy)
    rw [Image.getPixel_eq .debug hf.1 hx hy] at ep
    cases ep
    obtain ⟨r, er, hr⟩ := hp c (hi ▸ hc)
    rw [List.getD_eq_getElem?_getD, er]
    simpa using hr
  have bx : img.info.width ≤ 4194304 := le_trans (Nat.le_mul_of_pos_left _ hkx) hw
  have bh : img.info.height ≤ 4194304 := le_trans (Nat.le_mul_of_pos_left _ hky) hh
  have dx := scaleDim_int hx (n := img.info.width) (by omega) (by omega)
  have dy := scaleDim_int hy (n := img.info.height) (by omega) (by omega)
  have kx' : (0 : Rat) < kx := by exact_mod_cast hkx
  have ky' : (0 : Rat) < ky := by exact_mod_cast hky
  have hs : ScaleInput f := ⟨hf.1, hi ▸ w0, hi ▸ h0, by rw [hi]; omega, by rw [hi]; omega⟩
  have hof : OutFits f xf yf := by unfold OutFits; rw [hi, dx, dy]; exact hout
  have hM : ∀ x y c, x < f.info.width → y < f.info.height → c < f.info.channels → |(img.byteAt x y c : Rat)| ≤ 255 :=
    fun x y c _ _ _ => byteAt_rat _ _ _ _
  obtain ⟨g, e, gw, gi, gv⟩ := c113_bilinear_value P hs hx hy kx' ky'
    (by rw [hi, mul_comm]; exact_mod_cast hw) (by rw [hi, mul_comm]; exact_mod_cast hh) hof hv (M := 255) (by norm_num) (by norm_num) hM
  rw [hi, dx, dy] at gi
  refine ⟨g, e, ?_⟩
  have hsn : g.ShowsNear ⟨kx * img.info.width, ky * img.info.height, img.info.channels, img.info.alpha⟩
      (fun x y c => (bilinearSum img kx ky x y c : Rat) / ((kx * ky : Nat) : Rat)) fun _ _ _ => 255 * ((img.info.width + img.info.height + 66 : Nat) : Rat) / 2 ^ 24 := by
    refine ⟨gw, gi, fun P x y h1 h2 => ?_⟩
    have h1 : x < kx * img.info.width := h1
    have h2 : y < ky * img.info.height := h2
    refine ⟨_, Image.getPixel_eq P gw (by rw [gi]; exact h1) (by rw [gi]; exact h2), by
      rw [Image.px_length gw (by rw [gi]; exact h1) (by rw [gi]; exact h2), gi], fun c hc => ?_⟩
    have hc : c < img.info.channels := hc
    have hl : c < (g.px x y).length := by rw [Image.px_length gw (by rw [gi]; exact h1) (by rw [gi]; exact h2), gi]; exact hc
    obtain ⟨-, -, b, hb, hbe⟩ := gv x y c (by rw [gi]; exact h1) (by rw [gi]; exact h2) (by rw [hi]; exact hc)
    rw [List.getD_eq_getElem?_getD, List.getElem?_eq_getElem hl] at hb
    refine ⟨_, b, List.getElem?_eq_getElem hl, hb, ?_⟩
    obtain ⟨a1, a2, a3⟩ := f32Pos_int hkx h1 hw
    obtain ⟨b1, b2, b3⟩ := f32Pos_int hky h2 hh
    rw [hi, a1, a2, b1, b2] at hbe
    have fr0 : ∀ q : Rat, 0 ≤ q - q.floor := fun q => by have : (q.floor : Rat) ≤ q := Rat.floor_le q; linarith
    have fr1 : ∀ q : Rat, q - q.floor ≤ 1 := fun q => by
      have : q < ((q.floor + 1 : Int) : Rat) := Rat.lt_floor_add_one q
      push_cast at this; linarith
    have mx : ((x % kx : Nat) : Rat) / kx ≤ 1 := by rw [div_le_one kx']; exact_mod_cast (Nat.mod_lt x hkx).le
    have byte : ∀ x y c, (0 : Rat) ≤ img.byteAt x y c ∧ (img.byteAt x y c : Rat) ≤ 255 := fun x y c =>
      ⟨Nat.cast_nonneg _, by exact_mod_cast byteAt_le _ _ _ _⟩
    set s := f32Pos kx x - (f32Pos kx x).floor
    set t := f32Pos ky y - (f32Pos ky y).floor
    have hl4 := blend4_lip (s := s) (t := t) (s' := ((x % kx : Nat) : Rat) / kx) (t' := ((y % ky : Nat) : Rat) / ky) (by positivity) mx
      (fr0 _) (fr1 _) (byte (x / kx) (y / ky) c) (byte (min ((x + kx - 1) / kx) (img.info.width - 1)) (y / ky) c)
      (byte (x / kx) (min ((y + ky - 1) / ky) (img.info.height - 1)) c)
      (byte (min ((x + kx - 1) / kx) (img.info.width - 1)) (min ((y + ky - 1) / ky) (img.info.height - 1)) c)
    have hex : blend4 (((x % kx : Nat) : Rat) / kx) (((y % ky : Nat) : Rat) / ky) (img.byteAt (x / kx) (y / ky) c)
        (img.byteAt (min ((x + kx - 1) / kx) (img.info.width - 1)) (y / ky) c)
        (img.byteAt (x / kx) (min ((y + ky - 1) / ky) (img.info.height - 1)) c)
        (img.byteAt (min ((x + kx - 1) / kx) (img.info.width - 1)) (min ((y + ky - 1) / ky) (img.info.height - 1)) c) =
        (bilinearSum img kx ky x y c : Rat) / ((kx * ky : Nat) : Rat) := by
      unfold blend4 bilinearSum
      dsimp only
      generalize x % kx = p, y % ky = q, img.byteAt (x / kx) (y / ky) c = v1, img.byteAt (min ((x + kx - 1) / kx) (img.info.width - 1)) (y / ky) c = v2,
        img.byteAt (x / kx) (min ((y + ky - 1) / ky) (img.info.height - 1)) c = v3,
        img.byteAt (min ((x + kx - 1) / kx) (img.info.width - 1)) (min ((y + ky - 1) / ky) (img.info.height - 1)) c = v4
      push_cast
      field_simp
      try ring
    rw [hex] at hl4
    have tri := abs_sub_le b (blend4 s t (img.byteAt (x / kx) (y / ky) c)
        (img.byteAt (min ((x + kx - 1) / kx) (img.info.width - 1)) (y / ky) c)
        (img.byteAt (x / kx) (min ((y + ky - 1) / ky) (img.info.height - 1)) c)
        (img.byteAt (min ((x + kx - 1) / kx) (img.info.width - 1)) (min ((y + ky - 1) / ky) (img.info.height - 1)) c))
      ((bilinearSum img kx ky x y c : Rat) / ((kx * ky : Nat) : Rat))
    refine tri.trans ((add_le_add hbe hl4).trans ?_)
    push_cast
    linarith
  obtain ⟨w, hw', he⟩ := hsn.values
  refine (bytes_rounded P hw').fraction (Nat.mul_pos hkx hky) fun x y c hx hy hc => lt_of_le_of_lt (he x y c hx hy hc) ?_
  rw [lt_div_iff₀ (by push_cast; positivity), div_mul_eq_mul_div, div_lt_iff₀ (by norm_num)]
  have : ((kx * ky * (img.info.width + img.info.height + 66) * 510 : Nat) : Rat) < (16777216 : Nat) := by exact_mod_cast hacc
  push_cast at this ⊢
  linarith

/-- C143 applies: any 3 by 2 byte image, enlarged three times in both directions -/
example (P : Profile) (a b c d e f : UInt8) {three : F32} (h : three.Is (3 : Nat)) :
    BytesRounded (onBytes P (fun g => scale P g three three .bilinear) (gray6 a b c d e f)) ⟨9, 6, 1, false⟩
      fun x y k => (bilinearSum (gray6 a b c d e f) 3 3 x y k : Rat) / 9 :=
  (c143_bilinear P (gray6_WF a b c d e f) (by dims) (by dims) h h (by decide) (by decide)
    (show 3 * 3 ≤ 4194304 by norm_num) (show 3 * 2 ≤ 4194304 by norm_num) (show 3 * 3 * (3 * 2) * max 1 1 < 4294967296 by norm_num)
    (show 3 * 3 * (3 + 2 + 66) * 510 < 16777216 by norm_num)).2 rfl
end
end Imgproc

import Verif.Props.Bytes2
import Verif.Props.Tone

/-!
# C141: edges and blurs of byte images under brightness changes and negation
-/
namespace Imgproc
open FloatOps

/-- spec: the bytes of `b` are those of `a`, all changed to `s` times the byte plus `k` (nothing saturates) -/
def Image.ByteShift (a b : Image UInt8) (s k : Int) : Prop :=
  b.info = a.info ∧ ∀ x y c, x < a.info.width → y < a.info.height → c < a.info.channels → (b.byteAt x y c : Int) = s * a.byteAt x y c + k

theorem RootByte.unique {N : Int} {n n' : Nat} (h : RootByte N n) (h' : RootByte N n') : n = n' := by
  have key : ∀ {n n'}, RootByte N n → RootByte N n' → n ≤ n' := by
    intro n n' h h'
    have b := h.byte
    rcases h.low with h1 | h1
    · omega
    rcases h'.high with h2 | h2
    · omega
    by_contra hc
    have : (2 * (n' : Int) + 1) ^ 2 ≤ (2 * (n : Int) - 1) ^ 2 := pow_le_pow_left₀ (by omega) (by omega) 2
    omega
  exact le_antisymm (key h h') (key h' h)

theorem Image.byteAt_ext {a b : Image UInt8} (ha : a.WF) (hb : b.WF) (hi : a.info = b.info)
    (h : ∀ x y c, x < a.info.width → y < a.info.height → c < a.info.channels → a.byteAt x y c = b.byteAt x y c) : a = b := by
  refine Image.ext_px ha hb hi fun x y h1 h2 => ?_
  refine List.ext_getElem (by rw [Image.px_length ha h1 h2, Image.px_length hb (hi ▸ h1) (hi ▸ h2), hi]) fun c c1 c2 => ?_
  have := h x y c h1 h2 (by rwa [Image.px_length ha h1 h2] at c1)
  unfold Image.byteAt at this
  rw [List.getD_eq_getElem?_getD, List.getElem?_eq_getElem c1, List.getD_eq_getElem?_getD, List.getElem?_eq_getElem c2] at this
  exact UInt8.toNat_inj.1 this

/-- exact values determine the rounded image -/
theorem BytesRounded.unique {op op' : Res (Image UInt8)} {info : ImageInfo} {val val' : Nat → Nat → Nat → Rat}
    (h : BytesRounded op info val) (h' : BytesRounded op' info val')
    (hv : ∀ x y c, x < info.width → y < info.height → c < info.channels → val x y c = val' x y c) : op = op' := by
  obtain ⟨o, e, w, i, b⟩ := h.byteAt
  obtain ⟨o', e', w', i', b'⟩ := h'.byteAt
  rw [e, e', Image.byteAt_ext w w' (i.trans i'.symm) fun x y c hx hy hc => ?_]
  rw [i] at hx hy hc
  exact (b x y c hx hy hc).unique (hv x y c hx hy hc ▸ b' x y c hx hy hc)

theorem shift_intNear {a b : Image UInt8} {s k : Int} (h : a.ByteShift b s k) (hc : 0 < a.info.channels) {x y : Nat} (hx : x < a.info.width)
    (hy : y < a.info.height) (dx dy : Int) : intNear a.info (fun x y c => (b.byteAt x y c : Int)) x y dx dy =
      s * intNear a.info (fun x y c => (a.byteAt x y c : Int)) x y dx dy + k :=
  h.2 _ _ _ (clampCoord_lt (by omega) _) (clampCoord_lt (by omega) _) hc

theorem padCoord_in {n x : Nat} (h : x < n) (o : Int) : padCoord n x o < n := by unfold padCoord; split <;> omega

theorem shift_response {a b : Image UInt8} {s k : Int} (h : a.ByteShift b s k) (m : Nat → Int) (n : Nat) {x y c : Nat}
    (hx : x < a.info.width) (hy : y < a.info.height) (hc : c < a.info.channels) :
    intResponse2d a.info m n (fun x y c => (b.byteAt x y c : Int)) x y c =
      s * intResponse2d a.info m n (fun x y c => (a.byteAt x y c : Int)) x y c + (∑ i ∈ Finset.range (n * n), m i) * k := by
  unfold intResponse2d
  rw [sum_range_mul_int, Finset.mul_sum, Finset.sum_mul, ← Finset.sum_add_distrib]
  refine Finset.sum_congr rfl fun i _ => ?_
  rw [Finset.mul_sum, Finset.sum_mul, ← Finset.sum_add_distrib]
  refine Finset.sum_congr rfl fun j _ => ?_
  have := h.2 _ _ c (padCoord_in hx ((x : Int) - (n / 2 : Nat) + j)) (padCoord_in hy ((y : Int) - (n / 2 : Nat) + i)) hc
  dsimp only
  rw [this]
  ring

theorem sum_getD (m : List Int) : ∑ i ∈ Finset.range m.length, m.getD i 0 = m.sum := by
  induction m with
  | nil => rfl
  | cons q m ih => rw [List.length_cons, Finset.sum_range_succ', List.sum_cons, add_comm, ← ih]; rfl

theorem satAdd_in {v : UInt8} {k : Int} (h : 0 ≤ (v.toNat : Int) + k ∧ (v.toNat : Int) + k ≤ 255) : ((satAdd v k).toNat : Int) = v.toNat + k := by
  have := satAdd_toNat v k
  omega

/-- **C141** `brightness` without saturation is such a change of the bytes (images without alpha) -/
theorem c141_brightness (P : Profile) {a : Image UInt8} (ha : a.WF) (hal : a.info.alpha = false) {k : Int} (hk : -255 ≤ k ∧ k ≤ 255)
    (hs : ∀ x y c, x < a.info.width → y < a.info.height → c < a.info.channels → 0 ≤ (a.byteAt x y c : Int) + k ∧ (a.byteAt x y c : Int) + k ≤ 255) :
    ∃ b, brightness false P a k = .ok b ∧ b.WF ∧ a.ByteShift b 1 k := by
  obtain ⟨b, e, hb⟩ := c20_brightness P a k ha (by rw [hal]; exact nofun) hk
  refine ⟨b, e, hb.WF, hb.info_eq, fun x y c hx hy hc => ?_⟩
  have hl : c < (a.px x y).length := by rw [Image.px_length ha hx hy]; exact hc
  have hv := hs x y c hx hy hc
  unfold Image.byteAt at hv ⊢
  rw [hb.px_eq hx hy]
  simp only [ImageInfo.colour, ImageInfo.alphaOf, hal, Bool.false_eq_true, if_false, List.append_nil]
  rw [List.getD_eq_getElem?_getD, List.getElem?_eq_getElem hl, Option.getD_some] at hv
  rw [List.getD_eq_getElem?_getD, List.getD_eq_getElem?_getD, List.getElem?_map, List.getElem?_eq_getElem hl]
  simp only [Option.map_some, Option.getD_some]
  rw [satAdd_in hv, one_mul]

section
variable [Libm f32]

/-- **C141** `sobel`, `prewitt` and `sobel_weighted` do not see a brightness change or a negation that does not saturate: the same image comes out -/
theorem c141_gradient (hsq : SquareExact) (P : Profile) {a b : Image UInt8} (ha : a.WF) (hb : b.WF) {s k : Int} (h : a.ByteShift b s k)
    (hs : s = 1 ∨ s = -1) (hch : a.info.channels = 1) (hal : a.info.alpha = false)
    (hw : a.info.width + 3 ≤ 2147483648) (hh : a.info.height + 3 ≤ 2147483648) (weight : Nat) (hwt : weight ≤ 9) :
    onBytes P (sobel P) b = onBytes P (sobel P) a ∧ onBytes P (prewitt P) b = onBytes P (prewitt P) a ∧
    onBytes P (fun f => sobelWeighted P f weight) b = onBytes P (fun f => sobelWeighted P f weight) a := by
  have hi := h.1
  obtain ⟨a1, a2, a3⟩ := c140_gradient hsq P ha hch hal hw hh weight hwt
  obtain ⟨b1, b2, b3⟩ := c140_gradient hsq P hb (hi ▸ hch) (hi ▸ hal) (hi ▸ hw) (hi ▸ hh) weight hwt
  rw [hi] at b1 b2 b3
  have key : ∀ {op op' : Res (Image UInt8)} {w : Nat}, GradientBytes op a.info (fun x y c => (b.byteAt x y c : Int)) w →
      GradientBytes op' a.info (fun x y c => (a.byteAt x y c : Int)) w → op = op' := by
    rintro op op' w ⟨o, e, ow, oi, ob⟩ ⟨o', e', ow', oi', ob'⟩
    rw [e, e', Image.byteAt_ext ow ow' (oi.trans oi'.symm) fun x y c hx hy hc => ?_]
    rw [oi] at hx hy hc
    obtain rfl : c = 0 := by omega
    refine (ob x y hx hy).unique ?_
    have hN := shift_intNear h (by omega) hx hy
    have h1 : intGradX a.info (fun x y c => (b.byteAt x y c : Int)) w x y = s * intGradX a.info (fun x y c => (a.byteAt x y c : Int)) w x y := by
      unfold intGradX; simp only [hN]; ring
    have h2 : intGradY a.info (fun x y c => (b.byteAt x y c : Int)) w x y = s * intGradY a.info (fun x y c => (a.byteAt x y c : Int)) w x y := by
      unfold intGradY; simp only [hN]; ring
    have hs2 : s ^ 2 = 1 := by rcases hs with rfl | rfl <;> norm_num
    rw [h1, h2, mul_pow, mul_pow, hs2, one_mul, one_mul]
    exact ob' x y hx hy
  exact ⟨key b2 a2, key b3 a3, key b1 a1⟩

/-- **C141** a kernel of integers that add up to `S`: raising all bytes by `k` raises the exact value by `S * k` before rounding and saturation -/
theorem c141_integer_kernel (P : Profile) {a b : Image UInt8} (ha : a.WF) (hb : b.WF) {k : Int} (h : a.ByteShift b 1 k)
    (m : List Int) (n : Nat) (hodd : n % 2 = 1) (hk : m.length = n * n) (hn : n ≤ 4095) (hB : (m.map (|·|)).sum * 255 ≤ 16777216)
    (hw : a.info.width + n ≤ 2147483648) (hh : a.info.height + n ≤ 2147483648) :
    ∃ val : Nat → Nat → Nat → Rat, BytesRounded (onBytes P (fun f => unseparableFilter P f (m.map num)) a) a.info val ∧
      BytesRounded (onBytes P (fun f => unseparableFilter P f (m.map num)) b) a.info (fun x y c => val x y c + (m.sum * k : Int)) := by
  have h1 := c140_integer_kernel P ha m n hodd hk hn hB hw hh
  have h2 := c140_integer_kernel P hb m n hodd hk hn hB (h.1 ▸ hw) (h.1 ▸ hh)
  refine ⟨_, h1, ?_⟩
  rw [h.1] at h2
  obtain ⟨o, e, w, i, hp⟩ := h2
  refine ⟨o, e, w, i, fun P x y hx hy => ?_⟩
  obtain ⟨p, ep, hl, hc⟩ := hp P x y hx hy
  refine ⟨p, ep, hl, fun c hc' => ?_⟩
  obtain ⟨v, ev, hv⟩ := hc c hc'
  refine ⟨v, ev, ?_⟩
  have hsum : ∑ i ∈ Finset.range (n * n), m.getD i 0 = m.sum := by
    rw [← hk]; exact sum_getD m
  dsimp only at hv
  rw [shift_response h _ n hx hy hc', one_mul, hsum] at hv
  push_cast at hv ⊢
  exact hv

/-- **C141** `laplacian` does not see a brightness change that does not saturate -/
theorem c141_laplacian (P : Profile) {a b : Image UInt8} (ha : a.WF) (hb : b.WF) {k : Int} (h : a.ByteShift b 1 k)
    (hw : a.info.width + 5 ≤ 2147483648) (hh : a.info.height + 5 ≤ 2147483648) : onBytes P (laplacian P) b = onBytes P (laplacian P) a := by
  obtain ⟨val, h1, h2⟩ := c141_integer_kernel P ha hb h [0, -1, 0, -1, 4, -1, 0, -1, 0] 3 rfl rfl (by decide) (by decide) (by omega) (by omega)
  exact h2.unique h1 fun x y c _ _ _ => by simp

omit [Libm f32] in
/-- rounded means (weights `m ≥ 0` that add up to `d`) commute exactly with a brightness change that does not saturate -/
theorem rounded_mean_shift {a b : Image UInt8} {k : Int} (h : a.ByteShift b 1 k) {op op' : Res (Image UInt8)} {d : Nat} {m : Nat → Int}
    {n : Nat} (d0 : 0 < d) (hm : ∀ i < n * n, 0 ≤ m i) (hsum : ∑ i ∈ Finset.range (n * n), m i = d)
    (h1 : BytesRounded op a.info (fun x y c => ((intResponse2d a.info m n (fun x y c => (a.byteAt x y c : Int)) x y c : Int) : Rat) / d))
    (h2 : BytesRounded op' a.info (fun x y c => ((intResponse2d a.info m n (fun x y c => (b.byteAt x y c : Int)) x y c : Int) : Rat) / d)) :
    ∃ u v, op = .ok u ∧ op' = .ok v ∧ u.info = a.info ∧ u.ByteShift v 1 k := by
  obtain ⟨u, e, -, i, hu⟩ := h1.byteAt
  obtain ⟨v, e', -, i', hv⟩ := h2.byteAt
  refine ⟨u, v, e, e', i, i'.trans i.symm, fun x y c hx hy hc => ?_⟩
  rw [i] at hx hy hc
  have d0' : (0 : Rat) < d := by exact_mod_cast d0
  have bound : ∀ q : Image UInt8, 0 ≤ intResponse2d a.info m n (fun x y c => (q.byteAt x y c : Int)) x y c ∧
      intResponse2d a.info m n (fun x y c => (q.byteAt x y c : Int)) x y c ≤ 255 * d := by
    intro q
    rw [← hsum]
    unfold intResponse2d
    rw [sum_range_mul_int, Finset.mul_sum]
    constructor
    · refine Finset.sum_nonneg fun i hi => Finset.sum_nonneg fun j hj => mul_nonneg (hm _ ?_) (Int.natCast_nonneg _)
      have := Finset.mem_range.1 hi; have := Finset.mem_range.1 hj; nlinarith
    · refine Finset.sum_le_sum fun i hi => ?_
      rw [Finset.mul_sum]
      refine Finset.sum_le_sum fun j hj => ?_
      rw [mul_comm (255 : Int)]
      refine mul_le_mul_of_nonneg_left (Int.ofNat_le.2 (byteAt_le q _ _ _)) (hm _ ?_)
      have := Finset.mem_range.1 hi; have := Finset.mem_range.1 hj; nlinarith
  have ba := bound a
  have bb := bound b
  have hU := hu x y c hx hy hc
  have hV := hv x y c hx hy hc
  have hsh := shift_response h m n hx hy hc
  rw [one_mul, hsum] at hsh
  set R := intResponse2d a.info m n (fun x y c => (a.byteAt x y c : Int)) x y c
  rw [hsh] at hV bb
  have eq : (((R + d * k : Int) : Rat)) / d = (R : Rat) / d + k := by push_cast; field_simp
  rw [eq] at hV
  have r0 : (0 : Rat) ≤ (R : Rat) / d := div_nonneg (by exact_mod_cast ba.1) d0'.le
  have r1 : (R : Rat) / d ≤ 255 := by rw [div_le_iff₀ d0']; exact_mod_cast ba.2
  have s0 : (0 : Rat) ≤ (R : Rat) / d + k := by rw [← eq]; exact div_nonneg (by exact_mod_cast bb.1) d0'.le
  have s1 : (R : Rat) / d + k ≤ 255 := by rw [← eq, div_le_iff₀ d0']; exact_mod_cast bb.2
  set q := (R : Rat) / d
  have fl : ∀ {q : Rat} {n : Nat}, 0 ≤ q → q ≤ 255 → RoundsTo q n → (n : Int) = ⌊q + 1 / 2⌋ := by
    intro q n q0 q1 hr
    symm
    rw [Int.floor_eq_iff]
    constructor
    · rcases hr.low with h | h
      · push_cast; linarith
      · rw [h]; push_cast; linarith
    · rcases hr.high with h | h
      · push_cast; linarith
      · rw [h]; push_cast; linarith
  rw [fl s0 s1 hV, fl r0 r1 hU, show q + k + 1 / 2 = q + 1 / 2 + (k : Rat) by ring, Int.floor_add_intCast, one_mul]

/-- **C141** the predefined Gaussian blurs commute exactly with a brightness change that does not saturate -/
theorem c141_gaussian (P : Profile) {a b : Image UInt8} (ha : a.WF) (hb : b.WF) {k : Int} (h : a.ByteShift b 1 k)
    (hw : a.info.width + 5 ≤ 2147483648) (hh : a.info.height + 5 ≤ 2147483648) :
    ∀ blur ∈ [fun f => unseparableFilter P f K_GAUSSIAN_BLUR_2D_3, fun f => separableFilter P f K_GAUSSIAN_BLUR_1D_3 K_GAUSSIAN_BLUR_1D_3,
      fun f => unseparableFilter P f K_GAUSSIAN_BLUR_2D_5, fun f => separableFilter P f K_GAUSSIAN_BLUR_1D_5 K_GAUSSIAN_BLUR_1D_5],
      ∃ u v, onBytes P blur a = .ok u ∧ onBytes P blur b = .ok v ∧ u.info = a.info ∧ u.ByteShift v 1 k := by
  have w3 : a.info.width + 3 ≤ 2147483648 := by omega
  have h3 : a.info.height + 3 ≤ 2147483648 := by omega
  obtain ⟨p1, p2⟩ := c140_gaussian3 P ha w3 h3
  obtain ⟨q1, q2⟩ := c140_gaussian3 P hb (h.1 ▸ w3) (h.1 ▸ h3)
  obtain ⟨r1, r2⟩ := c140_gaussian5 P ha hw hh
  obtain ⟨t1, t2⟩ := c140_gaussian5 P hb (h.1 ▸ hw) (h.1 ▸ hh)
  rw [h.1] at q1 q2 t1 t2
  intro blur hbl
  simp only [List.mem_cons, List.not_mem_nil, or_false] at hbl
  rcases hbl with rfl | rfl | rfl | rfl
  · exact rounded_mean_shift h (d := 16) (m := fun k => binom3.getD (k / 3) 0 * binom3.getD (k % 3) 0) (n := 3) (by decide) (by decide) (by decide) (by exact_mod_cast p1) (by exact_mod_cast q1)
  · exact rounded_mean_shift h (d := 16) (m := fun k => binom3.getD (k / 3) 0 * binom3.getD (k % 3) 0) (n := 3) (by decide) (by decide) (by decide) (by exact_mod_cast p2) (by exact_mod_cast q2)
  · exact rounded_mean_shift h (d := 256) (m := fun k => binom5.getD (k / 5) 0 * binom5.getD (k % 5) 0) (n := 5) (by decide) (by decide) (by decide) (by exact_mod_cast r1) (by exact_mod_cast t1)
  · exact rounded_mean_shift h (d := 256) (m := fun k => binom5.getD (k / 5) 0 * binom5.getD (k % 5) 0) (n := 5) (by decide) (by decide) (by decide) (by exact_mod_cast r2) (by exact_mod_cast t2)

end

/-! ### concrete cases -/

/-- a gray ramp, 20 brighter, and its negative -/
example : (gray6 0 10 20 100 110 120).ByteShift (gray6 20 30 40 120 130 140) 1 20 ∧
    (gray6 0 10 20 100 110 120).ByteShift (gray6 255 245 235 155 145 135) (-1) 255 := by
  refine ⟨⟨rfl, fun x y c hx hy hc => ?_⟩, ⟨rfl, fun x y c hx hy hc => ?_⟩⟩ <;>
  · have hx : x < 3 := hx
    have hy : y < 2 := hy
    obtain rfl : c = 0 := Nat.lt_one_iff.1 hc
    interval_cases x <;> interval_cases y <;> decide

example (P : Profile) : letI := squareLibm
    onBytes P (sobel P) (gray6 255 245 235 155 145 135) = onBytes P (sobel P) (gray6 0 10 20 100 110 120) := by
  let := squareLibm
  have h : (gray6 0 10 20 100 110 120).ByteShift (gray6 255 245 235 155 145 135) (-1) 255 := by
    refine ⟨rfl, fun x y c hx hy hc => ?_⟩
    have hx : x < 3 := hx
    have hy : y < 2 := hy
    obtain rfl : c = 0 := Nat.lt_one_iff.1 hc
    interval_cases x <;> interval_cases y <;> decide
  exact (c141_gradient squareLibm_spec P (gray6_WF 0 10 20 100 110 120) (gray6_WF 255 245 235 155 145 135) h (.inr rfl) rfl rfl
    (by dims) (by dims) 1 (by decide)).1

end Imgproc

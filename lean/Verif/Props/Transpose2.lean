import Verif.Props.Transpose
import Verif.Props.Mirror2
import Verif.Props.Summed
/-! Property C136, continued: window operations. -/
namespace Imgproc
open FloatOps

/-! ### linear filters (exact arithmetic) -/

/-- window sums with the weights transposed -/
theorem padSums_transpose {a : Image ℝ} (h : a.WF) {A B : Image ℝ → Res (Image ℝ)} {n : Nat} {w w' : Nat → Nat → ℝ}
    (hA : PadSums A a.info n w) (hB : PadSums B a.info.transpose n w') (hw : ∀ i j, i < n → j < n → w' i j = w j i) :
    Transposes A B a := by
  intro b t
  obtain ⟨o, e, ho⟩ := hA a h rfl
  obtain ⟨o', e', ho'⟩ := hB b t.wf t.header
  refine ⟨o, o', e, e', (transposeOf_iff ho.WF).2 ?_⟩
  rw [ho.info_eq]
  refine ho'.congr fun x y hx hy => ?_
  have hx : x < a.info.height := hx
  have hy : y < a.info.width := hy
  rw [ho.px_eq hy hx]
  refine List.map_congr_left fun c _ => ?_
  rw [Finset.sum_comm]
  refine Finset.sum_congr rfl fun i hi => Finset.sum_congr rfl fun j hj => ?_
  rw [hw _ _ (Finset.mem_range.1 hj) (Finset.mem_range.1 hi)]
  exact congrArg (fun p : List ℝ => _ * p.getD c 0) (t.px h (padCoord_lt hx) (padCoord_lt hy))

/-- **C136** (exact arithmetic) `unseparable_filter` with the transposed kernel -/
theorem c136_unseparable (P : Profile) {a : Image ℝ} (h : a.WF) (k k' : List ℝ) (n : Nat)
    (hodd : n % 2 = 1) (hk : k.length = n * n) (hk' : k'.length = n * n) (hn : n < 65536)
    (hm : ∀ i j, i < n → j < n → k'.getD (i * n + j) 0 = k.getD (j * n + i) 0)
    (hw : a.info.width + n ≤ 2147483648) (hh : a.info.height + n ≤ 2147483648) :
    Transposes (fun i => unseparableFilter P i k) (fun i => unseparableFilter P i k') a :=
  padSums_transpose h (unseparable_pad P a.info k n hodd hk hn hw hh) (unseparable_pad P a.info.transpose k' n hodd hk' hn hh hw) hm

/-- **C136** (exact arithmetic) `separable_filter` with the two kernels exchanged -/
theorem c136_separable (P : Profile) {a : Image ℝ} (h : a.WF) (vert horz : List ℝ)
    (hodd : vert.length % 2 = 1) (heq : vert.length = horz.length)
    (hw : a.info.width + vert.length ≤ 2147483648) (hh : a.info.height + vert.length ≤ 2147483648) :
    Transposes (fun i => separableFilter P i vert horz) (fun i => separableFilter P i horz vert) a := by
  have hB := separable_pad P a.info.transpose horz vert (by rw [← heq]; exact hodd) heq.symm (by rw [← heq]; exact hh) (by rw [← heq]; exact hw)
  rw [← heq] at hB
  exact padSums_transpose h (separable_pad P a.info vert horz hodd heq hw hh) hB fun i j _ _ => mul_comm _ _

/-- **C136** (exact arithmetic) the filters with fixed kernels -/
theorem c136_fixed_kernels (P : Profile) {a : Image ℝ} (h : a.WF)
    (hw : a.info.width + 5 ≤ 2147483648) (hh : a.info.height + 5 ≤ 2147483648) :
    Transposes (fun i => sharpen P i) (fun i => sharpen P i) a ∧
    Transposes (fun i => unsharpMasking P i) (fun i => unsharpMasking P i) a ∧
    Transposes (fun i => laplacian P i) (fun i => laplacian P i) a := by
  refine ⟨c136_unseparable P h K_SHARPEN K_SHARPEN 3 rfl rfl rfl (by decide) ?_ (by omega) (by omega),
    c136_unseparable P h K_UNSHARP_MASKING K_UNSHARP_MASKING 5 rfl rfl rfl (by decide) ?_ (by omega) (by omega),
    c136_unseparable P h K_LAPLACIAN K_LAPLACIAN 3 rfl rfl rfl (by decide) ?_ (by omega) (by omega)⟩ <;>
  · intro i j hi hj
    interval_cases i <;> interval_cases j <;> rfl

/-- **C136** (exact arithmetic) `box_filter` and `weighted_avg_filter` -/
theorem c136_averages (P : Profile) {a : Image ℝ} (h : a.WF) (size weight : Nat)
    (hodd : size % 2 = 1) (hs : size < 65536) (hsum : size * size - 1 + weight < U32SIZE)
    (hw : a.info.width + size * size ≤ 2147483648) (hh : a.info.height + size * size ≤ 2147483648) :
    Transposes (fun i => weightedAvgFilter P i size weight) (fun i => weightedAvgFilter P i size weight) a ∧
    Transposes (fun i => boxFilter P i size) (fun i => boxFilter P i size) a := by
  have hle : size ≤ size * size := Nat.le_mul_self size
  constructor
  · have e : ∀ a : Image ℝ, weightedAvgFilter P a size weight = unseparableFilter P a ((List.range (size * size)).map fun k =>
        if k = size / 2 * size + size / 2 then
          (ofNat weight : ℝ) /. ofNat (size * size - 1 + weight)
        else num 1 /. ofNat (size * size - 1 + weight)) := by
      intro a
      unfold weightedAvgFilter
      rw [checkOdd_u32_ok hodd, ok_bind, c50_kernel P size weight hodd hs hsum, ok_bind]
    simp only [e]
    have lt : ∀ i j, i < size → j < size → i * size + j < size * size := by
      intro i j hi hj
      calc i * size + j < i * size + size := by omega
        _ = (i + 1) * size := by rw [Nat.succ_mul]
        _ ≤ size * size := Nat.mul_le_mul_right _ hi
    have cen : ∀ i j, i < size → j < size → (i * size + j = size / 2 * size + size / 2 ↔ i = size / 2 ∧ j = size / 2) := by
      intro i j hi hj
      constructor
      · intro he
        have hc : size / 2 < size := by omega
        have hp : 0 < size := by omega
        have h1 := congrArg (· / size) he
        have h2 := congrArg (· % size) he
        simp only [Nat.mul_comm _ size] at h1 h2
        rw [Nat.mul_add_div hp, Nat.mul_add_div hp, Nat.div_eq_of_lt hj, Nat.div_eq_of_lt hc] at h1
        rw [Nat.mul_add_mod, Nat.mul_add_mod, Nat.mod_eq_of_lt hj, Nat.mod_eq_of_lt hc] at h2
        omega
      · rintro ⟨rfl, rfl⟩; rfl
    refine c136_unseparable P h _ _ size hodd (by simp) (by simp) hs (fun i j hi hj => ?_) (by omega) (by omega)
    rw [getD_map_range _ _ _ _ (lt i j hi hj), getD_map_range _ _ _ _ (lt j i hj hi)]
    refine if_congr ?_ rfl rfl
    rw [cen i j hi hj, cen j i hj hi]
    omega
  · have hlt : size * size < U32SIZE := by
      have : size * size ≤ 65535 * 65535 := Nat.mul_le_mul (by omega) (by omega)
      omega
    have e : ∀ a : Image ℝ, boxFilter P a size = separableFilter P a (List.replicate (size * size) ((num 1 : ℝ) /. ofNat (size * size)))
        (List.replicate (size * size) ((num 1 : ℝ) /. ofNat (size * size))) := by
      intro a
      unfold boxFilter
      rw [checkOdd_u32_ok hodd, ok_bind, u32Mul_ok hlt, ok_bind]
    simp only [e]
    exact c136_separable P h _ _ (by rw [List.length_replicate, Nat.mul_mod, hodd]) rfl
      (by rw [List.length_replicate]; exact hw) (by rw [List.length_replicate]; exact hh)

/-- **C136** (exact arithmetic) gradient magnitudes: the two kernels may be any; horizontal and vertical differences change places -/
theorem c136_derivative_mask (P : Profile) {a : Image ℝ} (h : a.WF) (vert horz : List ℝ)
    (hch : a.info.channels = 1) (ha : a.info.alpha = false) (hodd : vert.length % 2 = 1) (heq : vert.length = horz.length)
    (hw : a.info.width + vert.length ≤ 2147483648) (hh : a.info.height + vert.length ≤ 2147483648) :
    Transposes (fun i => derivativeMask P i vert horz) (fun i => derivativeMask P i vert horz) a := by
  intro b t
  have hd := t.header
  obtain ⟨gx, gy, o, e1, e2, eo, ho⟩ := c54_derivative_mask_partial P a h vert horz hch ha hodd heq hw hh
  obtain ⟨gx', gy', o', e1', e2', eo', ho'⟩ := c54_derivative_mask_partial P b t.wf vert horz (by rw [hd]; exact hch)
    (by rw [hd]; exact ha) hodd heq (by rw [hd]; exact hh) (by rw [hd]; exact hw)
  refine ⟨o, o', eo, eo', (transposeOf_iff ho.WF).2 ?_⟩
  rw [hd] at ho'
  rw [ho.info_eq]
  refine ho'.congr fun x y hx hy => ?_
  have hx : x < a.info.height := hx
  have hy : y < a.info.width := hy
  rw [ho.px_eq hy hx]
  have hB := separable_pad P a.info horz vert (by rw [← heq]; exact hodd) heq.symm (by rw [← heq]; exact hw) (by rw [← heq]; exact hh)
  obtain ⟨_, ep0, sp⟩ := separable_pad P a.info vert horz hodd heq hw hh a h rfl
  obtain ⟨_, eq0, sq⟩ := hB a h rfl
  obtain ⟨p, p', ep, ep', tp⟩ := c136_separable P h vert horz hodd heq hw hh b t
  obtain ⟨q, q', eq, eq', tq⟩ := c136_separable P h horz vert (by rw [← heq]; exact hodd) heq.symm (by rw [← heq]; exact hw)
    (by rw [← heq]; exact hh) b t
  have i1 : p = gx := Except.ok.inj (ep.symm.trans e1)
  have i2 : p' = gy' := Except.ok.inj (ep'.symm.trans e2')
  have i3 : q = gy := Except.ok.inj (eq.symm.trans e2)
  have i4 : q' = gx' := Except.ok.inj (eq'.symm.trans e1')
  subst i1 i2 i3 i4
  have i5 := Except.ok.inj (ep0.symm.trans e1)
  have i6 := Except.ok.inj (eq0.symm.trans e2)
  subst i5 i6
  rw [tq.px sq.WF (by rw [sq.info_eq]; exact hx) (by rw [sq.info_eq]; exact hy),
    tp.px sp.WF (by rw [sp.info_eq]; exact hx) (by rw [sp.info_eq]; exact hy)]
  simp only [Ideal.add_eq]
  rw [add_comm]

/-- **C136** (exact arithmetic) Sobel, Prewitt and weighted Sobel magnitudes -/
theorem c136_sobel_prewitt (P : Profile) {a : Image ℝ} (h : a.WF) (hch : a.info.channels = 1) (ha : a.info.alpha = false)
    (hw : a.info.width + 3 ≤ 2147483648) (hh : a.info.height + 3 ≤ 2147483648) (weight : Nat) :
    Transposes (fun i => sobel P i) (fun i => sobel P i) a ∧ Transposes (fun i => prewitt P i) (fun i => prewitt P i) a ∧
    Transposes (fun i => sobelWeighted P i weight) (fun i => sobelWeighted P i weight) a :=
  ⟨c136_derivative_mask P h K_SOBEL_1D_VERT K_SOBEL_1D_HORZ hch ha rfl rfl hw hh,
    c136_derivative_mask P h K_PREWITT_1D_VERT K_PREWITT_1D_HORZ hch ha rfl rfl hw hh,
    c136_derivative_mask P h [num 1, ofNat weight, num 1] K_SOBEL_1D_HORZ hch ha (by simp) (by simp [K_SOBEL_1D_HORZ]) hw hh⟩

/-! ### summed area tables (exact arithmetic) -/

theorem rectSum_transpose (f : Nat → Nat → ℝ) (x0 y0 x1 y1 : Nat) :
    rectSum (fun i j => f j i) y0 x0 y1 x1 = rectSum f x0 y0 x1 y1 := by
  unfold rectSum
  exact Finset.sum_comm

/-- **C136** (exact arithmetic) the summed area table -/
theorem c136_summed_area (P : Profile) {a : Image ℝ} (h : a.WF) :
    Transposes (fun i => generateSummedAreaTable P i) (fun i => generateSummedAreaTable P i) a := by
  intro b t
  obtain ⟨o, e, ho⟩ := c39_exact P a h
  obtain ⟨o', e', ho'⟩ := c39_exact P b t.wf
  refine ⟨o, o', e, e', (transposeOf_iff ho.WF).2 ?_⟩
  rw [t.header] at ho'
  rw [ho.info_eq]
  refine ho'.congr fun x y hx hy => ?_
  have hx : x < a.info.height := hx
  have hy : y < a.info.width := hy
  rw [ho.px_eq hy hx]
  refine List.map_congr_left fun c _ => ?_
  rw [← rectSum_transpose]
  unfold rectSum
  refine Finset.sum_congr rfl fun i hi => Finset.sum_congr rfl fun j hj => ?_
  simp only [Finset.mem_Icc] at hi hj
  show (b.px j i).getD c 0 = (a.px i j).getD c 0
  rw [t.px h (by omega) (by omega)]

/-! ### morphology (IEEE f32) -/

theorem TransposeOf.symm {T : Type} {a b : Image T} (h : a.WF) (t : TransposeOf a b) : TransposeOf b a := by
  refine (transposeOf_iff t.wf).2 ?_
  rw [t.header]
  exact h.shows.congr fun x y hx hy => (t.px h hy hx).symm

theorem isWhite_transpose {a b : Image UInt8} (h : a.WF) (t : TransposeOf a b) {x y : Nat} :
    IsWhite b x y ↔ IsWhite a y x := by
  have key : ∀ {a b : Image UInt8}, a.WF → TransposeOf a b → ∀ x y, IsWhite b x y → IsWhite a y x := by
    intro a b h t x y w
    have hl := w.lt
    rw [t.header] at hl
    intro P
    rw [← t.pixel P x y hl.1 hl.2]
    exact w P
  exact ⟨key h t x y, key t.wf (t.symm h) y x⟩

theorem eroded_transpose {a b : Image UInt8} (h : a.WF) (t : TransposeOf a b) {r x y : Nat} : Eroded b r x y ↔ Eroded a r y x := by
  have key : ∀ {a b : Image UInt8}, a.WF → TransposeOf a b → ∀ x y, Eroded b r x y → Eroded a r y x := by
    intro a b h t x y w i j hi hj
    obtain ⟨p, q, e1, e2, hw⟩ := w j i hj hi
    exact ⟨q, p, e2, e1, (isWhite_transpose h t).1 hw⟩
  exact ⟨key h t x y, key t.wf (t.symm h) y x⟩

theorem dilated_transpose {a b : Image UInt8} (h : a.WF) (t : TransposeOf a b) {r x y : Nat} :
    CodeDilated b r x y ↔ CodeDilated a r y x := by
  have key : ∀ {a b : Image UInt8}, a.WF → TransposeOf a b → ∀ x y, CodeDilated b r x y → CodeDilated a r y x := by
    intro a b h t x y w
    obtain ⟨p, q, h1, h2, h3, h4, hw⟩ := w
    rw [t.header] at h2 h4
    exact ⟨q, p, h3, h4, h1, h2, (isWhite_transpose h t).1 hw⟩
  exact ⟨key h t x y, key t.wf (t.symm h) y x⟩

theorem morphArgs_transpose {a b : Image UInt8} {r : Nat} (h : MorphArgs a r) (t : TransposeOf a b) : MorphArgs b r := by
  have hi := t.header
  refine ⟨⟨t.wf, by rw [hi]; exact h.binary.channels, by rw [hi]; exact h.binary.alpha, fun P x y hx hy => ?_⟩,
    by rw [hi]; exact h.height, by rw [hi]; exact h.width, by
      rw [hi]; have := h.small; rwa [Nat.mul_comm a.info.width] at this⟩
  rw [hi] at hx hy
  rw [t.pixel P x y hx hy]
  exact h.binary.value P _ _ hy hx

open Classical in
theorem draws_transpose {a : Image UInt8} (op : Image UInt8 → Res (Image UInt8)) (H : Image UInt8 → Prop) (hH : H a)
    (Set' : Image UInt8 → Nat → Nat → Prop) (hop : ∀ a, H a → ∃ out, op a = .ok out ∧ out.Draws a.info (Set' a))
    (hm : ∀ b, TransposeOf a b → H b ∧ ∀ x y, Set' b x y ↔ Set' a y x) : Transposes op op a := by
  intro b t
  obtain ⟨o, e, ho⟩ := hop a hH
  obtain ⟨o', e', ho'⟩ := hop b (hm b t).1
  have ho : o.Shows a.info fun x y => [if Set' a x y then 255 else 0] := ho
  have ho' : o'.Shows b.info fun x y => [if Set' b x y then 255 else 0] := ho'
  refine ⟨o, o', e, e', (transposeOf_iff ho.WF).2 ?_⟩
  rw [t.header] at ho'
  rw [ho.info_eq]
  refine ho'.congr fun x y hx hy => ?_
  rw [ho.px_eq (show y < a.info.width from hy) (show x < a.info.height from hx)]
  exact congrArg (fun v => [v]) (if_congr ((hm b t).2 x y) rfl rfl)

section
variable [Libm f32]

/-- **C136** (IEEE f32) erosion, dilation and `majority` -/
theorem c136_erode_dilate (P : Profile) {a : Image UInt8} {r : Nat} (h : MorphArgs a r) :
    Transposes (fun i => erode F32 P i r) (fun i => erode F32 P i r) a ∧
    Transposes (fun i => dilate F32 P i r) (fun i => dilate F32 P i r) a ∧
    Transposes (fun i => majority F32 P i r) (fun i => majority F32 P i r) a := by
  have D : Transposes (fun i => dilate F32 P i r) (fun i => dilate F32 P i r) a :=
    draws_transpose _ (MorphArgs · r) h (fun a => CodeDilated a r) (fun _ ha => ha.dilate P)
      fun b t => ⟨morphArgs_transpose h t, fun x y => dilated_transpose h.binary.wf t⟩
  exact ⟨draws_transpose _ (MorphArgs · r) h (fun a => Eroded a r) (fun _ ha => ha.erode P)
    fun b t => ⟨morphArgs_transpose h t, fun x y => eroded_transpose h.binary.wf t⟩, D, D⟩

omit [Libm f32] in
/-- doing one operation after another -/
theorem Transposes.then {S T U : Type} {op op' : Image S → Res (Image T)} {op2 op2' : Image T → Res (Image U)} {a : Image S}
    (h1 : Transposes op op' a) (h2 : ∀ o, op a = .ok o → Transposes op2 op2' o) :
    Transposes (fun i => op i >>= op2) (fun i => op' i >>= op2') a := by
  intro b t
  obtain ⟨o, o', e, e', t'⟩ := h1 b t
  obtain ⟨p, p', e2, e2', t2⟩ := h2 o e o' t'
  exact ⟨p, p', by dsimp only; rw [e, ok_bind]; exact e2, by dsimp only; rw [e', ok_bind]; exact e2', t2⟩

/-- **C136** (IEEE f32) opening and closing -/
theorem c136_open_close (P : Profile) {a : Image UInt8} {r : Nat} (h : MorphArgs a r) :
    Transposes (fun i => morphOpen F32 P i r) (fun i => morphOpen F32 P i r) a ∧
    Transposes (fun i => morphClose F32 P i r) (fun i => morphClose F32 P i r) a := by
  constructor
  · refine (c136_erode_dilate P h).1.then fun o e => ?_
    obtain ⟨o', e', ho⟩ := h.erode P
    obtain rfl : o' = o := Except.ok.inj (e'.symm.trans e)
    exact (c136_erode_dilate P (h.draws ho)).2.1
  · refine (c136_erode_dilate P h).2.1.then fun o e => ?_
    obtain ⟨o', e', ho⟩ := h.dilate P
    obtain rfl : o' = o := Except.ok.inj (e'.symm.trans e)
    exact (c136_erode_dilate P (h.draws ho)).1
end

/-! ### the median filter does not -/

/-- `fiveThree` lying on its side -/
def fiveThreeRow : Image UInt8 := ⟨⟨2, 1, 1, false⟩, [5, 3]⟩
theorem fiveThreeRow_transpose : TransposeOf fiveThree fiveThreeRow :=
  ⟨⟨by decide, by decide, by decide, by decide, by decide, rfl⟩, rfl, fun P x y hx hy => by
    have hx : x < 2 := hx
    have hy : y < 1 := hy
    cases P <;> interval_cases x <;> interval_cases y <;> rfl⟩
theorem fiveThreeRow_input : MedianInput ℝ fiveThreeRow 0 :=
  medianInput_real fiveThreeRow_transpose.wf (by decide) (by decide) (by decide) (by decide) (by decide)

/-- **C136 is violated by the median filter**: with radius 0 the column 5, 3 becomes 5, 5, but the row 5, 3 stays 5, 3. -/
theorem c136_median_violated (P : Profile) :
    ∃ o o', medianFilter ℝ P fiveThree 0 = .ok o ∧ medianFilter ℝ P fiveThreeRow 0 = .ok o' ∧ TransposeOf fiveThree fiveThreeRow ∧
      o.getPixel P 0 1 = .ok [5] ∧ o'.getPixel P 1 0 = .ok [3] ∧ ¬ TransposeOf o o' := by
  obtain ⟨-, -, hv⟩ := c56_violated
  obtain ⟨o, e, ho⟩ := hv P
  obtain ⟨o', e', hs⟩ := c56_exact ℝ P fiveThreeRow_input
  have h3 : o'.getPixel P 1 0 = .ok [3] := by
    rw [hs.2.2 P 1 0 (by decide) (by decide)]
    obtain ⟨n, hn⟩ : ∃ n, medianNCols ℝ 0 = 2 * n + 1 := ⟨medianNCols ℝ 0 / 2, by have := medianNCols_odd ℝ 0; omega⟩
    have hX : ∃ X, medianColumn fiveThreeRow.info.width (medianNCols ℝ 0) 1 = X + 1 := by
      rw [hn]
      show ∃ X, medianColumn 2 (2 * n + 1) 1 = X + 1
      unfold medianColumn
      rw [if_pos rfl]
      rcases Nat.eq_zero_or_pos n with rfl | h
      · exact ⟨0, rfl⟩
      · exact ⟨2 * n - 1 + (2 - 1) / (2 * n + 1) * (2 * n + 1), by omega⟩
    obtain ⟨X, hX⟩ := hX
    dsimp only
    rw [hX]
    have hw : fiveThreeRow.window 0 0 (X + 1) 0 = fiveThreeRow.window 0 0 1 0 := by
      unfold Image.window
      simp only [show fiveThreeRow.info.width = 2 from rfl]
      refine List.flatMap_congr fun j _ => List.map_congr_left fun i hi => ?_
      have hi := List.mem_range.1 hi
      have : clampCoord 2 (((X + 1 : Nat) : Int) + i - (0 : Nat)) = clampCoord 2 (((1 : Nat) : Int) + i - (0 : Nat)) := by
        unfold clampCoord; omega
      rw [this]
    have m : median (fiveThreeRow.window 0 0 1 0) = 3 := (median_rank_unique (by decide) (by decide) (by decide)).symm
    show Except.ok [UInt8.ofNat (median (fiveThreeRow.window 0 0 (X + 1) 0))] = _
    rw [hw, m]; rfl
  refine ⟨o, o', e, e', fiveThreeRow_transpose, ho, h3, fun t => ?_⟩
  obtain ⟨o2, e2, hs2⟩ := c56_exact ℝ P fiveThree_input
  obtain rfl : o2 = o := Except.ok.inj (e2.symm.trans e)
  have := t.pixel P 1 0 (by rw [hs2.info_eq]; decide) (by rw [hs2.info_eq]; decide)
  rw [h3, ho] at this
  injection this with this
  revert this; decide

/-! ### concrete cases -/
example (P : Profile) (a b c d e f : ℝ) : ∃ o o', sobel P (gray6 a b c d e f) = .ok o ∧ sobel P (gray6T a b c d e f) = .ok o' ∧
    TransposeOf o o' :=
  (c136_sobel_prewitt P (gray6_WF a b c d e f) rfl rfl (by show 3 + 3 ≤ _; omega) (by show 2 + 3 ≤ _; omega) 4).1 _ (gray6_transpose ..)
example [Libm f32] (P : Profile) : Transposes (fun i => dilate F32 P i 1) (fun i => dilate F32 P i 1) dotImg :=
  (c136_erode_dilate P ⟨dotImg_binary, by decide, by decide, by decide⟩).2.1
end Imgproc

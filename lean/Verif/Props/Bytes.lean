import Verif.Props.Dyadic
import Verif.Props.FilterErr2
import Verif.Props.ScaleErr
import Verif.Props.EdgeF32
import Verif.Props.Convert
import Verif.Spec.Bytes

/-!
# C140: filters on byte images, end to end

A byte image is converted to f32, filtered in f32 and converted back. The bytes that come out are compared with the exact weighted sums of
the bytes that go in.
-/
namespace Imgproc
open FloatOps
section
variable [Libm f32]

/-- convert to f32, operate, convert back -/
def onBytes (P : Profile) (op : Image F32 → Res (Image F32)) (img : Image UInt8) : Res (Image UInt8) :=
  imageU8ToFloat P img >>= op >>= imageFloatToU8 P

omit [Libm f32] in
theorem NearestByte.rounds {q : Rat} {n : Nat} (h : NearestByte q n) : RoundsTo q n := by
  rcases h with ⟨h, rfl⟩ | ⟨h, rfl⟩ | ⟨h1, h2, h3⟩
  · exact ⟨by norm_num, .inr rfl, .inl (by push_cast; linarith)⟩
  · exact ⟨le_refl _, .inl (by push_cast; linarith), .inr rfl⟩
  · exact ⟨h3, .inl (by linarith), .inl h2⟩

omit [Libm f32] in
/-- the rounded byte is determined -/
theorem RoundsTo.unique {q : Rat} {n n' : Nat} (h : RoundsTo q n) (h' : RoundsTo q n') : n = n' := by
  have key : ∀ {n n'}, RoundsTo q n → RoundsTo q n' → n ≤ n' := by
    intro n n' h h'
    rcases h.low with h1 | h1 <;> rcases h'.high with h2 | h2
    · have : (n : Rat) < (n' + 1 : Nat) := by push_cast; linarith
      have : n < n' + 1 := by exact_mod_cast this
      omega
    · have := h.byte; omega
    · omega
    · omega
  exact le_antisymm (key h h') (key h' h)

omit [Libm f32] in
theorem NearestByte.near {q : Rat} {n : Nat} (h : NearestByte q n) : |(n : Rat) - max 0 (min 255 q)| ≤ 1 / 2 := by
  rcases h with ⟨h, rfl⟩ | ⟨h, rfl⟩ | ⟨h1, h2, h3⟩
  · rw [min_eq_right (by linarith), abs_le]
    rcases le_total 0 q with h0 | h0
    · rw [max_eq_right h0]; push_cast; constructor <;> linarith
    · rw [max_eq_left h0]; push_cast; constructor <;> linarith
  · rw [max_eq_right (le_min (by norm_num) (by linarith)), abs_le]
    rcases le_total 255 q with h0 | h0
    · rw [min_eq_left h0]; push_cast; constructor <;> linarith
    · rw [min_eq_right h0]; push_cast; constructor <;> linarith
  · have h4 : (n : Rat) ≤ 255 := by exact_mod_cast h3
    have h5 : (0 : Rat) ≤ n := Nat.cast_nonneg n
    rw [abs_le]
    rcases le_total 255 q with h0 | h0
    · rw [min_eq_left h0, max_eq_right (by norm_num)]; constructor <;> linarith
    · rw [min_eq_right h0]
      rcases le_total 0 q with h0 | h0
      · rw [max_eq_right h0]; constructor <;> linarith
      · rw [max_eq_left h0]; constructor <;> linarith

omit [Libm f32] in
theorem clamp_lip (a b : Rat) : |max 0 (min 255 a) - max 0 (min 255 b)| ≤ |a - b| := by
  have h1 := abs_max_sub_max_le_abs (min 255 a) (min 255 b) (0 : Rat)
  have h2 := abs_min_sub_min_le_max (255 : Rat) a 255 b
  rw [max_comm 0, max_comm 0]
  refine h1.trans (h2.trans ?_)
  rw [sub_self, abs_zero, max_eq_right (abs_nonneg _)]

theorem floatToU8_shows (P : Profile) {g : Image F32} (h : g.WF) :
    ∃ out, imageFloatToU8 P g = .ok out ∧ out.Shows g.info fun x y => (g.px x y).map fun v => toU8 (FloatOps.round v) :=
  c05_map_channels P g h _

theorem toU8_nearest {r : F32} {a : Rat} (hr : r.Is a) : NearestByte a (toU8 (FloatOps.round r)).toNat := by
  have h := toU8_round_spec (f := f32) (by decide) (by decide) r
  rcases FP.toQ?_cases hr with e | ⟨e, rfl⟩ <;> rw [e] at h
  · exact h
  · simp only [U8OfFloat] at h
    rw [h]; exact Or.inl ⟨by norm_num, rfl⟩

/-- a float image of exact values becomes their rounded bytes -/
theorem bytes_rounded (P : Profile) {g : Image F32} {info : ImageInfo} {val : Nat → Nat → Nat → Rat} (h : g.ShowsValues info val) :
    BytesRounded (imageFloatToU8 P g) info val := by
  obtain ⟨out, e, ho⟩ := floatToU8_shows P h.1
  have hi := h.2.1
  rw [hi] at ho
  refine ⟨out, e, ho.WF, ho.info_eq, fun P x y hx hy => ?_⟩
  obtain ⟨p, ep, hl, hv⟩ := h.2.2 P x y hx hy
  rw [Image.getPixel_eq P h.1 (hi ▸ hx) (hi ▸ hy)] at ep
  cases ep
  refine ⟨_, ho.2.2 P x y hx hy, by rw [List.length_map, hl], fun c hc => ?_⟩
  obtain ⟨r, er, hr⟩ := hv c hc
  exact ⟨_, by rw [List.getElem?_map, er]; rfl, (toU8_nearest hr).rounds⟩

/-- a float image of approximate values becomes approximate bytes -/
theorem bytes_near (P : Profile) {g : Image F32} {info : ImageInfo} {val : Nat → Nat → Nat → Rat} {err : Rat} (hg : g.WF) (hi : g.info = info)
    (h : ∀ x y c, x < info.width → y < info.height → c < info.channels → ∃ a, ((g.px x y).getD c (num 0)).Is a ∧ |a - val x y c| ≤ err) :
    BytesNear (imageFloatToU8 P g) info val err := by
  obtain ⟨out, e, ho⟩ := floatToU8_shows P hg
  rw [hi] at ho
  refine ⟨out, e, ho.WF, ho.info_eq, fun P x y hx hy => ?_⟩
  have hl : (g.px x y).length = info.channels := by rw [Image.px_length hg (hi ▸ hx) (hi ▸ hy), hi]
  refine ⟨_, ho.2.2 P x y hx hy, by rw [List.length_map, hl], fun c hc => ?_⟩
  obtain ⟨a, ha, hae⟩ := h x y c hx hy hc
  rw [List.getD_eq_getElem?_getD, List.getElem?_eq_getElem (by omega), Option.getD_some] at ha
  refine ⟨_, by rw [List.getElem?_map, List.getElem?_eq_getElem (by omega)]; rfl, ?_⟩
  have h1 := (toU8_nearest ha).near
  have h2 := (clamp_lip a (val x y c)).trans hae
  rw [abs_le] at h1 h2 ⊢
  constructor <;> linarith [h1.1, h1.2, h2.1, h2.2]

theorem onBytes_of {P : Profile} {op : Image F32 → Res (Image F32)} {img : Image UInt8} (h : img.WF) {Q : Res (Image UInt8) → Prop}
    (hop : ∀ f : Image F32, f.info = img.info → f.ShowsValues img.info (fun x y c => ((img.byteAt x y c : Int) : Rat)) →
      ∃ g, op f = .ok g ∧ Q (imageFloatToU8 P g)) : Q (onBytes P op img) := by
  obtain ⟨f, e, hf⟩ := imageU8ToFloat_values P h
  obtain ⟨g, eg, hq⟩ := hop f hf.2.1 hf
  unfold onBytes
  rw [e, ok_bind, eg, ok_bind]
  exact hq

omit [Libm f32] in
theorem byteAt_abs (img : Image UInt8) (x y c : Nat) : |(img.byteAt x y c : Int)| ≤ 255 := by
  have : img.byteAt x y c < 256 := UInt8.toNat_lt _
  rw [abs_le]; constructor <;> omega

/-! ### kernels with exact weights -/

/-- **C140** the predefined Gaussian blurs of size 3 (2-D, and twice 1-D): every byte is the binomially weighted sum over 16, rounded -/
theorem c140_gaussian3 (P : Profile) {img : Image UInt8} (h : img.WF) (hw : img.info.width + 3 ≤ 2147483648)
    (hh : img.info.height + 3 ≤ 2147483648) :
    let val := fun x y c => ((intResponse2d img.info (fun k => binom3.getD (k / 3) 0 * binom3.getD (k % 3) 0) 3
      (fun x y c => (img.byteAt x y c : Int)) x y c : Int) : Rat) / 16
    BytesRounded (onBytes P (fun f => unseparableFilter P f K_GAUSSIAN_BLUR_2D_3) img) img.info val ∧
    BytesRounded (onBytes P (fun f => separableFilter P f K_GAUSSIAN_BLUR_1D_3 K_GAUSSIAN_BLUR_1D_3) img) img.info val := by
  intro val
  constructor <;>
  · refine onBytes_of (Q := fun r => BytesRounded r img.info val) h fun f hi hf => ?_
    rw [← hi] at hf hw hh
    obtain ⟨out, e1, e2, ho⟩ := c105_gaussian3 P hf (fun x y c _ _ _ => (byteAt_abs img x y c).trans (by norm_num)) hw hh
    rw [hi] at ho
    first
    | exact ⟨out, e2, bytes_rounded P ho⟩
    | exact ⟨out, e1, bytes_rounded P ho⟩

/-- **C140** the predefined Gaussian blurs of size 5 -/
theorem c140_gaussian5 (P : Profile) {img : Image UInt8} (h : img.WF) (hw : img.info.width + 5 ≤ 2147483648)
    (hh : img.info.height + 5 ≤ 2147483648) :
    let val := fun x y c => ((intResponse2d img.info (fun k => binom5.getD (k / 5) 0 * binom5.getD (k % 5) 0) 5
      (fun x y c => (img.byteAt x y c : Int)) x y c : Int) : Rat) / 256
    BytesRounded (onBytes P (fun f => unseparableFilter P f K_GAUSSIAN_BLUR_2D_5) img) img.info val ∧
    BytesRounded (onBytes P (fun f => separableFilter P f K_GAUSSIAN_BLUR_1D_5 K_GAUSSIAN_BLUR_1D_5) img) img.info val := by
  intro val
  constructor <;>
  · refine onBytes_of (Q := fun r => BytesRounded r img.info val) h fun f hi hf => ?_
    rw [← hi] at hf hw hh
    obtain ⟨out, e1, e2, ho⟩ := c105_gaussian5 P hf (fun x y c _ _ _ => (byteAt_abs img x y c).trans (by norm_num)) hw hh
    rw [hi] at ho
    first
    | exact ⟨out, e2, bytes_rounded P ho⟩
    | exact ⟨out, e1, bytes_rounded P ho⟩

/-- filters with dyadic weights are exact on bytes -/
theorem rounded_dyadic (P : Profile) {img : Image UInt8} (h : img.WF) (kernel : List F32) (n t : Nat) (m : Nat → Int) (ht : t ≤ 100)
    (hodd : n % 2 = 1) (hk : kernel.length = n * n) (hn : n ≤ 4095)
    (hm : ∀ i < kernel.length, (kernel.getD i (num 0)).Is ((m i : Rat) / 2 ^ t))
    (hB : (∑ i ∈ Finset.range kernel.length, |m i|) * 255 ≤ 16777216)
    (hw : img.info.width + n ≤ 2147483648) (hh : img.info.height + n ≤ 2147483648) :
    BytesRounded (onBytes P (fun f => unseparableFilter P f kernel) img) img.info fun x y c =>
      ((intResponse2d img.info m n (fun x y c => (img.byteAt x y c : Int)) x y c : Int) : Rat) / 2 ^ t := by
  refine onBytes_of (Q := fun r => BytesRounded r img.info fun x y c =>
      ((intResponse2d img.info m n (fun x y c => (img.byteAt x y c : Int)) x y c : Int) : Rat) / 2 ^ t) h fun f hi hf => ?_
  rw [← hi] at hf hw hh
  obtain ⟨out, e, ho⟩ := unseparable_dy P (s := 0) (t := t) (by omega) (v := fun x y c => (img.byteAt x y c : Int)) (by simpa using hf) kernel n m
    255 hodd hk hn hm (fun x y c _ _ _ => byteAt_abs img x y c) hB hw hh
  rw [hi, Nat.zero_add] at ho
  exact ⟨out, e, bytes_rounded P ho.values⟩

/-- **C140** kernels of integers: the byte is the exact sum, saturated -/
theorem c140_integer_kernel (P : Profile) {img : Image UInt8} (h : img.WF) (m : List Int) (n : Nat) (hodd : n % 2 = 1)
    (hk : m.length = n * n) (hn : n ≤ 4095) (hB : (m.map (|·|)).sum * 255 ≤ 16777216)
    (hw : img.info.width + n ≤ 2147483648) (hh : img.info.height + n ≤ 2147483648) :
    BytesRounded (onBytes P (fun f => unseparableFilter P f (m.map num)) img) img.info fun x y c =>
      ((intResponse2d img.info (fun i => m.getD i 0) n (fun x y c => (img.byteAt x y c : Int)) x y c : Int) : Rat) := by
  have hs : ∑ i ∈ Finset.range m.length, |m.getD i 0| = (m.map (|·|)).sum := by
    clear hk hB
    induction m with
    | nil => rfl
    | cons a m ih => rw [List.length_cons, Finset.sum_range_succ', List.map_cons, List.sum_cons, add_comm, ← ih]; rfl
  have hmem : ∀ a ∈ m, |a| ≤ 16777216 := by
    intro a ha
    have := List.single_le_sum (l := m.map (|·|)) (fun b hb => by
      obtain ⟨c, -, rfl⟩ := List.mem_map.1 hb; exact abs_nonneg c) _ (List.mem_map_of_mem ha)
    have h0 : 0 ≤ |a| := abs_nonneg a
    have : |a| ≤ (m.map (|·|)).sum := this
    omega
  have := rounded_dyadic P h (m.map num) n 0 (fun i => m.getD i 0) (by decide) hodd (by simpa using hk) hn (fun i hi => by
    rw [List.length_map] at hi
    rw [List.getD_eq_getElem?_getD, List.getElem?_map, List.getElem?_eq_getElem hi, List.getD_eq_getElem?_getD, List.getElem?_eq_getElem hi]
    simpa using num32 (hmem _ (List.getElem_mem hi))) (by rw [List.length_map, hs]; exact hB) hw hh
  simpa using this

/-- **C140** `sharpen`, `laplacian` and `unsharp_masking`: the exact sum (over 256 for the last), rounded and saturated -/
theorem c140_sharpen (P : Profile) {img : Image UInt8} (h : img.WF) (hw : img.info.width + 5 ≤ 2147483648)
    (hh : img.info.height + 5 ≤ 2147483648) :
    let byte := fun x y c => (img.byteAt x y c : Int)
    BytesRounded (onBytes P (sharpen P) img) img.info (fun x y c =>
      ((intResponse2d img.info (fun i => [0, -1, 0, -1, 5, -1, 0, -1, 0].getD i 0) 3 byte x y c : Int) : Rat)) ∧
    BytesRounded (onBytes P (laplacian P) img) img.info (fun x y c =>
      ((intResponse2d img.info (fun i => [0, -1, 0, -1, 4, -1, 0, -1, 0].getD i 0) 3 byte x y c : Int) : Rat)) ∧
    BytesRounded (onBytes P (unsharpMasking P) img) img.info (fun x y c =>
      ((intResponse2d img.info (fun i => if i = 12 then 476 else -(binom5.getD (i / 5) 0 * binom5.getD (i % 5) 0)) 5 byte x y c : Int) : Rat)
        / 256) := by
  refine ⟨c140_integer_kernel P h _ 3 rfl rfl (by decide) (by decide) (by omega) (by omega),
    c140_integer_kernel P h _ 3 rfl rfl (by decide) (by decide) (by omega) (by omega), ?_⟩
  have hl : ∀ i < 25, ([-1, -4, -6, -4, -1, -4, -16, -24, -16, -4, -6, -24, 476, -24, -6, -4, -16, -24, -16, -4, -1, -4, -6, -4, -1] : List Int).getD
      i 0 = if i = 12 then 476 else -(binom5.getD (i / 5) 0 * binom5.getD (i % 5) 0) := by decide
  have := rounded_dyadic P h K_UNSHARP_MASKING 5 8
    (fun i => if i = 12 then 476 else -(binom5.getD (i / 5) 0 * binom5.getD (i % 5) 0)) (by decide) rfl rfl (by decide)
    (fun i hi => by
      have hi : i < 25 := hi
      have := ratio_dy (([-1, -4, -6, -4, -1, -4, -16, -24, -16, -4, -6, -24, 476, -24, -6, -4, -16, -24, -16, -4, -1, -4, -6, -4, -1] : List Int))
        (by decide) (k := 8) (by decide) (i := i) hi
      rw [hl i hi] at this
      exact this)
    (show (∑ i ∈ Finset.range 25, |(if i = 12 then 476 else -(binom5.getD (i / 5) 0 * binom5.getD (i % 5) 0) : Int)|) * 255 ≤ 16777216 by
      decide +kernel) hw hh
  norm_num at this
  exact this

/-! ### general kernels -/

/-- **C140** any kernel of numbers: the byte is the exact weighted sum, saturated, to within one half and the f32 error bound -/
theorem c140_unseparable (P : Profile) {img : Image UInt8} (h : img.WF) (kernel : List F32) (n : Nat) (m : Nat → Rat) (hodd : n % 2 = 1)
    (hk : kernel.length = n * n) (hn : n * n < 2 ^ 23) (hm : ∀ i < kernel.length, (kernel.getD i (num 0)).Is (m i)) (A : Rat)
    (hA : ∑ i ∈ Finset.range (n * n), |m i| ≤ A) (hA' : A ≤ 2 ^ 80)
    (hw : img.info.width + n ≤ 2147483648) (hh : img.info.height + n ≤ 2147483648) :
    BytesNear (onBytes P (fun f => unseparableFilter P f kernel) img) img.info
      (ratResponse2d img.info m n fun x y c => (img.byteAt x y c : Rat)) ((n * n + 1) / 2 ^ 23 * (255 * A) + n * n / 2 ^ 147) := by
  refine onBytes_of (Q := fun r => BytesNear r img.info
      (ratResponse2d img.info m n fun x y c => (img.byteAt x y c : Rat)) ((n * n + 1) / 2 ^ 23 * (255 * A) + n * n / 2 ^ 147)) h fun f hi hf => ?_
  have hf' : f.ShowsValues img.info (fun x y c => (img.byteAt x y c : Rat)) := by simpa using hf
  have hr : ∀ x y c, x < img.info.width → y < img.info.height →
      ratResponse2d img.info (fun i => |m i|) n (fun x y c => |(img.byteAt x y c : Rat)|) x y c ≤ 255 * A := by
    intro x y c _ _
    have hb : ∀ x y, |(img.byteAt x y c : Rat)| ≤ 255 := by
      intro x y; have := byteAt_abs img x y c; exact_mod_cast this
    refine le_trans ?_ (mul_le_mul_of_nonneg_left hA (by norm_num))
    unfold ratResponse2d
    rw [Finset.mul_sum, sum_range_mul_rat n n (fun k => 255 * |m k|)]
    refine Finset.sum_le_sum fun i _ => Finset.sum_le_sum fun j _ => ?_
    rw [mul_comm]
    exact mul_le_mul_of_nonneg_right (hb _ _) (abs_nonneg _)
  have A0 : 255 * A ≤ 2 ^ 97 := by have : (255 : Rat) * 2 ^ 80 ≤ 2 ^ 97 := by norm_num
                                   linarith
  rw [← hi] at hf' hw hh hr
  obtain ⟨out, e, ho⟩ := c109_unseparable P hf' kernel n m hodd hk hn hm (fun x y c hx hy _ => (hr x y c hx hy).trans A0) hw hh
  refine ⟨out, e, ?_⟩
  rw [hi] at ho hr
  refine bytes_near P ho.1 ho.2.1 fun x y c hx hy hc => ?_
  obtain ⟨p, ep, hl, hv⟩ := ho.2.2 .debug x y hx hy
  rw [Image.getPixel_eq .debug ho.1 (ho.2.1 ▸ hx) (ho.2.1 ▸ hy)] at ep
  cases ep
  obtain ⟨r, a, er, ha, hae⟩ := hv c hc
  refine ⟨a, by rw [List.getD_eq_getElem?_getD, er]; exact ha, hae.trans ?_⟩
  have := mul_le_mul_of_nonneg_left (hr x y c hx hy) (show (0 : Rat) ≤ (n * n + 1) / 2 ^ 23 by positivity)
  linarith

end
end Imgproc

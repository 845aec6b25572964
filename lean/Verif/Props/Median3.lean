import Verif.Props.Median2
import Verif.Props.Image
/-! Property C96: the median filter only moves values around, and commutes with increasing changes of the values. -/
namespace Imgproc
open FloatOps

theorem mem_window {img : Image UInt8} {r c x y v : Nat} (h : v ∈ img.window r c x y) (hw : 0 < img.info.width)
    (hh : 0 < img.info.height) : ∃ a b, a < img.info.width ∧ b < img.info.height ∧ b ≤ y + r ∧
      (x < img.info.width → |(a : Int) - x| ≤ r) ∧ (y < img.info.height → |(b : Int) - y| ≤ r) ∧ v = img.value c a b := by
  unfold Image.window at h
  rw [List.mem_flatMap] at h
  obtain ⟨j, hj, h⟩ := h
  rw [List.mem_map] at h
  obtain ⟨i, hi, rfl⟩ := h
  rw [List.mem_range] at hi hj
  refine ⟨_, _, ?_, ?_, ?_, ?_, ?_, rfl⟩
  · unfold clampCoord; omega
  · unfold clampCoord; omega
  · unfold clampCoord; omega
  · intro hx; rw [abs_le]; unfold clampCoord; omega
  · intro hx; rw [abs_le]; unfold clampCoord; omega

theorem window_pos (img : Image UInt8) (r c x y : Nat) : 0 < (img.window r c x y).length := by
  rw [window_length]; exact Nat.mul_pos (by omega) (by omega)

/-- what the sliding median returns lies in the window of some row not below this one -/
theorem slidingMedian_mem (img : Image UInt8) (r c x : Nat) (y : Nat) :
    ∃ y', y' ≤ y ∧ slidingMedian img r c x y ∈ img.window r c x y' := by
  induction y with
  | zero => exact ⟨0, le_refl _, median_mem (window_pos ..)⟩
  | succ y ih =>
    unfold slidingMedian
    split
    · obtain ⟨y', h1, h2⟩ := ih; exact ⟨y', by omega, h2⟩
    · exact ⟨y + 1, le_refl _, median_mem (window_pos ..)⟩

theorem medianColumn_of_lt {w n x : Nat} (h : x + 1 < w) : medianColumn w n x = x := by
  unfold medianColumn; rw [if_neg (by omega)]

/-- **C96** Every value of the output of `median_filter` is a value of the same channel of the input, taken from at most `r`
rows further down and (except in the last column) from at most `r` columns to either side. -/
theorem c96_values (F : Type) [FloatOps F] (P : Profile) {img : Image UInt8} {r : Nat} (I : MedianInput F img r) :
    ∃ out, medianFilter F P img r = .ok out ∧ out.info = img.info ∧
      ∀ x y c, x < img.info.width → y < img.info.height → c < img.info.channels →
        ∃ a b p q v, a < img.info.width ∧ b < img.info.height ∧ b ≤ y + r ∧ (x + 1 < img.info.width → |(a : Int) - x| ≤ r) ∧
          out.getPixel P x y = .ok p ∧ img.getPixel P a b = .ok q ∧ p[c]? = some v ∧ q[c]? = some v := by
  obtain ⟨out, e, hs⟩ := c56_exact F P I
  refine ⟨out, e, hs.info_eq, fun x y c hx hy hc => ?_⟩
  obtain ⟨y', h1, h2⟩ := slidingMedian_mem img r c (medianColumn img.info.width (medianNCols F r) x) y
  obtain ⟨a, b, ha, hb, hby, hax, -, hv⟩ := mem_window h2 I.width I.height
  have hl : c < (img.px a b).length := by rw [Image.px_length I.wf ha hb]; exact hc
  refine ⟨a, b, _, _, (img.px a b)[c], ha, hb, by omega, fun hx1 => ?_, hs.2.2 P x y hx hy, Image.getPixel_eq P I.wf ha hb, ?_,
    List.getElem?_eq_getElem hl⟩
  · rw [medianColumn_of_lt hx1] at hax; exact hax hx
  · rw [List.getElem?_map, List.getElem?_range hc, Option.map_some, hv]
    unfold Image.value
    rw [List.getElem?_eq_getElem hl, Option.getD_some, UInt8.ofNat_toNat]

/-- **C96** hence whatever holds for every value of a channel of the input (bounds, being 0 or 255, ...) holds for the
output -/
theorem c96_invariant (F : Type) [FloatOps F] (P : Profile) {img : Image UInt8} {r : Nat} (I : MedianInput F img r)
    (ok : Nat → UInt8 → Prop)
    (h : ∀ (x y c : Nat) v, x < img.info.width → y < img.info.height → (img.px x y)[c]? = some v → ok c v) :
    ∃ out, medianFilter F P img r = .ok out ∧
      ∀ (x y c : Nat) v, x < img.info.width → y < img.info.height → (out.px x y)[c]? = some v → ok c v := by
  obtain ⟨out, e, hi, ho⟩ := c96_values F P I
  obtain ⟨out', e', hs⟩ := c56_exact F P I
  obtain rfl : out = out' := by rw [e] at e'; injection e'
  refine ⟨out, e, fun x y c v hx hy hv => ?_⟩
  have hc : c < img.info.channels := by
    have := (List.getElem?_eq_some_iff.1 hv).1
    rw [Image.px_length hs.WF (by rw [hi]; exact hx) (by rw [hi]; exact hy), hi] at this
    exact this
  obtain ⟨a, b, p, q, v', ha, hb, -, -, ep, eq, h1, h2⟩ := ho x y c hx hy hc
  rw [Image.getPixel_eq P hs.WF (by rw [hi]; exact hx) (by rw [hi]; exact hy)] at ep
  rw [Image.getPixel_eq P I.wf ha hb] at eq
  obtain rfl : out.px x y = p := by injection ep
  obtain rfl : img.px a b = q := by injection eq
  rw [hv] at h1
  obtain rfl : v = v' := by injection h1
  exact h a b c v ha hb h2

/-! ### increasing changes of the values -/

/-- `g` keeps the order of the elements of `l` -/
def IncreasingOn (g : Nat → Nat) (l : List Nat) : Prop := ∀ a ∈ l, ∀ b ∈ l, a < b → g a < g b

theorem IncreasingOn.lt_iff {g : Nat → Nat} {l : List Nat} (h : IncreasingOn g l) {a b : Nat} (ha : a ∈ l) (hb : b ∈ l) :
    g a < g b ↔ a < b := by
  refine ⟨fun hg => ?_, h a ha b hb⟩
  rcases Nat.lt_trichotomy a b with h1 | h1 | h1
  · exact h1
  · subst h1; omega
  · have := h b hb a ha h1; omega

theorem countP_map_lt {g : Nat → Nat} {l k : List Nat} (h : IncreasingOn g l) (hk : ∀ v ∈ k, v ∈ l) {m : Nat} (hm : m ∈ l) :
    (k.map g).countP (· < g m) = k.countP (· < m) := by
  rw [List.countP_map]
  refine List.countP_congr fun v hv => ?_
  simp [h.lt_iff (hk v hv) hm]

theorem median_map {g : Nat → Nat} {l : List Nat} (h : IncreasingOn g l) (hl : 0 < l.length) :
    median (l.map g) = g (median l) := by
  obtain ⟨h1, h2⟩ := median_spec hl
  refine (median_rank_unique (by rw [List.length_map]; exact hl) ?_ ?_).symm
  · rw [countP_map_lt h (fun _ h => h) (median_mem hl), List.length_map]; exact h1
  · rw [List.length_map, List.countP_map]
    refine lt_of_lt_of_le h2 (le_of_eq (List.countP_congr fun v hv => ?_))
    have := h.lt_iff (median_mem hl) hv
    simp only [Function.comp, decide_eq_true_eq]
    omega

theorem slidingMedian_map {g : Nat → Nat} {img img' : Image UInt8} {r c x : Nat} (vals : List Nat)
    (hv : ∀ y, ∀ v ∈ img.window r c x y, v ∈ vals) (hg : IncreasingOn g vals)
    (hw : ∀ y, img'.window r c x y = (img.window r c x y).map g) (y : Nat) :
    slidingMedian img' r c x y = g (slidingMedian img r c x y) := by
  have mid : ∀ y, median (img'.window r c x y) = g (median (img.window r c x y)) := fun y => by
    rw [hw]; exact median_map (fun a ha b hb => hg a (hv y a ha) b (hv y b hb)) (window_pos ..)
  induction y with
  | zero => exact mid 0
  | succ y ih =>
    unfold slidingMedian
    obtain ⟨y', _, hm⟩ := slidingMedian_mem img r c x y
    rw [ih, mid, hw, countP_map_lt hg (hv (y + 1)) (hv y' _ hm)]
    split <;> rfl

/-- **C96** The median filter commutes with every change of the values that keeps the order of the values occurring in each
channel: remapping the filtered image is filtering the remapped image. -/
theorem c96_remap (F : Type) [FloatOps F] (P : Profile) {img : Image UInt8} {r : Nat} (I : MedianInput F img r)
    (φ : UInt8 → UInt8)
    (hφ : ∀ (x y x' y' c : Nat) u v, x < img.info.width → y < img.info.height → x' < img.info.width → y' < img.info.height →
      (img.px x y)[c]? = some u → (img.px x' y')[c]? = some v → u < v → φ u < φ v) :
    (medianFilter F P img r >>= fun o => o.mapChannels P fun v => .ok (φ v)) =
      (img.mapChannels P (fun v => .ok (φ v)) >>= fun i => medianFilter F P i r) := by
  obtain ⟨out, e, hs⟩ := c56_exact F P I
  obtain ⟨mo, emo, hmo⟩ := c05_map_channels P out hs.WF φ
  obtain ⟨m, em, hm⟩ := c05_map_channels P img I.wf φ
  have mi := hm.info_eq
  have I' : MedianInput F m r := ⟨hm.WF, by rw [mi]; exact I.width, by rw [mi]; exact I.height, by rw [mi]; exact I.fitW,
    by rw [mi]; exact I.fitH, I.fitN⟩
  obtain ⟨om, eom, hom⟩ := c56_exact F P I'
  rw [e, ok_bind, emo, em, ok_bind, eom]
  rw [hs.info_eq] at hmo
  rw [mi] at hom
  refine congrArg Except.ok (Image.Shows.ext hmo (hom.congr fun x y hx hy => ?_))
  rw [hs.px_eq hx hy, List.map_map]
  refine List.map_congr_left fun c hc => ?_
  have hc := List.mem_range.1 hc
  have val : ∀ a b, a < img.info.width → b < img.info.height → (img.px a b)[c]? = some (UInt8.ofNat (img.value c a b)) ∧
      m.value c a b = (φ (UInt8.ofNat (img.value c a b))).toNat := by
    intro a b ha hb
    have hl : c < (img.px a b).length := by rw [Image.px_length I.wf ha hb]; exact hc
    unfold Image.value
    rw [hm.px_eq ha hb, List.getElem?_map, List.getElem?_eq_getElem hl, Option.map_some, Option.getD_some, Option.getD_some,
      UInt8.ofNat_toNat]
    exact ⟨rfl, rfl⟩
  have key := slidingMedian_map (g := fun n => (φ (UInt8.ofNat n)).toNat) (img := img) (img' := m) (r := r) (c := c)
    (x := medianColumn img.info.width (medianNCols F r) x)
    ((List.range 256).filter fun v => (List.range img.info.width).any fun a => (List.range img.info.height).any fun b =>
      img.value c a b == v) (fun y v hv => by
        obtain ⟨a, b, ha, hb, -, -, -, rfl⟩ := mem_window hv I.width I.height
        rw [List.mem_filter, List.mem_range, List.any_eq_true]
        exact ⟨Image.value_lt .., a, List.mem_range.2 ha, List.any_eq_true.2 ⟨b, List.mem_range.2 hb, by simp⟩⟩)
      (fun u hu v hv huv => by
        have ex : ∀ v, v ∈ ((List.range 256).filter fun v => (List.range img.info.width).any fun a =>
            (List.range img.info.height).any fun b => img.value c a b == v) →
            v < 256 ∧ ∃ a b, a < img.info.width ∧ b < img.info.height ∧ img.value c a b = v := by
          intro v hv
          rw [List.mem_filter, List.mem_range, List.any_eq_true] at hv
          obtain ⟨h1, a, ha, hv⟩ := hv
          rw [List.any_eq_true] at hv
          obtain ⟨b, hb, hv⟩ := hv
          exact ⟨h1, a, b, List.mem_range.1 ha, List.mem_range.1 hb, by simpa using hv⟩
        obtain ⟨hu1, a, b, ha, hb, eu⟩ := ex u hu
        obtain ⟨hv1, a', b', ha', hb', ev⟩ := ex v hv
        have h1 := (val a b ha hb).1
        have h2 := (val a' b' ha' hb').1
        rw [eu] at h1
        rw [ev] at h2
        have := hφ a b a' b' c _ _ ha hb ha' hb' h1 h2 (by
          rw [UInt8.lt_iff_toNat_lt, UInt8.toNat_ofNat', UInt8.toNat_ofNat', Nat.mod_eq_of_lt hu1, Nat.mod_eq_of_lt hv1]
          exact huv)
        exact UInt8.lt_iff_toNat_lt.1 this)
      (fun y => by
        unfold Image.window
        rw [List.map_flatMap, mi]
        refine List.flatMap_congr fun j _ => ?_
        rw [List.map_map]
        refine List.map_congr_left fun i _ => ?_
        exact (val _ _ (by unfold clampCoord; have := I.width; omega) (by unfold clampCoord; have := I.height; omega)).2) y
  rw [key, UInt8.ofNat_toNat]
  rfl

/-- adding 100 keeps the order of the values of `medDemo`, which are below 20 -/
example (P : Profile) : (medianFilter ℝ P medDemo 1 >>= fun o => o.mapChannels P fun v => .ok (v + 100)) =
    (medDemo.mapChannels P (fun v => .ok (v + 100)) >>= fun i => medianFilter ℝ P i 1) := by
  refine c96_remap ℝ P medDemo_input (· + 100) fun x y x' y' c u v hx hy hx' hy' hu hv huv => ?_
  have small : ∀ v ∈ medDemo.data, v < 20 := by decide
  have mem : ∀ (x y c : Nat) w, (medDemo.px x y)[c]? = some w → w ∈ medDemo.data := by
    intro x y c w hw
    have := List.mem_of_getElem? hw
    unfold Image.px at this
    exact List.mem_of_mem_drop (List.mem_of_mem_take this)
  have h1 := UInt8.lt_iff_toNat_lt.1 (small u (mem x y c u hu))
  have h2 := UInt8.lt_iff_toNat_lt.1 (small v (mem x' y' c v hv))
  rw [UInt8.lt_iff_toNat_lt] at huv ⊢
  have h20 : (20 : UInt8).toNat = 20 := rfl
  have h100 : (100 : UInt8).toNat = 100 := rfl
  rw [UInt8.toNat_add, UInt8.toNat_add, h100]
  omega
end Imgproc

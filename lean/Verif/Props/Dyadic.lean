import Verif.Props.Filter4
import Verif.Props.Scale9
/-! Property C105: filters with dyadic kernels are exact in IEEE f32, and the separable and the two-dimensional filter agree bit for bit. -/
namespace Imgproc
open FloatOps
section
variable [Libm f32]

omit [Libm f32] in
theorem f32_dy {m : Int} {k : Nat} (h : |m| ≤ 16777216) (hk : k ≤ 100) : f32.Exact ((m : Rat) / 2 ^ k) := by
  have e : (m : Rat) / 2 ^ k = m * pow2 (-(k : Int)) := by rw [pow2_eq, zpow_neg, zpow_natCast, div_eq_mul_inv]
  refine ⟨e ▸ RepQ.dyadic (by simpa [f32] using h) (by show (-149 : Int) ≤ _; omega), ?_⟩
  refine lt_of_le_of_lt ?_ (f32_int h).2
  rw [abs_div, abs_of_pos (show (0 : Rat) < 2 ^ k by positivity)]
  exact div_le_self (abs_nonneg _) (one_le_pow₀ (by norm_num))

theorem add_pos {x y : F32} {a b : Rat} (hx : x.Pos a) (hy : y.Is b) (h : f32.Exact (a + b)) : (x +. y).Pos (a + b) := by
  have e := add_exact hx.is hy h
  by_cases h0 : a + b = 0
  · show FP.add f32 x.val y.val = _
    rw [show x.val = .fin a from hx]
    rcases FP.toQ?_cases (show y.val.toQ? = some b from hy) with hy' | ⟨hy', hb⟩
    · rw [hy']; unfold FP.add FP.round; simp only [h0, if_true]; rfl
    · rw [hy', h0]
      rw [hb, add_zero] at h0
      rw [h0]; decide +kernel
  · exact e.eq_fin h0

/-- the running sum of a kernel response, exactly -/
theorem foldl_dy (c s t : Nat) (hst : s + t ≤ 100) : ∀ (k : List F32) (p : List (List F32)) (acc : F32) (a : Int) (m v : Nat → Int),
    k.length = p.length → acc.Pos ((a : Rat) / 2 ^ (s + t)) →
    (∀ i < k.length, (k.getD i (num 0)).Is ((m i : Rat) / 2 ^ t)) →
    (∀ i < k.length, ((p.getD i []).getD c (num 0)).Is ((v i : Rat) / 2 ^ s)) →
    |a| + ∑ i ∈ Finset.range k.length, |m i * v i| ≤ 16777216 →
    ((k.zip p).foldl (fun acc e => acc +. e.1 *. e.2.getD c (num 0)) acc).Pos
      (((a + ∑ i ∈ Finset.range k.length, m i * v i : Int) : Rat) / 2 ^ (s + t)) := by
  intro k
  induction k with
  | nil => intro p acc a m v _ ha _ _ _; simpa using ha
  | cons b k ih =>
    intro p acc a m v hl ha hk hp hb
    cases p with
    | nil => simp at hl
    | cons q p =>
      rw [List.length_cons, Finset.sum_range_succ'] at hb ⊢
      rw [List.zip_cons_cons, List.foldl_cons]
      have hs : 0 ≤ ∑ i ∈ Finset.range k.length, |m (i + 1) * v (i + 1)| :=
        Finset.sum_nonneg (fun _ _ => abs_nonneg _)
      have h0 := hk 0 (by simp)
      have h1 := hp 0 (by simp)
      rw [List.getD_cons_zero] at h0 h1
      have p2 : (2 : Rat) ^ t ≠ 0 := by positivity
      have p3 : (2 : Rat) ^ s ≠ 0 := by positivity
      have hm : (b *. q.getD c (num 0)).Is (((m 0 * v 0 : Int) : Rat) / 2 ^ (s + t)) := by
        have e : ((m 0 * v 0 : Int) : Rat) / 2 ^ (s + t) = (m 0 : Rat) / 2 ^ t * (v 0 / 2 ^ s) := by
          push_cast; rw [pow_add]; field_simp
        rw [e]
        refine mul_exact h0 h1 (e ▸ f32_dy ?_ hst)
        have := abs_nonneg a
        linarith
      have hadd : (acc +. b *. q.getD c (num 0)).Pos (((a + m 0 * v 0 : Int) : Rat) / 2 ^ (s + t)) := by
        have e : ((a + m 0 * v 0 : Int) : Rat) / 2 ^ (s + t) = (a : Rat) / 2 ^ (s + t) + ((m 0 * v 0 : Int) : Rat) / 2 ^ (s + t) := by
          push_cast; ring
        rw [e]
        refine add_pos ha hm (e ▸ f32_dy ?_ hst)
        have := abs_add_le a (m 0 * v 0)
        linarith
      have := ih p _ (a + m 0 * v 0) (fun i => m (i + 1)) (fun i => v (i + 1)) (by simpa using hl) hadd
        (fun i hi => by have := hk (i + 1) (by simpa using hi); simpa using this)
        (fun i hi => by have := hp (i + 1) (by simpa using hi); simpa using this)
        (by have := abs_add_le a (m 0 * v 0); linarith)
      have e : a + (∑ i ∈ Finset.range k.length, m (i + 1) * v (i + 1) + m 0 * v 0) =
          a + m 0 * v 0 + ∑ i ∈ Finset.range k.length, m (i + 1) * v (i + 1) := by ring
      rw [e]; exact this

theorem response_dy {kernel : List F32} {pixels : List (List F32)} {c s t : Nat} (hst : s + t ≤ 100) (m v : Nat → Int)
    (h : kernel.length = pixels.length)
    (hk : ∀ i < kernel.length, (kernel.getD i (num 0)).Is ((m i : Rat) / 2 ^ t))
    (hp : ∀ i < kernel.length, ((pixels.getD i []).getD c (num 0)).Is ((v i : Rat) / 2 ^ s))
    (hb : ∑ i ∈ Finset.range kernel.length, |m i * v i| ≤ 16777216) :
    (kernelResponse kernel pixels c).Pos
      (((∑ i ∈ Finset.range kernel.length, m i * v i : Int) : Rat) / 2 ^ (s + t)) := by
  have h0 : (num 0 : F32).Pos (((0 : Int) : Rat) / 2 ^ (s + t)) := by
    rw [Int.cast_zero, zero_div]
    show FP.round f32 false (((0 : Int)) : Rat) = _
    unfold FP.round; rw [if_pos (by simp)]; rfl
  have := foldl_dy c s t hst kernel pixels (num 0) 0 m v h h0 hk hp (by simpa using hb)
  rwa [zero_add] at this

/-- spec: `out` has header `info` and channel `c` of pixel `(x, y)` is the float `val x y c` (a zero being the positive zero) -/
def Image.ShowsFin (out : Image F32) (info : ImageInfo) (val : Nat → Nat → Nat → Rat) : Prop :=
  out.WF ∧ out.info = info ∧ ∀ x y c, x < info.width → y < info.height → c < info.channels →
    ∃ r : F32, (out.px x y)[c]? = some r ∧ r.Pos (val x y c)

omit [Libm f32] in
theorem Image.ShowsFin.ext {a b : Image F32} {info : ImageInfo} {val : Nat → Nat → Nat → Rat}
    (ha : a.ShowsFin info val) (hb : b.ShowsFin info val) : a = b := by
  obtain ⟨wa, ia, ha⟩ := ha
  obtain ⟨wb, ib, hb⟩ := hb
  refine (show a.Shows info a.px from ia ▸ wa.shows).ext ?_
  refine (show b.Shows info b.px from ib ▸ wb.shows).congr fun x y hx hy => ?_
  have la := Image.px_length wa (ia.symm ▸ hx) (ia.symm ▸ hy)
  have lb := Image.px_length wb (ib.symm ▸ hx) (ib.symm ▸ hy)
  rw [ia] at la
  rw [ib] at lb
  apply List.ext_getElem?
  intro c
  by_cases hc : c < info.channels
  · obtain ⟨r, e1, r1⟩ := ha x y c hx hy hc
    obtain ⟨r', e2, r2⟩ := hb x y c hx hy hc
    rw [e1, e2]
    congr 1
    exact Flt.ext (r2.trans r1.symm)
  · rw [List.getElem?_eq_none (by omega), List.getElem?_eq_none (by omega)]

omit [Libm f32] in
theorem Image.ShowsFin.values {a : Image F32} {info : ImageInfo} {val : Nat → Nat → Nat → Rat} (h : a.ShowsFin info val) :
    a.ShowsValues info val := by
  obtain ⟨wa, ia, ha⟩ := h
  refine ⟨wa, ia, fun P x y hx hy => ⟨a.px x y, Image.getPixel_eq P wa (ia.symm ▸ hx) (ia.symm ▸ hy), ?_, fun c hc => ?_⟩⟩
  · rw [Image.px_length wa (ia.symm ▸ hx) (ia.symm ▸ hy), ia]
  · obtain ⟨r, e, hr⟩ := ha x y c hx hy hc
    exact ⟨r, e, hr.is⟩

omit [Libm f32] in
theorem Image.Shows.fin {out : Image F32} {info : ImageInfo} {f : Nat → Nat → List F32}
    {val : Nat → Nat → Nat → Rat} (h : out.Shows info f)
    (hv : ∀ x y c, x < info.width → y < info.height → c < info.channels →
      ∃ r : F32, (f x y)[c]? = some r ∧ r.Pos (val x y c)) : out.ShowsFin info val :=
  ⟨h.1, h.2.1, fun x y c hx hy hc => by rw [h.px_eq hx hy]; exact hv x y c hx hy hc⟩

/-- `unseparable_filter`, dyadic image and kernel -/
theorem unseparable_dy (P : Profile) {img : Image F32} {v : Nat → Nat → Nat → Int} {s t : Nat} (hst : s + t ≤ 100)
    (h : img.ShowsValues img.info fun x y c => (v x y c : Rat) / 2 ^ s) (kernel : List F32) (n : Nat) (m : Nat → Int) (B : Int)
    (hodd : n % 2 = 1) (hk : kernel.length = n * n) (hn : n ≤ 4095)
    (hm : ∀ i < kernel.length, (kernel.getD i (num 0)).Is ((m i : Rat) / 2 ^ t))
    (hv : ∀ x y c, x < img.info.width → y < img.info.height → c < img.info.channels → |v x y c| ≤ B)
    (hB : (∑ i ∈ Finset.range kernel.length, |m i|) * B ≤ 16777216)
    (hw : img.info.width + n ≤ 2147483648) (hh : img.info.height + n ≤ 2147483648) :
    ∃ out, unseparableFilter P img kernel = .ok out ∧ out.ShowsFin img.info fun x y c =>
      ((intResponse2d img.info m n v x y c : Int) : Rat) / 2 ^ (s + t) := by
  obtain ⟨out, e, hs⟩ := c47_unseparable_small P img h.1 kernel n hodd hk hn hw hh
  refine ⟨out, e, hs.fin ?_⟩
  intro x y c hx hy hc
  refine ⟨kernelResponse kernel (window2d img x y n) c, by rw [List.getElem?_map, List.getElem?_range hc]; rfl, ?_⟩
  have hdm : ∀ i < n * n, i / n < n ∧ i % n < n := by
    intro i hi
    exact ⟨Nat.div_lt_of_lt_mul hi, Nat.mod_lt _ (by omega)⟩
  have := response_dy (kernel := kernel) (pixels := window2d img x y n) (c := c) hst m
    (fun i => v (padCoord img.info.width x ((x : Int) - (n / 2 : Nat) + (i % n : Nat)))
      (padCoord img.info.height y ((y : Int) - (n / 2 : Nat) + (i / n : Nat))) c)
    (by rw [window2d_length, hk]) hm
    (by
      intro i hi
      rw [hk] at hi
      have e : i = i / n * n + i % n := by rw [Nat.mul_comm]; exact (Nat.div_add_mod i n).symm
      rw [show (window2d img x y n).getD i [] = (window2d img x y n).getD (i / n * n + i % n) [] by rw [← e],
        window2d_getD _ _ _ _ (hdm i hi).1 (hdm i hi).2]
      exact h.px (padCoord_lt hx) (padCoord_lt hy) hc _)
    (by
      refine le_trans ?_ hB
      rw [Finset.sum_mul]
      apply Finset.sum_le_sum
      intro i _
      rw [abs_mul]
      exact mul_le_mul_of_nonneg_left (hv _ _ _ (padCoord_lt hx) (padCoord_lt hy) hc) (abs_nonneg _))
  rw [hk, sum_range_mul_int] at this
  unfold intResponse2d
  convert this using 3
  apply Finset.sum_congr rfl; intro i _
  apply Finset.sum_congr rfl; intro j hj
  have hj := Finset.mem_range.1 hj
  have e1 : (i * n + j) % n = j := by rw [Nat.mul_comm, Nat.mul_add_mod, Nat.mod_eq_of_lt hj]
  have e2 : (i * n + j) / n = i := by
    rw [Nat.mul_comm, Nat.mul_add_div (by omega), Nat.div_eq_of_lt hj, Nat.add_zero]
  rw [e1, e2]

/-- one correlation pass, dyadic image and kernel -/
theorem window1d_dy {img : Image F32} {v : Nat → Nat → Nat → Int} {s t : Nat} (hst : s + t ≤ 100)
    (h : img.ShowsValues img.info fun x y c => (v x y c : Rat) / 2 ^ s) (kernel : List F32) (isVert : Bool) (m : Nat → Int) (B : Int)
    (hm : ∀ i < kernel.length, (kernel.getD i (num 0)).Is ((m i : Rat) / 2 ^ t))
    (hv : ∀ x y c, x < img.info.width → y < img.info.height → c < img.info.channels → |v x y c| ≤ B)
    (hB : (∑ i ∈ Finset.range kernel.length, |m i|) * B ≤ 16777216)
    {x y c : Nat} (hx : x < img.info.width) (hy : y < img.info.height) (hc : c < img.info.channels) :
    (kernelResponse kernel (window1d img x y kernel.length isVert) c).Pos
      (((intResponse1d img.info m kernel.length isVert v x y c : Int) : Rat) / 2 ^ (s + t)) := by
  refine response_dy (kernel := kernel) (pixels := window1d img x y kernel.length isVert) (c := c) hst m
    (fun k => if isVert then v x (padCoord img.info.height y ((y : Int) - (kernel.length / 2 : Nat) + k)) c
      else v (padCoord img.info.width x ((x : Int) - (kernel.length / 2 : Nat) + k)) y c)
    (by rw [window1d_length]) hm
    (by
      intro i hi
      rw [window1d_getD _ _ _ _ _ hi]
      cases isVert
      · simp only [Bool.false_eq_true, if_false]; exact h.px (padCoord_lt hx) hy hc _
      · simp only [if_true]; exact h.px hx (padCoord_lt hy) hc _)
    (by
      refine le_trans ?_ hB
      rw [Finset.sum_mul]
      apply Finset.sum_le_sum
      intro i hi
      rw [abs_mul]
      refine mul_le_mul_of_nonneg_left ?_ (abs_nonneg (m i))
      cases isVert
      · simp only [Bool.false_eq_true, if_false]; exact hv _ _ _ (padCoord_lt hx) hy hc
      · simp only [if_true]; exact hv _ _ _ hx (padCoord_lt hy) hc)

omit [Libm f32] in
theorem intResponse1d_abs {info : ImageInfo} {m : Nat → Int} {n : Nat} {isVert : Bool} {v : Nat → Nat → Nat → Int} {B : Int}
    (hv : ∀ x y c, x < info.width → y < info.height → c < info.channels → |v x y c| ≤ B)
    {x y c : Nat} (hx : x < info.width) (hy : y < info.height) (hc : c < info.channels) :
    |intResponse1d info m n isVert v x y c| ≤ (∑ i ∈ Finset.range n, |m i|) * B := by
  unfold intResponse1d
  refine (Finset.abs_sum_le_sum_abs _ _).trans ?_
  rw [Finset.sum_mul]
  apply Finset.sum_le_sum
  intro i _
  rw [abs_mul]
  refine mul_le_mul_of_nonneg_left ?_ (abs_nonneg (m i))
  cases isVert
  · simp only [Bool.false_eq_true, if_false]; exact hv _ _ _ (padCoord_lt hx) hy hc
  · simp only [if_true]; exact hv _ _ _ hx (padCoord_lt hy) hc

/-- `separable_filter`, dyadic image and kernels -/
theorem separable_dy (P : Profile) {img : Image F32} {v : Nat → Nat → Nat → Int} {s t u : Nat} (hst : s + t + u ≤ 100)
    (h : img.ShowsValues img.info fun x y c => (v x y c : Rat) / 2 ^ s) (vert horz : List F32) (mv mh : Nat → Int) (B : Int)
    (hodd : vert.length % 2 = 1) (heq : vert.length = horz.length)
    (hmv : ∀ i < vert.length, (vert.getD i (num 0)).Is ((mv i : Rat) / 2 ^ t))
    (hmh : ∀ i < horz.length, (horz.getD i (num 0)).Is ((mh i : Rat) / 2 ^ u))
    (hv : ∀ x y c, x < img.info.width → y < img.info.height → c < img.info.channels → |v x y c| ≤ B)
    (hB : (∑ i ∈ Finset.range vert.length, |mv i|) * B ≤ 16777216)
    (hB2 : (∑ i ∈ Finset.range vert.length, |mh i|) * ((∑ i ∈ Finset.range vert.length, |mv i|) * B) ≤ 16777216)
    (hw : img.info.width + vert.length ≤ 2147483648) (hh : img.info.height + vert.length ≤ 2147483648) :
    ∃ out, separableFilter P img vert horz = .ok out ∧ out.ShowsFin img.info fun x y c =>
      ((intResponse1d img.info mh horz.length false (intResponse1d img.info mv vert.length true v) x y c : Int) : Rat) / 2 ^ (s + t + u) := by
  obtain ⟨mid, out, e, hm, ho⟩ := c47_separable_partial P img h.1 vert horz hodd heq hw hh
  refine ⟨out, e, ho.fin fun x y c hx hy hc => ?_⟩
  have hi : mid.info = img.info := hm.info_eq
  have hmid : mid.ShowsFin img.info fun x y c => ((intResponse1d img.info mv vert.length true v x y c : Int) : Rat) / 2 ^ (s + t) :=
    hm.fin fun x y c hx hy hc => ⟨_, by rw [List.getElem?_map, List.getElem?_range hc]; rfl,
      window1d_dy (by omega) h vert true mv B hmv hv hB hx hy hc⟩
  refine ⟨_, by rw [List.getElem?_map, List.getElem?_range hc]; rfl, ?_⟩
  have := window1d_dy (img := mid) (v := intResponse1d img.info mv vert.length true v) hst (by rw [hi]; exact hmid.values) horz false mh
    ((∑ i ∈ Finset.range vert.length, |mv i|) * B) hmh
    (by rw [hi]; exact fun x y c hx hy hc => intResponse1d_abs hv hx hy hc) (by rw [← heq]; exact hB2)
    (x := x) (y := y) (c := c) (by rw [hi]; exact hx) (by rw [hi]; exact hy) (by rw [hi]; exact hc)
  rwa [hi] at this

omit [Libm f32] in
theorem intResponse_outer (info : ImageInfo) (m mv mh : Nat → Int) (n : Nat) (v : Nat → Nat → Nat → Int)
    (hm : ∀ i < n, ∀ j < n, m (i * n + j) = mv i * mh j) (x y c : Nat) :
    intResponse1d info mh n false (intResponse1d info mv n true v) x y c = intResponse2d info m n v x y c := by
  unfold intResponse1d intResponse2d
  simp only [Bool.false_eq_true, if_false, if_true]
  simp only [Finset.mul_sum]
  rw [Finset.sum_comm]
  apply Finset.sum_congr rfl; intro i hi
  apply Finset.sum_congr rfl; intro j hj
  rw [hm i (Finset.mem_range.1 hi) j (Finset.mem_range.1 hj)]
  ring

/-- **C105** On an image of integers up to `B` in size and kernels whose entries are integers over powers of two, the sums
fitting in 24 bits, `separable_filter` with the two kernels and `unseparable_filter` with their outer product return the same
image, bit for bit in IEEE f32: the exact padded correlation. -/
theorem c105_separable (P : Profile) {img : Image F32} {v : Nat → Nat → Nat → Int} {t u : Nat} (hst : t + u ≤ 100)
    (h : img.ShowsValues img.info fun x y c => (v x y c : Rat)) (vert horz kernel : List F32) (mv mh : Nat → Int) (B : Int)
    (hodd : vert.length % 2 = 1) (heq : vert.length = horz.length) (hn : vert.length ≤ 4095)
    (hk : kernel.length = vert.length * vert.length)
    (hmv : ∀ i < vert.length, (vert.getD i (num 0)).Is ((mv i : Rat) / 2 ^ t))
    (hmh : ∀ i < horz.length, (horz.getD i (num 0)).Is ((mh i : Rat) / 2 ^ u))
    (hmk : ∀ i < vert.length, ∀ j < vert.length, (kernel.getD (i * vert.length + j) (num 0)).Is ((mv i * mh j : Rat) / 2 ^ (t + u)))
    (hv : ∀ x y c, x < img.info.width → y < img.info.height → c < img.info.channels → |v x y c| ≤ B)
    (hB : (∑ i ∈ Finset.range vert.length, |mv i|) * B ≤ 16777216)
    (hB2 : (∑ i ∈ Finset.range vert.length, |mh i|) * ((∑ i ∈ Finset.range vert.length, |mv i|) * B) ≤ 16777216)
    (hw : img.info.width + vert.length ≤ 2147483648) (hh : img.info.height + vert.length ≤ 2147483648) :
    ∃ out, separableFilter P img vert horz = .ok out ∧ unseparableFilter P img kernel = .ok out ∧
      out.ShowsValues img.info fun x y c =>
        ((intResponse2d img.info (fun k => mv (k / vert.length) * mh (k % vert.length)) vert.length v x y c : Int) : Rat) / 2 ^ (t + u) := by
  have h' : img.ShowsValues img.info fun x y c => (v x y c : Rat) / 2 ^ 0 := by simpa using h
  have dm : ∀ i < vert.length, ∀ j < vert.length, (i * vert.length + j) / vert.length = i ∧ (i * vert.length + j) % vert.length = j := by
    intro i _ j hj
    constructor
    · rw [Nat.mul_comm, Nat.mul_add_div (by omega), Nat.div_eq_of_lt hj, Nat.add_zero]
    · rw [Nat.mul_comm, Nat.mul_add_mod, Nat.mod_eq_of_lt hj]
  obtain ⟨o1, e1, s1⟩ := separable_dy P (s := 0) (by omega) h' vert horz mv mh B hodd heq hmv hmh hv hB hB2 hw hh
  obtain ⟨o2, e2, s2⟩ := unseparable_dy P (s := 0) (t := t + u) (by omega) h' kernel vert.length
    (fun k => mv (k / vert.length) * mh (k % vert.length)) B hodd hk hn
    (by
      intro k hk'
      rw [hk] at hk'
      have h1 : k / vert.length < vert.length := Nat.div_lt_of_lt_mul hk'
      have h2 : k % vert.length < vert.length := Nat.mod_lt _ (by omega)
      have := hmk _ h1 _ h2
      rw [show k / vert.length * vert.length + k % vert.length = k by rw [Nat.mul_comm]; exact Nat.div_add_mod k _] at this
      push_cast; exact this)
    hv
    (by
      refine le_trans (le_of_eq ?_) hB2
      rw [hk, sum_range_mul_int, ← mul_assoc, Finset.sum_mul_sum, Finset.sum_comm]
      congr 1
      apply Finset.sum_congr rfl; intro j hj
      apply Finset.sum_congr rfl; intro i hi
      obtain ⟨d1, d2⟩ := dm i (Finset.mem_range.1 hi) j (Finset.mem_range.1 hj)
      rw [d1, d2, abs_mul, mul_comm])
    hw hh
  have key : ∀ x y c, intResponse1d img.info mh horz.length false (intResponse1d img.info mv vert.length true v) x y c =
      intResponse2d img.info (fun k => mv (k / vert.length) * mh (k % vert.length)) vert.length v x y c := by
    intro x y c
    rw [← heq]
    refine intResponse_outer _ _ _ _ _ _ (fun i hi j hj => ?_) x y c
    obtain ⟨d1, d2⟩ := dm i hi j hj
    simp only [d1, d2]
  simp only [key, Nat.zero_add] at s1
  simp only [Nat.zero_add] at s2
  have := s1.ext s2
  subst this
  exact ⟨o1, e1, e2, s1.values⟩

/-- the quotient constants of src/util/constants.rs with a power of two below the line -/
theorem ratio_dy (l : List Int) (hb : ∀ a ∈ l, |a| ≤ 65536) {k : Nat} (hk : k ≤ 20) {i : Nat} (hi : i < l.length) :
    ((l.map (fun a => (ratio a (2 ^ k) : F32))).getD i (num 0)).Is ((l.getD i 0 : Int) / 2 ^ k : Rat) := by
  rw [List.getD_eq_getElem?_getD, List.getD_eq_getElem?_getD, List.getElem?_map, List.getElem?_eq_getElem hi]
  have := hb _ (List.getElem_mem hi)
  have h256 : (num (2 ^ k) : F32).Is (2 ^ k) := by
    have := num32 (n := 2 ^ k) (by
      rw [abs_of_pos (by positivity)]
      calc (2 : Int) ^ k ≤ 2 ^ 20 := pow_le_pow_right₀ (by norm_num) hk
        _ ≤ 16777216 := by norm_num)
    simpa using this
  exact div_exact (num32 (by omega)) h256 (by positivity) (f32_dy (show |l[i]| ≤ _ by omega) (by omega))

/-- spec: the binomial weights 1 2 1 and 1 4 6 4 1 -/
def binom3 : List Int := [1, 2, 1]
def binom5 : List Int := [1, 4, 6, 4, 1]

omit [Libm f32] in
theorem outer3 : ∀ i < 3, ∀ j < 3, ([1, 2, 1, 2, 4, 2, 1, 2, 1] : List Int).getD (i * 3 + j) 0 = binom3.getD i 0 * binom3.getD j 0 := by
  decide
omit [Libm f32] in
theorem outer5 : ∀ i < 5, ∀ j < 5, ([1, 4, 6, 4, 1, 4, 16, 24, 16, 4, 6, 24, 36, 24, 6, 4, 16, 24, 16, 4, 1, 4, 6, 4, 1] : List Int).getD
    (i * 5 + j) 0 = binom5.getD i 0 * binom5.getD j 0 := by decide

/-- **C105** (the predefined Gaussian kernels, side 3) On every image of integers up to 65536 in size, and so on every
converted 8-bit image, filtering with the predefined 1-d kernel in both directions and with the predefined 2-d kernel give the
same image bit for bit: the exact correlation with the binomial weights over 16. -/
theorem c105_gaussian3 (P : Profile) {img : Image F32} {v : Nat → Nat → Nat → Int}
    (h : img.ShowsValues img.info fun x y c => (v x y c : Rat))
    (hv : ∀ x y c, x < img.info.width → y < img.info.height → c < img.info.channels → |v x y c| ≤ 65536)
    (hw : img.info.width + 3 ≤ 2147483648) (hh : img.info.height + 3 ≤ 2147483648) :
    ∃ out, separableFilter P img K_GAUSSIAN_BLUR_1D_3 K_GAUSSIAN_BLUR_1D_3 = .ok out ∧
      unseparableFilter P img K_GAUSSIAN_BLUR_2D_3 = .ok out ∧ out.ShowsValues img.info fun x y c =>
        ((intResponse2d img.info (fun k => binom3.getD (k / 3) 0 * binom3.getD (k % 3) 0) 3 v x y c : Int) : Rat) / 16 := by
  have len : (K_GAUSSIAN_BLUR_1D_3 : List F32).length = 3 := rfl
  obtain ⟨out, e1, e2, e3⟩ := c105_separable P (t := 2) (u := 2) (by decide) h (K_GAUSSIAN_BLUR_1D_3 : List F32) K_GAUSSIAN_BLUR_1D_3
    K_GAUSSIAN_BLUR_2D_3 (fun i => binom3.getD i 0) (fun i => binom3.getD i 0) 65536 (by rw [len]) rfl (by rw [len]; decide) rfl
    (fun i hi => ratio_dy binom3 (by decide) (k := 2) (by decide) hi) (fun i hi => ratio_dy binom3 (by decide) (k := 2) (by decide) hi)
    (fun i hi j hj => by
      have hij : i * 3 + j < 9 := by have : i < 3 := hi; have : j < 3 := hj; omega
      have := ratio_dy [1, 2, 1, 2, 4, 2, 1, 2, 1] (by decide) (k := 4) (by decide) (i := i * 3 + j) hij
      have e : ([1, 2, 1, 2, 4, 2, 1, 2, 1] : List Int).getD (i * 3 + j) 0 = binom3.getD i 0 * binom3.getD j 0 := outer3 i hi j hj
      rw [e] at this
      push_cast at this; exact this)
    hv (by rw [len]; decide) (by rw [len]; decide) hw hh
  exact ⟨out, e1, e2, by norm_num at e3; exact e3⟩

/-- **C105** (the predefined Gaussian kernels, side 5) -/
theorem c105_gaussian5 (P : Profile) {img : Image F32} {v : Nat → Nat → Nat → Int}
    (h : img.ShowsValues img.info fun x y c => (v x y c : Rat))
    (hv : ∀ x y c, x < img.info.width → y < img.info.height → c < img.info.channels → |v x y c| ≤ 65536)
    (hw : img.info.width + 5 ≤ 2147483648) (hh : img.info.height + 5 ≤ 2147483648) :
    ∃ out, separableFilter P img K_GAUSSIAN_BLUR_1D_5 K_GAUSSIAN_BLUR_1D_5 = .ok out ∧
      unseparableFilter P img K_GAUSSIAN_BLUR_2D_5 = .ok out ∧ out.ShowsValues img.info fun x y c =>
        ((intResponse2d img.info (fun k => binom5.getD (k / 5) 0 * binom5.getD (k % 5) 0) 5 v x y c : Int) : Rat) / 256 := by
  have len : (K_GAUSSIAN_BLUR_1D_5 : List F32).length = 5 := rfl
  obtain ⟨out, e1, e2, e3⟩ := c105_separable P (t := 4) (u := 4) (by decide) h (K_GAUSSIAN_BLUR_1D_5 : List F32) K_GAUSSIAN_BLUR_1D_5
    K_GAUSSIAN_BLUR_2D_5 (fun i => binom5.getD i 0) (fun i => binom5.getD i 0) 65536 (by rw [len]) rfl (by rw [len]; decide) rfl
    (fun i hi => ratio_dy binom5 (by decide) (k := 4) (by decide) hi) (fun i hi => ratio_dy binom5 (by decide) (k := 4) (by decide) hi)
    (fun i hi j hj => by
      have hij : i * 5 + j < 25 := by have : i < 5 := hi; have : j < 5 := hj; omega
      have := ratio_dy [1, 4, 6, 4, 1, 4, 16, 24, 16, 4, 6, 24, 36, 24, 6, 4, 16, 24, 16, 4, 1, 4, 6, 4, 1] (by decide) (k := 8)
        (by decide) (i := i * 5 + j) hij
      have e : ([1, 4, 6, 4, 1, 4, 16, 24, 16, 4, 6, 24, 36, 24, 6, 4, 16, 24, 16, 4, 1, 4, 6, 4, 1] : List Int).getD (i * 5 + j) 0
          = binom5.getD i 0 * binom5.getD j 0 := outer5 i hi j hj
      rw [e] at this
      push_cast at this; exact this)
    hv (by rw [len]; decide) (by rw [len]; decide) hw hh
  exact ⟨out, e1, e2, by norm_num at e3; exact e3⟩

omit [Libm f32] in
/-- the response with the binomial weights lies within the range of the window, so within that of the image -/
theorem intResponse2d_range {info : ImageInfo} {m : Nat → Int} {n : Nat} {v : Nat → Nat → Nat → Int} {lo hi : Int}
    (hm : ∀ k < n * n, 0 ≤ m k) {x y c : Nat} (hx : x < info.width) (hy : y < info.height) (hc : c < info.channels)
    (hv : ∀ x y, x < info.width → y < info.height → lo ≤ v x y c ∧ v x y c ≤ hi) :
    (∑ k ∈ Finset.range (n * n), m k) * lo ≤ intResponse2d info m n v x y c ∧
      intResponse2d info m n v x y c ≤ (∑ k ∈ Finset.range (n * n), m k) * hi := by
  rw [sum_range_mul_int, Finset.sum_mul, Finset.sum_mul]
  unfold intResponse2d
  have hk : ∀ i ∈ Finset.range n, ∀ j ∈ Finset.range n, 0 ≤ m (i * n + j) := by
    intro i hi' j hj
    rw [Finset.mem_range] at hi' hj
    apply hm
    have : i * n + n ≤ n * n := by rw [← Nat.succ_mul]; exact Nat.mul_le_mul_right n hi'
    omega
  constructor
  · apply Finset.sum_le_sum; intro i hi'
    rw [Finset.sum_mul]
    apply Finset.sum_le_sum; intro j hj
    exact mul_le_mul_of_nonneg_left (hv _ _ (padCoord_lt hx) (padCoord_lt hy)).1 (hk i hi' j hj)
  · apply Finset.sum_le_sum; intro i hi'
    rw [Finset.sum_mul]
    apply Finset.sum_le_sum; intro j hj
    exact mul_le_mul_of_nonneg_left (hv _ _ (padCoord_lt hx) (padCoord_lt hy)).2 (hk i hi' j hj)

/-- **C105** (range) Both predefined blurs keep every channel within the range of values it has in the image, exactly in IEEE f32; in particular a
constant image comes back unchanged. -/
theorem c105_range (P : Profile) {img : Image F32} {v : Nat → Nat → Nat → Int} {lo hi : Nat → Int}
    (h : img.ShowsValues img.info fun x y c => (v x y c : Rat))
    (hv : ∀ x y c, x < img.info.width → y < img.info.height → c < img.info.channels → |v x y c| ≤ 65536)
    (hr : ∀ x y c, x < img.info.width → y < img.info.height → c < img.info.channels → lo c ≤ v x y c ∧ v x y c ≤ hi c)
    (hw : img.info.width + 5 ≤ 2147483648) (hh : img.info.height + 5 ≤ 2147483648) :
    (∃ out w, unseparableFilter P img K_GAUSSIAN_BLUR_2D_3 = .ok out ∧ out.ShowsValues img.info w ∧
      ∀ x y c, x < img.info.width → y < img.info.height → c < img.info.channels → (lo c : Rat) ≤ w x y c ∧ w x y c ≤ hi c) ∧
    (∃ out w, unseparableFilter P img K_GAUSSIAN_BLUR_2D_5 = .ok out ∧ out.ShowsValues img.info w ∧
      ∀ x y c, x < img.info.width → y < img.info.height → c < img.info.channels → (lo c : Rat) ≤ w x y c ∧ w x y c ≤ hi c) := by
  constructor
  · obtain ⟨out, -, e, ho⟩ := c105_gaussian3 P h hv (by omega) (by omega)
    refine ⟨out, _, e, ho, fun x y c hx hy hc => ?_⟩
    obtain ⟨h1, h2⟩ := intResponse2d_range (m := fun k => binom3.getD (k / 3) 0 * binom3.getD (k % 3) 0) (n := 3) (v := v) (by decide)
      hx hy hc (fun x y hx hy => hr x y c hx hy hc)
    rw [show ∑ k ∈ Finset.range (3 * 3), binom3.getD (k / 3) 0 * binom3.getD (k % 3) 0 = 16 by decide] at h1 h2
    rw [le_div_iff₀ (by norm_num), div_le_iff₀ (by norm_num)]
    constructor
    · rw [mul_comm]; exact_mod_cast h1
    · rw [mul_comm]; exact_mod_cast h2
  · obtain ⟨out, -, e, ho⟩ := c105_gaussian5 P h hv hw hh
    refine ⟨out, _, e, ho, fun x y c hx hy hc => ?_⟩
    obtain ⟨h1, h2⟩ := intResponse2d_range (m := fun k => binom5.getD (k / 5) 0 * binom5.getD (k % 5) 0) (n := 5) (v := v) (by decide)
      hx hy hc (fun x y hx hy => hr x y c hx hy hc)
    rw [show ∑ k ∈ Finset.range (5 * 5), binom5.getD (k / 5) 0 * binom5.getD (k % 5) 0 = 256 by decide] at h1 h2
    rw [le_div_iff₀ (by norm_num), div_le_iff₀ (by norm_num)]
    constructor
    · rw [mul_comm]; exact_mod_cast h1
    · rw [mul_comm]; exact_mod_cast h2

/-- every 8-bit image meets the hypotheses after conversion -/
example (P : Profile) (a b c d e f : UInt8) : ∃ g out : Image F32, imageU8ToFloat P (gray6 a b c d e f) = .ok g ∧
    separableFilter P g K_GAUSSIAN_BLUR_1D_5 K_GAUSSIAN_BLUR_1D_5 = .ok out ∧ unseparableFilter P g K_GAUSSIAN_BLUR_2D_5 = .ok out := by
  obtain ⟨g, hg, hs⟩ := imageU8ToFloat_values P (gray6_WF a b c d e f)
  have hi := hs.2.1
  have hs' := hs
  rw [← hi] at hs'
  have hb : ∀ x y c', |((((gray6 a b c d e f).px x y).getD c' 0).toNat : Int)| ≤ 65536 := by
    intro x y c'
    have := (((gray6 a b c d e f).px x y).getD c' 0).toNat_lt
    rw [abs_le]; constructor <;> omega
  obtain ⟨out, h1, h2, -⟩ := c105_gaussian5 P hs' (fun x y c' _ _ _ => hb x y c') (by rw [hi]; dims) (by rw [hi]; dims)
  exact ⟨g, out, hg, h1, h2⟩
end
end Imgproc

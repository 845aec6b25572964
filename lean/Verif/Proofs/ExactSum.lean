import Verif.Props.Filter
import Verif.Proofs.RealSum
import Mathlib.Algebra.Order.BigOperators.Group.Finset
import Mathlib.Tactic.Ring
import Mathlib.Tactic.NormNum
import Mathlib.Tactic.Linarith
/-! Kernel responses in IEEE f32 that are exact: kernel entries in multiples of 1/256, integer images. -/
namespace Imgproc
open FloatOps
section
variable [Libm f32]

/-- spec: `out` has header `info` and channel `c` of pixel `(x, y)` is the number `val x y c`, as
observed through `get_pixel` -/
def Image.ShowsValues (out : Image F32) (info : ImageInfo) (val : Nat → Nat → Nat → Rat) : Prop :=
  out.WF ∧ out.info = info ∧ ∀ (P : Profile) (x y : Nat), x < info.width → y < info.height →
    ∃ p : List F32, out.getPixel P x y = .ok p ∧ p.length = info.channels ∧
      ∀ c < info.channels, ∃ r : F32, p[c]? = some r ∧ r.Is (val x y c)

omit [Libm f32] in
theorem Image.ShowsValues.px {out : Image F32} {info : ImageInfo} {val : Nat → Nat → Nat → Rat}
    (h : out.ShowsValues info val) {x y c : Nat} (hx : x < info.width) (hy : y < info.height)
    (hc : c < info.channels) (d : F32) : ((out.px x y).getD c d).Is (val x y c) := by
  obtain ⟨hw, hi, hp⟩ := h
  obtain ⟨p, e, hl, hv⟩ := hp .debug x y hx hy
  rw [Image.getPixel_eq _ hw (by rw [hi]; exact hx) (by rw [hi]; exact hy)] at e
  cases e
  obtain ⟨r, hr, hIs⟩ := hv c hc
  rw [List.getD_eq_getElem?_getD, hr]; exact hIs

omit [Libm f32] in
theorem Image.Shows.values {out : Image F32} {info : ImageInfo} {f : Nat → Nat → List F32}
    {val : Nat → Nat → Nat → Rat} (h : out.Shows info f)
    (hl : ∀ x y, x < info.width → y < info.height → (f x y).length = info.channels)
    (hv : ∀ x y c, x < info.width → y < info.height → c < info.channels →
      ∃ r : F32, (f x y)[c]? = some r ∧ r.Is (val x y c)) : out.ShowsValues info val :=
  ⟨h.1, h.2.1, fun P x y hx hy => ⟨f x y, h.2.2 P x y hx hy, hl x y hx hy, fun c hc => hv x y c hx hy hc⟩⟩

omit [Libm f32] in
theorem f32_dyadic {m : Int} (h : |m| ≤ 16777216) : f32.Exact ((m : Rat) / 256) := by
  have e : (m : Rat) / 256 = m * pow2 (-8) := by rw [pow2_eq]; norm_num; ring
  refine ⟨e ▸ RepQ.dyadic (by simpa [f32] using h) (by decide), ?_⟩
  have := (f32_int h).2
  refine lt_of_le_of_lt ?_ this
  rw [abs_div]
  have h0 := abs_nonneg (m : Rat)
  rw [abs_of_pos (by norm_num : (0 : Rat) < 256)]
  linarith

theorem foldl_exact (c : Nat) : ∀ (k : List F32) (p : List (List F32)) (acc : F32) (a : Int) (m v : Nat → Int),
    k.length = p.length → acc.Is ((a : Rat) / 256) →
    (∀ i < k.length, (k.getD i (num 0)).Is ((m i : Rat) / 256)) →
    (∀ i < k.length, ((p.getD i []).getD c (num 0)).Is (v i : Rat)) →
    |a| + ∑ i ∈ Finset.range k.length, |m i * v i| ≤ 16777216 →
    ((k.zip p).foldl (fun acc e => acc +. e.1 *. e.2.getD c (num 0)) acc).Is
      (((a + ∑ i ∈ Finset.range k.length, m i * v i : Int) : Rat) / 256) := by
  intro k
  induction k with
  | nil => intro p acc a m v _ ha _ _ _; simpa using ha
  | cons b k ih =>
    intro p acc a m v hl ha hk hp hb
    cases p with
    | nil => simp at hl
    | cons q p =>
      rw [List.length_cons, Finset.sum_range_succ'] at hb ⊢
      rw [List.zip_cons_cons, List.foldl_cons]
      have hs : 0 ≤ ∑ i ∈ Finset.range k.length, |m (i + 1) * v (i + 1)| :=
        Finset.sum_nonneg (fun _ _ => abs_nonneg _)
      have h0 := hk 0 (by simp)
      have h1 := hp 0 (by simp)
      rw [List.getD_cons_zero] at h0 h1
      have hm : (b *. q.getD c (num 0)).Is (((m 0 * v 0 : Int) : Rat) / 256) := by
        have e : ((m 0 * v 0 : Int) : Rat) / 256 = (m 0 : Rat) / 256 * v 0 := by push_cast; ring
        rw [e]
        refine mul_exact h0 h1 (e ▸ f32_dyadic ?_)
        have := abs_nonneg a
        linarith
      have hadd : (acc +. b *. q.getD c (num 0)).Is (((a + m 0 * v 0 : Int) : Rat) / 256) := by
        have e : ((a + m 0 * v 0 : Int) : Rat) / 256 = (a : Rat) / 256 + ((m 0 * v 0 : Int) : Rat) / 256 := by
          push_cast; ring
        rw [e]
        refine add_exact ha hm (e ▸ f32_dyadic ?_)
        have := abs_add_le a (m 0 * v 0)
        linarith
      have := ih p _ (a + m 0 * v 0) (fun i => m (i + 1)) (fun i => v (i + 1)) (by simpa using hl) hadd
        (fun i hi => by have := hk (i + 1) (by simpa using hi); simpa using this)
        (fun i hi => by have := hp (i + 1) (by simpa using hi); simpa using this)
        (by have := abs_add_le a (m 0 * v 0); linarith)
      have e : a + (∑ i ∈ Finset.range k.length, m (i + 1) * v (i + 1) + m 0 * v 0) =
          a + m 0 * v 0 + ∑ i ∈ Finset.range k.length, m (i + 1) * v (i + 1) := by ring
      rw [e]; exact this

theorem response_exact {kernel : List F32} {pixels : List (List F32)} {c : Nat} (m v : Nat → Int)
    (h : kernel.length = pixels.length)
    (hk : ∀ i < kernel.length, (kernel.getD i (num 0)).Is ((m i : Rat) / 256))
    (hp : ∀ i < kernel.length, ((pixels.getD i []).getD c (num 0)).Is (v i : Rat))
    (hb : ∑ i ∈ Finset.range kernel.length, |m i * v i| ≤ 16777216) :
    (kernelResponse kernel pixels c).Is
      (((∑ i ∈ Finset.range kernel.length, m i * v i : Int) : Rat) / 256) := by
  have h0 : (num 0 : F32).Is (((0 : Int) : Rat) / 256) := by simpa using num32 (n := 0) (by simp)
  have := foldl_exact c kernel pixels (num 0) 0 m v h h0 hk hp (by simpa using hb)
  rwa [zero_add] at this

omit [Libm f32] in
theorem sum_range_mul_int (m n : Nat) (f : Nat → ℤ) :
    ∑ k ∈ Finset.range (m * n), f k = ∑ i ∈ Finset.range m, ∑ j ∈ Finset.range n, f (i * n + j) := by
  induction m with
  | zero => simp
  | succ m ih => rw [Nat.succ_mul, Finset.sum_range_add, ih, Finset.sum_range_succ]

/-- spec: the padded correlation of an integer-valued image with the `n x n` weights `m` -/
def intResponse2d (info : ImageInfo) (m : Nat → Int) (n : Nat) (v : Nat → Nat → Nat → Int) (x y c : Nat) : Int :=
  ∑ i ∈ Finset.range n, ∑ j ∈ Finset.range n, m (i * n + j) *
    v (padCoord info.width x ((x : Int) - (n / 2 : Nat) + j)) (padCoord info.height y ((y : Int) - (n / 2 : Nat) + i)) c

/-- spec: the padded 1-d correlation of an integer-valued image with the weights `m` -/
def intResponse1d (info : ImageInfo) (m : Nat → Int) (n : Nat) (isVert : Bool) (v : Nat → Nat → Nat → Int)
    (x y c : Nat) : Int :=
  ∑ k ∈ Finset.range n, m k *
    (if isVert then v x (padCoord info.height y ((y : Int) - (n / 2 : Nat) + k)) c
      else v (padCoord info.width x ((x : Int) - (n / 2 : Nat) + k)) y c)

/-- `unseparable_filter` on an integer-valued image with weights in multiples of 1/256 is exact -/
theorem unseparable_exact (P : Profile) {img : Image F32} {v : Nat → Nat → Nat → Int}
    (h : img.ShowsValues img.info fun x y c => (v x y c : Rat)) (kernel : List F32) (n : Nat) (m : Nat → Int) (B : Int)
    (hodd : n % 2 = 1) (hk : kernel.length = n * n) (hn : n ≤ 4095)
    (hm : ∀ i < kernel.length, (kernel.getD i (num 0)).Is ((m i : Rat) / 256))
    (hv : ∀ x y c, x < img.info.width → y < img.info.height → c < img.info.channels → |v x y c| ≤ B)
    (hB : (∑ i ∈ Finset.range kernel.length, |m i|) * B ≤ 16777216)
    (hw : img.info.width + n ≤ 2147483648) (hh : img.info.height + n ≤ 2147483648) :
    ∃ out, unseparableFilter P img kernel = .ok out ∧ out.ShowsValues img.info fun x y c =>
      ((intResponse2d img.info m n v x y c : Int) : Rat) / 256 := by
  obtain ⟨out, e, hs⟩ := c47_unseparable_small P img h.1 kernel n hodd hk hn hw hh
  refine ⟨out, e, hs.values (fun x y _ _ => by simp) ?_⟩
  intro x y c hx hy hc
  refine ⟨kernelResponse kernel (window2d img x y n) c, by rw [List.getElem?_map, List.getElem?_range hc]; rfl, ?_⟩
  have hdm : ∀ i < n * n, i / n < n ∧ i % n < n := by
    intro i hi
    exact ⟨Nat.div_lt_of_lt_mul hi, Nat.mod_lt _ (by omega)⟩
  have := response_exact (kernel := kernel) (pixels := window2d img x y n) (c := c) m
    (fun i => v (padCoord img.info.width x ((x : Int) - (n / 2 : Nat) + (i % n : Nat)))
      (padCoord img.info.height y ((y : Int) - (n / 2 : Nat) + (i / n : Nat))) c)
    (by rw [window2d_length, hk]) hm
    (by
      intro i hi
      rw [hk] at hi
      have e : i = i / n * n + i % n := by rw [Nat.mul_comm]; exact (Nat.div_add_mod i n).symm
      rw [show (window2d img x y n).getD i [] = (window2d img x y n).getD (i / n * n + i % n) [] by rw [← e],
        window2d_getD _ _ _ _ (hdm i hi).1 (hdm i hi).2]
      exact h.px (padCoord_lt hx) (padCoord_lt hy) hc _)
    (by
      refine le_trans ?_ hB
      rw [Finset.sum_mul]
      apply Finset.sum_le_sum
      intro i _
      rw [abs_mul]
      exact mul_le_mul_of_nonneg_left (hv _ _ _ (padCoord_lt hx) (padCoord_lt hy) hc) (abs_nonneg _))
  rw [hk, sum_range_mul_int] at this
  unfold intResponse2d
  convert this using 3
  apply Finset.sum_congr rfl; intro i _
  apply Finset.sum_congr rfl; intro j hj
  have hj := Finset.mem_range.1 hj
  have e1 : (i * n + j) % n = j := by rw [Nat.mul_comm, Nat.mul_add_mod, Nat.mod_eq_of_lt hj]
  have e2 : (i * n + j) / n = i := by
    rw [Nat.mul_comm, Nat.mul_add_div (by omega), Nat.div_eq_of_lt hj, Nat.add_zero]
  rw [e1, e2]

/-- `filter_1d` on an integer-valued image with integer weights is exact -/
theorem filter1d_exact (P : Profile) {img : Image F32} {v : Nat → Nat → Nat → Int}
    (h : img.ShowsValues img.info fun x y c => (v x y c : Rat)) (kernel : List F32) (isVert : Bool) (m : Nat → Int) (B : Int)
    (hodd : kernel.length % 2 = 1)
    (hm : ∀ i < kernel.length, (kernel.getD i (num 0)).Is (m i : Rat))
    (hv : ∀ x y c, x < img.info.width → y < img.info.height → c < img.info.channels → |v x y c| ≤ B)
    (hB : (∑ i ∈ Finset.range kernel.length, |m i|) * B ≤ 65536)
    (hw : img.info.width + kernel.length ≤ 2147483648) (hh : img.info.height + kernel.length ≤ 2147483648) :
    ∃ out, filter1d P img kernel isVert = .ok out ∧ out.ShowsValues img.info fun x y c =>
      ((intResponse1d img.info m kernel.length isVert v x y c : Int) : Rat) := by
  obtain ⟨out, e, hs⟩ := c47_filter_1d_partial P img h.1 kernel isVert hodd hw hh
  refine ⟨out, e, hs.values (fun x y _ _ => by simp) ?_⟩
  intro x y c hx hy hc
  refine ⟨_, by rw [List.getElem?_map, List.getElem?_range hc]; rfl, ?_⟩
  have := response_exact (kernel := kernel) (pixels := window1d img x y kernel.length isVert) (c := c)
    (fun i => 256 * m i)
    (fun k => if isVert then v x (padCoord img.info.height y ((y : Int) - (kernel.length / 2 : Nat) + k)) c
      else v (padCoord img.info.width x ((x : Int) - (kernel.length / 2 : Nat) + k)) y c)
    (by rw [window1d_length])
    (fun i hi => by
      have := hm i hi
      have e : ((256 * m i : Int) : Rat) / 256 = m i := by push_cast; ring
      rw [e]; exact this)
    (by
      intro i hi
      rw [window1d_getD _ _ _ _ _ hi]
      cases isVert
      · simp only [Bool.false_eq_true, if_false]; exact h.px (padCoord_lt hx) hy hc _
      · simp only [if_true]; exact h.px hx (padCoord_lt hy) hc _)
    (by
      have : (∑ i ∈ Finset.range kernel.length, |m i|) * B * 256 ≤ 16777216 := by linarith
      refine le_trans ?_ this
      rw [Finset.sum_mul, Finset.sum_mul]
      apply Finset.sum_le_sum
      intro i hi
      rw [mul_assoc, abs_mul, abs_mul]
      have hvb : |if isVert then v x (padCoord img.info.height y ((y : Int) - (kernel.length / 2 : Nat) + i)) c
        else v (padCoord img.info.width x ((x : Int) - (kernel.length / 2 : Nat) + i)) y c| ≤ B := by
        cases isVert
        · simp only [Bool.false_eq_true, if_false]; exact hv _ _ _ (padCoord_lt hx) hy hc
        · simp only [if_true]; exact hv _ _ _ hx (padCoord_lt hy) hc
      have := mul_le_mul_of_nonneg_left hvb (abs_nonneg (m i))
      rw [show |(256 : Int)| = 256 from rfl]
      linarith)
  convert this using 1
  unfold intResponse1d
  rw [show ∑ i ∈ Finset.range kernel.length, 256 * m i * (if isVert then v x (padCoord img.info.height y ((y : Int) - (kernel.length / 2 : Nat) + i)) c
      else v (padCoord img.info.width x ((x : Int) - (kernel.length / 2 : Nat) + i)) y c) = 256 *
      ∑ i ∈ Finset.range kernel.length, m i * (if isVert then v x (padCoord img.info.height y ((y : Int) - (kernel.length / 2 : Nat) + i)) c
      else v (padCoord img.info.width x ((x : Int) - (kernel.length / 2 : Nat) + i)) y c) by
    rw [Finset.mul_sum]; apply Finset.sum_congr rfl; intro i _; ring]
  push_cast
  ring
end
end Imgproc

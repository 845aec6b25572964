import Verif.Spec.Demo
import Verif.Props.Filter2
import Verif.Props.Convert
import Verif.Proofs.ImageOps
import Mathlib.Tactic.Linarith
import Mathlib.Tactic.NormNum
/-! Property C55: normalize_laplacian. -/
namespace Imgproc
open FloatOps
section
variable [Libm f32]

theorem partialCmp_finite {x y : F32} {a b : Rat} (hx : x.Is a) (hy : y.Is b) :
    ∃ o, partialCmpUnwrap x y = .ok o ∧ (o = .gt ↔ b < a) := by
  unfold partialCmpUnwrap
  have hgt : (x >. y) = decide (b < a) := lt_is hy hx
  rw [lt_is hx hy, eq_is hx hy]
  simp only [hgt]
  rcases lt_trichotomy a b with h | h | h
  · exact ⟨.lt, by simp [h], by simp; linarith⟩
  · refine ⟨.eq, by simp [h], by simp; linarith⟩
  · refine ⟨.gt, ?_, by simp [h]⟩
    have h1 : ¬ a < b := by linarith
    have h2 : a ≠ b := by intro e; rw [e] at h; exact lt_irrefl _ h
    simp [h1, h2, h]

theorem partialCmp_nan {x y : F32} (h : x.val = .nan ∨ y.val = .nan) : partialCmpUnwrap x y = panic .unwrap := by
  unfold partialCmpUnwrap
  have he : FloatOps.eq x y = false := by
    show ((x <=. y) && (y <=. x)) = false
    rcases h with h | h
    · rw [le_nan_left h]; rfl
    · rw [le_nan_right h]; rfl
  rcases h with h | h
  · have : (x >. y) = false := lt_nan_right h
    simp only [lt_nan_left h, this, he]; rfl
  · have : (x >. y) = false := lt_nan_left h
    simp only [lt_nan_right h, this, he]; rfl

/-- the min/max folds over finite floats -/
theorem minBy_finite (l : List F32) (hne : l ≠ []) (hfin : ∀ v ∈ l, ∃ q, v.Is q) :
    ∃ r ∈ l, minByUnwrap l = .ok r ∧ ∃ m, r.Is m ∧ ∀ v ∈ l, ∀ q, v.Is q → m ≤ q := by
  cases l with
  | nil => exact absurd rfl hne
  | cons a l =>
    have key : ∀ (l : List F32) (a : F32) (m : Rat), a.Is m → (∀ v ∈ l, ∃ q, v.Is q) →
        ∃ r ∈ a :: l, (forList l a fun y acc => do
          let o ← partialCmpUnwrap acc y
          .ok (if o = .gt then y else acc)) = .ok r ∧ ∃ m', r.Is m' ∧ m' ≤ m ∧ ∀ v ∈ l, ∀ q, v.Is q → m' ≤ q := by
      intro l
      induction l with
      | nil => intro a m ha _; exact ⟨a, by simp, rfl, m, ha, le_refl _, fun v hv => by simp at hv⟩
      | cons b l ih =>
        intro a m ha hf
        obtain ⟨q, hq⟩ := hf b (by simp)
        obtain ⟨o, eo, ho⟩ := partialCmp_finite ha hq
        simp only [forList, eo, ok_bind]
        by_cases hg : o = .gt
        · simp only [hg, if_true]
          obtain ⟨r, hr, er, m', hm, hle, hall⟩ := ih b q hq (fun v hv => hf v (by simp [hv]))
          refine ⟨r, List.mem_cons_of_mem _ hr, er, m', hm, le_trans hle (le_of_lt (ho.1 hg)), ?_⟩
          intro v hv q' hq'
          rcases List.mem_cons.1 hv with rfl | hv
          · rw [← hq.unique hq']; exact hle
          · exact hall v hv q' hq'
        · simp only [hg, if_false]
          obtain ⟨r, hr, er, m', hm, hle, hall⟩ := ih a m ha (fun v hv => hf v (by simp [hv]))
          refine ⟨r, by rcases List.mem_cons.1 hr with rfl | h <;> simp [*], er, m', hm, hle, ?_⟩
          intro v hv q' hq'
          rcases List.mem_cons.1 hv with rfl | hv
          · rw [← hq.unique hq']
            have : ¬ q < m := fun h => hg (ho.2 h)
            linarith
          · exact hall v hv q' hq'
    obtain ⟨m, hm⟩ := hfin a (by simp)
    obtain ⟨r, hr, er, m', hm', hle, hall⟩ := key l a m hm (fun v hv => hfin v (by simp [hv]))
    refine ⟨r, hr, er, m', hm', ?_⟩
    intro v hv q hq
    rcases List.mem_cons.1 hv with rfl | hv
    · rw [← hm.unique hq]; exact hle
    · exact hall v hv q hq

theorem maxBy_finite (l : List F32) (hne : l ≠ []) (hfin : ∀ v ∈ l, ∃ q, v.Is q) :
    ∃ r ∈ l, maxByUnwrap l = .ok r ∧ ∃ m, r.Is m ∧ ∀ v ∈ l, ∀ q, v.Is q → q ≤ m := by
  cases l with
  | nil => exact absurd rfl hne
  | cons a l =>
    have key : ∀ (l : List F32) (a : F32) (m : Rat), a.Is m → (∀ v ∈ l, ∃ q, v.Is q) →
        ∃ r ∈ a :: l, (forList l a fun y acc => do
          let o ← partialCmpUnwrap acc y
          .ok (if o = .gt then acc else y)) = .ok r ∧ ∃ m', r.Is m' ∧ m ≤ m' ∧ ∀ v ∈ l, ∀ q, v.Is q → q ≤ m' := by
      intro l
      induction l with
      | nil => intro a m ha _; exact ⟨a, by simp, rfl, m, ha, le_refl _, fun v hv => by simp at hv⟩
      | cons b l ih =>
        intro a m ha hf
        obtain ⟨q, hq⟩ := hf b (by simp)
        obtain ⟨o, eo, ho⟩ := partialCmp_finite ha hq
        simp only [forList, eo, ok_bind]
        by_cases hg : o = .gt
        · simp only [hg, if_true]
          obtain ⟨r, hr, er, m', hm, hle, hall⟩ := ih a m ha (fun v hv => hf v (by simp [hv]))
          refine ⟨r, by rcases List.mem_cons.1 hr with rfl | h <;> simp [*], er, m', hm, hle, ?_⟩
          intro v hv q' hq'
          rcases List.mem_cons.1 hv with rfl | hv
          · rw [← hq.unique hq']; have := ho.1 hg; linarith
          · exact hall v hv q' hq'
        · simp only [hg, if_false]
          obtain ⟨r, hr, er, m', hm, hle, hall⟩ := ih b q hq (fun v hv => hf v (by simp [hv]))
          have hmq : m ≤ q := by
            have : ¬ q < m := fun h => hg (ho.2 h)
            linarith
          refine ⟨r, List.mem_cons_of_mem _ hr, er, m', hm, le_trans hmq hle, ?_⟩
          intro v hv q' hq'
          rcases List.mem_cons.1 hv with rfl | hv
          · rw [← hq.unique hq']; exact hle
          · exact hall v hv q' hq'
    obtain ⟨m, hm⟩ := hfin a (by simp)
    obtain ⟨r, hr, er, m', hm', hle, hall⟩ := key l a m hm (fun v hv => hfin v (by simp [hv]))
    refine ⟨r, hr, er, m', hm', ?_⟩
    intro v hv q hq
    rcases List.mem_cons.1 hv with rfl | hv
    · rw [← hm.unique hq]; exact hle
    · exact hall v hv q hq

omit [Libm f32] in
theorem rndQ_clip {q : Rat} {n : Int} (h0 : 0 ≤ q) (h1 : q ≤ n) (hn : |n| ≤ 16777216) :
    0 ≤ f32.rnd q ∧ f32.rnd q ≤ n ∧ |f32.rnd q| < pow2 f32.emax := by
  have a := rndQ_nonneg (f := f32.toRFmt) h0
  have b := rndQ_le (f := f32.toRFmt) (f32_int hn).1 h1
  refine ⟨a, b, ?_⟩
  rw [abs_of_nonneg a]
  refine lt_of_le_of_lt b (lt_of_le_of_lt (le_abs_self _) (f32_int hn).2)

/-- spec of the stretched value in round-to-nearest arithmetic: each of the four operations rounds once -/
def stretch (lo hi q : Rat) : Rat :=
  f32.rnd (f32.rnd (f32.rnd (q - lo) / f32.rnd (hi - lo)) * 255)

theorem stretch_is {x lo' hi' : F32} {q lo hi : Rat} (hx : x.Is q) (hlo : lo'.Is lo) (hhi : hi'.Is hi)
    (h1 : lo ≤ q) (h2 : q ≤ hi) (hlt : lo < hi) (hov : |f32.rnd (hi - lo)| < pow2 f32.emax) :
    ((x -. lo') /. (hi' -. lo') *. (num 255 -. num 0) +. num 0).Is (stretch lo hi q) ∧
      0 ≤ stretch lo hi q ∧ stretch lo hi q ≤ 255 := by
  have hD := rnd_sub_pos hlo.exact hhi.exact hlt
  have hn0 := rndQ_nonneg (f := f32.toRFmt) (show 0 ≤ q - lo by linarith)
  have hnD : f32.rnd (q - lo) ≤ f32.rnd (hi - lo) := rndQ_mono (by linarith)
  have ov1 : |f32.rnd (q - lo)| < pow2 f32.emax := by
    rw [abs_of_nonneg hn0]; rw [abs_of_pos hD] at hov; exact lt_of_le_of_lt hnD hov
  have s1 := sub_is hx hlo ov1
  have s2 := sub_is hhi hlo hov
  have q0 : 0 ≤ f32.rnd (q - lo) / f32.rnd (hi - lo) := div_nonneg hn0 hD.le
  have q1 : f32.rnd (q - lo) / f32.rnd (hi - lo) ≤ ((1 : Int) : Rat) := by
    rw [div_le_iff₀ hD]; simpa using hnD
  obtain ⟨a0, a1, a2⟩ := rndQ_clip q0 q1 (by decide)
  have s3 := div_is s1 s2 hD.ne' a2
  have s4 : (num 255 -. num 0 : F32).Is 255 := by
    have h1 := num32 (n := 255) (by decide)
    have h2 := num32 (n := 0) (by decide)
    have := sub_exact h1 h2 (by simpa using f32_int (n := 255) (by decide))
    simpa using this
  have b1 : f32.rnd (f32.rnd (q - lo) / f32.rnd (hi - lo)) * 255 ≤ ((255 : Int) : Rat) := by
    push_cast at a1 ⊢; linarith
  obtain ⟨c0, c1, c2⟩ := rndQ_clip (mul_nonneg a0 (by norm_num : (0 : Rat) ≤ 255)) b1 (by decide)
  have s5 := mul_is s3 s4 c2
  have h0 : (num 0 : F32).Is 0 := by simpa using num32 (n := 0) (by decide)
  have s6 := add_exact s5 h0 (by rw [add_zero]; exact s5.exact)
  rw [add_zero] at s6
  exact ⟨s6, c0, by unfold stretch; simpa using c1⟩

omit [Libm f32] in
theorem stretch_mono {lo hi q q' : Rat} (ha : f32.Exact lo) (hb : f32.Exact hi) (hlt : lo < hi) (h : q ≤ q') :
    stretch lo hi q ≤ stretch lo hi q' := by
  have hD := rnd_sub_pos ha hb hlt
  unfold stretch
  apply rndQ_mono
  apply mul_le_mul_of_nonneg_right _ (by norm_num)
  apply rndQ_mono
  exact div_le_div_of_nonneg_right (rndQ_mono (by linarith)) hD.le

omit [Libm f32] in
theorem stretch_ends {lo hi : Rat} (ha : f32.Exact lo) (hb : f32.Exact hi) (hlt : lo < hi) :
    stretch lo hi lo = 0 ∧ stretch lo hi hi = 255 := by
  have hD := rnd_sub_pos ha hb hlt
  have r1 : f32.rnd (1 : Rat) = 1 := by
    have := (f32_int (n := 1) (by decide)).rnd; simpa using this
  have r255 : f32.rnd (255 : Rat) = 255 := by
    have := (f32_int (n := 255) (by decide)).rnd; simpa using this
  unfold stretch
  constructor
  · rw [sub_self]
    have z : f32.rnd 0 = 0 := rndQ_zero _
    rw [z, zero_div, z, zero_mul, z]
  · rw [div_self hD.ne', r1, one_mul, r255]

/-- spec: nearest integer (halves away from zero) of a number in [0, 255], as a byte -/
def nearByte (q : Rat) : UInt8 := UInt8.ofNat (FP.roundAwayQ q).toNat

theorem toU8_byte {x : F32} {q : Rat} (h : x.Is q) (h0 : 0 ≤ q) (h1 : q ≤ 255) :
    toU8 (FloatOps.round x) = nearByte q := by
  have b0 : 0 ≤ FP.roundAwayQ q := le_roundAwayQ (by simpa using h0)
  have b1 : FP.roundAwayQ q ≤ 255 := roundAwayQ_le (by simpa using h1)
  have hr := round_is h (f32_int (by rw [abs_of_nonneg b0]; omega))
  apply UInt8.toNat_inj.1
  rw [toU8_toNat hr, truncQ_int]
  unfold nearByte
  rw [UInt8.toNat_ofNat']
  omega

omit [Libm f32] in
theorem nearByte_mono {q q' : Rat} (h0 : 0 ≤ q) (h : q ≤ q') (h1 : q' ≤ 255) : (nearByte q).toNat ≤ (nearByte q').toNat := by
  unfold nearByte
  have b0 : 0 ≤ FP.roundAwayQ q := le_roundAwayQ (by simpa using h0)
  have b1 : FP.roundAwayQ q' ≤ 255 := roundAwayQ_le (by simpa using h1)
  have b2 := roundAwayQ_mono h
  rw [UInt8.toNat_ofNat', UInt8.toNat_ofNat']
  omega

/-- **C55** on a grayscale image of finite values, not all equal, whose range does not overflow, there is a monotone
map of values to bytes sending the minimum to 0 and the maximum to 255, and every sample of the output is
the image of the corresponding input sample. -/
theorem c55_normalize_partial (P : Profile) (img : Image F32) (h : img.WF) (hg : Grayscale img.info)
    (hfin : ∀ v ∈ img.data, ∃ q, v.Is q) (lo hi : Rat) (hlt : lo < hi)
    (hlo : ∃ v ∈ img.data, v.Is lo) (hhi : ∃ v ∈ img.data, v.Is hi)
    (hbd : ∀ v ∈ img.data, ∀ q, v.Is q → lo ≤ q ∧ q ≤ hi)
    (hov : |f32.rnd (hi - lo)| < pow2 f32.emax) :
    ∃ (out : Image UInt8) (g : Rat → UInt8), normalizeLaplacian P img = .ok out ∧ out.WF ∧ out.info = img.info ∧
      g lo = (0 : UInt8) ∧ g hi = (255 : UInt8) ∧
      (∀ q q', lo ≤ q → q ≤ q' → q' ≤ hi → (g q).toNat ≤ (g q').toNat) ∧
      ∀ (i : Nat) v q, img.data[i]? = some v → v.Is q → out.data[i]? = some (g q) := by
  obtain ⟨vl, hvl, hl⟩ := hlo
  obtain ⟨vh, hvh, hh⟩ := hhi
  have hne : img.data ≠ [] := List.ne_nil_of_mem hvl
  obtain ⟨r1, m1, e1, q1, i1, a1⟩ := minBy_finite img.data hne hfin
  obtain ⟨r2, m2, e2, q2, i2, a2⟩ := maxBy_finite img.data hne hfin
  have eq1 : q1 = lo := le_antisymm (a1 vl hvl lo hl) (hbd r1 m1 q1 i1).1
  have eq2 : q2 = hi := le_antisymm (hbd r2 m2 q2 i2).2 (a2 vh hvh hi hh)
  subst eq1 eq2
  have hends := stretch_ends hl.exact hh.exact hlt
  let sc : F32 → F32 := fun c => (c -. r1) /. (r2 -. r1) *. (num 255 -. num 0) +. num 0
  have hw2 : (Image.mk img.info (img.data.map sc) : Image F32).WF :=
    ⟨h.width, h.height, h.channels, h.size, h.full, by rw [← h.length]; simp⟩
  refine ⟨⟨img.info, (img.data.map sc).map (fun c => toU8 (FloatOps.round c))⟩, fun q => nearByte (stretch q1 q2 q), ?_,
    ?_, rfl, ?_, ?_, ?_, ?_⟩
  · unfold normalizeLaplacian
    rw [checkGrayscale_ok hg, ok_bind, e1, ok_bind, e2, ok_bind]
    unfold scaleChannels
    rw [Image.mapChannels_eq P h (f' := sc) (fun _ _ => rfl), ok_bind]
    unfold imageFloatToU8
    rw [Image.mapChannels_eq P hw2 (f' := fun c => toU8 (FloatOps.round c)) (fun _ _ => rfl)]
  · exact ⟨h.width, h.height, h.channels, h.size, h.full, by rw [← h.length]; simp⟩
  · show nearByte _ = _
    rw [hends.1]; decide +kernel
  · show nearByte _ = _
    rw [hends.2]; decide +kernel
  · intro q q' h1 h2 h3
    have hD := rnd_sub_pos hl.exact hh.exact hlt
    have s1 := stretch_mono hl.exact hh.exact hlt h1
    have s2 := stretch_mono hl.exact hh.exact hlt h2
    have s3 := stretch_mono hl.exact hh.exact hlt h3
    rw [hends.1] at s1
    rw [hends.2] at s3
    exact nearByte_mono s1 s2 s3
  · intro i v q hv hq
    have hm := List.mem_of_getElem? hv
    have hb := hbd v hm q hq
    obtain ⟨t1, t2, t3⟩ := stretch_is hq i1 i2 hb.1 hb.2 hlt hov
    simp only [List.getElem?_map, hv, Option.map_some]
    congr 1
    exact toU8_byte t1 t2 t3

/-- a 3×2 image holding 0, 3 and 10 -/
example (P : Profile) : ∃ (out : Image UInt8),
    normalizeLaplacian P (gray6 (num 0 : F32) (num 3) (num 10) (num 3) (num 3) (num 0)) = .ok out ∧
      out.data[0]? = some 0 ∧ out.data[2]? = some 255 := by
  have h0 : (num 0 : F32).Is 0 := by simpa using num32 (n := 0) (by decide)
  have h3 : (num 3 : F32).Is 3 := by simpa using num32 (n := 3) (by decide)
  have h10 : (num 10 : F32).Is 10 := by simpa using num32 (n := 10) (by decide)
  have hd : (gray6 (num 0 : F32) (num 3) (num 10) (num 3) (num 3) (num 0)).data =
    [num 0, num 3, num 10, num 3, num 3, num 0] := rfl
  have hu : ∀ {v : F32} {p q : Rat}, v.Is p → v.Is q → p = q := fun h h' => h.unique h'
  obtain ⟨out, g, h, -, -, hl, hh, -, hv⟩ := c55_normalize_partial P _ (gray6_WF ..)
    (Or.inl ⟨rfl, rfl⟩) (by rw [hd]; intro v hv; simp at hv; rcases hv with rfl | rfl | rfl | rfl | rfl | rfl <;> exact ⟨_, by assumption⟩)
    0 10 (by norm_num) ⟨num 0, by simp [hd], h0⟩ ⟨num 10, by simp [hd], h10⟩
    (by
      rw [hd]; intro v hv q hq
      simp at hv
      rcases hv with rfl | rfl | rfl | rfl | rfl | rfl
      all_goals first
        | (have := hu hq h0; subst this; norm_num; done)
        | (have := hu hq h3; subst this; norm_num; done)
        | (have := hu hq h10; subst this; norm_num; done))
    (by
      rw [show (10 : Rat) - 0 = 10 by norm_num, h10.exact.rnd]
      exact h10.exact.2)
  exact ⟨out, h, by rw [hv 0 _ 0 rfl h0, hl], by rw [hv 2 _ 10 rfl h10, hh]⟩

/-- **C55** an image that is not grayscale gives an error -/
theorem c55_error (P : Profile) (img : Image F32) (hg : ¬ Grayscale img.info) :
    normalizeLaplacian P img = invalidArg := by
  unfold normalizeLaplacian; rw [checkGrayscale_err hg]; rfl

/-- **C55** empty input panics -/
theorem c55_empty (P : Profile) (img : Image F32) (hg : Grayscale img.info) (h : img.data = []) :
    normalizeLaplacian P img = panic .unwrap := by
  unfold normalizeLaplacian; rw [checkGrayscale_ok hg, ok_bind, h]; rfl

theorem forList_nan (l : List F32) (a : F32) (h : a.val = .nan ∧ l ≠ [] ∨ ∃ v ∈ l, v.val = .nan)
    (pick : Ordering → F32 → F32 → F32) :
    (forList l a fun y acc => do
      let o ← partialCmpUnwrap acc y
      .ok (pick o acc y)) = panic .unwrap := by
  induction l generalizing a with
  | nil => rcases h with ⟨_, h⟩ | ⟨v, hv, _⟩
           · exact absurd rfl h
           · simp at hv
  | cons b l ih =>
    by_cases hn : a.val = .nan ∨ b.val = .nan
    · simp only [forList, partialCmp_nan hn]; rfl
    · have hl : ∃ v ∈ l, v.val = .nan := by
        rcases h with ⟨h, _⟩ | ⟨v, hv, h⟩
        · exact absurd (Or.inl h) hn
        · rcases List.mem_cons.1 hv with rfl | hv
          · exact absurd (Or.inr h) hn
          · exact ⟨v, hv, h⟩
      simp only [forList]
      unfold partialCmpUnwrap
      split
      · simp only [ok_bind]; exact ih _ (Or.inr hl)
      · split
        · simp only [ok_bind]; exact ih _ (Or.inr hl)
        · split
          · simp only [ok_bind]; exact ih _ (Or.inr hl)
          · rfl

/-- **C55** NaN input panics (for more than one sample) -/
theorem c55_nan (P : Profile) (img : Image F32) (hg : Grayscale img.info) (hn : ∃ v ∈ img.data, v.val = .nan)
    (h2 : 2 ≤ img.data.length) : normalizeLaplacian P img = panic .unwrap := by
  unfold normalizeLaplacian
  rw [checkGrayscale_ok hg, ok_bind]
  cases hd : img.data with
  | nil => rw [hd] at h2; simp at h2
  | cons a l =>
    rw [hd] at hn h2
    have : minByUnwrap (a :: l) = panic .unwrap := by
      apply forList_nan l a _ (fun o acc y => if o = .gt then y else acc)
      obtain ⟨v, hv, h⟩ := hn
      rcases List.mem_cons.1 hv with rfl | hv
      · left; exact ⟨h, by rintro rfl; simp at h2⟩
      · right; exact ⟨v, hv, h⟩
    rw [this]; rfl

/-- **C55 is violated** for a single NaN pixel: it is never compared, and becomes 0 without a panic. -/
theorem c55_violated_single_nan (P : Profile) (v : F32) (hv : v.val = .nan) :
    normalizeLaplacian P (Image.fromVec 1 1 1 false [v]) = .ok (Image.fromVec 1 1 1 false [0]) := by
  have hw : (Image.fromVec 1 1 1 false [v]).WF := ⟨show 1 < _ by decide, show 1 < _ by decide, show 1 < _ by decide,
    show 1 * 1 < _ by decide, show 1 * 1 * 1 < _ by decide, rfl⟩
  have hsc : ∀ w : F32, ((v -. v) /. w *. (num 255 -. num 0) +. num 0 : F32).val = .nan := by
    intro w
    have n1 : (v -. v).val = .nan := by
      show FP.add f32 v.val (FP.neg v.val) = _
      rw [hv]; rfl
    have n2 : ((v -. v) /. w).val = .nan := by
      show FP.div f32 (v -. v).val w.val = _
      rw [n1]; cases w.val <;> rfl
    have n3 : ((v -. v) /. w *. (num 255 -. num 0) : F32).val = .nan := by
      show FP.mul f32 ((v -. v) /. w).val _ = _
      rw [n2]; cases (num 255 -. num 0 : F32).val <;> rfl
    show FP.add f32 ((v -. v) /. w *. (num 255 -. num 0) : F32).val _ = _
    rw [n3]; cases (num 0 : F32).val <;> rfl
  unfold normalizeLaplacian
  rw [checkGrayscale_ok (Or.inl ⟨rfl, rfl⟩), ok_bind]
  rw [show minByUnwrap (Image.fromVec 1 1 1 false [v]).data = .ok v from rfl, ok_bind,
    show maxByUnwrap (Image.fromVec 1 1 1 false [v]).data = .ok v from rfl, ok_bind]
  unfold scaleChannels
  rw [Image.mapChannels_eq P hw (f' := fun c => (c -. v) /. (v -. v) *. (num 255 -. num 0) +. num 0) (fun _ _ => rfl), ok_bind]
  unfold imageFloatToU8
  rw [Image.mapChannels_eq P ⟨show 1 < _ by decide, show 1 < _ by decide, show 1 < _ by decide,
    show 1 * 1 < _ by decide, show 1 * 1 * 1 < _ by decide, rfl⟩ (f' := fun c => toU8 (FloatOps.round c)) (fun _ _ => rfl)]
  have hr : toU8 (FloatOps.round ((v -. v) /. (v -. v) *. (num 255 -. num 0) +. num 0 : F32)) = 0 := by
    have := hsc (v -. v)
    generalize ((v -. v) /. (v -. v) *. (num 255 -. num 0) +. num 0 : F32) = z at this
    have h1 := toU8_round_spec (f := f32) (by decide) (by decide) z
    rw [this] at h1
    apply UInt8.toNat_inj.1; simpa [U8OfFloat] using h1
  show Except.ok (Image.mk (Image.fromVec 1 1 1 false [v]).info [toU8 _]) = _
  rw [hr]; rfl
end
end Imgproc

import Verif.Props.Transpose
import Verif.Props.Equalize
/-! Property C136, continued: histogram equalization. -/
namespace Imgproc
open FloatOps

theorem perm_transpose (w h : Nat) (f : Nat → Nat → Int) :
    ((List.range w).flatMap fun x => (List.range h).map fun y => f x y).Perm
      ((List.range h).flatMap fun y => (List.range w).map fun x => f x y) := by
  have e : ∀ (l m : List Nat) (g : Nat → Nat → Int), l.flatMap (fun x => m.map fun y => g x y) = l.flatMap fun x => m.flatMap fun y => [g x y] := by
    intro l m g
    refine List.flatMap_congr fun x _ => ?_
    induction m with
    | nil => rfl
    | cons a m ih => rw [List.map_cons, List.flatMap_cons, ih]; rfl
  rw [e, e (List.range h) (List.range w) fun y x => f x y]
  rw [← Multiset.coe_eq_coe]
  have c : ∀ (l m : List Nat) (g : Nat → Nat → Int), ((l.flatMap fun x => m.flatMap fun y => [g x y] : List Int) : Multiset Int) =
      (l : Multiset Nat).bind fun x => (m : Multiset Nat).bind fun y => ([g x y] : Multiset Int) := by
    intro l m g
    rw [← Multiset.coe_bind]
    refine congrArg _ (funext fun x => ?_)
    rw [← Multiset.coe_bind]
  rw [c, c (List.range h) (List.range w) fun y x => f x y, Multiset.bind_bind]

theorem atMost_perm {l m : List Int} (h : l.Perm m) (k : Int) : atMost l k = atMost m k := (h.filter _).length_eq
theorem distinctAtMost_perm {l m : List Int} (h : l.Perm m) (k : Int) : distinctAtMost l k = distinctAtMost m k := by
  unfold distinctAtMost
  rw [List.toFinset_eq_of_perm _ _ (h.filter _)]

theorem lightness_transpose {a b : Image UInt8} (h : a.WF) (t : TransposeOf a b) (white : White) {x y : Nat}
    (hx : x < a.info.height) (hy : y < a.info.width) : b.lightness white x y = a.lightness white y x := by
  unfold Image.lightness
  rw [t.px h hx hy, t.header]; rfl

theorem lightBins_transpose {a b : Image UInt8} (h : a.WF) (t : TransposeOf a b) (white : White) (precision : ℝ) :
    (b.lightBins white precision).Perm (a.lightBins white precision) := by
  have e : b.lightBins white precision = (List.range a.info.width).flatMap fun y => (List.range a.info.height).map fun x =>
      lightBin precision (a.lightness white y x) := by
    unfold Image.lightBins
    rw [t.header]
    refine List.flatMap_congr fun y hy => List.map_congr_left fun x hx => ?_
    rw [lightness_transpose h t white (List.mem_range.1 hx) (List.mem_range.1 hy)]
  rw [e]
  exact perm_transpose _ _ fun x y => lightBin precision (a.lightness white x y)

theorem equalized_transpose {a b : Image UInt8} (h : a.WF) (t : TransposeOf a b) (white : White) (alpha precision : ℝ) {x y : Nat}
    (hx : x < a.info.height) (hy : y < a.info.width) :
    b.equalized white alpha precision x y = a.equalized white alpha precision y x := by
  have hp := lightBins_transpose h t white precision
  have k : ∀ k, b.percentile white precision k = a.percentile white precision k := by
    intro k
    unfold Image.percentile
    rw [atMost_perm hp, distinctAtMost_perm hp, t.header]
    show _ / (((a.info.height * a.info.width : ℕ)) : ℝ) = _
    rw [Nat.mul_comm]
  unfold Image.equalized
  rw [k, lightness_transpose h t white hx hy]

/-- **C136** (exact arithmetic) histogram equalization -/
theorem c136_equalize (P : Profile) (white : White) {a : Image UInt8} (h : a.WF)
    (hpos : 0 < a.info.width ∧ 0 < a.info.height) (h3 : a.info.colours = 3)
    (hsmall : a.info.width * a.info.height < 1073741824)
    (alpha precision : ℝ) (ha0 : 0 ≤ alpha) (ha1 : alpha ≤ 1) (hp : 0 ≤ precision) :
    Transposes (fun i => histogramEqualization P i alpha white precision) (fun i => histogramEqualization P i alpha white precision) a := by
  intro b t
  have hd := t.header
  obtain ⟨o, e, ow, oi, ov⟩ := c89_value P white a h hpos h3 hsmall alpha precision ha0 ha1 hp
  obtain ⟨o', e', ow', oi', ov'⟩ := c89_value P white b t.wf (by rw [hd]; exact hpos.symm) (by rw [hd]; exact h3)
    (by rw [hd]; show a.info.height * a.info.width < _; rw [Nat.mul_comm]; exact hsmall) alpha precision ha0 ha1 hp
  refine ⟨o, o', e, e', (transposeOf_iff ow).2 ?_⟩
  rw [hd] at oi' ov'
  rw [oi, ← oi']
  refine ow'.shows.congr fun x y hx hy => ?_
  rw [oi'] at hx hy
  obtain ⟨e1, e2⟩ := ov' x y hx hy
  obtain ⟨e3, e4⟩ := ov y x hy hx
  rw [t.px h hx hy] at e1 e2
  rw [equalized_transpose h t white alpha precision hx hy] at e2
  rw [← a.info.colour_append (o'.px x y), ← a.info.colour_append (o.px y x), e3, e4]
  exact congrArg₂ (· ++ ·) e2 e1

example (P : Profile) : Transposes (fun i => histogramEqualization P i (1 / 2 : ℝ) .d65 10)
    (fun i => histogramEqualization P i (1 / 2 : ℝ) .d65 10) demoA :=
  c136_equalize P .d65 demoA_WF ⟨by decide, by decide⟩ rfl (by decide) _ _ (by norm_num) (by norm_num) (by norm_num)
end Imgproc

import Verif.Proofs.IEEE
import Verif.Model.Math
import Mathlib.Order.WithBot
/-! Property C42: `max_3`, `max_4`, `min_3`, `min_4`. -/
namespace Imgproc
open FloatOps

/-- position of a non-NaN datum on the extended number line (`⊥ = -∞`, `⊤ = +∞`, both zeros at 0) -/
def FP.key : FP → WithBot (WithTop Rat)
  | .nan => ⊥
  | .inf true => ⊥
  | .inf false => ((⊤ : WithTop Rat) : WithBot (WithTop Rat))
  | .negZero => (((0 : Rat) : WithTop Rat) : WithBot (WithTop Rat))
  | .fin q => ((q : WithTop Rat) : WithBot (WithTop Rat))

theorem FP.lt_key {x y : FP} (hx : x ≠ .nan) (hy : y ≠ .nan) : (FP.lt x y = true) ↔ x.key < y.key := by
  cases x with
  | nan => exact absurd rfl hx
  | inf s => cases y with
    | nan => exact absurd rfl hy
    | inf t => cases s <;> cases t <;> simp [FP.lt, FP.key, FP.toQ?, FP.sign]
    | negZero => cases s <;> simp [FP.lt, FP.key, FP.toQ?, FP.sign]
    | fin b => cases s <;> simp [FP.lt, FP.key, FP.toQ?, FP.sign]
  | negZero => cases y with
    | nan => exact absurd rfl hy
    | inf t => cases t with
      | true => simp [FP.lt, FP.key, FP.toQ?, FP.sign]
      | false => exact iff_of_true rfl (WithBot.coe_lt_coe.2 (WithTop.coe_lt_top _))
    | negZero => simp [FP.lt, FP.key, FP.toQ?]
    | fin b => simp [FP.lt, FP.key, FP.toQ?, WithBot.coe_lt_coe, WithTop.coe_lt_coe, -WithTop.coe_zero]
  | fin a => cases y with
    | nan => exact absurd rfl hy
    | inf t => cases t with
      | true => simp [FP.lt, FP.key, FP.toQ?, FP.sign]
      | false => exact iff_of_true rfl (WithBot.coe_lt_coe.2 (WithTop.coe_lt_top _))
    | negZero => simp [FP.lt, FP.key, FP.toQ?, WithBot.coe_lt_coe, WithTop.coe_lt_coe, -WithTop.coe_zero]
    | fin b => simp [FP.lt, FP.key, FP.toQ?, WithBot.coe_lt_coe, WithTop.coe_lt_coe]

theorem FP.le_key {x y : FP} (hx : x ≠ .nan) (hy : y ≠ .nan) : (FP.le x y = true) ↔ x.key ≤ y.key := by
  cases x with
  | nan => exact absurd rfl hx
  | inf s => cases y with
    | nan => exact absurd rfl hy
    | inf t => cases s <;> cases t <;> simp [FP.le, FP.key, FP.toQ?, FP.sign]
    | negZero => cases s with
      | true => simp [FP.le, FP.key, FP.toQ?, FP.sign]
      | false => exact iff_of_false (by decide) (not_le.2 (WithBot.coe_lt_coe.2 (WithTop.coe_lt_top _)))
    | fin b => cases s <;> simp [FP.le, FP.key, FP.toQ?, FP.sign]
  | negZero => cases y with
    | nan => exact absurd rfl hy
    | inf t => cases t <;> simp [FP.le, FP.key, FP.toQ?, FP.sign, WithBot.coe_le_coe]
    | negZero => simp [FP.le, FP.key, FP.toQ?]
    | fin b => simp [FP.le, FP.key, FP.toQ?, WithBot.coe_le_coe, WithTop.coe_le_coe, -WithTop.coe_zero]
  | fin a => cases y with
    | nan => exact absurd rfl hy
    | inf t => cases t <;> simp [FP.le, FP.key, FP.toQ?, FP.sign, WithBot.coe_le_coe]
    | negZero => simp [FP.le, FP.key, FP.toQ?, WithBot.coe_le_coe, WithTop.coe_le_coe, -WithTop.coe_zero]
    | fin b => simp [FP.le, FP.key, FP.toQ?, WithBot.coe_le_coe, WithTop.coe_le_coe]

section
variable [Libm f32]

/-- `m` is a largest element of `l` in the sense of the language's `<=` -/
def IsMax (m : F32) (l : List F32) : Prop := m ∈ l ∧ ∀ v ∈ l, (v <=. m) = true
/-- `m` is a smallest element of `l` -/
def IsMin (m : F32) (l : List F32) : Prop := m ∈ l ∧ ∀ v ∈ l, (m <=. v) = true

theorem flt_lt {x y : F32} (hx : x.val ≠ .nan) (hy : y.val ≠ .nan) : ((x <. y) = true) ↔ x.val.key < y.val.key :=
  FP.lt_key hx hy
theorem flt_gt {x y : F32} (hx : x.val ≠ .nan) (hy : y.val ≠ .nan) : ((x >. y) = true) ↔ y.val.key < x.val.key :=
  FP.lt_key hy hx
theorem flt_le {x y : F32} (hx : x.val ≠ .nan) (hy : y.val ≠ .nan) : ((x <=. y) = true) ↔ x.val.key ≤ y.val.key :=
  FP.le_key hx hy

/-- **C42** `max_3` returns one of its arguments, at least as large as each of them. -/
theorem c42_max_3 (x y z : F32) (hx : x.val ≠ .nan) (hy : y.val ≠ .nan) (hz : z.val ≠ .nan) :
    IsMax (max3 x y z) [x, y, z] := by
  unfold max3 IsMax
  simp only [List.mem_cons, List.not_mem_nil, or_false, forall_eq_or_imp, forall_eq]
  split_ifs with h1 h2 h2 <;> simp only [flt_gt, hx, hy, hz, ne_eq, not_false_eq_true, true_or, or_true, true_and,
    not_lt, flt_le] at h1 h2 ⊢
  · exact ⟨le_rfl, h1.le, h2.le⟩
  · exact ⟨h2, h1.le.trans h2, le_rfl⟩
  · exact ⟨h1, le_rfl, h2.le⟩
  · exact ⟨h1.trans h2, h2, le_rfl⟩

/-- **C42** `min_3` -/
theorem c42_min_3 (x y z : F32) (hx : x.val ≠ .nan) (hy : y.val ≠ .nan) (hz : z.val ≠ .nan) :
    IsMin (min3 x y z) [x, y, z] := by
  unfold min3 IsMin
  simp only [List.mem_cons, List.not_mem_nil, or_false, forall_eq_or_imp, forall_eq]
  split_ifs with h1 h2 h2 <;> simp only [flt_lt, hx, hy, hz, ne_eq, not_false_eq_true, true_or, or_true, true_and,
    not_lt, flt_le] at h1 h2 ⊢
  · exact ⟨le_rfl, h1.le, h2.le⟩
  · exact ⟨h2, h2.trans h1.le, le_rfl⟩
  · exact ⟨h1, le_rfl, h2.le⟩
  · exact ⟨h2.trans h1, h2, le_rfl⟩

theorem IsMax.extend {m w : F32} {l l' : List F32} (h : IsMax m l) (hl : ∀ v ∈ l, v ∈ l')
    (hl' : ∀ v ∈ l', v ∈ l ∨ (v <=. w) = true) (hw : w ∈ l) (hn : ∀ v ∈ l', v.val ≠ .nan) : IsMax m l' := by
  refine ⟨hl _ h.1, fun v hv => ?_⟩
  rcases hl' v hv with h1 | h1
  · exact h.2 v h1
  · have hm := hn m (hl _ h.1)
    have hw' := hn w (hl _ hw)
    rw [flt_le (hn v hv) hm]
    exact ((flt_le (hn v hv) hw').1 h1).trans ((flt_le hw' hm).1 (h.2 w hw))

theorem IsMin.extend {m w : F32} {l l' : List F32} (h : IsMin m l) (hl : ∀ v ∈ l, v ∈ l')
    (hl' : ∀ v ∈ l', v ∈ l ∨ (w <=. v) = true) (hw : w ∈ l) (hn : ∀ v ∈ l', v.val ≠ .nan) : IsMin m l' := by
  refine ⟨hl _ h.1, fun v hv => ?_⟩
  rcases hl' v hv with h1 | h1
  · exact h.2 v h1
  · have hm := hn m (hl _ h.1)
    have hw' := hn w (hl _ hw)
    rw [flt_le hm (hn v hv)]
    exact ((flt_le hm hw').1 (h.2 w hw)).trans ((flt_le hw' (hn v hv)).1 h1)

/-- **C42** `max_4` -/
theorem c42_max_4 (w x y z : F32) (hw : w.val ≠ .nan) (hx : x.val ≠ .nan) (hy : y.val ≠ .nan) (hz : z.val ≠ .nan) :
    IsMax (max4 w x y z) [w, x, y, z] := by
  have hn : ∀ v ∈ [w, x, y, z], v.val ≠ .nan := by
    simp only [List.mem_cons, List.not_mem_nil, or_false, forall_eq_or_imp, forall_eq]
    exact ⟨hw, hx, hy, hz⟩
  unfold max4
  split_ifs with h1 h2 h3
  · rw [flt_gt hw hx] at h1
    refine (c42_max_3 w y z hw hy hz).extend (w := w) ?_ ?_ (by simp) hn <;>
      simp [flt_le, hw, hx, h1.le]
  · rw [flt_gt hx hy] at h2
    refine (c42_max_3 w x z hw hx hz).extend (w := x) ?_ ?_ (by simp) hn <;>
      simp [flt_le, hx, hy, h2.le]
  · rw [flt_gt hy hz] at h3
    refine (c42_max_3 w x y hw hx hy).extend (w := y) ?_ ?_ (by simp) hn <;>
      simp [flt_le, hy, hz, h3.le]
  · rw [flt_gt hw hx, not_lt] at h1
    refine (c42_max_3 x y z hx hy hz).extend (w := x) ?_ ?_ (by simp) hn <;>
      simp [flt_le, hw, hx, h1]

/-- **C42** `min_4` -/
theorem c42_min_4 (w x y z : F32) (hw : w.val ≠ .nan) (hx : x.val ≠ .nan) (hy : y.val ≠ .nan) (hz : z.val ≠ .nan) :
    IsMin (min4 w x y z) [w, x, y, z] := by
  have hn : ∀ v ∈ [w, x, y, z], v.val ≠ .nan := by
    simp only [List.mem_cons, List.not_mem_nil, or_false, forall_eq_or_imp, forall_eq]
    exact ⟨hw, hx, hy, hz⟩
  unfold min4
  split_ifs with h1 h2 h3
  · rw [flt_lt hw hx] at h1
    refine (c42_min_3 w y z hw hy hz).extend (w := w) ?_ ?_ (by simp) hn <;>
      simp [flt_le, hw, hx, h1.le]
  · rw [flt_lt hx hy] at h2
    refine (c42_min_3 w x z hw hx hz).extend (w := x) ?_ ?_ (by simp) hn <;>
      simp [flt_le, hx, hy, h2.le]
  · rw [flt_lt hy hz] at h3
    refine (c42_min_3 w x y hw hx hy).extend (w := y) ?_ ?_ (by simp) hn <;>
      simp [flt_le, hy, hz, h3.le]
  · rw [flt_lt hw hx, not_lt] at h1
    refine (c42_min_3 x y z hx hy hz).extend (w := x) ?_ ?_ (by simp) hn <;>
      simp [flt_le, hw, hx, h1]

/-- the order used above is the numerical one: on finite data `<=` compares the values -/
example (x y : F32) (a b : Rat) (hx : x.Is a) (hy : y.Is b) : (x <=. y) = decide (a ≤ b) := le_is hx hy
end
/-- the hypotheses hold of ordinary numbers and infinities -/
example : (FP.fin 3) ≠ .nan ∧ (FP.inf false) ≠ .nan := by decide

end Imgproc

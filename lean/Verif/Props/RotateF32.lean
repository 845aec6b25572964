import Verif.Props.Rotate
import Verif.Props.ShearF32
import Verif.Props.Extremum
import Verif.Proofs.RndShift
/-! Property C124: rotate in IEEE f32. -/
namespace Imgproc
open FloatOps

/-! ### the numbers the code computes -/

/-- a rotated coordinate -/
def ptNum (a b u v : Rat) : Rat := f32.rnd (f32.rnd (a * u) + f32.rnd (b * v))
/-- the largest rotated coordinate of a rectangle with sides `m` and `n` -/
def rotS (a b : Rat) (m n : Nat) : Rat := f32.rnd (f32.rnd (|a| * m) + f32.rnd (|b| * n))

theorem rotS_mono {a b : Rat} {m n m' n' : Nat} (h1 : m ≤ m') (h2 : n ≤ n') : rotS a b m n ≤ rotS a b m' n' := by
  have h1' : (m : Rat) ≤ m' := by exact_mod_cast h1
  have h2' : (n : Rat) ≤ n' := by exact_mod_cast h2
  exact rndQ_mono (add_le_add (rndQ_mono (mul_le_mul_of_nonneg_left h1' (abs_nonneg a)))
    (rndQ_mono (mul_le_mul_of_nonneg_left h2' (abs_nonneg b))))

theorem rotS_nonneg (a b : Rat) (m n : Nat) : 0 ≤ rotS a b m n :=
  rndQ_nonneg (add_nonneg (rndQ_nonneg (by positivity)) (rndQ_nonneg (by positivity)))

theorem rnd_nat_le {q : Rat} {n : Nat} (hn : n ≤ 16777216) (h : q ≤ n) : f32.rnd q ≤ n := rndQ_le (f32_nat hn).1 h

theorem rotS_le {a b : Rat} (ha : |a| ≤ 1) (hb : |b| ≤ 1) {m n : Nat} (h : m + n ≤ 16777216) : rotS a b m n ≤ m + n := by
  have h1 : f32.rnd (|a| * m) ≤ m := rnd_nat_le (by omega) (by nlinarith [show (0 : Rat) ≤ m by positivity])
  have h2 : f32.rnd (|b| * n) ≤ n := rnd_nat_le (by omega) (by nlinarith [show (0 : Rat) ≤ n by positivity])
  have := rnd_nat_le (q := f32.rnd (|a| * m) + f32.rnd (|b| * n)) h (by push_cast; linarith)
  push_cast at this
  exact this

theorem le_rnd_abs {a : Rat} (ha : f32.Exact a) {m : Nat} (hm : 1 ≤ m) : |a| ≤ f32.rnd (|a| * m) := by
  refine le_rndQ ha.abs.1 ?_
  have : (1 : Rat) ≤ m := by exact_mod_cast hm
  nlinarith [abs_nonneg a]

theorem rotS_left {a b : Rat} (ha : f32.Exact a) {m : Nat} (n : Nat) (hm : 1 ≤ m) : |a| ≤ rotS a b m n := by
  refine le_rndQ ha.abs.1 ?_
  have h1 := le_rnd_abs ha hm
  have h2 : 0 ≤ f32.rnd (|b| * n) := rndQ_nonneg (by positivity)
  linarith

theorem rotS_right {a b : Rat} (hb : f32.Exact b) (m : Nat) {n : Nat} (hn : 1 ≤ n) : |b| ≤ rotS a b m n := by
  refine le_rndQ hb.abs.1 ?_
  have h1 := le_rnd_abs hb hn
  have h2 : 0 ≤ f32.rnd (|a| * m) := rndQ_nonneg (by positivity)
  linarith

theorem exact_one : f32.Exact 1 := by simpa using f32_nat (n := 1) (by omega)

theorem rotS_both {a b : Rat} (ha : f32.Exact a) (hb : f32.Exact b) (hab : 1 ≤ |a| + |b|) {m n : Nat} (hm : 1 ≤ m) (hn : 1 ≤ n) :
    1 ≤ rotS a b m n := by
  refine le_rndQ exact_one.1 ?_
  have h1 := le_rnd_abs ha hm
  have h2 := le_rnd_abs hb hn
  linarith

theorem mul_le_abs {a u m : Rat} (hu : |u| ≤ m) : a * u ≤ |a| * m ∧ -(|a| * m) ≤ a * u := by
  have h : |a * u| ≤ |a| * m := by rw [abs_mul]; exact mul_le_mul_of_nonneg_left hu (abs_nonneg a)
  rw [abs_le] at h
  exact ⟨h.2, h.1⟩

theorem ptNum_le {a b u v : Rat} {m n : Nat} (hu : |u| ≤ m) (hv : |v| ≤ n) :
    ptNum a b u v ≤ rotS a b m n ∧ -rotS a b m n ≤ ptNum a b u v := by
  obtain ⟨a1, a2⟩ := mul_le_abs (a := a) hu
  obtain ⟨b1, b2⟩ := mul_le_abs (a := b) hv
  constructor
  · exact rndQ_mono (add_le_add (rndQ_mono a1) (rndQ_mono b1))
  · have e : -rotS a b m n = f32.rnd (f32.rnd (-(|a| * m)) + f32.rnd (-(|b| * n))) := by
      show -rndQ f32.toRFmt (rndQ f32.toRFmt _ + rndQ f32.toRFmt _) = rndQ f32.toRFmt (rndQ f32.toRFmt _ + rndQ f32.toRFmt _)
      rw [← rndQ_neg, neg_add, ← rndQ_neg, ← rndQ_neg]
    rw [e]
    exact rndQ_mono (add_le_add (rndQ_mono a2) (rndQ_mono b2))

theorem ptNum_err {a b u v : Rat} {m n : Nat} (ha : |a| ≤ 1) (hb : |b| ≤ 1) (hu : |u| ≤ m) (hv : |v| ≤ n) :
    |ptNum a b u v - (a * u + b * v)| ≤ (m + n) / 2 ^ 22 + 1 / 2 ^ 140 := by
  unfold ptNum
  have e1 := rnd_err_add (a * u)
  have e2 := rnd_err_add (b * v)
  have a1 : |a * u| ≤ m := by
    rw [abs_mul]
    exact le_trans (mul_le_mul ha hu (abs_nonneg u) (by norm_num)) (by linarith)
  have b1 : |b * v| ≤ n := by
    rw [abs_mul]
    exact le_trans (mul_le_mul hb hv (abs_nonneg v) (by norm_num)) (by linarith)
  generalize f32.rnd (a * u) = r1 at *
  generalize f32.rnd (b * v) = r2 at *
  generalize a * u = z1 at *
  generalize b * v = z2 at *
  have e3 := rnd_err_add (r1 + r2)
  generalize f32.rnd (r1 + r2) = r3 at *
  have c2 : |r1 + r2| ≤ (m + n) * (1 + 1 / 2 ^ 24) + 2 / 2 ^ 150 := by
    have t1 := abs_add_le r1 r2
    have t2 := abs_add_le (r1 - z1) (z1)
    have t3 := abs_add_le (r2 - z2) (z2)
    rw [sub_add_cancel] at t2 t3
    linarith
  have e : r3 - (z1 + z2) = (r3 - (r1 + r2)) + (r1 - z1) + (r2 - z2) := by ring
  rw [e]
  have t1 := abs_add_le (r3 - (r1 + r2) + (r1 - z1)) (r2 - z2)
  have t2 := abs_add_le (r3 - (r1 + r2)) (r1 - z1)
  have m0 : (0 : Rat) ≤ m := by positivity
  have n0 : (0 : Rat) ≤ n := by positivity
  norm_num at e1 e2 e3 c2 ⊢
  linarith

theorem rotS_err {a b : Rat} (ha : |a| ≤ 1) (hb : |b| ≤ 1) (m n : Nat) :
    |rotS a b m n - (|a| * m + |b| * n)| ≤ (m + n) / 2 ^ 22 + 1 / 2 ^ 140 :=
  ptNum_err (a := |a|) (b := |b|) (u := m) (v := n) (by rwa [abs_abs]) (by rwa [abs_abs]) (by rw [Nat.abs_cast]) (by rw [Nat.abs_cast])

/-- both numbers are f32 values of the size of a sine and a cosine -/
structure RotAB (a b : Rat) : Prop where
  ea : f32.Exact a
  eb : f32.Exact b
  la : |a| ≤ 1
  lb : |b| ≤ 1
  ab : 1 ≤ |a| + |b|

/-- the computed side of the output -/
theorem rotD {a b : Rat} (h : RotAB a b) {m m' n n' W H : Nat} (hm : m + m' = W) (hn : n + n' = H) (hW : 1 ≤ W) (hH : 1 ≤ H)
    (hs : W + H ≤ 4194304) :
    1 ≤ f32.rnd (rotS a b m n + rotS a b m' n') ∧ f32.rnd (rotS a b m n + rotS a b m' n') ≤ (W + H : Nat) ∧
      |f32.rnd (rotS a b m n + rotS a b m' n') - (W * |a| + H * |b|)| ≤ (W + H) / 2 ^ 20 := by
  have p1 := rotS_nonneg a b m n
  have p2 := rotS_nonneg a b m' n'
  have l1 := rotS_le h.la h.lb (m := m) (n := n) (by omega)
  have l2 := rotS_le h.la h.lb (m := m') (n := n') (by omega)
  have hm' : (m : Rat) + m' = W := by exact_mod_cast hm
  have hn' : (n : Rat) + n' = H := by exact_mod_cast hn
  have hW' : (1 : Rat) ≤ W := by exact_mod_cast hW
  refine ⟨le_rndQ exact_one.1 ?_, rnd_nat_le (by omega) (by push_cast; linarith), ?_⟩
  · by_cases c1 : 1 ≤ m <;> by_cases c2 : 1 ≤ n
    · linarith [rotS_both h.ea h.eb h.ab c1 c2]
    · linarith [rotS_left (b := b) h.ea n c1, rotS_right (a := a) h.eb m' (n := n') (by omega), h.ab]
    · linarith [rotS_right (a := a) h.eb m c2, rotS_left (b := b) h.ea n' (m := m') (by omega), h.ab]
    · linarith [rotS_both h.ea h.eb h.ab (m := m') (n := n') (by omega) (by omega)]
  · have e1 := rotS_err h.la h.lb m n
    have e2 := rotS_err h.la h.lb m' n'
    have e3 := rnd_err_add (rotS a b m n + rotS a b m' n')
    rw [abs_of_nonneg (add_nonneg p1 p2)] at e3
    generalize rotS a b m n = x at *
    generalize rotS a b m' n' = y at *
    generalize f32.rnd (x + y) = z at *
    have ee : z - (W * |a| + H * |b|) = (z - (x + y)) + (x - (|a| * m + |b| * n)) + (y - (|a| * m' + |b| * n')) := by
      rw [← hm', ← hn']; ring
    rw [ee]
    have t1 := abs_add_le (z - (x + y) + (x - (|a| * m + |b| * n))) (y - (|a| * m' + |b| * n'))
    have t2 := abs_add_le (z - (x + y)) (x - (|a| * m + |b| * n))
    have hH' : (1 : Rat) ≤ H := by exact_mod_cast hH
    norm_num at e1 e2 e3 ⊢
    linarith

/-- no computed row lies outside -/
theorem rot_row {hi lo p q D : Rat} (hp : -lo ≤ p) (hq : q = f32.rnd (f32.rnd (hi - p) - 1)) (hD : D = f32.rnd (hi + lo)) (h1 : 1 ≤ D)
    (hb : D ≤ 4194304) {m : Nat} (hm : (m : Rat) ≤ q) : (m : Rat) + 1 ≤ D := by
  have hle : f32.rnd (hi - p) ≤ D := by rw [hD]; exact rndQ_mono (by linarith)
  rcases Nat.eq_zero_or_pos m with rfl | hpos
  · simpa using h1
  have hmb : m ≤ 4194304 := by
    have : q ≤ 4194304 := by
      rw [hq]
      have := rnd_nat_le (q := f32.rnd (hi - p) - 1) (n := 4194304) (by omega) (by push_cast; linarith)
      exact_mod_cast this
    have : (m : Rat) ≤ 4194304 := hm.trans this
    exact_mod_cast this
  rw [hq] at hm
  have := rnd_shift hpos hmb hm
  have e : f32.rnd (f32.rnd (hi - p)) = f32.rnd (hi - p) := rndQ_of_rep (rndQ_rep (f := f32.toRFmt) _)
  rw [e] at this
  linarith

/-- no computed column lies outside -/
theorem rot_col {a b p q D : Rat} (h : RotAB a b) {m m' n n' : Nat} (hm1 : m' ≤ m + 1) (hn1 : n' ≤ n + 1)
    (hs : m + m' + (n + n') ≤ 4194304)
    (hp : p ≤ rotS a b m' n') (hq : q = f32.rnd (p + f32.rnd (rotS a b m n - 1))) (hD : D = f32.rnd (rotS a b m n + rotS a b m' n'))
    (h1 : 1 ≤ D) {k : Nat} (hk : (k : Rat) ≤ q) : (k : Rat) + 1 ≤ D := by
  rcases Nat.eq_zero_or_pos k with rfl | hpos
  · simpa using h1
  have p1 := rotS_nonneg a b m n
  have p2 := rotS_nonneg a b m' n'
  have l1 := rotS_le h.la h.lb (m := m) (n := n) (by omega)
  have l2 := rotS_le h.la h.lb (m := m') (n := n') (by omega)
  have hs' : (m : Rat) + m' + (n + n') ≤ 4194304 := by exact_mod_cast hs
  have hx : f32.Exact (rotS a b m n) :=
    ⟨rndQ_rep _, by
      have := (f32_nat (n := m + n) (by omega)).2
      rw [Nat.abs_cast] at this; push_cast at this
      rw [abs_of_nonneg p1]; exact lt_of_le_of_lt l1 this⟩
  rcases le_or_gt (1 / 2) (rotS a b m n) with hbig | hsmall
  · have hex : f32.rnd (rotS a b m n - 1) = rotS a b m n - 1 := (sub_one_exact hx hbig (by linarith [show (0 : Rat) ≤ m' by positivity, show (0 : Rat) ≤ n' by positivity])).rnd
    rw [hex] at hq
    have hle : q ≤ f32.rnd (rotS a b m n + rotS a b m' n' - 1) := by rw [hq]; exact rndQ_mono (by linarith)
    have hkb : k ≤ 4194304 := by
      have : f32.rnd (rotS a b m n + rotS a b m' n' - 1) ≤ (4194304 : Nat) := rnd_nat_le (by omega) (by push_cast; linarith)
      have : (k : Rat) ≤ (4194304 : Nat) := (hk.trans hle).trans this
      exact_mod_cast this
    rw [hD]
    exact rnd_shift hpos hkb (hk.trans hle)
  · have half : f32.Exact (1 / 2) := by
      have := f32_dy (m := 1) (k := 1) (by decide) (by omega)
      norm_num at this ⊢; exact this
    have sm : ∀ {z w : Rat}, 0 ≤ w → f32.rnd (f32.rnd z + f32.rnd w) < 1 / 2 → z < 1 / 2 := by
      intro z w hw hlt
      by_contra hc
      have c1 : 1 / 2 ≤ f32.rnd z := le_rndQ half.1 (not_lt.1 hc)
      have c2 : 0 ≤ f32.rnd w := rndQ_nonneg hw
      have c3 : 1 / 2 ≤ f32.rnd (f32.rnd z + f32.rnd w) := le_rndQ half.1 (by linarith)
      linarith
    have za : |a| * m < 1 / 2 := sm (w := |b| * n) (by positivity) hsmall
    have zb : |b| * n < 1 / 2 := sm (w := |a| * m) (by positivity) (by rw [add_comm]; exact hsmall)
    have th : f32.Exact (3 / 2) := by
      have := f32_dy (m := 3) (k := 1) (by decide) (by omega)
      norm_num at this ⊢; exact this
    have fh : f32.Exact (5 / 2) := by
      have := f32_dy (m := 5) (k := 1) (by decide) (by omega)
      norm_num at this ⊢; exact this
    have hm1' : (m' : Rat) ≤ m + 1 := by exact_mod_cast hm1
    have hn1' : (n' : Rat) ≤ n + 1 := by exact_mod_cast hn1
    have wa : f32.rnd (|a| * m') ≤ 3 / 2 := rndQ_le th.1 (by
      have := mul_le_mul_of_nonneg_left hm1' (abs_nonneg a)
      linarith [h.la])
    have wb : f32.rnd (|b| * n') ≤ 3 / 2 := rndQ_le th.1 (by
      have := mul_le_mul_of_nonneg_left hn1' (abs_nonneg b)
      linarith [h.lb])
    have lo3 : rotS a b m' n' ≤ 3 := by
      have := rnd_nat_le (q := f32.rnd (|a| * m') + f32.rnd (|b| * n')) (n := 3) (by omega) (by push_cast; linarith)
      exact_mod_cast this
    have hm1'' : f32.rnd (rotS a b m n - 1) ≤ -(1 / 2) := rndQ_le half.neg.1 (by linarith)
    have q52 : q ≤ 5 / 2 := by rw [hq]; exact rndQ_le fh.1 (by linarith)
    have k2 : k < 3 := by
      have : (k : Rat) < 3 := by linarith
      exact_mod_cast this
    have near := sub_one_near (x := rotS a b m n) p1 (by linarith)
    rw [abs_le] at near
    rw [hD]
    refine rnd_shift_small (q' := p + f32.rnd (rotS a b m n - 1)) (by omega) (by rw [← hq]; exact hk) ?_
    linarith [near.2]

/-! ### the loops -/

open Classical in
/-- Loops whose step `(x, y)` writes `p x y` at all positions related to `(x, y)`: every output position holds the last of the pixels
sent there, or its old value if there is none. -/
theorem Image.scatterR {T : Type} {out0 : Image T} (h : out0.WF) {W H : Nat} (R : Nat → Nat → Nat → Nat → Prop) (p : Nat → Nat → List T)
    (step : Nat → Nat → Image T → Res (Image T))
    (hstep : ∀ x y (o : Image T), x < W → y < H → o.WF → o.info = out0.info → ∃ o', step y x o = .ok o' ∧ o'.WF ∧ o'.info = out0.info ∧
      ∀ x' y', x' < out0.info.width → y' < out0.info.height → o'.px x' y' = if R x y x' y' then p x y else o.px x' y') :
    ∃ out, (forRange 0 H out0 fun j o => forRange 0 W o fun i o => step j i o) = .ok out ∧ out.WF ∧
      out.info = out0.info ∧
      ∀ x' y', x' < out0.info.width → y' < out0.info.height →
        (∃ x y, x < W ∧ y < H ∧ R x y x' y' ∧ out.px x' y' = p x y ∧
          ∀ x₂ y₂, x₂ < W → y₂ < H → R x₂ y₂ x' y' → y₂ < y ∨ y₂ = y ∧ x₂ ≤ x) ∨
        ((∀ x y, x < W → y < H → ¬ R x y x' y') ∧ out.px x' y' = out0.px x' y') := by
  obtain ⟨out, e, hw, hi, hv⟩ := nested_rule (W := W) (H := H) (s := out0) (f := step)
    (fun j i (o : Image T) => o.WF ∧ o.info = out0.info ∧ ∀ x' y', x' < out0.info.width → y' < out0.info.height →
        (∃ x y, Before W i j x y ∧ R x y x' y' ∧ o.px x' y' = p x y ∧
          ∀ x₂ y₂, Before W i j x₂ y₂ → R x₂ y₂ x' y' → y₂ < y ∨ y₂ = y ∧ x₂ ≤ x) ∨
        ((∀ x y, Before W i j x y → ¬ R x y x' y') ∧ o.px x' y' = out0.px x' y'))
    ⟨h, rfl, fun x' y' _ _ => Or.inr ⟨fun x y hb => by unfold Before at hb; omega, rfl⟩⟩
    (by
      rintro j s hj ⟨w, i, v⟩
      refine ⟨w, i, fun x' y' hx hy => ?_⟩
      have hb : ∀ x y, Before W W j x y ↔ Before W 0 (j + 1) x y := by intro x y; unfold Before; omega
      simpa only [hb] using v x' y' hx hy)
    (by
      rintro j i s hj hi ⟨w, inf, v⟩
      obtain ⟨o', e, w', i', hp⟩ := hstep i j s hi hj w inf
      refine ⟨o', e, w', i', ?_⟩
      intro x' y' hx' hy'
      rw [hp x' y' hx' hy']
      by_cases hc : R i j x' y'
      · rw [if_pos hc]
        exact Or.inl ⟨i, j, by unfold Before; omega, hc, rfl, fun x₂ y₂ hb _ => by unfold Before at hb; omega⟩
      · rw [if_neg hc]
        rcases v x' y' hx' hy' with ⟨x, y, hb, e1, e3, e4⟩ | ⟨hn, e3⟩
        · refine Or.inl ⟨x, y, by unfold Before at *; omega, e1, e3, fun x₂ y₂ hb₂ he => ?_⟩
          by_cases hxy : x₂ = i ∧ y₂ = j
          · obtain ⟨rfl, rfl⟩ := hxy
            exact absurd he hc
          · exact e4 x₂ y₂ (by unfold Before at *; omega) he
        · refine Or.inr ⟨fun x y hb he => ?_, e3⟩
          by_cases hxy : x = i ∧ y = j
          · obtain ⟨rfl, rfl⟩ := hxy
            exact hc he
          · exact hn x y (by unfold Before at *; omega) he)
  refine ⟨out, e, hw, hi, fun x' y' hx hy => ?_⟩
  rcases hv x' y' hx hy with ⟨x, y, hb, e1, e3, e4⟩ | ⟨hn, e3⟩
  · exact Or.inl ⟨x, y, by unfold Before at hb; omega, by unfold Before at hb; omega, e1, e3,
      fun x₂ y₂ h1 h2 => e4 x₂ y₂ (by unfold Before; omega)⟩
  · exact Or.inr ⟨fun x y h1 h2 => hn x y (by unfold Before; omega), e3⟩

/-- half of a side, rounded up or down depending on the sign -/
def hiM (a : Rat) (W : Nat) : Nat := if 0 ≤ a then W - W / 2 else W / 2
def loM (a : Rat) (W : Nat) : Nat := if 0 ≤ a then W / 2 else W - W / 2

theorem hiM_add (a : Rat) (W : Nat) : hiM a W + loM a W = W := by unfold hiM loM; split <;> omega
theorem hiM_bounds (a : Rat) (W : Nat) : hiM a W ≤ loM a W + 1 ∧ loM a W ≤ hiM a W + 1 ∧ W / 2 ≤ hiM a W ∧ W / 2 ≤ loM a W := by
  unfold hiM loM; split <;> omega

theorem abs_mul_hiM (a : Rat) (W : Nat) : |a| * hiM a W = a * (if 0 ≤ a then ((W - W / 2 : Nat) : Rat) else -((W / 2 : Nat) : Rat)) := by
  unfold hiM
  split
  · rename_i h; rw [abs_of_nonneg h]
  · rename_i h; rw [abs_of_neg (not_le.1 h)]; ring
theorem abs_mul_loM (a : Rat) (W : Nat) : |a| * loM a W = -(a * (if 0 ≤ a then -((W / 2 : Nat) : Rat) else ((W - W / 2 : Nat) : Rat))) := by
  unfold loM
  split
  · rename_i h; rw [abs_of_nonneg h]; ring
  · rename_i h; rw [abs_of_neg (not_le.1 h)]; ring

/-- between the ends of the interval the product is between those at the ends -/
theorem mul_ends {a u : Rat} {W : Nat} (h1 : -((W / 2 : Nat) : Rat) ≤ u) (h2 : u ≤ ((W - W / 2 : Nat) : Rat)) :
    a * u ≤ |a| * hiM a W ∧ -(|a| * loM a W) ≤ a * u := by
  rw [abs_mul_hiM, abs_mul_loM]
  split
  · rename_i h; constructor <;> nlinarith
  · rename_i h; rw [not_le] at h; constructor <;> nlinarith

section
variable [Libm f32]

theorem max4_is {p1 p2 p3 p4 : F32} {q1 q2 q3 q4 M : Rat} (h1 : p1.Is q1) (h2 : p2.Is q2) (h3 : p3.Is q3) (h4 : p4.Is q4)
    (l1 : q1 ≤ M) (l2 : q2 ≤ M) (l3 : q3 ≤ M) (l4 : q4 ≤ M) (hM : M = q1 ∨ M = q2 ∨ M = q3 ∨ M = q4) : (max4 p1 p2 p3 p4).Is M := by
  have nn : ∀ {p : F32} {q : Rat}, p.Is q → p.val ≠ .nan := by
    intro p q h e; unfold Flt.Is at h; rw [e] at h; exact absurd h (by simp [FP.toQ?])
  obtain ⟨hmem, hle⟩ := c42_max_4 p1 p2 p3 p4 (nn h1) (nn h2) (nn h3) (nn h4)
  generalize max4 p1 p2 p3 p4 = z at *
  simp only [List.mem_cons, List.not_mem_nil, or_false, forall_eq_or_imp, forall_eq] at hmem hle
  obtain ⟨a1, a2, a3, a4⟩ := hle
  have key : ∀ {q : Rat}, z.Is q → q ≤ M → z.Is M := by
    intro q hz hq
    rw [le_is h1 hz, decide_eq_true_eq] at a1
    rw [le_is h2 hz, decide_eq_true_eq] at a2
    rw [le_is h3 hz, decide_eq_true_eq] at a3
    rw [le_is h4 hz, decide_eq_true_eq] at a4
    have : q = M := le_antisymm hq (by rcases hM with e | e | e | e <;> rw [e] <;> assumption)
    rw [← this]; exact hz
  rcases hmem with e | e | e | e
  · exact key (by rw [e]; exact h1) l1
  · exact key (by rw [e]; exact h2) l2
  · exact key (by rw [e]; exact h3) l3
  · exact key (by rw [e]; exact h4) l4

theorem min4_is {p1 p2 p3 p4 : F32} {q1 q2 q3 q4 M : Rat} (h1 : p1.Is q1) (h2 : p2.Is q2) (h3 : p3.Is q3) (h4 : p4.Is q4)
    (l1 : M ≤ q1) (l2 : M ≤ q2) (l3 : M ≤ q3) (l4 : M ≤ q4) (hM : M = q1 ∨ M = q2 ∨ M = q3 ∨ M = q4) : (min4 p1 p2 p3 p4).Is M := by
  have nn : ∀ {p : F32} {q : Rat}, p.Is q → p.val ≠ .nan := by
    intro p q h e; unfold Flt.Is at h; rw [e] at h; exact absurd h (by simp [FP.toQ?])
  obtain ⟨hmem, hle⟩ := c42_min_4 p1 p2 p3 p4 (nn h1) (nn h2) (nn h3) (nn h4)
  generalize min4 p1 p2 p3 p4 = z at *
  simp only [List.mem_cons, List.not_mem_nil, or_false, forall_eq_or_imp, forall_eq] at hmem hle
  obtain ⟨a1, a2, a3, a4⟩ := hle
  have key : ∀ {q : Rat}, z.Is q → M ≤ q → z.Is M := by
    intro q hz hq
    rw [le_is hz h1, decide_eq_true_eq] at a1
    rw [le_is hz h2, decide_eq_true_eq] at a2
    rw [le_is hz h3, decide_eq_true_eq] at a3
    rw [le_is hz h4, decide_eq_true_eq] at a4
    have : q = M := le_antisymm (by rcases hM with e | e | e | e <;> rw [e] <;> assumption) hq
    rw [← this]; exact hz
  rcases hmem with e | e | e | e
  · exact key (by rw [e]; exact h1) l1
  · exact key (by rw [e]; exact h2) l2
  · exact key (by rw [e]; exact h3) l3
  · exact key (by rw [e]; exact h4) l4

omit [Libm f32] in
theorem ptNum_ends {a b u v : Rat} {W H : Nat} (h1 : -((W / 2 : Nat) : Rat) ≤ u) (h2 : u ≤ ((W - W / 2 : Nat) : Rat))
    (h3 : -((H - H / 2 : Nat) : Rat) ≤ v) (h4 : v ≤ ((H / 2 : Nat) : Rat)) :
    ptNum a b u v ≤ rotS a b (hiM a W) (loM b H) ∧ -rotS a b (loM a W) (hiM b H) ≤ ptNum a b u v := by
  obtain ⟨a1, a2⟩ := mul_ends (a := a) h1 h2
  obtain ⟨b1, b2⟩ := mul_ends (a := b) (u := -v) (W := H) (by linarith) (by linarith)
  constructor
  · exact rndQ_mono (add_le_add (rndQ_mono a1) (rndQ_mono (by linarith)))
  · have e : -rotS a b (loM a W) (hiM b H) = f32.rnd (f32.rnd (-(|a| * loM a W)) + f32.rnd (-(|b| * hiM b H))) := by
      show -rndQ f32.toRFmt (rndQ f32.toRFmt _ + rndQ f32.toRFmt _) = rndQ f32.toRFmt (rndQ f32.toRFmt _ + rndQ f32.toRFmt _)
      rw [← rndQ_neg, neg_add, ← rndQ_neg, ← rndQ_neg]
    rw [e]
    exact rndQ_mono (add_le_add (rndQ_mono a2) (rndQ_mono (by linarith)))

/-- largest and smallest coordinate of the four corners -/
theorem rot_extremes {a b : Rat} {W H : Nat} {p1 p2 p3 p4 : F32} (h1 : p1.Is (ptNum a b (-((W / 2 : Nat) : Rat)) ((H / 2 : Nat) : Rat)))
    (h2 : p2.Is (ptNum a b ((W - W / 2 : Nat) : Rat) ((H / 2 : Nat) : Rat)))
    (h3 : p3.Is (ptNum a b (-((W / 2 : Nat) : Rat)) (-((H - H / 2 : Nat) : Rat))))
    (h4 : p4.Is (ptNum a b ((W - W / 2 : Nat) : Rat) (-((H - H / 2 : Nat) : Rat)))) :
    (max4 p1 p2 p3 p4).Is (rotS a b (hiM a W) (loM b H)) ∧ (min4 p1 p2 p3 p4).Is (-rotS a b (loM a W) (hiM b H)) := by
  have w1 : (0 : Rat) ≤ ((W / 2 : Nat) : Rat) := by positivity
  have w2 : (0 : Rat) ≤ ((W - W / 2 : Nat) : Rat) := by positivity
  have w3 : (0 : Rat) ≤ ((H / 2 : Nat) : Rat) := by positivity
  have w4 : (0 : Rat) ≤ ((H - H / 2 : Nat) : Rat) := by positivity
  have c1 := ptNum_ends (a := a) (b := b) (W := W) (H := H) (u := -((W / 2 : Nat) : Rat)) (v := ((H / 2 : Nat) : Rat)) le_rfl (by linarith) (by linarith) le_rfl
  have c2 := ptNum_ends (a := a) (b := b) (W := W) (H := H) (u := ((W - W / 2 : Nat) : Rat)) (v := ((H / 2 : Nat) : Rat)) (by linarith) le_rfl (by linarith) le_rfl
  have c3 := ptNum_ends (a := a) (b := b) (W := W) (H := H) (u := -((W / 2 : Nat) : Rat)) (v := -((H - H / 2 : Nat) : Rat)) le_rfl (by linarith) le_rfl (by linarith)
  have c4 := ptNum_ends (a := a) (b := b) (W := W) (H := H) (u := ((W - W / 2 : Nat) : Rat)) (v := -((H - H / 2 : Nat) : Rat)) (by linarith) le_rfl le_rfl (by linarith)
  have e : ∀ {x y u v : Rat}, a * u = x → b * v = y → f32.rnd (f32.rnd x + f32.rnd y) = ptNum a b u v := by
    intro x y u v e1 e2; unfold ptNum; rw [e1, e2]
  have en : ∀ {x y u v : Rat}, a * u = -x → b * v = -y → -f32.rnd (f32.rnd x + f32.rnd y) = ptNum a b u v := by
    intro x y u v e1 e2
    unfold ptNum
    rw [e1, e2]
    show -rndQ f32.toRFmt (rndQ f32.toRFmt _ + rndQ f32.toRFmt _) = rndQ f32.toRFmt (rndQ f32.toRFmt _ + rndQ f32.toRFmt _)
    rw [← rndQ_neg, neg_add, ← rndQ_neg, ← rndQ_neg]
  refine ⟨max4_is h1 h2 h3 h4 c1.1 c2.1 c3.1 c4.1 ?_, min4_is h1 h2 h3 h4 c1.2 c2.2 c3.2 c4.2 ?_⟩
  · unfold rotS
    rw [abs_mul_hiM, abs_mul_loM]
    by_cases ha : 0 ≤ a <;> by_cases hb : 0 ≤ b <;> simp only [ha, hb, if_true, if_false]
    · exact Or.inr (Or.inl (e rfl (by ring)))
    · exact Or.inr (Or.inr (Or.inr (e rfl (by ring))))
    · exact Or.inl (e rfl (by ring))
    · exact Or.inr (Or.inr (Or.inl (e rfl (by ring))))
  · unfold rotS
    rw [abs_mul_hiM, abs_mul_loM]
    by_cases ha : 0 ≤ a <;> by_cases hb : 0 ≤ b <;> simp only [ha, hb, if_true, if_false]
    · exact Or.inr (Or.inr (Or.inl (en (by ring) (by ring))))
    · exact Or.inl (en (by ring) (by ring))
    · exact Or.inr (Or.inr (Or.inr (en (by ring) (by ring))))
    · exact Or.inr (Or.inl (en (by ring) (by ring)))

omit [Libm f32] in
theorem ptNum_abs {a b u v : Rat} (ha : |a| ≤ 1) (hb : |b| ≤ 1) (hu : |u| ≤ 4194304) (hv : |v| ≤ 4194304) :
    |f32.rnd (a * u)| ≤ 4194304 ∧ |f32.rnd (b * v)| ≤ 4194304 ∧ |ptNum a b u v| ≤ 8388608 := by
  have one : ∀ {a u : Rat}, |a| ≤ 1 → |u| ≤ 4194304 → |f32.rnd (a * u)| ≤ 4194304 := by
    intro a u ha hu
    have h1 : |a * u| ≤ (4194304 : Nat) := by
      rw [abs_mul]; push_cast
      exact le_trans (mul_le_mul ha hu (abs_nonneg u) (by norm_num)) (by norm_num)
    have := rnd_nat_le (q := |a * u|) (n := 4194304) (by omega) h1
    rw [show f32.rnd |a * u| = |f32.rnd (a * u)| from (abs_rndQ (f := f32.toRFmt) _).symm] at this
    exact_mod_cast this
  have h1 := one ha hu
  have h2 := one hb hv
  refine ⟨h1, h2, ?_⟩
  have h3 : |f32.rnd (a * u) + f32.rnd (b * v)| ≤ (8388608 : Nat) := by
    have := abs_add_le (f32.rnd (a * u)) (f32.rnd (b * v)); push_cast; linarith
  have := rnd_nat_le (n := 8388608) (by omega) h3
  rw [show f32.rnd |f32.rnd (a * u) + f32.rnd (b * v)| = |ptNum a b u v| from (abs_rndQ (f := f32.toRFmt) _).symm] at this
  exact_mod_cast this

theorem rotPt_is {c d u v : F32} {a b μ ν : Rat} (hc : c.Is a) (hd : d.Is b) (hu : u.Is μ) (hv : v.Is ν) (la : |a| ≤ 1) (lb : |b| ≤ 1)
    (bu : |μ| ≤ 4194304) (bv : |ν| ≤ 4194304) : (ofU8 0 +. c *. u +. d *. v : F32).Is (ptNum a b μ ν) := by
  obtain ⟨h1, h2, h3⟩ := ptNum_abs la lb bu bv
  have big : ∀ {q : Rat}, |f32.rnd q| ≤ 8388608 → |f32.rnd q| < pow2 f32.emax := fun h =>
    lt_of_le_of_lt h (by norm_num [pow2, f32])
  have e0 : (ofU8 0 : F32).Is 0 := by simpa using ofU8_is 0
  have m1 := mul_is hc hu (big (by linarith))
  have m2 := mul_is hd hv (big (by linarith))
  have a1 := add_exact e0 m1 (by rw [zero_add]; exact m1.exact)
  rw [zero_add] at a1
  exact add_is a1 m2 (big h3)
end

/-- **Specification**: the largest value of `a u + b v` on the rectangle of a `W` by `H` image around its centre, that is for
`-(W/2) ≤ u ≤ W - W/2` and `H/2 - H ≤ v ≤ H/2` (see `rotEdge_max`) -/
def rotEdge (a b : Rat) (W H : Nat) : Rat := |a| * hiM a W + |b| * loM b H

/-- `rotEdge` is what its description says -/
theorem rotEdge_max (a b : Rat) (W H : Nat) :
    (∀ u v : Rat, -((W / 2 : Nat) : Rat) ≤ u → u ≤ W - ((W / 2 : Nat) : Rat) → ((H / 2 : Nat) : Rat) - H ≤ v → v ≤ ((H / 2 : Nat) : Rat) →
      a * u + b * v ≤ rotEdge a b W H) ∧
    ∃ u v : Rat, -((W / 2 : Nat) : Rat) ≤ u ∧ u ≤ W - ((W / 2 : Nat) : Rat) ∧ ((H / 2 : Nat) : Rat) - H ≤ v ∧ v ≤ ((H / 2 : Nat) : Rat) ∧
      a * u + b * v = rotEdge a b W H := by
  have cw : ((W - W / 2 : Nat) : Rat) = W - ((W / 2 : Nat) : Rat) := by rw [Nat.cast_sub (by omega)]
  have ch : ((H - H / 2 : Nat) : Rat) = H - ((H / 2 : Nat) : Rat) := by rw [Nat.cast_sub (by omega)]
  have w2 : (0 : Rat) ≤ W - ((W / 2 : Nat) : Rat) := by rw [← cw]; positivity
  have h2 : (0 : Rat) ≤ H - ((H / 2 : Nat) : Rat) := by rw [← ch]; positivity
  have w0 : (0 : Rat) ≤ ((W / 2 : Nat) : Rat) := by positivity
  have h0 : (0 : Rat) ≤ ((H / 2 : Nat) : Rat) := by positivity
  constructor
  · intro u v h1 h2 h3 h4
    have := (mul_ends (a := a) (W := W) h1 (by rw [cw]; exact h2)).1
    have := (mul_ends (a := b) (u := -v) (W := H) (by linarith) (by rw [ch]; linarith)).2
    unfold rotEdge
    linarith
  · refine ⟨if 0 ≤ a then ((W - W / 2 : Nat) : Rat) else -((W / 2 : Nat) : Rat),
      -(if 0 ≤ b then -((H / 2 : Nat) : Rat) else ((H - H / 2 : Nat) : Rat)), ?_, ?_, ?_, ?_, ?_⟩
    · split <;> linarith
    · split <;> linarith
    · split <;> linarith
    · split <;> linarith
    · unfold rotEdge
      rw [abs_mul_hiM, abs_mul_loM]; ring

/-- **Specification**: exact column and row to which `rotate` moves the pixel `(i, j)`, before truncation -/
def rotColQ (γ σ : Rat) (W H i j : Nat) : Rat :=
  γ * ((i : Rat) - (W / 2 : Nat)) - σ * ((H / 2 : Nat) - (j : Rat)) + rotEdge γ (-σ) W H - 1
def rotRowQ (γ σ : Rat) (W H i j : Nat) : Rat :=
  rotEdge σ γ W H - (σ * ((i : Rat) - (W / 2 : Nat)) + γ * ((H / 2 : Nat) - (j : Rat))) - 1

theorem rot_cx_err {a b u v : Rat} (h : RotAB a b) {W H m n : Nat} (hu : |u| ≤ (W / 2 : Nat)) (hv : |v| ≤ (H / 2 : Nat)) (hm : m ≤ W)
    (hn : n ≤ H) (hW : 1 ≤ W) (hH : 1 ≤ H) :
    |f32.rnd (ptNum a b u v + f32.rnd (rotS a b m n - 1)) - (a * u + b * v + (|a| * m + |b| * n) - 1)| ≤ (W + H) / 2 ^ 20 ∧
    |f32.rnd (f32.rnd (rotS a b m n - ptNum a b u v) - 1) - ((|a| * m + |b| * n) - (a * u + b * v) - 1)| ≤ (W + H) / 2 ^ 20 := by
  have e1 := ptNum_err h.la h.lb hu hv
  have e2 := rotS_err h.la h.lb m n
  have hm' : (m : Rat) ≤ W := by exact_mod_cast hm
  have hn' : (n : Rat) ≤ H := by exact_mod_cast hn
  have hW' : (1 : Rat) ≤ W := by exact_mod_cast hW
  have hH' : (1 : Rat) ≤ H := by exact_mod_cast hH
  have w2 : ((W / 2 : Nat) : Rat) * 2 ≤ W := by exact_mod_cast Nat.div_mul_le_self W 2
  have h2 : ((H / 2 : Nat) : Rat) * 2 ≤ H := by exact_mod_cast Nat.div_mul_le_self H 2
  have m0 : (0 : Rat) ≤ m := by positivity
  have n0 : (0 : Rat) ≤ n := by positivity
  have p1 : |a * u + b * v| ≤ (W + H) / 2 := by
    have t := abs_add_le (a * u) (b * v)
    have a1 : |a * u| ≤ |u| := by rw [abs_mul]; nlinarith [abs_nonneg u, h.la]
    have b1 : |b * v| ≤ |v| := by rw [abs_mul]; nlinarith [abs_nonneg v, h.lb]
    linarith
  have p2 : |a| * m + |b| * n ≤ W + H := by
    nlinarith [h.la, h.lb, abs_nonneg a, abs_nonneg b]
  have p3 : 0 ≤ |a| * m + |b| * n := by positivity
  generalize ((W / 2 : Nat) : Rat) = w' at *
  generalize ((H / 2 : Nat) : Rat) = h' at *
  generalize ptNum a b u v = p at *
  generalize rotS a b m n = S at *
  generalize a * u + b * v = z at *
  generalize |a| * m + |b| * n = y at *
  replace e1 : |p - z| ≤ (W + H) / 2 / 2 ^ 22 + 1 / 2 ^ 140 := le_trans e1 (by gcongr; linarith)
  replace e2 : |S - y| ≤ (W + H) / 2 ^ 22 + 1 / 2 ^ 140 := le_trans e2 (by gcongr)
  clear hm' hn' m0 n0
  generalize (W : Rat) = W' at *
  generalize (H : Rat) = H' at *
  have tt : (1 : Rat) / 2 ^ 140 ≤ 1 / 2 ^ 60 := by norm_num
  have tt' : (1 : Rat) / 2 ^ 150 ≤ 1 / 2 ^ 60 := by norm_num
  have pb : |p| ≤ (W' + H') / 2 + (W' + H') / 2 ^ 22 := by
    have t := abs_add_le (p - z) z
    rw [sub_add_cancel] at t
    norm_num at *
    linarith
  have Sb : |S| ≤ (W' + H') + (W' + H') / 2 ^ 21 := by
    have t := abs_add_le (S - y) y
    rw [sub_add_cancel, abs_of_nonneg p3] at t
    norm_num at *
    linarith
  constructor
  · have r1 := rnd_err_add (S - 1)
    have t1 := abs_sub S 1
    rw [abs_one] at t1
    generalize f32.rnd (S - 1) = s1 at *
    have r2 := rnd_err_add (p + s1)
    have t2 := abs_add_le p s1
    have t3 := abs_add_le (s1 - (S - 1)) (S - 1)
    rw [sub_add_cancel] at t3
    generalize f32.rnd (p + s1) = s2 at *
    have e : s2 - (z + y - 1) = (s2 - (p + s1)) + (s1 - (S - 1)) + (p - z) + (S - y) := by ring
    rw [e]
    have k1 := abs_add_le ((s2 - (p + s1)) + (s1 - (S - 1)) + (p - z)) (S - y)
    have k2 := abs_add_le ((s2 - (p + s1)) + (s1 - (S - 1))) (p - z)
    have k3 := abs_add_le (s2 - (p + s1)) (s1 - (S - 1))
    norm_num at *
    linarith
  · have r1 := rnd_err_add (S - p)
    have t1 := abs_sub S p
    generalize f32.rnd (S - p) = s1 at *
    have r2 := rnd_err_add (s1 - 1)
    have t2 := abs_sub s1 1
    rw [abs_one] at t2
    have t3 := abs_add_le (s1 - (S - p)) (S - p)
    rw [sub_add_cancel] at t3
    generalize f32.rnd (s1 - 1) = s2 at *
    have e : s2 - (y - z - 1) = (s2 - (s1 - 1)) + (s1 - (S - p)) + (S - y) - (p - z) := by ring
    rw [e]
    have k1 := abs_sub ((s2 - (s1 - 1)) + (s1 - (S - p)) + (S - y)) (p - z)
    have k2 := abs_add_le ((s2 - (s1 - 1)) + (s1 - (S - p))) (S - y)
    have k3 := abs_add_le (s2 - (s1 - 1)) (s1 - (S - p))
    norm_num at *
    linarith

section
variable [Libm f32]

/-- conversion of a computed coordinate to a pixel position -/
theorem rot_toU32 {z d : F32} {q D : Rat} (hz : z.Is q) (hd : d.Is D) (h1 : 1 ≤ D) (hb : D ≤ 4194304)
    (hq : ∀ k : Nat, (k : Rat) ≤ q → (k : Rat) + 1 ≤ D) :
    toU32 z < toU32 d ∧ q - 1 < toU32 z ∧ (toU32 z : Rat) ≤ max 0 q ∧ (1 ≤ q ↔ 1 ≤ toU32 z) ∧ D - 1 < toU32 d ∧ (toU32 d : Rat) ≤ D := by
  obtain ⟨-, ed⟩ := toU32_is hd (by linarith) (n := 4194305) (by push_cast; linarith) (by omega)
  have f1 := rat_floor_le D
  have f2 := rat_lt_floor D
  have ed' : ((toU32 d : Int) : Rat) = (D.floor : Rat) := by rw [ed]
  rw [Int.cast_natCast] at ed'
  rw [← ed'] at f1 f2
  have hd1 : 1 ≤ toU32 d := by
    have : (0 : Rat) < toU32 d := by linarith
    exact_mod_cast this
  rcases lt_or_ge q 0 with hneg | hpos
  · have hz0 : toU32 z = 0 := by
      unfold toU32
      rw [toInt_is hz]
      have := truncQ_mono hneg.le
      rw [truncQ_zero] at this
      simp only [Int.toNat_eq_zero]
      omega
    rw [hz0]
    refine ⟨by omega, by push_cast; linarith, by push_cast; exact le_max_left _ _, ⟨fun h => by linarith, fun h => by omega⟩, by linarith, f1⟩
  · have qb : q < 4194305 := by
      by_contra hc
      have := hq 4194305 (by push_cast; linarith)
      push_cast at this
      linarith
    obtain ⟨-, ez⟩ := toU32_is hz hpos (n := 4194305) (by push_cast; exact qb) (by omega)
    have g1 := rat_floor_le q
    have g2 := rat_lt_floor q
    have ez' : ((toU32 z : Int) : Rat) = (q.floor : Rat) := by rw [ez]
    rw [Int.cast_natCast] at ez'
    rw [← ez'] at g1 g2
    have hk := hq _ g1
    refine ⟨?_, by linarith, le_trans g1 (le_max_right _ _), ⟨fun h => ?_, fun h => ?_⟩, by linarith, f1⟩
    · have : ((toU32 z : Nat) : Rat) < toU32 d := by linarith
      exact_mod_cast this
    · have : (0 : Rat) < toU32 z := by linarith
      exact_mod_cast this
    · have : (1 : Rat) ≤ toU32 z := by exact_mod_cast h
      linarith

/-- **Specification**: the largest side the output may get: `m |a| + n |b|`, plus a relative `2^-20` for rounding errors -/
def rotSide (a b : Rat) (m n : Nat) : Nat := ⌊(m : Rat) * |a| + n * |b| + (m + n) / 2 ^ 20⌋₊

/-- a non-empty image of at most `2^22` columns plus rows, an output whose size is representable, and an angle for which the platform's sine and cosine return numbers
of at most one whose absolute values add up to at least one -/
structure RotateInput32 (img : Image F32) (deg : F32) (γ σ : Rat) : Prop where
  wf : img.WF
  c : (FloatOps.cos (FloatOps.toRadians deg)).Is γ
  s : (FloatOps.sin (FloatOps.toRadians deg)).Is σ
  lc : |γ| ≤ 1
  ls : |σ| ≤ 1
  cs : 1 ≤ |γ| + |σ|
  wpos : 0 < img.info.width
  hpos : 0 < img.info.height
  size : img.info.width + img.info.height ≤ 4194304
  fits : ImageInfo.WF ⟨rotSide γ σ img.info.width img.info.height, rotSide γ σ img.info.height img.info.width, img.info.channels, img.info.alpha⟩

omit [Libm f32] in
theorem info_le {w h w' h' c : Nat} {al : Bool} (hi : ImageInfo.WF ⟨w', h', c, al⟩) (hw : w ≤ w') (hh : h ≤ h') : ImageInfo.WF ⟨w, h, c, al⟩ where
  width := lt_of_le_of_lt hw hi.width
  height := lt_of_le_of_lt hh hi.height
  channels := hi.channels
  size := lt_of_le_of_lt (Nat.mul_le_mul hw hh) hi.size
  full := lt_of_le_of_lt (Nat.mul_le_mul_right _ (Nat.mul_le_mul hw hh)) hi.full

open Classical in
/-- one step of the loops, when both coordinates are inside -/
theorem rotateStep32 (P : Profile) {img out : Image F32} (h : img.WF) {i j : Nat} (hi : i < img.info.width)
    (hj : j < img.info.height) (ho : out.WF) (hch : out.info.channels = img.info.channels) {cx cy : F32} {q : Rat} (hq : cx.Is q)
    (hx : toU32 cx < out.info.width) (hy : toU32 cy < out.info.height) (h1 : 1 ≤ q ↔ 1 ≤ toU32 cx) :
    ∃ out', rotateStep P img cx cy i j out = .ok out' ∧ out'.WF ∧ out'.info = out.info ∧
      ∀ x' y', x' < out.info.width → y' < out.info.height →
        out'.px x' y' = if (toU32 cx = x' ∨ toU32 cx = x' + 1) ∧ toU32 cy = y' then img.px i j else out.px x' y' := by
  have hl : (img.px i j).length = out.info.channels := by rw [hch]; exact Image.px_length h hi hj
  unfold rotateStep
  rw [Image.getPixel_eq P h hi hj, ok_bind, Image.setPixel_eq P ho hx hy hl, ok_bind]
  have w1 := Image.write_WF ho (row_lt hx hy) hl
  have p1 := fun x' y' (hx' : x' < out.info.width) (hy' : y' < out.info.height) => Image.px_write ho hx hy hx' hy' hl
  have eg : (cx >=. num 1) = decide (1 ≤ q) := by
    show (num 1 <=. cx) = _
    rw [le_is (num32 (n := 1) (by decide)) hq]; simp
  rw [eg]
  by_cases hc : 1 ≤ q
  · have hge := h1.1 hc
    rw [if_pos (by simpa using hc), u32Sub_ok hge, ok_bind, ok_bind]
    have hx2 : toU32 cx - 1 < (out.write (toU32 cy * out.info.width + toU32 cx) (img.px i j)).info.width := by
      show toU32 cx - 1 < out.info.width; omega
    refine ⟨_, Image.setPixel_eq P w1 hx2 hy hl, Image.write_WF w1 (row_lt hx2 hy) hl, rfl, ?_⟩
    intro x' y' hx' hy'
    rw [Image.px_write w1 hx2 hy hx' hy' hl, p1 x' y' hx' hy']
    split_ifs <;> first | rfl | (exfalso; omega)
  · have hge : ¬ 1 ≤ toU32 cx := fun h => hc (h1.2 h)
    rw [if_neg (by simpa using hc)]
    refine ⟨_, rfl, w1, rfl, ?_⟩
    intro x' y' hx' hy'
    rw [p1 x' y' hx' hy']
    split_ifs <;> first | rfl | (exfalso; omega)

/-- what the program computes: the extents and the coordinates as rounded numbers, and the pixels -/
theorem rotate32_core (P : Profile) {img : Image F32} {deg : F32} {γ σ : Rat} (h : RotateInput32 img deg γ σ) :
    ∃ out, ∃ X Y : Nat → Nat → Nat, rotate P img deg = .ok out ∧ out.WF ∧
      out.info.channels = img.info.channels ∧ out.info.alpha = img.info.alpha ∧
      (let W := img.info.width; let H := img.info.height
       let Sx := rotS γ (-σ) (hiM γ W) (loM (-σ) H); let Sy := rotS σ γ (hiM σ W) (loM γ H)
       let Dx := f32.rnd (Sx + rotS γ (-σ) (loM γ W) (hiM (-σ) H)); let Dy := f32.rnd (Sy + rotS σ γ (loM σ W) (hiM γ H))
        (Dx - 1 < out.info.width ∧ (out.info.width : Rat) ≤ Dx) ∧ (Dy - 1 < out.info.height ∧ (out.info.height : Rat) ≤ Dy) ∧
        (∀ i j, i < W → j < H →
          let q := f32.rnd (ptNum γ (-σ) ((i : Rat) - (W / 2 : Nat)) (((H / 2 : Nat) : Rat) - j) + f32.rnd (Sx - 1))
          let r := f32.rnd (f32.rnd (Sy - ptNum σ γ ((i : Rat) - (W / 2 : Nat)) (((H / 2 : Nat) : Rat) - j)) - 1)
          X i j < out.info.width ∧ Y i j < out.info.height ∧
          q - 1 < X i j ∧ (X i j : Rat) ≤ max 0 q ∧ r - 1 < Y i j ∧ (Y i j : Rat) ≤ max 0 r) ∧
        ∀ x' y', x' < out.info.width → y' < out.info.height →
          (∃ i j, i < W ∧ j < H ∧ ((X i j = x' ∨ X i j = x' + 1) ∧ Y i j = y') ∧ out.px x' y' = img.px i j ∧
            ∀ i₂ j₂, i₂ < W → j₂ < H → (X i₂ j₂ = x' ∨ X i₂ j₂ = x' + 1) ∧ Y i₂ j₂ = y' → j₂ < j ∨ j₂ = j ∧ i₂ ≤ i) ∨
          ((∀ i j, i < W → j < H → ¬ ((X i j = x' ∨ X i j = x' + 1) ∧ Y i j = y')) ∧
            out.px x' y' = List.replicate img.info.channels (ofU8 0))) := by
  classical
  obtain ⟨wf, hc, hs, lc, ls, cs, wpos, hpos, size, fits⟩ := h
  dsimp only
  rw [rotate_eq]
  dsimp only
  generalize FloatOps.cos (FloatOps.toRadians deg) = c at *
  generalize FloatOps.sin (FloatOps.toRadians deg) = s at *
  generalize hW : img.info.width = W at *
  generalize hH : img.info.height = H at *
  have abx : RotAB γ (-σ) := ⟨hc.exact, hs.exact.neg, lc, by rwa [abs_neg], by rwa [abs_neg]⟩
  have aby : RotAB σ γ := ⟨hs.exact, hc.exact, ls, lc, by rw [add_comm]; exact cs⟩
  -- the sides
  have cw : ((W - W / 2 : Nat) : Rat) = W - ((W / 2 : Nat) : Rat) := by rw [Nat.cast_sub (by omega)]
  have ch : ((H - H / 2 : Nat) : Rat) = H - ((H / 2 : Nat) : Rat) := by rw [Nat.cast_sub (by omega)]
  have natb : ∀ {n : Nat}, n ≤ 4194304 → |(n : Rat)| ≤ 4194304 := by
    intro n hn; rw [Nat.abs_cast]; exact_mod_cast hn
  have u1 : (FloatOps.neg (ofNat (F := F32) (W / 2))).Is (-((W / 2 : Nat) : Rat)) := neg_is (nat32 (by omega))
  have u2 : (ofNat (F := F32) (W - W / 2)).Is ((W - W / 2 : Nat) : Rat) := nat32 (by omega)
  have v1 : (ofNat (F := F32) (H / 2)).Is ((H / 2 : Nat) : Rat) := nat32 (by omega)
  have subI : ∀ {a b : Nat}, a ≤ 4194304 → b ≤ 4194304 → (ofNat (F := F32) a -. ofNat b).Is ((a : Rat) - b) := by
    intro a b ha hb
    refine sub_exact (nat32 (by omega)) (nat32 (by omega)) ?_
    have := f32_int (n := (a : Int) - b) (by rw [abs_le]; omega)
    push_cast at this
    exact this
  have v2 : (ofNat (F := F32) (H / 2) -. ofNat (F := F32) H).Is (-((H - H / 2 : Nat) : Rat)) := by
    have := subI (a := H / 2) (b := H) (by omega) (by omega)
    rw [ch, neg_sub]
    exact this
  have bu1 : |-((W / 2 : Nat) : Rat)| ≤ 4194304 := by rw [abs_neg]; exact natb (by omega)
  have bu2 : |((W - W / 2 : Nat) : Rat)| ≤ 4194304 := natb (by omega)
  have bv1 : |((H / 2 : Nat) : Rat)| ≤ 4194304 := natb (by omega)
  have bv2 : |-((H - H / 2 : Nat) : Rat)| ≤ 4194304 := by rw [abs_neg]; exact natb (by omega)
  generalize FloatOps.neg (ofNat (F := F32) (W / 2)) = U1 at *
  generalize ofNat (F := F32) (W - W / 2) = U2 at *
  generalize ofNat (F := F32) (H / 2) -. ofNat (F := F32) H = V2 at *
  -- the extremes
  obtain ⟨xM, xm⟩ := rot_extremes (W := W) (H := H) (a := γ) (b := -σ)
    (rotPt_is hc (neg_is hs) u1 v1 abx.la abx.lb bu1 bv1) (rotPt_is hc (neg_is hs) u2 v1 abx.la abx.lb bu2 bv1)
    (rotPt_is hc (neg_is hs) u1 v2 abx.la abx.lb bu1 bv2) (rotPt_is hc (neg_is hs) u2 v2 abx.la abx.lb bu2 bv2)
  obtain ⟨yM, ym⟩ := rot_extremes (W := W) (H := H) (a := σ) (b := γ)
    (rotPt_is hs hc u1 v1 aby.la aby.lb bu1 bv1) (rotPt_is hs hc u2 v1 aby.la aby.lb bu2 bv1)
    (rotPt_is hs hc u1 v2 aby.la aby.lb bu1 bv2) (rotPt_is hs hc u2 v2 aby.la aby.lb bu2 bv2)
  change (max4 (rotPtX c s U1 _) (rotPtX c s U2 _) (rotPtX c s U1 V2) (rotPtX c s U2 V2)).Is _ at xM
  change (min4 (rotPtX c s U1 _) (rotPtX c s U2 _) (rotPtX c s U1 V2) (rotPtX c s U2 V2)).Is _ at xm
  change (max4 (rotPtY c s U1 _) (rotPtY c s U2 _) (rotPtY c s U1 V2) (rotPtY c s U2 V2)).Is _ at yM
  change (min4 (rotPtY c s U1 _) (rotPtY c s U2 _) (rotPtY c s U1 V2) (rotPtY c s U2 V2)).Is _ at ym
  generalize max4 (rotPtX c s U1 _) (rotPtX c s U2 _) (rotPtX c s U1 V2) (rotPtX c s U2 V2) = XM at *
  generalize min4 (rotPtX c s U1 _) (rotPtX c s U2 _) (rotPtX c s U1 V2) (rotPtX c s U2 V2) = Xm at *
  generalize max4 (rotPtY c s U1 _) (rotPtY c s U2 _) (rotPtY c s U1 V2) (rotPtY c s U2 V2) = YM at *
  generalize min4 (rotPtY c s U1 _) (rotPtY c s U2 _) (rotPtY c s U1 V2) (rotPtY c s U2 V2) = Ym at *
  -- the size of the output
  have addx := hiM_add γ W
  have addy := hiM_add (-σ) H
  have addx' := hiM_add σ W
  have addy' := hiM_add γ H
  have boundx := hiM_bounds γ W
  have boundy := hiM_bounds (-σ) H
  have boundx' := hiM_bounds σ W
  have boundy' := hiM_bounds γ H
  obtain ⟨dx1, dx2, dx3⟩ := rotD abx (m := hiM γ W) (m' := loM γ W) (n := loM (-σ) H) (n' := hiM (-σ) H) addx (by omega) wpos hpos size
  obtain ⟨dy1, dy2, dy3⟩ := rotD aby (m := hiM σ W) (m' := loM σ W) (n := loM γ H) (n' := hiM γ H) addx' (by omega) wpos hpos size
  have sizeQ : ((W + H : Nat) : Rat) ≤ 4194304 := by exact_mod_cast size
  have dx : (XM -. Xm).Is (f32.rnd (rotS γ (-σ) (hiM γ W) (loM (-σ) H) + rotS γ (-σ) (loM γ W) (hiM (-σ) H))) := by
    have := sub_is xM xm (by
      rw [sub_neg_eq_add, abs_of_nonneg (by linarith)]
      exact lt_of_le_of_lt (dx2.trans sizeQ) (by norm_num [pow2, f32]))
    rwa [sub_neg_eq_add] at this
  have dy : (YM -. Ym).Is (f32.rnd (rotS σ γ (hiM σ W) (loM γ H) + rotS σ γ (loM σ W) (hiM γ H))) := by
    have := sub_is yM ym (by
      rw [sub_neg_eq_add, abs_of_nonneg (by linarith)]
      exact lt_of_le_of_lt (dy2.trans sizeQ) (by norm_num [pow2, f32]))
    rwa [sub_neg_eq_add] at this
  -- the positions
  have px : ∀ i j, i < W → j < H → |(i : Rat) - (W / 2 : Nat)| ≤ (W / 2 : Nat) ∧ |((H / 2 : Nat) : Rat) - j| ≤ (H / 2 : Nat) := by
    intro i j hi hj
    have a1 : (i : Rat) ≤ (W / 2 : Nat) + (W / 2 : Nat) := by exact_mod_cast (by omega : i ≤ W / 2 + W / 2)
    have a2 : (j : Rat) ≤ (H / 2 : Nat) + (H / 2 : Nat) := by exact_mod_cast (by omega : j ≤ H / 2 + H / 2)
    have a3 : (0 : Rat) ≤ i := by positivity
    have a4 : (0 : Rat) ≤ j := by positivity
    constructor <;> rw [abs_le] <;> constructor <;> linarith
  have w2b : ((W / 2 : Nat) : Rat) ≤ 4194304 := by exact_mod_cast (by omega : W / 2 ≤ 4194304)
  have h2b : ((H / 2 : Nat) : Rat) ≤ 4194304 := by exact_mod_cast (by omega : H / 2 ≤ 4194304)
  let cX : Nat → Nat → F32 := fun i j =>
    rotPtX c s (ofNat (F := F32) i -. ofNat (W / 2)) (ofNat (F := F32) (H / 2) -. ofNat j) +. (XM -. num 1)
  let cY : Nat → Nat → F32 := fun i j =>
    YM -. rotPtY c s (ofNat (F := F32) i -. ofNat (W / 2)) (ofNat (F := F32) (H / 2) -. ofNat j) -. num 1
  have one32 : (num 1 : F32).Is 1 := by simpa using num32 (n := 1) (by decide)
  have bigOf : ∀ {q : Rat}, |q| ≤ 16777216 → |f32.rnd q| < pow2 f32.emax := fun h => f32_ovf (le_trans h (by norm_num))
  have rnd_abs_nat : ∀ {q : Rat} {n : Nat}, n ≤ 16777216 → |q| ≤ n → |f32.rnd q| ≤ n := by
    intro q n hn hq
    have := rnd_nat_le hn hq
    rwa [show f32.rnd |q| = |f32.rnd q| from (abs_rndQ (f := f32.toRFmt) _).symm] at this
  have Sb : ∀ {a b : Rat} {m n : Nat}, RotAB a b → m + n ≤ W + H → |rotS a b m n| ≤ 4194304 := by
    intro a b m n hab hmn
    rw [abs_of_nonneg (rotS_nonneg ..)]
    have := rotS_le hab.la hab.lb (m := m) (n := n) (by omega)
    have h2 : (m : Rat) + n ≤ 4194304 := by exact_mod_cast (by omega : m + n ≤ 4194304)
    linarith
  have posX : ∀ i j, i < W → j < H → (cX i j).Is (f32.rnd (ptNum γ (-σ) ((i : Rat) - (W / 2 : Nat)) (((H / 2 : Nat) : Rat) - j) +
      f32.rnd (rotS γ (-σ) (hiM γ W) (loM (-σ) H) - 1))) := by
    intro i j hi hj
    obtain ⟨b1, b2⟩ := px i j hi hj
    have hp := rotPt_is hc (neg_is hs) (subI (a := i) (b := W / 2) (by omega) (by omega)) (subI (a := H / 2) (b := j) (by omega) (by omega))
      abx.la abx.lb (b1.trans w2b) (b2.trans h2b)
    have hp2 : ptNum γ (-σ) ((i : Rat) - (W / 2 : Nat)) (((H / 2 : Nat) : Rat) - j) ≤ 4194304 ∧
        -4194304 ≤ ptNum γ (-σ) ((i : Rat) - (W / 2 : Nat)) (((H / 2 : Nat) : Rat) - j) := by
      obtain ⟨k1, k2⟩ := ptNum_le (a := γ) (b := -σ) b1 b2
      have := Sb (m := W / 2) (n := H / 2) abx (by omega)
      rw [abs_le] at this
      constructor <;> linarith
    have s1 := Sb (m := hiM γ W) (n := loM (-σ) H) abx (by omega)
    have s2 : |rotS γ (-σ) (hiM γ W) (loM (-σ) H) - 1| ≤ (4194305 : Nat) := by
      push_cast; rw [abs_le] at s1 ⊢; constructor <;> linarith
    have s3 := rnd_abs_nat (by omega) s2
    have m1 := sub_is xM one32 (bigOf (le_trans s2 (by norm_num)))
    refine add_is hp m1 (bigOf ?_)
    push_cast at s3
    rw [abs_le] at s3 ⊢
    constructor <;> linarith
  have posY : ∀ i j, i < W → j < H → (cY i j).Is (f32.rnd (f32.rnd (rotS σ γ (hiM σ W) (loM γ H) -
      ptNum σ γ ((i : Rat) - (W / 2 : Nat)) (((H / 2 : Nat) : Rat) - j)) - 1)) := by
    intro i j hi hj
    obtain ⟨b1, b2⟩ := px i j hi hj
    have hp := rotPt_is hs hc (subI (a := i) (b := W / 2) (by omega) (by omega)) (subI (a := H / 2) (b := j) (by omega) (by omega))
      aby.la aby.lb (b1.trans w2b) (b2.trans h2b)
    have hp2 : ptNum σ γ ((i : Rat) - (W / 2 : Nat)) (((H / 2 : Nat) : Rat) - j) ≤ 4194304 ∧
        -4194304 ≤ ptNum σ γ ((i : Rat) - (W / 2 : Nat)) (((H / 2 : Nat) : Rat) - j) := by
      obtain ⟨k1, k2⟩ := ptNum_le (a := σ) (b := γ) b1 b2
      have := Sb (m := W / 2) (n := H / 2) aby (by omega)
      rw [abs_le] at this
      constructor <;> linarith
    have s1 := Sb (m := hiM σ W) (n := loM γ H) aby (by omega)
    have s2 : |rotS σ γ (hiM σ W) (loM γ H) - ptNum σ γ ((i : Rat) - (W / 2 : Nat)) (((H / 2 : Nat) : Rat) - j)| ≤ (8388608 : Nat) := by
      push_cast; rw [abs_le] at s1 ⊢; constructor <;> linarith
    have s3 := rnd_abs_nat (by omega) s2
    have m1 := sub_is yM hp (bigOf (le_trans s2 (by norm_num)))
    refine sub_is m1 one32 (bigOf ?_)
    push_cast at s3
    rw [abs_le] at s3 ⊢
    constructor <;> linarith
  have resX := fun i j (hi : i < W) (hj : j < H) => rot_toU32 (posX i j hi hj) dx dx1 (dx2.trans sizeQ) (fun k hk =>
    rot_col abx (m := hiM γ W) (m' := loM γ W) (n := loM (-σ) H) (n' := hiM (-σ) H) boundx.2.1 boundy.1 (by omega)
      ((ptNum_le (px i j hi hj).1 (px i j hi hj).2).1.trans (rotS_mono boundx.2.2.2 boundy.2.2.1)) rfl rfl dx1 hk)
  have resY := fun i j (hi : i < W) (hj : j < H) => rot_toU32 (posY i j hi hj) dy dy1 (dy2.trans sizeQ) (fun k hk =>
    rot_row (lo := rotS σ γ (loM σ W) (hiM γ H))
      (le_trans (neg_le_neg (rotS_mono boundx'.2.2.2 boundy'.2.2.1)) (ptNum_le (px i j hi hj).1 (px i j hi hj).2).2) rfl rfl dy1
      (dy2.trans sizeQ) hk)
  obtain ⟨-, -, -, -, sx1, sx2⟩ := resX 0 0 wpos hpos
  obtain ⟨-, -, -, -, sy1, sy2⟩ := resY 0 0 wpos hpos
  have wle : toU32 (XM -. Xm) ≤ rotSide γ σ W H := by
    refine Nat.le_floor ?_
    rw [abs_neg, abs_le] at dx3
    linarith [dx3.2]
  have hle : toU32 (YM -. Ym) ≤ rotSide γ σ H W := by
    refine Nat.le_floor ?_
    rw [abs_le] at dy3
    linarith [dy3.2]
  obtain ⟨b, eb, hb⟩ := Image.blank_eq P (FloatOps.rnum (F := F32)) (info_le fits wle hle)
  have hbi := hb.info_eq
  obtain ⟨out, e, wfo, inf, hv⟩ := Image.scatterR hb.WF (W := W) (H := H)
    (fun i j x' y' => (toU32 (cX i j) = x' ∨ toU32 (cX i j) = x' + 1) ∧ toU32 (cY i j) = y') (fun i j => img.px i j)
    (fun j i o => rotateStep P img (cX i j) (cY i j) i j o)
    (by
      intro i j o hi hj ow oi
      obtain ⟨rx1, -, -, rx4, -⟩ := resX i j hi hj
      obtain ⟨ry1, -⟩ := resY i j hi hj
      obtain ⟨o', e', w', i', hv'⟩ := rotateStep32 P wf (i := i) (j := j) (by omega) (by omega) ow (by rw [oi, hbi]) (posX i j hi hj)
        (by rw [oi, hbi]; exact rx1) (cy := cY i j) (by rw [oi, hbi]; exact ry1) rx4
      exact ⟨o', e', w', by rw [i', oi], fun x' y' hx' hy' => by rw [← oi] at hx' hy'; rw [hv' x' y' hx' hy']; congr⟩)
  rw [hbi] at inf hv
  refine ⟨out, fun i j => toU32 (cX i j), fun i j => toU32 (cY i j), ?_, wfo, by rw [inf], by rw [inf], ?_, ?_, ?_, ?_⟩
  · rw [eb, ok_bind]
    unfold rotateLoops
    rw [hW, hH]
    exact e
  · rw [inf]
    exact ⟨sx1, sx2⟩
  · rw [inf]
    exact ⟨sy1, sy2⟩
  · intro i j hi hj
    rw [inf]
    obtain ⟨rx1, rx2, rx3, -⟩ := resX i j hi hj
    obtain ⟨ry1, ry2, ry3, -⟩ := resY i j hi hj
    exact ⟨rx1, ry1, rx2, rx3, ry2, ry3⟩
  · intro x' y' hx' hy'
    rw [inf] at hx' hy'
    have := hv x' y' hx' hy'
    rw [hb.px_eq hx' hy'] at this
    exact this

/-- **C124** `rotate` in f32 never fails: for every non-empty image of at most `2^22` columns plus rows and every angle (whatever
values of magnitude at most one the platform's sine and cosine return, as long as `|sin| + |cos| ≥ 1`), the rotation succeeds. The output
is `W |cos| + H |sin|` columns by `H |cos| + W |sin|` rows, truncated, up to a relative error of `2^-20`; every pixel moves to the
exactly rotated position, truncated (and not below zero), up to the same error; it is written there and to the left neighbour, and an
output pixel is a copy of the last (row by row) of the pixels moved there, or zero if there is none. -/
theorem c124_rotate (P : Profile) {img : Image F32} {deg : F32} {γ σ : Rat} (h : RotateInput32 img deg γ σ) :
    ∃ out, ∃ X Y : Nat → Nat → Nat, rotate P img deg = .ok out ∧ out.WF ∧
      out.info.channels = img.info.channels ∧ out.info.alpha = img.info.alpha ∧
      (let W := img.info.width; let H := img.info.height; let ε : Rat := (W + H) / 2 ^ 20
        (W * |γ| + H * |σ| - 1 - ε < out.info.width ∧ (out.info.width : Rat) ≤ W * |γ| + H * |σ| + ε) ∧
        (H * |γ| + W * |σ| - 1 - ε < out.info.height ∧ (out.info.height : Rat) ≤ H * |γ| + W * |σ| + ε) ∧
        (∀ i j, i < W → j < H → X i j < out.info.width ∧ Y i j < out.info.height ∧
          rotColQ γ σ W H i j - 1 - ε < X i j ∧ (X i j : Rat) ≤ max 0 (rotColQ γ σ W H i j + ε) ∧
          rotRowQ γ σ W H i j - 1 - ε < Y i j ∧ (Y i j : Rat) ≤ max 0 (rotRowQ γ σ W H i j + ε)) ∧
        ∀ x' y', x' < out.info.width → y' < out.info.height →
          (∃ i j, i < W ∧ j < H ∧ ((X i j = x' ∨ X i j = x' + 1) ∧ Y i j = y') ∧ out.px x' y' = img.px i j ∧
            ∀ i₂ j₂, i₂ < W → j₂ < H → (X i₂ j₂ = x' ∨ X i₂ j₂ = x' + 1) ∧ Y i₂ j₂ = y' → j₂ < j ∨ j₂ = j ∧ i₂ ≤ i) ∨
          ((∀ i j, i < W → j < H → ¬ ((X i j = x' ∨ X i j = x' + 1) ∧ Y i j = y')) ∧
            out.px x' y' = List.replicate img.info.channels (ofU8 0))) := by
  obtain ⟨out, X, Y, e, wfo, och, oal, sx, sy, pos, px'⟩ := rotate32_core P h
  obtain ⟨wf, hc, hs, lc, ls, cs, wpos, hpos, size, fits⟩ := h
  refine ⟨out, X, Y, e, wfo, och, oal, ?_⟩
  dsimp only at *
  have abx : RotAB γ (-σ) := ⟨hc.exact, hs.exact.neg, lc, by rwa [abs_neg], by rwa [abs_neg]⟩
  have aby : RotAB σ γ := ⟨hs.exact, hc.exact, ls, lc, by rw [add_comm]; exact cs⟩
  have addx := hiM_add γ img.info.width
  have addy := hiM_add (-σ) img.info.height
  have addx' := hiM_add σ img.info.width
  have addy' := hiM_add γ img.info.height
  generalize img.info.width = W at *
  generalize img.info.height = H at *
  obtain ⟨dx1, dx2, dx3⟩ := rotD abx (m := hiM γ W) (m' := loM γ W) (n := loM (-σ) H) (n' := hiM (-σ) H) addx (by omega) wpos hpos size
  obtain ⟨dy1, dy2, dy3⟩ := rotD aby (m := hiM σ W) (m' := loM σ W) (n := loM γ H) (n' := hiM γ H) addx' (by omega) wpos hpos size
  have px : ∀ i j, i < W → j < H → |(i : Rat) - (W / 2 : Nat)| ≤ (W / 2 : Nat) ∧ |((H / 2 : Nat) : Rat) - j| ≤ (H / 2 : Nat) := by
    intro i j hi hj
    have a1 : (i : Rat) ≤ (W / 2 : Nat) + (W / 2 : Nat) := by exact_mod_cast (by omega : i ≤ W / 2 + W / 2)
    have a2 : (j : Rat) ≤ (H / 2 : Nat) + (H / 2 : Nat) := by exact_mod_cast (by omega : j ≤ H / 2 + H / 2)
    have a3 : (0 : Rat) ≤ i := by positivity
    have a4 : (0 : Rat) ≤ j := by positivity
    constructor <;> rw [abs_le] <;> constructor <;> linarith
  refine ⟨?_, ?_, ?_, px'⟩
  · rw [abs_neg, abs_le] at dx3
    constructor <;> linarith [dx3.1, dx3.2, sx.1, sx.2]
  · rw [abs_le] at dy3
    constructor <;> linarith [dy3.1, dy3.2, sy.1, sy.2]
  · intro i j hi hj
    obtain ⟨rx1, ry1, rx2, rx3, ry2, ry3⟩ := pos i j hi hj
    have ex := (rot_cx_err abx (px i j hi hj).1 (px i j hi hj).2 (m := hiM γ W) (n := loM (-σ) H) (by omega) (by omega) wpos hpos).1
    have ey := (rot_cx_err aby (px i j hi hj).1 (px i j hi hj).2 (m := hiM σ W) (n := loM γ H) (by omega) (by omega) wpos hpos).2
    have exx : γ * ((i : Rat) - (W / 2 : Nat)) + -σ * (((H / 2 : Nat) : Rat) - j) + (|γ| * hiM γ W + |-σ| * loM (-σ) H) - 1 = rotColQ γ σ W H i j := by
      unfold rotColQ rotEdge; ring
    have eyy : |σ| * hiM σ W + |γ| * loM γ H - (σ * ((i : Rat) - (W / 2 : Nat)) + γ * (((H / 2 : Nat) : Rat) - j)) - 1 = rotRowQ γ σ W H i j := by
      unfold rotRowQ rotEdge; ring
    rw [exx, abs_le] at ex
    rw [eyy, abs_le] at ey
    refine ⟨rx1, ry1, by linarith [ex.1], le_trans rx3 (max_le_max le_rfl (by linarith [ex.2])), by linarith [ey.1],
      le_trans ry3 (max_le_max le_rfl (by linarith [ey.2]))⟩
end

/-! ### correctly rounded sine and cosine -/

/-- **Specification**: `q` is an f32 number nearest to the real `r` -/
def NearestTo (q : Rat) (r : ℝ) : Prop := f32.Exact q ∧ ∀ t : Rat, f32.Exact t → |(q : ℝ) - r| ≤ |(t : ℝ) - r|

theorem NearestTo.neg {q : Rat} {r : ℝ} (h : NearestTo q r) : NearestTo (-q) (-r) := by
  refine ⟨h.1.neg, fun t ht => ?_⟩
  have := h.2 (-t) ht.neg
  rw [← abs_neg ((q : ℝ) - r), ← abs_neg (((-t : Rat) : ℝ) - r)] at this
  push_cast at this ⊢
  rw [show -((q : ℝ) - r) = -q - -r by ring, show -(-(t : ℝ) - r) = t - -r by ring] at this
  exact this

theorem NearestTo.nonneg {q : Rat} {r : ℝ} (h : NearestTo q r) (hr : 0 ≤ r) : 0 ≤ q := by
  by_contra hc
  push Not at hc
  have := h.2 0 Fmt.Exact.zero
  have hq : (q : ℝ) < 0 := by exact_mod_cast hc
  rw [abs_of_neg (by linarith), Rat.cast_zero, zero_sub, abs_neg, abs_of_nonneg hr] at this
  linarith

theorem NearestTo.abs {q : Rat} {r : ℝ} (h : NearestTo q r) : NearestTo |q| |r| := by
  rcases le_total 0 r with hr | hr
  · rw [abs_of_nonneg hr, abs_of_nonneg (h.nonneg hr)]; exact h
  · have h' := h.neg
    have := h'.nonneg (by linarith)
    rw [abs_of_nonpos hr, abs_of_nonpos (by linarith)]; exact h'

theorem NearestTo.le_one {q : Rat} {r : ℝ} (h : NearestTo q r) (hr : r ≤ 1) : q ≤ 1 := by
  by_contra hc
  push Not at hc
  have := h.2 1 exact_one
  have hq : (1 : ℝ) < q := by exact_mod_cast hc
  rw [abs_of_pos (by linarith), Rat.cast_one, abs_of_nonneg (by linarith)] at this
  linarith

theorem NearestTo.near {q : Rat} {r : ℝ} (h : NearestTo q r) (h0 : 0 ≤ r) (h1 : r ≤ 1) : |(q : ℝ) - r| ≤ 1 / 2 ^ 24 := by
  have f0 : 0 ≤ ⌊r * 2 ^ 24⌋ := Int.floor_nonneg.2 (by positivity)
  have f1 := Int.floor_le (r * 2 ^ 24)
  have f2 := Int.lt_floor_add_one (r * 2 ^ 24)
  have f3 : ⌊r * 2 ^ 24⌋ ≤ 16777216 := by
    have : ((⌊r * 2 ^ 24⌋ : Int) : ℝ) ≤ (16777216 : Int) := by push_cast; norm_num at f1 ⊢; linarith
    exact_mod_cast this
  refine le_trans (h.2 ((⌊r * 2 ^ 24⌋ : Int) / 2 ^ 24) (f32_dy (by rw [abs_of_nonneg f0]; exact f3) (by omega))) ?_
  push_cast
  rw [abs_le]
  generalize ((⌊r * 2 ^ 24⌋ : Int) : ℝ) = z at *
  norm_num at *
  constructor <;> linarith

/-- just below one the nearest number is one -/
theorem NearestTo.eq_one {q : Rat} {r : ℝ} (h : NearestTo q r) (h0 : 1 - 1 / 2 ^ 26 < r) (h1 : r ≤ 1) : 1 ≤ q := by
  by_contra hc
  push Not at hc
  have hq : (q : ℝ) < 1 := by exact_mod_cast hc
  have h2 := h.2 1 exact_one
  rw [Rat.cast_one, abs_of_nonneg (show 0 ≤ 1 - r by linarith), abs_le] at h2
  have h3 : (1 - 1 / 2 ^ 25 : ℝ) ≤ q := by norm_num at *; linarith [h2.1]
  have h4 : (1 - 1 / 2 ^ 25 : Rat) ≤ q := by
    have : ((1 - 1 / 2 ^ 25 : Rat) : ℝ) ≤ q := by push_cast; exact h3
    exact_mod_cast this
  have := rnd_up_even (q := q) (k := -24) (M := 16777216) (by omega) (by rw [pow2_eq]; norm_num at h4 ⊢; linarith)
    (by rw [pow2_eq]; norm_num; exact hc) (by decide) (by rw [pow2_eq]; norm_num at h4 ⊢; linarith)
  rw [h.1.rnd, pow2_eq] at this
  norm_num at this
  linarith

theorem nearest_sum {q t : Rat} {c s : ℝ} (hq : NearestTo q c) (ht : NearestTo t s) (c0 : 0 ≤ c) (s0 : 0 ≤ s) (hcs : c ^ 2 + s ^ 2 = 1)
    (hle : s ≤ c) : 1 ≤ q + t := by
  have c1 : c ≤ 1 := by nlinarith
  have s1 : s ≤ 1 := by nlinarith
  have q0 := hq.nonneg c0
  have t0 := ht.nonneg s0
  rcases lt_or_ge (1 - 1 / 2 ^ 26) c with hc | hc
  · linarith [hq.eq_one hc c1]
  have n1 := hq.near c0 c1
  have n2 := ht.near s0 s1
  rw [abs_le] at n1 n2
  have c7 : (7 : ℝ) / 10 ≤ c := by nlinarith
  have s7 : s ≤ 71 / 100 := by nlinarith
  have hs : (1 : ℝ) / 2 ^ 13 ≤ s := by
    have : ((1 : ℝ) / 2 ^ 13) ^ 2 ≤ s ^ 2 := by
      norm_num at hc ⊢
      nlinarith
    exact (sq_le_sq₀ (by positivity) s0).1 this
  have hsum : 1 + 1 / 2 * s ≤ c + s := by nlinarith
  have : (1 : ℝ) ≤ (q : ℝ) + t := by
    norm_num at *
    linarith [n1.1, n2.1]
  exact_mod_cast this

/-- correctly rounded values of a sine and a cosine satisfy the requirements of `c124_rotate` -/
theorem nearest_circle {γ σ : Rat} {θ : ℝ} (hc : NearestTo γ (Real.cos θ)) (hs : NearestTo σ (Real.sin θ)) :
    |γ| ≤ 1 ∧ |σ| ≤ 1 ∧ 1 ≤ |γ| + |σ| := by
  have h1 := Real.abs_cos_le_one θ
  have h2 := Real.abs_sin_le_one θ
  have h3 := Real.cos_sq_add_sin_sq θ
  rw [← sq_abs (Real.cos θ), ← sq_abs (Real.sin θ)] at h3
  refine ⟨hc.abs.le_one h1, hs.abs.le_one h2, ?_⟩
  rcases le_total |Real.sin θ| |Real.cos θ| with h | h
  · exact nearest_sum hc.abs hs.abs (abs_nonneg _) (abs_nonneg _) h3 h
  · rw [add_comm]
    exact nearest_sum hs.abs hc.abs (abs_nonneg _) (abs_nonneg _) (by linarith) h

section
variable [Libm f32]

/-- **Specification**: the largest side the output may get for the angle `θ` (in radians) -/
noncomputable def rotSideReal (θ : ℝ) (m n : Nat) : Nat := ⌊(m : ℝ) * |Real.cos θ| + n * |Real.sin θ| + (m + n) / 2 ^ 19⌋₊

theorem rotSide_le {γ σ : Rat} {θ : ℝ} (nc : NearestTo γ (Real.cos θ)) (ns : NearestTo σ (Real.sin θ)) (m n : Nat) :
    rotSide γ σ m n ≤ rotSideReal θ m n := by
  have n1 := (abs_le.1 (nc.abs.near (abs_nonneg _) (Real.abs_cos_le_one θ))).2
  have n2 := (abs_le.1 (ns.abs.near (abs_nonneg _) (Real.abs_sin_le_one θ))).2
  refine Nat.le_floor ?_
  have h : (rotSide γ σ m n : Rat) ≤ (m : Rat) * |γ| + n * |σ| + (m + n) / 2 ^ 20 := Nat.floor_le (by positivity)
  replace h := (Rat.cast_le (K := ℝ)).2 h
  push_cast at h n1 n2
  have m0 : (0 : ℝ) ≤ m := by positivity
  have n0 : (0 : ℝ) ≤ n := by positivity
  have k1 := mul_le_mul_of_nonneg_left n1 m0
  have k2 := mul_le_mul_of_nonneg_left n2 n0
  linarith

/-- **C124** On a platform whose sine and cosine are correctly rounded, `rotate` in f32 succeeds for every finite angle and every
non-empty image of at most `2^22` columns plus rows; the output has the size of the exactly rotated rectangle, truncated, up to a
relative error of `2^-19`. -/
theorem c124_every_angle (P : Profile) {img : Image F32} (h : img.WF) (hw : 0 < img.info.width) (hh : 0 < img.info.height)
    (hsize : img.info.width + img.info.height ≤ 4194304)
    {deg : F32} {θ γ σ : Rat} (_hθ : (FloatOps.toRadians deg).Is θ)
    (fits : ImageInfo.WF ⟨rotSideReal θ img.info.width img.info.height, rotSideReal θ img.info.height img.info.width, img.info.channels, img.info.alpha⟩)
    (hc : (FloatOps.cos (FloatOps.toRadians deg)).Is γ) (hs : (FloatOps.sin (FloatOps.toRadians deg)).Is σ)
    (nc : NearestTo γ (Real.cos θ)) (ns : NearestTo σ (Real.sin θ)) :
    ∃ out, rotate P img deg = .ok out ∧ out.WF ∧ out.info.channels = img.info.channels ∧ out.info.alpha = img.info.alpha ∧
      (let W : ℝ := img.info.width; let H : ℝ := img.info.height; let ε : ℝ := (W + H) / 2 ^ 19
        W * |Real.cos θ| + H * |Real.sin θ| - 1 - ε < out.info.width ∧ (out.info.width : ℝ) ≤ W * |Real.cos θ| + H * |Real.sin θ| + ε ∧
        H * |Real.cos θ| + W * |Real.sin θ| - 1 - ε < out.info.height ∧ (out.info.height : ℝ) ≤ H * |Real.cos θ| + W * |Real.sin θ| + ε) := by
  obtain ⟨l1, l2, l3⟩ := nearest_circle nc ns
  obtain ⟨out, X, Y, e, wf, ch, al, ⟨x1, x2⟩, ⟨y1, y2⟩, -⟩ := c124_rotate P (γ := γ) (σ := σ) ⟨h, hc, hs, l1, l2, l3, hw, hh, hsize,
    info_le fits (rotSide_le nc ns _ _) (rotSide_le nc ns _ _)⟩
  refine ⟨out, e, wf, ch, al, ?_⟩
  dsimp only at *
  have n1 := nc.abs.near (abs_nonneg _) (Real.abs_cos_le_one θ)
  have n2 := ns.abs.near (abs_nonneg _) (Real.abs_sin_le_one θ)
  replace x1 := (Rat.cast_lt (K := ℝ)).2 x1
  replace x2 := (Rat.cast_le (K := ℝ)).2 x2
  replace y1 := (Rat.cast_lt (K := ℝ)).2 y1
  replace y2 := (Rat.cast_le (K := ℝ)).2 y2
  have w0 : (0 : ℝ) ≤ img.info.width := by positivity
  have h0 : (0 : ℝ) ≤ img.info.height := by positivity
  push_cast at x1 x2 y1 y2 n1 n2
  rw [abs_le] at n1 n2
  generalize (img.info.width : ℝ) = W at *
  generalize (img.info.height : ℝ) = H at *
  generalize |(γ : ℝ)| = g at *
  generalize |(σ : ℝ)| = t at *
  generalize |Real.cos θ| = c at *
  generalize |Real.sin θ| = s at *
  have b : ∀ {A B : ℝ}, 0 ≤ A → -(1 / 2 ^ 24) ≤ B ∧ B ≤ 1 / 2 ^ 24 → -(A / 2 ^ 24) ≤ A * B ∧ A * B ≤ A / 2 ^ 24 := by
    intro A B hA ⟨h1, h2⟩
    have k1 := mul_le_mul_of_nonneg_left h1 hA
    have k2 := mul_le_mul_of_nonneg_left h2 hA
    constructor <;> linarith
  have b1 := b w0 n1
  have b2 := b w0 n2
  have b3 := b h0 n1
  have b4 := b h0 n2
  refine ⟨?_, ?_, ?_, ?_⟩ <;> linarith [b1.1, b1.2, b2.1, b2.2, b3.1, b3.2, b4.1, b4.2]
end

/-! ### examples -/

theorem rotSide_bound {a b : Rat} (ha : |a| ≤ 1) (hb : |b| ≤ 1) (m n : Nat) : rotSide a b m n ≤ 2 * (m + n) := by
  refine Nat.cast_le (α := Rat) |>.1 (le_trans (Nat.floor_le (by positivity)) ?_)
  have k1 := mul_le_mul_of_nonneg_left ha (Nat.cast_nonneg (α := Rat) m)
  have k2 := mul_le_mul_of_nonneg_left hb (Nat.cast_nonneg (α := Rat) n)
  have m0 := Nat.cast_nonneg (α := Rat) m
  have n0 := Nat.cast_nonneg (α := Rat) n
  push_cast
  linarith

theorem rotSideReal_bound (θ : ℝ) (m n : Nat) : rotSideReal θ m n ≤ 2 * (m + n) := by
  refine Nat.cast_le (α := ℝ) |>.1 (le_trans (Nat.floor_le (by positivity)) ?_)
  have k1 := mul_le_mul_of_nonneg_left (Real.abs_cos_le_one θ) (Nat.cast_nonneg (α := ℝ) m)
  have k2 := mul_le_mul_of_nonneg_left (Real.abs_sin_le_one θ) (Nat.cast_nonneg (α := ℝ) n)
  have m0 := Nat.cast_nonneg (α := ℝ) m
  have n0 := Nat.cast_nonneg (α := ℝ) n
  push_cast
  linarith

/-- there is a nearest number -/
theorem nearest_exists {r : ℝ} (hr : |r| ≤ 1) : ∃ q, NearestTo q r := by
  classical
  obtain ⟨N, hN⟩ : ∃ N : Int, N = 16777216 := ⟨_, rfl⟩
  obtain ⟨E, hE⟩ : ∃ E : Int, E = -149 := ⟨_, rfl⟩
  let S : Finset Rat := ((Finset.Icc (-N) N) ×ˢ (Finset.Icc E 0)).image fun p => (p.1 : Rat) * pow2 p.2
  have hp0 : pow2 0 = 1 := by norm_num [pow2]
  have mem : ∀ {t : Rat}, f32.Exact t → |t| ≤ 1 → t ∈ S := by
    rintro t ⟨⟨m, e, rfl, hm, he⟩, -⟩ ht
    have hm' : |m| ≤ 16777216 := by simpa [f32] using hm
    have he' : (-149 : Int) ≤ e := he
    rcases le_or_gt e 0 with h0 | h0
    · refine Finset.mem_image.2 ⟨(m, e), ?_, rfl⟩
      rw [Finset.mem_product, Finset.mem_Icc, Finset.mem_Icc]
      rw [abs_le] at hm'
      rw [hN, hE]
      exact ⟨hm', he', h0⟩
    · refine Finset.mem_image.2 ⟨(m * 2 ^ e.toNat, 0), ?_, ?_⟩
      · rw [Finset.mem_product, Finset.mem_Icc, Finset.mem_Icc]
        rw [pow2_int h0.le] at ht
        have : |m * 2 ^ e.toNat| ≤ 1 := by
          have : |((m * 2 ^ e.toNat : Int) : Rat)| ≤ 1 := by push_cast; push_cast at ht; exact ht
          exact_mod_cast this
        rw [abs_le] at this
        dsimp only
        omega
      · dsimp only
        rw [hp0, pow2_int h0.le]; push_cast; ring
  have ex : ∀ t ∈ S, f32.Exact t := by
    intro t ht
    obtain ⟨⟨m, e⟩, hme, rfl⟩ := Finset.mem_image.1 ht
    rw [Finset.mem_product, Finset.mem_Icc, Finset.mem_Icc] at hme
    rw [hN, hE] at hme
    obtain ⟨⟨a1, a2⟩, a3, a4⟩ := hme
    refine ⟨RepQ.dyadic (by rw [abs_le]; simpa [f32] using And.intro a1 a2) a3, ?_⟩
    dsimp only at *
    rw [abs_mul, abs_of_pos (pow2_pos e)]
    have : pow2 e ≤ 1 := by rw [← hp0, pow2_le]; exact a4
    have hm : |(m : Rat)| ≤ 16777216 := by
      have : |m| ≤ 16777216 := by rw [abs_le]; exact ⟨a1, a2⟩
      exact_mod_cast this
    refine lt_of_le_of_lt (mul_le_mul hm this (pow2_pos e).le (by norm_num)) ?_
    norm_num [pow2, f32]
  obtain ⟨q, hq, hmin⟩ := Finset.exists_min_image S (fun t => |(t : ℝ) - r|) ⟨0, mem Fmt.Exact.zero (by norm_num)⟩
  refine ⟨q, ex q hq, fun t ht => ?_⟩
  rcases le_or_gt |t| 1 with h1 | h1
  · exact hmin t (mem ht h1)
  · rw [abs_le] at hr
    rcases lt_abs.1 h1 with h2 | h2
    · refine le_trans (hmin 1 (mem exact_one (by norm_num))) ?_
      have : (1 : ℝ) < t := by exact_mod_cast h2
      rw [Rat.cast_one, abs_of_nonneg (by linarith), abs_of_nonneg (by linarith)]
      linarith
    · refine le_trans (hmin (-1) (mem exact_one.neg (by norm_num))) ?_
      have : (1 : ℝ) < -t := by exact_mod_cast h2
      rw [Rat.cast_neg, Rat.cast_one, abs_of_nonpos (by linarith), abs_of_nonpos (by linarith)]
      linarith

open Classical in
/-- a platform with correctly rounded sine and cosine -/
@[reducible] noncomputable def roundedLibm : Libm f32 where
  pow x _ := x
  sin x := match x.val.toQ? with | some a => Flt.ofRat f32 (nearest_exists (Real.abs_sin_le_one a)).choose | none => x
  cos x := match x.val.toQ? with | some a => Flt.ofRat f32 (nearest_exists (Real.abs_cos_le_one a)).choose | none => x

theorem roundedLibm_spec {x : F32} {θ : Rat} (hx : x.Is θ) : letI := roundedLibm
    ∃ γ σ : Rat, (FloatOps.cos x).Is γ ∧ (FloatOps.sin x).Is σ ∧ NearestTo γ (Real.cos θ) ∧ NearestTo σ (Real.sin θ) := by
  let := roundedLibm
  have hx' : x.val.toQ? = some θ := hx
  have n1 := (nearest_exists (Real.abs_cos_le_one θ)).choose_spec
  have n2 := (nearest_exists (Real.abs_sin_le_one θ)).choose_spec
  refine ⟨_, _, ?_, ?_, n1, n2⟩
  · have e : (FloatOps.cos x : F32) = Flt.ofRat f32 (nearest_exists (Real.abs_cos_le_one θ)).choose := by
      show roundedLibm.cos x = _
      unfold roundedLibm
      simp only [hx']
    rw [e]; exact Flt.ofRat_exact n1.1
  · have e : (FloatOps.sin x : F32) = Flt.ofRat f32 (nearest_exists (Real.abs_sin_le_one θ)).choose := by
      show roundedLibm.sin x = _
      unfold roundedLibm
      simp only [hx']
    rw [e]; exact Flt.ofRat_exact n2.1

/-- a 3 by 2 image rotated by 30 degrees -/
example (P : Profile) : letI := roundedLibm
    ∃ out, rotate P (gray6 (num 1) (num 2) (num 3) (num 4) (num 5) (num 6)) (num 30 : F32) = .ok out ∧ out.WF := by
  let := roundedLibm
  have hpi : ∃ p, (FloatOps.pi : F32).Is p ∧ |p| ≤ 4 := by
    have : f32.Exact (13176795 / 4194304 : Rat) := by
      have := f32_dy (m := 13176795) (k := 22) (by decide) (by omega)
      norm_num at this ⊢; exact this
    exact ⟨_, lit_exact this, by norm_num [abs_le]⟩
  obtain ⟨p, hp, lp⟩ := hpi
  have b1 : |p / ((180 : Int) : Rat)| ≤ 1 := by
    rw [abs_div]; push_cast
    rw [abs_of_pos (show (0 : Rat) < 180 by norm_num), div_le_one (by norm_num)]
    linarith
  have d := div_is hp (num32 (n := 180) (by decide)) (by norm_num) (f32_ovf (le_trans b1 (by norm_num)))
  have b2 : |f32.rnd (p / ((180 : Int) : Rat))| ≤ 1 := by
    rw [show |f32.rnd (p / ((180 : Int) : Rat))| = f32.rnd |p / ((180 : Int) : Rat)| from abs_rndQ (f := f32.toRFmt) _]
    exact rndQ_le exact_one.1 b1
  have m := mul_is (num32 (n := 30) (by decide)) d (f32_ovf (by
    rw [abs_mul]
    refine le_trans (mul_le_mul_of_nonneg_left b2 (abs_nonneg _)) ?_
    norm_num [abs_le]))
  obtain ⟨γ, σ, hc, hs, nc, ns⟩ := roundedLibm_spec m
  obtain ⟨out, e, wf, -⟩ := c124_every_angle P (img := gray6 (num 1) (num 2) (num 3) (num 4) (num 5) (num 6)) (gray6_WF ..) (by dims) (by dims) (by dims)
    m (info_le (w' := 10) (h' := 10) ⟨by dims, by dims, by dims, by dims, by dims⟩ (rotSideReal_bound ..) (rotSideReal_bound ..)) hc hs nc ns
  exact ⟨out, e, wf⟩

/-- a platform that returns 0.8 and 0.6 -/
@[reducible] def constLibm : Libm f32 where
  pow x _ := x
  sin _ := Flt.ofRat f32 (10066330 / 16777216)
  cos _ := Flt.ofRat f32 (13421773 / 16777216)

example (P : Profile) (deg : F32) : letI := constLibm
    RotateInput32 (gray6 (num 1) (num 2) (num 3) (num 4) (num 5) (num 6)) deg (13421773 / 16777216) (10066330 / 16777216) ∧
    ∃ out, rotate P (gray6 (num 1) (num 2) (num 3) (num 4) (num 5) (num 6)) deg = .ok out ∧ out.info.width = 3 := by
  let := constLibm
  have h : RotateInput32 (gray6 (num 1) (num 2) (num 3) (num 4) (num 5) (num 6)) deg (13421773 / 16777216) (10066330 / 16777216) :=
    { wf := gray6_WF ..
      c := Flt.ofRat_exact (by have := f32_dy (m := 13421773) (k := 24) (by decide) (by omega); norm_num at this ⊢; exact this)
      s := Flt.ofRat_exact (by have := f32_dy (m := 10066330) (k := 24) (by decide) (by omega); norm_num at this ⊢; exact this)
      lc := by norm_num [abs_le]
      ls := by norm_num [abs_le]
      cs := by rw [abs_of_pos (by norm_num), abs_of_pos (by norm_num)]; norm_num
      wpos := by dims
      hpos := by dims
      size := by dims
      fits := info_le (w' := 10) (h' := 10) ⟨by dims, by dims, by dims, by dims, by dims⟩
        (rotSide_bound (by norm_num [abs_le]) (by norm_num [abs_le]) _ _) (rotSide_bound (by norm_num [abs_le]) (by norm_num [abs_le]) _ _) }
  refine ⟨h, ?_⟩
  obtain ⟨out, X, Y, e, -, -, -, ⟨x1, x2⟩, -⟩ := c124_rotate P h
  refine ⟨out, e, ?_⟩
  rw [abs_of_pos (by norm_num), abs_of_pos (by norm_num)] at x1 x2
  have hw : (gray6 (num 1 : F32) (num 2) (num 3) (num 4) (num 5) (num 6)).info.width = 3 := rfl
  have hh : (gray6 (num 1 : F32) (num 2) (num 3) (num 4) (num 5) (num 6)).info.height = 2 := rfl
  rw [hw, hh] at x1 x2
  have a1 : (2 : Rat) < out.info.width := lt_trans (by norm_num) x1
  have a2 : (out.info.width : Rat) < 4 := lt_of_le_of_lt x2 (by norm_num)
  have a1' : 2 < out.info.width := by exact_mod_cast a1
  have a2' : out.info.width < 4 := by exact_mod_cast a2
  omega
end Imgproc

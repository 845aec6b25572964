import Verif.Proofs.MedianRows
/-! One block of columns of the median filter. -/
namespace Imgproc

theorem rowG_lt (img : Image UInt8) (r x0 c y i : Nat) : rowG img r x0 c y i < 256 := Image.value_lt _ _ _ _

section
variable (P : Profile) {img : Image UInt8} {r h x0 : Nat} (F : MedianFits img r h) (hx0 : x0 < img.info.width)
include F hx0

theorem rowMed_img {hists : List MedianHist} {C : Nat → Nat → Nat → Int} {S : Nat → Nat → Int} {piv : Nat → Nat → Nat}
    (A : AllHold hists img.info.channels r h C S piv) (hC : ∀ c a b, 0 ≤ C c a b) (hS : ∀ c k, S c k = below (C c k) (piv c k))
    (hp : ∀ c k, piv c k < 256)
    (htot : ∀ c k, below (C c k) 256 ≤ (2 * r + 1) * (2 * r + 1) + (2 * r + 1)) {y : Nat} (hy : y < img.info.height) (add : Bool) :
    ∃ hs, rowMed P hists (rowAt img r x0 (2 * h + (2 * r + 1)) y) add = .ok hs ∧
      AllHold hs img.info.channels r h (fun c a b => C c a b + sign add * rowCount (rowG img r x0 c y) (2 * r + 1) a b)
        (fun c k => below (fun b => C c k b + sign add * rowCount (rowG img r x0 c y) (2 * r + 1) k b) (piv c k)) piv := by
  have hN := F.fitN
  obtain ⟨hs, e, B⟩ := rowMed_rule P A (M := (2 * r + 1) * (2 * r + 1) + (2 * r + 1)) (fun c a b _ hb => by
      rw [abs_of_nonneg (hC c a b)]
      exact (le_below (hC c a) hb).trans (htot c a))
    (fun c k _ => by
      rw [hS, abs_of_nonneg (below_nonneg (hC c k) _)]
      exact (below_mono (hC c k) (hp c k).le).trans (htot c k)) (by
        have : (2 * (((2 * r + 1) * (2 * r + 1) + (2 * r + 1) : Nat) : Int)) + h + (2 * r + 1) + 4 < 2147483648 := by exact_mod_cast hN
        push_cast at this; exact this)
    (fun c hc => rowVals_rowAt F.wf F.width hy hc) add
  refine ⟨hs, e, B.congr (fun _ _ _ _ _ _ => rfl) (fun c k _ _ => ?_) (fun _ _ _ _ => rfl) hp⟩
  rw [below_add, rowBelow_eq, hS]

/-- slide the window one row down -/
theorem slide {hists : List MedianHist} {piv : Nat → Nat → Nat} (hp : ∀ c k, piv c k < 256) {y : Nat} (hy : y + 1 < img.info.height)
    (A : AllHold hists img.info.channels r h (fun c => winCount img r x0 c y) (fun c k => below (winCount img r x0 c y k) (piv c k)) piv) :
    ∃ h1 h2, rowMed P hists (rowAt img r x0 (2 * h + (2 * r + 1)) (clampCoord img.info.height (((y + 1 : Nat) : Int) + r))) true = .ok h1 ∧
      rowMed P h1 (rowAt img r x0 (2 * h + (2 * r + 1)) (clampCoord img.info.height (((y + 1 : Nat) : Int) - r - 1))) false = .ok h2 ∧
      AllHold h2 img.info.channels r h (fun c => winCount img r x0 c (y + 1)) (fun c k => below (winCount img r x0 c (y + 1) k) (piv c k)) piv := by
  obtain ⟨h1, e1, B1⟩ := rowMed_img P F hx0 A (fun c a b => winCount_nonneg _ _ _ _ _ _ _) (fun _ _ => rfl) hp
    (fun c k => by rw [below_winCount]; push_cast; omega) (clampCoord_lt F.height (((y + 1 : Nat) : Int) + r)) true
  obtain ⟨h2, e2, B2⟩ := rowMed_img P F hx0 B1
    (fun c a b => by
      have := winCount_nonneg img r x0 c y a b
      have := (rowCount_bounds (rowG img r x0 c (clampCoord img.info.height (((y + 1 : Nat) : Int) + r))) (2 * r + 1) a b).1
      unfold sign; simp only [if_true]; omega) (fun _ _ => rfl) hp
    (fun c k => by
      rw [below_add, below_winCount, below_rowCount (rowG_lt _ _ _ _ _)]
      unfold sign; push_cast; simp) (clampCoord_lt F.height (((y + 1 : Nat) : Int) - r - 1)) false
  have E : ∀ c k b, winCount img r x0 c y k b + sign true * rowCount (rowG img r x0 c (clampCoord img.info.height (((y + 1 : Nat) : Int) + r))) (2 * r + 1) k b
      + sign false * rowCount (rowG img r x0 c (clampCoord img.info.height (((y + 1 : Nat) : Int) - r - 1))) (2 * r + 1) k b = winCount img r x0 c (y + 1) k b := by
    intro c k b
    rw [winCount_succ]; unfold sign; simp only [if_true]; simp; ring
  refine ⟨h1, h2, e1, e2, B2.congr (fun c a b _ _ _ => E c a b) (fun c k _ _ => ?_) (fun _ _ _ _ => rfl) hp⟩
  unfold below
  exact Finset.sum_congr rfl fun v _ => E c k v

variable {μ : Nat → Nat → Nat → Nat} (hμ : ∀ c k y, μ c k y < 256) {center : Int} (hcen : center = ((2 * r + 1) * (2 * r + 1) / 2 + 1 : Nat))
  (hμ1 : ∀ c k y, c < img.info.channels → y < img.info.height → below (winCount img r x0 c y k) (μ c k y) < center)
  (hμ2 : ∀ c k y, c < img.info.channels → y < img.info.height → center ≤ below (winCount img r x0 c y k) (μ c k y + 1))
include hμ hcen hμ1 hμ2

/-- `process_row_med` -/
theorem processRow_ok {hists : List MedianHist} {y : Nat} (hy : y < img.info.height) {piv : Nat → Nat → Nat} (hp : ∀ c k, piv c k < 256)
    (A : AllHold hists img.info.channels r h (fun c => winCount img r x0 c y) (fun c k => below (winCount img r x0 c y k) (piv c k)) piv)
    {out : Image UInt8} {f : Nat → Nat → List UInt8} (hs : out.Shows img.info f) :
    ∃ s, processRowMed P out hists center (2 * h + 1) x0 y = .ok s ∧
      AllHold s.2 img.info.channels r h (fun c => winCount img r x0 c y)
        (fun c k => below (winCount img r x0 c y k) (nextPivot (winCount img r x0 c y k) center (piv c k) (μ c k y)))
        (fun c k => nextPivot (winCount img r x0 c y k) center (piv c k) (μ c k y)) ∧
      s.1.Shows img.info (fun x' y' => if y' = y ∧ x0 ≤ x' ∧ x' < x0 + (2 * h + 1) then
        (List.range img.info.channels).map (fun c => UInt8.ofNat
          (nextPivot (winCount img r x0 c y (if x' = img.info.width - 1 then 2 * h else x' - x0)) center
            (piv c (if x' = img.info.width - 1 then 2 * h else x' - x0)) (μ c (if x' = img.info.width - 1 then 2 * h else x' - x0) y))) else f x' y') := by
  have hN := F.fitN
  have hW := F.fitW
  have hT : ∀ c k, nextPivot (winCount img r x0 c y k) center (piv c k) (μ c k y) < 256 := by
    intro c k; unfold nextPivot; split; exacts [hp c k, hμ c k y]
  have hsq : 0 < (2 * r + 1) * (2 * r + 1) := Nat.mul_pos (by omega) (by omega)
  have htot : ∀ c k, below (winCount img r x0 c y k) 256 = ((2 * r + 1) * (2 * r + 1) : Nat) := by
    intro c k; rw [below_winCount]; push_cast; rfl
  generalize hq : (2 * r + 1) * (2 * r + 1) = q at *
  obtain ⟨s, e, B, D⟩ := column_loop P (x0 := x0) (y := y) (T := fun c k => nextPivot (winCount img r x0 c y k) center (piv c k) (μ c k y))
    (body := fun i _ h pOut => do
      let pivot ← idx h.pivots i
      let sum ← idx h.sums i
      if sum = center then .ok (h, pOut ++ [pivot])
      else
        let r ← if sum < center then scanUp P h.data center i (keysFrom pivot.toNat) sum
          else scanDown P h.data center i (List.range pivot.toNat).reverse sum
        match r with
        | none => .ok (h, pOut)
        | some (key, sum) => do
          let h' ← h.setSum sum i
          .ok (h', pOut ++ [UInt8.ofNat key]))
    (by
      intro i c H S' piv' hi hc A' hS' hpiv' pOut
      have := rowScan P A' hi (fun v => winCount_nonneg _ _ _ _ _ _ _) (center := center) (by omega) (by rw [htot]; omega) (by rw [htot]; omega)
        (by rw [hS', hpiv']) (hμ1 c i y hc hy) (hμ2 c i y hc hy) pOut
      rw [hpiv'] at this
      exact this)
    hT A hs rfl hx0 (by omega) hy
  refine ⟨s, e, B.congr (fun _ _ _ _ _ _ => rfl) (fun c k _ hk => by rw [if_pos hk]) (fun c k _ hk => by rw [if_pos hk]) hT, D⟩

/-- `init_cols_med` -/
theorem initCols_ok {out : Image UInt8} {f : Nat → Nat → List UInt8} (hs : out.Shows img.info f) :
    ∃ s, initColsMed P img out (List.replicate img.info.channels (MedianHist.new r (2 * h + 1))) r center (2 * h + 1) x0 = .ok s ∧
      AllHold s.2 img.info.channels r h (fun c => winCount img r x0 c 0)
        (fun c k => below (winCount img r x0 c 0 k) (μ c k 0)) (fun c k => μ c k 0) ∧
      s.1.Shows img.info (fun x' y' => if y' = 0 ∧ x0 ≤ x' ∧ x' < x0 + (2 * h + 1) then
        (List.range img.info.channels).map (fun c => UInt8.ofNat (μ c (if x' = img.info.width - 1 then 2 * h else x' - x0) 0)) else f x' y') := by
  have hN := F.fitN
  have hW := F.fitW
  have hH := F.fitH
  have hH0 := F.height
  have hsq : 0 < (2 * r + 1) * (2 * r + 1) := Nat.mul_pos (by omega) (by omega)
  have htot : ∀ c k, below (winCount img r x0 c 0 k) 256 = ((2 * r + 1) * (2 * r + 1) : Nat) := by
    intro c k; rw [below_winCount]; push_cast; rfl
  have hrq : 2 * r + 1 ≤ (2 * r + 1) * (2 * r + 1) := Nat.le_mul_of_pos_left _ (by omega)
  generalize hq : (2 * r + 1) * (2 * r + 1) = q at *
  unfold initColsMed
  rw [toI32_of_lt (x := r) (by omega), i32Add_ok (by omega) (by omega), ok_bind, wrapInt_ok (by omega) (by omega), ok_bind]
  unfold forRangeI
  rw [show ((r : Int) + 1 - -(r : Int)).toNat = 2 * r + 1 by omega]
  obtain ⟨hists, e, hl, B⟩ := forRange_rule (a := 0) (b := 2 * r + 1) (s := List.replicate img.info.channels (MedianHist.new r (2 * h + 1)))
    (f := fun k hists => do
      let hm ← i32Sub P (toI32 img.info.height) 1
      let row ← (do
        let lo ← i32Sub P (toI32 x0) (r : Int)
        let a ← u32Add P x0 (usizeToU32 (2 * h + 1))
        let b ← u32Add P a r
        forRange 0 (toI32 b - lo).toNat [] fun k' row => do
          let wm ← i32Sub P (toI32 img.info.width) 1
          let ic ← intClamp (lo + (k' : Int)) 0 wm
          let jc ← intClamp (-(r : Int) + (k : Int)) 0 hm
          let p ← img.getPixelUnchecked P (i32ToU32 ic) (i32ToU32 jc)
          .ok (row ++ [p]))
      rowMed P hists row true)
    (fun m s => s.length = img.info.channels ∧ ∀ c H, s[c]? = some H → H.sums = List.replicate (2 * h + 1) 0 ∧ H.pivots = [] ∧
      Holds H.data r h fun a b => ∑ t ∈ Finset.range m, rowCount (rowG img r x0 c (clampCoord img.info.height (((0 : Nat) : Int) + t - r))) (2 * r + 1) a b)
    (Nat.zero_le _)
    ⟨by simp, fun c H hc => by
      have hH := List.mem_of_getElem? hc
      rw [List.mem_replicate] at hH
      rw [hH.2]
      exact ⟨rfl, rfl, Holds.new r h⟩⟩
    (by
      rintro m s _ hm ⟨hl, B⟩
      rw [toI32_of_lt (x := img.info.height) (by omega), i32Sub_ok (by omega) (by omega), ok_bind, intClamp_coord hH0]
      have hlt := clampCoord_lt hH0 (-(r : Int) + (m : Int))
      have hrow := collectRow P F hx0 (y := i32ToU32 (clampCoord img.info.height (-(r : Int) + (m : Int)))) (by rw [i32ToU32_natCast (by omega)]; exact hlt) []
        (.ok _) rfl
      rw [toI32_of_lt (x := r) (by omega)] at hrow
      unfold forRangeI at hrow
      simp only [ok_bind] at hrow ⊢
      rw [hrow, ok_bind, List.nil_append, i32ToU32_natCast (by omega)]
      have hcl : clampCoord img.info.height (-(r : Int) + (m : Int)) = clampCoord img.info.height (((0 : Nat) : Int) + m - r) :=
        congrArg _ (by push_cast; ring)
      rw [hcl]
      rw [hcl] at hlt
      obtain ⟨l, e, h1, h2⟩ := forEnum_map_rule (l := s)
        (f := fun c H => H.update P (rowAt img r x0 (2 * h + (2 * r + 1)) (clampCoord img.info.height (((0 : Nat) : Int) + m - r))) c true)
        (fun c H => H.sums = List.replicate (2 * h + 1) 0 ∧ H.pivots = [] ∧
          Holds H.data r h fun a b => ∑ t ∈ Finset.range (m + 1), rowCount (rowG img r x0 c (clampCoord img.info.height (((0 : Nat) : Int) + t - r))) (2 * r + 1) a b)
        (by
          intro c H hc
          have hcn : c < img.info.channels := by
            rcases Nat.lt_or_ge c img.info.channels with h | h
            · exact h
            · rw [List.getElem?_eq_none (by omega)] at hc; cases hc
          obtain ⟨b1, b2, b3⟩ := B c H hc
          obtain ⟨H', e, c1, c2, c3⟩ := MedianHist.update_init P b3 b2 (M := q) (fun a b _ _ => by
              have hnn : ∀ t, 0 ≤ rowCount (rowG img r x0 c (clampCoord img.info.height (((0 : Nat) : Int) + (t : Nat) - r))) (2 * r + 1) a b :=
                fun t => (rowCount_bounds _ _ _ _).1
              rw [abs_of_nonneg (Finset.sum_nonneg fun t _ => hnn t)]
              refine (Finset.sum_le_sum fun t _ => (rowCount_bounds _ _ _ _).2).trans ?_
              rw [Finset.sum_const, Finset.card_range, nsmul_eq_mul, ← hq]
              push_cast
              exact mul_le_mul_of_nonneg_right (by exact_mod_cast hm.le) (by positivity))
            (by omega) (rowVals_rowAt F.wf F.width hlt hcn) true
          refine ⟨H', e, c1.trans b1, c2, c3.congr fun a b _ _ => ?_⟩
          rw [Finset.sum_range_succ]
          unfold sign
          rw [if_pos rfl, one_mul])
      exact ⟨l, e, h1.trans hl, h2⟩)
  rw [e, ok_bind]
  have A : AllHold (hists.map MedianHist.initPivots) img.info.channels r h (fun c => winCount img r x0 c 0)
      (fun c k => below (winCount img r x0 c 0 k) 0) (fun c k => 0) := by
    refine ⟨by simpa using hl, fun c H hc => ?_⟩
    rw [List.getElem?_map] at hc
    cases hcc : hists[c]? with
    | none => rw [hcc] at hc; cases hc
    | some H0 =>
      rw [hcc] at hc
      injection hc with hc
      subst hc
      obtain ⟨b1, b2, b3⟩ := B c H0 hcc
      refine ⟨b3, ?_, ?_, fun _ => by show 0 < 256; omega⟩
      · show H0.sums = _
        rw [b1]; simp only [below_zero, List.map_const', List.length_range]
      · show List.replicate H0.data.nCols 0 = _
        rw [b3.nCols]
        rw [show (fun _ : Nat => UInt8.ofNat 0) = Function.const Nat 0 from rfl, List.map_const, List.length_range]
  obtain ⟨s, e, B, D⟩ := column_loop P (x0 := x0) (y := 0) (T := fun c k => μ c k 0)
    (body := fun i _ h pOut => do
      let r ← scanUp P h.data center i (keysFrom 0) 0
      match r with
      | none => .ok (h, pOut)
      | some (key, sum) => do
        let h' ← h.setSum sum i
        .ok (h', pOut ++ [UInt8.ofNat key]))
    (by
      intro i c H S' piv' hi hc A' hS' hpiv' pOut
      exact initScan P A' hi (fun v => winCount_nonneg _ _ _ _ _ _ _) (center := center) (by omega) (by rw [htot]; omega) (by rw [htot]; omega)
        (hμ1 c i 0 hc hH0) (hμ2 c i 0 hc hH0) pOut)
    (fun c k => hμ c k 0) A hs rfl hx0 (by omega) hH0
  refine ⟨s, e, B.congr (fun _ _ _ _ _ _ => rfl) (fun c k _ hk => by rw [if_pos hk]) (fun c k _ hk => by rw [if_pos hk]) (fun c k => hμ c k 0), D⟩

/-- `process_cols_med` -/
theorem processCols_ok {out : Image UInt8} {f : Nat → Nat → List UInt8} (hs : out.Shows img.info f) :
    ∃ out', processColsMed P img out r (2 * h + 1) x0 = .ok out' ∧
      out'.Shows img.info (fun x' y' => if x0 ≤ x' ∧ x' < x0 + (2 * h + 1) then
        (List.range img.info.channels).map (fun c => UInt8.ofNat
          (trace img r x0 center μ c (if x' = img.info.width - 1 then 2 * h else x' - x0) y')) else f x' y') := by
  have hN := F.fitN
  have hW := F.fitW
  have hH := F.fitH
  have hH0 := F.height
  obtain ⟨s0, e0, A0, D0⟩ := initCols_ok P F hx0 hμ hcen hμ1 hμ2 hs
  obtain ⟨s1, e1, A1, D1⟩ := forRange_rule (a := 1) (b := img.info.height) (s := s0) (f := fun j s => do
      let (jIn, jOut) ← rowInOut P img.info.height r j
      let rowIn ← inputRow P img r (2 * h + 1) x0 jIn
      let rowOut ← inputRow P img r (2 * h + 1) x0 jOut
      let hists ← rowMed P s.2 rowIn true
      let hists ← rowMed P hists rowOut false
      processRowMed P s.1 hists center (2 * h + 1) x0 j)
    (fun j s => AllHold s.2 img.info.channels r h (fun c => winCount img r x0 c (j - 1))
        (fun c k => below (winCount img r x0 c (j - 1) k) (trace img r x0 center μ c k (j - 1))) (fun c k => trace img r x0 center μ c k (j - 1)) ∧
      s.1.Shows img.info (fun x' y' => if y' < j ∧ x0 ≤ x' ∧ x' < x0 + (2 * h + 1) then
        (List.range img.info.channels).map (fun c => UInt8.ofNat
          (trace img r x0 center μ c (if x' = img.info.width - 1 then 2 * h else x' - x0) y')) else f x' y'))
    (by omega)
    ⟨A0, D0.congr fun x' y' _ _ => by
      by_cases hy : y' = 0
      · subst hy; simp [trace]
      · rw [if_neg (by omega), if_neg (by omega)]⟩
    (by
      rintro j ⟨out, hists⟩ hj1 hj2 ⟨A, D⟩
      dsimp only at A D ⊢
      obtain ⟨y, rfl⟩ : ∃ y, j = y + 1 := ⟨j - 1, by omega⟩
      rw [Nat.add_sub_cancel] at A ⊢
      obtain ⟨h1, h2, e1, e2, A2⟩ := slide P F hx0 (fun c k => trace_lt hμ c k y) hj2 A
      obtain ⟨s, e3, A3, D3⟩ := processRow_ok P F hx0 hμ hcen hμ1 hμ2 hj2 (fun c k => trace_lt hμ c k y) A2 D
      refine ⟨s, ?_, A3, D3.congr fun x' y' _ _ => ?_⟩
      · rw [rowInOut_eq P hj2 hH, ok_bind]
        dsimp only
        rw [inputRow_eq P F hx0 (clampCoord_lt hH0 _), ok_bind, inputRow_eq P F hx0 (clampCoord_lt hH0 _), ok_bind, e1, ok_bind, e2, ok_bind, e3]
      · by_cases hx : x0 ≤ x' ∧ x' < x0 + (2 * h + 1)
        · rcases Nat.lt_trichotomy y' (y + 1) with hy | hy | hy
          · rw [if_neg (show ¬ (y' = y + 1 ∧ x0 ≤ x' ∧ x' < x0 + (2 * h + 1)) by omega),
              if_pos (show y' < y + 1 ∧ x0 ≤ x' ∧ x' < x0 + (2 * h + 1) by omega),
              if_pos (show y' < y + 1 + 1 ∧ x0 ≤ x' ∧ x' < x0 + (2 * h + 1) by omega)]
          · subst hy
            rw [if_pos ⟨rfl, hx⟩, if_pos (show y + 1 < y + 1 + 1 ∧ x0 ≤ x' ∧ x' < x0 + (2 * h + 1) by omega)]
            rfl
          · rw [if_neg (show ¬ (y' = y + 1 ∧ x0 ≤ x' ∧ x' < x0 + (2 * h + 1)) by omega),
              if_neg (show ¬ (y' < y + 1 ∧ x0 ≤ x' ∧ x' < x0 + (2 * h + 1)) by omega),
              if_neg (show ¬ (y' < y + 1 + 1 ∧ x0 ≤ x' ∧ x' < x0 + (2 * h + 1)) by omega)]
        · rw [if_neg fun h => hx h.2, if_neg fun h => hx h.2, if_neg fun h => hx h.2])
  refine ⟨s1.1, ?_, D1.congr fun x' y' _ hy => ?_⟩
  · have hsq : (2 * r + 1) * (2 * r + 1) < 1073741824 := by omega
    have h2r : 2 * r + 1 ≤ (2 * r + 1) * (2 * r + 1) := Nat.le_mul_of_pos_left _ (by omega)
    unfold processColsMed
    rw [u32Mul_ok (by omega), ok_bind, u32Add_ok (by omega), ok_bind, u32Mul_ok (by omega), ok_bind, u32Add_ok (by omega), ok_bind]
    dsimp only
    rw [toI32_of_lt (by omega), ← hcen, e0, ok_bind, e1, ok_bind]
  · by_cases hx : x0 ≤ x' ∧ x' < x0 + (2 * h + 1)
    · rw [if_pos ⟨hy, hx⟩, if_pos hx]
    · rw [if_neg fun h => hx h.2, if_neg hx]
end
end Imgproc

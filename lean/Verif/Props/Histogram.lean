import Verif.Props.Lab
import Verif.Props.Bilateral
import Mathlib.Algebra.BigOperators.Group.Finset.Basic
import Mathlib.Algebra.BigOperators.Ring.Finset
/-! Properties C26 and C27: histogram percentiles and histogram equalization. -/
namespace Imgproc
open FloatOps

/-! ### the count map -/

/-- `H` is the sorted list of the keys occurring in `ks`, each with its number of occurrences plus one -/
def HistOf (ks : List Int) (H : List (Int × Int)) : Prop :=
  H.Pairwise (fun a b => a.1 < b.1) ∧ ∀ k c, (k, c) ∈ H ↔ k ∈ ks ∧ c = (ks.count k : Int) + 1

theorem histBump_spec (P : Profile) (key : Int) : ∀ H : List (Int × Int), H.Pairwise (fun a b => a.1 < b.1) →
    (∀ e ∈ H, -2147483648 ≤ e.2 + 1 ∧ e.2 + 1 < 2147483648) →
    ∃ H', histBump P key H = .ok H' ∧ H'.Pairwise (fun a b => a.1 < b.1) ∧
      ∀ k c, (k, c) ∈ H' ↔ (k ≠ key ∧ (k, c) ∈ H) ∨
        (k = key ∧ ((∃ c0, (key, c0) ∈ H ∧ c = c0 + 1) ∨ ((∀ c0, (key, c0) ∉ H) ∧ c = 2)))
  | [], _, _ => by
    refine ⟨[(key, 2)], by simp [histBump]; rfl, by simp, fun k c => ?_⟩
    simp
  | (k0, c0) :: rest, hp, hb => by
    have hp' := List.pairwise_cons.1 hp
    unfold histBump
    by_cases h1 : key < k0
    · rw [if_pos h1]
      refine ⟨(key, 2) :: (k0, c0) :: rest, rfl, ?_, ?_⟩
      · refine List.pairwise_cons.2 ⟨fun e he => ?_, hp⟩
        rcases List.mem_cons.1 he with rfl | he
        · exact h1
        · exact h1.trans (hp'.1 e he)
      · have hno : ∀ c, (key, c) ∉ (k0, c0) :: rest := by
          intro c hc
          rcases List.mem_cons.1 hc with h | h
          · cases h; omega
          · have := hp'.1 _ h; simp at this; omega
        intro k c
        by_cases hk : k = key
        · subst hk
          simp [hno]
        · simp [hk]
    · rw [if_neg h1]
      by_cases h2 : key = k0
      · subst h2
        have hb0 := hb (key, c0) (by simp)
        rw [if_pos rfl, i32Add_ok hb0.1 hb0.2, ok_bind]
        refine ⟨(key, c0 + 1) :: rest, rfl, List.pairwise_cons.2 ⟨hp'.1, hp'.2⟩, ?_⟩
        have hno : ∀ c, (key, c) ∉ rest := by
          intro c hc
          have := hp'.1 _ hc; simp at this
        intro k c
        by_cases hk : k = key
        · subst hk
          simp [hno]
        · simp [hk]
      · rw [if_neg h2]
        obtain ⟨H', e, hs, hm⟩ := histBump_spec P key rest hp'.2 (fun e he => hb e (by simp [he]))
        rw [e, ok_bind]
        refine ⟨(k0, c0) :: H', rfl, List.pairwise_cons.2 ⟨fun e' he' => ?_, hs⟩, ?_⟩
        · obtain ⟨k, c⟩ := e'
          rcases (hm k c).1 he' with ⟨-, h⟩ | ⟨rfl, -⟩
          · exact hp'.1 _ h
          · show k0 < k; omega
        · intro k c
          rw [List.mem_cons, hm k c, List.mem_cons]
          have h2' : ∀ c', (key, c') ≠ (k0, c0) := fun c' h => h2 (by cases h; rfl)
          constructor
          · rintro (h | h | h)
            · cases h; exact .inl ⟨fun h => h2 h.symm, .inl rfl⟩
            · exact .inl ⟨h.1, .inr h.2⟩
            · refine .inr ⟨h.1, ?_⟩
              rcases h.2 with ⟨c1, h3, h4⟩ | ⟨h3, h4⟩
              · exact .inl ⟨c1, by simp [h3], h4⟩
              · exact .inr ⟨fun c1 => by simp [h3, h2' c1], h4⟩
          · rintro (⟨h, h' | h'⟩ | ⟨h, h'⟩)
            · exact .inl h'
            · exact .inr (.inl ⟨h, h'⟩)
            · refine .inr (.inr ⟨h, ?_⟩)
              rcases h' with ⟨c1, h3, h4⟩ | ⟨h3, h4⟩
              · rcases List.mem_cons.1 h3 with h5 | h5
                · exact absurd h5 (h2' c1)
                · exact .inl ⟨c1, h5, h4⟩
              · exact .inr ⟨fun c1 hc1 => h3 c1 (by simp [hc1]), h4⟩

theorem HistOf.bump (P : Profile) {ks : List Int} {H : List (Int × Int)} (h : HistOf ks H) (key : Int)
    (hlen : ks.length + 2 < 2147483648) : ∃ H', histBump P key H = .ok H' ∧ HistOf (ks ++ [key]) H' := by
  obtain ⟨H', e, hs, hm⟩ := histBump_spec P key H h.1 (by
    rintro ⟨k, c⟩ he
    have := ((h.2 k c).1 he).2
    have hc := List.count_le_length (a := k) (l := ks)
    simp only; omega)
  refine ⟨H', e, hs, fun k c => ?_⟩
  rw [hm k c, h.2 k c, List.mem_append, List.count_append]
  by_cases hk : k = key
  · subst hk
    simp only [ne_eq, not_true_eq_false, false_and, false_or, true_and, List.mem_singleton, or_true,
      List.count_singleton_self, h.2]
    constructor
    · rintro (⟨c0, ⟨-, h2⟩, h3⟩ | ⟨h1, h2⟩)
      · rw [h3, h2]; push_cast; ring
      · have : k ∉ ks := fun hm => h1 _ ⟨hm, rfl⟩
        rw [h2, List.count_eq_zero_of_not_mem this]; rfl
    · intro hc
      by_cases hmem : k ∈ ks
      · exact .inl ⟨_, ⟨hmem, rfl⟩, by rw [hc]; push_cast; ring⟩
      · refine .inr ⟨fun _ h => hmem h.1, ?_⟩
        rw [hc, List.count_eq_zero_of_not_mem hmem]; rfl
  · have hne : List.count k [key] = 0 := List.count_eq_zero_of_not_mem (by simpa using hk)
    simp only [ne_eq, hk, not_false_eq_true, true_and, false_and, or_false, List.mem_singleton, hne, Nat.add_zero]

/-- number of pixels whose key is at most `k` -/
def atMost (ks : List Int) (k : Int) : Nat := (ks.filter (· ≤ k)).length
/-- number of different keys that are at most `k` -/
def distinctAtMost (ks : List Int) (k : Int) : Nat := (ks.filter (· ≤ k)).toFinset.card

theorem HistOf.sum {ks : List Int} {H : List (Int × Int)} (h : HistOf ks H) (k : Int) :
    ((H.filter (·.1 ≤ k)).map (·.2)).sum = (atMost ks k : Int) + distinctAtMost ks k := by
  have hnd : ((H.filter (·.1 ≤ k)).map (·.1)).Nodup := by
    have h1 := (h.1.filter (·.1 ≤ k))
    rw [List.Nodup, List.pairwise_map]
    exact h1.imp fun h => ne_of_lt h
  have e1 : (H.filter (·.1 ≤ k)).map (·.2) =
      ((H.filter (·.1 ≤ k)).map (·.1)).map fun k' => ((ks.filter (· ≤ k)).count k' : Int) + 1 := by
    rw [List.map_map]
    refine List.map_congr_left fun e he => ?_
    obtain ⟨h1, h2⟩ := List.mem_filter.1 he
    have := ((h.2 e.1 e.2).1 h1).2
    simp only [Function.comp]
    rw [List.count_filter (by simpa using h2), this]
  have e2 : ((H.filter (·.1 ≤ k)).map (·.1)).toFinset = (ks.filter (· ≤ k)).toFinset := by
    ext k'
    simp only [List.mem_toFinset, List.mem_map, List.mem_filter, decide_eq_true_eq, Prod.exists,
      exists_and_right, exists_eq_right]
    constructor
    · rintro ⟨⟨c, h1⟩, h2⟩; exact ⟨((h.2 _ _).1 h1).1, h2⟩
    · rintro ⟨h1, h2⟩; exact ⟨⟨_, (h.2 _ _).2 ⟨h1, rfl⟩⟩, h2⟩
  rw [e1, ← List.sum_toFinset _ hnd, e2, Finset.sum_add_distrib, ← Nat.cast_sum, List.sum_toFinset_count_eq_length]
  simp [atMost, distinctAtMost]

section
variable {F : Type} [FloatOps F]

/-- the intensity keys of all pixels (first channel times precision, rounded), row by row -/
def intensityKeys (img : Image F) (precision : F) : List Int :=
  (List.range img.info.height).flatMap fun y => (List.range img.info.width).map fun x =>
    histKey ((img.px x y).getD 0 (num 0)) precision

theorem intensityKeys_length (img : Image F) (precision : F) :
    (intensityKeys img precision).length = img.info.height * img.info.width :=
  flatMap_range_length _ img.info.width _ (fun _ _ => by simp)

theorem assocGet_cons (k0 : Int) (v : F) (m : List (Int × F)) (k : Int) :
    assocGet ((k0, v) :: m) k = if k0 = k then some v else assocGet m k := by
  unfold assocGet
  by_cases h : k0 = k
  · simp [h]
  · simp [h]

/-- **C26** what `generate_histogram_percentiles` computes, in any arithmetic: an occurring key `k` gets
(number of pixels with key ≤ k **plus the number of different keys ≤ k**) divided by the number of pixels;
other entries of the map are left alone. -/
theorem c26_exact (P : Profile) (img : Image F) (h : img.WF) (hc : 0 < img.info.channels) (pc : List (Int × F))
    (precision : F) (hsmall : img.info.width * img.info.height < 1073741824) :
    ∃ m, generateHistogramPercentiles P img pc precision = .ok m ∧ ∀ k, assocGet m k =
      if k ∈ intensityKeys img precision then
        some (FloatOps.ofInt ((atMost (intensityKeys img precision) k : Int) +
          distinctAtMost (intensityKeys img precision) k) /. ofNat (img.info.width * img.info.height))
      else assocGet pc k := by
  have hlen := intensityKeys_length img precision
  -- the counting loop
  have hcount : ∃ H, (forRange 0 img.info.height [] fun y hist =>
      forRange 0 img.info.width hist fun x hist => do
        let p ← img.getPixel P x y
        let v ← idx p 0
        histBump P (histKey v precision) hist) = .ok H ∧ HistOf (intensityKeys img precision) H := by
    refine ok_weaken (Q := fun H => HistOf ((List.range img.info.height).flatMap fun y =>
      (List.range img.info.width).map fun x => histKey ((img.px x y).getD 0 (num 0)) precision) H) ?_ (fun _ h => h)
    refine forRange_rule (fun k H => HistOf ((List.range k).flatMap fun y =>
      (List.range img.info.width).map fun x => histKey ((img.px x y).getD 0 (num 0)) precision) H) (Nat.zero_le _) ?_ ?_
    · exact ⟨List.Pairwise.nil, fun k c => by simp⟩
    · intro y H _ hy hH
      refine ok_weaken (Q := fun H' => HistOf (((List.range y).flatMap fun y =>
        (List.range img.info.width).map fun x => histKey ((img.px x y).getD 0 (num 0)) precision) ++
        (List.range img.info.width).map fun x => histKey ((img.px x y).getD 0 (num 0)) precision) H') ?_ ?_
      · refine forRange_rule (fun x H' => HistOf (((List.range y).flatMap fun y =>
          (List.range img.info.width).map fun x => histKey ((img.px x y).getD 0 (num 0)) precision) ++
          (List.range x).map fun x => histKey ((img.px x y).getD 0 (num 0)) precision) H') (Nat.zero_le _) ?_ ?_
        · simpa using hH
        · intro x H' _ hx hH'
          have hpl := Image.px_length h hx hy
          rw [Image.getPixel_eq P h hx hy, ok_bind, idx_some (a := (img.px x y).getD 0 (num 0)) (by
            rw [List.getD_eq_getElem?_getD, List.getElem?_eq_getElem (by omega)]; rfl), ok_bind]
          obtain ⟨H2, e2, h2⟩ := hH'.bump P (histKey ((img.px x y).getD 0 (num 0)) precision) (by
            rw [List.length_append, flatMap_range_length _ img.info.width _ (fun _ _ => by simp), List.length_map,
              List.length_range]
            have := row_lt hx hy
            omega)
          refine ⟨H2, e2, ?_⟩
          rw [List.range_succ, List.map_append, ← List.append_assoc]
          exact h2
      · intro H' h'
        rw [List.range_succ, List.flatMap_append]
        simpa using h'
  obtain ⟨H, eH, hH⟩ := hcount
  unfold generateHistogramPercentiles
  rw [eH, ok_bind, ImageInfo.size_eq P h.infoWF, ok_bind]
  dsimp only
  generalize hks : intensityKeys img precision = ks at *
  classical
  let V : Int → F := fun k => FloatOps.ofInt ((atMost ks k : Int) + distinctAtMost ks k) /.
    ofNat (img.info.width * img.info.height)
  have hbound : ∀ k, (atMost ks k : Int) + distinctAtMost ks k < 2147483648 := by
    intro k
    have h1 : atMost ks k ≤ ks.length := List.length_filter_le _ _
    have h2 : distinctAtMost ks k ≤ atMost ks k := List.toFinset_card_le _
    rw [hlen, Nat.mul_comm] at h1
    omega
  obtain ⟨r, er, hr⟩ := forList_rule (l := H) (s := ((0 : Int), pc))
    (f := fun kv s => do
      let sum ← i32Add P s.1 kv.2
      .ok (sum, (kv.1, FloatOps.ofInt sum /. ofNat (img.info.width * img.info.height)) :: s.2))
    (fun pre s => s.1 = (pre.map (·.2)).sum ∧ ∀ k, assocGet s.2 k =
      if (∃ c, (k, c) ∈ pre) then some (V k) else assocGet pc k)
    ⟨by simp, fun k => by simp⟩
    (by
      rintro pre ⟨k0, c0⟩ post ⟨sm, mp⟩ hl ⟨hs, hm⟩
      have hsum : (pre.map (·.2)).sum + c0 = (atMost ks k0 : Int) + distinctAtMost ks k0 := by
        rw [← hH.sum k0]
        have hpw := hH.1
        rw [hl] at hpw ⊢
        obtain ⟨h1, h2, h3⟩ := List.pairwise_append.1 hpw
        have h2' := List.pairwise_cons.1 h2
        rw [List.filter_append, List.filter_cons]
        have e1 : pre.filter (fun e => decide (e.1 ≤ k0)) = pre := by
          rw [List.filter_eq_self]
          intro e he
          have := h3 e he (k0, c0) (by simp)
          simpa using this.le
        have e2 : post.filter (fun e => decide (e.1 ≤ k0)) = [] := by
          rw [List.filter_eq_nil_iff]
          intro e he
          have := h2'.1 e he
          simpa using this
        simp [e1, e2]
      simp only at hs hm ⊢
      have hb := hbound k0
      rw [hs, i32Add_ok (by rw [hsum]; omega) (by rw [hsum]; exact hb), ok_bind]
      refine ⟨_, rfl, by simp, fun k => ?_⟩
      rw [assocGet_cons, hsum]
      by_cases hk : k0 = k
      · subst hk
        rw [if_pos rfl, if_pos ⟨c0, by simp⟩]
      · rw [if_neg hk, hm k]
        congr 1
        apply propext
        constructor
        · rintro ⟨c, hc⟩; exact ⟨c, by simp [hc]⟩
        · rintro ⟨c, hc⟩
          rcases List.mem_append.1 hc with hc | hc
          · exact ⟨c, hc⟩
          · simp at hc; exact absurd hc.1.symm hk)
  rw [er, ok_bind]
  refine ⟨r.2, rfl, fun k => ?_⟩
  rw [hr.2 k]
  congr 1
  apply propext
  constructor
  · rintro ⟨c, hc⟩; exact ((hH.2 k c).1 hc).1
  · intro hk; exact ⟨_, (hH.2 k _).2 ⟨hk, rfl⟩⟩

end

/-! ### IEEE f32: monotone and positive, but more than 1 at the top -/

section
variable [Libm f32]

theorem percentile_is {a n : Nat} (hn : 0 < n) (han : a < 2 ^ 40) (hn' : n < 2 ^ 40) :
    (FloatOps.ofInt ((a : Nat) : Int) /. FloatOps.ofNat n : F32).Is
      (f32.rnd (f32.rnd (a : Rat) / f32.rnd (n : Rat))) ∧ 1 ≤ f32.rnd (n : Rat) ∧ 0 ≤ f32.rnd (a : Rat) := by
  have e1 : f32.Exact ((1 : Nat) : Rat) := f32_nat (by decide)
  have hb : RepQ f32.toRFmt ((2 : Rat) ^ 40) := by
    have := (RepQ.dyadic (f := f32.toRFmt) (m := 1) (e := 40) (by decide) (by decide))
    have h2 : ((1 : Int) : Rat) * pow2 40 = 2 ^ 40 := by decide +kernel
    rwa [h2] at this
  have h1 : 1 ≤ f32.rnd (n : Rat) := by
    have : ((1 : Nat) : Rat) ≤ f32.rnd (n : Rat) := le_rndQ e1.1 (by exact_mod_cast hn)
    simpa using this
  have h0 : 0 ≤ f32.rnd (a : Rat) := rndQ_nonneg (by positivity)
  have hua : f32.rnd (a : Rat) ≤ 2 ^ 40 := rndQ_le hb (by exact_mod_cast han.le)
  have hia : (FloatOps.ofInt ((a : Nat) : Int) : F32).Is (f32.rnd (a : Rat)) := by
    have := ofInt_is (f := f32) (n := ((a : Nat) : Int)) (f32_ovf (by
      rw [abs_of_nonneg (by positivity)]
      have : ((a : Int) : Rat) ≤ 2 ^ 40 := by exact_mod_cast han.le
      linarith [show (2 : Rat) ^ 40 ≤ 2 ^ 100 by norm_num]))
    simpa using this
  have hin : (FloatOps.ofNat n : F32).Is (f32.rnd (n : Rat)) := by
    have := ofInt_is (f := f32) (n := ((n : Nat) : Int)) (f32_ovf (by
      rw [abs_of_nonneg (by positivity)]
      have : ((n : Int) : Rat) ≤ 2 ^ 40 := by exact_mod_cast hn'.le
      linarith [show (2 : Rat) ^ 40 ≤ 2 ^ 100 by norm_num]))
    exact this
  refine ⟨div_is hia hin (by linarith) (f32_ovf ?_), h1, h0⟩
  rw [abs_of_nonneg (by positivity)]
  have : f32.rnd (a : Rat) / f32.rnd (n : Rat) ≤ f32.rnd (a : Rat) := div_le_self h0 h1
  linarith [show (2 : Rat) ^ 40 ≤ 2 ^ 100 by norm_num]

omit [Libm f32] in
theorem atMost_mono (ks : List Int) {a b : Int} (h : a ≤ b) : atMost ks a ≤ atMost ks b := by
  unfold atMost
  rw [← List.countP_eq_length_filter, ← List.countP_eq_length_filter]
  refine List.countP_mono_left fun x _ hx => ?_
  simp only [decide_eq_true_eq] at *
  omega

omit [Libm f32] in
theorem distinctAtMost_mono (ks : List Int) {a b : Int} (h : a ≤ b) : distinctAtMost ks a ≤ distinctAtMost ks b := by
  unfold distinctAtMost
  refine Finset.card_le_card fun x hx => ?_
  simp only [List.mem_toFinset, List.mem_filter, decide_eq_true_eq] at *
  exact ⟨hx.1, by omega⟩

omit [Libm f32] in
theorem distinctAtMost_le (ks : List Int) (a : Int) : distinctAtMost ks a ≤ atMost ks a := List.toFinset_card_le _

omit [Libm f32] in
theorem atMost_le (ks : List Int) (a : Int) : atMost ks a ≤ ks.length := List.length_filter_le _ _

/-- **C26, true part**, in IEEE f32 and for every image of fewer than 2^30 pixels: every occurring key gets
a percentile, the percentiles are positive and monotone in the key. Missing (and false, see
`c26_violated`): they are not at most 1, because every different key is counted once too often. -/
theorem c26_monotone_partial (P : Profile) (img : Image F32) (h : img.WF) (hc : 0 < img.info.channels)
    (precision : F32) (hsmall : img.info.width * img.info.height < 1073741824) :
    ∃ m, generateHistogramPercentiles P img [] precision = .ok m ∧
      (∀ k, (assocGet m k).isSome ↔ ∃ x y, x < img.info.width ∧ y < img.info.height ∧
        histKey ((img.px x y).getD 0 (num 0)) precision = k) ∧
      (∀ k v, assocGet m k = some v → (num 0 <. v) = true) ∧
      (∀ k1 k2 v1 v2, k1 ≤ k2 → assocGet m k1 = some v1 → assocGet m k2 = some v2 → (v1 <=. v2) = true) := by
  obtain ⟨m, e, hm⟩ := c26_exact P img h hc [] precision hsmall
  have hlen := intensityKeys_length img precision
  have hmem : ∀ k, k ∈ intensityKeys img precision ↔ ∃ x y, x < img.info.width ∧ y < img.info.height ∧
        histKey ((img.px x y).getD 0 (num 0)) precision = k := by
    intro k
    unfold intensityKeys
    simp only [List.mem_flatMap, List.mem_range, List.mem_map]
    constructor
    · rintro ⟨y, hy, x, hx, e⟩; exact ⟨x, y, hx, hy, e⟩
    · rintro ⟨x, y, hx, hy, e⟩; exact ⟨y, hy, x, hx, e⟩
  generalize hks : intensityKeys img precision = ks at *
  have hval : ∀ k v, assocGet m k = some v → k ∈ ks ∧
      v = FloatOps.ofInt (((atMost ks k + distinctAtMost ks k : Nat) : Nat) : Int) /.
        ofNat (img.info.width * img.info.height) := by
    intro k v hv
    rw [hm k] at hv
    by_cases hk : k ∈ ks
    · rw [if_pos hk] at hv
      cases hv
      exact ⟨hk, by push_cast; rfl⟩
    · rw [if_neg hk] at hv; simp [assocGet] at hv
  have hnpos : ∀ k, k ∈ ks → 0 < img.info.width * img.info.height := by
    intro k hk
    have := List.length_pos_of_mem hk
    rw [hlen, Nat.mul_comm] at this
    exact this
  have hub : ∀ k, atMost ks k + distinctAtMost ks k < 2 ^ 40 := by
    intro k
    have h1 := atMost_le ks k
    have h2 := distinctAtMost_le ks k
    rw [hlen, Nat.mul_comm] at h1
    omega
  refine ⟨m, e, fun k => ?_, fun k v hv => ?_, fun k1 k2 v1 v2 hk h1 h2 => ?_⟩
  · rw [← hmem k, hm k]
    by_cases hk : k ∈ ks
    · simp [hk]
    · simp [hk, assocGet]
  · obtain ⟨hk, rfl⟩ := hval k v hv
    have hn := hnpos k hk
    obtain ⟨i1, i2, i3⟩ := percentile_is hn (hub k) (by omega)
    rw [lt_is (num32 (by decide)) i1, decide_eq_true_eq]
    have hpos : 1 ≤ atMost ks k + distinctAtMost ks k := by
      have : 0 < atMost ks k := List.length_pos_of_mem (a := k) (by simp [hk])
      omega
    have h1 : ((1 : Nat) : Rat) ≤ f32.rnd ((atMost ks k + distinctAtMost ks k : Nat) : Rat) :=
      le_rndQ (f32_nat (by decide)).1 (by exact_mod_cast hpos)
    have hbn : RepQ f32.toRFmt ((2 : Rat) ^ 40) := by
      have := (RepQ.dyadic (f := f32.toRFmt) (m := 1) (e := 40) (by decide) (by decide))
      have h2 : ((1 : Int) : Rat) * pow2 40 = 2 ^ 40 := by decide +kernel
      rwa [h2] at this
    have h2 : f32.rnd ((img.info.width * img.info.height : Nat) : Rat) ≤ 2 ^ 40 :=
      rndQ_le hbn (by exact_mod_cast (by omega : img.info.width * img.info.height ≤ 2 ^ 40))
    have hr : RepQ f32.toRFmt (1 / (2 : Rat) ^ 40) := by
      have := (RepQ.dyadic (f := f32.toRFmt) (m := 1) (e := -40) (by decide) (by decide))
      have h2 : ((1 : Int) : Rat) * pow2 (-40) = 1 / 2 ^ 40 := by decide +kernel
      rwa [h2] at this
    have h3 : 1 / (2 : Rat) ^ 40 ≤ f32.rnd (f32.rnd ((atMost ks k + distinctAtMost ks k : Nat) : Rat) /
        f32.rnd ((img.info.width * img.info.height : Nat) : Rat)) := by
      refine le_rndQ hr ?_
      rw [div_le_div_iff₀ (by positivity) (by linarith)]
      simp only [Nat.cast_one] at h1
      nlinarith
    have : (0 : Rat) < 1 / 2 ^ 40 := by positivity
    simp only [Int.cast_zero]
    linarith
  · obtain ⟨hk1, rfl⟩ := hval k1 v1 h1
    obtain ⟨hk2, rfl⟩ := hval k2 v2 h2
    have hn := hnpos k1 hk1
    obtain ⟨i1, i2, i3⟩ := percentile_is hn (hub k1) (by omega)
    obtain ⟨j1, j2, j3⟩ := percentile_is hn (hub k2) (by omega)
    rw [le_is i1 j1, decide_eq_true_eq]
    refine rndQ_mono (div_le_div_of_nonneg_right (rndQ_mono ?_) (by linarith))
    have h1 := atMost_mono ks hk
    have h2 := distinctAtMost_mono ks hk
    exact_mod_cast (by omega : atMost ks k1 + distinctAtMost ks k1 ≤ atMost ks k2 + distinctAtMost ks k2)

/-- **C26 is violated on every non-empty image** of up to 2^22 pixels: the largest occurring key gets a
"percentile" strictly greater than 1. -/
theorem c26_violated (P : Profile) (img : Image F32) (h : img.WF) (hc : 0 < img.info.channels)
    (precision : F32) (hsmall : img.info.width * img.info.height ≤ 4194304) (k : Int)
    (hk : k ∈ intensityKeys img precision) (htop : ∀ k' ∈ intensityKeys img precision, k' ≤ k) :
    ∃ m v, generateHistogramPercentiles P img [] precision = .ok m ∧ assocGet m k = some v ∧
      (num 1 <. v) = true := by
  obtain ⟨m, e, hm⟩ := c26_exact P img h hc [] precision (by omega)
  have hlen := intensityKeys_length img precision
  generalize hks : intensityKeys img precision = ks at *
  refine ⟨m, _, e, by rw [hm k, if_pos hk], ?_⟩
  have hn : 0 < img.info.width * img.info.height := by
    have := List.length_pos_of_mem hk
    rw [hlen, Nat.mul_comm] at this; exact this
  have hall : atMost ks k = img.info.width * img.info.height := by
    unfold atMost
    rw [List.filter_eq_self.2 (fun a ha => by simpa using htop a ha), hlen, Nat.mul_comm]
  have hd : 1 ≤ distinctAtMost ks k := by
    unfold distinctAtMost
    exact Finset.card_pos.2 ⟨k, by simp [hk]⟩
  have hd' := distinctAtMost_le ks k
  rw [hall] at hd' ⊢
  generalize img.info.width * img.info.height = n at *
  generalize distinctAtMost ks k = d at *
  have hi : (FloatOps.ofInt ((n : Int) + d) : F32).Is (((n : Int) + d : Int) : Rat) :=
    ofInt_exact (f32_int (by rw [abs_of_nonneg (by omega)]; omega))
  have hn2 : (FloatOps.ofNat n : F32).Is (n : Rat) := nat32 (by omega)
  have hn0 : (0 : Rat) < n := by exact_mod_cast hn
  have hv := div_is hi hn2 hn0.ne' (f32_ovf (by
    rw [abs_of_nonneg (by positivity), div_le_iff₀ hn0]
    have : (((n : Int) + d : Int) : Rat) ≤ 2 * n := by push_cast; exact_mod_cast (by omega : n + d ≤ 2 * n)
    nlinarith [show (2 : Rat) ≤ 2 ^ 100 by norm_num]))
  rw [lt_is (num32 (by decide)) hv, decide_eq_true_eq]
  have hr : RepQ f32.toRFmt (1 + 1 / (4194304 : Rat)) := by
    have := (RepQ.dyadic (f := f32.toRFmt) (m := 4194305) (e := -22) (by decide) (by decide))
    have h2 : ((4194305 : Int) : Rat) * pow2 (-22) = 1 + 1 / 4194304 := by decide +kernel
    rwa [h2] at this
  have h3 : 1 + 1 / (4194304 : Rat) ≤ f32.rnd ((((n : Int) + d : Int) : Rat) / n) := by
    refine le_rndQ hr ?_
    have h1 : (1 : Rat) ≤ d := by exact_mod_cast hd
    have h2 : (n : Rat) ≤ 4194304 := by exact_mod_cast hsmall
    push_cast
    rw [le_div_iff₀ hn0]
    nlinarith
  have : (0 : Rat) < 1 / 4194304 := by norm_num
  simp only [Int.cast_one]
  linarith

/-! ### C27 -/

/-- **C27** On every non-empty image with three colour channels (fewer than 2^30 pixels) and every alpha and
precision that pass the argument checks (NaN included), `histogram_equalization` returns `Ok`: the lookup
never misses. The header and the alpha channel are unchanged. This holds for every libm. -/
theorem c27_total (P : Profile) (white : White) (img : Image UInt8) (h : img.WF)
    (hpos : 0 < img.info.width ∧ 0 < img.info.height) (h3 : img.info.colours = 3)
    (hsmall : img.info.width * img.info.height < 1073741824)
    (alpha precision : F32) (ha : ¬ OutsideUnit alpha) (hp : ¬ Negative precision) :
    ∃ out, histogramEqualization P img alpha white precision = .ok out ∧ out.WF ∧ out.info = img.info ∧
      ∀ x y, x < img.info.width → y < img.info.height →
        img.info.alphaOf (out.px x y) = img.info.alphaOf (img.px x y) := by
  obtain ⟨o1, e1, h1⟩ := srgbToLab_CA (F := F32) P white h hpos h3
  obtain ⟨hch, -⟩ := colours3 h3
  have hi := h1.info_eq
  obtain ⟨m, em, hm⟩ := c26_exact P o1 h1.wf (by rw [hi]; omega) [] precision (by rw [hi]; exact hsmall)
  have hlook : ∀ x y, x < img.info.width → y < img.info.height → ∀ v : F32,
      (labOfSrgb white (img.info.colour (img.px x y)))[0]? = some v →
        (assocGet m (histKey v precision)).isSome := by
    intro x y hx hy v hv
    rw [hm, if_pos]
    · rfl
    · unfold intensityKeys
      simp only [List.mem_flatMap, List.mem_range, List.mem_map]
      refine ⟨y, by rw [hi]; exact hy, x, by rw [hi]; exact hx, ?_⟩
      have hcol := h1.colour x y hx hy
      rw [← hcol] at hv
      have h0 : (o1.px x y)[0]? = some v := by
        have := img.info.colour_append (o1.px x y)
        rw [← this, List.getElem?_append_left]
        · exact hv
        · rcases List.getElem?_eq_some_iff.1 hv with ⟨hl, -⟩; exact hl
      rw [List.getD_eq_getElem?_getD, h0]; rfl
  obtain ⟨o2, e2, h2⟩ := h1.edit P h3 (k := 0) (by decide)
    (f := equalizeValue m alpha precision)
    (g := fun n => (alpha *. ((assocGet m (histKey n precision)).getD (num 0)) *. num 100) +. ((num 1 -. alpha) *. n))
    (fun x y hx hy v hv => by
      obtain ⟨p, hp⟩ := Option.isSome_iff_exists.1 (hlook x y hx hy v hv)
      unfold equalizeValue
      simp only [hp, Option.getD_some])
  obtain ⟨o3, e3, h3'⟩ := labToSrgb_CA P white h2 hpos h3
  have c1 : checkNonNeg (FloatOps.rnum (F := F32)) precision = .ok () := by
    unfold checkNonNeg
    rw [if_neg]
    exact fun hh => hp ((lt_zero_iff Fmt.Exact.zero precision).1 hh)
  have c2 : checkInRange (FloatOps.rnum (F := F32)) alpha (num 0) (num 1) = .ok () := by
    unfold checkInRange
    rw [if_neg]
    intro hh
    exact ha ((outside_unit_iff (by simpa using f32_int (n := 1) (by decide)) alpha).1 (by rwa [Bool.or_eq_true] at hh))
  unfold histogramEqualization
  rw [c1, ok_bind, c2, ok_bind, e1, ok_bind, em, ok_bind, e2, ok_bind, e3]
  exact ⟨o3, rfl, h3'.wf, h3'.info_eq, fun x y hx hy => by rw [h3'.alpha x y hx hy, alpha_back]⟩

end

/-- a 2 x 1 image of floats whose two pixels have different intensity keys -/
def histDemo : Image F32 := Image.fromVec 2 1 1 false [Flt.ofRat f32 1, Flt.ofRat f32 2]
theorem histDemo_WF : histDemo.WF := ⟨by decide, by decide, by decide, by decide, by decide, by decide⟩
example [Libm f32] : ∃ v m, generateHistogramPercentiles .debug histDemo [] (num 3) = .ok m ∧
    assocGet m 6 = some v ∧ (num 1 <. v) = true := by
  have e : intensityKeys histDemo (num 3) = [3, 6] := by
    show [histKey (Flt.ofRat f32 1) (num 3 : F32), histKey (Flt.ofRat f32 2) (num 3 : F32)] = [3, 6]
    have hk : ∀ n : Nat, n ≤ 100 → histKey (Flt.ofRat f32 n) (num 3 : F32) = 3 * n := by
      intro n hn
      have h1 : (Flt.ofRat f32 (n : Rat)).Is (n : Rat) := Flt.ofRat_exact (f32_nat (by omega))
      have h2 : (Flt.ofRat f32 (n : Rat) *. num 3 : F32).Is (((3 * n : Nat) : Int) : Rat) := by
        have := mul_exact h1 (num32 (n := 3) (by decide)) (by
          have := f32_nat (n := 3 * n) (by omega)
          push_cast at this ⊢; rwa [mul_comm])
        push_cast at this ⊢; rwa [mul_comm] at this
      have h3 := round_is h2 (by rw [roundAwayQ_int]; exact f32_int (by rw [abs_of_nonneg (by omega)]; omega))
      rw [roundAwayQ_int] at h3
      unfold histKey FloatOps.toI32
      rw [toInt_is h3, truncQ_int]
      push_cast
      omega
    have a := hk 1 (by decide)
    have b := hk 2 (by decide)
    norm_num at a b
    rw [a, b]
  obtain ⟨m, v, h⟩ := c26_violated .debug histDemo histDemo_WF (by decide) (num 3) (by decide) 6 (by rw [e]; decide)
    (by rw [e]; decide)
  exact ⟨v, m, h⟩
example : demo.WF ∧ (0 < demo.info.width ∧ 0 < demo.info.height) ∧ demo.info.colours = 3 ∧
    demo.info.width * demo.info.height < 1073741824 := ⟨demo_WF, by decide, by decide, by decide⟩
end Imgproc

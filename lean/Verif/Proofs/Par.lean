import Verif.Model.Par
import Verif.Proofs.Fill
import Verif.Proofs.NoErr
import Verif.Proofs.Loops
import Verif.Props.Util
import Mathlib.Data.List.Perm.Basic
/-! Schedules: `parCollect` does not depend on the order in which the tasks run. -/
namespace Imgproc

theorem gather_somes {α} (l : List α) : gather (l.map some) = .ok l := by
  induction l with
  | nil => rfl
  | cons a l ih => simp only [List.map_cons, gather, ih, ok_bind]

theorem runTasks_ok {α} (f : Nat → Res α) (g : Nat → α) (n : Nat) (hf : ∀ i < n, f i = .ok (g i)) :
    ∀ (order : List Nat) (slots : List (Option α)), (∀ i ∈ order, i < n) → slots.length = n →
      ∃ s, runTasks f order slots = .ok s ∧ s.length = n ∧
        ∀ i < n, s[i]? = if i ∈ order then some (some (g i)) else slots[i]?
  | [], slots, _, hs => ⟨slots, rfl, hs, fun i _ => by simp⟩
  | a :: order, slots, ho, hs => by
    have ha : a < n := ho a (by simp)
    obtain ⟨s, e, hl, h⟩ := runTasks_ok f g n hf order (slots.set a (some (g a)))
      (fun i hi => ho i (by simp [hi])) (by simp [hs])
    refine ⟨s, ?_, hl, fun i hi => ?_⟩
    · unfold runTasks at e ⊢
      simp only [forList, hf a ha, ok_bind]
      exact e
    · rw [h i hi]
      by_cases h1 : i ∈ order
      · simp [h1]
      · by_cases h2 : i = a
        · subst h2; simp [h1, List.getElem?_set, hs, hi]
        · have : a ≠ i := fun h => h2 h.symm
          simp [h1, h2, List.getElem?_set, this]

theorem parCollect_ok {α} {order : List Nat} {n : Nat} {f : Nat → Res α} (g : Nat → α)
    (ho : order.Perm (List.range n)) (hf : ∀ i < n, f i = .ok (g i)) :
    parCollect order n f = .ok ((List.range n).map g) := by
  obtain ⟨s, e, hl, h⟩ := runTasks_ok f g n hf order (List.replicate n none)
    (fun i hi => List.mem_range.1 (ho.mem_iff.1 hi)) (by simp)
  have : s = ((List.range n).map g).map some := by
    apply List.ext_getElem? 
    intro i
    by_cases hi : i < n
    · rw [h i hi, if_pos (ho.mem_iff.2 (List.mem_range.2 hi))]
      simp [hi]
    · rw [List.getElem?_eq_none (by omega), List.getElem?_eq_none (by simp; omega)]
  unfold parCollect
  rw [e, ok_bind, this, gather_somes]

theorem runTasks_fail {α} {f : Nat → Res α} {i : Nat} (hf : ¬ Res.Returns (f i)) :
    ∀ (order : List Nat) (slots : List (Option α)), i ∈ order → ¬ Res.Returns (runTasks f order slots)
  | [], _, h => by simp at h
  | a :: order, slots, h => by
    rintro ⟨v, hv⟩
    unfold runTasks at hv
    simp only [forList] at hv
    obtain ⟨s, h1, h2⟩ := bind_eq_ok hv
    obtain ⟨w, h3, -⟩ := bind_eq_ok h1
    by_cases ha : i = a
    · subst ha; exact hf ⟨w, h3⟩
    · exact runTasks_fail hf order s (by simpa [ha] using h) ⟨v, h2⟩

theorem parCollect_fail {α} {order : List Nat} {n i : Nat} {f : Nat → Res α}
    (ho : order.Perm (List.range n)) (hi : i < n) (hf : ¬ Res.Returns (f i)) :
    ¬ Res.Returns (parCollect order n f) := by
  rintro ⟨v, hv⟩
  unfold parCollect at hv
  obtain ⟨s, h1, -⟩ := bind_eq_ok hv
  exact runTasks_fail hf order _ (ho.mem_iff.2 (List.mem_range.2 hi)) ⟨s, h1⟩

theorem NoErr.gather {α} : ∀ l : List (Option α), NoErr (Imgproc.gather l)
  | [] => .ok _
  | none :: _ => .panic _
  | some _ :: l => .bind (NoErr.gather l) fun _ => .ok _

theorem NoErr.parCollect {α} {order : List Nat} {n : Nat} {f : Nat → Res α} (hf : ∀ i, NoErr (f i)) :
    NoErr (Imgproc.parCollect order n f) :=
  .bind (.forList fun i _ => .bind (hf i) fun _ => .ok _) fun _ => .gather _

/-- a parallel collection whose in-range tasks never return `Err` -/
theorem parCollect_noErr {α} {order : List Nat} {n : Nat} {f : Nat → Res α}
    (ho : order.Perm (List.range n)) (hf : ∀ i < n, NoErr (f i)) : NoErr (parCollect order n f) := by
  have : parCollect order n f = parCollect order n (fun i => if i < n then f i else .error .ub) := by
    unfold parCollect runTasks
    congr 1
    have hm : ∀ i ∈ order, i < n := fun i hi => List.mem_range.1 (ho.mem_iff.1 hi)
    clear ho
    generalize List.replicate n none = s
    induction order generalizing s with
    | nil => rfl
    | cons a l ih =>
      simp only [forList, if_pos (hm a (by simp))]
      congr 1; funext s'
      exact ih (fun i hi => hm i (by simp [hi])) s'
  rw [this]
  refine .parCollect fun i => ?_
  split
  · rename_i h; exact hf i h
  · exact .ub

theorem NoErr.natMod {a b} : NoErr (Imgproc.natMod a b) := by
  unfold Imgproc.natMod; split <;> first | exact .ok _ | exact .panic _
theorem NoErr.forRangeI {σ} {a b} {s : σ} {f : Int → σ → Res σ} (hf : ∀ i s, NoErr (f i s)) :
    NoErr (Imgproc.forRangeI a b s f) := .forRange fun _ _ => hf _ _
theorem NoErr.getPixelUnchecked {T P} {img : Image T} {x y} : NoErr (img.getPixelUnchecked P x y) := by
  unfold Image.getPixelUnchecked
  exact .bind .u32Mul fun _ => .bind .u32Add fun _ => .at'
theorem NoErr.get2dCoords {P i w} : NoErr (Imgproc.get2dCoords P i w) := by
  unfold Imgproc.get2dCoords
  exact .bind .natMod fun _ => .bind .u32Sub fun _ => .bind .natDiv fun _ => .ok _
theorem NoErr.fromVecOfVec {T P w h c a} {d : List (List T)} : NoErr (Image.fromVecOfVec P w h c a d) := by
  unfold Image.fromVecOfVec; no_err
theorem NoErr.setPixel {T P} {img : Image T} {x y p} : NoErr (img.setPixel P x y p) := by
  unfold Image.setPixel Image.index
  exact .bind .checkChannels fun _ => .bind .checkXY fun _ =>
    .bind (.bind .u32Mul fun _ => .bind .u32Add fun _ => .u32Mul) fun _ => .bind .usizeAdd fun _ =>
    .bind .writeSlice fun _ => .ok _
theorem NoErr.blank {T P N} {i : ImageInfo} : NoErr (Image.blank (T := T) P N i) := by
  unfold Image.blank; exact .bind .fullSize fun _ => .ok _
theorem unwrapRes_noErr {α} {r : Res α} (h : NoErr r) : unwrapRes r = r := by
  unfold unwrapRes
  split
  · rename_i e; exact absurd rfl (h e)
  · rfl

/-- Two ways of running the same public function that a caller cannot tell apart: they return the
same value, the same error, or both fail to return. -/
def SameOutcome {α} (a b : Res α) : Prop :=
  (∀ v, a = .ok v ↔ b = .ok v) ∧ (∀ e, a = .error (.err e) ↔ b = .error (.err e))

theorem SameOutcome.refl {α} (a : Res α) : SameOutcome a a := ⟨fun _ => Iff.rfl, fun _ => Iff.rfl⟩
theorem SameOutcome.of_ok {α} {a b : Res α} {v : α} (ha : a = .ok v) (hb : b = .ok v) : SameOutcome a b := by
  rw [ha, hb]; exact .refl _
theorem SameOutcome.of_fail {α} {a b : Res α} (ha : ¬ Res.Returns a) (hb : ¬ Res.Returns b) (na : NoErr a)
    (nb : NoErr b) : SameOutcome a b :=
  ⟨fun v => ⟨fun h => absurd ⟨v, h⟩ ha, fun h => absurd ⟨v, h⟩ hb⟩,
   fun e => ⟨fun h => absurd h (na e), fun h => absurd h (nb e)⟩⟩
theorem SameOutcome.bind {α β} {a b : Res α} {f g : α → Res β} (h : SameOutcome a b)
    (hfg : ∀ v, a = .ok v → SameOutcome (f v) (g v)) : SameOutcome (a >>= f) (b >>= g) := by
  cases ha : a with
  | ok v =>
    have hb := (h.1 v).1 ha
    rw [hb]; exact hfg v ha
  | error e =>
    have nb : ∀ v, b ≠ .ok v := fun v hv => by have := (h.1 v).2 hv; rw [ha] at this; cases this
    cases hb : b with
    | ok v => exact absurd hb (nb v)
    | error e' =>
      refine ⟨fun v => ⟨fun h => (by cases h), fun h => (by cases h)⟩, fun k => ?_⟩
      have := h.2 k
      rw [ha, hb] at this
      constructor
      · intro h; cases h
        have := this.1 rfl
        cases this; rfl
      · intro h; cases h
        have := this.2 rfl
        cases this; rfl
theorem SameOutcome.trans {α} {a b c : Res α} (h1 : SameOutcome a b) (h2 : SameOutcome b c) : SameOutcome a c :=
  ⟨fun v => (h1.1 v).trans (h2.1 v), fun e => (h1.2 e).trans (h2.2 e)⟩

/-- The sequential row-by-row fill and the parallel collection agree. -/
theorem par_same {T} (P : Profile) (N : RNum T) {info : ImageInfo} (h : info.WF)
    (g g' : Nat → Nat → Res (List T))
    (hg : ∀ x y, x < info.width → y < info.height → g' x y = g x y)
    (hne : ∀ x y, x < info.width → y < info.height → NoErr (g x y))
    (hlen : ∀ x y p, x < info.width → y < info.height → g x y = .ok p → p.length = info.channels)
    {order : List Nat} (ho : order.Perm (List.range (info.width * info.height))) :
    SameOutcome
      (do
        let b ← Image.blank P N info
        forRange 0 info.height b fun y o => forRange 0 info.width o fun x o => do
          let p ← g x y
          o.setPixel P x y p)
      (do
        let n ← info.size P
        let data ← parCollect order n fun i => do
          let xy ← get2dCoords P i info.width
          g' xy.1 xy.2
        Image.fromVecOfVec P info.width info.height info.channels info.alpha data) := by
  have hsize : info.size P = .ok (info.width * info.height) := ImageInfo.size_eq P h
  have htask : ∀ i < info.width * info.height, (do
      let xy ← get2dCoords P i info.width
      g' xy.1 xy.2) = g (i % info.width) (i / info.width) := by
    intro i hi
    have hw : 0 < info.width := by
      rcases Nat.eq_zero_or_pos info.width with h0 | h0
      · rw [h0] at hi; omega
      · exact h0
    have hx : i % info.width < info.width := Nat.mod_lt _ hw
    have hy : i / info.width < info.height := Nat.div_lt_of_lt_mul hi
    have := c38_get_2d_coords_inv P (i % info.width) (i / info.width) info.width hx
    rw [Nat.div_add_mod'] at this
    rw [this, ok_bind, hg _ _ hx hy]
  have hxy : ∀ i < info.width * info.height, i % info.width < info.width ∧ i / info.width < info.height := by
    intro i hi
    have hw : 0 < info.width := by
      rcases Nat.eq_zero_or_pos info.width with h0 | h0
      · rw [h0] at hi; omega
      · exact h0
    exact ⟨Nat.mod_lt _ hw, Nat.div_lt_of_lt_mul hi⟩
  rw [hsize, ok_bind]
  by_cases hall : ∀ x y, x < info.width → y < info.height → Res.Returns (g x y)
  · -- every pixel computation returns
    have : ∃ G : Nat → Nat → List T, ∀ x y, x < info.width → y < info.height → g x y = .ok (G x y) := by
      refine ⟨fun x y => if h : x < info.width ∧ y < info.height then (hall x y h.1 h.2).choose else [], ?_⟩
      intro x y hx hy
      dsimp only
      rw [dif_pos ⟨hx, hy⟩]
      exact (hall x y hx hy).choose_spec
    obtain ⟨G, hG⟩ := this
    obtain ⟨b, out, e1, -, e2, hs⟩ := Image.fillAll_set P N h G
      (fun x y hx hy => hlen x y _ hx hy (hG x y hx hy)) (fun y x => g x y) (fun x y hx hy => hG x y hx hy)
    refine .of_ok (v := out) ?_ ?_
    · rw [e1, ok_bind]; exact e2
    · rw [parCollect_ok (fun i => G (i % info.width) (i / info.width)) ho
        (fun i hi => by rw [htask i hi]; exact hG _ _ (hxy i hi).1 (hxy i hi).2), ok_bind]
      unfold Image.fromVecOfVec
      rw [u32Mul_ok h.size, ok_bind, u32Mul_ok h.full, ok_bind]
      rw [forList_collect _ [] _ (fun v => v) (fun a _ acc => rfl), ok_bind, List.nil_append]
      congr 1
      have hf := Image.of_flatMap h (fun i => G (i % info.width) (i / info.width))
        (fun i hi => hlen _ _ _ (hxy i hi).1 (hxy i hi).2 (hG _ _ (hxy i hi).1 (hxy i hi).2))
      have e3 : (List.map (fun i => G (i % info.width) (i / info.width))
          (List.range (info.width * info.height))).flatMap (fun v => v) =
          (List.range (info.width * info.height)).flatMap (fun i => G (i % info.width) (i / info.width)) := by
        rw [List.flatMap_map]
      rw [e3]
      refine Image.Shows.ext (info := info) (f := G) ?_ hs
      refine hf.congr fun x y hx hy => ?_
      have hw : 0 < info.width := by omega
      rw [Nat.mul_comm, Nat.mul_add_mod, Nat.mod_eq_of_lt hx, Nat.mul_add_div hw, Nat.div_eq_of_lt hx, Nat.add_zero]
  · push Not at hall
    obtain ⟨x0, y0, hx0, hy0, hbad⟩ := hall
    refine .of_fail ?_ ?_ ?_ ?_
    · rintro ⟨v, hv⟩
      obtain ⟨b, -, h2⟩ := bind_eq_ok hv
      refine forRange_not_ok (Nat.zero_le y0) hy0 (fun s => forRange_not_ok (Nat.zero_le x0) hx0 (fun s => ?_) s) b ⟨v, h2⟩
      rintro ⟨w, hw⟩
      obtain ⟨p, h3, -⟩ := bind_eq_ok hw
      exact hbad ⟨p, h3⟩
    · rintro ⟨v, hv⟩
      obtain ⟨d, h1, -⟩ := bind_eq_ok hv
      refine parCollect_fail (i := y0 * info.width + x0) ho (row_lt hx0 hy0) ?_ ⟨d, h1⟩
      rw [htask _ (row_lt hx0 hy0)]
      have hw : 0 < info.width := by omega
      rw [Nat.mul_comm, Nat.mul_add_mod, Nat.mod_eq_of_lt hx0, Nat.mul_add_div hw, Nat.div_eq_of_lt hx0, Nat.add_zero]
      exact hbad
    · intro e he
      cases hb : Image.blank P N info with
      | error f => rw [hb] at he; exact NoErr.blank e (by cases he; exact hb)
      | ok b =>
        rw [hb, ok_bind] at he
        obtain ⟨y, s, hy1, hy2, he⟩ := forRange_error he
        obtain ⟨x, s, hx1, hx2, he⟩ := forRange_error he
        cases hgx : g x y with
        | error f => rw [hgx] at he; exact hne x y hx2 hy2 e (by cases he; exact hgx)
        | ok p => rw [hgx, ok_bind] at he; exact NoErr.setPixel e he
    · refine .bind (parCollect_noErr ho fun i hi => ?_) fun _ => .fromVecOfVec
      rw [htask i hi]
      exact hne _ _ (hxy i hi).1 (hxy i hi).2

/-- whatever the fill returns has the header it was asked for and is well formed -/
theorem fill_returns {T} {P : Profile} {N : RNum T} {info : ImageInfo} (h : info.WF)
    {g : Nat → Nat → Res (List T)}
    (hlen : ∀ x y p, x < info.width → y < info.height → g x y = .ok p → p.length = info.channels)
    {out : Image T} (hr : (do
        let b ← Image.blank P N info
        forRange 0 info.height b fun y o => forRange 0 info.width o fun x o => do
          let p ← g x y
          o.setPixel P x y p) = .ok out) : out.WF ∧ out.info = info := by
  by_cases hall : ∀ x y, x < info.width → y < info.height → Res.Returns (g x y)
  · have : ∃ G : Nat → Nat → List T, ∀ x y, x < info.width → y < info.height → g x y = .ok (G x y) := by
      refine ⟨fun x y => if h : x < info.width ∧ y < info.height then (hall x y h.1 h.2).choose else [], ?_⟩
      intro x y hx hy
      dsimp only
      rw [dif_pos ⟨hx, hy⟩]
      exact (hall x y hx hy).choose_spec
    obtain ⟨G, hG⟩ := this
    obtain ⟨b, o, e1, -, e2, hs⟩ := Image.fillAll_set P N h G
      (fun x y hx hy => hlen x y _ hx hy (hG x y hx hy)) (fun y x => g x y) (fun x y hx hy => hG x y hx hy)
    rw [e1, ok_bind, e2] at hr
    cases hr
    exact ⟨hs.WF, hs.info_eq⟩
  · push Not at hall
    obtain ⟨x0, y0, hx0, hy0, hbad⟩ := hall
    exfalso
    obtain ⟨b, -, h2⟩ := bind_eq_ok hr
    refine forRange_not_ok (Nat.zero_le y0) hy0 (fun s => forRange_not_ok (Nat.zero_le x0) hx0 (fun s => ?_) s) b ⟨out, h2⟩
    rintro ⟨w, hw⟩
    obtain ⟨p, h3, -⟩ := bind_eq_ok hw
    exact hbad ⟨p, h3⟩

/-- in a debug build an output too large for its `u32` sizes panics both ways -/
theorem par_same_debug {T} (N : RNum T) {info : ImageInfo} (hw : info.width < U32SIZE)
    (hh : info.height < U32SIZE) (hc : info.channels < 256)
    (g : Nat → Nat → Res (List T))
    (hne : ∀ x y, NoErr (g x y))
    (hlen : ∀ x y p, g x y = .ok p → p.length = info.channels)
    {order : List Nat} (ho : order.Perm (List.range (info.width * info.height))) :
    SameOutcome
      (do
        let b ← Image.blank .debug N info
        forRange 0 info.height b fun y o => forRange 0 info.width o fun x o => do
          let p ← g x y
          o.setPixel .debug x y p)
      (do
        let n ← info.size .debug
        let data ← parCollect order n fun i => do
          let xy ← get2dCoords .debug i info.width
          g xy.1 xy.2
        Image.fromVecOfVec .debug info.width info.height info.channels info.alpha data) := by
  by_cases hs : info.width * info.height < U32SIZE ∧ info.width * info.height * info.channels < U32SIZE
  · exact par_same .debug N ⟨hw, hh, hc, hs.1, hs.2⟩ g g (fun _ _ _ _ => rfl) (fun x y _ _ => hne x y)
      (fun x y p _ _ => hlen x y p) ho
  · have h2 : ¬ Res.Returns (do
        let a ← u32Mul .debug info.width info.height
        u32Mul .debug a info.channels) := by
      rintro ⟨v, hv⟩
      obtain ⟨a, h1, h2⟩ := bind_eq_ok hv
      unfold u32Mul wrapNat at h1 h2
      split at h1
      · cases h1
        split at h2
        · exact hs ⟨by assumption, by assumption⟩
        · cases h2
      · cases h1
    refine .of_fail ?_ ?_ ?_ ?_
    · rintro ⟨v, hv⟩
      obtain ⟨b, h1, -⟩ := bind_eq_ok hv
      unfold Image.blank ImageInfo.fullSize at h1
      obtain ⟨n, h3, -⟩ := bind_eq_ok h1
      exact h2 ⟨n, h3⟩
    · rintro ⟨v, hv⟩
      obtain ⟨n, h1, h3⟩ := bind_eq_ok hv
      obtain ⟨d, h4, h5⟩ := bind_eq_ok h3
      unfold Image.fromVecOfVec at h5
      obtain ⟨a, h6, h7⟩ := bind_eq_ok h5
      obtain ⟨m, h8, h9⟩ := bind_eq_ok h7
      exact h2 ⟨m, by rw [h6, ok_bind]; exact h8⟩
    · exact .bind .blank fun _ => .forRange fun _ _ => .forRange fun _ _ => .bind (hne _ _) fun _ => .setPixel
    · exact .bind .size fun _ => .bind (.parCollect fun _ => .bind .get2dCoords fun _ => hne _ _) fun _ => .fromVecOfVec

theorem forRange_inv {σ} {a b : Nat} {s s' : σ} {f : Nat → σ → Res σ} (I : Nat → σ → Prop) (hab : a ≤ b)
    (hf : ∀ k s s', a ≤ k → k < b → I k s → f k s = .ok s' → I (k + 1) s') (h0 : I a s)
    (h : forRange a b s f = .ok s') : I b s' := by
  obtain ⟨d, hd⟩ : ∃ d, d = b - a := ⟨_, rfl⟩
  induction d generalizing a s with
  | zero =>
    rw [forRange_empty (by omega)] at h; cases h
    have : a = b := by omega
    rw [← this]; exact h0
  | succ d ih =>
    rw [forRange_cons (by omega)] at h
    cases hgs : f a s with
    | error e => rw [hgs] at h; cases h
    | ok s1 =>
      rw [hgs, ok_bind] at h
      exact ih (by omega) (fun k s s' h1 h2 => hf k s s' (by omega) h2)
        (hf a s s1 (Nat.le_refl _) (by omega) h0 hgs) h (by omega)

theorem setIdx_length {α} {l l' : List α} {i : Nat} {v : α} (h : setIdx l i v = .ok l') : l'.length = l.length := by
  unfold setIdx at h
  split at h
  · cases h; simp
  · cases h
theorem slice_length {α} {l p : List α} {a b : Nat} (h : slice l a b = .ok p) : p.length = b - a := by
  unfold slice at h
  split at h
  · rename_i hc
    cases h
    simp only [List.length_take, List.length_drop]
    omega
  · cases h

end Imgproc

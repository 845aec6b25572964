import Verif.Proofs.MedianHist
import Verif.Proofs.Fill
/-! The column loops of the median filter. -/
namespace Imgproc

/-- one histogram per channel -/
def AllHold (hists : List MedianHist) (n r h : Nat) (C : Nat → Nat → Nat → Int) (S : Nat → Nat → Int) (piv : Nat → Nat → Nat) : Prop :=
  hists.length = n ∧ ∀ c H, hists[c]? = some H → MHolds H r h (C c) (S c) (piv c)

theorem forEnum_map_rule {α : Type} {l : List α} {f : Nat → α → Res α} (Q : Nat → α → Prop)
    (hf : ∀ c a, l[c]? = some a → ∃ a', f c a = .ok a' ∧ Q c a') :
    ∃ l', (forEnum l 0 [] fun c a acc => do
        let a' ← f c a
        .ok (acc ++ [a'])) = .ok l' ∧ l'.length = l.length ∧ ∀ c a, l'[c]? = some a → Q c a := by
  refine (forEnum_rule (l := l) (s := []) (f := fun c a acc => do
        let a' ← f c a
        .ok (acc ++ [a'])) (fun k s => s.length = k ∧ ∀ c a, s[c]? = some a → Q c a) ⟨rfl, by simp⟩ ?_)
  rintro k a s hk ⟨rfl, hQ⟩
  obtain ⟨a', e, q⟩ := hf _ a hk
  refine ⟨s ++ [a'], by rw [e, ok_bind], by simp, ?_⟩
  intro c b hb
  rcases Nat.lt_trichotomy c s.length with h1 | h1 | h1
  · rw [List.getElem?_append_left h1] at hb; exact hQ c b hb
  · subst h1; simp at hb; subst hb; exact q
  · rw [List.getElem?_append_right h1.le] at hb
    rw [List.getElem?_eq_none (by simp; omega)] at hb; cases hb

theorem forHists_rule {α : Type} {hists : List α} {f : Nat → α → List UInt8 → Res (α × List UInt8)} (o : Nat → UInt8)
    (Q : Nat → α → Prop)
    (hf : ∀ c a pOut, hists[c]? = some a → ∃ a', f c a pOut = .ok (a', pOut ++ [o c]) ∧ Q c a') :
    ∃ l', forHists hists f = .ok (l', (List.range hists.length).map o) ∧ l'.length = hists.length ∧ ∀ c a, l'[c]? = some a → Q c a := by
  obtain ⟨s, e, h1, h2, h3⟩ := forEnum_rule (l := hists) (s := (([] : List α), ([] : List UInt8))) (f := fun c h acc => do
    let r ← f c h acc.2
    .ok (acc.1 ++ [r.1], r.2)) (fun k s => s.1.length = k ∧ s.2 = (List.range k).map o ∧ ∀ c a, s.1[c]? = some a → Q c a) ⟨rfl, rfl, by simp⟩ (by
      rintro k a ⟨s1, s2⟩ hk ⟨h1, h2, hQ⟩
      dsimp only at h1 h2 hQ
      subst h1 h2
      obtain ⟨a', e, q⟩ := hf _ a ((List.range s1.length).map o) hk
      refine ⟨(s1 ++ [a'], _), by dsimp only; rw [e, ok_bind], by simp, by rw [List.range_succ, List.map_append]; rfl, ?_⟩
      intro c b hb
      dsimp only at hb
      rcases Nat.lt_trichotomy c s1.length with h1 | h1 | h1
      · rw [List.getElem?_append_left h1] at hb; exact hQ c b hb
      · subst h1; simp at hb; subst hb; exact q
      · rw [List.getElem?_append_right h1.le] at hb
        rw [List.getElem?_eq_none (by simp; omega)] at hb; cases hb)
  refine ⟨s.1, ?_, h1, h3⟩
  unfold forHists
  rw [e, ← h2]

theorem setPivots_rule {hists : List MedianHist} {n r h : Nat} {C : Nat → Nat → Nat → Int} {S : Nat → Nat → Int} {piv : Nat → Nat → Nat}
    (A : AllHold hists n r h C S piv) {i : Nat} (hi : i ≤ 2 * h) {q : Nat → Nat} (hq : ∀ c, q c < 256) :
    ∃ hs, setPivotsMed hists ((List.range n).map fun c => UInt8.ofNat (q c)) i = .ok hs ∧
      AllHold hs n r h C S (fun c k => if k = i then q c else piv c k) := by
  obtain ⟨hl, A⟩ := A
  unfold setPivotsMed
  rw [List.length_map, List.length_range]
  obtain ⟨hs, e, h1, h2⟩ := forRange_rule (a := 0) (b := n) (s := hists) (f := fun c hists => do
      let p ← idx ((List.range n).map fun c => UInt8.ofNat (q c)) c
      let h ← idx hists c
      let h' ← h.setPivot p i
      setIdx hists c h')
    (fun m s => s.length = n ∧ ∀ c H, s[c]? = some H → MHolds H r h (C c) (S c) (fun k => if c < m ∧ k = i then q c else piv c k)) (Nat.zero_le _)
    ⟨hl, fun c H hc => by simpa using A c H hc⟩
    (by
      rintro m s _ hm ⟨h1, h2⟩
      have hm' : m < s.length := by omega
      have B := h2 m s[m] (List.getElem?_eq_getElem hm')
      obtain ⟨H', e, B'⟩ := B.setPivot hi (hq m)
      refine ⟨s.set m H', ?_, by simpa using h1, ?_⟩
      · rw [idx_map_range _ hm, ok_bind, idx_ok hm', ok_bind, e, ok_bind, setIdx_ok hm']
      · intro c H hc
        rw [List.getElem?_set] at hc
        by_cases hcm : m = c
        · subst hcm
          rw [if_pos rfl, if_pos hm'] at hc
          injection hc with hc
          subst hc
          have e2 : (fun k => if m < m + 1 ∧ k = i then q m else piv m k) =
              fun k => if k = i then q m else if m < m ∧ k = i then q m else piv m k := by
            funext k
            by_cases hk : k = i <;> simp [hk]
          rw [e2]; exact B'
        · rw [if_neg hcm] at hc
          have := h2 c H hc
          have e2 : (fun k => if c < m + 1 ∧ k = i then q c else piv c k) = fun k => if c < m ∧ k = i then q c else piv c k := by
            funext k
            have : c < m + 1 ↔ c < m := by omega
            simp only [this]
          rw [e2]; exact this)
  refine ⟨hs, e, h1, fun c H hc => ?_⟩
  have hcn : c < n := by
    rcases Nat.lt_or_ge c n with h | h
    · exact h
    · rw [List.getElem?_eq_none (by omega)] at hc; cases hc
  simpa [hcn] using h2 c H hc

theorem writeClamped_shows (P : Profile) {out : Image UInt8} {info : ImageInfo} {f : Nat → Nat → List UInt8} (hs : out.Shows info f)
    {x i y : Nat} {p : List UInt8} (hx : x + i < 4294967296) (hW : 0 < info.width) (hy : y < info.height) (hp : p.length = info.channels) :
    ∃ out', writeClamped P out x i y p = .ok out' ∧
      out'.Shows info (fun x' y' => if x' = min (x + i) (info.width - 1) ∧ y' = y then p else f x' y') := by
  obtain ⟨wf, rfl, hf⟩ := Image.shows_iff.1 hs
  have hxc : min (x + i) (out.info.width - 1) < out.info.width := by omega
  refine ⟨out.write (y * out.info.width + min (x + i) (out.info.width - 1)) p, ?_, ?_⟩
  · unfold writeClamped usizeToU32
    rw [Nat.mod_eq_of_lt (by omega), u32Add_ok (by omega), ok_bind, u32Sub_ok (by omega), ok_bind]
    unfold natClamp
    rw [if_pos (Nat.zero_le _), ok_bind, if_neg (by omega),
      show (if x + i > out.info.width - 1 then out.info.width - 1 else x + i) = min (x + i) (out.info.width - 1) by split <;> omega]
    exact Image.setPixel_eq P wf hxc hy hp
  · refine Image.shows_iff.2 ⟨Image.write_WF wf (row_lt hxc hy) hp, rfl, fun x' y' hx' hy' => ?_⟩
    rw [Image.px_write wf hxc hy hx' hy' hp]
    have := hf x' y' hx' hy'
    by_cases h : x' = min (x + i) (out.info.width - 1) ∧ y' = y
    · rw [if_pos h]; rw [if_pos (by tauto)]
    · rw [if_neg h]; rw [if_neg (by tauto)]; exact this

/-- the column loop of `init_cols_med` and `process_row_med`, for any scan that finds `T c i` -/
theorem column_loop (P : Profile) {n r h x0 y : Nat} {C : Nat → Nat → Nat → Int} {S : Nat → Nat → Int} {piv T : Nat → Nat → Nat}
    {body : Nat → Nat → MedianHist → List UInt8 → Res (MedianHist × List UInt8)}
    (hbody : ∀ i c H S' piv', i ≤ 2 * h → c < n → MHolds H r h (C c) S' piv' → S' i = S c i → piv' i = piv c i → ∀ pOut,
      ∃ H', body i c H pOut = .ok (H', pOut ++ [UInt8.ofNat (T c i)]) ∧
        MHolds H' r h (C c) (fun k => if k = i then below (C c i) (T c i) else S' k) piv')
    (hT : ∀ c i, T c i < 256)
    {hists : List MedianHist} (A : AllHold hists n r h C S piv)
    {out : Image UInt8} {info : ImageInfo} {f : Nat → Nat → List UInt8} (hs : out.Shows info f)
    (hn : n = info.channels) (hx0 : x0 < info.width) (hfit : x0 + 2 * h + 1 < 4294967296) (hy : y < info.height) :
    ∃ s, (forRange 0 (2 * h + 1) (out, hists) fun i s => do
      let (hists, pOut) ← forHists s.2 (body i)
      let output ← writeClamped P s.1 x0 i y pOut
      let hists ← setPivotsMed hists pOut i
      .ok (output, hists)) = .ok s ∧
      AllHold s.2 n r h C (fun c k => if k ≤ 2 * h then below (C c k) (T c k) else S c k) (fun c k => if k ≤ 2 * h then T c k else piv c k) ∧
      s.1.Shows info (fun x' y' => if y' = y ∧ x0 ≤ x' ∧ x' < x0 + (2 * h + 1) then
        (List.range n).map (fun c => UInt8.ofNat (T c (if x' = info.width - 1 then 2 * h else x' - x0))) else f x' y') := by
  obtain ⟨s, e, h1, h2⟩ := forRange_rule (a := 0) (b := 2 * h + 1) (s := (out, hists)) (f := fun i s => do
      let (hists, pOut) ← forHists s.2 (body i)
      let output ← writeClamped P s.1 x0 i y pOut
      let hists ← setPivotsMed hists pOut i
      .ok (output, hists))
    (fun m s => AllHold s.2 n r h C (fun c k => if k < m then below (C c k) (T c k) else S c k) (fun c k => if k < m then T c k else piv c k) ∧
      s.1.Shows info (fun x' y' => if y' = y ∧ x0 ≤ x' ∧ x' < x0 + m then
        (List.range n).map (fun c => UInt8.ofNat (T c (if x' = info.width - 1 then m - 1 else x' - x0))) else f x' y'))
    (Nat.zero_le _)
    ⟨by simpa using A, by
      refine hs.congr fun x' y' _ _ => ?_
      rw [if_neg (by omega)]⟩
    (by
      rintro m ⟨out, hists⟩ _ hm ⟨⟨hl, B⟩, hs⟩
      dsimp only at hl B hs ⊢
      obtain ⟨l1, e1, hl1, B1⟩ := forHists_rule (hists := hists) (f := body m) (fun c => UInt8.ofNat (T c m))
        (fun c H => MHolds H r h (C c) (fun k => if k < m + 1 then below (C c k) (T c k) else S c k) (fun k => if k < m then T c k else piv c k))
        (by
          intro c a pOut hc
          have hcn : c < n := by
            rcases Nat.lt_or_ge c n with h | h
            · exact h
            · rw [List.getElem?_eq_none (by omega)] at hc; cases hc
          obtain ⟨H', e, D⟩ := hbody m c a _ _ (by omega) hcn (B c a hc) (by simp) (by simp) pOut
          refine ⟨H', e, ?_⟩
          have e2 : (fun k => if k < m + 1 then below (C c k) (T c k) else S c k) =
              fun k => if k = m then below (C c m) (T c m) else if k < m then below (C c k) (T c k) else S c k := by
            funext k
            by_cases hk : k = m
            · subst hk; simp
            · have : k < m + 1 ↔ k < m := by omega
              simp only [this, if_neg hk]
          rw [e2]; exact D)
      rw [hl] at e1 hl1
      obtain ⟨out', e2, hs'⟩ := writeClamped_shows P hs (x := x0) (i := m) (y := y) (p := (List.range n).map fun c => UInt8.ofNat (T c m))
        (by omega) (by omega) hy (by simp [hn])
      obtain ⟨l2, e3, B2⟩ := setPivots_rule (hists := l1) ⟨hl1, B1⟩ (i := m) (by omega) (q := fun c => T c m) (fun c => hT c m)
      refine ⟨(out', l2), ?_, ?_, ?_⟩
      · rw [e1, ok_bind]
        dsimp only
        rw [e2, ok_bind, e3, ok_bind]
      · have e2 : (fun c k => if k < m + 1 then T c k else piv c k) =
              fun c k => if k = m then T c m else if k < m then T c k else piv c k := by
            funext c k
            by_cases hk : k = m
            · subst hk; simp
            · have : k < m + 1 ↔ k < m := by omega
              simp only [this, if_neg hk]
        rw [e2]; exact B2
      · refine hs'.congr fun x' y' hx' hy' => ?_
        rw [Nat.add_sub_cancel]
        by_cases hyy : y' = y
        · by_cases hxx : x' = min (x0 + m) (info.width - 1)
          · rw [if_pos ⟨hxx, hyy⟩, if_pos (by omega)]
            by_cases hw : x' = info.width - 1
            · rw [if_pos hw]
            · rw [if_neg hw, show x' - x0 = m by omega]
          · rw [if_neg (by tauto)]
            by_cases hr : x0 ≤ x' ∧ x' < x0 + m
            · rw [if_pos ⟨hyy, hr⟩, if_pos (show y' = y ∧ x0 ≤ x' ∧ x' < x0 + (m + 1) by omega)]
              have hw : ¬ x' = info.width - 1 := by omega
              rw [if_neg hw, if_neg hw]
            · rw [if_neg (show ¬ (y' = y ∧ x0 ≤ x' ∧ x' < x0 + m) by tauto),
                if_neg (show ¬ (y' = y ∧ x0 ≤ x' ∧ x' < x0 + (m + 1)) by omega)]
        · rw [if_neg (by tauto), if_neg (by tauto), if_neg (by tauto)])
  refine ⟨s, e, ?_, ?_⟩
  · have : ∀ k, k ≤ 2 * h ↔ k < 2 * h + 1 := by intro k; omega
    simp only [this]; exact h1
  · exact h2
end Imgproc

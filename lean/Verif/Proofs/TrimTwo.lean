import Verif.Proofs.TrimConst
/-! The alpha-trimmed mean filter with one value trimmed at each end: adding and removing values. -/
namespace Imgproc
open FloatOps

/-- **Specification**: the contract of std's `binary_search` on sorted slices: a found position holds the value; otherwise the
position is where the value can be inserted, and the value does not occur. (`desc`: the same with the order reversed.) -/
structure BinSearch.Spec (bs : BinSearch) : Prop where
  asc_ok : ∀ l v i, l.Pairwise (· ≤ ·) → bs.asc l v = .ok i → l[i]? = some v
  asc_err : ∀ l v i, l.Pairwise (· ≤ ·) → bs.asc l v = .error i →
    i ≤ l.length ∧ ∀ j x, l[j]? = some x → x ≠ v ∧ (j < i ↔ x < v)
  desc_ok : ∀ l v i, l.Pairwise (· ≥ ·) → bs.desc l v = .ok i → l[i]? = some v
  desc_err : ∀ l v i, l.Pairwise (· ≥ ·) → bs.desc l v = .error i →
    i ≤ l.length ∧ ∀ j x, l[j]? = some x → x ≠ v ∧ (j < i ↔ v < x)

namespace BinSearch.Spec
variable {bs : BinSearch} (B : bs.Spec)
include B

theorem asc_nil (v : UInt8) : MeanHist.posOf (bs.asc [] v) = 0 := by
  cases e : bs.asc [] v with
  | ok i => have := B.asc_ok [] v i List.Pairwise.nil e; simp at this
  | error i => have := (B.asc_err [] v i List.Pairwise.nil e).1; simpa [MeanHist.posOf] using this

theorem asc_single {a v : UInt8} (h : v ≠ a) : ∃ i, bs.asc [a] v = .error i := by
  cases e : bs.asc [a] v with
  | error i => exact ⟨i, rfl⟩
  | ok i =>
    have := B.asc_ok [a] v i (List.pairwise_singleton _ _) e
    cases i with
    | zero => injection this with this; exact absurd this.symm h
    | succ i => simp at this

theorem desc_single {a v : UInt8} (h : a < v) : bs.desc [a] v = .error 0 := by
  cases e : bs.desc [a] v with
  | error i =>
    have := B.desc_err [a] v i (List.pairwise_singleton _ _) e
    have h2 := (this.2 0 a rfl).2
    have : i = 0 := by
      rcases Nat.eq_zero_or_pos i with h0 | h0
      · exact h0
      · exact absurd (h2.1 h0) (fun h' => UInt8.lt_irrefl _ (UInt8.lt_trans h h'))
    rw [this]
  | ok i =>
    have := B.desc_ok [a] v i (List.pairwise_singleton _ _) e
    cases i with
    | zero => injection this with this; rw [this] at h; exact absurd h (UInt8.lt_irrefl _)
    | succ i => simp at this
end BinSearch.Spec

/-- state of one histogram: per column one trimmed value at each end -/
def Two {F : Type} (H : MeanHist F) (r h : Nat) (len : F) (C : Nat → Nat → Int) (S : Nat → Int) (a b : Nat → UInt8) : Prop :=
  THolds H r h 1 len C S (fun k => [a k]) (fun k => [b k])

/-- function update -/
def setAt {α : Type} (f : Nat → α) (k : Nat) (x : α) : Nat → α := fun j => if j = k then x else f j

theorem setAt_self {α : Type} (f : Nat → α) (k : Nat) (x : α) : setAt f k x k = x := by unfold setAt; rw [if_pos rfl]
theorem setAt_ne {α : Type} (f : Nat → α) {k j : Nat} (x : α) (h : j ≠ k) : setAt f k x j = f j := by unfold setAt; rw [if_neg h]
theorem setAt_same {α : Type} (f : Nat → α) (k : Nat) : setAt f k (f k) = f := by
  funext j; unfold setAt; split
  · subst j; rfl
  · rfl

section
variable {F : Type} [FloatOps F] (bs : BinSearch) (P : Profile) {H : MeanHist F} {r h : Nat} {len : F} {C : Nat → Nat → Int} {S : Nat → Int} {a b : Nat → UInt8}

omit [FloatOps F] in
theorem Two.lowerAt (A : Two H r h len C S a b) {k : Nat} (hk : k ≤ 2 * h) : H.lowerAt P k = .ok (a k) := by
  unfold MeanHist.lowerAt
  rw [A.lower, idx_map_range _ (by omega), ok_bind, A.trim, usizeSub_ok (by omega), ok_bind, idx_ok (by simp)]
  rfl

omit [FloatOps F] in
theorem Two.upperAt (A : Two H r h len C S a b) {k : Nat} (hk : k ≤ 2 * h) : H.upperAt P k = .ok (b k) := by
  unfold MeanHist.upperAt
  rw [A.upper, idx_map_range _ (by omega), ok_bind, A.trim, usizeSub_ok (by omega), ok_bind, idx_ok (by simp)]
  rfl

variable {L U : Nat → List UInt8}

omit [FloatOps F] in
theorem THolds.addSum (A : THolds H r h 1 len C S L U) {k : Nat} (hk : k ≤ 2 * h) {d : Int} (h1 : -2147483648 ≤ S k + d) (h2 : S k + d < 2147483648) :
    ∃ H', H.addSum P k d = .ok H' ∧ THolds H' r h 1 len C (setAt S k (S k + d)) L U := by
  unfold MeanHist.addSum
  rw [A.sums, idx_map_range _ (by omega), ok_bind, i32Add_ok (by omega) (by omega), ok_bind, setIdx_ok (by simp; omega), ok_bind, set_map_range]
  exact ⟨_, rfl, A.data, rfl, A.lower, A.upper, A.trim, A.len⟩

omit [FloatOps F] in
theorem THolds.subSum (A : THolds H r h 1 len C S L U) {k : Nat} (hk : k ≤ 2 * h) {d : Int} (h1 : -2147483648 ≤ S k - d) (h2 : S k - d < 2147483648) :
    ∃ H', H.subSum P k d = .ok H' ∧ THolds H' r h 1 len C (setAt S k (S k - d)) L U := by
  unfold MeanHist.subSum
  rw [A.sums, idx_map_range _ (by omega), ok_bind, i32Sub_ok (by omega) (by omega), ok_bind, setIdx_ok (by simp; omega), ok_bind, set_map_range]
  exact ⟨_, rfl, A.data, rfl, A.lower, A.upper, A.trim, A.len⟩

omit [FloatOps F] in
theorem THolds.editLower (A : THolds H r h 1 len C S L U) {k : Nat} (hk : k ≤ 2 * h) {f : List UInt8 → Res (List UInt8)} {l : List UInt8} (hf : f (L k) = .ok l) :
    ∃ H', H.editLower k f = .ok H' ∧ THolds H' r h 1 len C S (setAt L k l) U := by
  unfold MeanHist.editLower
  rw [A.lower, idx_map_range _ (by omega), ok_bind, hf, ok_bind, setIdx_ok (by simp; omega), ok_bind, set_map_range]
  exact ⟨_, rfl, A.data, A.sums, rfl, A.upper, A.trim, A.len⟩

omit [FloatOps F] in
theorem THolds.editUpper (A : THolds H r h 1 len C S L U) {k : Nat} (hk : k ≤ 2 * h) {f : List UInt8 → Res (List UInt8)} {l : List UInt8} (hf : f (U k) = .ok l) :
    ∃ H', H.editUpper k f = .ok H' ∧ THolds H' r h 1 len C S L (setAt U k l) := by
  unfold MeanHist.editUpper
  rw [A.upper, idx_map_range _ (by omega), ok_bind, hf, ok_bind, setIdx_ok (by simp; omega), ok_bind, set_map_range]
  exact ⟨_, rfl, A.data, A.sums, A.lower, rfl, A.trim, A.len⟩

omit [FloatOps F] in
theorem THolds.congrLU (A : THolds H r h 1 len C S L U) {L' U' : Nat → List UInt8} (hL : ∀ k, L k = L' k) (hU : ∀ k, U k = U' k) :
    THolds H r h 1 len C S L' U' := by
  have e1 : L = L' := funext hL
  have e2 : U = U' := funext hU
  rw [← e1, ← e2]; exact A

/-- the smallest and the largest value of the list, and the sum of the others -/
def Tri (W : List Nat) (a b : UInt8) (s : Int) : Prop :=
  a.toNat ∈ W ∧ b.toNat ∈ W ∧ (∀ v ∈ W, a.toNat ≤ v ∧ v ≤ b.toNat) ∧ s = (W.sum : Int) - a.toNat - b.toNat

theorem Tri.perm {W W' : List Nat} {a b : UInt8} {s : Int} (T : Tri W a b s) (p : W.Perm W') : Tri W' a b s := by
  obtain ⟨h1, h2, h3, h4⟩ := T
  exact ⟨p.mem_iff.1 h1, p.mem_iff.1 h2, fun v hv => h3 v (p.mem_iff.2 hv), by rw [h4, p.sum_eq]⟩

theorem listSum_le_255 {W : List Nat} (h : ∀ v ∈ W, v < 256) : W.sum ≤ W.length * 255 := by
  have := List.sum_le_card_nsmul W 255 (fun v hv => by have := h v hv; omega)
  simpa using this

theorem Tri.bounds {W : List Nat} {a b : UInt8} {s : Int} (T : Tri W a b s) : -510 ≤ s ∧ s ≤ W.length * 255 := by
  obtain ⟨h1, h2, h3, h4⟩ := T
  have ha := a.toNat_lt
  have hb := b.toNat_lt
  have := listSum_le_255 (W := W) (fun v hv => by have := h3 v hv; omega)
  have : (W.sum : Int) ≤ W.length * 255 := by exact_mod_cast this
  omega

/-- one value is added -/
theorem Two.addValue (B : bs.Spec) (A : Two H r h len C S a b) {k : Nat} (hk : k ≤ 2 * h) {W : List Nat} (T : Tri W (a k) (b k) (S k)) (v : UInt8)
    (hfit : (W.length + 1) * 255 < 2147483648) :
    ∃ H' S' a' b', H.addValue bs P k v = .ok H' ∧ Two H' r h len C S' a' b' ∧ Tri (W ++ [v.toNat]) (a' k) (b' k) (S' k) ∧
      ∀ j, j ≠ k → a' j = a j ∧ b' j = b j ∧ S' j = S j := by
  have bnd := T.bounds
  obtain ⟨t1, t2, t3, t4⟩ := T
  have hv := v.toNat_lt
  have ha := (a k).toNat_lt
  have hb := (b k).toNat_lt
  have hab : (a k).toNat ≤ (b k).toNat := (t3 _ t1).2
  have hlen : ((W.length : Int) + 1) * 255 < 2147483648 := by exact_mod_cast hfit
  unfold MeanHist.addValue
  rw [A.lowerAt P hk, ok_bind, A.upperAt P hk, ok_bind]
  by_cases h1 : v < a k
  · have h1' : v.toNat < (a k).toNat := h1
    rw [if_pos h1, A.trim, usizeSub_ok (by omega), ok_bind]
    obtain ⟨H1, e1, A1⟩ := THolds.editLower A hk (f := fun l => vecRemove l (1 - 1)) (l := []) rfl
    rw [e1, ok_bind]
    obtain ⟨H2, e2, A2⟩ := A1.addSum P hk (d := ((a k).toNat : Int)) (by omega) (by omega)
    rw [e2, ok_bind]
    obtain ⟨H3, e3, A3⟩ := A2.editLower hk (f := fun l => vecInsert l (MeanHist.posOf (bs.asc l v)) v) (l := [v])
      (by rw [setAt_self, B.asc_nil]; rfl)
    refine ⟨H3, setAt S k (S k + (a k).toNat), setAt a k v, b, e3, A3.congrLU (fun j => ?_) (fun _ => rfl), ⟨?_, ?_, ?_, ?_⟩, fun j hj => ⟨setAt_ne _ _ hj, rfl, setAt_ne _ _ hj⟩⟩
    · by_cases hj : j = k
      · subst hj; rw [setAt_self, setAt_self]
      · rw [setAt_ne _ _ hj, setAt_ne _ _ hj, setAt_ne _ _ hj]
    · rw [setAt_self]; simp
    · exact List.mem_append_left _ t2
    · intro w hw
      rw [setAt_self]
      rcases List.mem_append.1 hw with hw | hw
      · have := t3 w hw; omega
      · rw [List.mem_singleton.1 hw]; omega
    · rw [setAt_self, setAt_self, t4, List.sum_append, Nat.cast_add, List.sum_singleton]; ring
  · have h1' : (a k).toNat ≤ v.toNat := Nat.le_of_not_lt h1
    rw [if_neg h1]
    by_cases h2 : v > b k
    · have h2' : (b k).toNat < v.toNat := h2
      rw [if_pos h2, A.trim, usizeSub_ok (by omega), ok_bind]
      obtain ⟨H1, e1, A1⟩ := THolds.editUpper A hk (f := fun l => vecRemove l (1 - 1)) (l := []) rfl
      rw [e1, ok_bind]
      obtain ⟨H2, e2, A2⟩ := A1.addSum P hk (d := ((b k).toNat : Int)) (by omega) (by omega)
      rw [e2, ok_bind, A2.lower, idx_map_range _ (by omega), ok_bind]
      obtain ⟨H3, e3, A3⟩ := A2.editUpper hk (f := fun l => vecInsert l (MeanHist.posOf (bs.desc [a k] v)) v) (l := [v])
        (by
          rw [setAt_self, B.desc_single (show a k < v from by show (a k).toNat < v.toNat; omega)]; rfl)
      refine ⟨H3, setAt S k (S k + (b k).toNat), a, setAt b k v, e3, A3.congrLU (fun _ => rfl) (fun j => ?_), ⟨?_, ?_, ?_, ?_⟩, fun j hj => ⟨rfl, setAt_ne _ _ hj, setAt_ne _ _ hj⟩⟩
      · by_cases hj : j = k
        · subst hj; rw [setAt_self, setAt_self]
        · rw [setAt_ne _ _ hj, setAt_ne _ _ hj, setAt_ne _ _ hj]
      · exact List.mem_append_left _ t1
      · rw [setAt_self]; simp
      · intro w hw
        rw [setAt_self]
        rcases List.mem_append.1 hw with hw | hw
        · have := t3 w hw; omega
        · rw [List.mem_singleton.1 hw]; omega
      · rw [setAt_self, setAt_self, t4, List.sum_append, Nat.cast_add, List.sum_singleton]; ring
    · have h2' : v.toNat ≤ (b k).toNat := Nat.le_of_not_lt h2
      rw [if_neg h2]
      obtain ⟨H2, e2, A2⟩ := THolds.addSum P A hk (d := (v.toNat : Int)) (by omega) (by omega)
      refine ⟨H2, _, a, b, e2, A2, ⟨List.mem_append_left _ t1, List.mem_append_left _ t2, ?_, ?_⟩, fun j hj => ⟨rfl, rfl, setAt_ne _ _ hj⟩⟩
      · intro w hw
        rcases List.mem_append.1 hw with hw | hw
        · exact t3 w hw
        · rw [List.mem_singleton.1 hw]; omega
      · rw [setAt_self, t4, List.sum_append, Nat.cast_add, List.sum_singleton]; ring

/-! ### removal -/

/-- while the values `R` are being removed, `Q` being what stays: the trimmed values enclose `Q`, and the sum is that of
everything but them -/
def Mid (Q R : List Nat) (a b : UInt8) (s : Int) : Prop :=
  (∀ v ∈ Q, a.toNat ≤ v ∧ v ≤ b.toNat) ∧ a.toNat ∈ Q ++ R ∧ b.toNat ∈ Q ++ R ∧ s = ((Q ++ R).sum : Int) - a.toNat - b.toNat

theorem Mid.of_tri {W Q R : List Nat} {a b : UInt8} {s : Int} (T : Tri W a b s) (p : W.Perm (Q ++ R)) : Mid Q R a b s := by
  obtain ⟨h1, h2, h3, h4⟩ := T.perm p
  exact ⟨fun v hv => h3 v (List.mem_append_left _ hv), h1, h2, h4⟩

theorem Mid.tri {Q : List Nat} {a b : UInt8} {s : Int} (T : Mid Q [] a b s) : Tri Q a b s := by
  obtain ⟨h1, h2, h3, h4⟩ := T
  rw [List.append_nil] at h2 h3 h4
  exact ⟨h2, h3, h1, h4⟩

theorem count_rest (P : Profile) (lo hi : UInt8) : ∀ (R : List UInt8) (lc uc : Int), 0 ≤ lc → lc + R.length < 2147483648 → 0 ≤ uc → uc + R.length < 2147483648 →
    forList R (lc, uc) (fun v s =>
      if v == lo then do
        let a ← i32Add P s.1 1
        .ok (a, s.2)
      else if v == hi then do
        let a ← i32Add P s.2 1
        .ok (s.1, a)
      else .ok s) = .ok (lc + R.count lo, uc + if hi = lo then 0 else (R.count hi : Int)) := by
  intro R
  induction R with
  | nil => intro lc uc _ _ _ _; simp [forList]
  | cons v R ih =>
    intro lc uc h1 h2 h3 h4
    rw [List.length_cons] at h2 h4
    push_cast at h2 h4
    rw [forList]
    dsimp only
    by_cases e1 : v = lo
    · subst e1
      rw [beq_self_eq_true, if_pos rfl, i32Add_ok (by omega) (by omega), ok_bind, ok_bind, ih _ _ (by omega) (by omega) (by omega) (by omega)]
      congr 2
      · rw [List.count_cons_self]; push_cast; ring
      · by_cases e2 : hi = v
        · rw [if_pos e2, if_pos e2]
        · rw [if_neg e2, if_neg e2, List.count_cons_of_ne (fun e => e2 e.symm)]
    · rw [if_neg (by simpa using e1)]
      by_cases e2 : v = hi
      · subst e2
        rw [beq_self_eq_true, if_pos rfl, i32Add_ok (by omega) (by omega), ok_bind, ok_bind, ih _ _ (by omega) (by omega) (by omega) (by omega)]
        congr 2
        · rw [List.count_cons_of_ne e1]
        · rw [if_neg e1, if_neg e1, List.count_cons_self]; push_cast; ring
      · rw [if_neg (by simpa using e2), ok_bind, ih _ _ (by omega) (by omega) (by omega) (by omega)]
        congr 2
        · rw [List.count_cons_of_ne e1]
        · rw [List.count_cons_of_ne e2]

theorem trailing_single (v : UInt8) : MeanHist.trailing [v] v = 1 := by
  unfold MeanHist.trailing; simp

/-- the first key of the list with a positive count -/
theorem firstKey_spec (P : Profile) {d : PartialHistograms} {n : Nat} {f : Nat → Int} : ∀ (keys : List Nat),
    (∀ v ∈ keys, d.getCount P v n = .ok (f v)) → (∃ v ∈ keys, 0 < f v) →
    ∃ pre key post, keys = pre ++ key :: post ∧ (∀ v ∈ pre, ¬ 0 < f v) ∧ 0 < f key ∧ MeanHist.firstKey P d n keys = .ok (some key) := by
  intro keys
  induction keys with
  | nil => rintro _ ⟨v, hv, _⟩; cases hv
  | cons key keys ih =>
    intro hg hex
    unfold MeanHist.firstKey
    rw [hg key (by simp), ok_bind]
    by_cases h : f key > 0
    · rw [if_pos h]
      exact ⟨[], key, keys, rfl, by simp, h, rfl⟩
    · rw [if_neg h]
      obtain ⟨v, hv, hpos⟩ := hex
      obtain ⟨pre, key', post, e, h1, h2, h3⟩ := ih (fun v hv => hg v (by simp [hv])) (by
        rcases List.mem_cons.1 hv with rfl | hv
        · exact absurd hpos h
        · exact ⟨v, hv, hpos⟩)
      refine ⟨key :: pre, key', post, by rw [e]; rfl, ?_, h2, h3⟩
      intro w hw
      rcases List.mem_cons.1 hw with rfl | hw
      · exact h
      · exact h1 w hw

theorem mem_keysFrom {lo v : Nat} : v ∈ keysFrom lo ↔ lo ≤ v ∧ v < max lo 256 := by
  unfold keysFrom
  rw [List.mem_map]
  constructor
  · rintro ⟨i, hi, rfl⟩
    have := List.mem_range.1 hi
    omega
  · rintro ⟨h1, h2⟩
    exact ⟨v - lo, List.mem_range.2 (by omega), by omega⟩

theorem keysFrom_sorted (lo : Nat) : (keysFrom lo).Pairwise (· < ·) := by
  unfold keysFrom
  rw [List.pairwise_map]
  exact (List.pairwise_lt_range).imp fun h => by omega

/-- one value is removed -/
theorem Two.removeValue (B : bs.Spec) (A : Two H r h len C S a b) {k : Nat} (hk : k ≤ 2 * h) {Q R : List Nat} {v : UInt8} {R' : List UInt8}
    (hC : ∀ w, w < 256 → C k w = (Q.count w : Nat)) (hR : R = (v :: R').map UInt8.toNat) (hQ : 2 ≤ Q.length)
    (T : Mid Q R (a k) (b k) (S k)) (hfit : (Q.length + R.length + 1) * 255 < 2147483648) :
    ∃ H' S' a' b', H.removeValue bs P k v (v :: R') = .ok H' ∧ Two H' r h len C S' a' b' ∧ Mid Q (R'.map UInt8.toNat) (a' k) (b' k) (S' k) ∧
      ∀ j, j ≠ k → a' j = a j ∧ b' j = b j ∧ S' j = S j := by
  have hcountR : ∀ w : UInt8, ((v :: R').count w : Int) = (R.count w.toNat : Nat) := fun w => by
    rw [hR, List.count_map_of_injective _ _ (fun x y e => UInt8.toNat_inj.1 e)]
  have hRsum : (R.sum : Int) = v.toNat + ((R'.map UInt8.toNat).sum : Nat) := by rw [hR]; simp
  have hvR : v.toNat ∈ R := by rw [hR]; simp
  have hmemR : ∀ w, w ∈ R ↔ w = v.toNat ∨ w ∈ R'.map UInt8.toNat := fun w => by rw [hR, List.map_cons, List.mem_cons]
  have hRl : R.length = R'.length + 1 := by rw [hR]; simp
  have hcv : ∀ w, R.count w = (R'.map UInt8.toNat).count w + if v.toNat = w then 1 else 0 := fun w => by
    rw [hR, List.map_cons, List.count_cons]; simp
  obtain ⟨t1, t2, t3, t4⟩ := T
  have hv := v.toNat_lt
  have ha := (a k).toNat_lt
  have hb := (b k).toNat_lt
  obtain ⟨q0, hq0⟩ : ∃ q, q ∈ Q := List.exists_mem_of_length_pos (by omega)
  have hab : (a k).toNat ≤ (b k).toNat := (t1 q0 hq0).1.trans (t1 q0 hq0).2
  have hQs := listSum_le_255 (W := Q) (fun v hv => by have := t1 v hv; omega)
  have hRs := listSum_le_255 (W := R) (fun w hw => by
    rw [hR, List.mem_map] at hw
    obtain ⟨x, _, rfl⟩ := hw
    exact x.toNat_lt)
  rw [List.sum_append, Nat.cast_add] at t4
  have hfit' : ((Q.length : Int) + R.length + 1) * 255 < 2147483648 := by exact_mod_cast hfit
  have hQs' : (Q.sum : Int) ≤ Q.length * 255 := by exact_mod_cast hQs
  have hRs' : (R.sum : Int) ≤ R.length * 255 := by exact_mod_cast hRs
  have hQs0 : (0 : Int) ≤ Q.sum := Int.natCast_nonneg _
  have hR0 : (0 : Int) ≤ ((R'.map UInt8.toNat).sum : Nat) := Int.natCast_nonneg _
  have hget : ∀ w, w < 256 → H.data.getCount P w k = .ok ((Q.count w : Nat) : Int) := fun w hw => by
    have h1 : Q.count w ≤ Q.length := List.count_le_length
    rw [A.data.getCount P hk hw (by rw [hC w hw, abs_of_nonneg (Int.natCast_nonneg _)]; omega), hC w hw]
  have hcl : ∀ w, Q.count w ≤ Q.length := fun w => List.count_le_length
  have hcr : ∀ w, R.count w ≤ R.length := fun w => List.count_le_length
  have c1 := hcl (a k).toNat
  have c2 := hcl (b k).toNat
  have c3 := hcr (a k).toNat
  have c4 := hcr (b k).toNat
  -- keeping both trimmed values
  have keep : (a k).toNat ∈ Q ++ R'.map UInt8.toNat → (b k).toNat ∈ Q ++ R'.map UInt8.toNat →
      ∃ H' S' a' b', H.subSum P k v.toNat = .ok H' ∧ Two H' r h len C S' a' b' ∧ Mid Q (R'.map UInt8.toNat) (a' k) (b' k) (S' k) ∧
      ∀ j, j ≠ k → a' j = a j ∧ b' j = b j ∧ S' j = S j := by
    intro ka kb
    obtain ⟨H2, e2, A2⟩ := THolds.subSum P A hk (d := (v.toNat : Int)) (by omega) (by omega)
    refine ⟨H2, _, a, b, e2, A2, ⟨t1, ka, kb, ?_⟩, fun j hj => ⟨rfl, rfl, setAt_ne _ _ hj⟩⟩
    rw [setAt_self, t4, List.sum_append, Nat.cast_add, hRsum]; ring
  have stay : ∀ w, w ∈ Q ++ R → w ≠ v.toNat → w ∈ Q ++ R'.map UInt8.toNat := by
    intro w hw hne
    rcases List.mem_append.1 hw with hw | hw
    · exact List.mem_append_left _ hw
    · rcases (hmemR w).1 hw with e | e
      · exact absurd e hne
      · exact List.mem_append_right _ e
  unfold MeanHist.removeValue
  rw [A.lowerAt P hk, ok_bind, A.upperAt P hk, ok_bind, hget _ ha, ok_bind, hget _ hb, ok_bind,
    count_rest P (a k) (b k) (v :: R') _ _ (by omega) (by rw [List.length_cons]; push_cast; omega) (by omega) (by rw [List.length_cons]; push_cast; omega), ok_bind]
  dsimp only
  rw [A.lower, idx_map_range _ (by omega), ok_bind, trailing_single, hcountR, hcountR, i32Sub_ok (by omega) (by omega), ok_bind,
    A.upper, idx_map_range _ (by omega), ok_bind, trailing_single, i32Sub_ok (by split <;> omega) (by split <;> omega), ok_bind]
  -- enough copies of a value that is not the only one
  have more : ∀ w, w = v.toNat → 2 ≤ Q.count w + R.count w → w ∈ Q ++ R'.map UInt8.toNat := by
    intro w hw h2
    rw [hcv w, if_pos hw.symm] at h2
    rw [← List.count_pos_iff, List.count_append]
    omega
  by_cases hva : v = a k
  · have hvan : v.toNat = (a k).toNat := by rw [hva]
    by_cases hl : Q.count (a k).toNat + R.count (a k).toNat = 1
    · -- the only copy of the smallest value goes
      have hl0 : (((Q.count (a k).toNat : Nat) : Int) + (R.count (a k).toNat : Nat) - (1 : Nat) == 0) = true := by
        rw [beq_iff_eq]; omega
      rw [hl0, show (v == a k) = true by simpa using hva, Bool.and_self, if_pos rfl, A.trim, usizeSub_ok (by omega), ok_bind]
      obtain ⟨H1, e1, A1⟩ := THolds.editLower A hk (f := fun l => vecRemove l (1 - 1)) (l := []) rfl
      rw [e1, ok_bind]
      unfold MeanHist.getNextLower
      have hnot : ¬ (((Q.count (a k).toNat : Nat) : Int) + (R.count (a k).toNat : Nat) - (1 : Nat) > 0) := by omega
      rw [if_neg hnot]
      have hRa : 0 < R.count (a k).toNat := List.count_pos_iff.2 (by rw [← hvan]; exact hvR)
      have hQa : (a k).toNat ∉ Q := List.count_eq_zero.1 (by omega)
      have hgt : ∀ w ∈ Q, (a k).toNat < w := fun w hw => lt_of_le_of_ne (t1 w hw).1 (fun e => hQa (by rw [e]; exact hw))
      have ha1 : (a k).toNat + 1 < 256 := by have := hgt q0 hq0; have := (t1 q0 hq0).2; omega
      have hadd : u8Num.add P (a k) 1 = .ok (a k + 1) := by
        show (if (a k).toNat + (1 : UInt8).toNat < 256 then _ else _) = _
        exact if_pos ha1
      rw [hadd, ok_bind, show (a k + 1).toNat = (a k).toNat + 1 by
        rw [UInt8.toNat_add]; exact Nat.mod_eq_of_lt ha1]
      obtain ⟨pre, key, post, ek, p1, p2, p3⟩ := firstKey_spec P (d := H1.data) (n := k) (f := fun w => ((Q.count w : Nat) : Int)) (keysFrom ((a k).toNat + 1))
        (fun w hw => by
          have := mem_keysFrom.1 hw
          have h1 : Q.count w ≤ Q.length := hcl w
          rw [A1.data.getCount P hk (by omega) (by rw [hC w (by omega), abs_of_nonneg (Int.natCast_nonneg _)]; omega), hC w (by omega)])
        ⟨q0, mem_keysFrom.2 (by have := hgt q0 hq0; have := (t1 q0 hq0).2; omega), by
          have := List.count_pos_iff.2 hq0; exact_mod_cast this⟩
      rw [p3, ok_bind]
      have hkeyQ : key ∈ Q := List.count_pos_iff.1 (by exact_mod_cast p2)
      have hkey := t1 key hkeyQ
      have hkn : (UInt8.ofNat key).toNat = key := by rw [UInt8.toNat_ofNat', Nat.mod_eq_of_lt (by omega)]
      have hmin : ∀ w ∈ Q, key ≤ w := by
        intro w hw
        have hwk : w ∈ keysFrom ((a k).toNat + 1) := mem_keysFrom.2 (by have := hgt w hw; have := (t1 w hw).2; omega)
        have hs := keysFrom_sorted ((a k).toNat + 1)
        rw [ek] at hwk hs
        rcases List.mem_append.1 hwk with h' | h'
        · exact absurd (by have := List.count_pos_iff.2 hw; exact_mod_cast this) (p1 w h')
        · rcases List.mem_cons.1 h' with h' | h'
          · omega
          · exact ((List.pairwise_cons.1 (List.pairwise_append.1 hs).2.1).1 w h').le
      dsimp only
      obtain ⟨H2, e2, A2⟩ := A1.editLower hk (f := fun l => .ok (l ++ [UInt8.ofNat key])) (l := [UInt8.ofNat key]) (by rw [setAt_self]; rfl)
      rw [e2, ok_bind]
      obtain ⟨H3, e3, A3⟩ := A2.subSum P hk (d := (key : Int)) (by omega) (by omega)
      refine ⟨H3, setAt S k (S k - key), setAt a k (UInt8.ofNat key), b, e3, A3.congrLU (fun j => ?_) (fun _ => rfl), ⟨?_, ?_, ?_, ?_⟩,
        fun j hj => ⟨setAt_ne _ _ hj, rfl, setAt_ne _ _ hj⟩⟩
      · by_cases hj : j = k
        · subst hj; rw [setAt_self, setAt_self]
        · rw [setAt_ne _ _ hj, setAt_ne _ _ hj, setAt_ne _ _ hj]
      · intro w hw
        rw [setAt_self, hkn]
        exact ⟨hmin w hw, (t1 w hw).2⟩
      · rw [setAt_self, hkn]; exact List.mem_append_left _ hkeyQ
      · refine stay _ t3 ?_
        have := hgt q0 hq0; have := (t1 q0 hq0).2; omega
      · rw [setAt_self, setAt_self, hkn, t4, List.sum_append, Nat.cast_add, hRsum, hvan]; ring
    · -- other copies of the smallest value remain
      have h2 : 2 ≤ Q.count (a k).toNat + R.count (a k).toNat := by
        have := List.count_pos_iff.2 t2
        rw [List.count_append] at this
        omega
      have hl0 : (((Q.count (a k).toNat : Nat) : Int) + (R.count (a k).toNat : Nat) - (1 : Nat) == 0) = false := by
        rw [beq_eq_false_iff_ne]; omega
      rw [hl0, Bool.and_false, if_neg (by simp), if_neg (by rw [hva]; exact UInt8.lt_irrefl _)]
      have ka := more _ hvan.symm h2
      by_cases hba : b k = a k
      · have hall : Q.count (b k).toNat = Q.length := List.count_eq_length.2 fun w hw => by
          have := t1 w hw; rw [hba] at this; rw [hba]; omega
        have hu0 : (((Q.count (b k).toNat : Nat) : Int) + (if b k = a k then (0 : Int) else (R.count (b k).toNat : Nat)) - (1 : Nat) == 0) = false := by
          rw [if_pos hba, hall, beq_eq_false_iff_ne]; omega
        rw [hu0, Bool.and_false, if_neg (by simp), if_neg (by rw [hva, hba]; exact UInt8.lt_irrefl _)]
        exact keep ka (by rw [hba]; exact ka)
      · have hne : (b k).toNat ≠ v.toNat := by
          rw [hvan]; intro e; exact hba (UInt8.toNat_inj.1 e)
        rw [show (v == b k) = false by rw [beq_eq_false_iff_ne]; rintro rfl; exact hne rfl, Bool.false_and, if_neg (by simp),
          if_neg (by show ¬ (b k).toNat < v.toNat; omega)]
        exact keep ka (stay _ t3 hne)
  · have hvan : (a k).toNat ≠ v.toNat := fun e => hva (UInt8.toNat_inj.1 e).symm
    have ka := stay _ t2 hvan
    rw [show (v == a k) = false by rw [beq_eq_false_iff_ne]; exact hva, Bool.false_and, if_neg (by simp)]
    by_cases hlt : v < a k
    · rw [if_pos hlt]
      obtain ⟨i, ei⟩ := B.asc_single hva
      rw [ei]
      exact keep ka (stay _ t3 (by have : v.toNat < (a k).toNat := hlt; omega))
    · have hge : (a k).toNat < v.toNat := lt_of_le_of_ne (Nat.le_of_not_lt hlt) hvan
      rw [if_neg hlt]
      by_cases hvb : v = b k
      · have hvbn : v.toNat = (b k).toNat := by rw [hvb]
        have hne : ¬ b k = a k := fun e => hva (hvb.trans e)
        rw [if_neg hne]
        by_cases hl : Q.count (b k).toNat + R.count (b k).toNat = 1
        · have hl0 : (((Q.count (b k).toNat : Nat) : Int) + (R.count (b k).toNat : Nat) - (1 : Nat) == 0) = true := by
            rw [beq_iff_eq]; omega
          rw [hl0, show (v == b k) = true by simpa using hvb, Bool.and_self, if_pos rfl, A.trim, usizeSub_ok (by omega), ok_bind]
          obtain ⟨H1, e1, A1⟩ := THolds.editUpper A hk (f := fun l => vecRemove l (1 - 1)) (l := []) rfl
          rw [e1, ok_bind]
          unfold MeanHist.getNextUpper
          have hnot : ¬ (((Q.count (b k).toNat : Nat) : Int) + (R.count (b k).toNat : Nat) - (1 : Nat) > 0) := by omega
          rw [if_neg hnot]
          have hRb : 0 < R.count (b k).toNat := List.count_pos_iff.2 (by rw [← hvbn]; exact hvR)
          have hQb : (b k).toNat ∉ Q := List.count_eq_zero.1 (by omega)
          have hgt : ∀ w ∈ Q, w < (b k).toNat := fun w hw => lt_of_le_of_ne (t1 w hw).2 (fun e => hQb (by rw [← e]; exact hw))
          obtain ⟨pre, key, post, ek, p1, p2, p3⟩ := firstKey_spec P (d := H1.data) (n := k) (f := fun w => ((Q.count w : Nat) : Int)) (List.range (b k).toNat).reverse
            (fun w hw => by
              have := List.mem_range.1 (List.mem_reverse.1 hw)
              have h1 : Q.count w ≤ Q.length := hcl w
              rw [A1.data.getCount P hk (by omega) (by rw [hC w (by omega), abs_of_nonneg (Int.natCast_nonneg _)]; omega), hC w (by omega)])
            ⟨q0, List.mem_reverse.2 (List.mem_range.2 (hgt q0 hq0)), by
              have := List.count_pos_iff.2 hq0; exact_mod_cast this⟩
          rw [p3, ok_bind]
          have hkeyQ : key ∈ Q := List.count_pos_iff.1 (by exact_mod_cast p2)
          have hkey := t1 key hkeyQ
          have hkn : (UInt8.ofNat key).toNat = key := by rw [UInt8.toNat_ofNat', Nat.mod_eq_of_lt (by omega)]
          have hmax : ∀ w ∈ Q, w ≤ key := by
            intro w hw
            have hwk : w ∈ (List.range (b k).toNat).reverse := List.mem_reverse.2 (List.mem_range.2 (hgt w hw))
            have hs : ((List.range (b k).toNat).reverse).Pairwise (· > ·) := by
              rw [List.pairwise_reverse]; exact List.pairwise_lt_range
            rw [ek] at hwk hs
            rcases List.mem_append.1 hwk with h' | h'
            · exact absurd (by have := List.count_pos_iff.2 hw; exact_mod_cast this) (p1 w h')
            · rcases List.mem_cons.1 h' with h' | h'
              · omega
              · exact ((List.pairwise_cons.1 (List.pairwise_append.1 hs).2.1).1 w h').le
          dsimp only
          obtain ⟨H2, e2, A2⟩ := A1.editUpper hk (f := fun l => .ok (l ++ [UInt8.ofNat key])) (l := [UInt8.ofNat key]) (by rw [setAt_self]; rfl)
          rw [e2, ok_bind]
          obtain ⟨H3, e3, A3⟩ := A2.subSum P hk (d := (key : Int)) (by omega) (by omega)
          refine ⟨H3, setAt S k (S k - key), a, setAt b k (UInt8.ofNat key), e3, A3.congrLU (fun _ => rfl) (fun j => ?_), ⟨?_, ka, ?_, ?_⟩,
            fun j hj => ⟨rfl, setAt_ne _ _ hj, setAt_ne _ _ hj⟩⟩
          · by_cases hj : j = k
            · subst hj; rw [setAt_self, setAt_self]
            · rw [setAt_ne _ _ hj, setAt_ne _ _ hj, setAt_ne _ _ hj]
          · intro w hw
            rw [setAt_self, hkn]
            exact ⟨(t1 w hw).1, hmax w hw⟩
          · rw [setAt_self, hkn]; exact List.mem_append_left _ hkeyQ
          · rw [setAt_self, setAt_self, hkn, t4, List.sum_append, Nat.cast_add, hRsum, hvbn]; ring
        · have h2 : 2 ≤ Q.count (b k).toNat + R.count (b k).toNat := by
            have := List.count_pos_iff.2 t3
            rw [List.count_append] at this
            omega
          have hl0 : (((Q.count (b k).toNat : Nat) : Int) + (R.count (b k).toNat : Nat) - (1 : Nat) == 0) = false := by
            rw [beq_eq_false_iff_ne]; omega
          rw [hl0, Bool.and_false, if_neg (by simp), if_neg (by rw [hvb]; exact UInt8.lt_irrefl _)]
          exact keep ka (more _ hvbn.symm h2)
      · have hne : (b k).toNat ≠ v.toNat := fun e => hvb (UInt8.toNat_inj.1 e).symm
        have kb := stay _ t3 hne
        rw [show (v == b k) = false by rw [beq_eq_false_iff_ne]; exact hvb, Bool.false_and, if_neg (by simp)]
        by_cases hgt : v > b k
        · rw [if_pos hgt, B.desc_single (show a k < v from hge)]
          exact keep ka kb
        · rw [if_neg hgt]
          exact keep ka kb
end
end Imgproc

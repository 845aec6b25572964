import Verif.Proofs.Loops
import Verif.Proofs.RealSum
import Mathlib.Tactic.Linarith
import Mathlib.Algebra.BigOperators.Group.Finset.Basic
import Verif.Model.Math
import Verif.Proofs.IEEE
/-! Property C102: arithmetic and argument checks on the integer channel types. -/
namespace Imgproc

/-! ### Specification -/

/-- spec: what a machine operation does whose mathematical result is `x`, on a type holding the integers `lo ≤ . < hi`:
the result if it fits; otherwise a panic in debug builds and the residue modulo the number of values in release builds -/
def Computes {T : Type} (P : Profile) (lo hi : Int) (val : T → Int) (r : Res T) (x : Int) : Prop :=
  (lo ≤ x ∧ x < hi → ∃ c, r = .ok c ∧ val c = x) ∧
  (¬ (lo ≤ x ∧ x < hi) → match P with
    | .debug => r = panic .overflow
    | .release => ∃ c, r = .ok c ∧ lo ≤ val c ∧ val c < hi ∧ (val c - x) % (hi - lo) = 0)

/-- spec: `N` is the arithmetic of the integers `lo ≤ . < hi`, `val` being the integer a value stands for -/
structure Machine {T : Type} (N : RNum T) (lo hi : Int) (val : T → Int) : Prop where
  /-- a byte converts to itself -/
  ofU8 : ∀ u : UInt8, val (N.ofU8 u) = u.toNat
  eq : ∀ a b, N.eq a b = true ↔ val a = val b
  lt : ∀ a b, N.lt a b = true ↔ val a < val b
  add : ∀ P a b, lo ≤ val a → val a < hi → lo ≤ val b → val b < hi → Computes P lo hi val (N.add P a b) (val a + val b)
  sub : ∀ P a b, lo ≤ val a → val a < hi → lo ≤ val b → val b < hi → Computes P lo hi val (N.sub P a b) (val a - val b)
  mul : ∀ P a b, lo ≤ val a → val a < hi → lo ≤ val b → val b < hi → Computes P lo hi val (N.mul P a b) (val a * val b)
  /-- remainder: division by zero panics, and so does the one quotient that does not fit -/
  rem_zero : ∀ a b, val b = 0 → N.rem a b = panic .divZero
  rem_over : ∀ a b, lo ≤ val a → val a < hi → val b = -1 → lo ≠ 0 → val a = lo → N.rem a b = panic .overflow
  rem : ∀ a b, lo ≤ val a → val a < hi → val b ≠ 0 → ¬ (val a = lo ∧ val b = -1) →
    ∃ c, N.rem a b = .ok c ∧ val c = (val a).tmod (val b)

theorem computes_wrapNat (P : Profile) {n v : Nat} (hn : 0 < n) : Computes P 0 n (fun a : Nat => (a : Int)) (wrapNat P n v) v := by
  refine ⟨fun h => ⟨v, wrapNat_ok (by omega), rfl⟩, fun h => ?_⟩
  have hv : ¬ v < n := by omega
  unfold wrapNat
  rw [if_neg hv]
  cases P
  · rfl
  · refine ⟨v % n, rfl, Int.natCast_nonneg _, Int.ofNat_lt.2 (Nat.mod_lt v hn), ?_⟩
    simp only
    push_cast
    rw [sub_zero, Int.emod_sub_emod, sub_self, Int.zero_emod]

theorem computes_wrapInt (P : Profile) {half v : Int} (hh : 0 < half) : Computes P (-half) half id (wrapInt P half v) v := by
  refine ⟨fun h => ⟨v, wrapInt_ok h.1 h.2, rfl⟩, fun h => ?_⟩
  unfold wrapInt
  rw [if_neg h]
  cases P
  · rfl
  · refine ⟨wrapSigned half v, rfl, ?_, ?_, ?_⟩ <;> unfold wrapSigned <;> simp only [id]
    · have := Int.emod_nonneg (v + half) (show 2 * half ≠ 0 by omega); omega
    · have := Int.emod_lt_of_pos (v + half) (show 0 < 2 * half by omega); omega
    · rw [show half - -half = 2 * half by ring, sub_sub, show half + v = v + half by ring, Int.emod_sub_emod, sub_self, Int.zero_emod] 

/-- **C102** (u8) -/
theorem c102_u8 : Machine u8Num 0 256 (fun u => (u.toNat : Int)) where
  ofU8 u := rfl
  eq a b := by
    show (a == b) = true ↔ _
    rw [beq_iff_eq, ← UInt8.toNat_inj]; omega
  lt a b := by
    show decide (a < b) = true ↔ _
    rw [decide_eq_true_eq, UInt8.lt_iff_toNat_lt]; omega
  add P a b _ _ _ _ := by
    have la := a.toNat_lt
    have lb := b.toNat_lt
    unfold u8Num Computes
    simp only
    have e : (a + b).toNat = (a.toNat + b.toNat) % 256 := UInt8.toNat_add a b
    constructor
    · intro h
      rw [if_pos (by omega)]
      exact ⟨_, rfl, by omega⟩
    · intro h
      rw [if_neg (by omega)]
      cases P
      · rfl
      · exact ⟨_, rfl, by omega, by omega, by omega⟩
  sub P a b _ _ _ _ := by
    have la := a.toNat_lt
    have lb := b.toNat_lt
    unfold u8Num Computes
    simp only
    have e : (a - b).toNat = (256 - b.toNat + a.toNat) % 256 := UInt8.toNat_sub a b
    constructor
    · intro h
      rw [if_pos (by rw [UInt8.le_iff_toNat_le]; omega)]
      exact ⟨_, rfl, by omega⟩
    · intro h
      rw [if_neg (by rw [UInt8.le_iff_toNat_le]; omega)]
      cases P
      · rfl
      · exact ⟨_, rfl, by omega, by omega, by omega⟩
  mul P a b _ _ _ _ := by
    have la := a.toNat_lt
    have lb := b.toNat_lt
    unfold u8Num Computes
    simp only
    have e : (a * b).toNat = (a.toNat * b.toNat) % 256 := UInt8.toNat_mul a b
    rw [← Nat.cast_mul]
    generalize a.toNat * b.toNat = m at *
    constructor
    · intro h
      rw [if_pos (by omega)]
      exact ⟨_, rfl, by omega⟩
    · intro h
      rw [if_neg (by omega)]
      cases P
      · rfl
      · exact ⟨_, rfl, by omega, by omega, by omega⟩
  rem_zero a b h := by
    have : b = 0 := by rw [← UInt8.toNat_inj]; simpa using h
    unfold u8Num; simp [this]
  rem_over a b _ _ h := by have : (0 : Int) ≤ b.toNat := by positivity
                           omega
  rem a b _ _ h _ := by
    have : b ≠ 0 := by rintro rfl; exact h rfl
    unfold u8Num; simp only
    rw [if_neg this]
    refine ⟨_, rfl, ?_⟩
    rw [UInt8.toNat_mod]
    rfl

theorem nat_machine {N : RNum Nat} {n : Nat} (hn : 0 < n) (h1 : N.ofU8 = UInt8.toNat) (h2 : N.eq = fun a b => a == b)
    (h3 : N.lt = fun a b => decide (a < b)) (h4 : N.add = fun P a b => wrapNat P n (a + b))
    (h5 : N.sub = fun P a b => if b ≤ a then .ok (a - b) else match P with
      | .debug => panic .overflow
      | .release => .ok (a + n - b))
    (h6 : N.mul = fun P a b => wrapNat P n (a * b)) (h7 : N.rem = natMod) : Machine N 0 n (fun a : Nat => (a : Int)) where
  ofU8 u := by rw [h1]
  eq a b := by rw [h2]; simp
  lt a b := by rw [h3]; simp
  add P a b _ _ _ _ := by rw [h4]; exact_mod_cast computes_wrapNat P (v := a + b) hn
  mul P a b _ _ _ _ := by rw [h6]; exact_mod_cast computes_wrapNat P (v := a * b) hn
  sub P a b _ ha _ hb := by
    rw [h5]
    simp only
    constructor
    · intro h
      rw [if_pos (by omega)]
      exact ⟨_, rfl, by show ((a - b : Nat) : Int) = _; omega⟩
    · intro h
      rw [if_neg (by omega)]
      cases P
      · rfl
      · refine ⟨_, rfl, Int.natCast_nonneg _, by show ((a + n - b : Nat) : Int) < _; omega, ?_⟩
        simp only
        rw [show ((a + n - b : Nat) : Int) - (a - b) = n by omega, sub_zero, Int.emod_self]
  rem_zero a b h := by
    have : b = 0 := by exact_mod_cast h
    rw [h7]; unfold natMod; rw [if_pos this]
  rem_over a b _ _ h := by omega
  rem a b _ _ h _ := by
    rw [h7, natMod_ok (by exact_mod_cast h)]
    exact ⟨_, rfl, rfl⟩

/-- **C102** (u32 and usize) -/
theorem c102_u32 : Machine u32Num 0 U32SIZE (fun a : Nat => (a : Int)) :=
  nat_machine (by decide) rfl rfl rfl rfl rfl rfl rfl
/-- **C102** (usize) -/
theorem c102_usize : Machine usizeNum 0 USIZE (fun a : Nat => (a : Int)) :=
  nat_machine (by decide) rfl rfl rfl rfl rfl rfl rfl

/-- **C102** (i16 and i32) -/
theorem c102_signed {half : Int} (hh : 1 < half) : Machine (intNum half) (-half) half id where
  ofU8 u := rfl
  eq a b := by unfold intNum; simp
  lt a b := by unfold intNum; simp
  add P a b _ _ _ _ := computes_wrapInt P (by omega)
  sub P a b _ _ _ _ := computes_wrapInt P (by omega)
  mul P a b _ _ _ _ := computes_wrapInt P (by omega)
  rem_zero a b h := by unfold intNum; simp only; rw [if_pos (show b = 0 from h)]
  rem_over a b _ _ h _ h' := by
    unfold intNum; simp only
    simp only [id] at h h'
    rw [if_neg (by omega), if_pos ⟨h', h⟩]
  rem a b _ _ h h' := by
    unfold intNum; simp only
    simp only [id] at h h'
    rw [if_neg h, if_neg h']
    exact ⟨_, rfl, rfl⟩

/-- **C102** (argument checks) On every integer type `check_odd`, `check_even`, `check_non_neg` and `check_in_range` accept
exactly the odd, even, non-negative values and those between the two bounds, and otherwise report InvalidArg. -/
theorem c102_checks {T : Type} {N : RNum T} {lo hi : Int} {val : T → Int} (M : Machine N lo hi val) (v : T)
    (h1 : lo ≤ val v) (h2 : val v < hi) :
    checkOdd N v = (if val v % 2 = 1 then .ok () else invalidArg) ∧
    checkEven N v = (if val v % 2 = 0 then .ok () else invalidArg) ∧
    checkNonNeg N v = (if 0 ≤ val v then .ok () else invalidArg) ∧
    (∀ a b, checkInRange N v a b = (if val a ≤ val v ∧ val v ≤ val b then .ok () else invalidArg)) := by
  have z : val (N.ofU8 0) = 0 := M.ofU8 0
  have t : val (N.ofU8 2) = 2 := M.ofU8 2
  obtain ⟨c, ec, hc⟩ := M.rem v (N.ofU8 2) h1 h2 (by omega) (by omega)
  have par : N.eq c (N.ofU8 0) = true ↔ val v % 2 = 0 := by
    rw [M.eq, hc, z, t, ← Int.dvd_iff_tmod_eq_zero, Int.dvd_iff_emod_eq_zero]
  have hl : ∀ a b, N.lt a b = true ↔ val a < val b := M.lt
  refine ⟨?_, ?_, ?_, fun a b => ?_⟩
  · unfold checkOdd; rw [ec, ok_bind]
    by_cases h : val v % 2 = 0
    · rw [if_pos (par.2 h), if_neg (by omega)]
    · rw [if_neg (fun e => h (par.1 e)), if_pos (by omega)]
  · unfold checkEven; rw [ec, ok_bind]
    by_cases h : val v % 2 = 0
    · rw [par.2 h, if_pos h]; rfl
    · rw [if_neg h, Bool.eq_false_iff.2 (fun e => h (par.1 e))]; rfl
  · unfold checkNonNeg
    by_cases h : val v < 0
    · rw [if_pos ((hl _ _).2 (by rw [z]; exact h)), if_neg (by omega)]
    · rw [if_neg (fun e => h (by have := (hl _ _).1 e; rwa [z] at this)), if_pos (by omega)]
  · unfold checkInRange
    have e : (N.lt v a || N.lt b v) = true ↔ ¬ (val a ≤ val v ∧ val v ≤ val b) := by
      rw [Bool.or_eq_true, hl, hl]; omega
    by_cases h : val a ≤ val v ∧ val v ≤ val b
    · rw [if_pos h, if_neg (fun c => e.1 c h)]
    · rw [if_neg h, if_pos (e.2 h)]

example : checkOdd u8Num 7 = .ok () ∧ checkEven u32Num 7 = invalidArg ∧ checkNonNeg (intNum I32HALF) (-3) = invalidArg :=
  ⟨(c102_checks c102_u8 7 (by decide) (by decide)).1, (c102_checks c102_u32 7 (by decide) (by decide)).2.1,
    (c102_checks (c102_signed (half := I32HALF) (by decide)) (-3) (by decide) (by decide)).2.2.1⟩

/-- **C102** (argument checks on floats) On finite floats `check_non_neg` and `check_in_range` decide the same mathematical
conditions; a NaN passes both. -/
theorem c102_float_checks [Libm f32] :
    (∀ {v : F32} {q : Rat}, v.Is q → checkNonNeg FloatOps.rnum v = if 0 ≤ q then .ok () else invalidArg) ∧
    (∀ {v a b : F32} {q l h : Rat}, v.Is q → a.Is l → b.Is h →
      checkInRange FloatOps.rnum v a b = if l ≤ q ∧ q ≤ h then .ok () else invalidArg) ∧
    (∀ {v : F32}, v.val = .nan → checkNonNeg FloatOps.rnum v = .ok () ∧ ∀ a b, checkInRange FloatOps.rnum v a b = .ok ()) := by
  refine ⟨fun {v q} hv => ?_, fun {v a b q l h} hv ha hb => ?_, fun {v} hv => ⟨?_, fun a b => ?_⟩⟩
  · unfold checkNonNeg
    rw [show FloatOps.rnum.lt v (FloatOps.rnum.ofU8 0) = decide (q < 0) from lt_is hv (show (FloatOps.ofU8 0 : F32).Is 0 by simpa using ofU8_is 0)]
    by_cases h : q < 0
    · rw [if_pos (by simpa using h), if_neg (by linarith)]
    · rw [if_neg (by simpa using h), if_pos (by linarith)]
  · unfold checkInRange
    rw [show FloatOps.rnum.lt v a = decide (q < l) from lt_is hv ha, show FloatOps.rnum.lt b v = decide (h < q) from lt_is hb hv]
    by_cases c : l ≤ q ∧ q ≤ h
    · rw [if_pos c, if_neg (by simp [c.1, c.2])]
    · rw [if_neg c, if_pos (by
        rw [Bool.or_eq_true, decide_eq_true_eq, decide_eq_true_eq]
        by_contra hc
        rw [not_or, not_lt, not_lt] at hc
        exact c hc)]
  · unfold checkNonNeg
    rw [show FloatOps.rnum.lt v (FloatOps.rnum.ofU8 0) = false from lt_nan_left hv]; rfl
  · unfold checkInRange
    rw [show FloatOps.rnum.lt v a = false from lt_nan_left hv, show FloatOps.rnum.lt b v = false from lt_nan_right hv]; rfl

example [Libm f32] : checkNonNeg FloatOps.rnum (FloatOps.num (-3) : F32) = invalidArg := by
  rw [c102_float_checks.1 (q := -3) (by simpa using num32 (n := -3) (by decide)), if_neg (by norm_num)]

/-! ### `vector_mul` -/

/-- a loop all of whose steps keep the invariant or fail with `e` -/
theorem forRange_or {σ} {a b : Nat} {s : σ} {f : Nat → σ → Res σ} {e : Fault} {E : Prop} (I : Nat → σ → Prop) (hab : a ≤ b) (h0 : I a s)
    (hs : ∀ k s, a ≤ k → k < b → I k s → (∃ s', f k s = .ok s' ∧ I (k + 1) s') ∨ E ∧ f k s = .error e) :
    (∃ out, forRange a b s f = .ok out ∧ I b out) ∨ E ∧ forRange a b s f = .error e := by
  obtain ⟨d, rfl⟩ : ∃ d, b = a + d := ⟨b - a, by omega⟩
  clear hab
  induction d generalizing a s with
  | zero => rw [forRange_empty (by omega)]; exact .inl ⟨s, rfl, h0⟩
  | succ d ih =>
    rw [forRange_cons (by omega)]
    rcases hs a s (by omega) (by omega) h0 with ⟨s1, e1, h1⟩ | h1
    · rw [e1, ok_bind]
      have := ih (a := a + 1) (s := s1) h1 (fun k s h1 h2 => hs k s (by omega) (by omega))
      rwa [show a + 1 + d = a + (d + 1) by omega] at this
    · rw [h1.2]; exact .inr ⟨h1.1, rfl⟩

section
variable {T : Type}

/-- the state of the loops: rows before `i` done, the first `k` columns of row `i` done, the rest untouched -/
def MulInv (Good : Nat → Nat → T → Prop) (n i k : Nat) (out : List T) : Prop :=
  out.length = n ∧ ∀ (t : Nat) c, out[t]? = some c → Good t (if t < i then n else if t = i then k else 0) c

theorem vectorMulLoops_rule (P : Profile) (N : RNum T) (mat v : List T) {e : Fault} {E : Prop} (Good : Nat → Nat → T → Prop)
    {n : Nat} (hv : v.length = n) (hm : n * n ≤ mat.length) (hU : n * n < USIZE)
    (step : ∀ (i j : Nat) a b s, i < n → j < n → mat[n * i + j]? = some a → v[j]? = some b → Good i j s →
      (∃ c r, N.mul P a b = .ok c ∧ N.add P s c = .ok r ∧ Good i (j + 1) r) ∨ E ∧ N.mul P a b = .error e ∨
        (E ∧ ∃ c, N.mul P a b = .ok c ∧ N.add P s c = .error e))
    (z : List T) (hz : z.length = n) (hz0 : ∀ (t : Nat) c, z[t]? = some c → Good t 0 c) :
    (∃ out, vectorMulLoops P N mat v z n = .ok out ∧ out.length = n ∧ ∀ (i : Nat) c, out[i]? = some c → Good i n c) ∨
      E ∧ vectorMulLoops P N mat v z n = .error e := by
  unfold vectorMulLoops
  rcases forRange_or (a := 0) (b := n) (s := z) (e := e) (E := E) (f := fun i output =>
      forRange 0 n output fun j output => do
        let a ← usizeMul P n i
        let k ← usizeAdd P a j
        let m ← idx mat k
        let v ← idx v j
        let prod ← N.mul P m v
        let o ← idx output i
        let s ← N.add P o prod
        setIdx output i s) (fun i out => MulInv Good n i 0 out) (Nat.zero_le _)
    ⟨hz, fun t c h => by simpa using hz0 t c h⟩
    (by
      intro i s _ hi hI
      rcases forRange_or (a := 0) (b := n) (s := s) (e := e) (E := E) (f := fun j output => do
          let a ← usizeMul P n i
          let k ← usizeAdd P a j
          let m ← idx mat k
          let v ← idx v j
          let prod ← N.mul P m v
          let o ← idx output i
          let s ← N.add P o prod
          setIdx output i s) (fun j out => MulInv Good n i j out) (Nat.zero_le _) hI (by
        intro j s _ hj ⟨hsl, hs⟩
        have hij : n * i + j < n * n := by
          have : n * i + n ≤ n * n := by rw [← Nat.mul_succ]; exact Nat.mul_le_mul_left n hi
          omega
        have h1 : n * i < USIZE := by omega
        have h2 : n * i + j < USIZE := by omega
        have k1 : n * i + j < mat.length := by omega
        have k2 : j < v.length := by omega
        have k3 : i < s.length := by omega
        have hsi := hs i s[i] (List.getElem?_eq_getElem k3)
        rw [if_neg (by omega), if_pos rfl] at hsi
        rw [usizeMul_ok h1, ok_bind, usizeAdd_ok h2, ok_bind, idx_ok k1, ok_bind, idx_ok k2, ok_bind]
        rcases step i j mat[n * i + j] v[j] s[i] hi hj (List.getElem?_eq_getElem k1) (List.getElem?_eq_getElem k2) hsi with
          ⟨c, r, ec, er, hg⟩ | ⟨hE, ec⟩ | ⟨hE, c, ec, er⟩
        · refine .inl ⟨s.set i r, ?_, by simpa using hsl, fun t c' h => ?_⟩
          · rw [ec, ok_bind, idx_ok k3, ok_bind, er, ok_bind, setIdx_ok k3]
          · by_cases ht : t = i
            · subst ht
              rw [List.getElem?_set_self k3] at h
              cases h
              rw [if_neg (by omega), if_pos rfl]; exact hg
            · rw [List.getElem?_set_ne (fun h => ht h.symm)] at h
              have := hs t c' h
              simpa [ht] using this
        · rw [ec]; exact .inr ⟨hE, rfl⟩
        · rw [ec, ok_bind, idx_ok k3, ok_bind, er]; exact .inr ⟨hE, rfl⟩) with ⟨o, eo, hlo, hoo⟩ | h
      · refine .inl ⟨o, eo, hlo, fun t c h => ?_⟩
        have := hoo t c h
        by_cases h1 : t < i
        · rw [if_pos h1] at this; rwa [if_pos (by omega)]
        · rw [if_neg h1] at this
          by_cases h2 : t = i
          · rw [if_pos h2] at this; rwa [if_pos (by omega)]
          · rw [if_neg h2] at this
            rw [if_neg (by omega)]
            simpa using this
      · exact .inr h) with ⟨out, e, hl, ho⟩ | h
  · refine .inl ⟨out, e, hl, fun i c h => ?_⟩
    have : i < out.length := by
      by_contra hc
      rw [List.getElem?_eq_none (by omega)] at h; cases h
    have := ho i c h
    rwa [if_pos (by omega)] at this
  · exact .inr h

theorem vectorMul_eq (P : Profile) (N : RNum T) {mat v : List T} (h0 : v ≠ []) (h1 : v.length * v.length ≤ mat.length)
    (h2 : mat.length < v.length * v.length + v.length) :
    vectorMul P N mat v = vectorMulLoops P N mat v (List.replicate v.length (N.ofU8 0)) v.length := by
  have hp : v.length ≠ 0 := fun h => h0 (List.length_eq_zero_iff.1 h)
  have hd : mat.length / v.length = v.length := by
    apply Nat.div_eq_of_lt_le h1
    rw [Nat.succ_mul]; exact h2
  unfold vectorMul
  simp only
  rw [show natDiv mat.length v.length = .ok v.length by unfold natDiv; rw [if_neg hp, hd], ok_bind]
  unfold checkEqual
  rw [if_neg (by simp), ok_bind]

/-- **C103** (reusing a buffer) `vector_mul_mut` puts in its output exactly what `vector_mul` returns, whatever the output
held before, and fails in the same cases. -/
theorem c103_mut (P : Profile) (N : RNum T) (mat v out : List T) : vectorMulMut P N mat v out = vectorMul P N mat v := by
  have e : ∀ n, forRange 0 n ([] : List T) (fun _ o => .ok (o ++ [N.ofU8 0])) = .ok (List.replicate n (N.ofU8 0)) := by
    intro n
    obtain ⟨o, eo, ho⟩ := forRange_rule (a := 0) (b := n) (s := ([] : List T)) (f := fun _ o => .ok (o ++ [N.ofU8 0]))
      (fun k o => o = List.replicate k (N.ofU8 0)) (Nat.zero_le _) rfl
      (fun k s _ _ h => ⟨_, rfl, by rw [h, List.replicate_succ']⟩)
    rw [eo, ho]
  unfold vectorMulMut vectorMul
  simp only [e, ok_bind]

/-- **C103** (dimensions) An empty vector is a division by zero; a matrix with fewer than `n * n` or at least `n * n + n`
entries is reported as InvalidArg before anything is computed. -/
theorem c103_dims (P : Profile) (N : RNum T) (mat v : List T) :
    (v = [] → vectorMul P N mat v = panic .divZero) ∧
    (v ≠ [] → mat.length < v.length * v.length ∨ v.length * v.length + v.length ≤ mat.length → vectorMul P N mat v = invalidArg) := by
  constructor
  · rintro rfl; rfl
  · intro h0 h
    have hp : v.length ≠ 0 := fun h => h0 (List.length_eq_zero_iff.1 h)
    have hd : mat.length / v.length ≠ v.length := by
      intro hd
      have := (Nat.div_eq_iff (by omega)).1 hd
      rcases h with h | h
      · exact absurd this.1 (by omega)
      · have := this.2; omega
    unfold vectorMul
    simp only
    rw [show natDiv mat.length v.length = .ok (mat.length / v.length) by unfold natDiv; rw [if_neg hp], ok_bind]
    unfold checkEqual
    rw [if_pos hd]; rfl

/-- spec: the integers of `mat` and `v`, as functions of the position -/
def entry {R : Type} [Zero R] (val : T → R) (l : List T) (k : Nat) : R := (l[k]?.map val).getD 0

theorem entry_eq {R : Type} [Zero R] {val : T → R} {l : List T} {k : Nat} {c : T} (h : l[k]? = some c) : entry val l k = val c := by
  simp [entry, h]

/-- spec: the sum of the products of the first `k` entries of row `i` of the row-major `n` by `n` matrix `mat` with those of `v` -/
def rowSum {R : Type} [NonUnitalNonAssocSemiring R] (mat v : Nat → R) (n i k : Nat) : R := ∑ j ∈ Finset.range k, mat (n * i + j) * v j

theorem rowSum_zero {R : Type} [NonUnitalNonAssocSemiring R] (mat v : Nat → R) (n i : Nat) : rowSum mat v n i 0 = 0 := by simp [rowSum]

theorem rowSum_succ {R : Type} [NonUnitalNonAssocSemiring R] (mat v : Nat → R) (n i k : Nat) :
    rowSum mat v n i (k + 1) = rowSum mat v n i k + mat (n * i + k) * v k := by simp [rowSum, Finset.sum_range_succ]

/-- spec: every product and every partial sum met on the way fits in `lo ≤ . < hi` -/
def RowFits (lo hi : Int) (mat v : Nat → Int) (n i k : Nat) : Prop :=
  ∀ j, j < k → (lo ≤ mat (n * i + j) * v j ∧ mat (n * i + j) * v j < hi) ∧ (lo ≤ rowSum mat v n i (j + 1) ∧ rowSum mat v n i (j + 1) < hi)

theorem replicate_getElem? {a : T} {n k : Nat} {c : T} (h : (List.replicate n a)[k]? = some c) : c = a := by
  rw [List.getElem?_replicate] at h
  split at h
  · cases h; rfl
  · cases h

theorem getElem?_lt {l : List T} {k : Nat} {c : T} (h : l[k]? = some c) : k < l.length := by
  by_contra hc
  rw [List.getElem?_eq_none (by omega)] at h; cases h

/-- **C103** (integers) On an integer type, for an `n`-vector and a matrix of at least `n * n` and fewer than `n * n + n` entries,
`vector_mul` returns the matrix-vector product when every product and partial sum fits in the type; otherwise a debug build
panics with an overflow, and a release build returns each entry of the product modulo the number of values of the type. -/
theorem c103_integers (P : Profile) {N : RNum T} {lo hi : Int} {val : T → Int} (M : Machine N lo hi val) (hlo : lo ≤ 0) (hhi : 0 < hi)
    {mat v : List T} (h0 : v ≠ []) (h1 : v.length * v.length ≤ mat.length) (h2 : mat.length < v.length * v.length + v.length)
    (hU : mat.length < USIZE) (rm : ∀ c ∈ mat, lo ≤ val c ∧ val c < hi) (rv : ∀ c ∈ v, lo ≤ val c ∧ val c < hi) :
    ((∀ i, i < v.length → RowFits lo hi (entry val mat) (entry val v) v.length i v.length) →
      ∃ out, vectorMul P N mat v = .ok out ∧ out.length = v.length ∧
        ∀ i, i < v.length → entry val out i = rowSum (entry val mat) (entry val v) v.length i v.length) ∧
    (¬ (∀ i, i < v.length → RowFits lo hi (entry val mat) (entry val v) v.length i v.length) → match P with
      | .debug => vectorMul P N mat v = panic .overflow
      | .release => ∃ out, vectorMul P N mat v = .ok out ∧ out.length = v.length ∧
          ∀ i, i < v.length → (entry val out i - rowSum (entry val mat) (entry val v) v.length i v.length) % (hi - lo) = 0) := by
  rw [vectorMul_eq P N h0 h1 h2]
  have hz : ∀ (t : Nat) c, (List.replicate v.length (N.ofU8 0))[t]? = some c → val c = 0 := fun t c h => by
    rw [replicate_getElem? h]; exact M.ofU8 0
  have hUU : v.length * v.length < USIZE := by omega
  constructor
  · intro fits
    rcases vectorMulLoops_rule P N mat v (e := .panic .overflow) (E := False)
      (fun i k c => val c = rowSum (entry val mat) (entry val v) v.length i k ∧ lo ≤ val c ∧ val c < hi) rfl h1 hUU
      (fun i j a b s hi' hj ha hb ⟨hs, hs1, hs2⟩ => by
        obtain ⟨⟨f1, f2⟩, f3, f4⟩ := fits i hi' j hj
        rw [rowSum_succ] at f3 f4
        rw [entry_eq ha, entry_eq hb] at f1 f2 f3 f4
        obtain ⟨a1, a2⟩ := rm a (List.mem_of_getElem? ha)
        obtain ⟨b1, b2⟩ := rv b (List.mem_of_getElem? hb)
        obtain ⟨c, ec, hc⟩ := (M.mul P a b a1 a2 b1 b2).1 ⟨f1, f2⟩
        obtain ⟨r, er, hr⟩ := (M.add P s c hs1 hs2 (by omega) (by omega)).1 ⟨by rw [hs, hc]; exact f3, by rw [hs, hc]; exact f4⟩
        refine .inl ⟨c, r, ec, er, ?_, ?_, ?_⟩
        · rw [rowSum_succ, hr, hs, hc, entry_eq ha, entry_eq hb]
        · rw [hr, hs, hc]; exact f3
        · rw [hr, hs, hc]; exact f4)
      _ List.length_replicate (fun t c h => ⟨by rw [hz t c h, rowSum_zero], by rw [hz t c h]; exact hlo, by rw [hz t c h]; exact hhi⟩) with
      ⟨out, e, hl, ho⟩ | h
    · refine ⟨out, e, hl, fun i hi' => ?_⟩
      have := List.getElem?_eq_getElem (l := out) (i := i) (by omega)
      rw [entry_eq this, (ho _ _ this).1]
    · exact h.1.elim
  · intro nf
    cases P with
    | debug =>
      simp only
      rcases vectorMulLoops_rule .debug N mat v (e := .panic .overflow) (E := True)
        (fun i k c => val c = rowSum (entry val mat) (entry val v) v.length i k ∧ (lo ≤ val c ∧ val c < hi) ∧
          RowFits lo hi (entry val mat) (entry val v) v.length i k) rfl h1 hUU
        (fun i j a b s hi' hj ha hb ⟨hs, ⟨hs1, hs2⟩, hf⟩ => by
          obtain ⟨a1, a2⟩ := rm a (List.mem_of_getElem? ha)
          obtain ⟨b1, b2⟩ := rv b (List.mem_of_getElem? hb)
          by_cases f : lo ≤ val a * val b ∧ val a * val b < hi
          · obtain ⟨c, ec, hc⟩ := (M.mul .debug a b a1 a2 b1 b2).1 f
            by_cases g : lo ≤ val s + val c ∧ val s + val c < hi
            · obtain ⟨r, er, hr⟩ := (M.add .debug s c hs1 hs2 (by omega) (by omega)).1 g
              have key : val r = rowSum (entry val mat) (entry val v) v.length i (j + 1) := by
                rw [rowSum_succ, hr, hs, hc, entry_eq ha, entry_eq hb]
              refine .inl ⟨c, r, ec, er, key, hr ▸ g, fun k hk => ?_⟩
              by_cases hkj : k = j
              · subst hkj
                rw [← key, entry_eq ha, entry_eq hb, hr]
                exact ⟨f, g⟩
              · exact hf k (by omega)
            · exact .inr (.inr ⟨trivial, c, ec, (M.add .debug s c hs1 hs2 (by omega) (by omega)).2 g⟩)
          · exact .inr (.inl ⟨trivial, (M.mul .debug a b a1 a2 b1 b2).2 f⟩))
        _ List.length_replicate (fun t c h => ⟨by rw [hz t c h, rowSum_zero], by rw [hz t c h]; exact ⟨hlo, hhi⟩, fun k hk => by omega⟩)
        with ⟨out, e, hl, ho⟩ | h
      · refine (nf fun i hi' => ?_).elim
        exact (ho i _ (List.getElem?_eq_getElem (l := out) (i := i) (by omega))).2.2
      · exact h.2
    | release =>
      simp only
      have comp : ∀ {r : Res T} {x : Int}, Computes .release lo hi val r x →
          ∃ c, r = .ok c ∧ (lo ≤ val c ∧ val c < hi) ∧ (val c - x) % (hi - lo) = 0 := by
        intro r x h
        by_cases hx : lo ≤ x ∧ x < hi
        · obtain ⟨c, e, hc⟩ := h.1 hx
          exact ⟨c, e, by rw [hc]; exact hx, by rw [hc, sub_self, Int.zero_emod]⟩
        · obtain ⟨c, e, hc1, hc2, hc⟩ := h.2 hx
          exact ⟨c, e, ⟨hc1, hc2⟩, hc⟩
      rcases vectorMulLoops_rule .release N mat v (e := .panic .overflow) (E := False)
        (fun i k c => (val c - rowSum (entry val mat) (entry val v) v.length i k) % (hi - lo) = 0 ∧ (lo ≤ val c ∧ val c < hi)) rfl h1 hUU
        (fun i j a b s hi' hj ha hb ⟨hs, hs1, hs2⟩ => by
          obtain ⟨a1, a2⟩ := rm a (List.mem_of_getElem? ha)
          obtain ⟨b1, b2⟩ := rv b (List.mem_of_getElem? hb)
          obtain ⟨c, ec, ⟨c1, c2⟩, hc⟩ := comp (M.mul .release a b a1 a2 b1 b2)
          obtain ⟨r, er, r12, hr⟩ := comp (M.add .release s c hs1 hs2 c1 c2)
          refine .inl ⟨c, r, ec, er, ?_, r12⟩
          rw [rowSum_succ, entry_eq ha, entry_eq hb]
          rw [← Int.dvd_iff_emod_eq_zero] at *
          have := dvd_add (dvd_add hr hc) hs
          have e : val r - (val s + val c) + (val c - val a * val b) + (val s - rowSum (entry val mat) (entry val v) v.length i j)
            = val r - (rowSum (entry val mat) (entry val v) v.length i j + val a * val b) := by ring
          rwa [e] at this)
        _ List.length_replicate (fun t c h => ⟨by rw [hz t c h, rowSum_zero, sub_self, Int.zero_emod], by rw [hz t c h]; exact ⟨hlo, hhi⟩⟩)
        with ⟨out, e, hl, ho⟩ | h
      · refine ⟨out, e, hl, fun i hi' => ?_⟩
        have := List.getElem?_eq_getElem (l := out) (i := i) (by omega)
        rw [entry_eq this]; exact (ho _ _ this).1
      · exact h.1.elim

/-- a 2 by 2 product of bytes that fits; one that does not -/
example : ∃ out, vectorMul .debug u8Num [1, 2, 3, 4] [5, 6] = .ok out ∧ out.length = 2 ∧ ∀ i, i < 2 →
    entry (fun u : UInt8 => (u.toNat : Int)) out i
      = rowSum (entry (fun u : UInt8 => (u.toNat : Int)) [1, 2, 3, 4]) (entry (fun u : UInt8 => (u.toNat : Int)) [5, 6]) 2 i 2 :=
  (c103_integers .debug c102_u8 (by decide) (by decide) (mat := [1, 2, 3, 4]) (v := [5, 6]) (by decide) (by decide) (by decide)
    (by decide) (by decide) (by decide)).1 (by unfold RowFits; decide)
example : vectorMul .debug u8Num [100, 2, 3, 4] [5, 6] = panic .overflow :=
  (c103_integers .debug c102_u8 (by decide) (by decide) (mat := [100, 2, 3, 4]) (v := [5, 6]) (by decide) (by decide) (by decide)
    (by decide) (by decide) (by decide)).2 (by unfold RowFits; decide)
end

/-- **C103** (exact arithmetic) In exact arithmetic, for an `n`-vector and a matrix of at least `n * n` and fewer than `n * n + n`
entries, `vector_mul` returns the product of the leading `n * n` entries, read row by row, with the vector. -/
theorem c103_real (P : Profile) {mat v : List ℝ} (h0 : v ≠ []) (h1 : v.length * v.length ≤ mat.length)
    (h2 : mat.length < v.length * v.length + v.length) (hU : mat.length < USIZE) :
    ∃ out, vectorMul P FloatOps.rnum mat v = .ok out ∧ out.length = v.length ∧
      ∀ i, i < v.length → entry id out i = ∑ j ∈ Finset.range v.length, entry id mat (v.length * i + j) * entry id v j := by
  rw [vectorMul_eq P _ h0 h1 h2]
  rcases vectorMulLoops_rule P FloatOps.rnum mat v (e := .panic .overflow) (E := False)
    (fun i k c => c = rowSum (entry id mat) (entry id v) v.length i k) rfl h1 (by omega)
    (fun i j a b s hi' hj ha hb hs => .inl ⟨a * b, s + a * b, rfl, rfl, by
        rw [rowSum_succ, entry_eq ha, entry_eq hb, hs]; rfl⟩)
    (List.replicate v.length (FloatOps.rnum.ofU8 0)) List.length_replicate
    (fun t c h => by rw [replicate_getElem? h, rowSum_zero]; exact Nat.cast_zero)
    with ⟨out, e, hl, ho⟩ | h
  · refine ⟨out, e, hl, fun i hi' => ?_⟩
    have := List.getElem?_eq_getElem (l := out) (i := i) (by omega)
    rw [entry_eq this]; exact ho _ _ this
  · exact h.1.elim

example : ∃ out, vectorMul .release FloatOps.rnum [(1 : ℝ), 2, 3, 4] [5, 6] = .ok out ∧ out.length = 2 ∧
    ∀ i, i < 2 → entry id out i = ∑ j ∈ Finset.range 2, entry id [(1 : ℝ), 2, 3, 4] (2 * i + j) * entry id [(5 : ℝ), 6] j :=
  c103_real .release (by simp) (by simp) (by simp) (by show 4 < USIZE; decide)
end Imgproc

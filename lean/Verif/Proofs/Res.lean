import Verif.Core.Res
/-! Helper lemmas for outcomes, integers, loops. -/
namespace Imgproc

@[simp] theorem ok_bind {α β} (a : α) (f : α → Res β) : ((Except.ok a : Res α) >>= f) = f a := rfl
@[simp] theorem error_bind {α β} (e : Fault) (f : α → Res β) :
    ((Except.error e : Res α) >>= f) = .error e := rfl
@[simp] theorem panic_bind {α β} (k : PanicKind) (f : α → Res β) :
    ((panic k : Res α) >>= f) = panic k := rfl
@[simp] theorem pure_ok {α} (a : α) : (pure a : Res α) = .ok a := rfl

theorem Res.panics_panic {α} (k : PanicKind) : Res.Panics (panic k : Res α) := ⟨k, rfl⟩
theorem Res.Panics.bind {α β} {r : Res α} (h : r.Panics) (f : α → Res β) : (r >>= f).Panics := by
  obtain ⟨k, rfl⟩ := h; exact ⟨k, rfl⟩
theorem Res.not_panics_ok {α} (a : α) : ¬ Res.Panics (Except.ok a : Res α) := by
  rintro ⟨k, h⟩; cases h

theorem wrapNat_ok {P n v} (h : v < n) : wrapNat P n v = .ok v := by simp [wrapNat, h]
theorem u32Add_ok {P a b} (h : a + b < U32SIZE) : u32Add P a b = .ok (a + b) := wrapNat_ok h
theorem u32Mul_ok {P a b} (h : a * b < U32SIZE) : u32Mul P a b = .ok (a * b) := wrapNat_ok h
theorem u32Sub_ok {P a b} (h : b ≤ a) : u32Sub P a b = .ok (a - b) := by simp [u32Sub, h]
theorem usizeAdd_ok {P a b} (h : a + b < USIZE) : usizeAdd P a b = .ok (a + b) := wrapNat_ok h
theorem usizeMul_ok {P a b} (h : a * b < USIZE) : usizeMul P a b = .ok (a * b) := wrapNat_ok h
theorem usizeSub_ok {P a b} (h : b ≤ a) : usizeSub P a b = .ok (a - b) := by simp [usizeSub, h]
theorem natDiv_ok {a b} (h : b ≠ 0) : natDiv a b = .ok (a / b) := by simp [natDiv, h]
theorem natMod_ok {a b} (h : b ≠ 0) : natMod a b = .ok (a % b) := by simp [natMod, h]
theorem wrapInt_ok {P half v} (h1 : -half ≤ v) (h2 : v < half) : wrapInt P half v = .ok v := by
  simp [wrapInt, h1, h2]
theorem i32Add_ok {P a b} (h1 : -I32HALF ≤ a + b) (h2 : a + b < I32HALF) :
    i32Add P a b = .ok (a + b) := wrapInt_ok h1 h2
theorem i32Sub_ok {P a b} (h1 : -I32HALF ≤ a - b) (h2 : a - b < I32HALF) :
    i32Sub P a b = .ok (a - b) := wrapInt_ok h1 h2
theorem i32Mul_ok {P a b} (h1 : -I32HALF ≤ a * b) (h2 : a * b < I32HALF) :
    i32Mul P a b = .ok (a * b) := wrapInt_ok h1 h2
theorem i16Add_ok {P a b} (h1 : -I16HALF ≤ a + b) (h2 : a + b < I16HALF) :
    i16Add P a b = .ok (a + b) := wrapInt_ok h1 h2
theorem toI32_of_lt {x : Nat} (h : x < 2147483648) : toI32 x = x := by
  unfold toI32 wrapSigned; omega
theorem toI16_of_lt {x : Nat} (h : x < 32768) : toI16 x = x := by
  unfold toI16 wrapSigned; omega
theorem i32ToU32_natCast {x : Nat} (h : x < U32SIZE) : i32ToU32 (x : Int) = x := by
  unfold i32ToU32; omega
theorem i32ToU32_of_nonneg {x : Int} (h0 : 0 ≤ x) (h : x < 4294967296) : i32ToU32 x = x.toNat := by
  unfold i32ToU32; omega

theorem idx_ok {α} {l : List α} {i : Nat} (h : i < l.length) : idx l i = .ok l[i] := by
  simp [idx, List.getElem?_eq_getElem h]
theorem idx_some {α} {l : List α} {i : Nat} {a : α} (h : l[i]? = some a) : idx l i = .ok a := by
  simp [idx, h]
theorem idx_panic {α} {l : List α} {i : Nat} (h : l.length ≤ i) : idx l i = panic .index := by
  simp [idx, List.getElem?_eq_none h]
theorem setIdx_ok {α} {l : List α} {i : Nat} {v : α} (h : i < l.length) :
    setIdx l i v = .ok (l.set i v) := by simp [setIdx, h]
theorem slice_ok {α} {l : List α} {a b : Nat} (h1 : a ≤ b) (h2 : b ≤ l.length) :
    slice l a b = .ok ((l.drop a).take (b - a)) := by simp [slice, h1, h2]
theorem slice_panic {α} {l : List α} {a b : Nat} (h : ¬ (a ≤ b ∧ b ≤ l.length)) :
    slice l a b = panic .index := by simp [slice, h]

/-! loops -/
@[simp] theorem forRange_empty {σ} {a b : Nat} (h : b ≤ a) (s : σ) (f) :
    forRange a b s f = .ok s := by
  unfold forRange; rw [Nat.sub_eq_zero_of_le h]; rfl

theorem forRange_cons {σ} {a b : Nat} (h : a < b) (s : σ) (f) :
    forRange a b s f = (f a s >>= fun s' => forRange (a + 1) b s' f) := by
  unfold forRange
  obtain ⟨n, hn⟩ : ∃ n, b - a = n + 1 := ⟨b - a - 1, by omega⟩
  have : b - (a + 1) = n := by omega
  rw [hn, this]; rfl

theorem loopFrom_rule {σ} (f : Nat → σ → Res σ) (I : Nat → σ → Prop) :
    ∀ (n i : Nat) (s : σ), I i s →
      (∀ k s, i ≤ k → k < i + n → I k s → ∃ s', f k s = .ok s' ∧ I (k + 1) s') →
      ∃ s', loopFrom f n i s = .ok s' ∧ I (i + n) s'
  | 0, i, s, h0, _ => ⟨s, rfl, h0⟩
  | n + 1, i, s, h0, hs => by
    obtain ⟨s1, e1, h1⟩ := hs i s (Nat.le_refl _) (by omega) h0
    obtain ⟨s2, e2, h2⟩ := loopFrom_rule f I n (i + 1) s1 h1
      (fun k s hk1 hk2 => hs k s (by omega) (by omega))
    refine ⟨s2, ?_, by rw [show i + (n + 1) = i + 1 + n by omega]; exact h2⟩
    simp [loopFrom, e1, e2]

/-- Hoare rule for `for i in a..b`. -/
theorem forRange_rule {σ} {a b : Nat} {s : σ} {f : Nat → σ → Res σ} (I : Nat → σ → Prop)
    (hab : a ≤ b) (h0 : I a s)
    (hs : ∀ k s, a ≤ k → k < b → I k s → ∃ s', f k s = .ok s' ∧ I (k + 1) s') :
    ∃ s', forRange a b s f = .ok s' ∧ I b s' := by
  obtain ⟨s', e, h⟩ := loopFrom_rule f I (b - a) a s h0
    (fun k s h1 h2 => hs k s h1 (by omega))
  rw [show a + (b - a) = b by omega] at h
  exact ⟨s', e, h⟩

/-- If the loop runs fine up to `m` and faults at `m`, the whole loop faults. -/
theorem forRange_fault {σ} {a b m : Nat} {s : σ} {f : Nat → σ → Res σ} (I : Nat → σ → Prop)
    {e : Fault} (ham : a ≤ m) (hmb : m < b) (h0 : I a s)
    (hs : ∀ k s, a ≤ k → k < m → I k s → ∃ s', f k s = .ok s' ∧ I (k + 1) s')
    (hf : ∀ s, I m s → f m s = .error e) : forRange a b s f = .error e := by
  obtain ⟨d, hd⟩ : ∃ d, m = a + d := ⟨m - a, by omega⟩
  induction d generalizing a s with
  | zero =>
    have : m = a := hd
    subst this
    rw [forRange_cons (by omega)]; simp [hf s h0]
  | succ d ih =>
    rw [forRange_cons (by omega)]
    obtain ⟨s1, e1, h1⟩ := hs a s (Nat.le_refl _) (by omega) h0
    rw [e1, ok_bind]
    exact ih (a := a + 1) (by omega) h1 (fun k s hk hk' => hs k s (by omega) hk') (by omega)

theorem forRange_congr {σ} {a b : Nat} {s : σ} {f g : Nat → σ → Res σ}
    (h : ∀ k s, a ≤ k → k < b → f k s = g k s) : forRange a b s f = forRange a b s g := by
  obtain ⟨d, hd⟩ : ∃ d, d = b - a := ⟨_, rfl⟩
  induction d generalizing a s with
  | zero => rw [forRange_empty (by omega), forRange_empty (by omega)]
  | succ d ih =>
    rw [forRange_cons (by omega), forRange_cons (by omega), h a s (Nat.le_refl _) (by omega)]
    congr 1; funext s'
    exact ih (fun k s hk hk' => h k s (by omega) hk') (by omega)

theorem forRange_append {σ} {a m b : Nat} (s : σ) (f) (h1 : a ≤ m) (h2 : m ≤ b) :
    forRange a b s f = (forRange a m s f >>= fun s' => forRange m b s' f) := by
  obtain ⟨d, hd⟩ : ∃ d, d = m - a := ⟨_, rfl⟩
  induction d generalizing a s with
  | zero => rw [show a = m by omega, forRange_empty (Nat.le_refl m), ok_bind]
  | succ d ih =>
    rw [forRange_cons (by omega : a < b), forRange_cons (by omega : a < m)]
    cases hfa : f a s with
    | error e => simp
    | ok s1 => simp only [ok_bind]; exact ih s1 (by omega) (by omega)

theorem forRange_snoc {σ} {a b : Nat} (s : σ) (f) (h : a ≤ b) :
    forRange a (b + 1) s f = (forRange a b s f >>= fun s' => f b s') := by
  rw [forRange_append s f h (Nat.le_succ b)]
  congr 1; funext s'
  rw [forRange_cons (by omega)]
  cases f b s' with
  | error e => simp
  | ok x => simp

theorem forList_rule {α σ} {l : List α} {s : σ} {f : α → σ → Res σ} (I : List α → σ → Prop)
    (h0 : I [] s)
    (hs : ∀ pre a post s, l = pre ++ a :: post → I pre s →
      ∃ s', f a s = .ok s' ∧ I (pre ++ [a]) s') :
    ∃ s', forList l s f = .ok s' ∧ I l s' := by
  suffices H : ∀ (rest pre : List α) (s : σ), l = pre ++ rest → I pre s →
      ∃ s', forList rest s f = .ok s' ∧ I l s' from H l [] s rfl h0
  intro rest
  induction rest with
  | nil => intro pre s hl h; exact ⟨s, rfl, by simpa [hl] using h⟩
  | cons a rest ih =>
    intro pre s hl h
    obtain ⟨s1, e1, h1⟩ := hs pre a rest s hl h
    obtain ⟨s2, e2, h2⟩ := ih (pre ++ [a]) s1 (by simp [hl]) h1
    exact ⟨s2, by simp [forList, e1, e2], h2⟩

theorem forEnum_rule {α σ} {l : List α} {s : σ} {f : Nat → α → σ → Res σ}
    (I : Nat → σ → Prop) (h0 : I 0 s)
    (hs : ∀ k a s, l[k]? = some a → I k s → ∃ s', f k a s = .ok s' ∧ I (k + 1) s') :
    ∃ s', forEnum l 0 s f = .ok s' ∧ I l.length s' := by
  suffices H : ∀ (rest pre : List α) (s : σ), l = pre ++ rest → I pre.length s →
      ∃ s', forEnum rest pre.length s f = .ok s' ∧ I l.length s' from H l [] s rfl h0
  intro rest
  induction rest with
  | nil => intro pre s hl h; exact ⟨s, rfl, by simpa [hl] using h⟩
  | cons a rest ih =>
    intro pre s hl h
    obtain ⟨s1, e1, h1⟩ := hs pre.length a s (by simp [hl]) h
    have := ih (pre ++ [a]) s1 (by simp [hl]) (by simpa using h1)
    obtain ⟨s2, e2, h2⟩ := this
    refine ⟨s2, ?_, h2⟩
    simp only [List.length_append, List.length_singleton] at e2
    simp [forEnum, e1, e2]

end Imgproc

namespace Imgproc
theorem Res.iff_of_ok {α} {r : Res α} {a : α} {p : Prop} (hr : r = .ok a) (hp : p) :
    (Res.Returns r ↔ p) ∧ (Res.Panics r ↔ ¬ p) := by
  subst hr
  refine ⟨⟨fun _ => hp, fun _ => ⟨a, rfl⟩⟩, ⟨?_, fun hn => absurd hp hn⟩⟩
  rintro ⟨k, hk⟩; cases hk
theorem Res.iff_of_panics {α} {r : Res α} {p : Prop} (hr : Res.Panics r) (hp : ¬ p) :
    (Res.Returns r ↔ p) ∧ (Res.Panics r ↔ ¬ p) := by
  refine ⟨⟨?_, fun h => absurd h hp⟩, ⟨fun _ => hp, fun _ => hr⟩⟩
  rintro ⟨a, ha⟩
  obtain ⟨k, hk⟩ := hr
  rw [ha] at hk; cases hk
theorem flatMap_congr' {α β} {l : List α} {f g : α → List β} (h : ∀ a ∈ l, f a = g a) :
    l.flatMap f = l.flatMap g := by
  rw [List.flatMap_def, List.flatMap_def, List.map_congr_left h]
theorem forRange_not_ok {σ} {a b m : Nat} {f : Nat → σ → Res σ} (h1 : a ≤ m) (h2 : m < b)
    (hf : ∀ s, ¬ Res.Returns (f m s)) (s : σ) : ¬ Res.Returns (forRange a b s f) := by
  rw [forRange_append s f h1 (Nat.le_of_lt h2)]
  cases h : forRange a m s f with
  | error e => rintro ⟨x, hx⟩; cases hx
  | ok s' =>
    rw [ok_bind, forRange_cons h2]
    intro hr
    apply hf s'
    cases h' : f m s' with
    | error e => rw [h'] at hr; obtain ⟨x, hx⟩ := hr; cases hx
    | ok v => exact ⟨v, rfl⟩

theorem bind_not_ok {α β} {r : Res α} {f : α → Res β} (h : ∀ a, r = .ok a → ¬ Res.Returns (f a)) :
    ¬ Res.Returns (r >>= f) := by
  cases r with
  | error e => rintro ⟨x, hx⟩; cases hx
  | ok a => exact h a rfl

theorem bind_eq_ok {α β} {r : Res α} {f : α → Res β} {b : β} (h : (r >>= f) = .ok b) :
    ∃ a, r = .ok a ∧ f a = .ok b := by
  cases r with
  | error e => cases h
  | ok a => exact ⟨a, rfl, h⟩

end Imgproc

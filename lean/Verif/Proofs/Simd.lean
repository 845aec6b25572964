import Verif.Model.Tone
import Verif.Proofs.Image
import Verif.Proofs.Res
import Mathlib.Tactic.Linarith
/-! The vector loops of src/simd.rs. -/
namespace Imgproc

/-- invariant rule for `while i + step <= n` -/
theorem whileStep_rule {σ} {add : Nat → Nat → Res Nat} {step n : Nat} {body : Nat → σ → Res σ}
    (hs : 0 < step) (hadd : ∀ i, i ≤ n → add i step = .ok (i + step)) (I : Nat → σ → Prop)
    (hb : ∀ i s, i + step ≤ n → I i s → ∃ s', body i s = .ok s' ∧ I (i + step) s') :
    ∀ (fuel i : Nat) (s : σ), i ≤ n → n < i + fuel * step → I i s →
      ∃ i' s', whileStep add step n body fuel i s = .ok (i', s') ∧ i' ≤ n ∧ n < i' + step ∧
        (∃ k, i' = i + k * step) ∧ I i' s'
  | 0, i, s, hi, hf, _ => by omega
  | fuel + 1, i, s, hi, hf, h => by
    unfold whileStep
    rw [hadd i hi, ok_bind]
    by_cases ht : i + step ≤ n
    · rw [if_pos ht]
      obtain ⟨s', e, h'⟩ := hb i s ht h
      rw [e, ok_bind]
      obtain ⟨i', s'', e', h1, h2, ⟨k, hk⟩, h3⟩ := whileStep_rule hs hadd I hb fuel (i + step) s' ht
        (by rw [Nat.succ_mul] at hf; omega) h'
      exact ⟨i', s'', e', h1, h2, ⟨k + 1, by rw [Nat.succ_mul]; omega⟩, h3⟩
    · rw [if_neg ht]
      exact ⟨i, s, rfl, hi, by omega, ⟨0, by omega⟩, h⟩

/-- the loop runs without fault until the iteration at `j`, whose body fails -/
theorem whileStep_fault {σ} {add : Nat → Nat → Res Nat} {step n : Nat} {body : Nat → σ → Res σ} {e : Fault}
    (hs : 0 < step) (hadd : ∀ i, i ≤ n → add i step = .ok (i + step)) (I : Nat → σ → Prop) (j : Nat) (hj : j + step ≤ n)
    (hb : ∀ i s, i < j → I i s → ∃ s', body i s = .ok s' ∧ I (i + step) s')
    (hf : ∀ s, I j s → body j s = .error e) :
    ∀ (fuel i : Nat) (s : σ), i ≤ j → (∃ k, j = i + k * step) → j < i + fuel * step → I i s →
      whileStep add step n body fuel i s = .error e
  | 0, i, s, hi, _, hfu, _ => by omega
  | fuel + 1, i, s, hi, ⟨k, hk⟩, hfu, h => by
    unfold whileStep
    rw [hadd i (by omega), ok_bind, if_pos (by omega)]
    by_cases he : i = j
    · subst he; rw [hf s h]; rfl
    · have hk0 : k ≠ 0 := by rintro rfl; omega
      obtain ⟨k', rfl⟩ := Nat.exists_eq_succ_of_ne_zero hk0
      rw [Nat.succ_mul] at hk
      obtain ⟨s', e', h'⟩ := hb i s (by omega) h
      rw [e', ok_bind]
      exact whileStep_fault hs hadd I j hj hb hf fuel (i + step) s' (by omega) ⟨k', by omega⟩
        (by rw [Nat.succ_mul] at hfu; omega) h'

/-- a buffer given by its bytes -/
def tab (n : Nat) (g : Nat → UInt8) : List UInt8 := (List.range n).map g
theorem tab_length (n g) : (tab n g).length = n := by unfold tab; simp
theorem tab_get {n : Nat} {g : Nat → UInt8} {i : Nat} : (tab n g)[i]? = if i < n then some (g i) else none := by
  unfold tab; rw [List.getElem?_map]
  by_cases h : i < n
  · rw [if_pos h, List.getElem?_range h]; rfl
  · rw [if_neg h, List.getElem?_eq_none (by simpa using h)]; rfl

/-- storing a vector of bytes -/
theorem storeBytes_tab {n : Nat} {g v' : Nat → UInt8} {i m : Nat} (h : i + m ≤ n) :
    storeBytes (tab n g) i (tab m v') =
      .ok (tab n fun j => if i ≤ j ∧ j < i + m then v' (j - i) else g j) := by
  unfold storeBytes
  rw [tab_length, tab_length, if_pos h]
  congr 1
  apply List.ext_getElem?
  intro j
  rw [tab_get, List.getElem?_append]
  simp only [List.length_append, List.length_take, tab_length, Nat.min_eq_left (show i ≤ n by omega)]
  by_cases h1 : j < i + m
  · rw [if_pos h1, List.getElem?_append, List.length_take, tab_length, Nat.min_eq_left (by omega)]
    rw [if_pos (show j < n by omega)]
    by_cases h2 : j < i
    · rw [if_pos h2, List.getElem?_take_of_lt h2, tab_get, if_pos (by omega), if_neg (by omega)]
    · rw [if_neg h2, tab_get, if_pos (by omega), if_pos (by omega)]
  · rw [if_neg h1, List.getElem?_drop, tab_get]
    rw [show i + m + (j - (i + m)) = j by omega]
    by_cases h3 : j < n
    · rw [if_pos h3, if_pos h3, if_neg (by omega)]
    · rw [if_neg h3, if_neg h3]

theorem storeBytes_ub {data v : List UInt8} {i : Nat} (h : data.length < i + v.length) :
    storeBytes data i v = .error .ub := by
  unfold storeBytes; rw [if_neg (by omega)]

theorem list_eq_tab {l : List UInt8} {n : Nat} (hn : l.length = n) : l = tab n fun j => l.getD j 0 := by
  apply List.ext_getElem?
  intro j
  rw [tab_get]
  by_cases h : j < n
  · rw [if_pos h]; simp [List.getD, List.getElem?_eq_getElem (hn ▸ h)]
  · rw [if_neg h, List.getElem?_eq_none (by omega)]

theorem load256_tab {n : Nat} {g : Nat → UInt8} {i : Nat} (h : i + 32 ≤ n) :
    load256 (tab n g) i = .ok (tab 32 fun k => g (i + k)) := by
  unfold load256
  rw [tab_length, if_pos h]
  congr 1
  apply List.ext_getElem?
  intro j
  by_cases h1 : j < 32
  · rw [List.getElem?_take_of_lt h1, List.getElem?_drop, tab_get, tab_get, if_pos (by omega), if_pos h1]
  · rw [tab_get, if_neg h1, List.getElem?_eq_none (by simp [tab_length]; omega)]

theorem load256_list {l : List UInt8} {n i : Nat} (hn : l.length = n) (h : i + 32 ≤ n) :
    load256 l i = .ok (tab 32 fun k => l.getD (i + k) 0) := by
  conv => lhs; rw [list_eq_tab hn]
  exact load256_tab h

theorem load256_ub {l : List UInt8} {i : Nat} (h : l.length < i + 32) : load256 l i = .error .ub := by
  unfold load256; rw [if_neg (by omega)]

theorem zipWith_tab (op : UInt8 → UInt8 → UInt8) (m : Nat) (a b : Nat → UInt8) :
    List.zipWith op (tab m a) (tab m b) = tab m fun k => op (a k) (b k) := by
  unfold tab
  rw [List.zipWith_map, List.zipWith_self]

theorem replicate_tab (n : Nat) (v : UInt8) : List.replicate n v = tab n fun _ => v := by
  apply List.ext_getElem?
  intro j
  rw [tab_get, List.getElem?_replicate]

/-- saturating byte operations -/
def addSat (x y : UInt8) : UInt8 := if x.toNat + y.toNat > 255 then 255 else x + y
def subSat (x y : UInt8) : UInt8 := if x.toNat < y.toNat then 0 else x - y
theorem addsEpu8_tab (m a b) : addsEpu8 (tab m a) (tab m b) = tab m fun k => addSat (a k) (b k) := zipWith_tab _ _ _ _
theorem subsEpu8_tab (m a b) : subsEpu8 (tab m a) (tab m b) = tab m fun k => subSat (a k) (b k) := zipWith_tab _ _ _ _
theorem avgEpu8_tab (m a b) : avgEpu8 (tab m a) (tab m b) =
    tab m fun k => UInt8.ofNat (((a k).toNat + (b k).toNat + 1) / 2) := zipWith_tab _ _ _ _

theorem tab_congr {n : Nat} {f g : Nat → UInt8} (h : ∀ j < n, f j = g j) : tab n f = tab n g := by
  unfold tab
  exact List.map_congr_left (fun j hj => h j (List.mem_range.1 hj))

theorem blendv_tab (m : Nat) (a b k : Nat → UInt8) :
    blendv (tab m a) (tab m b) (tab m k) = tab m fun j => if k j ≥ 128 then b j else a j := by
  unfold blendv tab
  rw [List.zip, List.zipWith_map, List.zipWith_self, List.zipWith_map, List.zipWith_self]

/-- the alpha mask of `adds_256_u8`: every fourth byte -/
theorem alphaMask_tab : set1Epi32 (-2 * 2 ^ 30) = tab 32 fun k => if k % 4 = 3 then 128 else 0 := by decide +kernel
theorem satMaskA_tab : channelMask true 1 = tab 32 fun k => if k % 4 = 1 then 128 else 0 := by decide +kernel
theorem satMask_tab : channelMask false 1 = tab 32 fun k => if k % 3 = 1 ∧ k < 31 then 128 else 0 := by decide +kernel
end Imgproc

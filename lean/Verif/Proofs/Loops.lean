import Verif.Proofs.Image
import Verif.Model.Math
/-! Loop reshaping and the kernel accumulation loop. -/
namespace Imgproc
open FloatOps

theorem loopFrom_shift {σ} (f : Nat → σ → Res σ) (d : Nat) :
    ∀ (n i : Nat) (s : σ), loopFrom (fun k s => f (d + k) s) n i s = loopFrom f n (d + i) s
  | 0, _, _ => rfl
  | n + 1, i, s => by
    simp only [loopFrom]
    congr 1; funext s'
    exact loopFrom_shift f d n (i + 1) s'

theorem forRange_shift {σ} (f : Nat → σ → Res σ) (d a b : Nat) (s : σ) :
    forRange a b s (fun k s => f (d + k) s) = forRange (d + a) (d + b) s f := by
  unfold forRange
  rw [loopFrom_shift, show d + b - (d + a) = b - a by omega]

/-- two nested loops over rows and columns are one loop over the row-major index -/
theorem forRange_nested {σ} (m : Nat) (f : Nat → σ → Res σ) : ∀ (n : Nat) (s : σ),
    (forRange 0 n s fun y s => forRange 0 m s fun x s => f (y * m + x) s) = forRange 0 (n * m) s f
  | 0, s => by simp
  | n + 1, s => by
    rw [forRange_snoc _ _ (Nat.zero_le _), forRange_nested m f n s, Nat.succ_mul,
      forRange_append s f (Nat.zero_le _) (Nat.le_add_right _ _)]
    congr 1; funext s'
    rw [forRange_shift f (n * m) 0 m]; rfl

/-- a loop either finishes or stops with the fault of one of its steps -/
theorem forRange_error {σ} {f : Nat → σ → Res σ} {a b : Nat} {s : σ} {e : Fault}
    (h : forRange a b s f = .error e) : ∃ k s', a ≤ k ∧ k < b ∧ f k s' = .error e := by
  obtain ⟨d, hd⟩ : ∃ d, d = b - a := ⟨_, rfl⟩
  induction d generalizing a s with
  | zero => rw [forRange_empty (by omega)] at h; cases h
  | succ d ih =>
    rw [forRange_cons (by omega)] at h
    cases hgs : f a s with
    | error e' => rw [hgs] at h; cases h; exact ⟨a, s, Nat.le_refl _, by omega, hgs⟩
    | ok s1 =>
      rw [hgs, ok_bind] at h
      obtain ⟨k, s', h1, h2, h3⟩ := ih h (by omega)
      exact ⟨k, s', by omega, h2, h3⟩

theorem bind_eq_error {α β} {r : Res α} {f : α → Res β} {e : Fault} (h : (r >>= f) = .error e) :
    r = .error e ∨ ∃ a, r = .ok a ∧ f a = .error e := by
  cases r with
  | error e' => cases h; exact .inl rfl
  | ok a => exact .inr ⟨a, rfl, h⟩

theorem set_map_range {S} (g : Nat → S) {n j : Nat} (v : S) :
    ((List.range n).map g).set j v = (List.range n).map (fun k => if k = j then v else g k) := by
  apply List.ext_getElem?
  intro k
  simp only [List.getElem?_set, List.getElem?_map, List.length_map, List.length_range]
  by_cases hk : k < n
  · simp only [List.getElem?_range hk, Option.map_some]
    by_cases hj : j = k
    · subst hj; simp [hk]
    · rw [if_neg hj, if_neg (fun h => hj h.symm)]
  · rw [List.getElem?_eq_none (by simpa using hk)]
    by_cases hj : j = k
    · subst hj; simp [hk]
    · simp [hj]

/-- Update every entry of a vector in index order, each from its own old value. -/
theorem forRange_update {S} (n : Nat) (g : Nat → S) (step : Nat → List S → Res (List S)) (u : Nat → S → S)
    (hs : ∀ j h, j < n → step j ((List.range n).map h) =
      .ok (((List.range n).map h).set j (u j (h j)))) :
    forRange 0 n ((List.range n).map g) step = .ok ((List.range n).map fun j => u j (g j)) := by
  obtain ⟨s, e, h⟩ := forRange_rule (a := 0) (b := n) (s := (List.range n).map g) (f := step)
    (fun j s => s = (List.range n).map (fun k => if k < j then u k (g k) else g k)) (Nat.zero_le _)
    (by simp)
    (by
      rintro j s _ hj rfl
      refine ⟨_, hs j _ hj, ?_⟩
      rw [set_map_range]
      apply List.map_congr_left
      intro k _
      by_cases h1 : k = j
      · subst h1; simp
      · simp only [if_neg h1]
        have : (k < j + 1) ↔ k < j := by omega
        simp only [this])
  rw [e, h]
  congr 1
  apply List.map_congr_left
  intro k hk
  rw [if_pos (List.mem_range.1 hk)]

section
variable {F : Type} [FloatOps F]

/-- per-channel weighted sum, accumulated left to right from zero -/
def wsum (kp : List (F × List F)) (channels : Nat) : List F :=
  (List.range channels).map fun c => kp.foldl (fun acc e => acc +. e.1 *. e.2.getD c (num 0)) (num 0)

theorem wsum_length (kp : List (F × List F)) (c : Nat) : (wsum kp c).length = c := by simp [wsum]

theorem kernelStep_eq {kernel : List F} {input : SubImage F} {i n : Nat} (g : Nat → F)
    (hk : i < kernel.length) {p : List F} (hp : input.data[i]? = some p) (hl : n ≤ p.length) :
    kernelStep kernel input i ((List.range n).map g) =
      .ok ((List.range n).map fun j => g j +. kernel[i] *. p.getD j (num 0)) := by
  unfold kernelStep
  rw [List.length_map, List.length_range]
  apply forRange_update n g _ (fun j o => o +. kernel[i] *. p.getD j (num 0))
  intro j h hj
  rw [idx_ok hk, ok_bind, SubImage.index, idx_some hp, ok_bind, idx_ok (by omega), ok_bind,
    idx_ok (by simpa using hj), ok_bind, setIdx_ok (by simpa using hj)]
  simp [List.getD_eq_getElem?_getD, List.getElem?_eq_getElem (by omega : j < p.length)]

theorem kernelLoop_eq {kernel : List F} {input : SubImage F} {m n : Nat} (hk : kernel.length = m)
    (hd : input.data.length = m) (hl : ∀ p ∈ input.data, n ≤ p.length) :
    (forRange 0 m (List.replicate n (num 0)) fun i output => kernelStep kernel input i output) =
      .ok (wsum (kernel.zip input.data) n) := by
  have hz : (kernel.zip input.data).length = m := by simp [hk, hd]
  obtain ⟨s, e, h⟩ := forRange_rule (a := 0) (b := m) (s := List.replicate n (num 0 : F))
    (f := fun i output => kernelStep kernel input i output)
    (fun i s => s = wsum ((kernel.zip input.data).take i) n) (Nat.zero_le _)
    (by
      unfold wsum
      simp only [List.take_zero, List.foldl_nil]
      apply List.ext_getElem?
      intro k
      by_cases hk : k < n <;> simp [hk])
    (by
      rintro i s _ hi rfl
      have hi1 : i < kernel.length := by omega
      have hi2 : i < input.data.length := by omega
      refine ⟨_, kernelStep_eq _ hi1 (List.getElem?_eq_getElem hi2) (hl _ (List.getElem_mem hi2)), ?_⟩
      unfold wsum
      apply List.map_congr_left
      intro c _
      rw [List.take_succ_eq_append_getElem (by omega : i < (kernel.zip input.data).length), List.foldl_append]
      simp)
  rw [e, h, ← hz, List.take_length]

theorem zeros_loop {n : Nat} : (forRange 0 n [] fun _ o => (.ok (o ++ [num 0]) : Res (List F))) =
    .ok (List.replicate n (num 0)) := by
  rw [forRange_collect0 _ (fun _ => [num 0]) (fun i acc _ => rfl)]
  congr 1
  induction n with
  | zero => rfl
  | succ n ih => rw [List.range_succ, List.flatMap_append, ih, List.replicate_succ']; simp

theorem checkOdd_usize_ok {n : Nat} (h : n % 2 = 1) : checkOdd usizeNum n = .ok () := by
  simp [checkOdd, usizeNum, natMod, h]
theorem checkOdd_usize_err {n : Nat} (h : n % 2 ≠ 1) : checkOdd usizeNum n = invalidArg := by
  have : n % 2 = 0 := by omega
  simp [checkOdd, usizeNum, natMod, this]
theorem checkOdd_u32_ok {n : Nat} (h : n % 2 = 1) : checkOdd u32Num n = .ok () := by
  simp [checkOdd, u32Num, natMod, h]
theorem checkOdd_u32_err {n : Nat} (h : n % 2 ≠ 1) : checkOdd u32Num n = invalidArg := by
  have : n % 2 = 0 := by omega
  simp [checkOdd, u32Num, natMod, this]
@[simp] theorem invalidArg_bind {α β} (f : α → Res β) : ((invalidArg : Res α) >>= f) = invalidArg := rfl
theorem checkEqual_ok {T} [DecidableEq T] {a b : T} (h : a = b) : checkEqual a b = .ok () := by
  simp [checkEqual, h]
theorem checkEqual_err {T} [DecidableEq T] {a b : T} (h : a ≠ b) : checkEqual a b = invalidArg := by
  simp [checkEqual, h]

theorem apply1dKernel_eq (P : Profile) {input : SubImage F} {kernel : List F}
    (hs : input.info.width * input.info.height < U32SIZE)
    (ho : kernel.length % 2 = 1) (hk : kernel.length = input.info.width * input.info.height)
    (hd : input.data.length = kernel.length) (hl : ∀ p ∈ input.data, input.info.channels ≤ p.length) :
    apply1dKernel P input kernel = .ok (wsum (kernel.zip input.data) input.info.channels) := by
  unfold apply1dKernel
  rw [show input.info.size P = .ok _ from u32Mul_ok hs, ok_bind, checkOdd_usize_ok ho, ok_bind,
    checkEqual_ok hk, ok_bind, kernelLoop_eq hk (by omega) hl]

theorem apply2dKernel_eq (P : Profile) {input : SubImage F} {kernel : List F}
    (hs : input.info.width < U32SIZE)
    (ho : kernel.length % 2 = 1) (hk : kernel.length = input.info.width * input.info.width)
    (hd : input.data.length = kernel.length) (hl : ∀ p ∈ input.data, input.info.channels ≤ p.length) :
    apply2dKernel P input kernel = .ok (wsum (kernel.zip input.data) input.info.channels) := by
  have hsq : input.info.width * input.info.width < USIZE :=
    Nat.lt_of_lt_of_le (Nat.mul_lt_mul'' hs hs) (by decide)
  unfold apply2dKernel
  simp only
  rw [checkOdd_usize_ok ho, ok_bind, usizeMul_ok hsq, ok_bind, checkEqual_ok hk, ok_bind,
    ← kernelLoop_eq hk (by omega) hl, ← forRange_nested]
  apply forRange_congr
  intro y s _ hy
  apply forRange_congr
  intro x s _ hx
  have := row_lt hx hy
  rw [usizeMul_ok (by omega), ok_bind, usizeAdd_ok (by omega), ok_bind]
end
end Imgproc

import Verif.Proofs.Loops
import Verif.Proofs.IEEE
import Verif.Proofs.Sqrt
import Verif.Core.Ideal
import Verif.Model.Util
import Verif.Props.Tone
/-! Properties C43 and C44: generated kernels and the bilateral spatial matrix. -/
namespace Imgproc
open FloatOps

section
variable {F : Type} [FloatOps F]

/-- the `size x size` matrix, row by row, with entry `m i j` in row `i`, column `j` -/
def matrixOf (size : Nat) (m : Nat → Nat → F) : List F :=
  (List.range (size * size)).map fun k => m (k / size) (k % size)

theorem matrixOf_get {size : Nat} {m : Nat → Nat → F} {i j : Nat} (hi : i < size) (hj : j < size) :
    (matrixOf size m)[i * size + j]? = some (m i j) := by
  have h := row_lt hj hi
  unfold matrixOf
  rw [List.getElem?_map, List.getElem?_range h, Option.map_some]
  have h0 : 0 < size := by omega
  rw [show (i * size + j) / size = i by rw [Nat.mul_comm, Nat.mul_add_div h0, Nat.div_eq_of_lt hj, Nat.add_zero],
    show (i * size + j) % size = j by rw [Nat.mul_comm, Nat.mul_add_mod, Nat.mod_eq_of_lt hj]]

theorem matrixOf_length (size : Nat) (m : Nat → Nat → F) : (matrixOf size m).length = size * size := by
  simp [matrixOf]

theorem matrixOf_congr {size : Nat} {m m' : Nat → Nat → F} (h : ∀ i j, i < size → j < size → m i j = m' i j) :
    matrixOf size m = matrixOf size m' := by
  unfold matrixOf
  refine List.map_congr_left fun k hk => h _ _ ?_ ?_
  · exact Nat.div_lt_of_lt_mul (List.mem_range.1 hk)
  · have := List.mem_range.1 hk
    exact Nat.mod_lt _ (Nat.pos_of_ne_zero fun h => by subst h; simp at this)

theorem matrixOf_set {size : Nat} {m : Nat → Nat → F} {i j : Nat} (hi : i < size) (hj : j < size) (v : F) :
    (matrixOf size m).set (i * size + j) v = matrixOf size (fun a b => if a = i ∧ b = j then v else m a b) := by
  unfold matrixOf
  rw [set_map_range]
  refine List.map_congr_left fun k hk => ?_
  have h0 : 0 < size := by omega
  have e : k = i * size + j ↔ (k / size = i ∧ k % size = j) := by
    constructor
    · rintro rfl
      exact ⟨by rw [Nat.mul_comm, Nat.mul_add_div h0, Nat.div_eq_of_lt hj, Nat.add_zero],
        by rw [Nat.mul_comm, Nat.mul_add_mod, Nat.mod_eq_of_lt hj]⟩
    · rintro ⟨rfl, rfl⟩
      have := Nat.div_add_mod k size
      rw [Nat.mul_comm] at this; omega
  show _ = if k / size = i ∧ k % size = j then v else m (k / size) (k % size)
  by_cases h : k = i * size + j
  · rw [if_pos h, if_pos (e.1 h)]
  · rw [if_neg h, if_neg (fun h' => h (e.2 h'))]

theorem matrixOf_zero (size : Nat) (v : F) : List.replicate (size * size) v = matrixOf size (fun _ _ => v) := by
  apply List.ext_getElem?
  intro k
  unfold matrixOf
  rw [List.getElem?_map, List.getElem?_replicate]
  by_cases h : k < size * size
  · rw [if_pos h, List.getElem?_range h]; rfl
  · rw [if_neg h, List.getElem?_eq_none (by simpa using h)]; rfl

/-- the squared distance of cell `(i, j)` to the centre cell `((size-1)/2, (size-1)/2)` -/
def centreDist2 (size i j : Nat) : Int :=
  ((i : Int) - (((size - 1) / 2 : Nat) : Int)) ^ 2 + ((j : Int) - (((size - 1) / 2 : Nat) : Int)) ^ 2

theorem size_lt {size : Nat} (hs : size * size < 2147483648) : size < 46341 := by
  by_contra h
  have : 46341 * 46341 ≤ size * size := Nat.mul_le_mul (by omega) (by omega)
  omega

theorem sq_bound {x : Int} {n : Int} (h1 : -n ≤ x) (h2 : x ≤ n) : 0 ≤ x * x ∧ x * x ≤ n * n := by
  constructor
  · exact mul_self_nonneg x
  · nlinarith

theorem kernelFill_eq (P : Profile) {size : Nat} (h1 : 0 < size) (hs : size * size < 2147483648) (entry : Int → F) :
    kernelFill P size entry = .ok (matrixOf size fun i j => entry (centreDist2 size i j)) := by
  have hsz := size_lt hs
  unfold kernelFill
  rw [u32Mul_ok (by show _ < 4294967296; omega), ok_bind, u32Sub_ok (by omega), ok_bind, toI32_of_lt (by omega),
    matrixOf_zero]
  simp only [toI32_of_lt (x := size) (by omega)]
  unfold forRangeI
  simp only [Int.sub_zero, Int.toNat_natCast, Int.zero_add]
  generalize hk : (size - 1) / 2 = k
  have hkb : 2 * k ≤ size - 1 := by omega
  obtain ⟨out, e, h⟩ := forRange_rule (a := 0) (b := size) (s := matrixOf size fun _ _ => (num 0 : F))
    (f := fun (i : Nat) filter => forRange 0 size filter fun (j : Nat) filter =>
      if (i : Int) ≤ (j : Int) then do
        let d ← kernelDist2 P i j k
        let v := entry d
        let filter ← kernelSet P filter i j size v
        if (i : Int) ≠ (j : Int) then kernelSet P filter j i size v else .ok filter
      else .ok filter)
    (fun i s => s = matrixOf size fun a b =>
      if min a b < i then entry (centreDist2 size a b) else num 0) (Nat.zero_le _)
    (matrixOf_congr fun a b _ _ => by rw [if_neg (by omega)])
    (by
      rintro i s - hi rfl
      obtain ⟨out, e, h⟩ := forRange_rule (a := 0) (b := size)
        (s := matrixOf size fun a b => if min a b < i then entry (centreDist2 size a b) else num 0)
        (f := fun (j : Nat) filter =>
          if (i : Int) ≤ (j : Int) then do
            let d ← kernelDist2 P i j k
            let v := entry d
            let filter ← kernelSet P filter i j size v
            if (i : Int) ≠ (j : Int) then kernelSet P filter j i size v else .ok filter
          else .ok filter)
        (fun j s => s = matrixOf size fun a b =>
          if min a b < i ∨ (min a b = i ∧ max a b < j) then entry (centreDist2 size a b) else num 0) (Nat.zero_le _)
        (matrixOf_congr fun a b _ _ => by
          congr 1; apply propext; constructor
          · exact Or.inl
          · rintro (h | h)
            · exact h
            · omega)
        (by
          rintro j s - hj rfl
          by_cases hij : i ≤ j
          · rw [if_pos (by exact_mod_cast hij)]
            have hd : kernelDist2 P i j k = .ok (centreDist2 size i j) := by
              have a1 := sq_bound (x := (i : Int) - k) (n := 23170) (by omega) (by omega)
              have a2 := sq_bound (x := (j : Int) - k) (n := 23170) (by omega) (by omega)
              norm_num at a1 a2
              unfold kernelDist2 centreDist2
              rw [i32Sub_ok (by omega) (by omega), ok_bind,
                i32Mul_ok (by omega) (by omega), ok_bind,
                i32Sub_ok (by omega) (by omega), ok_bind,
                i32Mul_ok (by omega) (by omega), ok_bind,
                i32Add_ok (by omega) (by omega), hk, pow_two, pow_two]
            have hset : ∀ (a b : Nat) (m : Nat → Nat → F) (v : F), a < size → b < size →
                kernelSet P (matrixOf size m) a b size v =
                  .ok (matrixOf size (fun a' b' => if a' = a ∧ b' = b then v else m a' b')) := by
              intro a b m v ha hb
              have hlt := row_lt hb ha
              have hc : ((a * size : Nat) : Int) = (a : Int) * (size : Int) := by push_cast; ring
              have hc' : ((a * size + b : Nat) : Int) = (a : Int) * (size : Int) + b := by push_cast; ring
              unfold kernelSet
              rw [toI32_of_lt (x := size) (by omega),
                i32Mul_ok (by rw [← hc]; omega) (by rw [← hc]; omega), ok_bind,
                i32Add_ok (by rw [← hc']; omega) (by rw [← hc']; omega), ok_bind,
                ← hc', if_neg (by omega), Int.toNat_natCast, setIdx_ok (by rw [matrixOf_length]; exact hlt),
                matrixOf_set ha hb]
            rw [hd, ok_bind]
            simp only []
            rw [hset i j _ _ hi hj, ok_bind]
            have hsym : centreDist2 size j i = centreDist2 size i j := by unfold centreDist2; ring
            by_cases hne : i = j
            · rw [if_neg (by simpa using hne)]
              refine ⟨_, rfl, matrixOf_congr fun a b ha hb => ?_⟩
              subst hne
              by_cases hab : a = i ∧ b = i
              · rw [if_pos hab, if_pos (by omega), hab.1, hab.2]
              · rw [if_neg hab]
                congr 1; apply propext; constructor
                · rintro (h | h) <;> omega
                · rintro (h | h) <;> omega
            · rw [if_pos (by simpa using hne), hset j i _ _ hj hi]
              refine ⟨_, rfl, matrixOf_congr fun a b ha hb => ?_⟩
              by_cases hab : a = j ∧ b = i
              · rw [if_pos hab, if_pos (by omega), hab.1, hab.2, hsym]
              · rw [if_neg hab]
                by_cases hab' : a = i ∧ b = j
                · rw [if_pos hab', if_pos (by omega), hab'.1, hab'.2]
                · rw [if_neg hab']
                  congr 1; apply propext; constructor
                  · rintro (h | h) <;> omega
                  · rintro (h | h) <;> omega
          · rw [if_neg (by omega)]
            refine ⟨_, rfl, matrixOf_congr fun a b ha hb => ?_⟩
            congr 1; apply propext; constructor
            · rintro (h | h) <;> omega
            · rintro (h | h) <;> omega)
      refine ⟨out, e, ?_⟩
      rw [h]
      exact matrixOf_congr fun a b ha hb => by
        congr 1; apply propext; constructor
        · rintro (h | h) <;> omega
        · intro h; omega)
  rw [e, h]
  exact congrArg _ (matrixOf_congr fun a b ha hb => by rw [if_pos (by omega)])

/-- **C43** (Gaussian) For odd `size` with `size² < 2^31`, `generate_gaussian_kernel` returns `size²`
numbers; the one in row `i`, column `j` is
`(1 / (2·PI·σ·σ)) · E.powf(-d / (2·σ·σ))` where `d` is the squared distance to the centre cell. -/
theorem c43_gaussian (P : Profile) (size : Nat) (sigma : F) (hodd : size % 2 = 1) (hs : size * size < 2147483648) :
    ∃ out, generateGaussianKernel P size sigma = .ok out ∧ out.length = size * size ∧
      ∀ i j, i < size → j < size → out[i * size + j]? =
        some ((num 1 /. (num 2 *. FloatOps.pi *. sigma *. sigma)) *.
          FloatOps.pow FloatOps.e (FloatOps.neg (FloatOps.ofInt (centreDist2 size i j)) /. (num 2 *. sigma *. sigma))) := by
  refine ⟨_, ?_, matrixOf_length _ _, fun i j hi hj => matrixOf_get hi hj⟩
  unfold generateGaussianKernel
  rw [checkOdd_u32_ok hodd, ok_bind, kernelFill_eq P (by omega) hs]
  rfl

/-- **C43** (Laplacian of Gaussian): with `x = -d / (2·σ·σ)` the entry is
`(-1 / (PI·σ.powf(4))) · (1 - x) · E.powf(x)`. -/
theorem c43_log (P : Profile) (size : Nat) (sigma : F) (hodd : size % 2 = 1) (hs : size * size < 2147483648) :
    ∃ out, generateLogKernel P size sigma = .ok out ∧ out.length = size * size ∧
      ∀ i j, i < size → j < size → out[i * size + j]? =
        some (let x := FloatOps.neg (FloatOps.ofInt (centreDist2 size i j)) /. (num 2 *. sigma *. sigma)
          (num (-1) /. (FloatOps.pi *. FloatOps.pow sigma (num 4))) *. (num 1 -. x) *. FloatOps.pow FloatOps.e x) := by
  refine ⟨_, ?_, matrixOf_length _ _, fun i j hi hj => matrixOf_get hi hj⟩
  unfold generateLogKernel
  rw [checkOdd_u32_ok hodd, ok_bind, kernelFill_eq P (by omega) hs]
  rfl

theorem centreDist2_mirror {size i j : Nat} (hodd : size % 2 = 1) (hi : i < size) (hj : j < size) :
    centreDist2 size i j = centreDist2 size j i ∧ centreDist2 size i j = centreDist2 size (size - 1 - i) j ∧
    centreDist2 size i j = centreDist2 size i (size - 1 - j) := by
  have e : ((size - 1 : Nat) : Int) = 2 * (((size - 1) / 2 : Nat) : Int) := by omega
  have ei : ((size - 1 - i : Nat) : Int) = 2 * (((size - 1) / 2 : Nat) : Int) - i := by omega
  have ej : ((size - 1 - j : Nat) : Int) = 2 * (((size - 1) / 2 : Nat) : Int) - j := by omega
  unfold centreDist2
  refine ⟨by ring, ?_, ?_⟩
  · rw [ei]; ring
  · rw [ej]; ring

/-- **C43** both kernels are unchanged by transposition and by reflection in either direction, in
whatever arithmetic (in particular in IEEE arithmetic, entry for entry). -/
theorem c43_symmetric (P : Profile) (size : Nat) (sigma : F) (hodd : size % 2 = 1) (hs : size * size < 2147483648)
    (out : List F) (hout : generateGaussianKernel P size sigma = .ok out ∨ generateLogKernel P size sigma = .ok out)
    (i j : Nat) (hi : i < size) (hj : j < size) :
    out[j * size + i]? = out[i * size + j]? ∧ out[(size - 1 - i) * size + j]? = out[i * size + j]? ∧
    out[i * size + (size - 1 - j)]? = out[i * size + j]? := by
  obtain ⟨h1, h2, h3⟩ := centreDist2_mirror (size := size) hodd hi hj
  rcases hout with h | h
  · obtain ⟨o, e, -, hg⟩ := c43_gaussian P size sigma hodd hs
    rw [h] at e; cases e
    rw [hg i j hi hj, hg j i hj hi, hg _ j (by omega) hj, hg i _ hi (by omega), ← h1, ← h2, ← h3]
    exact ⟨rfl, rfl, rfl⟩
  · obtain ⟨o, e, -, hg⟩ := c43_log P size sigma hodd hs
    rw [h] at e; cases e
    rw [hg i j hi hj, hg j i hj hi, hg _ j (by omega) hj, hg i _ hi (by omega), ← h1, ← h2, ← h3]
    exact ⟨rfl, rfl, rfl⟩

example (P : Profile) (sigma : F) : ∃ out, generateGaussianKernel P 5 sigma = .ok out ∧
    out[0]? = out[24]? ∧ out[1]? = out[5]? := by
  obtain ⟨out, h, -⟩ := c43_gaussian P 5 sigma rfl (by decide)
  have h1 := c43_symmetric P 5 sigma rfl (by decide) out (.inl h) 0 0 (by decide) (by decide)
  have h2 := c43_symmetric P 5 sigma rfl (by decide) out (.inl h) 4 0 (by decide) (by decide)
  have h3 := c43_symmetric P 5 sigma rfl (by decide) out (.inl h) 1 0 (by decide) (by decide)
  exact ⟨out, h, by rw [show (24 : Nat) = 4 * 5 + (5 - 1 - 0) from rfl, h2.2.2, ← h1.2.1], h3.1⟩

/-- **C43** even sizes are rejected. -/
theorem c43_even (P : Profile) (size : Nat) (sigma : F) (he : size % 2 = 0) :
    generateGaussianKernel P size sigma = .error (.err .invalidArg) ∧
    generateLogKernel P size sigma = .error (.err .invalidArg) := by
  unfold generateGaussianKernel generateLogKernel
  rw [checkOdd_u32_err (by omega)]
  exact ⟨rfl, rfl⟩

/-- **C43** the size bound is needed: the index arithmetic is `i32`, a debug build panics for larger sizes. -/
theorem c43_too_large (size : Nat) (sigma : F) (hodd : size % 2 = 1) (hs : 65536 ≤ size) :
    Res.Panics (generateGaussianKernel .debug size sigma) ∧ Res.Panics (generateLogKernel .debug size sigma) := by
  have : ¬ size * size < U32SIZE := by
    have : 65536 * 65536 ≤ size * size := Nat.mul_le_mul hs hs
    show ¬ _ < 4294967296
    omega
  unfold generateGaussianKernel generateLogKernel kernelFill
  rw [checkOdd_u32_ok hodd, ok_bind, ok_bind, show u32Mul .debug size size = panic .overflow by
    simp [u32Mul, wrapNat, this]]
  exact ⟨⟨_, rfl⟩, ⟨_, rfl⟩⟩

example (sigma : F) : Res.Panics (generateGaussianKernel .debug 65537 sigma) :=
  (c43_too_large 65537 sigma rfl (by decide)).1

end

/-- a 5 x 5 kernel satisfies the hypotheses; its corner is at squared distance 8 from the centre -/
example : 5 % 2 = 1 ∧ 5 * 5 < 2147483648 ∧ centreDist2 5 0 0 = 8 ∧ centreDist2 5 2 2 = 0 ∧ centreDist2 5 2 4 = 4 := by
  decide

/-! ### C44: the spatial matrix of the bilateral filter -/
section
variable {F : Type} [FloatOps F]

/-- distance between two indices -/
def absDiff (a b : Nat) : Nat := (a - b) + (b - a)

theorem matSet_ok (P : Profile) {size : Nat} (hs : size * size < U32SIZE) {a b : Nat} (ha : a < size) (hb : b < size)
    (m : Nat → Nat → F) (g : F) :
    matSet P size (matrixOf size m) a b g =
      .ok (matrixOf size (fun a' b' => if a' = a ∧ b' = b then g else m a' b')) := by
  have := row_lt hb ha
  have h2 : a * size < U32SIZE := by omega
  unfold matSet
  rw [u32Mul_ok h2, ok_bind, u32Add_ok (by omega), ok_bind, setIdx_ok (by rw [matrixOf_length]; exact this),
    matrixOf_set ha hb]

theorem setIdx_matrix {size : Nat} {a b k : Nat} (ha : a < size) (hb : b < size) (hk : k = a * size + b)
    (m : Nat → Nat → F) (g : F) :
    setIdx (matrixOf size m) k g =
      .ok (matrixOf size (fun a' b' => if a' = a ∧ b' = b then g else m a' b')) := by
  rw [hk, setIdx_ok (by rw [matrixOf_length]; exact row_lt hb ha), matrixOf_set ha hb]

theorem ok_of_inv {α} {r : Res α} {v : α} (Q : α → Prop) (h : ∃ out, r = .ok out ∧ Q out)
    (hQ : ∀ out, Q out → out = v) : r = .ok v := by
  obtain ⟨out, e, h⟩ := h
  rw [e, hQ out h]

theorem ok_weaken {α} {r : Res α} {Q Q' : α → Prop} (h : ∃ out, r = .ok out ∧ Q out)
    (hQ : ∀ out, Q out → Q' out) : ∃ out, r = .ok out ∧ Q' out := by
  obtain ⟨out, e, h⟩ := h
  exact ⟨out, e, hQ out h⟩

set_option maxHeartbeats 1000000 in
open Classical in
theorem spatialMat_eq (P : Profile) {c : Nat} (hs : (2 * c + 1) * (2 * c + 1) < U32SIZE) (spatial : F)
    (G : Nat → Nat → F) (h0 : ((num 0 : F) ==. num 0) = true)
    (hG : ∀ y x, y ≤ 2 * c → x ≤ 2 * c → gaussianFn (distance c c x y) spatial = .ok (G y x))
    (hsym : ∀ y x y' x', y ≤ 2 * c → x ≤ 2 * c → y' ≤ 2 * c → x' ≤ 2 * c →
      (absDiff y c = absDiff y' c ∧ absDiff x c = absDiff x' c) ∨
      (absDiff y c = absDiff x' c ∧ absDiff x c = absDiff y' c) → G y x = G y' x') :
    generateSpatialMat P (2 * c + 1) spatial =
      .ok (matrixOf (2 * c + 1) fun y x => if y = c ∧ x = c then num 0 else G y x) := by
  have hc : (2 * c + 1) / 2 = c := by omega
  have hsz : 2 * c + 1 < 65536 := by
    by_contra h
    have : 65536 * 65536 ≤ (2 * c + 1) * (2 * c + 1) := Nat.mul_le_mul (by omega) (by omega)
    have : (2 * c + 1) * (2 * c + 1) < 4294967296 := hs
    omega
  unfold generateSpatialMat
  rw [hc, u32Mul_ok hs, ok_bind, u32Add_ok (by show _ < 4294967296; omega), ok_bind, matrixOf_zero]
  generalize hsize : 2 * c + 1 = size at *
  let I : Nat → Nat → List F → Prop := fun y x s => ∃ S : Nat → Nat → Prop, (∀ p q, S p q ↔ S q p) ∧ ¬ S 0 0 ∧
    s = matrixOf size (fun a b => if S (absDiff a c) (absDiff b c) then G a b else num 0) ∧
    ∀ y' x', y' ≤ c → x' ≤ c → (y' < y ∨ y' = y ∧ x' < x) → ¬ (y' = c ∧ x' = c) → S (c - y') (c - x')
  have hfin : ∀ s, I (c + 1) 0 s → s = matrixOf size (fun y x => if y = c ∧ x = c then num 0 else G y x) := by
    rintro s ⟨S, hS, h00, rfl, hp⟩
    refine matrixOf_congr fun a b ha hb => ?_
    by_cases hab : a = c ∧ b = c
    · rw [if_pos hab, hab.1, hab.2, if_neg (by simpa [absDiff] using h00)]
    · rw [if_neg hab, if_pos]
      have := hp (c - absDiff a c) (c - absDiff b c) (by omega) (by omega) (by omega)
        (by unfold absDiff; omega)
      rwa [show c - (c - absDiff a c) = absDiff a c by unfold absDiff; omega,
        show c - (c - absDiff b c) = absDiff b c by unfold absDiff; omega] at this
  refine ok_of_inv (I (c + 1) 0) ?_ hfin
  refine forRange_rule (fun y s => I y 0 s) (Nat.zero_le _) ?_ ?_
  · exact ⟨fun _ _ => False, fun _ _ => Iff.rfl, id, matrixOf_congr fun _ _ _ _ => by rw [if_neg id],
      fun y' x' _ _ h => by omega⟩
  · intro y s _ hy hI
    refine ok_weaken (Q := I y (c + 1)) ?_ ?_
    · refine forRange_rule (fun x s => I y x s) (Nat.zero_le _) hI (by
        rintro x s - hx ⟨S, hS, h00, rfl, hp⟩
        have hlt := row_lt (show x < size by omega) (show y < size by omega)
        rw [u32Mul_ok (by have : y * size ≤ size * size := Nat.mul_le_mul_right _ (by omega)
                          omega), ok_bind, u32Add_ok (by omega), ok_bind,
          idx_some (matrixOf_get (by omega) (by omega)), ok_bind]
        -- nothing to do at the centre or where the value is already there
        by_cases hcen : x = c ∧ y = c
        · refine ⟨_, if_neg (by simp [hcen]), S, hS, h00, rfl, fun y' x' h1 h2 h3 h4 => ?_⟩
          exact hp y' x' h1 h2 (by omega) h4
        · by_cases hdone : ((if S (absDiff y c) (absDiff x c) then G y x else num 0) ==. num 0) = true
          · rw [if_pos (by simp only [hdone, Bool.true_and]; simp; omega)]
            dsimp only
            rw [hG y x (by omega) (by omega), ok_bind, matSet_ok P hs (show y < size by omega) (show x < size by omega), ok_bind]
            -- the new matrix
            have hnew : ∀ m' : Nat → Nat → F,
                (∀ a b, a < size → b < size → m' a b =
                  if (absDiff a c = c - y ∧ absDiff b c = c - x) ∨ (absDiff a c = c - x ∧ absDiff b c = c - y)
                  then G y x else if S (absDiff a c) (absDiff b c) then G a b else num 0) →
                I y (x + 1) (matrixOf size m') := by
              intro m' hm'
              refine ⟨fun p q => S p q ∨ (p = c - y ∧ q = c - x) ∨ (p = c - x ∧ q = c - y), ?_, ?_, ?_, ?_⟩
              · intro p q
                show _ ∨ _ ↔ _ ∨ _
                rw [hS p q]
                constructor <;> rintro (h | h | h)
                · exact .inl h
                · exact .inr (.inr ⟨h.2, h.1⟩)
                · exact .inr (.inl ⟨h.2, h.1⟩)
                · exact .inl h
                · exact .inr (.inr ⟨h.2, h.1⟩)
                · exact .inr (.inl ⟨h.2, h.1⟩)
              · rintro (h | h | h)
                · exact h00 h
                · omega
                · omega
              · refine matrixOf_congr fun a b ha hb => ?_
                rw [hm' a b ha hb]
                by_cases h1 : (absDiff a c = c - y ∧ absDiff b c = c - x) ∨ (absDiff a c = c - x ∧ absDiff b c = c - y)
                · rw [if_pos h1, if_pos (.inr h1)]
                  refine hsym y x a b (by omega) (by omega) (by omega) (by omega) ?_
                  rcases h1 with h1 | h1
                  · exact .inl ⟨by rw [h1.1]; unfold absDiff; omega, by rw [h1.2]; unfold absDiff; omega⟩
                  · exact .inr ⟨by rw [h1.2]; unfold absDiff; omega, by rw [h1.1]; unfold absDiff; omega⟩
                · rw [if_neg h1]
                  by_cases h2 : S (absDiff a c) (absDiff b c)
                  · rw [if_pos h2, if_pos (.inl h2)]
                  · rw [if_neg h2, if_neg (by rintro (h | h); exacts [h2 h, h1 h])]
              · intro y' x' h1 h2 h3 h4
                by_cases h5 : y' = y ∧ x' = x
                · exact .inr (.inl ⟨by rw [h5.1], by rw [h5.2]⟩)
                · exact .inl (hp y' x' h1 h2 (by omega) h4)
            by_cases hxy : x = y
            · rw [if_pos hxy, u32Sub_ok (by omega), ok_bind, u32Add_ok (by show _ < 4294967296; omega), ok_bind,
                matSet_ok P hs (by omega) (by omega), ok_bind, matSet_ok P hs (by omega) (by omega), ok_bind,
                matSet_ok P hs (by omega) (by omega)]
              refine ⟨_, rfl, hnew _ fun a b ha hb => ?_⟩
              simp only [← ite_or]
              refine if_congr ?_ rfl rfl
              unfold absDiff
              omega
            · rw [if_neg hxy]
              by_cases hxc : x = c
              · rw [if_pos hxc]
                subst hxc
                have hb : x * size + x + (x - y) < size * size := by
                  have := row_lt (show x + (x - y) < size by omega) (show x < size by omega); omega
                have hb' : x * size + x + (x - y) < U32SIZE := by omega
                rw [u32Sub_ok (by omega), ok_bind, u32Mul_ok (by omega), ok_bind, u32Add_ok (by omega), ok_bind,
                  u32Sub_ok (by omega), ok_bind,
                  setIdx_matrix (a := x) (b := x - (x - y)) (by omega) (by omega) (by omega), ok_bind,
                  ok_bind, u32Add_ok (by omega), ok_bind, u32Add_ok (by omega), ok_bind,
                  setIdx_matrix (a := x) (b := x + (x - y)) (by omega) (by omega) (by omega), ok_bind,
                  u32Add_ok (by show _ < 4294967296; omega), ok_bind, matSet_ok P hs (by omega) (by omega)]
                refine ⟨_, rfl, hnew _ fun a b ha hb => ?_⟩
                simp only [← ite_or]
                refine if_congr ?_ rfl rfl
                unfold absDiff
                omega
              · rw [if_neg hxc, u32Sub_ok (by omega), ok_bind, u32Sub_ok (by omega), ok_bind,
                  u32Add_ok (by show _ < 4294967296; omega), ok_bind, u32Add_ok (by show _ < 4294967296; omega), ok_bind,
                  u32Sub_ok (by omega), ok_bind, u32Sub_ok (by omega), ok_bind,
                  matSet_ok P hs (by omega) (by omega), ok_bind, matSet_ok P hs (by omega) (by omega), ok_bind,
                  matSet_ok P hs (by omega) (by omega), ok_bind, matSet_ok P hs (by omega) (by omega), ok_bind,
                  matSet_ok P hs (by omega) (by omega), ok_bind, matSet_ok P hs (by omega) (by omega), ok_bind,
                  matSet_ok P hs (by omega) (by omega)]
                refine ⟨_, rfl, hnew _ fun a b ha hb => ?_⟩
                simp only [← ite_or]
                refine if_congr ?_ rfl rfl
                have hd : ∀ a d, d ≤ c → (absDiff a c = d ↔ a = c + d ∨ a = c - d) := by
                  intro a d hd; unfold absDiff; omega
                rw [hd a _ (by omega), hd a _ (by omega), hd b _ (by omega), hd b _ (by omega)]
                have e1 : c - (c - x) = x := by omega
                have e2 : c - (c - y) = y := by omega
                simp only [e1, e2]
                clear e1 e2 hd hnew hdone hp hG hsym hfin hS h00 hlt hxc hxy
                generalize c + (c - x) = X
                generalize c + (c - y) = Y
                constructor
                · rintro (h | h | h | h | h | h | h | h) <;> obtain ⟨rfl, rfl⟩ := h <;> simp
                · rintro (⟨rfl | rfl, rfl | rfl⟩ | ⟨rfl | rfl, rfl | rfl⟩) <;> simp
          · have hin : S (absDiff y c) (absDiff x c) := by
              by_contra h
              rw [if_neg h] at hdone
              exact hdone h0
            refine ⟨_, if_neg (by simp [hdone]), S, hS, h00, rfl, fun y' x' h1 h2 h3 h4 => ?_⟩
            by_cases h5 : y' = y ∧ x' = x
            · rw [h5.1, h5.2]
              rwa [show absDiff y c = c - y by unfold absDiff; omega, show absDiff x c = c - x by unfold absDiff; omega] at hin
            · exact hp y' x' h1 h2 (by omega) h4)
    rintro out ⟨S, hS, h00, hs', hp⟩
    exact ⟨S, hS, h00, hs', fun y' x' h1 h2 h3 h4 => hp y' x' h1 h2 (by omega) h4⟩
end

section
variable [Libm f32]

theorem gaussianFn_of {sigma : F32} (h : ¬ Negative sigma) (x : F32) : gaussianFn x sigma =
    .ok ((num 1 /. (num 2 *. FloatOps.pi *. (sigma *. sigma))) *.
      (FloatOps.pow FloatOps.e ((FloatOps.neg (x *. x)) /. (num 2 *. (sigma *. sigma))))) := by
  unfold gaussianFn checkNonNeg
  rw [if_neg (c := rnum.lt sigma (rnum.ofU8 0) = true) (fun h' => h ((lt_zero_iff Fmt.Exact.zero _).1 h')), ok_bind]
/-- `gaussian_fn` accepts every sigma that is not negative -/
theorem gaussianFn_ok {sigma : F32} (h : ¬ Negative sigma) (x : F32) : ∃ v, gaussianFn x sigma = .ok v := by
  rw [gaussianFn_of h]
  exact ⟨_, rfl⟩
theorem gaussianFn_err {sigma : F32} (h : Negative sigma) (x : F32) : gaussianFn x sigma = .error (.err .invalidArg) := by
  unfold gaussianFn checkNonNeg
  rw [if_pos (c := rnum.lt sigma (rnum.ofU8 0) = true) ((lt_zero_iff Fmt.Exact.zero _).2 h)]
  rfl

omit [Libm f32] in
theorem FP.add_comm' (f : Fmt) (x y : FP) : FP.add f x y = FP.add f y x := by
  cases x <;> cases y <;> simp only [FP.add, add_comm]
  · rename_i s t; cases s <;> cases t <;> simp

/-- in IEEE f32 the distance to the centre does not depend on direction -/
theorem distance_sym {c y x y' x' : Nat} (hc : c ≤ 32768) (h1 : y ≤ 2 * c) (h2 : x ≤ 2 * c) (h3 : y' ≤ 2 * c)
    (h4 : x' ≤ 2 * c) (h : (absDiff y c = absDiff y' c ∧ absDiff x c = absDiff x' c) ∨
      (absDiff y c = absDiff x' c ∧ absDiff x c = absDiff y' c)) :
    (distance c c x y : F32) = distance c c x' y' := by
  have hd : ∀ a : Nat, a ≤ 2 * c → ((ofNat c : F32) -. ofNat a).Is (((c : Int) - (a : Int) : Int) : Rat) := by
    intro a ha
    have := sub_exact (nat32 (n := c) (by omega)) (nat32 (n := a) (by omega))
      (by have := f32_int (n := (c : Int) - a) (by rw [abs_le]; omega)
          simpa using this)
    simpa using this
  have hsq : ∀ a b : Nat, a ≤ 2 * c → b ≤ 2 * c → absDiff a c = absDiff b c →
      ((ofNat c : F32) -. ofNat a) *. ((ofNat c : F32) -. ofNat a) =
      ((ofNat c : F32) -. ofNat b) *. ((ofNat c : F32) -. ofNat b) := by
    intro a b ha hb hab
    by_cases hz : a = c
    · have : a = b := by unfold absDiff at hab; omega
      rw [this]
    · have hq : (((c : Int) - (a : Int) : Int) : Rat) * (((c : Int) - (a : Int) : Int) : Rat) =
          (((c : Int) - (b : Int) : Int) : Rat) * (((c : Int) - (b : Int) : Int) : Rat) := by
        have : ((c : Int) - a) = (c : Int) - b ∨ ((c : Int) - a) = -((c : Int) - b) := by
          unfold absDiff at hab; omega
        rcases this with h | h
        · rw [h]
        · rw [h]; push_cast; ring
      have hb1 : (1 : Rat) ≤ (((c : Int) - (a : Int) : Int) : Rat) * (((c : Int) - (a : Int) : Int) : Rat) := by
        have h0 : ((c : Int) - a) ≠ 0 := by omega
        have : 1 ≤ ((c : Int) - a) * ((c : Int) - a) := by
          rcases Int.lt_or_gt_of_ne h0 with h | h <;> nlinarith
        exact_mod_cast this
      have hb2 : (((c : Int) - (a : Int) : Int) : Rat) * (((c : Int) - (a : Int) : Int) : Rat) ≤ 2 ^ 100 := by
        have := sq_bound (x := (c : Int) - a) (n := 32768) (by omega) (by omega)
        have h2 : (((c : Int) - a) * ((c : Int) - a) : Int) ≤ 2 ^ 100 := this.2.trans (by norm_num)
        exact_mod_cast h2
      have hov := f32_ovf (q := (((c : Int) - (a : Int) : Int) : Rat) * (((c : Int) - (a : Int) : Int) : Rat))
        (by rw [abs_of_nonneg (by linarith)]; exact hb2)
      have e1 := mul_is (hd a ha) (hd a ha) hov
      have e2 := mul_is (hd b hb) (hd b hb) (by rw [← hq]; exact hov)
      rw [← hq] at e2
      refine e1.ext e2 ?_
      have := (f32_bounds (q := (((c : Int) - (a : Int) : Int) : Rat) * (((c : Int) - (a : Int) : Int) : Rat))
        (le_trans (by norm_num) hb1)).1
      intro h0
      rw [h0] at this
      linarith
  unfold distance
  dsimp only
  rcases h with h | h
  · rw [hsq y y' h1 h3 h.1, hsq x x' h2 h4 h.2]
  · rw [hsq y x' h1 h4 h.1, hsq x y' h2 h3 h.2]
    congr 1
    exact Flt.ext (FP.add_comm' _ _ _)

/-- The matrix actually built: the Gaussian everywhere except 0 in the middle. -/
theorem c44_spatial_mat_partial (P : Profile) (size : Nat) (spatial : F32) (hodd : size % 2 = 1) (hs : size < 65536)
    (hn : ¬ Negative spatial) :
    ∃ out, generateSpatialMat P size spatial = .ok out ∧ out.length = size * size ∧
      (∀ y x, y < size → x < size → (y, x) ≠ (size / 2, size / 2) →
        ∃ v, gaussianFn (distance (size / 2) (size / 2) x y) spatial = .ok v ∧ out[y * size + x]? = some v) ∧
      out[size / 2 * size + size / 2]? = some (num 0) := by
  obtain ⟨c, rfl⟩ : ∃ c, size = 2 * c + 1 := ⟨size / 2, by omega⟩
  have hc : (2 * c + 1) / 2 = c := by omega
  have hG : ∀ y x : Nat, ∃ v, gaussianFn (distance c c x y) spatial = .ok v := fun y x => gaussianFn_ok hn _
  choose G hG using hG
  have hs' : (2 * c + 1) * (2 * c + 1) < U32SIZE := by
    have : (2 * c + 1) * (2 * c + 1) ≤ 65535 * 65535 := Nat.mul_le_mul (by omega) (by omega)
    show _ < 4294967296
    omega
  refine ⟨_, spatialMat_eq P hs' spatial G ?_ (fun y x _ _ => hG y x) ?_, matrixOf_length _ _, ?_, ?_⟩
  · rw [eq_is (num32 (n := 0) (by decide)) (num32 (n := 0) (by decide))]; simp
  · intro y x y' x' h1 h2 h3 h4 h
    have := distance_sym (by omega) h1 h2 h3 h4 h
    have e1 := hG y x
    rw [this, hG y' x'] at e1
    exact (Except.ok.inj e1).symm
  · intro y x hy hx hne
    rw [hc] at hne ⊢
    refine ⟨G y x, hG y x, ?_⟩
    rw [matrixOf_get hy hx, if_neg]
    rintro ⟨rfl, rfl⟩
    exact hne rfl
  · rw [hc, matrixOf_get (by omega) (by omega), if_pos ⟨rfl, rfl⟩]

/-- **C44 fails at the centre**: for every odd size the entry at the centre is 0, not the Gaussian of
distance 0 (which for sigma = 1 is positive, `powf(e, 0)` being 1). -/
theorem c44_centre_counterexample (P : Profile)
    (hpow : ∀ e z : F32, z.Is 0 → (FloatOps.pow e z).Is 1) :
    ∃ out v, generateSpatialMat P 5 (num 1 : F32) = .ok out ∧ gaussianFn (distance 2 2 2 2) (num 1 : F32) = .ok v ∧
      out[2 * 5 + 2]? = some (num 0) ∧ (num 0 <. v) = true := by
  have h1 : (num 1 : F32).Is 1 := by simpa using num32 (n := 1) (by decide)
  have hn : ¬ Negative (num 1 : F32) := by
    rw [← lt_zero_iff Fmt.Exact.zero, lt_is h1 (ofU8_is 0)]
    simp
  obtain ⟨out, e, -, -, hc⟩ := c44_spatial_mat_partial P 5 (num 1 : F32) (by decide) (by decide) hn
  refine ⟨out, _, e, gaussianFn_of hn _, hc, ?_⟩
  · have h0 : (num 0 : F32).Is 0 := by simpa using num32 (n := 0) (by decide)
    have hx : (distance 2 2 2 2 : F32).Is 0 := by
      have h2 : (ofNat 2 : F32).Is 2 := by simpa using nat32 (n := 2) (by decide)
      have hd := sub_exact h2 h2 (by rw [sub_self]; exact Fmt.Exact.zero)
      rw [sub_self] at hd
      have hm := mul_exact hd hd (by rw [mul_zero]; exact Fmt.Exact.zero)
      rw [mul_zero] at hm
      have ha := add_exact hm hm (by rw [add_zero]; exact Fmt.Exact.zero)
      rw [add_zero] at ha
      exact sqrt_zero_is ha
    have hxx := mul_exact hx hx (by rw [mul_zero]; exact Fmt.Exact.zero)
    have hss := mul_exact h1 h1 (by simpa using f32_int (n := 1) (by decide))
    have h2 : (num 2 : F32).Is 2 := by simpa using num32 (n := 2) (by decide)
    rw [mul_one] at hss
    have hdy : ∀ k : Int, -149 ≤ k → k ≤ 0 → f32.Exact (((13176795 : Int) : Rat) * pow2 k) := by
      intro k hk hk0
      refine ⟨RepQ.dyadic (by decide) (by simpa [f32] using hk), ?_⟩
      rw [abs_of_pos (mul_pos (by norm_num) (pow2_pos _))]
      refine lt_of_le_of_lt (b := ((13176795 : Int) : Rat) * pow2 0) ?_ ?_
      · exact mul_le_mul_of_nonneg_left (pow2_le.2 hk0) (by norm_num)
      · rw [show f32.emax = 128 from rfl, pow2_eq, pow2_eq]; norm_num
    have e22 : ((13176795 : Int) : Rat) * pow2 (-22) = 13176795 / 4194304 := by rw [pow2_eq]; norm_num
    have e21 : ((13176795 : Int) : Rat) * pow2 (-21) = 13176795 / 2097152 := by rw [pow2_eq]; norm_num
    have hpi : (FloatOps.pi : F32).Is (13176795 / 4194304) := lit_exact (e22 ▸ hdy (-22) (by decide) (by decide))
    have h2pi := mul_exact h2 hpi (by
      rw [show (2 : Rat) * (13176795 / 4194304) = 13176795 / 2097152 by norm_num, ← e21]
      exact hdy (-21) (by decide) (by decide))
    have h2pi1 := mul_exact h2pi hss (by
      rw [show (2 : Rat) * (13176795 / 4194304) * 1 = 13176795 / 2097152 by norm_num, ← e21]
      exact hdy (-21) (by decide) (by decide))
    have hdiv := div_is h1 h2pi1 (by norm_num) (f32_ovf (by rw [abs_of_pos (by norm_num)]; norm_num))
    have hb := f32_bounds (q := 1 / (2 * (13176795 / 4194304) * 1)) (by norm_num)
    have hexp := div_exact (neg_is hxx) (mul_exact h2 hss (by simpa using f32_int (n := 2) (by decide))) (by norm_num)
      (by norm_num; exact Fmt.Exact.zero)
    have hp := hpow FloatOps.e _ (by simpa using hexp)
    have hmul := mul_is hdiv hp (by
      refine f32_ovf ?_
      rw [mul_one, abs_of_pos (by linarith [hb.1])]
      linarith [hb.2])
    rw [lt_is h0 hmul, decide_eq_true_eq]
    have := (f32_bounds (q := f32.rnd (1 / (2 * (13176795 / 4194304) * 1)) * 1) (by
      have := hb.1
      norm_num at this ⊢
      linarith)).1
    have := hb.1
    norm_num at *
    linarith

/-- **C44** even sizes (which `bilateral_filter` can request, e.g. with spatial = 0.25) make it panic:
it writes row `size`, one past the last. Size 0 panics as well. -/
theorem c44_even_panics (P : Profile) (size : Nat) (spatial : F32) (heven : size % 2 = 0) (hs : size < 65536)
    (hn : ¬ Negative spatial) : Res.Panics (generateSpatialMat P size spatial) := by
  obtain ⟨c, rfl⟩ : ∃ c, size = 2 * c := ⟨size / 2, by omega⟩
  have hc : 2 * c / 2 = c := by omega
  have hs' : 2 * c * (2 * c) < U32SIZE := by
    have : 2 * c * (2 * c) ≤ 65535 * 65535 := Nat.mul_le_mul (by omega) (by omega)
    show _ < 4294967296
    omega
  unfold generateSpatialMat
  rw [hc, u32Mul_ok hs', ok_bind, u32Add_ok (by show _ < 4294967296; omega), ok_bind,
    forRange_cons (by omega), forRange_cons (by omega)]
  rw [u32Mul_ok (by simp), ok_bind, u32Add_ok (by simp), ok_bind]
  by_cases h0 : c = 0
  · subst h0
    exact ⟨_, rfl⟩
  · rw [matrixOf_zero, idx_some (a := (num 0 : F32)) (by
        have := matrixOf_get (size := 2 * c) (m := fun _ _ => (num 0 : F32)) (i := 0) (j := 0) (by omega) (by omega)
        simpa using this), ok_bind, if_pos (by
        rw [eq_is (num32 (n := 0) (by decide)) (num32 (n := 0) (by decide))]
        simp; omega)]
    dsimp only
    rw [gaussianFn_of hn, ok_bind, matSet_ok P hs' (by omega) (by omega), ok_bind, if_pos rfl, u32Sub_ok (by omega),
      ok_bind, u32Add_ok (by show _ < 4294967296; omega), ok_bind]
    unfold matSet
    rw [u32Mul_ok (by rw [show c + (c - 0) = 2 * c by omega]; exact hs'), ok_bind,
      u32Add_ok (by rw [show c + (c - 0) = 2 * c by omega]; exact hs'), ok_bind, setIdx, if_neg (by
        rw [matrixOf_length, show c + (c - 0) = 2 * c by omega]; omega)]
    exact ⟨_, rfl⟩

example (P : Profile) : (∃ out, generateSpatialMat P 5 (num 1 : F32) = .ok out) ∧
    Res.Panics (generateSpatialMat P 4 (num 1 : F32)) := by
  have h1 : (num 1 : F32).Is 1 := by simpa using num32 (n := 1) (by decide)
  have hn : ¬ Negative (num 1 : F32) := by
    rw [← lt_zero_iff Fmt.Exact.zero, lt_is h1 (ofU8_is 0)]; simp
  obtain ⟨out, h, -⟩ := c44_spatial_mat_partial P 5 (num 1) rfl (by decide) hn
  exact ⟨⟨out, h⟩, c44_even_panics P 4 (num 1) rfl (by decide) hn⟩

/-- the hypothesis on `powf` in `c44_centre_counterexample` (x⁰ = 1) is satisfiable -/
example : letI : Libm f32 := ⟨fun _ _ => Flt.ofRat f32 1, id, id⟩
    ∀ e z : F32, z.Is 0 → (FloatOps.pow e z).Is 1 := by
  intro e z _
  have h1 : (num 1 : F32).Is 1 := by simpa using num32 (n := 1) (by decide)
  have h := Flt.ofRat_is (f := f32) (q := 1) (by rw [h1.exact.rnd]; exact h1.exact.2)
  rw [h1.exact.rnd] at h
  exact h
end

/-- sizes 5 (spatial = 1) and 2 (spatial = 1/4) are both produced by the filter's size formula in exact arithmetic -/
example : ((1 : Rat) * 4 + 1 = 5) ∧ ((1 / 4 : Rat) * 4 + 1 = 2) := by norm_num

end Imgproc

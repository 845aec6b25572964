import Verif.Proofs.Loops
import Verif.Model.Util
import Verif.Props.Image
/-! Properties C38, C41, C45, C78: small utilities. -/
namespace Imgproc
open FloatOps

/-! ## C38 — get_2d_coords -/

/-- **C38** For width ≥ 1 the returned coordinate is the unique one in range with row-major index `i`. -/
theorem c38_get_2d_coords (P : Profile) (i width : Nat) (hw : 1 ≤ width) :
    ∃ x y, get2dCoords P i width = .ok (x, y) ∧ x < width ∧ y * width + x = i := by
  refine ⟨i % width, i / width, ?_, Nat.mod_lt _ hw, Nat.div_add_mod' _ _⟩
  unfold get2dCoords
  rw [natMod_ok (by omega), ok_bind, u32Sub_ok (Nat.mod_le _ _), ok_bind, natDiv_ok (by omega), ok_bind]
  congr 2
  have h1 : i - i % width = width * (i / width) := by
    have := Nat.div_add_mod i width
    omega
  rw [h1, Nat.mul_div_cancel_left _ hw]

/-- **C38** the inverse direction: the coordinates of `y*width + x` are `(x, y)`. -/
theorem c38_get_2d_coords_inv (P : Profile) (x y width : Nat) (hx : x < width) :
    get2dCoords P (y * width + x) width = .ok (x, y) := by
  obtain ⟨x', y', e, hx', h⟩ := c38_get_2d_coords P (y * width + x) width (by omega)
  obtain ⟨h1, h2⟩ := (row_inj hx' hx).1 h
  rw [e, h1, h2]

/-- **C38** width 0 panics. -/
theorem c38_get_2d_coords_zero (P : Profile) (i : Nat) : Res.Panics (get2dCoords P i 0) :=
  ⟨.divZero, rfl⟩

example : get2dCoords .debug 7 3 = .ok (1, 2) := rfl

/-! ## C78 — lookup tables -/

/-- **C78** After `generate_lookup_table(table, f)` the table holds `f(i)` at every index, whatever
it held before. -/
theorem c78_lookup_table {T} (table : List T) (h : table.length = 256) (f : UInt8 → T) :
    ∃ t, generateLookupTable table (fun i => .ok (f i)) = .ok t ∧ t.length = 256 ∧
      ∀ b : UInt8, idx t b.toNat = .ok (f b) := by
  unfold generateLookupTable
  rw [h]
  obtain ⟨t, e, hl, hp⟩ := forRange_rule (a := 0) (b := 256) (s := table)
    (f := fun i table => do
      let v ← (Except.ok (f (UInt8.ofNat i)) : Res T)
      setIdx table i v)
    (fun k t => t.length = 256 ∧ ∀ i < k, t[i]? = some (f (UInt8.ofNat i))) (Nat.zero_le _)
    ⟨h, fun i hi => by omega⟩
    (by
      rintro k t _ hk ⟨hl, hp⟩
      refine ⟨t.set k (f (UInt8.ofNat k)), by rw [ok_bind, setIdx_ok (by omega)], by simpa using hl, ?_⟩
      intro i hi
      rw [List.getElem?_set]
      by_cases hik : k = i
      · subst hik; simp [show k < t.length by omega]
      · rw [if_neg hik, hp i (by omega)])
  refine ⟨t, e, hl, fun b => ?_⟩
  have hb := b.toNat_lt
  rw [idx_some (hp b.toNat (by omega)), UInt8.ofNat_toNat]

/-- **C78** hence a table-driven per-channel map of an image equals the direct map. -/
theorem c78_table_map {T} (P : Profile) (img : Image UInt8) (table : List T) (h : table.length = 256)
    (f : UInt8 → T) (g : UInt8 → Res T) :
    (generateLookupTable table (fun i => .ok (f i)) >>= fun t =>
      img.mapChannelsIfAlpha P (fun c => idx t c.toNat) g) =
    img.mapChannelsIfAlpha P (fun c => .ok (f c)) g := by
  obtain ⟨t, e, _, hp⟩ := c78_lookup_table table h f
  rw [e, ok_bind]
  congr 1
  funext c
  exact hp c

example : ∃ t, generateLookupTable (List.replicate 256 (7 : UInt8)) (fun i => .ok (i + 1)) = .ok t ∧
    idx t 255 = .ok 0 :=
  let ⟨t, e, _, h⟩ := c78_lookup_table (List.replicate 256 7) List.length_replicate (fun i => i + 1)
  ⟨t, e, h 255⟩

/-! ## C41 — vector_mul -/

/-- spec: the product of one matrix row with the vector, accumulated left to right from zero with the
number type's own (possibly overflow-checked) arithmetic -/
def rowDot {T} (P : Profile) (N : RNum T) (row v : List T) : Res T :=
  (row.zip v).foldlM (fun acc e => do
    let p ← N.mul P e.1 e.2
    N.add P acc p) (N.ofU8 0)

theorem foldlM_append_one {α β} (f : β → α → Res β) (l : List α) (a : α) (b : β) :
    (l ++ [a]).foldlM f b = (l.foldlM f b >>= fun x => f x a) := by
  rw [List.foldlM_append]
  congr 1; funext x
  rw [List.foldlM_cons]
  cases f x a <;> rfl

theorem set_self_getElem {T} (l : List T) {i : Nat} (h : i < l.length) : l.set i l[i] = l := by
  apply List.ext_getElem?
  intro k
  rw [List.getElem?_set]
  by_cases hk : i = k
  · subst hk; simp [h]
  · rw [if_neg hk]

theorem vectorMul_inner {T} (P : Profile) (N : RNum T) {mat input : List T} {n i : Nat}
    (hn : input.length = n) (hm : n * n ≤ mat.length) (hu : n * n < USIZE) (hi : i < n)
    (output : List T) (ho : output[i]? = some (N.ofU8 0)) :
    (forRange 0 n output fun j output => do
      let a ← usizeMul P n i
      let k ← usizeAdd P a j
      let m ← idx mat k
      let v ← idx input j
      let prod ← N.mul P m v
      let o ← idx output i
      let s ← N.add P o prod
      setIdx output i s) =
    (rowDot P N ((mat.drop (n * i)).take n) input >>= fun d => .ok (output.set i d)) := by
  have hni : n * i + n ≤ n * n := by
    have := Nat.mul_le_mul_left n (show i + 1 ≤ n from hi)
    rwa [Nat.mul_succ] at this
  have hil : i < output.length := by
    rcases Nat.lt_or_ge i output.length with h | h
    · exact h
    · rw [List.getElem?_eq_none h] at ho; cases ho
  have hz : (((mat.drop (n * i)).take n).zip input).length = n := by
    simp; omega
  suffices H : ∀ m, m ≤ n → (forRange 0 m output fun j output => do
      let a ← usizeMul P n i
      let k ← usizeAdd P a j
      let m ← idx mat k
      let v ← idx input j
      let prod ← N.mul P m v
      let o ← idx output i
      let s ← N.add P o prod
      setIdx output i s) =
    ((((mat.drop (n * i)).take n).zip input).take m).foldlM (fun acc e => do
      let p ← N.mul P e.1 e.2
      N.add P acc p) (N.ofU8 0) >>= fun d => .ok (output.set i d) by
    have := H n (Nat.le_refl _)
    rw [List.take_of_length_le (by omega)] at this
    exact this
  intro m hm'
  induction m with
  | zero =>
    rw [forRange_empty (Nat.le_refl _)]
    simp only [List.take_zero, List.foldlM_nil, pure_ok, ok_bind]
    rw [List.getElem?_eq_getElem hil] at ho
    injection ho with ho
    rw [← ho, set_self_getElem]
  | succ m ih =>
    rw [forRange_snoc _ _ (Nat.zero_le _), ih (by omega),
      List.take_succ_eq_append_getElem (by omega : m < (((mat.drop (n * i)).take n).zip input).length),
      foldlM_append_one]
    simp only [bind_assoc, ok_bind]
    congr 1; funext d
    have hk : n * i + m < mat.length := by omega
    rw [usizeMul_ok (by omega), ok_bind, usizeAdd_ok (by omega), ok_bind, idx_ok hk, ok_bind,
      idx_ok (by omega), ok_bind]
    simp only [List.getElem_zip, List.getElem_take, List.getElem_drop]
    congr 1; funext p
    rw [idx_ok (by simpa using hil), ok_bind]
    simp only [List.getElem_set_self]
    congr 1; funext s
    rw [setIdx_ok (by simpa using hil), List.set_set]

theorem vectorMulLoops_eq {T} (P : Profile) (N : RNum T) {mat input : List T} {n : Nat}
    (hn : input.length = n) (hm : n * n ≤ mat.length) (hu : n * n < USIZE) :
    vectorMulLoops P N mat input (List.replicate n (N.ofU8 0)) n =
      (List.range n).mapM (fun i => rowDot P N ((mat.drop (n * i)).take n) input) := by
  suffices H : ∀ (k : Nat) (pre : List T), pre.length + k = n →
      (forRange pre.length n (pre ++ List.replicate k (N.ofU8 0)) fun i output =>
        forRange 0 n output fun j output => do
          let a ← usizeMul P n i
          let k ← usizeAdd P a j
          let m ← idx mat k
          let v ← idx input j
          let prod ← N.mul P m v
          let o ← idx output i
          let s ← N.add P o prod
          setIdx output i s) =
      ((List.range' pre.length k).mapM (fun i => rowDot P N ((mat.drop (n * i)).take n) input) >>=
        fun l => .ok (pre ++ l)) by
    have := H n [] (by simp)
    simp only [List.length_nil, List.nil_append] at this
    unfold vectorMulLoops
    rw [this, List.range_eq_range']
    generalize (List.mapM _ _ : Res (List T)) = r
    cases r <;> rfl
  intro k
  induction k with
  | zero =>
    intro pre hp
    rw [forRange_empty (by omega)]
    simp
  | succ k ih =>
    intro pre hp
    rw [forRange_cons (by omega), vectorMul_inner P N hn hm hu (by omega) _ (by simp)]
    rw [List.range'_succ, List.mapM_cons]
    simp only [bind_assoc, ok_bind, pure_ok]
    congr 1; funext d
    have hset : (pre ++ List.replicate (k + 1) (N.ofU8 0)).set pre.length d =
        (pre ++ [d]) ++ List.replicate k (N.ofU8 0) := by
      rw [List.set_append_right _ _ (Nat.le_refl _), Nat.sub_self, List.replicate_succ]
      simp
    rw [hset]
    have := ih (pre ++ [d]) (by simp; omega)
    simp only [List.length_append, List.length_singleton] at this
    rw [this]
    congr 1; funext l
    simp

/-- **C41** For a vector of length `n ≥ 1` and a matrix with `len/n = n`, the result is the list of the
`n` row products, each a left-to-right sum; if some product or sum overflows in an overflow-checked
build the call fails like the first failing row product. -/
theorem c41_vector_mul {T} (P : Profile) (N : RNum T) (mat v : List T) (hv : v ≠ [])
    (hlen : mat.length < USIZE) (h : mat.length / v.length = v.length) :
    vectorMul P N mat v =
      (List.range v.length).mapM (fun i => rowDot P N ((mat.drop (v.length * i)).take v.length) v) := by
  have hpos := List.length_pos_iff.2 hv
  have hm : v.length * v.length ≤ mat.length := by
    have := Nat.div_mul_le_self mat.length v.length
    rwa [h] at this
  unfold vectorMul
  simp only
  rw [natDiv_ok (by omega), ok_bind, checkEqual_ok h, ok_bind, vectorMulLoops_eq P N rfl hm (by omega)]

/-- **C41** the explicit form for number types whose arithmetic cannot fail on the given values
(floats; integers in range): entry `i` is `(..((0 + m[n*i]*v[0]) + m[n*i+1]*v[1]) + ..)`. -/
theorem c41_vector_mul_total {T} (P : Profile) (N : RNum T) (add mul : T → T → T)
    (ha : ∀ a b, N.add P a b = .ok (add a b)) (hmul : ∀ a b, N.mul P a b = .ok (mul a b))
    (mat v : List T) (hv : v ≠ []) (hlen : mat.length < USIZE) (h : mat.length / v.length = v.length) :
    vectorMul P N mat v = .ok ((List.range v.length).map fun i =>
      ((((mat.drop (v.length * i)).take v.length).zip v).foldl
        (fun acc e => add acc (mul e.1 e.2)) (N.ofU8 0))) := by
  rw [c41_vector_mul P N mat v hv hlen h]
  have hr : ∀ row : List T, rowDot P N row v =
      .ok ((row.zip v).foldl (fun acc e => add acc (mul e.1 e.2)) (N.ofU8 0)) := by
    intro row
    unfold rowDot
    generalize N.ofU8 0 = z
    induction row.zip v generalizing z with
    | nil => rfl
    | cons a l ih => simp only [List.foldlM_cons]; rw [hmul, ok_bind, ha, ok_bind, ih, List.foldl_cons]
  simp only [hr]
  induction List.range v.length with
  | nil => rfl
  | cons a l ih => simp [ih]

/-- **C41** a matrix of the wrong shape is rejected. -/
theorem c41_vector_mul_shape {T} (P : Profile) (N : RNum T) (mat v : List T) (hv : v ≠ [])
    (h : mat.length / v.length ≠ v.length) : Res.InvalidArg (vectorMul P N mat v) := by
  have hpos := List.length_pos_iff.2 hv
  unfold vectorMul
  simp only
  rw [natDiv_ok (by omega), ok_bind, checkEqual_err h]; rfl

/-- **C41** an empty vector panics (division by zero). -/
theorem c41_vector_mul_empty {T} (P : Profile) (N : RNum T) (mat : List T) :
    Res.Panics (vectorMul P N mat []) := ⟨.divZero, rfl⟩

/-- **C41** `vector_mul_mut` leaves the same values in its output argument, whatever it held. -/
theorem c41_vector_mul_mut {T} (P : Profile) (N : RNum T) (mat v output : List T) :
    vectorMulMut P N mat v output = vectorMul P N mat v := by
  unfold vectorMulMut vectorMul
  have : (forRange 0 v.length [] fun _ o => (.ok (o ++ [N.ofU8 0]) : Res (List T))) =
      .ok (List.replicate v.length (N.ofU8 0)) := by
    rw [forRange_collect0 _ (fun _ => [N.ofU8 0]) (fun i acc _ => rfl)]
    congr 1
    induction v.length with
    | zero => rfl
    | succ n ih => rw [List.range_succ, List.flatMap_append, ih, List.replicate_succ']; simp
  simp only [this, ok_bind]

example : vectorMul .debug (intNum I32HALF) [1, 2, 3, 4] [5, 6] = .ok [17, 39] := rfl
example : Res.InvalidArg (vectorMul .debug (intNum I32HALF) [1, 2, 3] [5, 6]) :=
  c41_vector_mul_shape _ _ _ _ (by simp) (by decide)
/-- overflow-checked integers: the failing product makes the call panic -/
example : Res.Panics (vectorMul .debug u8Num [200, 2, 3, 4] [2, 6]) := ⟨.overflow, rfl⟩

/-! ## C45 — kernel application -/
section
variable {F : Type} [FloatOps F]

/-- spec: channel `c` of the kernel response, accumulated left to right from `0.0` -/
def kernelResponse (kernel : List F) (pixels : List (List F)) (c : Nat) : F :=
  (kernel.zip pixels).foldl (fun acc e => acc +. e.1 *. e.2.getD c (num 0)) (num 0)

/-- a sub-image whose data matches its header -/
structure SubImage.WF (s : SubImage F) : Prop where
  size : s.info.width * s.info.height < U32SIZE
  width : s.info.width < U32SIZE
  length : s.data.length = s.info.width * s.info.height
  pixels : ∀ p ∈ s.data, p.length = s.info.channels

/-- **C45** `apply_1d_kernel`: per channel, the left-to-right dot product of the kernel with the pixels.
Holds for every previous content of the caller's buffer (`out`). -/
theorem c45_apply_1d (P : Profile) (s : SubImage F) (hs : s.WF) (kernel out : List F)
    (hodd : kernel.length % 2 = 1) (hlen : kernel.length = s.info.width * s.info.height) :
    apply1dKernelInto P s out kernel = .ok ((List.range s.info.channels).map (kernelResponse kernel s.data)) ∧
    apply1dKernel P s kernel = .ok ((List.range s.info.channels).map (kernelResponse kernel s.data)) := by
  have h2 : apply1dKernel P s kernel = .ok ((List.range s.info.channels).map (kernelResponse kernel s.data)) :=
    apply1dKernel_eq P hs.size hodd hlen (by rw [hs.length, hlen])
      (fun p hp => Nat.le_of_eq (hs.pixels p hp).symm)
  refine ⟨?_, h2⟩
  rw [← h2]
  unfold apply1dKernelInto apply1dKernel
  simp only [zeros_loop, ok_bind]

/-- **C45** `apply_1d_kernel` errs exactly when the kernel length is even or differs from the number
of pixels. -/
theorem c45_apply_1d_err (P : Profile) (s : SubImage F) (hs : s.WF) (kernel : List F) :
    Res.InvalidArg (apply1dKernel P s kernel) ↔
      (kernel.length % 2 = 0 ∨ kernel.length ≠ s.info.width * s.info.height) := by
  by_cases ho : kernel.length % 2 = 1
  · by_cases hk : kernel.length = s.info.width * s.info.height
    · rw [(c45_apply_1d P s hs kernel [] ho hk).2]
      exact ⟨fun h => (by cases h), fun h => (by omega)⟩
    · refine ⟨fun _ => .inr hk, fun _ => ?_⟩
      unfold apply1dKernel
      rw [show s.info.size P = .ok _ from u32Mul_ok hs.size, ok_bind, checkOdd_usize_ok ho, ok_bind,
        checkEqual_err hk]; rfl
  · refine ⟨fun _ => .inl (by omega), fun _ => ?_⟩
    unfold apply1dKernel
    rw [show s.info.size P = .ok _ from u32Mul_ok hs.size, ok_bind, checkOdd_usize_err ho]; rfl

/-- **C45** `apply_2d_kernel` on a square neighborhood. -/
theorem c45_apply_2d (P : Profile) (s : SubImage F) (hs : s.WF) (hsq : s.info.width = s.info.height)
    (kernel out : List F)
    (hodd : kernel.length % 2 = 1) (hlen : kernel.length = s.info.width * s.info.width) :
    apply2dKernelInto P s out kernel = .ok ((List.range s.info.channels).map (kernelResponse kernel s.data)) ∧
    apply2dKernel P s kernel = .ok ((List.range s.info.channels).map (kernelResponse kernel s.data)) := by
  have h2 : apply2dKernel P s kernel = .ok ((List.range s.info.channels).map (kernelResponse kernel s.data)) :=
    apply2dKernel_eq P hs.width hodd hlen (by rw [hs.length, hlen, hsq])
      (fun p hp => Nat.le_of_eq (hs.pixels p hp).symm)
  refine ⟨?_, h2⟩
  rw [← h2]
  unfold apply2dKernelInto apply2dKernel
  simp only [zeros_loop, ok_bind]

/-- **C45** `apply_2d_kernel` errs exactly when the kernel length is even or differs from width². -/
theorem c45_apply_2d_err (P : Profile) (s : SubImage F) (hs : s.WF) (hsq : s.info.width = s.info.height)
    (kernel : List F) :
    Res.InvalidArg (apply2dKernel P s kernel) ↔
      (kernel.length % 2 = 0 ∨ kernel.length ≠ s.info.width * s.info.width) := by
  have hu : s.info.width * s.info.width < USIZE :=
    Nat.lt_of_lt_of_le (Nat.mul_lt_mul'' hs.width hs.width) (by decide)
  by_cases ho : kernel.length % 2 = 1
  · by_cases hk : kernel.length = s.info.width * s.info.width
    · rw [(c45_apply_2d P s hs hsq kernel [] ho hk).2]
      exact ⟨fun h => (by cases h), fun h => (by omega)⟩
    · refine ⟨fun _ => .inr hk, fun _ => ?_⟩
      unfold apply2dKernel
      simp only
      rw [checkOdd_usize_ok ho, ok_bind, usizeMul_ok hu, ok_bind, checkEqual_err hk]; rfl
  · refine ⟨fun _ => .inl (by omega), fun _ => ?_⟩
    unfold apply2dKernel
    simp only
    rw [checkOdd_usize_err ho]; rfl

/-- the hypotheses are met by a 3-pixel row of 2-channel pixels -/
example (a b c d e f : F) : (SubImage.new 3 1 2 false [[a, b], [c, d], [e, f]]).WF :=
  ⟨show 3 * 1 < _ by decide, show 3 < _ by decide, rfl, by simp [SubImage.new]⟩
end
end Imgproc

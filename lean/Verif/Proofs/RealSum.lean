import Verif.Props.Filter
import Verif.Core.Ideal
import Mathlib.Algebra.BigOperators.Intervals
import Mathlib.Tactic.Ring
/-! Kernel responses over the reals as finite sums. -/
namespace Imgproc
open FloatOps

theorem sum_range_mul (m n : Nat) (f : Nat → ℝ) :
    ∑ k ∈ Finset.range (m * n), f k = ∑ i ∈ Finset.range m, ∑ j ∈ Finset.range n, f (i * n + j) := by
  induction m with
  | zero => simp
  | succ m ih => rw [Nat.succ_mul, Finset.sum_range_add, ih, Finset.sum_range_succ]

theorem kernelResponse_real (kernel : List ℝ) (pixels : List (List ℝ)) (c : Nat) (h : kernel.length = pixels.length) :
    kernelResponse kernel pixels c =
      ∑ i ∈ Finset.range kernel.length, kernel.getD i 0 * (pixels.getD i []).getD c 0 := by
  unfold kernelResponse
  have key : ∀ (k : List ℝ) (p : List (List ℝ)) (a : ℝ), k.length = p.length →
      (k.zip p).foldl (fun acc e => acc +. e.1 *. e.2.getD c (num 0)) a =
        a + ∑ i ∈ Finset.range k.length, k.getD i 0 * (p.getD i []).getD c 0 := by
    intro k
    induction k with
    | nil => intro p a _; simp
    | cons b k ih =>
      intro p a h
      cases p with
      | nil => simp at h
      | cons q p =>
        rw [List.zip_cons_cons, List.foldl_cons, ih p _ (by simpa using h), List.length_cons,
          Finset.sum_range_succ']
        simp only [List.getD_cons_succ, List.getD_cons_zero, Ideal.add_eq, Ideal.mul_eq, Ideal.num_eq, Int.cast_zero]
        ring
  rw [key kernel pixels _ h]; simp

theorem window1d_getD {T} (img : Image T) (x y size : Nat) (v : Bool) {k : Nat} (hk : k < size) :
    (window1d img x y size v).getD k [] =
      if v then img.px x (padCoord img.info.height y ((y : Int) - (size / 2 : Nat) + k))
      else img.px (padCoord img.info.width x ((x : Int) - (size / 2 : Nat) + k)) y := by
  unfold window1d
  rw [List.getD_eq_getElem?_getD, List.getElem?_map, List.getElem?_range hk]; rfl

theorem window2d_getD {T} (img : Image T) (x y size : Nat) {i j : Nat} (hi : i < size) (hj : j < size) :
    (window2d img x y size).getD (i * size + j) [] =
      img.px (padCoord img.info.width x ((x : Int) - (size / 2 : Nat) + j))
        (padCoord img.info.height y ((y : Int) - (size / 2 : Nat) + i)) := by
  unfold window2d
  rw [List.getD_eq_getElem?_getD, ← chunk_getElem? _ size i j hj,
    chunk_flatMap_range _ size size (fun i _ => by simp) i hi, List.getElem?_map, List.getElem?_range hj]; rfl

/-- a 1-d response as a sum -/
theorem response1d_real (img : Image ℝ) (x y : Nat) (kernel : List ℝ) (v : Bool) (c : Nat) :
    kernelResponse kernel (window1d img x y kernel.length v) c =
      ∑ k ∈ Finset.range kernel.length, kernel.getD k 0 *
        (if v then img.px x (padCoord img.info.height y ((y : Int) - (kernel.length / 2 : Nat) + k))
          else img.px (padCoord img.info.width x ((x : Int) - (kernel.length / 2 : Nat) + k)) y).getD c 0 := by
  rw [kernelResponse_real _ _ _ (by rw [window1d_length])]
  apply Finset.sum_congr rfl
  intro k hk
  rw [window1d_getD _ _ _ _ _ (Finset.mem_range.1 hk)]

/-- a 2-d response as a double sum -/
theorem response2d_real (img : Image ℝ) (x y n : Nat) (kernel : List ℝ) (c : Nat) (hk : kernel.length = n * n) :
    kernelResponse kernel (window2d img x y n) c =
      ∑ i ∈ Finset.range n, ∑ j ∈ Finset.range n, kernel.getD (i * n + j) 0 *
        (img.px (padCoord img.info.width x ((x : Int) - (n / 2 : Nat) + j))
        (padCoord img.info.height y ((y : Int) - (n / 2 : Nat) + i))).getD c 0 := by
  rw [kernelResponse_real _ _ _ (by rw [window2d_length, hk]), hk, sum_range_mul]
  apply Finset.sum_congr rfl; intro i hi
  apply Finset.sum_congr rfl; intro j hj
  rw [window2d_getD _ _ _ _ (Finset.mem_range.1 hi) (Finset.mem_range.1 hj)]

/-! the float square root checks, over the reals -/
theorem real_trunc_nat (n : Nat) : realTrunc (n : ℝ) = n := by
  unfold realTrunc
  rw [if_pos (Nat.cast_nonneg n)]
  exact_mod_cast Int.floor_natCast n
theorem real_sqrt_nat (n : Nat) : FloatOps.sqrt (ofNat (F := ℝ) (n * n)) = (n : ℝ) := by
  rw [Ideal.ofNat_eq, Ideal.sqrt_eq, Nat.cast_mul]
  exact Real.sqrt_mul_self (Nat.cast_nonneg n)
theorem real_checkSquare (n : Nat) : checkSquare (ofNat (F := ℝ) (n * n)) = .ok () := by
  unfold checkSquare
  rw [real_sqrt_nat]
  have : FloatOps.rem (n : ℝ) (num 1) = num 0 := by
    show (n : ℝ) - realTrunc ((n : ℝ) / num 1) * num 1 = num 0
    simp [real_trunc_nat]
  rw [this]
  have : ((num 0 : ℝ) ==. num 0) = true := (Ideal.eq_eq _ _).2 rfl
  rw [this]; rfl
theorem real_toU32 (n : Nat) (h : n < 4294967296) : toU32 (n : ℝ) = n := by
  unfold toU32
  rw [Ideal.toInt_eq, real_trunc_nat]; omega
theorem real_toUsize (n : Nat) (h : n < 18446744073709551616) : toUsize (n : ℝ) = n := by
  unfold toUsize
  rw [Ideal.toInt_eq, real_trunc_nat]; omega

/-- `unseparable_filter` over the reals -/
theorem unseparable_real (P : Profile) (img : Image ℝ) (h : img.WF) (kernel : List ℝ) (n : Nat)
    (hodd : n % 2 = 1) (hk : kernel.length = n * n) (hn : n < 65536)
    (hw : img.info.width + n ≤ 2147483648) (hh : img.info.height + n ≤ 2147483648) :
    ∃ out, unseparableFilter P img kernel = .ok out ∧ out.Shows img.info fun x y =>
      (List.range img.info.channels).map (kernelResponse kernel (window2d img x y n)) :=
  unseparable_of_sqrt P img h kernel n hodd hk hn (real_checkSquare n)
    (by rw [real_sqrt_nat, real_toU32 _ (by omega)]) hw hh

theorem getD_map_range {T} (f : Nat → T) (n c : Nat) (d : T) (hc : c < n) :
    ((List.range n).map f).getD c d = f c := by
  rw [List.getD_eq_getElem?_getD, List.getElem?_map, List.getElem?_range hc]; rfl

/-- the two passes of `separable_filter` are one pass with the product kernel -/
theorem separable_real (P : Profile) (img : Image ℝ) (h : img.WF) (vert horz : List ℝ)
    (hodd : vert.length % 2 = 1) (heq : vert.length = horz.length)
    (hw : img.info.width + vert.length ≤ 2147483648) (hh : img.info.height + vert.length ≤ 2147483648) :
    ∃ out, separableFilter P img vert horz = .ok out ∧ out.Shows img.info fun x y =>
      (List.range img.info.channels).map fun c =>
        ∑ i ∈ Finset.range vert.length, ∑ j ∈ Finset.range vert.length, vert.getD i 0 * horz.getD j 0 *
          (img.px (padCoord img.info.width x ((x : Int) - (vert.length / 2 : Nat) + j))
          (padCoord img.info.height y ((y : Int) - (vert.length / 2 : Nat) + i))).getD c 0 := by
  obtain ⟨mid, out, e, s1, s2⟩ := c47_separable_partial P img h vert horz hodd heq hw hh
  refine ⟨out, e, s2.congr ?_⟩
  intro x y hx hy
  apply List.map_congr_left
  intro c hc
  have hc := List.mem_range.1 hc
  rw [response1d_real, ← heq, Finset.sum_comm]
  apply Finset.sum_congr rfl
  intro j hj
  simp only [Bool.false_eq_true, if_false]
  have hx' : padCoord mid.info.width x ((x : Int) - (vert.length / 2 : Nat) + j) < img.info.width := by
    rw [s1.info_eq]; exact padCoord_lt hx
  rw [s1.px_eq hx' hy, getD_map_range _ _ _ _ hc, response1d_real, Finset.mul_sum]
  apply Finset.sum_congr rfl
  intro i hi
  rw [if_pos rfl, s1.info_eq]
  ring

end Imgproc

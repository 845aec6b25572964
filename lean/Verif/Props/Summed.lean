import Verif.Spec.Demo
import Verif.Proofs.ExactSum
import Verif.Proofs.Fill
import Verif.Model.Util
import Verif.Core.Ideal
import Verif.Props.Filter4
/-! Properties C39 and C40: summed-area tables and rectangle sums. -/
namespace Imgproc
open FloatOps

section
variable {F : Type} [FloatOps F]

/-- the recurrence computed by `generate_summed_area_table` for one channel `f`, with exclusive upper
corner: entry `(x, y)` of the table is `satOf f (x+1) (y+1)` -/
def satOf (f : Nat → Nat → F) : Nat → Nat → F
  | 0, _ => num 0
  | _ + 1, 0 => num 0
  | x + 1, y + 1 => f x y +. satOf f (x + 1) y +. satOf f x (y + 1) -. satOf f x y
termination_by x y => (x, y)

theorem satOf_zero_left (f : Nat → Nat → F) (y : Nat) : satOf f 0 y = num 0 := by rw [satOf]
theorem satOf_zero_right (f : Nat → Nat → F) (x : Nat) : satOf f x 0 = num 0 := by cases x <;> rw [satOf]
theorem satOf_succ (f : Nat → Nat → F) (x y : Nat) :
    satOf f (x + 1) (y + 1) = f x y +. satOf f (x + 1) y +. satOf f x (y + 1) -. satOf f x y := by rw [satOf]

/-- channel `c` of the image as a function of the coordinates -/
def Image.chan (img : Image F) (c x y : Nat) : F := (img.px x y).getD c (num 0)

theorem Image.px_eq_chan {img : Image F} (h : img.WF) {x y : Nat} (hx : x < img.info.width) (hy : y < img.info.height) :
    img.px x y = (List.range img.info.channels).map fun c => img.chan c x y := by
  have hl := Image.px_length h hx hy
  apply List.ext_getElem?
  intro k
  by_cases hk : k < img.info.channels
  · rw [List.getElem?_map, List.getElem?_range hk, List.getElem?_eq_getElem (by omega)]
    simp [Image.chan, List.getD_eq_getElem?_getD, List.getElem?_eq_getElem (by omega : k < (img.px x y).length)]
  · rw [List.getElem?_eq_none (by omega), List.getElem?_eq_none (by simpa using hk)]

theorem replicate_map_range (n : Nat) (v : F) : List.replicate n v = (List.range n).map fun _ => v := by
  simp

/-- combine four channel vectors entry by entry -/
theorem combine_loop (n : Nat) (g : F → F → F → F → F) (a b c d : Nat → F) :
    (forRange 0 n [] fun k out => do
      let a ← idx ((List.range n).map a) k
      let b ← idx ((List.range n).map b) k
      let c ← idx ((List.range n).map c) k
      let d ← idx ((List.range n).map d) k
      .ok (out ++ [g a b c d])) = .ok ((List.range n).map fun k => g (a k) (b k) (c k) (d k)) := by
  rw [forRange_collect0 _ (fun k => [g (a k) (b k) (c k) (d k)])]
  · congr 1
    exact (List.map_eq_flatMap (f := fun k => g (a k) (b k) (c k) (d k)) (l := List.range n)).symm
  · intro i acc hi
    have hg : ∀ f : Nat → F, ((List.range n).map f)[i]? = some (f i) := fun f => by
      rw [List.getElem?_map, List.getElem?_range hi]; rfl
    rw [idx_some (hg a), ok_bind, idx_some (hg b), ok_bind, idx_some (hg c), ok_bind, idx_some (hg d), ok_bind]

/-- the table computed by `generate_summed_area_table`, in any arithmetic -/
theorem summedAreaTable_eq (P : Profile) (img : Image F) (h : img.WF) :
    ∃ out, generateSummedAreaTable P img = .ok out ∧ out.Shows img.info fun x y =>
      (List.range img.info.channels).map fun c => satOf (img.chan c) (x + 1) (y + 1) := by
  obtain ⟨b, eb, hb⟩ := Image.blank_eq P (FloatOps.rnum (F := F)) h.infoWF
  obtain ⟨bw, bi, bp⟩ := Image.shows_iff.1 hb
  unfold generateSummedAreaTable
  rw [eb, ok_bind]
  dsimp only
  let G : Nat → Nat → List F := fun x y =>
    (List.range img.info.channels).map fun c => satOf (img.chan c) (x + 1) (y + 1)
  obtain ⟨out, e, hs⟩ := Image.fillRect bw 0 img.info.width 0 img.info.height (by rw [bi]) (by rw [bi]) G
    (fun x y _ _ _ _ => by rw [bi]; simp [G])
    (step := fun y x output => do
      let pIn ← img.getPixel P x y
      let pLeft ← pixelOr P output (decide (x > 0)) (x - 1) y (List.replicate img.info.channels (num 0))
      let pDiag ← pixelOr P output (decide (x > 0 ∧ y > 0)) (x - 1) (y - 1) (List.replicate img.info.channels (num 0))
      let pTop ← pixelOr P output (decide (y > 0)) x (y - 1) (List.replicate img.info.channels (num 0))
      let pOut ← forRange 0 img.info.channels [] fun c out => do
        let a ← idx pIn c
        let t ← idx pTop c
        let l ← idx pLeft c
        let d ← idx pDiag c
        .ok (out ++ [a +. t +. l -. d])
      output.setPixel P x y pOut)
    (by
      intro x y out _ hx _ hy ow oi op
      simp only [bi] at op
      rw [Image.getPixel_eq P h hx hy, ok_bind, Image.px_eq_chan h hx hy]
      have hget : ∀ i j, i < img.info.width → j < img.info.height → (j < y ∨ (j = y ∧ i < x)) →
          out.getPixel P i j = .ok (G i j) := by
        intro i j hi hj hd
        rw [Image.getPixel_eq P ow (by rw [oi, bi]; exact hi) (by rw [oi, bi]; exact hj), op i j hi hj,
          if_pos (by unfold FillDone; omega)]
      have hl : pixelOr P out (decide (x > 0)) (x - 1) y (List.replicate img.info.channels (num 0)) =
          .ok ((List.range img.info.channels).map fun c => satOf (img.chan c) x (y + 1)) := by
        unfold pixelOr
        rcases Nat.eq_zero_or_pos x with rfl | hx0
        · rw [if_neg (by simp)]
          simp only [satOf_zero_left, ← replicate_map_range]
        · obtain ⟨x', rfl⟩ : ∃ x', x = x' + 1 := ⟨x - 1, by omega⟩
          rw [if_pos (by simp), Nat.add_sub_cancel, hget x' y (by omega) hy (by omega)]
      have hd : pixelOr P out (decide (x > 0 ∧ y > 0)) (x - 1) (y - 1) (List.replicate img.info.channels (num 0)) =
          .ok ((List.range img.info.channels).map fun c => satOf (img.chan c) x y) := by
        unfold pixelOr
        rcases Nat.eq_zero_or_pos x with rfl | hx0
        · rw [if_neg (by simp)]
          simp only [satOf_zero_left, ← replicate_map_range]
        · rcases Nat.eq_zero_or_pos y with rfl | hy0
          · rw [if_neg (by simp)]
            simp only [satOf_zero_right, ← replicate_map_range]
          · obtain ⟨x', rfl⟩ : ∃ x', x = x' + 1 := ⟨x - 1, by omega⟩
            obtain ⟨y', rfl⟩ : ∃ y', y = y' + 1 := ⟨y - 1, by omega⟩
            rw [if_pos (by simp), Nat.add_sub_cancel, Nat.add_sub_cancel, hget x' y' (by omega) (by omega) (by omega)]
      have ht : pixelOr P out (decide (y > 0)) x (y - 1) (List.replicate img.info.channels (num 0)) =
          .ok ((List.range img.info.channels).map fun c => satOf (img.chan c) (x + 1) y) := by
        unfold pixelOr
        rcases Nat.eq_zero_or_pos y with rfl | hy0
        · rw [if_neg (by simp)]
          simp only [satOf_zero_right, ← replicate_map_range]
        · obtain ⟨y', rfl⟩ : ∃ y', y = y' + 1 := ⟨y - 1, by omega⟩
          rw [if_pos (by simp), Nat.add_sub_cancel, hget x y' hx (by omega) (by omega)]
      rw [hl, ok_bind, hd, ok_bind, ht, ok_bind, combine_loop img.info.channels (fun a t l d => a +. t +. l -. d), ok_bind,
        Image.setPixel_eq P ow (by rw [oi, bi]; exact hx) (by rw [oi, bi]; exact hy) (by rw [oi, bi]; simp), oi]
      simp only [G, satOf_succ])
  refine ⟨out, e, ?_⟩
  rw [bi] at hs
  exact hs.congr fun x y hx hy => by rw [if_pos ⟨Nat.zero_le _, hx, Nat.zero_le _, hy⟩]

/-- what `rectangular_intensity_sum` computes from such a table, in any arithmetic -/
theorem rectangularSum_eq (P : Profile) {table : Image F} {T : Nat → Nat → Nat → F}
    (h : table.Shows table.info fun x y => (List.range table.info.channels).map fun c => T c (x + 1) (y + 1))
    (hl : ∀ c y, T c 0 y = num 0) (hr : ∀ c x, T c x 0 = num 0) {x0 y0 x1 y1 : Nat} (hx : x0 ≤ x1) (hy : y0 ≤ y1)
    (hx1 : x1 < table.info.width) (hy1 : y1 < table.info.height) :
    rectangularIntensitySum P table x0 y0 x1 y1 = .ok ((List.range table.info.channels).map fun c =>
      T c (x1 + 1) (y1 + 1) -. T c (x1 + 1) y0 -. T c x0 (y1 + 1) +. T c x0 y0) := by
  have hget : ∀ i j, i < table.info.width → j < table.info.height →
      table.getPixel P i j = .ok ((List.range table.info.channels).map fun c => T c (i + 1) (j + 1)) :=
    fun i j hi hj => h.2.2 P i j hi hj
  unfold rectangularIntensitySum
  dsimp only
  rw [hget x1 y1 hx1 hy1, ok_bind]
  have hbl : pixelOr P table (decide (x0 ≠ 0)) (x0 - 1) y1 (List.replicate table.info.channels (num 0)) =
      .ok ((List.range table.info.channels).map (fun c => T c x0 (y1 + 1))) := by
    unfold pixelOr
    rcases Nat.eq_zero_or_pos x0 with rfl | hx0
    · rw [if_neg (by simp)]
      simp only [hl, ← replicate_map_range]
    · obtain ⟨x', rfl⟩ : ∃ x', x0 = x' + 1 := ⟨x0 - 1, by omega⟩
      rw [if_pos (by simp), Nat.add_sub_cancel, hget x' y1 (by omega) hy1]
  have htl : pixelOr P table (decide (x0 ≠ 0 ∧ y0 ≠ 0)) (x0 - 1) (y0 - 1) (List.replicate table.info.channels (num 0)) =
      .ok ((List.range table.info.channels).map (fun c => T c x0 y0)) := by
    unfold pixelOr
    rcases Nat.eq_zero_or_pos x0 with rfl | hx0
    · rw [if_neg (by simp)]
      simp only [hl, ← replicate_map_range]
    · rcases Nat.eq_zero_or_pos y0 with rfl | hy0
      · rw [if_neg (by simp)]
        simp only [hr, ← replicate_map_range]
      · obtain ⟨x', rfl⟩ : ∃ x', x0 = x' + 1 := ⟨x0 - 1, by omega⟩
        obtain ⟨y', rfl⟩ : ∃ y', y0 = y' + 1 := ⟨y0 - 1, by omega⟩
        rw [if_pos (by simp), Nat.add_sub_cancel, Nat.add_sub_cancel, hget x' y' (by omega) (by omega)]
  have ht : pixelOr P table (decide (y0 ≠ 0)) x1 (y0 - 1) (List.replicate table.info.channels (num 0)) =
      .ok ((List.range table.info.channels).map fun c => T c (x1 + 1) y0) := by
    unfold pixelOr
    rcases Nat.eq_zero_or_pos y0 with rfl | hy0
    · rw [if_neg (by simp)]
      simp only [hr, ← replicate_map_range]
    · obtain ⟨y', rfl⟩ : ∃ y', y0 = y' + 1 := ⟨y0 - 1, by omega⟩
      rw [if_pos (by simp), Nat.add_sub_cancel, hget x1 y' hx1 (by omega)]
  rw [hbl, ok_bind, htl, ok_bind, ht, ok_bind, combine_loop table.info.channels (fun br tr bl tl => br -. tr -. bl +. tl)]
end

/-! ### sums over rectangles -/
section
open Finset
variable {A : Type} [AddCommGroup A]

/-- spec: the sum of `v` over columns `x0..=x1` and rows `y0..=y1` -/
def rectSum (v : Nat → Nat → A) (x0 y0 x1 y1 : Nat) : A := ∑ i ∈ Icc x0 x1, ∑ j ∈ Icc y0 y1, v i j

/-- sum over the columns below `X` and rows below `Y` -/
def boxSum (v : Nat → Nat → A) (X Y : Nat) : A := ∑ i ∈ range X, ∑ j ∈ range Y, v i j

theorem boxSum_zero_left (v : Nat → Nat → A) (Y : Nat) : boxSum v 0 Y = 0 := by simp [boxSum]
theorem boxSum_zero_right (v : Nat → Nat → A) (X : Nat) : boxSum v X 0 = 0 := by simp [boxSum]
theorem boxSum_succ (v : Nat → Nat → A) (X Y : Nat) :
    boxSum v (X + 1) (Y + 1) = v X Y + boxSum v (X + 1) Y + boxSum v X (Y + 1) - boxSum v X Y := by
  unfold boxSum
  simp only [sum_range_succ, sum_add_distrib]
  abel

theorem Icc_eq_Ico (a b : Nat) : Icc a b = Ico a (b + 1) := by
  ext k; simp only [mem_Icc, mem_Ico]; omega

theorem rectSum_origin (v : Nat → Nat → A) (x y : Nat) : rectSum v 0 0 x y = boxSum v (x + 1) (y + 1) := by
  unfold rectSum boxSum
  simp only [Icc_eq_Ico, range_eq_Ico]

theorem rectSum_boxes (v : Nat → Nat → A) {x0 y0 x1 y1 : Nat} (hx : x0 ≤ x1) (hy : y0 ≤ y1) :
    rectSum v x0 y0 x1 y1 =
      boxSum v (x1 + 1) (y1 + 1) - boxSum v (x1 + 1) y0 - boxSum v x0 (y1 + 1) + boxSum v x0 y0 := by
  unfold rectSum boxSum
  simp only [Icc_eq_Ico]
  rw [sum_Ico_eq_sub _ (by omega : x0 ≤ x1 + 1)]
  simp only [sum_Ico_eq_sub _ (by omega : y0 ≤ y1 + 1), sum_sub_distrib]
  abel
end

/-! ### exact arithmetic -/

theorem satOf_real (f : Nat → Nat → ℝ) : ∀ X Y, satOf f X Y = boxSum f X Y
  | 0, Y => by rw [satOf_zero_left, boxSum_zero_left]; simp
  | X + 1, 0 => by rw [satOf_zero_right, boxSum_zero_right]; simp
  | X + 1, Y + 1 => by
    rw [satOf_succ, boxSum_succ, satOf_real f (X + 1) Y, satOf_real f X (Y + 1), satOf_real f X Y]
    simp
termination_by X Y => (X, Y)

/-- **C39** in exact arithmetic: on every well-formed image, entry `(x, y)` of the table is, per channel, the sum of
the input over columns `0..=x` and rows `0..=y`. -/
theorem c39_exact (P : Profile) (img : Image ℝ) (h : img.WF) :
    ∃ out, generateSummedAreaTable P img = .ok out ∧ out.Shows img.info fun x y =>
      (List.range img.info.channels).map fun c => rectSum (fun i j => (img.px i j).getD c 0) 0 0 x y := by
  obtain ⟨out, e, hs⟩ := summedAreaTable_eq P img h
  refine ⟨out, e, hs.congr fun x y _ _ => List.map_congr_left fun c _ => ?_⟩
  rw [satOf_real, rectSum_origin]
  simp [Image.chan, boxSum]

/-- **C40** in exact arithmetic: applied to the table of an image, `rectangular_intensity_sum` returns the per-channel
sum over columns `x0..=x1` and rows `y0..=y1`, for every rectangle inside the image. -/
theorem c40_exact (P : Profile) (img : Image ℝ) (h : img.WF) (x0 y0 x1 y1 : Nat) (hx : x0 ≤ x1) (hy : y0 ≤ y1)
    (hx1 : x1 < img.info.width) (hy1 : y1 < img.info.height) :
    ∃ table, generateSummedAreaTable P img = .ok table ∧ rectangularIntensitySum P table x0 y0 x1 y1 =
      .ok ((List.range img.info.channels).map fun c => rectSum (fun i j => (img.px i j).getD c 0) x0 y0 x1 y1) := by
  obtain ⟨out, e, hs⟩ := summedAreaTable_eq P img h
  have hi := hs.info_eq
  refine ⟨out, e, ?_⟩
  rw [rectangularSum_eq P (T := fun c => satOf (img.chan c)) (by rw [hi]; exact hs) (fun _ _ => satOf_zero_left _ _)
    (fun _ _ => satOf_zero_right _ _) hx hy (by rw [hi]; exact hx1) (by rw [hi]; exact hy1), hi]
  congr 1
  refine List.map_congr_left fun c _ => ?_
  simp only [satOf_real]
  rw [rectSum_boxes _ hx hy]
  simp [Image.chan, boxSum]

/-- the sum over the right 2×2 block of a 3×2 image -/
example (P : Profile) (a b c d e f : ℝ) : ∃ table, generateSummedAreaTable P (gray6 a b c d e f) = .ok table ∧
    rectangularIntensitySum P table 1 0 2 1 = .ok [b + e + (c + f)] := by
  obtain ⟨t, h, hs⟩ := c40_exact P _ (gray6_WF a b c d e f) 1 0 2 1 (by decide) (by decide) (by dims) (by dims)
  refine ⟨t, h, hs.trans ?_⟩
  show Except.ok [rectSum (fun i j => ((gray6 a b c d e f).px i j).getD 0 0) 1 0 2 1] = _
  have e1 : Finset.Icc 1 2 = ({1, 2} : Finset Nat) := by decide
  have e2 : Finset.Icc 0 1 = ({0, 1} : Finset Nat) := by decide
  unfold rectSum
  rw [e1, e2]
  simp only [Finset.sum_insert (by decide : (1 : Nat) ∉ ({2} : Finset Nat)), Finset.sum_singleton,
    Finset.sum_insert (by decide : (0 : Nat) ∉ ({1} : Finset Nat))]
  rfl

/-! ### IEEE f32 -/
section
variable [Libm f32]
open Finset

omit [Libm f32] in
theorem boxSum_abs (v : Nat → Nat → Int) (X Y : Nat) : |boxSum v X Y| ≤ boxSum (fun i j => |v i j|) X Y := by
  unfold boxSum
  exact (abs_sum_le_sum_abs _ _).trans (sum_le_sum fun _ _ => abs_sum_le_sum_abs _ _)

omit [Libm f32] in
theorem boxSum_mono {v : Nat → Nat → Int} (hv : ∀ i j, 0 ≤ v i j) {X Y X' Y' : Nat} (hX : X ≤ X') (hY : Y ≤ Y') :
    boxSum v X Y ≤ boxSum v X' Y' := by
  unfold boxSum
  calc ∑ i ∈ range X, ∑ j ∈ range Y, v i j ≤ ∑ i ∈ range X', ∑ j ∈ range Y, v i j :=
        sum_le_sum_of_subset_of_nonneg (range_subset_range.2 hX) fun _ _ _ => sum_nonneg fun _ _ => hv _ _
    _ ≤ _ := sum_le_sum fun _ _ => sum_le_sum_of_subset_of_nonneg (range_subset_range.2 hY) fun _ _ _ => hv _ _

omit [Libm f32] in
/-- every partial sum is bounded by the total of the absolute values -/
theorem boxSum_bound {v : Nat → Nat → Int} {W H : Nat} {B : Int} (hB : boxSum (fun i j => |v i j|) W H ≤ B) {X Y : Nat}
    (hX : X ≤ W) (hY : Y ≤ H) : |boxSum v X Y| ≤ B :=
  (boxSum_abs v X Y).trans ((boxSum_mono (fun _ _ => abs_nonneg _) hX hY).trans hB)

theorem satOf_is {f : Nat → Nat → F32} {v : Nat → Nat → Int} {W H : Nat}
    (hf : ∀ x y, x < W → y < H → (f x y).Is (v x y : Rat))
    (hB : boxSum (fun i j => |v i j|) W H ≤ 8388608) :
    ∀ X Y, X ≤ W → Y ≤ H → (satOf f X Y).Is ((boxSum v X Y : Int) : Rat)
  | 0, Y, _, _ => by rw [satOf_zero_left, boxSum_zero_left]; exact num32 (by decide)
  | X + 1, 0, _, _ => by rw [satOf_zero_right, boxSum_zero_right]; exact num32 (by decide)
  | X + 1, Y + 1, hX, hY => by
    have i1 := satOf_is hf hB (X + 1) Y hX (by omega)
    have i2 := satOf_is hf hB X (Y + 1) (by omega) hY
    have i3 := satOf_is hf hB X Y (by omega) (by omega)
    have i0 := hf X Y (by omega) (by omega)
    have b0 := boxSum_bound hB hX hY
    have b1 := boxSum_bound hB hX (by omega : Y ≤ H)
    have b2 := boxSum_bound hB (by omega : X ≤ W) hY
    have b3 := boxSum_bound hB (by omega : X ≤ W) (by omega : Y ≤ H)
    have bv : |v X Y| ≤ 8388608 := by
      have h1 := boxSum_succ (fun i j => |v i j|) X Y
      have h2 : boxSum (fun i j => |v i j|) X Y ≤ boxSum (fun i j => |v i j|) (X + 1) Y :=
        boxSum_mono (fun _ _ => abs_nonneg _) (by omega) (by omega)
      have h3 : 0 ≤ boxSum (fun i j => |v i j|) X (Y + 1) := by
        have := boxSum_mono (v := fun i j => |v i j|) (fun _ _ => abs_nonneg _) (Nat.zero_le X) (le_refl (Y + 1))
        rwa [boxSum_zero_left] at this
      have h4 := boxSum_mono (v := fun i j => |v i j|) (fun _ _ => abs_nonneg _) hX hY
      linarith
    rw [satOf_succ]
    have hs := boxSum_succ v X Y
    rw [abs_le] at b0 b1 b2 b3 bv
    have s1 : (f X Y +. satOf f (X + 1) Y).Is (((v X Y + boxSum v (X + 1) Y : Int)) : Rat) := by
      push_cast
      exact add_exact i0 i1 (by exact_mod_cast f32_int (by rw [abs_le]; omega))
    have s2 : (f X Y +. satOf f (X + 1) Y +. satOf f X (Y + 1)).Is
        (((v X Y + boxSum v (X + 1) Y + boxSum v X (Y + 1) : Int)) : Rat) := by
      rw [Int.cast_add]
      exact add_exact s1 i2 (by rw [← Int.cast_add]; exact f32_int (by rw [abs_le]; omega))
    rw [hs, Int.cast_sub]
    exact sub_exact s2 i3 (by rw [← Int.cast_sub]; exact f32_int (by rw [abs_le]; omega))
termination_by X Y => (X, Y)

/-- **C39** in IEEE f32: if every channel holds integers whose absolute values add up to at most 2^23, the table is
exact. -/
theorem c39_ieee (P : Profile) {img : Image F32} {v : Nat → Nat → Nat → Int}
    (h : img.ShowsValues img.info fun x y c => (v x y c : Rat))
    (hB : ∀ c < img.info.channels,
      ∑ i ∈ range img.info.width, ∑ j ∈ range img.info.height, |v i j c| ≤ 8388608) :
    ∃ out, generateSummedAreaTable P img = .ok out ∧ out.ShowsValues img.info fun x y c =>
      ((rectSum (fun i j => v i j c) 0 0 x y : Int) : Rat) := by
  obtain ⟨out, e, hs⟩ := summedAreaTable_eq P img h.1
  refine ⟨out, e, hs.values (fun _ _ _ _ => by simp) fun x y c hx hy hc => ?_⟩
  refine ⟨_, by rw [List.getElem?_map, List.getElem?_range hc]; rfl, ?_⟩
  rw [rectSum_origin]
  exact satOf_is (W := img.info.width) (H := img.info.height) (fun i j hi hj => h.px hi hj hc _) (hB c hc) _ _
    (by omega) (by omega)

/-- **C39** in particular for the float copy of a u8 image with `width * height * 255 ≤ 2^23` -/
theorem c39_u8 (P : Profile) (img : Image UInt8) (h : img.WF)
    (hsmall : img.info.width * img.info.height * 255 ≤ 8388608) :
    ∃ (f out : Image F32), imageU8ToFloat P img = .ok f ∧ generateSummedAreaTable P f = .ok out ∧
      out.ShowsValues img.info fun x y c =>
        ((rectSum (fun i j => (((img.px i j).getD c 0).toNat : Int)) 0 0 x y : Int) : Rat) := by
  obtain ⟨f, ef, hf⟩ := imageU8ToFloat_values P h
  have hi := hf.2.1
  obtain ⟨out, e, ho⟩ := c39_ieee P (img := f) (v := fun x y c => (((img.px x y).getD c 0).toNat : Int))
    (by rw [hi]; exact hf) (by
      intro c _
      rw [hi]
      refine le_trans (sum_le_sum fun i _ => sum_le_sum fun j _ => (?_ : _ ≤ (255 : Int))) ?_
      · rw [abs_of_nonneg (by omega)]
        have := ((img.px i j).getD c 0).toNat_lt
        omega
      · simp only [sum_const, card_range, nsmul_eq_mul]
        rw [← mul_assoc]
        exact_mod_cast hsmall)
  rw [hi] at ho
  exact ⟨f, out, ef, e, ho⟩

theorem rect_is {T : Nat → Nat → F32} {v : Nat → Nat → Int} {W H : Nat}
    (hT : ∀ X Y, X ≤ W → Y ≤ H → (T X Y).Is ((boxSum v X Y : Int) : Rat))
    (hB : boxSum (fun i j => |v i j|) W H ≤ 8388608) {x0 y0 x1 y1 : Nat} (hx : x0 ≤ x1) (hy : y0 ≤ y1)
    (hx1 : x1 < W) (hy1 : y1 < H) :
    (T (x1 + 1) (y1 + 1) -. T (x1 + 1) y0 -. T x0 (y1 + 1) +. T x0 y0).Is
      ((rectSum v x0 y0 x1 y1 : Int) : Rat) := by
  have i0 := hT (x1 + 1) (y1 + 1) (by omega) (by omega)
  have i1 := hT (x1 + 1) y0 (by omega) (by omega)
  have i2 := hT x0 (y1 + 1) (by omega) (by omega)
  have i3 := hT x0 y0 (by omega) (by omega)
  have b0 := boxSum_bound hB (by omega : x1 + 1 ≤ W) (by omega : y1 + 1 ≤ H)
  have b1 := boxSum_bound hB (by omega : x1 + 1 ≤ W) (by omega : y0 ≤ H)
  have b3 := boxSum_bound hB (by omega : x0 ≤ W) (by omega : y0 ≤ H)
  have hr := rectSum_boxes v hx hy
  have br : |rectSum v x0 y0 x1 y1| ≤ 8388608 := by
    refine le_trans ?_ hB
    unfold rectSum boxSum
    refine (abs_sum_le_sum_abs _ _).trans ?_
    calc ∑ i ∈ Icc x0 x1, |∑ j ∈ Icc y0 y1, v i j| ≤ ∑ i ∈ Icc x0 x1, ∑ j ∈ range H, |v i j| := by
          refine sum_le_sum fun i _ => (abs_sum_le_sum_abs _ _).trans ?_
          refine sum_le_sum_of_subset_of_nonneg ?_ fun _ _ _ => abs_nonneg _
          intro k hk; simp at hk ⊢; omega
      _ ≤ _ := by
          refine sum_le_sum_of_subset_of_nonneg ?_ fun _ _ _ => sum_nonneg fun _ _ => abs_nonneg _
          intro k hk; simp at hk ⊢; omega
  rw [abs_le] at b0 b1 b3 br
  have s1 := sub_exact i0 i1 (by rw [← Int.cast_sub]; exact f32_int (by rw [abs_le]; omega))
  rw [← Int.cast_sub] at s1
  have s2 := sub_exact s1 i2 (by rw [← Int.cast_sub]; exact f32_int (by rw [abs_le]; omega))
  rw [← Int.cast_sub] at s2
  have s3 := add_exact s2 i3 (by rw [← Int.cast_add]; exact f32_int (by rw [abs_le]; omega))
  rw [← Int.cast_add, ← hr] at s3
  exact s3

/-- **C40** in IEEE f32, for channels holding integers whose absolute values add up to at most 2^23 -/
theorem c40_ieee (P : Profile) {img : Image F32} {v : Nat → Nat → Nat → Int}
    (h : img.ShowsValues img.info fun x y c => (v x y c : Rat))
    (hB : ∀ c < img.info.channels,
      ∑ i ∈ range img.info.width, ∑ j ∈ range img.info.height, |v i j c| ≤ 8388608)
    (x0 y0 x1 y1 : Nat) (hx : x0 ≤ x1) (hy : y0 ≤ y1) (hx1 : x1 < img.info.width) (hy1 : y1 < img.info.height) :
    ∃ (table : Image F32) (p : List F32), generateSummedAreaTable P img = .ok table ∧
      rectangularIntensitySum P table x0 y0 x1 y1 = .ok p ∧ p.length = img.info.channels ∧
      ∀ c < img.info.channels, ∃ r : F32, p[c]? = some r ∧
        r.Is ((rectSum (fun i j => v i j c) x0 y0 x1 y1 : Int) : Rat) := by
  obtain ⟨out, e, hs⟩ := summedAreaTable_eq P img h.1
  have hi := hs.info_eq
  refine ⟨out, _, e, rectangularSum_eq P (T := fun c => satOf (img.chan c)) (by rw [hi]; exact hs)
    (fun _ _ => satOf_zero_left _ _) (fun _ _ => satOf_zero_right _ _) hx hy (by rw [hi]; exact hx1)
    (by rw [hi]; exact hy1), by simp [hi], fun c hc => ?_⟩
  refine ⟨_, by rw [hi, List.getElem?_map, List.getElem?_range hc]; rfl, ?_⟩
  exact rect_is (W := img.info.width) (H := img.info.height) (fun X Y hX hY =>
    satOf_is (W := img.info.width) (H := img.info.height) (fun i j hi hj => h.px hi hj hc _) (hB c hc) X Y hX hY)
    (hB c hc) hx hy hx1 hy1

/-! ### the bound 2^23 matters: rounding errors for a white image of two rows -/

theorem whiteSat_row0 {f : Nat → Nat → F32} (hf : ∀ x, x < 21932 → (f x 0).Is 255) : ∀ X ≤ 21932,
    (satOf f X 1).Is (((255 * X : Nat) : Int) : Rat)
  | 0, _ => by rw [satOf_zero_left]; exact num32 (by decide)
  | X + 1, h => by
    have i := whiteSat_row0 hf X (by omega)
    have z : (num 0 : F32).Is ((0 : Int) : Rat) := num32 (by decide)
    have h0 : (f X 0).Is ((255 : Int) : Rat) := by simpa using hf X (by omega)
    rw [satOf_succ, satOf_zero_right, satOf_zero_right]
    have s1 := add_exact h0 z (by rw [← Int.cast_add]; exact f32_int (by decide))
    rw [← Int.cast_add] at s1
    have s2 := add_exact s1 i (by rw [← Int.cast_add]; exact f32_int (by rw [abs_le]; omega))
    rw [← Int.cast_add] at s2
    have s3 := sub_exact s2 z (by rw [← Int.cast_sub]; exact f32_int (by rw [abs_le]; omega))
    rw [← Int.cast_sub] at s3
    have e : (255 : Int) + 0 + ((255 * X : Nat) : Int) - 0 = ((255 * (X + 1) : Nat) : Int) := by push_cast; omega
    rwa [e] at s3

theorem whiteSat_row1 {f : Nat → Nat → F32} (hf : ∀ x y, x < 21932 → y < 2 → (f x y).Is 255) : ∀ X ≤ 21931,
    (satOf f X 2).Is (((510 * X : Nat) : Int) : Rat)
  | 0, _ => by rw [satOf_zero_left]; exact num32 (by decide)
  | X + 1, h => by
    have i := whiteSat_row1 hf X (by omega)
    have t := whiteSat_row0 (fun x hx => hf x 0 hx (by decide)) (X + 1) (by omega)
    have d := whiteSat_row0 (fun x hx => hf x 0 hx (by decide)) X (by omega)
    have h0 : (f X 1).Is ((255 : Int) : Rat) := by simpa using hf X 1 (by omega) (by decide)
    rw [satOf_succ]
    have s1 := add_exact h0 t (by rw [← Int.cast_add]; exact f32_int (by rw [abs_le]; omega))
    rw [← Int.cast_add] at s1
    have s2 := add_exact s1 i (by rw [← Int.cast_add]; exact f32_int (by rw [abs_le]; omega))
    rw [← Int.cast_add] at s2
    have s3 := sub_exact s2 d (by rw [← Int.cast_sub]; exact f32_int (by rw [abs_le]; omega))
    rw [← Int.cast_sub] at s3
    have e : (255 : Int) + ((255 * (X + 1) : Nat) : Int) + ((510 * X : Nat) : Int) - ((255 * X : Nat) : Int) =
        ((510 * (X + 1) : Nat) : Int) := by push_cast; omega
    rwa [e] at s3

theorem whiteSat_last {f : Nat → Nat → F32} (hf : ∀ x y, x < 21932 → y < 2 → (f x y).Is 255) :
    (satOf f 21932 2).Is 11185319 := by
  have i := whiteSat_row1 hf 21931 (by omega)
  have t := whiteSat_row0 (fun x hx => hf x 0 hx (by decide)) 21932 (by omega)
  have d := whiteSat_row0 (fun x hx => hf x 0 hx (by decide)) 21931 (by omega)
  have h0 : (f 21931 1).Is ((255 : Int) : Rat) := by simpa using hf 21931 1 (by omega) (by decide)
  rw [satOf_succ f 21931 1]
  have s1 := add_exact h0 t (by rw [← Int.cast_add]; exact f32_int (by decide))
  rw [← Int.cast_add] at s1
  have s2 := add_is s1 i (f32_ovf (by norm_num))
  have e : f32.rnd ((((255 : Int) + ((255 * 21932 : Nat) : Int) : Int) : Rat) + (((510 * 21931 : Nat) : Int) : Rat)) =
      ((16777724 : Int) : Rat) := by decide +kernel
  rw [e] at s2
  have s3 := sub_exact s2 d (by rw [← Int.cast_sub]; exact f32_int (by decide))
  have e2 : ((16777724 : Int) : Rat) - (((255 * 21931 : Nat) : Int) : Rat) = 11185319 := by norm_num
  rwa [e2] at s3

/-- a white image of 21932 x 2 pixels -/
def whiteWide : Image UInt8 := Image.fromVec 21932 2 1 false (List.replicate 43864 255)
omit [Libm f32] in
theorem whiteWide_WF : whiteWide.WF :=
  ⟨by decide, by decide, by decide, by decide, by decide, List.length_replicate⟩
omit [Libm f32] in
theorem whiteWide_px {x y : Nat} (hx : x < 21932) (hy : y < 2) : whiteWide.px x y = [255] := by
  have hl := Image.px_length whiteWide_WF (x := x) (y := y) hx hy
  obtain ⟨a, ha⟩ := List.length_eq_one_iff.1 hl
  have : a ∈ whiteWide.data := Image.px_subset (x := x) (y := y) (by rw [ha]; simp)
  rw [ha, List.eq_of_mem_replicate this]

/-- **C39, limit of the IEEE version**: for this white image all entries of the true table are integers below 2^24
(so all are representable), yet the computed table is wrong: the intermediate sum exceeds 2^24 and is rounded. -/
theorem c39_rounding_counterexample (P : Profile) :
    ∃ (f out : Image F32) (r : F32), imageU8ToFloat P whiteWide = .ok f ∧ generateSummedAreaTable P f = .ok out ∧
      out.getPixel P 21931 1 = .ok [r] ∧ r.Is 11185319 ∧
      rectSum (fun i j => (((whiteWide.px i j).getD 0 0).toNat : Int)) 0 0 21931 1 = 11185320 := by
  obtain ⟨f, ef, hf⟩ := imageU8ToFloat_values P whiteWide_WF
  obtain ⟨out, e, hs⟩ := summedAreaTable_eq P f hf.1
  have hi : f.info = whiteWide.info := hf.2.1
  refine ⟨f, out, satOf (f.chan 0) 21932 2, ef, e, ?_, ?_, ?_⟩
  · rw [hs.2.2 P 21931 1 (by rw [hi]; decide) (by rw [hi]; decide), hi]; rfl
  · refine whiteSat_last fun x y hx hy => ?_
    have := hf.px (x := x) (y := y) (c := 0) hx hy (by decide) (num 0)
    rw [whiteWide_px hx hy] at this
    have e : ((((([255] : List UInt8).getD 0 0).toNat : Int)) : Rat) = 255 := by decide +kernel
    rw [e] at this
    exact this
  · unfold rectSum
    rw [sum_congr rfl (g := fun _ => (510 : Int))]
    · simp
    · intro i hx
      have hx : i < 21932 := by simp at hx; omega
      rw [sum_congr rfl (g := fun _ => (255 : Int))]
      · simp
      · intro j hj
        have hj : j < 2 := by simp at hj; omega
        show ((((whiteWide.px i j).getD 0 0).toNat : Int)) = 255
        rw [whiteWide_px hx hj]; rfl

omit [Libm f32] in
/-- **C40** out-of-image rectangles panic -/
theorem c40_outside {F : Type} [FloatOps F] (P : Profile) (table : Image F) (x0 y0 x1 y1 : Nat)
    (hout : ¬ (x1 < table.info.width ∧ y1 < table.info.height)) :
    rectangularIntensitySum P table x0 y0 x1 y1 = panic .explicit := by
  unfold rectangularIntensitySum
  rw [Image.getPixel_panic P hout]; rfl

omit [Libm f32] in
/-- the hypotheses of the exactness theorems are met, e.g. by this image -/
example : demo.WF ∧ demo.info.width * demo.info.height * 255 ≤ 8388608 := ⟨demo_WF, by decide⟩
end
end Imgproc

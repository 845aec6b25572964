import Verif.Props.Mirror
/-! Property C95, continued: window operations and mirroring. -/
namespace Imgproc
open FloatOps

/-- where the mirror image takes its columns from -/
def mirX (axis : Refl) (w x : Nat) : Nat := match axis with | .vertical => w - 1 - x | .horizontal => x
/-- where the mirror image takes its rows from -/
def mirY (axis : Refl) (h y : Nat) : Nat := match axis with | .vertical => y | .horizontal => h - 1 - y

theorem mirX_lt {axis : Refl} {w x : Nat} (h : x < w) : mirX axis w x < w := by unfold mirX; split <;> omega
theorem mirY_lt {axis : Refl} {w x : Nat} (h : x < w) : mirY axis w x < w := by unfold mirY; split <;> omega

theorem reflect_shows {T} (P : Profile) (N : RNum T) (img : Image T) (h : img.WF) (axis : Refl) :
    ∃ out, reflect P N img axis = .ok out ∧
      out.Shows img.info (fun x y => img.px (mirX axis img.info.width x) (mirY axis img.info.height y)) := by
  obtain ⟨out, e, ho⟩ := c65_reflect P N img h axis
  exact ⟨out, e, ho.congr fun x y _ _ => by cases axis <;> rfl⟩

/-- padding commutes with mirroring -/
theorem padCoord_mirror {w x n j : Nat} (hx : x < w) (hodd : n % 2 = 1) (hj : j < n) :
    padCoord w (w - 1 - x) (((w - 1 - x : Nat) : Int) - (n / 2 : Nat) + j) =
      w - 1 - padCoord w x ((x : Int) - (n / 2 : Nat) + (n - 1 - j : Nat)) := by
  unfold padCoord
  split <;> split <;> omega

/-- a filter on images of shape `info` that computes padded `n x n` window sums with weights `w` -/
def PadSums (filt : Image ℝ → Res (Image ℝ)) (info : ImageInfo) (n : Nat) (w : Nat → Nat → ℝ) : Prop :=
  ∀ img : Image ℝ, img.WF → img.info = info → ∃ out, filt img = .ok out ∧ out.Shows info fun x y =>
    (List.range info.channels).map fun c => ∑ i ∈ Finset.range n, ∑ j ∈ Finset.range n, w i j *
      (img.px (padCoord info.width x ((x : Int) - (n / 2 : Nat) + j))
        (padCoord info.height y ((y : Int) - (n / 2 : Nat) + i))).getD c 0

/-- the mirror image of an `n x n` table of weights -/
def mirW (axis : Refl) (n : Nat) (w : Nat → Nat → ℝ) : Nat → Nat → ℝ := fun i j => w (mirY axis n i) (mirX axis n j)

theorem sum_mirror {axis : Refl} (n : Nat) (f : Nat → Nat → ℝ) :
    ∑ i ∈ Finset.range n, ∑ j ∈ Finset.range n, f (mirY axis n i) (mirX axis n j) =
      ∑ i ∈ Finset.range n, ∑ j ∈ Finset.range n, f i j := by
  cases axis with
  | vertical =>
    refine Finset.sum_congr rfl fun i _ => ?_
    exact Finset.sum_range_reflect (fun j => f i j) n
  | horizontal => exact Finset.sum_range_reflect (fun i => ∑ j ∈ Finset.range n, f i j) n

theorem pad_mirrorX {axis : Refl} {w x n j : Nat} (hx : x < w) (hodd : n % 2 = 1) (hj : j < n) :
    padCoord w (mirX axis w x) (((mirX axis w x : Nat) : Int) - (n / 2 : Nat) + j) =
      mirX axis w (padCoord w x ((x : Int) - (n / 2 : Nat) + (mirX axis n j : Nat))) := by
  cases axis with
  | vertical => exact padCoord_mirror hx hodd hj
  | horizontal => rfl
theorem pad_mirrorY {axis : Refl} {w x n j : Nat} (hx : x < w) (hodd : n % 2 = 1) (hj : j < n) :
    padCoord w (mirY axis w x) (((mirY axis w x : Nat) : Int) - (n / 2 : Nat) + j) =
      mirY axis w (padCoord w x ((x : Int) - (n / 2 : Nat) + (mirY axis n j : Nat))) := by
  cases axis with
  | vertical => rfl
  | horizontal => exact padCoord_mirror hx hodd hj

theorem mirX_mirX {axis : Refl} {n j : Nat} (h : j < n) : mirX axis n (mirX axis n j) = j := by
  cases axis
  · first | rfl | (unfold mirX; dsimp only; omega)
  · first | rfl | (unfold mirX; dsimp only; omega)
theorem mirY_mirY {axis : Refl} {n j : Nat} (h : j < n) : mirY axis n (mirY axis n j) = j := by
  cases axis
  · first | rfl | (unfold mirY; dsimp only; omega)
  · first | rfl | (unfold mirY; dsimp only; omega)

theorem padSums_mirror (P : Profile) (N : RNum ℝ) (img : Image ℝ) (h : img.WF) {A B : Image ℝ → Res (Image ℝ)} {n : Nat}
    {w w' : Nat → Nat → ℝ} (axis : Refl) (hodd : n % 2 = 1) (hA : PadSums A img.info n w) (hB : PadSums B img.info n w')
    (hw : ∀ i j, i < n → j < n → w' i j = mirW axis n w i j) :
    (A img >>= fun o => reflect P N o axis) = (reflect P N img axis >>= B) := by
  obtain ⟨o, eo, ho⟩ := hA img h rfl
  obtain ⟨mo, emo, hmo⟩ := reflect_shows P N o ho.WF axis
  obtain ⟨m, em, hm⟩ := reflect_shows P N img h axis
  obtain ⟨om, eom, hom⟩ := hB m hm.WF hm.info_eq
  rw [eo, ok_bind, emo, em, ok_bind, eom]
  rw [ho.info_eq] at hmo
  refine congrArg Except.ok (Image.Shows.ext hmo (hom.congr fun x y hx hy => ?_))
  rw [ho.px_eq (mirX_lt hx) (mirY_lt hy)]
  refine List.map_congr_left fun c _ => ?_
  rw [← sum_mirror (axis := axis)]
  refine Finset.sum_congr rfl fun i hi => Finset.sum_congr rfl fun j hj => ?_
  have hi := Finset.mem_range.1 hi
  have hj := Finset.mem_range.1 hj
  rw [hw _ _ (mirY_lt hi) (mirX_lt hj), mirW, mirY_mirY hi, mirX_mirX hj, hm.px_eq (padCoord_lt hx) (padCoord_lt hy),
    pad_mirrorX hx hodd hj, pad_mirrorY hy hodd hi]

theorem unseparable_pad (P : Profile) (info : ImageInfo) (kernel : List ℝ) (n : Nat) (hodd : n % 2 = 1)
    (hk : kernel.length = n * n) (hn : n < 65536) (hw : info.width + n ≤ 2147483648) (hh : info.height + n ≤ 2147483648) :
    PadSums (fun img => unseparableFilter P img kernel) info n fun i j => kernel.getD (i * n + j) 0 := by
  rintro img h rfl
  obtain ⟨out, e, s⟩ := unseparable_real P img h kernel n hodd hk hn hw hh
  refine ⟨out, e, s.congr fun x y _ _ => List.map_congr_left fun c _ => response2d_real _ _ _ _ _ _ hk⟩

theorem separable_pad (P : Profile) (info : ImageInfo) (vert horz : List ℝ) (hodd : vert.length % 2 = 1)
    (heq : vert.length = horz.length) (hw : info.width + vert.length ≤ 2147483648) (hh : info.height + vert.length ≤ 2147483648) :
    PadSums (fun img => separableFilter P img vert horz) info vert.length fun i j => vert.getD i 0 * horz.getD j 0 := by
  rintro img h rfl
  exact separable_real P img h vert horz hodd heq hw hh

/-- **C95** (exact arithmetic) mirroring the result of `unseparable_filter` is filtering the mirror image with the mirrored
kernel; in particular kernels that are their own mirror image commute with mirroring. -/
theorem c95_unseparable (P : Profile) (N : RNum ℝ) (img : Image ℝ) (h : img.WF) (axis : Refl) (k k' : List ℝ) (n : Nat)
    (hodd : n % 2 = 1) (hk : k.length = n * n) (hk' : k'.length = n * n) (hn : n < 65536)
    (hm : ∀ i j, i < n → j < n → k'.getD (i * n + j) 0 =
      match axis with | .vertical => k.getD (i * n + (n - 1 - j)) 0 | .horizontal => k.getD ((n - 1 - i) * n + j) 0)
    (hw : img.info.width + n ≤ 2147483648) (hh : img.info.height + n ≤ 2147483648) :
    (unseparableFilter P img k >>= fun o => reflect P N o axis) =
      (reflect P N img axis >>= fun m => unseparableFilter P m k') :=
  padSums_mirror P N img h axis hodd (unseparable_pad P img.info k n hodd hk hn hw hh)
    (unseparable_pad P img.info k' n hodd hk' hn hw hh) fun i j hi hj => by rw [hm i j hi hj]; cases axis <;> rfl

/-- **C95** (exact arithmetic) the same for `separable_filter`: the mirrored kernel pair is the reversed one -/
theorem c95_separable (P : Profile) (N : RNum ℝ) (img : Image ℝ) (h : img.WF) (axis : Refl) (vert horz : List ℝ)
    (hodd : vert.length % 2 = 1) (heq : vert.length = horz.length)
    (hw : img.info.width + vert.length ≤ 2147483648) (hh : img.info.height + vert.length ≤ 2147483648) :
    (separableFilter P img vert horz >>= fun o => reflect P N o axis) = (reflect P N img axis >>= fun m =>
      match axis with
      | .vertical => separableFilter P m vert horz.reverse
      | .horizontal => separableFilter P m vert.reverse horz) := by
  have rev : ∀ (l : List ℝ) j, j < l.length → l.reverse.getD j 0 = l.getD (l.length - 1 - j) 0 := by
    intro l j hj
    rw [List.getD_eq_getElem?_getD, List.getD_eq_getElem?_getD, List.getElem?_reverse hj]
  cases axis with
  | vertical =>
    refine padSums_mirror P N img h .vertical hodd (separable_pad P img.info vert horz hodd heq hw hh)
      (separable_pad P img.info vert horz.reverse hodd (by rw [List.length_reverse]; exact heq) hw hh) fun i j hi hj => ?_
    show _ = vert.getD i 0 * horz.getD (vert.length - 1 - j) 0
    rw [rev horz j (by omega), heq]
  | horizontal =>
    have hl : vert.reverse.length = vert.length := List.length_reverse
    refine padSums_mirror P N img h .horizontal hodd (separable_pad P img.info vert horz hodd heq hw hh)
      (hl ▸ separable_pad P img.info vert.reverse horz (by rw [hl]; exact hodd) (by rw [hl]; exact heq)
        (by rw [hl]; exact hw) (by rw [hl]; exact hh)) fun i j hi hj => ?_
    show _ = vert.getD (vert.length - 1 - i) 0 * horz.getD j 0
    rw [rev vert i hi]

/-- the symmetric square kernel commutes with both mirrorings -/
theorem symmetric_mirror (P : Profile) (N : RNum ℝ) (img : Image ℝ) (h : img.WF) (axis : Refl) (k : List ℝ) (n : Nat)
    (hodd : n % 2 = 1) (hk : k.length = n * n) (hn : n < 65536)
    (h1 : ∀ i j, i < n → j < n → k.getD (i * n + j) 0 = k.getD (i * n + (n - 1 - j)) 0)
    (h2 : ∀ i j, i < n → j < n → k.getD (i * n + j) 0 = k.getD ((n - 1 - i) * n + j) 0)
    (hw : img.info.width + n ≤ 2147483648) (hh : img.info.height + n ≤ 2147483648) :
    (unseparableFilter P img k >>= fun o => reflect P N o axis) =
      (reflect P N img axis >>= fun m => unseparableFilter P m k) :=
  c95_unseparable P N img h axis k k n hodd hk hk hn (fun i j hi hj => by cases axis; exacts [h1 i j hi hj, h2 i j hi hj]) hw hh

/-- **C95** (exact arithmetic) the fixed-kernel filters commute with mirroring -/
theorem c95_fixed_kernels (P : Profile) (N : RNum ℝ) (img : Image ℝ) (h : img.WF) (axis : Refl)
    (hw : img.info.width + 5 ≤ 2147483648) (hh : img.info.height + 5 ≤ 2147483648) :
    (sharpen P img >>= fun o => reflect P N o axis) = (reflect P N img axis >>= fun m => sharpen P m) ∧
    (unsharpMasking P img >>= fun o => reflect P N o axis) = (reflect P N img axis >>= fun m => unsharpMasking P m) ∧
    (laplacian P img >>= fun o => reflect P N o axis) = (reflect P N img axis >>= fun m => laplacian P m) := by
  refine ⟨symmetric_mirror P N img h axis K_SHARPEN 3 rfl rfl (by decide) ?_ ?_ (by omega) (by omega),
    symmetric_mirror P N img h axis K_UNSHARP_MASKING 5 rfl rfl (by decide) ?_ ?_ (by omega) (by omega),
    symmetric_mirror P N img h axis K_LAPLACIAN 3 rfl rfl (by decide) ?_ ?_ (by omega) (by omega)⟩ <;>
  · intro i j hi hj
    interval_cases i <;> interval_cases j <;> rfl

/-- **C95** (exact arithmetic) `weighted_avg_filter` and `box_filter` commute with mirroring -/
theorem c95_averages (P : Profile) (N : RNum ℝ) (img : Image ℝ) (h : img.WF) (axis : Refl) (size weight : Nat)
    (hodd : size % 2 = 1) (hs : size < 65536) (hsum : size * size - 1 + weight < U32SIZE)
    (hw : img.info.width + size * size ≤ 2147483648) (hh : img.info.height + size * size ≤ 2147483648) :
    (weightedAvgFilter P img size weight >>= fun o => reflect P N o axis) =
      (reflect P N img axis >>= fun m => weightedAvgFilter P m size weight) ∧
    (boxFilter P img size >>= fun o => reflect P N o axis) = (reflect P N img axis >>= fun m => boxFilter P m size) := by
  have hle : size ≤ size * size := Nat.le_mul_self size
  constructor
  · have e : ∀ a : Image ℝ, weightedAvgFilter P a size weight = unseparableFilter P a ((List.range (size * size)).map fun k =>
        if k = size / 2 * size + size / 2 then
          (ofNat weight : ℝ) /. ofNat (size * size - 1 + weight)
        else num 1 /. ofNat (size * size - 1 + weight)) := by
      intro a
      unfold weightedAvgFilter
      rw [checkOdd_u32_ok hodd, ok_bind, c50_kernel P size weight hodd hs hsum, ok_bind]
    simp only [e]
    have lt : ∀ i j, i < size → j < size → i * size + j < size * size := by
      intro i j hi hj
      calc i * size + j < i * size + size := by omega
        _ = (i + 1) * size := by rw [Nat.succ_mul]
        _ ≤ size * size := Nat.mul_le_mul_right _ hi
    have cen : ∀ i j, i < size → j < size → (i * size + j = size / 2 * size + size / 2 ↔ i = size / 2 ∧ j = size / 2) := by
      intro i j hi hj
      constructor
      · intro he
        have hc : size / 2 < size := by omega
        have hp : 0 < size := by omega
        have h1 := congrArg (· / size) he
        have h2 := congrArg (· % size) he
        simp only [Nat.mul_comm _ size] at h1 h2
        rw [Nat.mul_add_div hp, Nat.mul_add_div hp, Nat.div_eq_of_lt hj, Nat.div_eq_of_lt hc] at h1
        rw [Nat.mul_add_mod, Nat.mul_add_mod, Nat.mod_eq_of_lt hj, Nat.mod_eq_of_lt hc] at h2
        omega
      · rintro ⟨rfl, rfl⟩; rfl
    refine symmetric_mirror P N img h axis _ size hodd (by simp) hs (fun i j hi hj => ?_) (fun i j hi hj => ?_) (by omega) (by omega)
    · rw [getD_map_range _ _ _ _ (lt i j hi hj), getD_map_range _ _ _ _ (lt i (size - 1 - j) hi (by omega))]
      refine if_congr ?_ rfl rfl
      rw [cen i j hi hj, cen i (size - 1 - j) hi (by omega)]
      omega
    · rw [getD_map_range _ _ _ _ (lt i j hi hj), getD_map_range _ _ _ _ (lt (size - 1 - i) j (by omega) hj)]
      refine if_congr ?_ rfl rfl
      rw [cen i j hi hj, cen (size - 1 - i) j (by omega) hj]
      omega
  · have hlt : size * size < U32SIZE := by
      have : size * size ≤ 65535 * 65535 := Nat.mul_le_mul (by omega) (by omega)
      omega
    have e : ∀ a : Image ℝ, boxFilter P a size = separableFilter P a (List.replicate (size * size) ((num 1 : ℝ) /. ofNat (size * size)))
        (List.replicate (size * size) ((num 1 : ℝ) /. ofNat (size * size))) := by
      intro a
      unfold boxFilter
      rw [checkOdd_u32_ok hodd, ok_bind, u32Mul_ok hlt, ok_bind]
    simp only [e]
    rw [c95_separable P N img h axis _ _ (by rw [List.length_replicate, Nat.mul_mod, hodd]) rfl
      (by rw [List.length_replicate]; exact hw) (by rw [List.length_replicate]; exact hh)]
    cases axis <;> simp only [List.reverse_replicate]

/-! ### gradient magnitudes -/

/-- window sums of the mirror image with mirrored weights, up to a common factor -/
theorem padSums_mirror_px {img m : Image ℝ} (h : img.WF) {A B : Image ℝ → Res (Image ℝ)} {n : Nat}
    {w w' : Nat → Nat → ℝ} {axis : Refl} (hodd : n % 2 = 1) (s : ℝ)
    (hm : m.Shows img.info fun x y => img.px (mirX axis img.info.width x) (mirY axis img.info.height y))
    (hA : PadSums A img.info n w) (hB : PadSums B img.info n w')
    (hw : ∀ i j, i < n → j < n → w' i j = s * mirW axis n w i j) {o om : Image ℝ} (eo : A img = .ok o) (eom : B m = .ok om)
    {x y c : Nat} (hx : x < img.info.width) (hy : y < img.info.height) (hc : c < img.info.channels) :
    (om.px x y).getD c 0 = s * (o.px (mirX axis img.info.width x) (mirY axis img.info.height y)).getD c 0 := by
  obtain ⟨o', eo', ho⟩ := hA img h rfl
  obtain rfl : o = o' := by rw [eo] at eo'; injection eo'
  obtain ⟨om', eom', hom⟩ := hB m hm.WF hm.info_eq
  obtain rfl : om = om' := by rw [eom] at eom'; injection eom'
  rw [ho.px_eq (mirX_lt hx) (mirY_lt hy), hom.px_eq hx hy, getD_map_range _ _ _ _ hc, getD_map_range _ _ _ _ hc,
    ← sum_mirror (axis := axis), Finset.mul_sum]
  refine Finset.sum_congr rfl fun i hi => ?_
  rw [Finset.mul_sum]
  refine Finset.sum_congr rfl fun j hj => ?_
  have hi := Finset.mem_range.1 hi
  have hj := Finset.mem_range.1 hj
  rw [hw _ _ (mirY_lt hi) (mirX_lt hj), mirW, mirY_mirY hi, mirX_mirX hj, hm.px_eq (padCoord_lt hx) (padCoord_lt hy),
    pad_mirrorX hx hodd hj, pad_mirrorY hy hodd hi, mul_assoc]

/-- **C95** (exact arithmetic) gradient magnitudes commute with mirroring: `derivative_mask` with a symmetric smoothing
kernel and an antisymmetric difference kernel -/
theorem c95_derivative_mask (P : Profile) (N : RNum ℝ) (img : Image ℝ) (h : img.WF) (axis : Refl) (vert horz : List ℝ)
    (hch : img.info.channels = 1) (ha : img.info.alpha = false)
    (hodd : vert.length % 2 = 1) (heq : vert.length = horz.length)
    (hsym : ∀ i, i < vert.length → vert.getD (vert.length - 1 - i) 0 = vert.getD i 0)
    (hanti : ∀ i, i < vert.length → horz.getD (vert.length - 1 - i) 0 = - horz.getD i 0)
    (hw : img.info.width + vert.length ≤ 2147483648) (hh : img.info.height + vert.length ≤ 2147483648) :
    (derivativeMask P img vert horz >>= fun o => reflect P N o axis) =
      (reflect P N img axis >>= fun m => derivativeMask P m vert horz) := by
  obtain ⟨gx, gy, o, e1, e2, eo, ho⟩ := c54_derivative_mask_partial P img h vert horz hch ha hodd heq hw hh
  obtain ⟨m, em, hm⟩ := reflect_shows P N img h axis
  have mi := hm.info_eq
  obtain ⟨gx', gy', om, e1', e2', eom, hom⟩ := c54_derivative_mask_partial P m hm.WF vert horz (by rw [mi]; exact hch)
    (by rw [mi]; exact ha) hodd heq (by rw [mi]; exact hw) (by rw [mi]; exact hh)
  obtain ⟨mo, emo, hmo⟩ := reflect_shows P N o ho.WF axis
  rw [eo, ok_bind, emo, em, ok_bind, eom]
  rw [ho.info_eq] at hmo
  rw [mi] at hom
  refine congrArg Except.ok (Image.Shows.ext hmo (hom.congr fun x y hx hy => ?_))
  rw [ho.px_eq (mirX_lt hx) (mirY_lt hy)]
  have hA := separable_pad P img.info vert horz hodd heq hw hh
  have hB := separable_pad P img.info horz vert (by rw [← heq]; exact hodd) heq.symm (by rw [← heq]; exact hw) (by rw [← heq]; exact hh)
  rw [← heq] at hB
  have k1 : ∃ s : ℝ, s * s = 1 ∧ (gx'.px x y).getD 0 0 = s * (gx.px (mirX axis img.info.width x) (mirY axis img.info.height y)).getD 0 0 := by
    refine ⟨match axis with | .vertical => -1 | .horizontal => 1, by cases axis <;> norm_num,
      padSums_mirror_px h hodd _ hm hA hA (fun i j hi hj => ?_) e1 e1' hx hy (by omega)⟩
    cases axis with
    | vertical => show _ = -1 * (vert.getD i 0 * horz.getD (vert.length - 1 - j) 0); rw [hanti j hj]; ring
    | horizontal => show _ = 1 * (vert.getD (vert.length - 1 - i) 0 * horz.getD j 0); rw [hsym i hi]; ring
  have k2 : ∃ s : ℝ, s * s = 1 ∧ (gy'.px x y).getD 0 0 = s * (gy.px (mirX axis img.info.width x) (mirY axis img.info.height y)).getD 0 0 := by
    refine ⟨match axis with | .vertical => 1 | .horizontal => -1, by cases axis <;> norm_num,
      padSums_mirror_px h hodd _ hm hB hB (fun i j hi hj => ?_) e2 e2' hx hy (by omega)⟩
    cases axis with
    | vertical => show _ = 1 * (horz.getD i 0 * vert.getD (vert.length - 1 - j) 0); rw [hsym j hj]; ring
    | horizontal => show _ = -1 * (horz.getD (vert.length - 1 - i) 0 * vert.getD j 0); rw [hanti i hi]; ring
  obtain ⟨s, hs, k1⟩ := k1
  obtain ⟨t, ht, k2⟩ := k2
  refine congrArg (fun v : ℝ => [v]) ?_
  have n0 : (num 0 : ℝ) = 0 := by simp
  have n2 : (num 2 : ℝ) = ((2 : ℕ) : ℝ) := by simp
  rw [n0, k1, k2]
  simp only [n2, Ideal.pow_eq, Real.rpow_natCast]
  rw [mul_pow, mul_pow, pow_two s, pow_two t, hs, ht, one_mul, one_mul]

/-- **C95** (exact arithmetic) Sobel and Prewitt magnitudes commute with mirroring -/
theorem c95_sobel_prewitt (P : Profile) (N : RNum ℝ) (img : Image ℝ) (h : img.WF) (axis : Refl)
    (hch : img.info.channels = 1) (ha : img.info.alpha = false)
    (hw : img.info.width + 3 ≤ 2147483648) (hh : img.info.height + 3 ≤ 2147483648) (weight : Nat) :
    (sobel P img >>= fun o => reflect P N o axis) = (reflect P N img axis >>= fun m => sobel P m) ∧
    (prewitt P img >>= fun o => reflect P N o axis) = (reflect P N img axis >>= fun m => prewitt P m) ∧
    (sobelWeighted P img weight >>= fun o => reflect P N o axis) = (reflect P N img axis >>= fun m => sobelWeighted P m weight) := by
  have anti : ∀ i, i < 3 → (K_SOBEL_1D_HORZ (F := ℝ)).getD (3 - 1 - i) 0 = - (K_SOBEL_1D_HORZ (F := ℝ)).getD i 0 := by
    intro i hi
    interval_cases i <;> simp [K_SOBEL_1D_HORZ]
  refine ⟨c95_derivative_mask P N img h axis K_SOBEL_1D_VERT K_SOBEL_1D_HORZ hch ha rfl rfl ?_ anti hw hh,
    c95_derivative_mask P N img h axis K_PREWITT_1D_VERT K_PREWITT_1D_HORZ hch ha rfl rfl ?_ anti hw hh,
    c95_derivative_mask P N img h axis [num 1, ofNat weight, num 1] K_SOBEL_1D_HORZ hch ha (by simp) (by simp [K_SOBEL_1D_HORZ]) ?_ anti hw hh⟩ <;>
  · intro i hi
    have hi : i < 3 := hi
    interval_cases i <;> rfl

/-! ### Morphology -/

open Classical in
/-- two drawings of mirrored sets are mirror images -/
theorem draws_mirror (P : Profile) (N : RNum UInt8) {img : Image UInt8} (h : img.WF) (axis : Refl) (op : Image UInt8 → Res (Image UInt8))
    (H : Image UInt8 → Prop) (hH : H img) (Set' : Image UInt8 → Nat → Nat → Prop)
    (hop : ∀ a, H a → ∃ out, op a = .ok out ∧ out.Draws a.info (Set' a))
    (hm : ∀ m, m.Shows img.info (fun x y => img.px (mirX axis img.info.width x) (mirY axis img.info.height y)) → H m ∧
      ∀ x y, x < img.info.width → y < img.info.height →
        (Set' m x y ↔ Set' img (mirX axis img.info.width x) (mirY axis img.info.height y))) :
    (op img >>= fun o => reflect P N o axis) = (reflect P N img axis >>= op) := by
  obtain ⟨o, eo, ho⟩ := hop img hH
  obtain ⟨mo, emo, hmo⟩ := reflect_shows P N o ho.1 axis
  obtain ⟨m, em, hms⟩ := reflect_shows P N img h axis
  obtain ⟨hm1, hm2⟩ := hm m hms
  obtain ⟨om, eom, hom⟩ := hop m hm1
  rw [eo, ok_bind, emo, em, ok_bind, eom]
  have ho' : o.Shows img.info fun x y => [if Set' img x y then 255 else 0] := ho
  have hom' : om.Shows img.info fun x y => [if Set' m x y then 255 else 0] := by rw [← hms.info_eq]; exact hom
  rw [ho'.info_eq] at hmo
  refine congrArg Except.ok (Image.Shows.ext hmo (hom'.congr fun x y hx hy => ?_))
  rw [ho'.px_eq (mirX_lt hx) (mirY_lt hy)]
  exact congrArg (fun v => [v]) (if_congr (hm2 x y hx hy) rfl rfl)

theorem isWhite_mirror {img m : Image UInt8} {axis : Refl} (h : img.WF)
    (hm : m.Shows img.info fun x y => img.px (mirX axis img.info.width x) (mirY axis img.info.height y)) {x y : Nat}
    (hx : x < img.info.width) (hy : y < img.info.height) :
    IsWhite m x y ↔ IsWhite img (mirX axis img.info.width x) (mirY axis img.info.height y) := by
  unfold IsWhite
  have e := fun P => hm.2.2 P x y hx hy
  refine forall_congr' fun P => ?_
  rw [e P, Image.getPixel_eq P h (mirX_lt hx) (mirY_lt hy)]

/-- spec: `m` is the mirror image of `img` -/
def MirrorOf {T : Type} (axis : Refl) (img m : Image T) : Prop :=
  m.Shows img.info fun x y => img.px (mirX axis img.info.width x) (mirY axis img.info.height y)

theorem MirrorOf.symm {T : Type} {axis : Refl} {img m : Image T} (h : img.WF) (hm : MirrorOf axis img m) : MirrorOf axis m img := by
  unfold MirrorOf
  have hi := hm.info_eq
  rw [hi]
  refine h.shows.congr fun x y hx hy => ?_
  rw [Image.Shows.px_eq hm (mirX_lt hx) (mirY_lt hy), mirX_mirX hx, mirY_mirY hy]

theorem eroded_mirror {img m : Image UInt8} {axis : Refl} (h : img.WF) (hm : MirrorOf axis img m) {r x y : Nat}
    (hx : x < img.info.width) (hy : y < img.info.height) (he : Eroded m r x y) :
    Eroded img r (mirX axis img.info.width x) (mirY axis img.info.height y) := by
  intro i j hi hj
  rw [abs_le] at hi hj
  cases axis with
  | vertical =>
    simp only [mirX, mirY] at hi hj
    obtain ⟨a, b, e1, e2, hw⟩ := he ((img.info.width : Int) - 1 - i) j (by rw [abs_le]; omega) (by rw [abs_le]; omega)
    have hl := hw.lt
    rw [hm.info_eq] at hl
    have := (isWhite_mirror h hm hl.1 hl.2).1 hw
    simp only [mirX, mirY] at this
    exact ⟨_, _, by omega, e2, this⟩
  | horizontal =>
    simp only [mirX, mirY] at hi hj
    obtain ⟨a, b, e1, e2, hw⟩ := he i ((img.info.height : Int) - 1 - j) (by rw [abs_le]; omega) (by rw [abs_le]; omega)
    have hl := hw.lt
    rw [hm.info_eq] at hl
    have := (isWhite_mirror h hm hl.1 hl.2).1 hw
    simp only [mirX, mirY] at this
    exact ⟨_, _, e1, by omega, this⟩

theorem span_mirror {r n x : Nat} (hx : x < n) :
    spanLo r (n - 1 - x) = n - 1 - spanHi r n x ∧ spanHi r n (n - 1 - x) = n - 1 - spanLo r x ∧ spanHi r n x < n ∧ spanLo r x ≤ x := by
  unfold spanLo spanHi
  split_ifs <;> omega

theorem dilated_mirror {img m : Image UInt8} {axis : Refl} (h : img.WF) (hm : MirrorOf axis img m) {r x y : Nat}
    (hx : x < img.info.width) (hy : y < img.info.height) (he : CodeDilated m r x y) :
    CodeDilated img r (mirX axis img.info.width x) (mirY axis img.info.height y) := by
  obtain ⟨a, b, h1, h2, h3, h4, hw⟩ := he
  have hl := hw.lt
  rw [hm.info_eq] at hl h2 h4
  have hw' := (isWhite_mirror h hm hl.1 hl.2).1 hw
  have sx := span_mirror (r := r) hx
  have sy := span_mirror (r := r) hy
  cases axis with
  | vertical =>
    refine ⟨_, _, ?_, ?_, h3, h4, hw'⟩ <;> simp only [mirX] <;> omega
  | horizontal =>
    refine ⟨_, _, h1, h2, ?_, ?_, hw'⟩ <;> simp only [mirY] <;> omega

section
variable [Libm f32]

omit [Libm f32] in
theorem morphArgs_mirror {img m : Image UInt8} {axis : Refl} {r : Nat} (h : MorphArgs img r) (hm : MirrorOf axis img m) :
    MorphArgs m r := by
  have hi := hm.info_eq
  refine ⟨⟨hm.WF, by rw [hi]; exact h.binary.channels, by rw [hi]; exact h.binary.alpha, fun P x y hx hy => ?_⟩,
    by rw [hi]; exact h.width, by rw [hi]; exact h.height, by rw [hi]; exact h.small⟩
  rw [hi] at hx hy
  rw [hm.2.2 P x y hx hy]
  have := h.binary.value P _ _ (mirX_lt (axis := axis) hx) (mirY_lt (axis := axis) hy)
  rw [Image.getPixel_eq P h.binary.wf (mirX_lt hx) (mirY_lt hy)] at this
  exact this

/-- **C95** (IEEE f32) erosion commutes with mirroring -/
theorem c95_erode (P : Profile) (N : RNum UInt8) {img : Image UInt8} {r : Nat} (h : MorphArgs img r) (axis : Refl) :
    (erode F32 P img r >>= fun o => reflect P N o axis) = (reflect P N img axis >>= fun m => erode F32 P m r) :=
  draws_mirror P N h.binary.wf axis (fun a => erode F32 P a r) (MorphArgs · r) h (fun a => Eroded a r) (fun _ ha => ha.erode P)
    fun m hm => ⟨morphArgs_mirror h hm, fun x y hx hy => ⟨eroded_mirror h.binary.wf hm hx hy, fun he => by
      have hi := hm.info_eq
      have := eroded_mirror hm.WF (MirrorOf.symm h.binary.wf hm) (by rw [hi]; exact mirX_lt hx) (by rw [hi]; exact mirY_lt hy) he
      rwa [hi, mirX_mirX hx, mirY_mirY hy] at this⟩⟩

/-- **C95** (IEEE f32) dilation commutes with mirroring (also near the border, where the window the code uses is not the
documented one) -/
theorem c95_dilate (P : Profile) (N : RNum UInt8) {img : Image UInt8} {r : Nat} (h : MorphArgs img r) (axis : Refl) :
    (dilate F32 P img r >>= fun o => reflect P N o axis) = (reflect P N img axis >>= fun m => dilate F32 P m r) :=
  draws_mirror P N h.binary.wf axis (fun a => dilate F32 P a r) (MorphArgs · r) h (fun a => CodeDilated a r) (fun _ ha => ha.dilate P)
    fun m hm => ⟨morphArgs_mirror h hm, fun x y hx hy => ⟨dilated_mirror h.binary.wf hm hx hy, fun he => by
      have hi := hm.info_eq
      have := dilated_mirror hm.WF (MirrorOf.symm h.binary.wf hm) (by rw [hi]; exact mirX_lt hx) (by rw [hi]; exact mirY_lt hy) he
      rwa [hi, mirX_mirX hx, mirY_mirY hy] at this⟩⟩

/-- **C95** (IEEE f32) so do opening, closing and `majority` -/
theorem c95_open_close (P : Profile) (N : RNum UInt8) {img : Image UInt8} {r : Nat} (h : MorphArgs img r) (axis : Refl) :
    (morphOpen F32 P img r >>= fun o => reflect P N o axis) = (reflect P N img axis >>= fun m => morphOpen F32 P m r) ∧
    (morphClose F32 P img r >>= fun o => reflect P N o axis) = (reflect P N img axis >>= fun m => morphClose F32 P m r) ∧
    (majority F32 P img r >>= fun o => reflect P N o axis) = (reflect P N img axis >>= fun m => majority F32 P m r) := by
  obtain ⟨m, em, hm⟩ := reflect_shows P N img h.binary.wf axis
  refine ⟨?_, ?_, c95_dilate P N h axis⟩
  · obtain ⟨e, ee, he⟩ := h.erode P
    have h1 := c95_erode P N h axis
    have h2 := c95_dilate P N (h.draws he) axis
    rw [ee, ok_bind, em, ok_bind] at h1
    rw [h1] at h2
    unfold morphOpen
    rw [ee, ok_bind, em, ok_bind]
    exact h2
  · obtain ⟨d, ed, hd⟩ := h.dilate P
    have h1 := c95_dilate P N h axis
    have h2 := c95_erode P N (h.draws hd) axis
    rw [ed, ok_bind, em, ok_bind] at h1
    rw [h1] at h2
    unfold morphClose
    rw [ed, ok_bind, em, ok_bind]
    exact h2
end

/-! ### the median filter does not -/

/-- `fiveThree` upside down -/
def threeFive : Image UInt8 := ⟨⟨1, 2, 1, false⟩, [3, 5]⟩
theorem threeFive_input : MedianInput ℝ threeFive 0 :=
  medianInput_real ⟨by decide, by decide, by decide, by decide, by decide, rfl⟩ (by decide) (by decide) (by decide) (by decide) (by decide)

/-- **C95 is violated by the median filter**: filtering the column 5, 3 with radius 0 and turning it upside down gives 5, 5;
turning it upside down first gives 5, 3. -/
theorem c95_median_violated (P : Profile) :
    (medianFilter ℝ P fiveThree 0 >>= fun o => reflect P u8Num o .horizontal) ≠
      (reflect P u8Num fiveThree .horizontal >>= fun m => medianFilter ℝ P m 0) := by
  obtain ⟨-, -, hv⟩ := c56_violated
  obtain ⟨out, eo, ho⟩ := hv P
  obtain ⟨o', eo', hs⟩ := c56_exact ℝ P fiveThree_input
  rw [eo] at eo'
  obtain rfl : out = o' := by injection eo'
  obtain ⟨mo, emo, hmo⟩ := c65_reflect P u8Num out hs.WF .horizontal
  have em : reflect P u8Num fiveThree .horizontal = .ok threeFive := by cases P <;> decide +kernel
  obtain ⟨om, eom, hom⟩ := c56_exact ℝ P threeFive_input
  rw [eo, ok_bind, emo, em, ok_bind, eom]
  intro e
  obtain rfl : mo = om := by injection e
  have m0 : median (threeFive.window 0 0 0 0) = 3 := (median_rank_unique (by decide) (by decide) (by decide)).symm
  have hX : ∀ X, threeFive.window 0 0 X 0 = threeFive.window 0 0 0 0 := by
    intro X
    unfold Image.window
    simp only [show threeFive.info.width = 1 from rfl]
    have : ∀ o : Int, clampCoord 1 o = 0 := by intro o; unfold clampCoord; omega
    simp only [this]
  have h1 := hom.px_eq (x := 0) (y := 0) (by decide) (by decide)
  rw [hs.info_eq] at hmo
  have h2 := hmo.px_eq (x := 0) (y := 0) (by decide) (by decide)
  rw [Image.getPixel_eq P hs.WF (by rw [hs.info_eq]; decide) (by rw [hs.info_eq]; decide)] at ho
  have ho : out.px 0 1 = [5] := by injection ho
  dsimp only at h2
  rw [show out.px 0 (fiveThree.info.height - 1 - 0) = out.px 0 1 from rfl, ho] at h2
  rw [h2] at h1
  have h3 : [(5 : UInt8)] = [UInt8.ofNat (slidingMedian threeFive 0 0 (medianColumn threeFive.info.width (medianNCols ℝ 0) 0) 0)] := h1
  unfold slidingMedian at h3
  rw [hX, m0] at h3
  revert h3; decide

/-! ### concrete cases -/
example (P : Profile) (N : RNum ℝ) (a b c d e f : ℝ) (axis : Refl) :
    (sobel P (gray6 a b c d e f) >>= fun o => reflect P N o axis) = (reflect P N (gray6 a b c d e f) axis >>= fun m => sobel P m) :=
  (c95_sobel_prewitt P N (gray6 a b c d e f) (gray6_WF ..) axis rfl rfl (by show 3 + 3 ≤ _; omega) (by show 2 + 3 ≤ _; omega) 4).1
example [Libm f32] (P : Profile) : (dilate F32 P dotImg 1 >>= fun o => reflect P u8Num o .vertical) =
    (reflect P u8Num dotImg .vertical >>= fun m => dilate F32 P m 1) :=
  c95_dilate P u8Num ⟨dotImg_binary, by decide, by decide, by decide⟩ .vertical
example [Libm f32] (P : Profile) : CommutesWithGeometry P u8Num u8Num (fun i => saturation false P i (-40)) demoA :=
  (c95_colour P demoA demoA_WF ⟨⟨by decide, by decide⟩, rfl⟩ (-40) (by omega) (num 1) (by
    intro ho
    have h1 := num32 (n := 1) (by decide)
    unfold OutsideUnit at ho
    rcases FP.toQ?_cases h1 with e | ⟨e, h⟩ <;> rw [e] at ho
    · norm_num at ho
    · exact ho)).1
end Imgproc

import Verif.Proofs.SubImage
import Verif.Props.Image
/-! Properties C11, C12: sub-images and neighborhoods. Both documented behaviours are violated by
the code: the exact behaviour, a counterexample, and the largest clean true part are proved. -/
namespace Imgproc
variable {T : Type}

/-! ## C11 — sub-images

Full property: `get_subimage(x,y,w,h).get_pixel(i,j) = get_pixel(x+i, y+j)`. -/

/-- The property C11 for one rectangle. -/
def ShowsRectangle (img : Image T) (x y w h : Nat) : Prop :=
  ∀ P, ∃ s, img.getSubimage P x y w h = .ok s ∧ s.info = ⟨w, h, img.info.channels, img.info.alpha⟩ ∧
    ∀ i j, i < w → j < h → s.getPixel P i j = img.getPixel P (x + i) (y + j)

/-- **C11** what the code does for every rectangle inside the image: the pixels are stored column
by column but read row by row, so entry `(i, j)` is the `(j*w+i)`-th pixel in column-major order. -/
theorem c11_exact (P : Profile) (img : Image T) (hwf : img.WF) (x y w h : Nat)
    (hx : x < img.info.width) (hy : y < img.info.height) (hw : x + w ≤ img.info.width)
    (hh : y + h ≤ img.info.height) :
    ∃ s, img.getSubimage P x y w h = .ok s ∧ s.info = ⟨w, h, img.info.channels, img.info.alpha⟩ ∧
      ∀ i j, i < w → j < h →
        s.getPixel P i j = img.getPixel P (x + (j * w + i) / h) (y + (j * w + i) % h) := by
  refine ⟨_, getSubimage_eq P hwf hx hy hw hh, rfl, ?_⟩
  intro i j hi hj
  have hsz := hwf.size
  have hwh : w * h ≤ img.info.width * img.info.height := Nat.mul_le_mul (by omega) (by omega)
  have h0 := row_lt hi hj
  have hhpos : 0 < h := by omega
  have hd : (j * w + i) / h < w := by rw [Nat.div_lt_iff_lt_mul hhpos]; exact h0
  have hm : (j * w + i) % h < h := Nat.mod_lt _ hhpos
  rw [Image.getPixel_eq P hwf (by omega) (by omega)]
  apply SubImage.getPixel_eq P hi hj (by omega)
  have := flatMap_flatMap_getElem? (fun i j => img.px (x + i) (y + j)) hd hm
  rw [Nat.div_add_mod'] at this
  exact this

/-- **C11 (partial)** The documented behaviour holds for rectangles one pixel wide or one pixel
high. Missing: rectangles with both sides at least 2, where the code transposes (see `c11_violated`). -/
theorem c11_subimage_partial (img : Image T) (hwf : img.WF) (x y w h : Nat)
    (hx : x < img.info.width) (hy : y < img.info.height) (hw : x + w ≤ img.info.width)
    (hh : y + h ≤ img.info.height) (h1 : w = 1 ∨ h = 1) : ShowsRectangle img x y w h := by
  intro P
  obtain ⟨s, e, hi, hp⟩ := c11_exact P img hwf x y w h hx hy hw hh
  refine ⟨s, e, hi, fun i j hi hj => ?_⟩
  rw [hp i j hi hj]
  rcases h1 with rfl | rfl
  · rw [show i = 0 by omega, Nat.mul_one, Nat.add_zero, Nat.div_eq_of_lt hj, Nat.mod_eq_of_lt hj]
  · rw [show j = 0 by omega]; simp [Nat.mod_one]

example : ShowsRectangle demo 0 1 2 1 :=
  c11_subimage_partial demo demo_WF 0 1 2 1 (by decide) (by decide) (by decide) (by decide) (.inr rfl)

/-- **C11** counterexample: on a 2×2 image the full rectangle comes back transposed. -/
theorem c11_violated : demo.WF ∧ ¬ ShowsRectangle demo 0 0 2 2 := by
  refine ⟨demo_WF, fun h => ?_⟩
  obtain ⟨s, e, -, hp⟩ := h .debug
  have := hp 1 0 (by decide) (by decide)
  have e' : demo.getSubimage .debug 0 0 2 2 =
      .ok (SubImage.new 2 2 3 false [[1, 2, 3], [7, 8, 9], [4, 5, 6], [10, 11, 12]]) := rfl
  rw [e'] at e
  injection e with e
  subst e
  exact absurd this (by decide)

/-! ## C12 — neighborhoods

Full property: coordinates outside the image are replaced by the nearest edge coordinate. -/

/-- nearest coordinate inside `0..n` -/
def clampCoord (n : Nat) (o : Int) : Nat := (max 0 (min o ((n : Int) - 1))).toNat

/-- The property C12 for a square neighborhood. -/
def ClampPadded2d (img : Image T) (x y size : Nat) : Prop :=
  ∀ P, ∃ s, img.getNeighborhood2d P x y size = .ok s ∧ s.data.length = size * size ∧
    ∀ i j, i < size → j < size → s.getPixel P j i =
      img.getPixel P (clampCoord img.info.width ((x : Int) - (size / 2 : Nat) + j))
        (clampCoord img.info.height ((y : Int) - (size / 2 : Nat) + i))

/-- The property C12 for a row (`isVert = false`) or column neighborhood. -/
def ClampPadded1d (img : Image T) (x y size : Nat) (isVert : Bool) : Prop :=
  ∀ P, ∃ s, img.getNeighborhood1d P x y size isVert = .ok s ∧ s.data.length = size ∧
    ∀ k, k < size → (if isVert then s.getPixel P 0 k else s.getPixel P k 0) =
      if isVert then img.getPixel P x (clampCoord img.info.height ((y : Int) - (size / 2 : Nat) + k))
      else img.getPixel P (clampCoord img.info.width ((x : Int) - (size / 2 : Nat) + k)) y

/-- **C12** what the code does for every size: entry at offset `o` from the centre coordinate `c`
reads coordinate `o` if that lies inside the image and otherwise the centre coordinate `c` itself. -/
theorem c12_exact_2d (P : Profile) (img : Image T) (hwf : img.WF) (x y size : Nat)
    (hx : x < img.info.width) (hy : y < img.info.height) (hw : img.info.width + size ≤ 2147483648)
    (hh : img.info.height + size ≤ 2147483648) (hs : 0 < size) (hs2 : size * size < U32SIZE) :
    ∃ s, img.getNeighborhood2d P x y size = .ok s ∧ s.data.length = size * size ∧
      ∀ i j, i < size → j < size → ∃ cx cy, s.getPixel P j i = img.getPixel P cx cy ∧
        (((x : Int) - (size / 2 : Nat) + j = cx) ∨
          (((x : Int) - (size / 2 : Nat) + j < 0 ∨
            (img.info.width : Int) ≤ (x : Int) - (size / 2 : Nat) + j) ∧ cx = x)) ∧
        (((y : Int) - (size / 2 : Nat) + i = cy) ∨
          (((y : Int) - (size / 2 : Nat) + i < 0 ∨
            (img.info.height : Int) ≤ (y : Int) - (size / 2 : Nat) + i) ∧ cy = y)) := by
  refine ⟨_, getNeighborhood2d_eq P hwf hx hy hw (by omega) hh (by omega), ?_, ?_⟩
  · exact flatMap_range_length _ size _ (fun i _ => by rw [← List.map_eq_flatMap]; simp)
  intro i j hi hj
  refine ⟨codeCoord img.info.width x size j, codeCoord img.info.height y size i, ?_, ?_, ?_⟩
  · rw [Image.getPixel_eq P hwf (codeCoord_lt hx) (codeCoord_lt hy)]
    apply SubImage.getPixel_eq P hj hi hs2
    exact flatMap_flatMap_getElem? (fun i j => img.px (codeCoord img.info.width x size j)
      (codeCoord img.info.height y size i)) hi hj
  · unfold codeCoord; simp only; split <;> omega
  · unfold codeCoord; simp only; split <;> omega

/-- On windows of side at most 3, or that do not leave the image, centre replacement is clamping. -/
theorem codeCoord_eq_clamp {n c size k : Nat} (hc : c < n) (hk : k < size)
    (h : size ≤ 3 ∨ (size / 2 ≤ c ∧ c + (size - 1 - size / 2) < n)) :
    codeCoord n c size k = clampCoord n ((c : Int) - (size / 2 : Nat) + k) := by
  unfold codeCoord clampCoord
  simp only
  split <;> omega

/-- **C12 (partial)** Clamp padding holds for neighborhoods of size at most 3 and for windows that
do not leave the image. Missing: larger windows at the border (see `c12_violated`), and coordinates
so large that i32 arithmetic overflows (width + size > 2^31). -/
theorem c12_neighborhood_partial (img : Image T) (hwf : img.WF) (x y size : Nat)
    (hx : x < img.info.width) (hy : y < img.info.height) (hw : img.info.width + size ≤ 2147483648)
    (hh : img.info.height + size ≤ 2147483648) (hs : 0 < size) (hs2 : size * size < U32SIZE)
    (hin : size ≤ 3 ∨ (size / 2 ≤ x ∧ x + (size - 1 - size / 2) < img.info.width ∧
      size / 2 ≤ y ∧ y + (size - 1 - size / 2) < img.info.height)) :
    ClampPadded2d img x y size ∧ ClampPadded1d img x y size true ∧ ClampPadded1d img x y size false := by
  have hcx : ∀ k < size, codeCoord img.info.width x size k =
      clampCoord img.info.width ((x : Int) - (size / 2 : Nat) + k) :=
    fun k hk => codeCoord_eq_clamp hx hk (hin.imp id (fun h => ⟨h.1, h.2.1⟩))
  have hcy : ∀ k < size, codeCoord img.info.height y size k =
      clampCoord img.info.height ((y : Int) - (size / 2 : Nat) + k) :=
    fun k hk => codeCoord_eq_clamp hy hk (hin.imp id (fun h => ⟨h.2.2.1, h.2.2.2⟩))
  refine ⟨fun P => ⟨_, getNeighborhood2d_eq P hwf hx hy hw (by omega) hh (by omega), ?_, ?_⟩,
    fun P => ⟨_, getNeighborhood1d_vert P hwf hx hy hh (by omega), ?_, ?_⟩,
    fun P => ⟨_, getNeighborhood1d_horiz P hwf hx hy hw (by omega), ?_, ?_⟩⟩
  · exact flatMap_range_length _ size _ (fun i _ => by rw [← List.map_eq_flatMap]; simp)
  · intro i j hi hj
    rw [← hcx j hj, ← hcy i hi, Image.getPixel_eq P hwf (codeCoord_lt hx) (codeCoord_lt hy)]
    apply SubImage.getPixel_eq P hj hi hs2
    exact flatMap_flatMap_getElem? (fun i j => img.px (codeCoord img.info.width x size j)
      (codeCoord img.info.height y size i)) hi hj
  · show (List.flatMap _ _).length = size
    rw [← List.map_eq_flatMap]; simp
  · intro k hk
    simp only [if_true]
    rw [← hcy k hk, Image.getPixel_eq P hwf hx (codeCoord_lt hy)]
    apply SubImage.getPixel_eq P (by omega) hk (by omega)
    rw [Nat.mul_one, Nat.add_zero]
    exact flatMap_single_getElem? (fun k => img.px x (codeCoord img.info.height y size k)) hk
  · show (List.flatMap _ _).length = size
    rw [← List.map_eq_flatMap]; simp
  · intro k hk
    simp only [Bool.false_eq_true, if_false]
    rw [← hcx k hk, Image.getPixel_eq P hwf (codeCoord_lt hx) hy]
    apply SubImage.getPixel_eq P hk (by omega) (by omega)
    rw [Nat.zero_mul, Nat.zero_add]
    exact flatMap_single_getElem? (fun k => img.px (codeCoord img.info.width x size k) y) hk

example : ClampPadded2d demo 0 1 3 :=
  (c12_neighborhood_partial demo demo_WF 0 1 3 (by decide) (by decide) (by decide) (by decide)
    (by decide) (by decide) (.inl (by decide))).1

/-- **C12** counterexample: in a row 10 20 30, the size-5 window at x = 1 reads its first and last
entries from the centre (20) instead of the edges (10 and 30). -/
theorem c12_violated :
    ¬ ClampPadded1d (Image.fromVec 3 1 1 false [(10 : UInt8), 20, 30]) 1 0 5 false := by
  intro h
  obtain ⟨s, e, -, hp⟩ := h .debug
  have e' : (Image.fromVec 3 1 1 false [(10 : UInt8), 20, 30]).getNeighborhood1d .debug 1 0 5 false =
      .ok (SubImage.new 5 1 1 false [[20], [10], [20], [30], [20]]) := rfl
  rw [e'] at e
  injection e with e
  subst e
  exact absurd (hp 0 (by decide)) (by decide)

end Imgproc

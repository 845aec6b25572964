import Verif.Proofs.ImageOps
/-! Equations for sub-images and neighborhoods. -/
namespace Imgproc
variable {T : Type}

theorem SubImage.getPixel_eq (P : Profile) {w h c : Nat} {al : Bool} {d : List (List T)} {x y : Nat}
    (hx : x < w) (hy : y < h) (hs : w * h < U32SIZE) {p : List T} (hp : d[y * w + x]? = some p) :
    (SubImage.new w h c al d).getPixel P x y = .ok p := by
  have h0 := row_lt hx hy
  unfold SubImage.getPixel SubImage.new
  simp only
  rw [checkXY_ok hx hy, ok_bind, u32Mul_ok (by omega), ok_bind, u32Add_ok (by omega), ok_bind]
  exact idx_some hp

theorem flatMap_single_getElem? {S} (B : Nat → S) {n i : Nat} (hi : i < n) :
    ((List.range n).flatMap (fun i => [B i]))[i]? = some (B i) := by
  rw [← List.map_eq_flatMap, List.getElem?_map, List.getElem?_range hi]; rfl

theorem flatMap_flatMap_getElem? {S} (B : Nat → Nat → S) {n m i j : Nat} (hi : i < n) (hj : j < m) :
    ((List.range n).flatMap (fun i => (List.range m).flatMap (fun j => [B i j])))[i * m + j]? =
      some (B i j) := by
  have hlen : ∀ i < n, ((List.range m).flatMap (fun j => [B i j])).length = m := by
    intro i _; rw [← List.map_eq_flatMap]; simp
  have := chunk_flatMap_range _ m n hlen i hi
  have := congrArg (fun l => l[j]?) this
  simp only [chunk_getElem? _ _ _ _ hj] at this
  rw [this, flatMap_single_getElem? _ hj]

theorem getSubimage_eq (P : Profile) {img : Image T} (hwf : img.WF) {x y w h : Nat}
    (hx : x < img.info.width) (hy : y < img.info.height) (hw : x + w ≤ img.info.width)
    (hh : y + h ≤ img.info.height) :
    img.getSubimage P x y w h = .ok (SubImage.new w h img.info.channels img.info.alpha
      ((List.range w).flatMap fun i => (List.range h).flatMap fun j => [img.px (x + i) (y + j)])) := by
  have h1 := hwf.width
  have h2 := hwf.height
  unfold Image.getSubimage
  rw [checkXY_ok hx hy, ok_bind, u32Add_ok (by omega), ok_bind]
  have inner : ∀ i acc, x ≤ i → i < x + w →
      (do
        let ye ← u32Add P y h
        forRange y ye acc fun j data => do
          let p ← img.getPixel P i j
          (.ok (data ++ [p]) : Res (List (List T)))) =
        .ok (acc ++ (List.range h).flatMap fun j => [img.px i (y + j)]) := by
    intro i acc hi1 hi2
    rw [u32Add_ok (by omega), ok_bind, forRange_collect acc _ (fun j => [img.px i j]) _ (by omega)]
    · simp
    · intro j acc hj1 hj2
      rw [Image.getPixel_eq P hwf (by omega) (by omega), ok_bind]
  rw [forRange_collect [] _ _ inner (by omega), ok_bind]
  simp

/-- the coordinate the neighborhood functions actually read (as a mathematical formula) -/
def codeCoord (n c size k : Nat) : Nat :=
  let o : Int := (c : Int) - (size / 2 : Nat) + k
  if 0 ≤ o ∧ o < n then o.toNat else c

theorem codeCoord_lt {n c size k : Nat} (hc : c < n) : codeCoord n c size k < n := by
  unfold codeCoord; simp only; split <;> omega

theorem neighborStart_eq (P : Profile) {x size : Nat} (hx : x < 2147483648) (hs : size < 2147483648) :
    Image.neighborStart P x size = .ok ((x : Int) - (size / 2 : Nat)) := by
  unfold Image.neighborStart
  rw [toI32_of_lt hx, toI32_of_lt hs]
  have : i32Div (size : Int) 2 = .ok ((size / 2 : Nat) : Int) := by
    unfold i32Div
    rw [if_neg (by decide), if_neg (by omega), Int.tdiv_eq_ediv_of_nonneg (by omega)]
    simp
  rw [this, ok_bind, i32Sub_ok (by omega) (by omega)]

theorem neighborCoord_eq (P : Profile) {n c size k : Nat} (hc : c < n) (hn : n + size ≤ 2147483648)
    (hn1 : n < 2147483648)
    (hk : k < size) :
    Image.neighborCoord P ((c : Int) - (size / 2 : Nat)) k n c = .ok (codeCoord n c size k) := by
  unfold Image.neighborCoord
  rw [toI32_of_lt (by omega : k < 2147483648), toI32_of_lt (by omega : n < 2147483648),
    toI32_of_lt (by omega : c < 2147483648), i32Add_ok (by omega) (by omega), ok_bind]
  simp only
  congr 1
  unfold codeCoord
  simp only
  by_cases ho : (0 : Int) ≤ (c : Int) - (size / 2 : Nat) + k ∧ (c : Int) - (size / 2 : Nat) + k < n
  · rw [if_neg (by omega), if_pos ho, i32ToU32_of_nonneg (by omega) (by omega)]
  · rw [if_pos (by omega), if_neg ho, i32ToU32_natCast (by omega)]

theorem getNeighborhood1d_vert (P : Profile) {img : Image T} (hwf : img.WF) {x y size : Nat}
    (hx : x < img.info.width) (hy : y < img.info.height)
    (hb : img.info.height + size ≤ 2147483648) (hb1 : img.info.height < 2147483648) :
    img.getNeighborhood1d P x y size true = .ok (SubImage.new 1 size img.info.channels img.info.alpha
      ((List.range size).flatMap fun k => [img.px x (codeCoord img.info.height y size k)])) := by
  unfold Image.getNeighborhood1d
  rw [checkXY_ok hx hy, ok_bind]
  simp only [if_true]
  rw [neighborStart_eq P (by omega) (by omega), ok_bind]
  rw [forRange_collect0 _ (fun k => [img.px x (codeCoord img.info.height y size k)])]
  · rfl
  · intro i acc hi
    rw [neighborCoord_eq P hy hb hb1 hi, ok_bind, Image.getPixel_eq P hwf hx (codeCoord_lt hy), ok_bind]

theorem getNeighborhood1d_horiz (P : Profile) {img : Image T} (hwf : img.WF) {x y size : Nat}
    (hx : x < img.info.width) (hy : y < img.info.height)
    (hb : img.info.width + size ≤ 2147483648) (hb1 : img.info.width < 2147483648) :
    img.getNeighborhood1d P x y size false = .ok (SubImage.new size 1 img.info.channels img.info.alpha
      ((List.range size).flatMap fun k => [img.px (codeCoord img.info.width x size k) y])) := by
  unfold Image.getNeighborhood1d
  rw [checkXY_ok hx hy, ok_bind]
  simp only [Bool.false_eq_true, if_false]
  rw [neighborStart_eq P (by omega) (by omega), ok_bind]
  rw [forRange_collect0 _ (fun k => [img.px (codeCoord img.info.width x size k) y])]
  · rfl
  · intro i acc hi
    rw [neighborCoord_eq P hx hb hb1 hi, ok_bind, Image.getPixel_eq P hwf (codeCoord_lt hx) hy, ok_bind]

theorem getNeighborhood2d_eq (P : Profile) {img : Image T} (hwf : img.WF) {x y size : Nat}
    (hx : x < img.info.width) (hy : y < img.info.height)
    (hb : img.info.width + size ≤ 2147483648) (hb1 : img.info.width < 2147483648)
    (hc : img.info.height + size ≤ 2147483648) (hc1 : img.info.height < 2147483648) :
    img.getNeighborhood2d P x y size = .ok (SubImage.new size size img.info.channels img.info.alpha
      ((List.range size).flatMap fun i => (List.range size).flatMap fun j =>
        [img.px (codeCoord img.info.width x size j) (codeCoord img.info.height y size i)])) := by
  unfold Image.getNeighborhood2d
  rw [checkXY_ok hx hy, ok_bind, neighborStart_eq P (by omega) (by omega), ok_bind,
    neighborStart_eq P (by omega) (by omega), ok_bind]
  have inner : ∀ i acc, i < size →
      (forRange 0 size acc fun j data => do
        let cx ← Image.neighborCoord P ((x : Int) - (size / 2 : Nat)) j img.info.width x
        let cy ← Image.neighborCoord P ((y : Int) - (size / 2 : Nat)) i img.info.height y
        let p ← img.getPixel P cx cy
        (.ok (data ++ [p]) : Res (List (List T)))) =
      .ok (acc ++ (List.range size).flatMap fun j =>
        [img.px (codeCoord img.info.width x size j) (codeCoord img.info.height y size i)]) := by
    intro i acc hi
    rw [forRange_collect acc _ (fun j =>
      [img.px (codeCoord img.info.width x size j) (codeCoord img.info.height y size i)]) _ (by omega)]
    · simp
    · intro j acc _ hj
      rw [neighborCoord_eq P hx hb hb1 hj, ok_bind, neighborCoord_eq P hy hc hc1 hi, ok_bind,
        Image.getPixel_eq P hwf (codeCoord_lt hx) (codeCoord_lt hy), ok_bind]
  rw [forRange_collect0 _ _ inner, ok_bind]

end Imgproc

import Verif.Spec.Demo
import Verif.Proofs.SubImage
import Verif.Proofs.Fill
import Verif.Proofs.Sqrt
import Verif.Props.Util
import Verif.Props.Image
import Verif.Model.Filter
/-! Property C47: linear filters compute the padded correlation. -/
namespace Imgproc
open FloatOps
section
variable {F : Type} [FloatOps F]

/-- spec: the coordinate used at signed position `o` when filtering around `c` along a side of length
`n`: `o` itself when it lies in the image, the centre `c` otherwise (see C12) -/
def padCoord (n c : Nat) (o : Int) : Nat := if 0 ≤ o ∧ o < n then o.toNat else c

/-- spec: the `size` pixels above/below (`isVert`) or left/right of `(x, y)`, padded -/
def window1d {T} (img : Image T) (x y size : Nat) (isVert : Bool) : List (List T) :=
  (List.range size).map fun (k : Nat) =>
    if isVert then img.px x (padCoord img.info.height y ((y : Int) - (size / 2 : Nat) + k))
    else img.px (padCoord img.info.width x ((x : Int) - (size / 2 : Nat) + k)) y

/-- spec: the `size x size` pixels around `(x, y)`, row by row, padded -/
def window2d {T} (img : Image T) (x y size : Nat) : List (List T) :=
  (List.range size).flatMap fun (i : Nat) => (List.range size).map fun (j : Nat) =>
    img.px (padCoord img.info.width x ((x : Int) - (size / 2 : Nat) + j))
      (padCoord img.info.height y ((y : Int) - (size / 2 : Nat) + i))

theorem codeCoord_pad (n c size k : Nat) : codeCoord n c size k = padCoord n c ((c : Int) - (size / 2 : Nat) + k) := rfl

theorem padCoord_lt {n c : Nat} {o : Int} (h : c < n) : padCoord n c o < n := by
  unfold padCoord; split <;> omega

theorem window1d_length {T} (img : Image T) (x y size : Nat) (v : Bool) : (window1d img x y size v).length = size := by
  simp [window1d]
theorem window2d_length {T} (img : Image T) (x y size : Nat) : (window2d img x y size).length = size * size :=
  flatMap_range_length _ size _ (fun i _ => by simp)

theorem window1d_pixels {T} {img : Image T} (h : img.WF) {x y size : Nat} {v : Bool} (hx : x < img.info.width)
    (hy : y < img.info.height) : ∀ p ∈ window1d img x y size v, p.length = img.info.channels := by
  intro p hp
  unfold window1d at hp
  obtain ⟨k, -, rfl⟩ := List.mem_map.1 hp
  cases v
  · exact Image.px_length h (padCoord_lt hx) hy
  · exact Image.px_length h hx (padCoord_lt hy)

theorem window2d_pixels {T} {img : Image T} (h : img.WF) {x y size : Nat} (hx : x < img.info.width)
    (hy : y < img.info.height) : ∀ p ∈ window2d img x y size, p.length = img.info.channels := by
  intro p hp
  unfold window2d at hp
  obtain ⟨i, -, hp⟩ := List.mem_flatMap.1 hp
  obtain ⟨j, -, rfl⟩ := List.mem_map.1 hp
  exact Image.px_length h (padCoord_lt hx) (padCoord_lt hy)

theorem getNeighborhood1d_window {T} (P : Profile) {img : Image T} (h : img.WF) {x y size : Nat} (v : Bool)
    (hx : x < img.info.width) (hy : y < img.info.height)
    (hw : img.info.width + size ≤ 2147483648) (hh : img.info.height + size ≤ 2147483648) (hs : 0 < size) :
    img.getNeighborhood1d P x y size v = .ok (SubImage.new (if v then 1 else size) (if v then size else 1)
      img.info.channels img.info.alpha (window1d img x y size v)) := by
  cases v
  · rw [getNeighborhood1d_horiz P h hx hy hw (by omega)]
    simp only [Bool.false_eq_true, if_false]
    rw [← List.map_eq_flatMap]; rfl
  · rw [getNeighborhood1d_vert P h hx hy hh (by omega)]
    simp only [if_true]
    rw [← List.map_eq_flatMap]; rfl

theorem getNeighborhood2d_window {T} (P : Profile) {img : Image T} (h : img.WF) {x y size : Nat}
    (hx : x < img.info.width) (hy : y < img.info.height)
    (hw : img.info.width + size ≤ 2147483648) (hh : img.info.height + size ≤ 2147483648) (hs : 0 < size) :
    img.getNeighborhood2d P x y size = .ok (SubImage.new size size img.info.channels img.info.alpha
      (window2d img x y size)) := by
  rw [getNeighborhood2d_eq P h hx hy hw (by omega) hh (by omega)]
  congr 2
  unfold window2d
  apply flatMap_congr'
  intro i _
  rw [← List.map_eq_flatMap]; rfl

/-- one output pixel of `filter_1d` -/
theorem filter1d_pixel (P : Profile) {img : Image F} (h : img.WF) {x y : Nat} {kernel : List F} (v : Bool)
    (hx : x < img.info.width) (hy : y < img.info.height) (hodd : kernel.length % 2 = 1)
    (hw : img.info.width + kernel.length ≤ 2147483648) (hh : img.info.height + kernel.length ≤ 2147483648) :
    (do
      let nb ← img.getNeighborhood1d P x y (usizeToU32 kernel.length) v
      apply1dKernel P nb kernel) =
    .ok ((List.range img.info.channels).map (kernelResponse kernel (window1d img x y kernel.length v))) := by
  rw [show usizeToU32 kernel.length = kernel.length from Nat.mod_eq_of_lt (by omega),
    getNeighborhood1d_window P h v hx hy hw hh (by omega), ok_bind]
  have hs : (SubImage.new (if v then 1 else kernel.length) (if v then kernel.length else 1) img.info.channels
      img.info.alpha (window1d img x y kernel.length v)).WF := by
    refine ⟨?_, ?_, ?_, fun p hp => window1d_pixels h hx hy p hp⟩
    · show (if v then 1 else kernel.length) * (if v then kernel.length else 1) < _
      cases v <;> simp <;> omega
    · show (if v then 1 else kernel.length) < _
      cases v <;> simp; omega
    · show _ = (if v then 1 else kernel.length) * (if v then kernel.length else 1)
      rw [show (SubImage.new _ _ _ _ (window1d img x y kernel.length v)).data = window1d img x y kernel.length v from rfl,
        window1d_length]
      cases v <;> simp
  exact (c45_apply_1d P _ hs kernel [] hodd (by
    show _ = (if v then 1 else kernel.length) * (if v then kernel.length else 1)
    cases v <;> simp)).2

/-- one output pixel of `unseparable_filter` -/
theorem filter2d_pixel (P : Profile) {img : Image F} (h : img.WF) {x y n : Nat} {kernel : List F}
    (hx : x < img.info.width) (hy : y < img.info.height) (hodd : n % 2 = 1) (hk : kernel.length = n * n)
    (hn : n < 65536) (hw : img.info.width + n ≤ 2147483648) (hh : img.info.height + n ≤ 2147483648) :
    (do
      let nb ← img.getNeighborhood2d P x y n
      apply2dKernel P nb kernel) =
    .ok ((List.range img.info.channels).map (kernelResponse kernel (window2d img x y n))) := by
  rw [getNeighborhood2d_window P h hx hy hw hh (by omega), ok_bind]
  have hs : (SubImage.new n n img.info.channels img.info.alpha (window2d img x y n)).WF := by
    refine ⟨?_, ?_, ?_, fun p hp => window2d_pixels h hx hy p hp⟩
    · show n * n < _
      have : n * n ≤ 65535 * 65535 := Nat.mul_le_mul (by omega) (by omega)
      omega
    · show n < _; omega
    · exact window2d_length img x y n
  exact (c45_apply_2d P _ hs rfl kernel [] (by rw [hk, Nat.mul_mod, hodd]) hk).2

/-- **C47** `filter_1d` with an odd kernel: the output has the input's info and every channel is the
left-to-right dot product of the kernel with the padded 1-d window. -/
theorem c47_filter_1d_partial (P : Profile) (img : Image F) (h : img.WF) (kernel : List F) (isVert : Bool)
    (hodd : kernel.length % 2 = 1)
    (hw : img.info.width + kernel.length ≤ 2147483648) (hh : img.info.height + kernel.length ≤ 2147483648) :
    ∃ out, filter1d P img kernel isVert = .ok out ∧ out.Shows img.info fun x y =>
      (List.range img.info.channels).map (kernelResponse kernel (window1d img x y kernel.length isVert)) := by
  unfold filter1d
  rw [checkOdd_usize_ok hodd, ok_bind]
  obtain ⟨b, out, e1, -, e2, hs⟩ := Image.fillAll_set P (FloatOps.rnum (F := F)) h.infoWF
    (fun x y => (List.range img.info.channels).map (kernelResponse kernel (window1d img x y kernel.length isVert)))
    (fun x y _ _ => by simp)
    (fun y x => do
      let nb ← img.getNeighborhood1d P x y (usizeToU32 kernel.length) isVert
      apply1dKernel P nb kernel)
    (fun x y hx hy => filter1d_pixel P h isVert hx hy hodd hw hh)
  rw [e1, ok_bind]
  refine ⟨out, ?_, hs⟩
  rw [← e2]
  simp only [bind_assoc]

-- a 3x2 image and a kernel of three entries, vertically
example (P : Profile) (a b c d e f : F) : ∃ out, filter1d P (gray6 a b c d e f) [num 1, num 2, num 1] true = .ok out := by
  obtain ⟨out, h, -⟩ := c47_filter_1d_partial P (gray6 a b c d e f) (gray6_WF ..) [num 1, num 2, num 1] true (by dims)
    (by dims) (by dims)
  exact ⟨out, h⟩

/-- **C47** an even-length kernel is rejected, for every image -/
theorem c47_filter_1d_even (P : Profile) (img : Image F) (kernel : List F) (isVert : Bool)
    (heven : kernel.length % 2 = 0) : Res.InvalidArg (filter1d P img kernel isVert) := by
  unfold filter1d
  rw [checkOdd_usize_err (by omega)]; rfl

example (P : Profile) (a b c d e f : F) : Res.InvalidArg (filter1d P (gray6 a b c d e f) [num 1, num 1] false) :=
  c47_filter_1d_even P _ _ _ (by dims)

/-- **C47** `separable_filter`: the vertical correlation followed by the horizontal one. -/
theorem c47_separable_partial (P : Profile) (img : Image F) (h : img.WF) (vert horz : List F)
    (hodd : vert.length % 2 = 1) (heq : vert.length = horz.length)
    (hw : img.info.width + vert.length ≤ 2147483648) (hh : img.info.height + vert.length ≤ 2147483648) :
    ∃ mid out, separableFilter P img vert horz = .ok out ∧
      mid.Shows img.info (fun x y =>
        (List.range img.info.channels).map (kernelResponse vert (window1d img x y vert.length true))) ∧
      out.Shows img.info (fun x y =>
        (List.range img.info.channels).map (kernelResponse horz (window1d mid x y horz.length false))) := by
  unfold separableFilter
  rw [checkOdd_usize_ok hodd, ok_bind, checkOdd_usize_ok (by omega), ok_bind, checkEqual_ok heq, ok_bind]
  obtain ⟨mid, e1, s1⟩ := c47_filter_1d_partial P img h vert true hodd hw hh
  obtain ⟨out, e2, s2⟩ := c47_filter_1d_partial P mid s1.WF horz false (by omega)
    (by rw [s1.info_eq]; omega) (by rw [s1.info_eq]; omega)
  rw [s1.info_eq] at s2
  exact ⟨mid, out, by rw [e1, ok_bind, e2], s1, s2⟩

example (P : Profile) (a b c d e f : F) : ∃ out,
    separableFilter P (gray6 a b c d e f) [num 1, num 2, num 1] [num (-1), num 0, num 1] = .ok out := by
  obtain ⟨-, out, h, -⟩ := c47_separable_partial P (gray6 a b c d e f) (gray6_WF ..) [num 1, num 2, num 1]
    [num (-1), num 0, num 1] (by dims) (by dims) (by dims) (by dims)
  exact ⟨out, h⟩

/-- **C47** `separable_filter` rejects even or unequal kernel lengths, for every image -/
theorem c47_separable_err (P : Profile) (img : Image F) (vert horz : List F)
    (hbad : vert.length % 2 = 0 ∨ horz.length % 2 = 0 ∨ vert.length ≠ horz.length) :
    Res.InvalidArg (separableFilter P img vert horz) := by
  unfold separableFilter
  by_cases h1 : vert.length % 2 = 1
  · rw [checkOdd_usize_ok h1, ok_bind]
    by_cases h2 : horz.length % 2 = 1
    · rw [checkOdd_usize_ok h2, ok_bind, checkEqual_err (by omega)]; rfl
    · rw [checkOdd_usize_err h2]; rfl
  · rw [checkOdd_usize_err h1]; rfl

example (P : Profile) (a b c d e f : F) :
    Res.InvalidArg (separableFilter P (gray6 a b c d e f) [num 1, num 2, num 1] [num 1]) :=
  c47_separable_err P _ _ _ (.inr (.inr (by dims)))

/-- **C47** `unseparable_filter` rejects even kernel lengths -/
theorem c47_unseparable_even (P : Profile) (img : Image F) (kernel : List F) (heven : kernel.length % 2 = 0) :
    Res.InvalidArg (unseparableFilter P img kernel) := by
  unfold unseparableFilter
  rw [checkOdd_usize_err (by omega)]; rfl

/-- `unseparable_filter` given that the float square root behaves for this kernel length -/
theorem unseparable_of_sqrt (P : Profile) (img : Image F) (h : img.WF) (kernel : List F) (n : Nat)
    (hodd : n % 2 = 1) (hk : kernel.length = n * n) (hn : n < 65536)
    (hsq : checkSquare (ofNat (F := F) (n * n)) = .ok ()) (hroot : toU32 (FloatOps.sqrt (ofNat (F := F) (n * n))) = n)
    (hw : img.info.width + n ≤ 2147483648) (hh : img.info.height + n ≤ 2147483648) :
    ∃ out, unseparableFilter P img kernel = .ok out ∧ out.Shows img.info fun x y =>
      (List.range img.info.channels).map (kernelResponse kernel (window2d img x y n)) := by
  unfold unseparableFilter
  have ho : kernel.length % 2 = 1 := by rw [hk, Nat.mul_mod, hodd]
  rw [checkOdd_usize_ok ho, ok_bind, hk, hsq, ok_bind, hroot]
  obtain ⟨b, out, e1, -, e2, hs⟩ := Image.fillAll_set P (FloatOps.rnum (F := F)) h.infoWF
    (fun x y => (List.range img.info.channels).map (kernelResponse kernel (window2d img x y n)))
    (fun x y _ _ => by simp)
    (fun y x => do
      let nb ← img.getNeighborhood2d P x y n
      apply2dKernel P nb kernel)
    (fun x y hx hy => filter2d_pixel P h hx hy hodd hk hn hw hh)
  dsimp only
  rw [e1, ok_bind]
  refine ⟨out, ?_, hs⟩
  rw [← e2]
  simp only [bind_assoc]
end

section
variable [Libm f32]

/-- **C47** `unseparable_filter` (IEEE f32) with an odd square kernel of side at most 4095: the output
has the input's info and every channel is the dot product with the padded square window. (Larger sides: `c47_unseparable_large_partial` in Filter6.) -/
theorem c47_unseparable_small (P : Profile) (img : Image F32) (h : img.WF) (kernel : List F32) (n : Nat)
    (hodd : n % 2 = 1) (hk : kernel.length = n * n) (hn : n ≤ 4095)
    (hw : img.info.width + n ≤ 2147483648) (hh : img.info.height + n ≤ 2147483648) :
    ∃ out, unseparableFilter P img kernel = .ok out ∧ out.Shows img.info fun x y =>
      (List.range img.info.channels).map (kernelResponse kernel (window2d img x y n)) :=
  unseparable_of_sqrt P img h kernel n hodd hk (by omega) (checkSquare_sq (by omega)) (toU32_sqrt (by omega)) hw hh

example (P : Profile) (a b c d e f v : F32) : ∃ out,
    unseparableFilter P (gray6 a b c d e f) (List.replicate 9 v) = .ok out := by
  obtain ⟨out, h, -⟩ := c47_unseparable_small P (gray6 a b c d e f) (gray6_WF ..) (List.replicate 9 v) 3 rfl rfl
    (by dims) (by dims) (by dims)
  exact ⟨out, h⟩

/-- **C47** kernels of non-square length (up to 2^24 entries) are rejected, for every image (longer ones: `c47_unseparable_nonsquare` in Filter6) -/
theorem c47_unseparable_nonsquare_small (P : Profile) (img : Image F32) (kernel : List F32)
    (hn : kernel.length ≤ 16777216) (h : ∀ k : Nat, k * k ≠ kernel.length) :
    Res.InvalidArg (unseparableFilter P img kernel) := by
  unfold unseparableFilter
  by_cases ho : kernel.length % 2 = 1
  · rw [checkOdd_usize_ok ho, ok_bind, checkSquare_nonsq hn h]; rfl
  · rw [checkOdd_usize_err ho]; rfl

example (P : Profile) (a b c d e f : F32) :
    Res.InvalidArg (unseparableFilter P (gray6 a b c d e f) [a, b, c, d, e]) :=
  c47_unseparable_nonsquare_small P _ _ (by dims) (fun k hk => by
    have hk : k * k = 5 := hk
    have : k ≤ 2 := by
      by_contra hc
      have : 3 * 3 ≤ k * k := Nat.mul_le_mul (by omega) (by omega)
      omega
    interval_cases k <;> omega)


/-- the hypotheses are met: a 3 x 3 kernel on the one-pixel image -/
example (v : F32) : (Image.fromVec 1 1 1 false [v]).WF ∧ (List.replicate 9 v).length = 3 * 3 ∧
    (Image.fromVec 1 1 1 false [v]).info.width + 3 ≤ 2147483648 :=
  ⟨⟨show 1 < _ by decide, show 1 < _ by decide, show 1 < _ by decide, show 1 * 1 < _ by decide,
    show 1 * 1 * 1 < _ by decide, rfl⟩, rfl, show 1 + 3 ≤ _ by decide⟩
end
end Imgproc

import Verif.Props.Scale3
import Verif.Props.Convert

/-!
# C135: shrinking with nearest-neighbour scaling

Shrinking by a factor that is exactly `1/s` as an `f32` (that is, `s` is a power of two) keeps the last column and row of every `s × t`
block and undoes the enlargement by `s` and `t`. For other factors the quotient `(x + 1) / factor` can be rounded past the edge of the
image: the most natural calls, such as shrinking 61 columns to one or 22 columns to 13, panic.
-/
namespace Imgproc
open FloatOps
section
variable [Libm f32]

/-- the source coordinate of shrinking -/
theorem shrink_coord {xf : F32} {s x : Nat} (hs : 0 < s) (h : xf.Is (1 / (s : Rat))) (hx : (x + 1) * s ≤ 16777216) :
    toU32 (FloatOps.ceil (ofNat (F := F32) (x + 1) /. xf) -. num 1) = x * s + (s - 1) := by
  have hsq : (0 : Rat) < s := by exact_mod_cast hs
  have hx1 : x + 1 ≤ 16777216 := le_trans (Nat.le_mul_of_pos_right _ hs) hx
  have e : ((x + 1 : Nat) : Rat) / (1 / (s : Rat)) = (((x + 1) * s : Nat) : Rat) := by push_cast; field_simp
  have hd := div_exact (nat32 hx1) h (by positivity) (by rw [e]; exact f32_nat hx)
  rw [e] at hd
  have hc : ((((x + 1) * s : Nat) : Rat)).ceil = (((x + 1) * s : Nat) : Int) := by
    rw [← Int.cast_natCast]; exact Rat.ceil_intCast _
  have hci := ceil_is hd (by rw [hc]; exact f32_int (by rw [abs_le]; omega))
  rw [hc] at hci
  have h1 : 1 ≤ (x + 1) * s := Nat.mul_pos (by omega) hs
  have hss := sub_exact hci (num32 (n := 1) (by decide)) (by rw [← Int.cast_sub]; exact f32_int (by rw [abs_le]; omega))
  have e2 : (x + 1) * s = x * s + (s - 1) + 1 := by rw [Nat.add_mul]; omega
  refine toU32_int (n := x * s + (s - 1)) ?_ (by omega)
  convert hss using 1
  rw [e2]; push_cast; ring

/-- the size of the shrunk image -/
theorem shrink_dim {xf : F32} {s n : Nat} (hs : 0 < s) (h : xf.Is (1 / (s : Rat))) (hn : s * n ≤ 16777216) : scaleDim (s * n) xf = n := by
  have hsq : (0 : Rat) < s := by exact_mod_cast hs
  have hn1 : n ≤ 16777216 := le_trans (Nat.le_mul_of_pos_left _ hs) hn
  have e : ((s * n : Nat) : Rat) * (1 / (s : Rat)) = (n : Rat) := by push_cast; field_simp
  have hm := mul_exact (nat32 hn) h (by rw [e]; exact f32_nat hn1)
  rw [e, ← Int.cast_natCast] at hm
  have hr := round_is hm (by rw [roundAwayQ_int]; exact f32_int (by rw [abs_le]; omega))
  rw [roundAwayQ_int] at hr
  unfold scaleDim
  exact toU32_int (by simpa using hr) (by omega)

/-- **C135** Shrinking by factors that are exactly `1/s` and `1/t`: the last column and row of every block. -/
theorem c135_shrink (P : Profile) {img : Image F32} (h : img.WF) {xf yf : F32} {s t w k : Nat}
    (hx : xf.Is (1 / (s : Rat))) (hy : yf.Is (1 / (t : Rat))) (hs : 0 < s) (ht : 0 < t)
    (hw : img.info.width = s * w) (hh : img.info.height = t * k) (hw' : s * w ≤ 16777216) (hh' : t * k ≤ 16777216) :
    ∃ out, scale P img xf yf .nearestNeighbor = .ok out ∧
      out.Shows ⟨w, k, img.info.channels, img.info.alpha⟩ fun x y => img.px (x * s + (s - 1)) (y * t + (t - 1)) := by
  have hw1 : w ≤ s * w := Nat.le_mul_of_pos_left _ hs
  have hk1 : k ≤ t * k := Nat.le_mul_of_pos_left _ ht
  have hlx : ∀ x, x < w → x * s + (s - 1) < img.info.width := fun x hx => by
    have : (x + 1) * s ≤ w * s := Nat.mul_le_mul_right _ hx
    rw [Nat.add_mul] at this; rw [hw, Nat.mul_comm s w]; omega
  have hly : ∀ y, y < k → y * t + (t - 1) < img.info.height := fun y hy => by
    have : (y + 1) * t ≤ k * t := Nat.mul_le_mul_right _ hy
    rw [Nat.add_mul] at this; rw [hh, Nat.mul_comm t k]; omega
  have hbx : ∀ x, x < w → (x + 1) * s ≤ 16777216 := fun x hx => by
    have := hlx x hx
    rw [Nat.add_mul]; omega
  have hby : ∀ y, y < k → (y + 1) * t ≤ 16777216 := fun y hy => by
    have := hly y hy
    rw [Nat.add_mul]; omega
  have a1 : w * k ≤ img.info.width * img.info.height := by rw [hw, hh]; exact Nat.mul_le_mul hw1 hk1
  have a2 : w * k * img.info.channels ≤ img.info.width * img.info.height * img.info.channels := Nat.mul_le_mul_right _ a1
  have f1 := h.size
  have f2 := h.full
  refine scale_core (W := w) (H := k) P (checkNonNeg_is hx (by positivity)) (checkNonNeg_is hy (by positivity))
    (by rw [hw]; exact shrink_dim hs hx hw') (by rw [hh]; exact shrink_dim ht hy hh')
    ⟨by show w < 4294967296; omega, by show k < 4294967296; omega, h.channels, lt_of_le_of_lt a1 f1, lt_of_le_of_lt a2 f2⟩ _ ?_ ?_
  · intro x y hx hy
    exact Image.px_length h (hlx x hx) (hly y hy)
  · intro x y lx ly
    have := hbx x lx
    have := hby y ly
    have := Nat.le_mul_of_pos_right (x + 1) hs
    have := Nat.le_mul_of_pos_right (y + 1) ht
    unfold interpolate interpolateNearestNeighbor
    dsimp only
    rw [u32Add_ok (by show _ < 4294967296; omega), ok_bind, u32Add_ok (by show _ < 4294967296; omega), ok_bind,
      shrink_coord hs hx (hbx x lx), shrink_coord ht hy (hby y ly)]
    exact Image.getPixel_eq P h (hlx x lx) (hly y ly)

/-- **C135** Shrinking undoes enlarging. -/
theorem c135_undo (P : Profile) {img : Image F32} (h : img.WF) {xf yf xg yg : F32} {s t : Nat}
    (hx : xf.Is (s : Rat)) (hy : yf.Is (t : Rat)) (hx' : xg.Is (1 / (s : Rat))) (hy' : yg.Is (1 / (t : Rat))) (hs : 0 < s) (ht : 0 < t)
    (w0 : 0 < img.info.width) (h0 : 0 < img.info.height)
    (hw : s * img.info.width ≤ 16777216) (hh : t * img.info.height ≤ 16777216)
    (hsize : s * img.info.width * (t * img.info.height) * max 1 img.info.channels < 4294967296) :
    (scale P img xf yf .nearestNeighbor >>= fun o => scale P o xg yg .nearestNeighbor) = .ok img := by
  have s1 : s ≤ s * img.info.width := Nat.le_mul_of_pos_right _ w0
  have t1 : t ≤ t * img.info.height := Nat.le_mul_of_pos_right _ h0
  obtain ⟨o, eo, so⟩ := c66_nearest_integer P h hx hy hs ht hw hh (by omega) (by omega) hsize
  obtain ⟨r, er, sr⟩ := c135_shrink P so.WF hx' hy' hs ht (by rw [so.info_eq]) (by rw [so.info_eq]) hw hh
  rw [eo, ok_bind, er]
  rw [so.info_eq] at sr
  refine congrArg Except.ok (Image.ext_px sr.WF h sr.info_eq fun x y lx ly => ?_)
  rw [sr.info_eq] at lx ly
  rw [sr.px_eq lx ly]
  have ux : x * s + (s - 1) < s * img.info.width := by
    have : (x + 1) * s ≤ img.info.width * s := Nat.mul_le_mul_right _ lx
    rw [Nat.add_mul] at this; rw [Nat.mul_comm s]; omega
  have uy : y * t + (t - 1) < t * img.info.height := by
    have : (y + 1) * t ≤ img.info.height * t := Nat.mul_le_mul_right _ ly
    rw [Nat.add_mul] at this; rw [Nat.mul_comm t]; omega
  rw [so.px_eq ux uy]
  have d : ∀ {n m : Nat}, 0 < m → (n * m + (m - 1)) / m = n := fun {n m} hm => by
    rw [Nat.mul_comm, Nat.mul_add_div hm, Nat.div_eq_of_lt (by omega), Nat.add_zero]
  rw [d hs, d ht]
end

/-- `n` columns, one row -/
def oneRow (n : Nat) : Image F32 := ⟨⟨n, 1, 1, false⟩, List.replicate n (Flt.ofRat f32 7)⟩

theorem oneRow_WF {n : Nat} (h : n < 4294967296) : (oneRow n).WF :=
  ⟨h, show 1 < 4294967296 by decide, show 1 < 256 by decide, by simpa [oneRow] using h, by simpa [oneRow] using h, by simp [oneRow]⟩

/-- **C135 is violated for other factors** (and so is C67): shrinking 61 columns to one by the factor `1.0 / 61.0`, and 22 columns to 13 by the
factor `13.0 / 22.0`, panics, although the size of the output is computed as 1 and 13. -/
theorem c135_shrink_violated : letI := trivialLibm f32
    ((oneRow 61).WF ∧ (oneRow 22).WF) ∧
    (scaleDim 61 ((num 1 : F32) /. num 61) = 1 ∧ ∀ P, Res.Panics (scale P (oneRow 61) ((num 1 : F32) /. num 61) (num 1) .nearestNeighbor)) ∧
    (scaleDim 22 ((num 13 : F32) /. num 22) = 13 ∧ ∀ P, Res.Panics (scale P (oneRow 22) ((num 13 : F32) /. num 22) (num 1) .nearestNeighbor)) := by
  let := trivialLibm f32
  refine ⟨⟨oneRow_WF (by decide), oneRow_WF (by decide)⟩, ⟨by decide +kernel, fun P => ?_⟩, ⟨by decide +kernel, fun P => ?_⟩⟩
  · cases P
    · have : (match scale .debug (oneRow 61) ((num 1 : F32) /. num 61) (num 1) .nearestNeighbor with | .error (.panic _) => true | _ => false) = true := by decide +kernel
      split at this
      · rename_i e; exact ⟨_, e⟩
      · cases this
    · have : (match scale .release (oneRow 61) ((num 1 : F32) /. num 61) (num 1) .nearestNeighbor with | .error (.panic _) => true | _ => false) = true := by decide +kernel
      split at this
      · rename_i e; exact ⟨_, e⟩
      · cases this
  · cases P
    · have : (match scale .debug (oneRow 22) ((num 13 : F32) /. num 22) (num 1) .nearestNeighbor with | .error (.panic _) => true | _ => false) = true := by decide +kernel
      split at this
      · rename_i e; exact ⟨_, e⟩
      · cases this
    · have : (match scale .release (oneRow 22) ((num 13 : F32) /. num 22) (num 1) .nearestNeighbor with | .error (.panic _) => true | _ => false) = true := by decide +kernel
      split at this
      · rename_i e; exact ⟨_, e⟩
      · cases this

/-- non-vacuity: any 3 x 2 image, enlarged to 6 x 8 and shrunk again -/
example [Libm f32] (P : Profile) (a b c d e f : F32) {two four half quarter : F32} (h2 : two.Is 2) (h4 : four.Is 4) (h3 : half.Is (1 / 2))
    (h5 : quarter.Is (1 / 4)) :
    (scale P (gray6 a b c d e f) two four .nearestNeighbor >>= fun o => scale P o half quarter .nearestNeighbor) = .ok (gray6 a b c d e f) :=
  c135_undo P (gray6_WF a b c d e f) (s := 2) (t := 4) (by simpa using h2) (by simpa using h4) (by simpa using h3) (by simpa using h5)
    (by decide) (by decide) (by dims) (by dims) (by dims) (by dims) (by dims)

end Imgproc

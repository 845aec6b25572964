import Verif.Props.Scale8
import Verif.Props.Scale3
/-! Bilinear scaling by whole factors in IEEE arithmetic (C85, C104). -/
namespace Imgproc
open FloatOps

section
variable [Libm f32]

/-- the value `fin q` : the positive zero when `q = 0` -/
def Flt.Pos {f : Fmt} (x : Flt f) (q : Rat) : Prop := x.val = .fin q

omit [Libm f32] in
theorem Flt.Pos.is {f : Fmt} {x : Flt f} {q : Rat} (h : x.Pos q) : x.Is q := by
  unfold Flt.Is; rw [show x.val = .fin q from h]; rfl

theorem ofNat_pos {n : Nat} (h : n ≤ 16777216) : (ofNat n : F32).Pos (n : Rat) := by
  rcases Nat.eq_zero_or_pos n with rfl | hn
  · show FP.round f32 false (((0 : Nat) : Int) : Rat) = _
    unfold FP.round; rw [if_pos (by simp)]; rfl
  · exact (nat32 h).eq_fin (by exact_mod_cast hn.ne')

/-- `k * n` divided by `k` is `n`, with the positive sign -/
theorem div_pos_exact {xf : F32} {k n : Nat} (hk : 0 < k) (h : xf.Is (k : Rat)) (hn : k * n ≤ 16777216) :
    (ofNat (k * n) /. xf : F32).Pos (n : Rat) := by
  have hk0 : (k : Rat) ≠ 0 := by exact_mod_cast hk.ne'
  have hle : n ≤ k * n := Nat.le_mul_of_pos_left _ hk
  rcases Nat.eq_zero_or_pos n with rfl | hn0
  · show FP.div f32 (ofNat (k * 0) : F32).val xf.val = _
    rw [Nat.mul_zero, show (ofNat 0 : F32).val = .fin ((0 : Nat) : Rat) from ofNat_pos (by decide), h.eq_fin hk0]
    unfold FP.div
    simp only [FP.toQ?]
    rw [if_neg hk0]
    unfold FP.round
    rw [if_pos (by simp)]
    have : ¬ ((k : Rat) < 0) := by have : (0 : Rat) ≤ k := by positivity
                                   linarith
    simp [FP.sign, FP.zero, this]
  · have e := div_exact (ofNat_pos hn).is h hk0 (by
      rw [Nat.cast_mul, mul_comm, mul_div_assoc, div_self hk0, mul_one]; exact f32_nat (by omega))
    rw [show ((k * n : Nat) : Rat) / k = n by rw [Nat.cast_mul, mul_comm, mul_div_assoc, div_self hk0, mul_one]] at e
    exact e.eq_fin (by exact_mod_cast hn0.ne')

theorem sub_self_pos {x y : F32} {q : Rat} (hx : x.Pos q) (hy : y.Pos q) : (x -. y).Pos 0 := by
  show FP.add f32 x.val (FP.neg y.val) = _
  rw [show x.val = .fin q from hx, show y.val = .fin q from hy]
  unfold FP.neg
  simp only
  split
  · next h => unfold FP.add FP.round; simp [h, FP.zero]
  · unfold FP.add FP.round; simp [FP.zero]

theorem biLo_exact {xf : F32} {k n : Nat} (hk : 0 < k) (h : xf.Is (k : Rat)) (hn : k * n ≤ 16777216) : biLo xf (k * n) = n := by
  have hle : n ≤ k * n := Nat.le_mul_of_pos_left _ hk
  unfold biLo
  refine toU32_int ?_ (by omega)
  have hf : Rat.floor (n : Rat) = (n : Int) := by
    rw [show ((n : Nat) : Rat) = (((n : Int) : Int) : Rat) by push_cast; rfl]; exact Rat.floor_intCast _
  have := floor_is (div_pos_exact hk h hn).is (by rw [hf]; push_cast; exact f32_nat (by omega))
  rw [hf] at this; simpa using this

theorem biHi_exact {xf : F32} {k n w : Nat} (hk : 0 < k) (h : xf.Is (k : Rat)) (hn : k * n ≤ 16777216) (hw : n < w) :
    biHi xf w (k * n) = n := by
  have hle : n ≤ k * n := Nat.le_mul_of_pos_left _ hk
  unfold biHi
  have hf : Rat.ceil (n : Rat) = (n : Int) := by
    rw [show ((n : Nat) : Rat) = (((n : Int) : Int) : Rat) by push_cast; rfl]; exact Rat.ceil_intCast _
  have := ceil_is (div_pos_exact hk h hn).is (by rw [hf]; push_cast; exact f32_nat (by omega))
  rw [hf] at this
  rw [toU32_int (n := n) (by simpa using this) (by omega)]
  omega

theorem biWeight_exact {xf : F32} {k n : Nat} (hk : 0 < k) (h : xf.Is (k : Rat)) (hn : k * n ≤ 16777216) :
    (biWeight xf (k * n)).Pos 0 := by
  have hle : n ≤ k * n := Nat.le_mul_of_pos_left _ hk
  unfold biWeight
  rw [biLo_exact hk h hn]
  exact sub_self_pos (div_pos_exact hk h hn) (ofNat_pos (by omega))

theorem one_sub_zero_pos {w : F32} (h : w.Pos 0) : (num 1 -. w : F32).Pos 1 := by
  have e := sub_exact (num32 (n := 1) (by decide)) h.is (by rw [sub_zero]; exact f32_int (by decide))
  simp only [Int.cast_one, sub_zero] at e
  exact e.eq_fin one_ne_zero

/-- with both weights zero the value computed is the fourth neighbour's, signed zeros included -/
theorem bilinearValue_node {a xw yw : F32} {q : Rat} (ha : a.Is q) (hx : xw.Pos 0) (hy : yw.Pos 0) :
    bilinearValue a a a a xw yw = a := by
  have hx1 := one_sub_zero_pos hx
  have hy1 := one_sub_zero_pos hy
  unfold bilinearValue
  by_cases hq : q = 0
  · apply Flt.ext
    show FP.add f32 (FP.add f32 (FP.add f32 (FP.mul f32 (FP.mul f32 a.val xw.val) yw.val)
      (FP.mul f32 (FP.mul f32 a.val (num 1 -. xw : F32).val) yw.val))
      (FP.mul f32 (FP.mul f32 a.val xw.val) (num 1 -. yw : F32).val))
      (FP.mul f32 (FP.mul f32 a.val (num 1 -. xw : F32).val) (num 1 -. yw : F32).val) = a.val
    rw [show xw.val = _ from hx, show yw.val = _ from hy, show (num 1 -. xw : F32).val = _ from hx1, show (num 1 -. yw : F32).val = _ from hy1]
    rcases FP.toQ?_cases (show a.val.toQ? = some q from ha) with h | ⟨h, -⟩
    · rw [h, hq]; decide +kernel
    · rw [h]; decide +kernel
  · have E0 : f32.Exact 0 := Fmt.Exact.zero
    have t1 := mul_exact (mul_exact ha hx.is (by rw [mul_zero]; exact E0)) hy.is (by simp only [mul_zero]; exact E0)
    have t2 := mul_exact (mul_exact ha hx1.is (by rw [mul_one]; exact ha.exact)) hy.is (by rw [mul_zero]; exact E0)
    have t3 := mul_exact (mul_exact ha hx.is (by rw [mul_zero]; exact E0)) hy1.is (by simp only [mul_zero, mul_one]; exact E0)
    have t4 := mul_exact (mul_exact ha hx1.is (by rw [mul_one]; exact ha.exact)) hy1.is (by simp only [mul_one]; exact ha.exact)
    simp only [mul_zero, mul_one] at t1 t2 t3 t4
    have s := add_exact (add_exact (add_exact t1 t2 (by simpa using E0)) t3 (by simpa using E0)) t4 (by simpa using ha.exact)
    simp only [add_zero, zero_add] at s
    exact s.ext ha hq

/-- spec: every channel of the image is a finite number -/
def Image.Finite (img : Image F32) : Prop := ∀ x y, x < img.info.width → y < img.info.height → ∀ c ∈ img.px x y, ∃ q, c.Is q

theorem bilinear_node (P : Profile) {img : Image F32} (h : img.WF) (fin : img.Finite) {xf yf : F32} {kx ky X Y : Nat}
    (hxf : xf.Is (kx : Rat)) (hyf : yf.Is (ky : Rat)) (hkx : 0 < kx) (hky : 0 < ky)
    (hX : X < img.info.width) (hY : Y < img.info.height) (bx : kx * X ≤ 16777216) (by' : ky * Y ≤ 16777216) :
    interpolateBilinear P img xf yf (kx * X) (ky * Y) = .ok (img.px X Y) := by
  rw [bilinear_ok P h (by rw [biLo_exact hkx hxf bx]; exact hX) (by rw [biLo_exact hky hyf by']; exact hY)]
  rw [biLo_exact hkx hxf bx, biLo_exact hky hyf by', biHi_exact hkx hxf bx hX, biHi_exact hky hyf by' hY]
  congr 1
  have hl := Image.px_length h hX hY
  apply List.ext_getElem
  · simp [hl]
  · intro c h1 h2
    rw [List.getElem_map, List.getElem_range]
    obtain ⟨q, hq⟩ := fin X Y hX hY _ (List.getElem_mem h2)
    rw [List.getD_eq_getElem?_getD, List.getElem?_eq_getElem h2, Option.getD_some]
    exact bilinearValue_node hq (biWeight_exact hkx hxf bx) (biWeight_exact hky hyf by')

/-- **C104** Bilinear enlargement by whole factors in IEEE f32 keeps every original sample: the output pixel at
`(kx * X, ky * Y)` is the input pixel at `(X, Y)`, bit for bit, for every finite image. -/
theorem c104_samples (P : Profile) {img : Image F32} (h : img.WF) (fin : img.Finite) {xf yf : F32} {kx ky : Nat}
    (hxf : xf.Is (kx : Rat)) (hyf : yf.Is (ky : Rat)) (hkx : 0 < kx) (hky : 0 < ky)
    (hw0 : 0 < img.info.width) (hh0 : 0 < img.info.height)
    (hw : kx * img.info.width ≤ 4194304) (hh : ky * img.info.height ≤ 4194304)
    (hsize : kx * img.info.width * (ky * img.info.height) * max 1 img.info.channels < 4294967296) :
    ∃ out, scale P img xf yf .bilinear = .ok out ∧ out.WF ∧
      out.info = ⟨kx * img.info.width, ky * img.info.height, img.info.channels, img.info.alpha⟩ ∧
      ∀ X Y, X < img.info.width → Y < img.info.height → out.px (kx * X) (ky * Y) = img.px X Y := by
  have hw1 : img.info.width ≤ kx * img.info.width := Nat.le_mul_of_pos_left _ hkx
  have hh1 : img.info.height ≤ ky * img.info.height := Nat.le_mul_of_pos_left _ hky
  have qx : (0 : Rat) < kx := by exact_mod_cast hkx
  have qy : (0 : Rat) < ky := by exact_mod_cast hky
  have cw : (img.info.width : Rat) * kx ≤ 4194304 := by rw [mul_comm]; exact_mod_cast hw
  have ch : (img.info.height : Rat) * ky ≤ 4194304 := by rw [mul_comm]; exact_mod_cast hh
  have dw := scaleDim_int hxf (n := img.info.width) (by omega) (by omega)
  have dh := scaleDim_int hyf (n := img.info.height) (by omega) (by omega)
  have hs1 : kx * img.info.width * (ky * img.info.height) * 1 ≤ _ := Nat.mul_le_mul_left _ (le_max_left 1 img.info.channels)
  have hs2 : kx * img.info.width * (ky * img.info.height) * img.info.channels ≤ _ :=
    Nat.mul_le_mul_left _ (le_max_right 1 img.info.channels)
  have l1 : ∀ x, x < kx * img.info.width → biLo xf x < img.info.width := fun x hx =>
    biLo_lt hxf qx hw0 (by omega) cw (by rw [dw]; exact hx)
  have l2 : ∀ y, y < ky * img.info.height → biLo yf y < img.info.height := fun y hy =>
    biLo_lt hyf qy hh0 (by omega) ch (by rw [dh]; exact hy)
  obtain ⟨out, e, ho⟩ := scale_core P (checkNonNeg_is hxf qx.le) (checkNonNeg_is hyf qy.le) dw dh
    ⟨by show _ < 4294967296; dsimp only; omega, by show _ < 4294967296; dsimp only; omega, h.channels,
      by show _ < 4294967296; dsimp only; omega, by show _ < 4294967296; dsimp only; omega⟩
    (m := .bilinear) _ (fun x y h1 h2 => by simp) (fun x y h1 h2 => bilinear_ok P h (l1 x h1) (l2 y h2))
  refine ⟨out, e, ho.1, ho.2.1, fun X Y hX hY => ?_⟩
  have mx : kx * X < kx * img.info.width := Nat.mul_lt_mul_of_pos_left hX hkx
  have my : ky * Y < ky * img.info.height := Nat.mul_lt_mul_of_pos_left hY hky
  have e1 := bilinear_node P h fin hxf hyf hkx hky hX hY (by omega) (by omega)
  rw [bilinear_ok P h (l1 _ mx) (l2 _ my)] at e1
  rw [ho.px_eq mx my]
  exact Except.ok.inj e1

/-- **C85** (bilinear, IEEE) Scaling by 1 returns a finite image unchanged, bit for bit. -/
theorem c85_bilinear_ieee_partial (P : Profile) {img : Image F32} (h : img.WF) (fin : img.Finite) {xf yf : F32}
    (hxf : xf.Is 1) (hyf : yf.Is 1) (hw0 : 0 < img.info.width) (hh0 : 0 < img.info.height)
    (hw : img.info.width ≤ 4194304) (hh : img.info.height ≤ 4194304) :
    scale P img xf yf .bilinear = .ok img := by
  obtain ⟨out, e, wf, hi, hp⟩ := c104_samples P h fin (kx := 1) (ky := 1) (by simpa using hxf) (by simpa using hyf)
    (by omega) (by omega) hw0 hh0 (by omega) (by omega) (by
      rw [Nat.one_mul, Nat.one_mul]
      have := h.size; have := h.full
      rcases Nat.le_total 1 img.info.channels with hc | hc
      · rw [max_eq_right hc]; exact h.full
      · rw [max_eq_left hc, Nat.mul_one]; exact h.size)
  rw [e]
  simp only [Nat.one_mul] at hi hp
  congr 1
  refine (show out.Shows img.info out.px from ?_).ext (show img.Shows img.info out.px from ?_)
  · have hi' : out.info = img.info := hi
    rw [← hi']; exact wf.shows
  · exact h.shows.congr fun x y hx hy => (hp x y hx hy).symm

theorem byte_finite (n : Nat) (hn : n ≤ 16777216) : ∃ q, (ofNat n : F32).Is q := ⟨_, nat32 hn⟩

/-- doubling a 3 by 2 image -/
example (P : Profile) : ∃ out, scale P (gray6 (ofNat 1) (ofNat 2) (ofNat 3) (ofNat 40) (ofNat 50) (ofNat 60)) (num 2) (num 2) .bilinear
    = .ok out ∧ out.px 4 2 = (gray6 (ofNat 1) (ofNat 2) (ofNat 3) (ofNat 40) (ofNat 50) (ofNat 60 : F32)).px 2 1 := by
  have h2 : (num 2 : F32).Is ((2 : Nat) : Rat) := by simpa using num32 (n := 2) (by decide)
  obtain ⟨out, e, -, -, hp⟩ := c104_samples P (img := gray6 (ofNat 1) (ofNat 2) (ofNat 3) (ofNat 40) (ofNat 50) (ofNat 60)) (gray6_WF ..)
    (by
      intro x y hx hy c hc
      have hx : x < 3 := hx
      have hy : y < 2 := hy
      have hm : c ∈ ([ofNat 1, ofNat 2, ofNat 3, ofNat 40, ofNat 50, ofNat 60] : List F32) :=
        List.mem_of_mem_drop (List.mem_of_mem_take hc)
      simp only [List.mem_cons, List.not_mem_nil, or_false] at hm
      rcases hm with rfl | rfl | rfl | rfl | rfl | rfl <;> exact byte_finite _ (by decide))
    h2 h2 (by decide) (by decide) (by dims) (by dims) (by dims) (by dims) (by dims)
  exact ⟨out, e, hp 2 1 (by dims) (by dims)⟩

/-- an infinite channel is not kept: it becomes NaN -/
theorem bilinearValue_inf {a xw yw : F32} {s : Bool} (ha : a.val = .inf s) (hx : xw.Pos 0) (hy : yw.Pos 0) :
    (bilinearValue a a a a xw yw).val = .nan := by
  have hx1 := one_sub_zero_pos hx
  have hy1 := one_sub_zero_pos hy
  show FP.add f32 (FP.add f32 (FP.add f32 (FP.mul f32 (FP.mul f32 a.val xw.val) yw.val)
    (FP.mul f32 (FP.mul f32 a.val (num 1 -. xw : F32).val) yw.val))
    (FP.mul f32 (FP.mul f32 a.val xw.val) (num 1 -. yw : F32).val))
    (FP.mul f32 (FP.mul f32 a.val (num 1 -. xw : F32).val) (num 1 -. yw : F32).val) = .nan
  rw [show xw.val = _ from hx, show yw.val = _ from hy, show (num 1 -. xw : F32).val = _ from hx1, show (num 1 -. yw : F32).val = _ from hy1, ha]
  cases s <;> decide +kernel
end
end Imgproc

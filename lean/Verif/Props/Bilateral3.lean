import Verif.Props.Bilateral
/-! Property C59, continued: a spatial parameter below one quarter turns every image black. -/
namespace Imgproc
open FloatOps
section
variable [Libm f32]

/-- NaN -/
def Flt.NaN {f : Fmt} (x : Flt f) : Prop := x.val = .nan
/-- zero (of either sign) or NaN -/
def Flt.ZeroOrNaN {f : Fmt} (x : Flt f) : Prop := x.Is 0 ∨ x.NaN

theorem nan_add_left {x : F32} (h : x.NaN) (y : F32) : (x +. y).NaN := by
  show FP.add f32 x.val y.val = .nan
  rw [show x.val = .nan from h]; rfl
theorem nan_add_right {y : F32} (h : y.NaN) (x : F32) : (x +. y).NaN := by
  show FP.add f32 x.val y.val = .nan
  rw [show y.val = .nan from h]; cases x.val <;> rfl
theorem nan_sub_left {x : F32} (h : x.NaN) (y : F32) : (x -. y).NaN := by
  show FP.add f32 x.val (FP.neg y.val) = .nan
  rw [show x.val = .nan from h]; rfl
theorem nan_mul_left {x : F32} (h : x.NaN) (y : F32) : (x *. y).NaN := by
  show FP.mul f32 x.val y.val = .nan
  rw [show x.val = .nan from h]; unfold FP.mul; cases y.val <;> simp [FP.toQ?]
theorem nan_mul_right {y : F32} (h : y.NaN) (x : F32) : (x *. y).NaN := by
  show FP.mul f32 x.val y.val = .nan
  rw [show y.val = .nan from h]; unfold FP.mul; cases x.val <;> simp [FP.toQ?]
theorem nan_div_left {x : F32} (h : x.NaN) (y : F32) : (x /. y).NaN := by
  show FP.div f32 x.val y.val = .nan
  rw [show x.val = .nan from h]; unfold FP.div; cases y.val <;> simp [FP.toQ?]
theorem nan_div_right {y : F32} (h : y.NaN) (x : F32) : (x /. y).NaN := by
  show FP.div f32 x.val y.val = .nan
  rw [show y.val = .nan from h]; unfold FP.div; cases x.val <;> simp [FP.toQ?]
theorem nan_round {x : F32} (h : x.NaN) : (FloatOps.round x).NaN := by
  show FP.roundAway f32 x.val = .nan
  rw [show x.val = .nan from h]; rfl
theorem nan_toU8 {x : F32} (h : x.NaN) : toU8 x = 0 := by
  unfold toU8
  show UInt8.ofNat (FP.toInt 0 255 x.val).toNat = 0
  rw [show x.val = .nan from h]; rfl

theorem zn_mul {x : F32} (h : x.ZeroOrNaN) (y : F32) : (x *. y).ZeroOrNaN := by
  rcases h with h | h
  · cases hy : y.val.toQ? with
    | some b =>
      refine .inl ?_
      have := mul_exact h (show y.Is b from hy) (by rw [zero_mul]; exact Fmt.Exact.zero)
      rwa [zero_mul] at this
    | none =>
      refine .inr ?_
      show FP.mul f32 x.val y.val = .nan
      unfold FP.mul
      rw [show x.val.toQ? = some 0 from h, hy]; simp
  · exact .inr (nan_mul_left h y)

theorem zn_add {x y : F32} (hx : x.ZeroOrNaN) (hy : y.ZeroOrNaN) : (x +. y).ZeroOrNaN := by
  rcases hx with hx | hx
  · rcases hy with hy | hy
    · have := add_exact hx hy (by rw [add_zero]; exact Fmt.Exact.zero)
      rw [add_zero] at this; exact .inl this
    · exact .inr (nan_add_right hy x)
  · exact .inr (nan_add_left hx y)

theorem zn_div {x y : F32} (hx : x.ZeroOrNaN) (hy : y.ZeroOrNaN) : (x /. y).NaN := by
  rcases hx with hx | hx
  · rcases hy with hy | hy
    · show FP.div f32 x.val y.val = .nan
      unfold FP.div
      rw [show x.val.toQ? = some 0 from hx, show y.val.toQ? = some 0 from hy]; simp
    · exact nan_div_right hy x
  · exact nan_div_left hx y

/-- whatever the window holds, a mean with the single spatial weight 0 is 0/0 -/
theorem bilateralMean_nan (range : F32) (win : List (List F32)) (hw : win.length = 1) (c : Nat) (v0 : F32) :
    (bilateralMean range [num 0] win c v0).NaN := by
  have z : (num 0 : F32).ZeroOrNaN := .inl (by simpa using num32 (n := 0) (by decide))
  unfold bilateralMean
  rw [hw]
  have hwt : (bilateralWeight range [num 0] win c v0 0).ZeroOrNaN := zn_mul z _
  exact zn_div (zn_add z (zn_mul hwt _)) (zn_add z hwt)

/-- what libm's `powf` promises for a NaN base (any exponent but 0), here for the one exponent used: `1/2.4` -/
def PowNaN : Prop := ∀ x : F32, x.NaN → (FloatOps.pow x (num 1 /. GAMMA)).NaN

theorem unlinearize_nan (hp : PowNaN) {x : F32} (h : x.NaN) : unlinearizeEntry x = 0 := by
  unfold unlinearizeEntry
  rw [le_nan_left h, if_neg (by decide)]
  exact nan_toU8 (nan_sub_left (nan_mul_right (hp _ h) _) _)

theorem labToXyzFn_nan {x : F32} (h : x.NaN) : (labToXyzFn x).NaN := by
  unfold labToXyzFn
  dsimp only
  rw [if_neg (show ¬ ((x >. num 6 /. num 29) = true) by unfold FloatOps.gt; rw [lt_nan_right h]; decide)]
  exact nan_mul_right (nan_sub_left h _) _

theorem srgbOfLab_nan (hp : PowNaN) (white : White) {a b c : F32} (h : a.NaN) : srgbOfLab white [a, b, c] = [0, 0, 0] := by
  have n : ((a +. num 16) /. num 116 : F32).NaN := nan_div_left (nan_add_left h _) _
  unfold srgbOfLab xyzOfLab
  simp only [List.getD_cons_zero, List.getD_cons_succ]
  generalize hw : xyzTristimulusVals (F := F32) white = w
  have hx : (w.1 *. labToXyzFn (((a +. num 16) /. num 116) +. b /. num 500) /. num 100 : F32).NaN :=
    nan_div_left (nan_mul_right (labToXyzFn_nan (nan_add_left n _)) _) _
  generalize w.1 *. labToXyzFn (((a +. num 16) /. num 116) +. b /. num 500) /. num 100 = x at hx ⊢
  generalize w.2.1 *. labToXyzFn ((a +. num 16) /. num 116) /. num 100 = y
  generalize w.2.2 *. labToXyzFn (((a +. num 16) /. num 116) -. c /. num 200) /. num 100 = z
  have row : ∀ m0 m1 m2 s : F32, (((s +. m0 *. x) +. m1 *. y) +. m2 *. z).NaN := fun m0 m1 m2 s =>
    nan_add_left (nan_add_left (nan_add_right (nan_mul_right hx _) _) _) _
  have key : mat3 XYZ_TO_SRGB_MAT [x, y, z] = (List.range 3).map (fun i =>
      ((ofU8 0 +. (XYZ_TO_SRGB_MAT (F := F32)).getD (3 * i) (num 0) *. x) +.
        (XYZ_TO_SRGB_MAT (F := F32)).getD (3 * i + 1) (num 0) *. y) +.
        (XYZ_TO_SRGB_MAT (F := F32)).getD (3 * i + 2) (num 0) *. z) := rfl
  rw [key, List.map_map]
  show [unlinearizeEntry _, unlinearizeEntry _, unlinearizeEntry _] = _
  rw [unlinearize_nan hp (row _ _ _ _), unlinearize_nan hp (row _ _ _ _), unlinearize_nan hp (row _ _ _ _)]

/-- **C59 (defect)** Whenever the window size `(4*spatial + 1) as u32` is 1 (any spatial parameter from 0 to just below 1/4,
all of them accepted), `bilateral_filter` returns, for every image and every accepted range, an image in which *every* byte
is 0: black, and with an alpha channel also fully transparent. The only weight is 0, so every mean is 0/0. -/
theorem c59_small_spatial_black (hp : PowNaN) (P : Profile) (img : Image UInt8) (h : img.WF) (range spatial : F32)
    (hr : ¬ Negative range) (hsp : ¬ Negative spatial) (hsize : bilateralSize spatial = 1)
    (hpos : 0 < img.info.width ∧ 0 < img.info.height) (h3 : img.info.colours = 3)
    (hw : img.info.width + 1 ≤ 2147483648) (hh : img.info.height + 1 ≤ 2147483648) :
    ∃ out, bilateralFilter P img range spatial = .ok out ∧
      out.Shows img.info (fun _ _ => List.replicate img.info.channels 0) := by
  obtain ⟨mat, em, hml, -, hmid⟩ := c44_spatial_mat_partial P 1 spatial rfl (by decide) hsp
  have hmat : mat = [num 0] := by
    obtain ⟨a, rfl⟩ := List.length_eq_one_iff.1 (by simpa using hml)
    simpa using hmid
  subst hmat
  obtain ⟨out, lab, filtered, e, -, -, -, -, hf, -, ho⟩ := bilateral_core P img h range spatial (nonNeg_ok hr)
    (nonNeg_ok hsp) 1 hsize (by decide) (by decide) em hml hpos h3 hw hh
  refine ⟨out, e, ho.shows.congr fun x y hx hy => ?_⟩
  have hpx := hf.px_eq hx hy
  have nan : ∀ v ∈ filtered.px x y, v.NaN := by
    intro v hv
    rw [hpx, List.mem_map] at hv
    obtain ⟨c, -, rfl⟩ := hv
    exact bilateralMean_nan _ _ (by rw [window2d_length]) _ _
  have hlen : (filtered.px x y).length = img.info.channels := by rw [hpx]; simp
  have happ := img.info.colour_append (filtered.px x y)
  have hcol : ∀ v ∈ img.info.colour (filtered.px x y), v.NaN := fun v hv =>
    nan v (by rw [← happ]; exact List.mem_append_left _ hv)
  have hal : ∀ v ∈ img.info.alphaOf (filtered.px x y), v.NaN := fun v hv =>
    nan v (by rw [← happ]; exact List.mem_append_right _ hv)
  have hlc : (img.info.colour (filtered.px x y)).length = 3 := by
    rw [img.info.colour_length hlen, h3]
  obtain ⟨a, b, c, hc⟩ := List.length_eq_three.1 hlc
  · rw [hc] at hcol happ
    rw [hc, srgbOfLab_nan hp .d65 (hcol a (by simp))]
    have : (img.info.alphaOf (filtered.px x y)).map (fun a => toU8 (FloatOps.round a)) =
        List.replicate (img.info.alphaOf (filtered.px x y)).length 0 := by
      rw [List.eq_replicate_iff]
      refine ⟨by simp, fun v hv => ?_⟩
      obtain ⟨a, ha, rfl⟩ := List.mem_map.1 hv
      exact nan_toU8 (nan_round (hal a ha))
    rw [this, show [(0 : UInt8), 0, 0] = List.replicate 3 0 from rfl, List.replicate_append_replicate]
    rw [show 3 + (img.info.alphaOf (filtered.px x y)).length = img.info.channels by
      have := congrArg List.length happ
      rw [List.length_append, hlen] at this
      exact this]

/-- the parameter 1/8 is such a parameter -/
theorem bilateralSize_eighth : bilateralSize (lit (1 / 8) : F32) = 1 := by
  have hq : (lit (1 / 8) : F32).Is (1 / 8) := lit_exact (by
    have := f32_dyadic (m := 32) (by decide)
    rwa [show (((32 : Int) : Rat) / 256) = 1 / 8 by norm_num] at this)
  have h4 : (num 4 : F32).Is 4 := by simpa using num32 (n := 4) (by decide)
  have h1 : (num 1 : F32).Is 1 := by simpa using num32 (n := 1) (by decide)
  have hm := mul_exact hq h4 (by
    have := f32_dyadic (m := 128) (by decide)
    rwa [show (((128 : Int) : Rat) / 256) = 1 / 8 * 4 by norm_num] at this)
  have ha := add_exact hm h1 (by
    have := f32_dyadic (m := 384) (by decide)
    rwa [show (((384 : Int) : Rat) / 256) = 1 / 8 * 4 + 1 by norm_num] at this)
  unfold bilateralSize toU32
  rw [toInt_is ha]
  rw [show (1 / 8 * 4 + 1 : Rat) = 3 / 2 by norm_num, show FP.truncQ (3 / 2) = 1 by decide +kernel]
  rfl

/-- an accepted call on a one-pixel RGBA image of any colour -/
example (hp : PowNaN) (P : Profile) (a b c d : UInt8) :
    ∃ out, bilateralFilter P (rgba1 a b c d) (num 1 : F32) (lit (1 / 8)) = .ok out ∧ out.px 0 0 = [0, 0, 0, 0] := by
  have h1 : (num 1 : F32).Is 1 := by simpa using num32 (n := 1) (by decide)
  have hq : (lit (1 / 8) : F32).Is (1 / 8) := lit_exact (by
    have := f32_dyadic (m := 32) (by decide)
    rwa [show (((32 : Int) : Rat) / 256) = 1 / 8 by norm_num] at this)
  obtain ⟨out, e, h⟩ := c59_small_spatial_black hp P _ (rgba1_WF a b c d) (num 1) (lit (1 / 8))
    (by rw [← lt_zero_iff Fmt.Exact.zero, lt_is h1 (ofU8_is 0)]; simp)
    (by rw [← lt_zero_iff Fmt.Exact.zero, lt_is hq (ofU8_is 0)]; simp) bilateralSize_eighth (by dims) rfl (by dims) (by dims)
  exact ⟨out, e, h.px_eq (by dims) (by dims)⟩
/-- `PowNaN` can be met: a libm whose `powf` returns its base -/
example : letI := trivialLibm f32; PowNaN := fun _ h => h
end
end Imgproc

import Verif.Spec.Demo
import Verif.Proofs.ExactSum
import Verif.Proofs.Fill
import Verif.Model.Transform
import Verif.Props.HsvF32
import Verif.Core.Ideal
/-! Properties C66 to C69: scaling. -/
namespace Imgproc
open FloatOps

theorem rndQ_err_strict {f : RFmt} {q : Rat} (hq : q ≠ 0) (hn : ¬ RepQ f q) (he : f.emin < ulpExp f q) :
    |rndQ f q - q| < |q| * pow2 (-f.p) := by
  have hl := ulp_lower hq he
  have h := rndQ_err_ulp (f := f) hq
  have e : pow2 (ulpExp f q - 1) = pow2 (ulpExp f q + f.p - 1) * pow2 (-f.p) := by
    rw [← pow2_add]; congr 1; ring
  rcases lt_or_eq_of_le hl with hlt | heq
  · rw [e] at h
    exact lt_of_le_of_lt h (mul_lt_mul_of_pos_right hlt (pow2_pos _))
  · exfalso
    apply hn
    have hp : (1 : Int) ≤ 2 ^ f.p := one_le_pow₀ (by norm_num)
    have hpp := f.hp
    rcases le_total 0 q with h0 | h0
    · rw [abs_of_nonneg h0] at heq
      rw [← heq]
      exact ⟨1, ulpExp f q + f.p - 1, by simp, by simpa using hp, by omega⟩
    · rw [abs_of_nonpos h0] at heq
      have : q = -pow2 (ulpExp f q + f.p - 1) := by linarith
      rw [this]
      exact ⟨-1, ulpExp f q + f.p - 1, by simp, by simpa using hp, by omega⟩

/-- normal range: relative error at most `2^-24`, strict unless exact -/
theorem rnd32_rel {q : Rat} (h : pow2 (-125) ≤ |q|) : f32.rnd q = q ∨ |f32.rnd q - q| < |q| / 16777216 := by
  have hq : q ≠ 0 := by
    rintro rfl
    have := pow2_pos (-125)
    simp at h; linarith
  by_cases hr : RepQ f32.toRFmt q
  · exact Or.inl (rndQ_of_rep hr)
  · right
    have he : f32.emin < ulpExp f32.toRFmt q := by
      unfold ulpExp
      have : -125 ≤ ilog2 |q| := by
        by_contra hc
        have := (ilog2_spec (abs_pos.2 hq)).2
        have h2 : pow2 (ilog2 |q| + 1) ≤ pow2 (-125) := pow2_le.2 (by omega)
        linarith
      show -149 < max (ilog2 |q| - (24 - 1)) _
      exact lt_max_of_lt_left (by omega)
    have := rndQ_err_strict hq hr he
    have e : pow2 (-(f32.toRFmt.p : Int)) = 1 / 16777216 := by rw [pow2_eq]; norm_num [f32]
    rw [e] at this
    rw [div_eq_mul_one_div]; exact this

section
variable {F : Type} [FloatOps F]

/-- a scale call whose interpolation succeeds everywhere -/
theorem scale_core (P : Profile) {img : Image F} {xf yf : F} {m : Scale} {W H : Nat}
    (hx : checkNonNeg (FloatOps.rnum (F := F)) xf = .ok ()) (hy : checkNonNeg (FloatOps.rnum (F := F)) yf = .ok ())
    (hW : scaleDim img.info.width xf = W) (hH : scaleDim img.info.height yf = H)
    (hi : ImageInfo.WF ⟨W, H, img.info.channels, img.info.alpha⟩) (G : Nat → Nat → List F)
    (hlen : ∀ x y, x < W → y < H → (G x y).length = img.info.channels)
    (hG : ∀ x y, x < W → y < H → interpolate P img xf yf m x y = .ok (G x y)) :
    ∃ out, scale P img xf yf m = .ok out ∧ out.Shows ⟨W, H, img.info.channels, img.info.alpha⟩ G := by
  obtain ⟨b, out, eb, hbi, e, ho⟩ := Image.fillAll_set P (FloatOps.rnum (F := F)) hi G hlen
    (fun y x => interpolate P img xf yf m x y) (fun x y h1 h2 => hG x y h1 h2)
  refine ⟨out, ?_, ho⟩
  unfold scale
  rw [hx, ok_bind, hy, ok_bind, hW, hH, eb, ok_bind]
  unfold scaleLoop
  rw [hbi]
  have := fill_bound_congr (out0 := b) (x0 := 0) (y0 := 0) (y1 := H) (x1 := W) (fun o => o.info.width)
    (fun o ho => by rw [ho, hbi]) (fun j i o => do
      let p ← interpolate P img xf yf m i j
      o.setPixel P i j p) (by
        intro j i o o' h
        obtain ⟨_, _, h⟩ := bind_eq_ok h
        exact Image.setPixel_info h)
  exact this.trans e
end

section
variable [Libm f32]

theorem checkNonNeg_is {x : F32} {q : Rat} (h : x.Is q) (hq : 0 ≤ q) :
    checkNonNeg (FloatOps.rnum (F := F32)) x = .ok () := by
  unfold checkNonNeg
  have h0 : (FloatOps.rnum (F := F32)).lt x ((FloatOps.rnum (F := F32)).ofU8 0) = false := by
    show (x <. ofU8 0) = false
    rw [lt_is h (ofU8_is 0), decide_eq_false_iff_not]
    simpa using hq
  rw [if_neg (by rw [h0]; decide)]

omit [Libm f32] in
theorem ratCeil_eq (q : Rat) : q.ceil = ⌈q⌉ := by
  rw [Rat.ceil_eq_neg_floor_neg]; rfl

omit [Libm f32] in
/-- rounding a quotient of integers up to `2^24` to f32 does not change its ceiling -/
theorem ceil_rnd_div {a k : Nat} (ha : 0 < a) (hk : 0 < k) (ha' : a ≤ 16777216) (hk' : k ≤ 16777216) :
    (f32.rnd ((a : Rat) / k)).ceil = (((a - 1) / k + 1 : Nat) : Int) := by
  have hkq : (0 : Rat) < k := by exact_mod_cast hk
  have haq : (0 : Rat) < a := by exact_mod_cast ha
  set n := (a - 1) / k with hn
  have hdiv := Nat.div_add_mod (a - 1) k
  have hmod := Nat.mod_lt (a - 1) hk
  rw [← hn] at hdiv
  have hlo : n * k + 1 ≤ a := by rw [Nat.mul_comm]; omega
  have hhi : a ≤ (n + 1) * k := by rw [Nat.succ_mul, Nat.mul_comm]; omega
  have hloq : (n : Rat) + 1 / k ≤ a / k := by
    rw [le_div_iff₀ hkq, add_mul, div_mul_cancel₀ _ hkq.ne']; exact_mod_cast hlo
  have hhiq : (a : Rat) / k ≤ ((n + 1 : Nat) : Rat) := by rw [div_le_iff₀ hkq]; exact_mod_cast hhi
  have hn' : n ≤ a - 1 := Nat.div_le_self _ _
  have hub : f32.rnd ((a : Rat) / k) ≤ ((n + 1 : Nat) : Rat) := rndQ_le (f32_nat (by omega)).1 hhiq
  have hlb : (n : Rat) < f32.rnd ((a : Rat) / k) := by
    have hpos : (0 : Rat) < a / k := div_pos haq hkq
    have h1k : 0 < (1 : Rat) / k := by positivity
    have hk24 : (k : Rat) ≤ 16777216 := by exact_mod_cast hk'
    have ha1 : (1 : Rat) ≤ a := by exact_mod_cast ha
    have ha24 : (a : Rat) ≤ 16777216 := by exact_mod_cast ha'
    have hmin : pow2 (-125) ≤ |(a : Rat) / k| := by
      rw [abs_of_pos hpos]
      have : pow2 (-125) ≤ 1 / 16777216 := by
        have h : pow2 (-24) = 1 / 16777216 := by rw [pow2_eq]; norm_num
        rw [← h]; exact pow2_le.2 (by decide)
      refine this.trans ?_
      rw [div_le_div_iff₀ (by norm_num) hkq]; linarith
    rcases rnd32_rel hmin with e | e
    · rw [e]; linarith
    · rw [abs_of_pos hpos] at e
      have h1 := (abs_lt.1 e).1
      have h2 : (a : Rat) / k / 16777216 ≤ 1 / k := by
        rw [div_div, div_le_div_iff₀ (by positivity) hkq]
        have := mul_le_mul_of_nonneg_right ha24 hkq.le
        linarith
      linarith
  rw [ratCeil_eq, Int.ceil_eq_iff]
  push_cast at hub ⊢
  constructor <;> linarith

theorem toU32_int {x : F32} {n : Nat} (h : x.Is (n : Rat)) (hn : n < 4294967296) : toU32 x = n := by
  unfold toU32
  rw [toInt_is h, show ((n : Nat) : Rat) = ((n : Int) : Rat) by push_cast; rfl, truncQ_int]
  omega

/-- the source coordinate of nearest-neighbour scaling by an integer -/
theorem nearest_coord {xf : F32} {k x : Nat} (hk : 0 < k) (hk' : k ≤ 16777216) (h : xf.Is (k : Rat))
    (hx : x + 1 ≤ 16777216) :
    toU32 (FloatOps.ceil (ofNat (F := F32) (x + 1) /. xf) -. num 1) = x / k := by
  have hkq : (k : Rat) ≠ 0 := by exact_mod_cast hk.ne'
  have hk1 : (1 : Rat) ≤ k := by exact_mod_cast hk
  have hd := div_is (nat32 (n := x + 1) hx) h hkq (f32_ovf (by
    rw [abs_of_nonneg (by positivity)]
    have : ((x + 1 : Nat) : Rat) ≤ 16777216 := by exact_mod_cast hx
    exact (div_le_self (by positivity) hk1).trans (by linarith)))
  have hc := ceil_rnd_div (a := x + 1) (k := k) (by omega) hk hx hk'
  rw [Nat.add_sub_cancel] at hc
  have hle : x / k ≤ x := Nat.div_le_self _ _
  generalize x / k = d at *
  have hci := ceil_is hd (by rw [hc]; exact f32_int (by rw [abs_le]; omega))
  rw [hc] at hci
  have hs := sub_exact hci (num32 (n := 1) (by decide)) (by rw [← Int.cast_sub]; exact f32_int (by rw [abs_le]; omega))
  refine toU32_int (n := d) ?_ (by omega)
  convert hs using 1
  push_cast; ring

/-- the output size of scaling by an integer -/
theorem scaleDim_int {xf : F32} {k n : Nat} (h : xf.Is (k : Rat)) (hn : n ≤ 16777216) (hnk : k * n ≤ 16777216) :
    scaleDim n xf = k * n := by
  unfold scaleDim
  have hm := mul_exact (nat32 hn) h (by rw [← Nat.cast_mul]; exact f32_nat (by rw [Nat.mul_comm]; omega))
  rw [← Nat.cast_mul, Nat.mul_comm, show ((k * n : Nat) : Rat) = ((k * n : Int) : Rat) by push_cast; rfl] at hm
  have hr := round_is hm (by rw [roundAwayQ_int]; exact f32_int (by rw [abs_le]; constructor <;> norm_cast; omega))
  rw [roundAwayQ_int] at hr
  exact toU32_int (by convert hr using 1; push_cast; rfl) (by omega)

/-- **C66** nearest-neighbour scaling by positive integers replicates pixels, in IEEE f32: `scale(img, kx, ky)` is an
image of `kx*W` by `ky*H` pixels with `output(x, y) = input(x/kx, y/ky)`. -/
theorem c66_nearest_integer (P : Profile) {img : Image F32} (h : img.WF) {xf yf : F32} {kx ky : Nat}
    (hxf : xf.Is (kx : Rat)) (hyf : yf.Is (ky : Rat)) (hkx : 0 < kx) (hky : 0 < ky)
    (hw : kx * img.info.width ≤ 16777216) (hh : ky * img.info.height ≤ 16777216)
    (hkx' : kx ≤ 16777216) (hky' : ky ≤ 16777216)
    (hsize : kx * img.info.width * (ky * img.info.height) * max 1 img.info.channels < 4294967296) :
    ∃ out, scale P img xf yf .nearestNeighbor = .ok out ∧
      out.Shows ⟨kx * img.info.width, ky * img.info.height, img.info.channels, img.info.alpha⟩
        fun x y => img.px (x / kx) (y / ky) := by
  have hw0 : img.info.width ≤ kx * img.info.width := Nat.le_mul_of_pos_left _ hkx
  have hh0 : img.info.height ≤ ky * img.info.height := Nat.le_mul_of_pos_left _ hky
  have hlx : ∀ x, x < kx * img.info.width → x / kx < img.info.width := fun x hx => Nat.div_lt_of_lt_mul hx
  have hly : ∀ y, y < ky * img.info.height → y / ky < img.info.height := fun y hy => Nat.div_lt_of_lt_mul hy
  have hs1 : kx * img.info.width * (ky * img.info.height) * 1 ≤ _ := Nat.mul_le_mul_left _ (le_max_left 1 img.info.channels)
  have hs2 : kx * img.info.width * (ky * img.info.height) * img.info.channels ≤ _ :=
    Nat.mul_le_mul_left _ (le_max_right 1 img.info.channels)
  refine scale_core P (checkNonNeg_is hxf (by positivity)) (checkNonNeg_is hyf (by positivity))
    (scaleDim_int hxf (by omega) hw) (scaleDim_int hyf (by omega) hh)
    ⟨by show _ < 4294967296; dsimp only; omega, by show _ < 4294967296; dsimp only; omega, h.channels,
      by show _ < 4294967296; dsimp only; omega, by show _ < 4294967296; dsimp only; omega⟩ _ ?_ ?_
  · intro x y hx hy
    exact Image.px_length h (hlx x hx) (hly y hy)
  · intro x y hx hy
    unfold interpolate interpolateNearestNeighbor
    dsimp only
    rw [u32Add_ok (by show _ < 4294967296; omega), ok_bind, u32Add_ok (by show _ < 4294967296; omega), ok_bind,
      nearest_coord hkx hkx' hxf (by omega), nearest_coord hky hky' hyf (by omega)]
    exact Image.getPixel_eq P h (hlx x hx) (hly y hy)

/-- doubling the width and tripling the height of any 3×2 image -/
example (P : Profile) (a b c d e f : F32) : ∃ out,
    scale P (gray6 a b c d e f) (num 2) (num 3) .nearestNeighbor = .ok out ∧
      out.getPixel P 3 4 = .ok ((gray6 a b c d e f).px 1 1) := by
  have h2 : (num 2 : F32).Is ((2 : Nat) : Rat) := by simpa using num32 (n := 2) (by decide)
  have h3 : (num 3 : F32).Is ((3 : Nat) : Rat) := by simpa using num32 (n := 3) (by decide)
  obtain ⟨out, h, ho⟩ := c66_nearest_integer P (gray6_WF a b c d e f) h2 h3 (by decide) (by decide)
    (by dims) (by dims) (by decide) (by decide) (by dims)
  exact ⟨out, h, ho.2.2 P 3 4 (show 3 < 6 by decide) (show 4 < 6 by decide)⟩

/-- **C66** scaling by 1 is the identity -/
theorem c66_identity (P : Profile) {img : Image F32} (h : img.WF) {xf yf : F32} (hxf : xf.Is 1) (hyf : yf.Is 1)
    (hw : img.info.width ≤ 16777216) (hh : img.info.height ≤ 16777216) :
    scale P img xf yf .nearestNeighbor = .ok img := by
  obtain ⟨out, e, ho⟩ := c66_nearest_integer P h (kx := 1) (ky := 1) (by simpa using hxf) (by simpa using hyf)
    (by omega) (by omega) (by omega) (by omega) (by omega) (by omega) (by
      rw [Nat.one_mul, Nat.one_mul]
      have := h.size; have := h.full
      rcases Nat.le_total 1 img.info.channels with hc | hc
      · rw [max_eq_right hc]; exact h.full
      · rw [max_eq_left hc, Nat.mul_one]; exact h.size)
  rw [e]
  congr 1
  have hi : (⟨1 * img.info.width, 1 * img.info.height, img.info.channels, img.info.alpha⟩ : ImageInfo) = img.info := by
    simp
  rw [hi] at ho
  simp only [Nat.div_one] at ho
  exact ho.ext h.shows

example (P : Profile) (a b c d e f : F32) :
    scale P (rgb2 a b c d e f) (num 1) (num 1) .nearestNeighbor = .ok (rgb2 a b c d e f) :=
  have h1 : (num 1 : F32).Is 1 := by simpa using num32 (n := 1) (by decide)
  c66_identity P (rgb2_WF ..) h1 h1 (by dims) (by dims)

end
end Imgproc

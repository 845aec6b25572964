import Verif.Props.Shear
import Verif.Props.Dyadic
import Verif.Props.Scale2
import Verif.Proofs.ErrSum
/-! Property C122: shear in IEEE f32. -/
namespace Imgproc
open FloatOps

/-- **Specification**: the exact distance by which `shear` moves line `k` of `n` with factor `s` -/
def shearDist (n : Nat) (s : Rat) (k : Nat) : Rat := |s| * (if 0 < s then (n : Rat) - k else k)

/-- **Specification**: the growth of the image, `floor (n |s|)` -/
def shearGrowQ (n : Nat) (s : Rat) : Nat := ⌊(n : Rat) * |s|⌋₊

/-- **Specification**: the product `n |s|` that decides the growth is not closer than a relative `2^-22` (of the output side) to the next
larger integer -/
def SafeGrow (w n : Nat) (s : Rat) : Prop := (n : Rat) * |s| + (w + n * |s|) / 2 ^ 22 < (⌊(n : Rat) * |s|⌋₊ : Rat) + 1

/-- the position computed by the code, as a number -/
def shearNum (n : Nat) (s : Rat) (x k : Nat) : Rat :=
  let a := f32.rnd (x + f32.rnd (-s * k))
  if 0 < s then f32.rnd (a + f32.rnd (n * |s|)) else a

theorem shearDist_le {n k : Nat} (s : Rat) (hk : k ≤ n) : 0 ≤ shearDist n s k ∧ shearDist n s k ≤ n * |s| := by
  unfold shearDist
  have hk' : (k : Rat) ≤ n := by exact_mod_cast hk
  have k0 : (0 : Rat) ≤ k := by positivity
  constructor
  · refine mul_nonneg (abs_nonneg s) ?_
    split <;> linarith
  · rw [mul_comm]
    refine mul_le_mul_of_nonneg_right ?_ (abs_nonneg s)
    split <;> linarith

/-- the computed position is close to the exact one -/
theorem shearNum_err {n k x w : Nat} (s : Rat) (hk : k ≤ n) (hx : x < w) :
    |shearNum n s x k - (x + shearDist n s k)| ≤ (w + n * |s|) / 2 ^ 20 := by
  have hk' : (k : Rat) ≤ n := by exact_mod_cast hk
  have k0 : (0 : Rat) ≤ k := by positivity
  have x0 : (0 : Rat) ≤ x := by positivity
  have hx' : (x : Rat) + 1 ≤ w := by exact_mod_cast hx
  have s0 := abs_nonneg s
  have ks : (k : Rat) * |s| ≤ n * |s| := mul_le_mul_of_nonneg_right hk' s0
  have ks0 : 0 ≤ (k : Rat) * |s| := by positivity
  have e1 := rnd_err_add (-s * k)
  have a1 : |(-s * k : Rat)| = k * |s| := by rw [abs_mul, abs_neg, Nat.abs_cast, mul_comm]
  rw [a1] at e1
  unfold shearNum shearDist
  dsimp only
  generalize hr1 : f32.rnd (-s * k) = r1 at e1 ⊢
  have e2 := rnd_err_add (x + r1)
  have b1 : |(x : Rat) + r1| ≤ w + 2 * (n * |s|) := by
    have h1 := abs_add_le (x : Rat) r1
    have h2 := abs_add_le (r1 - -s * k) (-s * k)
    rw [sub_add_cancel, a1] at h2
    rw [abs_of_nonneg x0] at h1
    have : (1 : Rat) / 2 ^ 150 ≤ 1 / 2 := by norm_num
    linarith
  generalize hr2 : f32.rnd (x + r1) = r2 at e2 ⊢
  replace e2 : |r2 - (x + r1)| ≤ (w + 2 * (n * |s|)) / 2 ^ 24 + 1 / 2 ^ 150 := le_trans e2 (by gcongr)
  have tiny' : (1 : Rat) / 2 ^ 150 ≤ 1 := by norm_num
  have tiny : (1 : Rat) / 2 ^ 150 ≤ (w : Rat) / 2 ^ 40 := by
    have : (1 : Rat) ≤ w := by linarith
    have h3 : (1 : Rat) / 2 ^ 40 ≤ w / 2 ^ 40 := by gcongr
    exact le_trans (by norm_num) h3
  have w0 : (0 : Rat) ≤ w := by positivity
  have ns0 : 0 ≤ (n : Rat) * |s| := by positivity
  split
  · rename_i hs
    have e3 := rnd_err_add ((n : Rat) * |s|)
    rw [abs_of_nonneg ns0] at e3
    generalize hr3 : f32.rnd ((n : Rat) * |s|) = r3 at e3 ⊢
    have e4 := rnd_err_add (r2 + r3)
    have b2 : |r2 + r3| ≤ 2 * (w + 2 * (n * |s|)) + 2 * (n * |s|) := by
      have h1 := abs_add_le r2 r3
      have h2 := abs_add_le (r2 - (x + r1)) (x + r1)
      rw [sub_add_cancel] at h2
      have h3 := abs_add_le (r3 - n * |s|) (n * |s|)
      rw [sub_add_cancel, abs_of_nonneg ns0] at h3
      linarith
    generalize hr4 : f32.rnd (r2 + r3) = r4 at e4 ⊢
    replace e4 : |r4 - (r2 + r3)| ≤ (2 * (w + 2 * (n * |s|)) + 2 * (n * |s|)) / 2 ^ 24 + 1 / 2 ^ 150 := le_trans e4 (by gcongr)
    have e : r4 - (x + |s| * ((n : Rat) - k)) = (r4 - (r2 + r3)) + (r2 - (x + r1)) + (r3 - n * |s|) + (r1 - -s * k) := by
      rw [abs_of_pos hs]; ring
    rw [e]
    have t1 := abs_add_le (r4 - (r2 + r3) + (r2 - (x + r1)) + (r3 - n * |s|)) (r1 - -s * k)
    have t2 := abs_add_le (r4 - (r2 + r3) + (r2 - (x + r1))) (r3 - n * |s|)
    have t3 := abs_add_le (r4 - (r2 + r3)) (r2 - (x + r1))
    linarith
  · rename_i hs
    have e : r2 - (x + |s| * (k : Rat)) = (r2 - (x + r1)) + (r1 - -s * k) := by
      rw [abs_of_nonpos (not_lt.1 hs)]; ring
    rw [e]
    have t1 := abs_add_le (r2 - (x + r1)) (r1 - -s * k)
    linarith
section
variable [Libm f32]

theorem shearOff_is {s : F32} {σ : Rat} (hs : s.Is σ) {n : Nat} (hn : n ≤ 16777216) (hb : (n : Rat) * |σ| ≤ 2 ^ 30) :
    (FloatOps.abs (ofNat (F := F32) n *. s)).Is (f32.rnd (n * |σ|)) := by
  have e : |(n : Rat) * σ| = n * |σ| := by rw [abs_mul, Nat.abs_cast]
  have h := abs_is (mul_is (nat32 hn) hs (f32_ovf (by rw [e]; exact le_trans hb (by norm_num))))
  rw [show |f32.rnd ((n : Rat) * σ)| = f32.rnd (n * |σ|) from by
    rw [← e]; exact abs_rndQ (f := f32.toRFmt) _] at h
  exact h

theorem shearSign {s : F32} {σ : Rat} (hs : s.Is σ) : (s >. num 0) = decide (0 < σ) := by
  show (num 0 <. s) = _
  rw [lt_is (num32 (n := 0) (by decide)) hs]; simp

theorem shearProd_is {s : F32} {σ : Rat} (hs : s.Is σ) {n k : Nat} (hn : n ≤ 16777216) (hk : k ≤ n) (hb : (n : Rat) * |σ| ≤ 2 ^ 30) :
    (FloatOps.neg s *. ofNat k).Is (f32.rnd (-σ * k)) ∧ |(-σ * k : Rat)| ≤ 2 ^ 30 := by
  have a : |(-σ * k : Rat)| ≤ 2 ^ 30 := by
    rw [abs_mul, abs_neg, Nat.abs_cast, mul_comm]
    refine le_trans (mul_le_mul_of_nonneg_right ?_ (abs_nonneg σ)) hb
    exact_mod_cast hk
  exact ⟨mul_is (neg_is hs) (nat32 (by omega)) (f32_ovf (le_trans a (by norm_num))), a⟩

omit [Libm f32] in
theorem shear_ovf {x : Nat} (hx : x ≤ 16777216) {r : Rat} (hr : |r| ≤ 2 ^ 30) : |(x : Rat) + f32.rnd r| ≤ 2 ^ 33 := by
  have h1 := rnd_err_add r
  have h2 := abs_add_le (f32.rnd r - r) r
  rw [sub_add_cancel] at h2
  have h3 := abs_add_le (x : Rat) (f32.rnd r)
  have hx' : (x : Rat) ≤ 16777216 := by exact_mod_cast hx
  rw [Nat.abs_cast] at h3
  generalize f32.rnd r = z at *
  generalize (x : Rat) = X at *
  norm_num at *
  linarith

theorem shearNum_is_aux {s a : F32} {σ : Rat} (hs : s.Is σ) {n k x : Nat} (hn : n ≤ 16777216) (hk : k ≤ n) (hx : x ≤ 16777216)
    (hb : (n : Rat) * |σ| ≤ 2 ^ 30) (ha : a.Is (f32.rnd (x + f32.rnd (-σ * k)))) :
    (if s >. num 0 then a +. FloatOps.abs (ofNat (F := F32) n *. s) else a : F32).Is (shearNum n σ x k) := by
  have hoff := shearOff_is hs hn hb
  rw [shearSign hs]
  unfold shearNum
  dsimp only
  by_cases h : 0 < σ
  · rw [if_pos (by simpa using h), if_pos h]
    refine add_is ha hoff (f32_ovf ?_)
    have h1 := shear_ovf hx (shearProd_is hs hn hk hb).2
    have h2 := rnd_err_add (x + f32.rnd (-σ * k))
    generalize f32.rnd (-σ * k) = r1 at *
    generalize f32.rnd ((x : Rat) + r1) = r2 at *
    have h3 := shear_ovf (x := 0) (by omega) (r := n * |σ|) (by rw [abs_of_nonneg (by positivity)]; exact hb)
    generalize f32.rnd ((n : Rat) * |σ|) = r3 at *
    have h4 := abs_add_le r2 r3
    have h5 := abs_add_le (r2 - (x + r1)) (x + r1)
    rw [sub_add_cancel] at h5
    norm_num at *
    linarith
  · rw [if_neg (by simpa using h), if_neg h]
    exact ha

theorem shearPosX_is {s : F32} {σ : Rat} (hs : s.Is σ) {n k x : Nat} (hn : n ≤ 16777216) (hk : k ≤ n) (hx : x ≤ 16777216)
    (hb : (n : Rat) * |σ| ≤ 2 ^ 30) : (shearPosX n s x k).Is (shearNum n σ x k) := by
  refine shearNum_is_aux hs hn hk hx hb ?_
  have e0 : (ofU8 0 : F32).Is ((0 : Int) : Rat) := by simpa using ofU8_is 0
  have hx' := f32_nat (n := x) hx
  have h1 : (num 1 *. ofNat x : F32).Is (x : Rat) := by
    have := mul_exact (num32 (n := 1) (by decide)) (nat32 hx) (by simpa using hx')
    simpa using this
  have h4 : (ofU8 0 +. num 1 *. ofNat x : F32).Is (x : Rat) := by
    have := add_exact e0 h1 (by simpa using hx')
    simpa using this
  obtain ⟨h2, h3⟩ := shearProd_is hs hn hk hb
  exact add_is h4 h2 (f32_ovf (le_trans (shear_ovf hx h3) (by norm_num)))

theorem shearPosY_is {s : F32} {σ : Rat} (hs : s.Is σ) {n k x : Nat} (hn : n ≤ 16777216) (hk : k ≤ n) (hx : x ≤ 16777216)
    (hb : (n : Rat) * |σ| ≤ 2 ^ 30) : (shearPosY n s k x).Is (shearNum n σ x k) := by
  refine shearNum_is_aux hs hn hk hx hb ?_
  have e0 : (ofU8 0 : F32).Is ((0 : Int) : Rat) := by simpa using ofU8_is 0
  have hx' := f32_nat (n := x) hx
  have h1 : (num 1 *. ofNat x : F32).Is (x : Rat) := by
    have := mul_exact (num32 (n := 1) (by decide)) (nat32 hx) (by simpa using hx')
    simpa using this
  obtain ⟨h2, h3⟩ := shearProd_is hs hn hk hb
  have h4 : (ofU8 0 +. FloatOps.neg s *. ofNat k : F32).Is (f32.rnd (-σ * k)) := by
    have hz : f32.rnd ((0 : Int) + f32.rnd (-σ * k)) = f32.rnd (-σ * k) := by
      rw [Int.cast_zero, zero_add]; exact rndQ_of_rep (rndQ_rep (f := f32.toRFmt) _)
    have := add_is e0 h2 (by rw [hz]; exact f32_ovf (le_trans h3 (by norm_num)))
    rw [hz] at this
    exact this
  have := add_is h4 h1 (by rw [add_comm]; exact f32_ovf (le_trans (shear_ovf hx h3) (by norm_num)))
  rw [add_comm (f32.rnd (-σ * k))] at this
  exact this

omit [Libm f32] in
/-- the offset is rounded to a number with the same integer part, if it is not just below an integer -/
theorem safe_off {w n : Nat} {s : Rat} (hw : 0 < w) (h : SafeGrow w n s) (hb : (n : Rat) * |s| ≤ 2 ^ 23) :
    (shearGrowQ n s : Rat) ≤ f32.rnd (n * |s|) ∧ f32.rnd (n * |s|) < shearGrowQ n s + 1 ∧
      f32.rnd ((w : Rat) - 1 + f32.rnd (n * |s|)) < w + shearGrowQ n s ∧ shearGrowQ n s ≤ 8388608 := by
  unfold SafeGrow at h
  have ns0 : 0 ≤ (n : Rat) * |s| := by positivity
  have hg : shearGrowQ n s ≤ 8388608 := by
    unfold shearGrowQ
    have := Nat.floor_le_floor hb
    have e : ⌊(2 ^ 23 : Rat)⌋₊ = 8388608 := by norm_num
    omega
  have hfl := Nat.floor_le ns0
  unfold shearGrowQ at *
  have e1 := rnd_err_add ((n : Rat) * |s|)
  rw [abs_of_nonneg ns0] at e1
  have hw' : (1 : Rat) ≤ w := by exact_mod_cast hw
  have hge : (⌊(n : Rat) * |s|⌋₊ : Rat) ≤ f32.rnd (n * |s|) :=
    le_rndQ (f := f32.toRFmt) (f32_nat (n := ⌊(n : Rat) * |s|⌋₊) (by omega)).1 hfl
  have r0 : (0 : Rat) ≤ f32.rnd (n * |s|) := le_trans (by positivity) hge
  generalize f32.rnd ((n : Rat) * |s|) = r at *
  generalize ⌊(n : Rat) * |s|⌋₊ = g at *
  generalize (n : Rat) * |s| = z at *
  have e2 := rnd_err_add ((w : Rat) - 1 + r)
  rw [abs_of_nonneg (show (0 : Rat) ≤ (w : Rat) - 1 + r by linarith)] at e2
  generalize f32.rnd ((w : Rat) - 1 + r) = r2 at *
  rw [abs_le] at e1 e2
  have t : (1 : Rat) / 2 ^ 150 ≤ 1 / 2 ^ 60 := by norm_num
  refine ⟨hge, ?_, ?_, hg⟩
  · linarith [e1.2]
  · linarith [e1.2, e2.2]

omit [Libm f32] in
/-- no position exceeds that of the last pixel of the line that moves most -/
theorem shearNum_le {w n k x : Nat} {s : Rat} (hk : k ≤ n) (hx : x < w) (hw : w ≤ 8388608) :
    shearNum n s x k ≤ f32.rnd ((w : Rat) - 1 + f32.rnd (n * |s|)) := by
  have hx' : (x : Rat) ≤ w - 1 := by
    have : (x : Rat) + 1 ≤ w := by exact_mod_cast hx
    linarith
  have k0 : (0 : Rat) ≤ k := by positivity
  unfold shearNum
  dsimp only
  split
  · rename_i hs
    refine rndQ_mono (add_le_add ?_ le_rfl)
    refine le_trans (rndQ_le (f := f32.toRFmt) (f32_nat (n := x) (by omega)).1 ?_) hx'
    have : f32.rnd (-s * k) ≤ 0 := rndQ_nonpos (by nlinarith)
    linarith
  · rename_i hs
    refine rndQ_mono (add_le_add hx' (rndQ_mono ?_))
    rw [abs_of_nonpos (not_lt.1 hs), mul_comm]
    exact mul_le_mul_of_nonneg_right (by exact_mod_cast hk) (by linarith)

theorem shear_axis {s : F32} {σ : Rat} (_hs : s.Is σ) {w n k x : Nat} (hk : k ≤ n) (hx : x < w) (hw : w ≤ 8388608)
    (hb : (n : Rat) * |σ| ≤ 2 ^ 23) (hsafe : SafeGrow w n σ) {z : F32} (hz : z.Is (shearNum n σ x k)) :
    toU32 z < w + shearGrowQ n σ ∧ (x : Rat) + shearDist n σ k - 1 - (w + n * |σ|) / 2 ^ 20 < toU32 z ∧
      (toU32 z : Rat) ≤ x + shearDist n σ k + (w + n * |σ|) / 2 ^ 20 := by
  obtain ⟨-, -, h3, h4⟩ := safe_off (by omega) hsafe hb
  have hle := lt_of_le_of_lt (shearNum_le (s := σ) hk hx hw) h3
  have herr := shearNum_err σ hk hx
  obtain ⟨d0, d1⟩ := shearDist_le σ hk
  have x0 : (0 : Rat) ≤ x := by positivity
  rw [abs_le] at herr
  have w1 : (1 : Rat) ≤ w := by exact_mod_cast (by omega : 1 ≤ w)
  by_cases hq : 0 ≤ shearNum n σ x k
  · obtain ⟨a, b⟩ := toU32_is hz hq (n := w + shearGrowQ n σ) (by push_cast; exact hle) (by omega)
    refine ⟨a, ?_, ?_⟩
    · have h5 := Int.lt_floor_add_one (shearNum n σ x k)
      have h6 : (toU32 z : Int) = ⌊shearNum n σ x k⌋ := b
      have h7 : ((toU32 z : Int) : Rat) = ((⌊shearNum n σ x k⌋ : Int) : Rat) := by rw [h6]
      rw [Int.cast_natCast] at h7
      linarith [herr.1]
    · have h5 := Int.floor_le (shearNum n σ x k)
      have h6 : (toU32 z : Int) = ⌊shearNum n σ x k⌋ := b
      have h7 : ((toU32 z : Int) : Rat) = ((⌊shearNum n σ x k⌋ : Int) : Rat) := by rw [h6]
      rw [Int.cast_natCast] at h7
      linarith [herr.2]
  · push Not at hq
    have hz0 : toU32 z = 0 := by
      unfold toU32
      rw [toInt_is hz]
      have := truncQ_mono hq.le
      have e : FP.truncQ 0 = 0 := by decide
      rw [e] at this
      simp only [Int.toNat_eq_zero]
      omega
    rw [hz0]
    have p0 : (0 : Rat) ≤ (w + n * |σ|) / 2 ^ 20 := by positivity
    refine ⟨by omega, ?_, ?_⟩
    · push_cast
      linarith [herr.1]
    · push_cast
      linarith

/-- a shear whose output fits the machine types and whose growth is not ambiguous -/
structure ShearInput32 (img : Image F32) (sx sy : F32) (σ τ : Rat) : Prop where
  wf : img.WF
  x : sx.Is σ
  y : sy.Is τ
  w0 : 0 < img.info.width
  h0 : 0 < img.info.height
  w : img.info.width ≤ 8388608
  h : img.info.height ≤ 8388608
  bx : (img.info.height : Rat) * |σ| ≤ 2 ^ 23
  by' : (img.info.width : Rat) * |τ| ≤ 2 ^ 23
  info : ImageInfo.WF ⟨img.info.width + shearGrowQ img.info.height σ, img.info.height + shearGrowQ img.info.width τ,
    img.info.channels, img.info.alpha⟩

/-- **C122** `shear` in f32: if neither `H |sx|` nor `W |sy|` lies just below an integer, the shear succeeds, its output has the exact
size `W + floor(H |sx|)` by `H + floor(W |sy|)`; every pixel is moved to a position that differs from the exact one by less than one pixel
downwards and by at most `(W + H |sx|) / 2^20` upwards (the truncation to a pixel plus rounding); an output pixel is a copy of one of
the pixels moved there, or zero if there is none. -/
theorem c122_shear (P : Profile) {img : Image F32} {sx sy : F32} {σ τ : Rat} (h : ShearInput32 img sx sy σ τ)
    (h1 : SafeGrow img.info.width img.info.height σ) (h2 : SafeGrow img.info.height img.info.width τ) :
    ∃ out, ∃ X Y : Nat → Nat → Nat, shear P img sx sy = .ok out ∧ out.WF ∧
      out.info = ⟨img.info.width + shearGrowQ img.info.height σ, img.info.height + shearGrowQ img.info.width τ,
        img.info.channels, img.info.alpha⟩ ∧
      (∀ x y, x < img.info.width → y < img.info.height →
        X x y < out.info.width ∧ Y x y < out.info.height ∧
        (x : Rat) + shearDist img.info.height σ y - 1 - (img.info.width + img.info.height * |σ|) / 2 ^ 20 < X x y ∧
        (X x y : Rat) ≤ x + shearDist img.info.height σ y + (img.info.width + img.info.height * |σ|) / 2 ^ 20 ∧
        (y : Rat) + shearDist img.info.width τ x - 1 - (img.info.height + img.info.width * |τ|) / 2 ^ 20 < Y x y ∧
        (Y x y : Rat) ≤ y + shearDist img.info.width τ x + (img.info.height + img.info.width * |τ|) / 2 ^ 20) ∧
      ∀ x' y', x' < out.info.width → y' < out.info.height →
        (∃ x y, x < img.info.width ∧ y < img.info.height ∧ X x y = x' ∧ Y x y = y' ∧ out.px x' y' = img.px x y) ∨
        ((∀ x y, x < img.info.width → y < img.info.height → ¬ (X x y = x' ∧ Y x y = y')) ∧
          out.px x' y' = List.replicate img.info.channels (ofU8 0)) := by
  have hw := h.w
  have hh := h.h
  have bx := h.bx
  have by' := h.by'
  have b30 : (2 : Rat) ^ 23 ≤ 2 ^ 30 := by norm_num
  have aX : ∀ x y, x < img.info.width → y < img.info.height → _ := fun x y hx hy =>
    shear_axis h.x hy.le hx hw bx h1 (shearPosX_is h.x (by omega) hy.le (by omega) (le_trans bx b30))
  have aY : ∀ x y, x < img.info.width → y < img.info.height → _ := fun x y hx hy =>
    shear_axis h.y hx.le hy hh by' h2 (shearPosY_is h.y (by omega) hx.le (by omega) (le_trans by' b30))
  have grow : ∀ {w n : Nat} {s : F32} {σ : Rat}, s.Is σ → 0 < w → n ≤ 8388608 → (n : Rat) * |σ| ≤ 2 ^ 23 → SafeGrow w n σ →
      toU32 (FloatOps.abs (ofNat (F := F32) n *. s)) = shearGrowQ n σ := by
    intro w n s σ hs hw hn hb hsafe
    obtain ⟨a, b, -, c⟩ := safe_off hw hsafe hb
    have ho := shearOff_is hs (by omega) (le_trans hb b30)
    have r0 : (0 : Rat) ≤ f32.rnd (n * |σ|) := le_trans (by positivity) a
    obtain ⟨-, e⟩ := toU32_is ho r0 (n := shearGrowQ n σ + 1) (by push_cast; exact b) (by omega)
    have : (f32.rnd ((n : Rat) * |σ|)).floor = (shearGrowQ n σ : Int) := by
      show ⌊f32.rnd ((n : Rat) * |σ|)⌋ = _
      rw [Int.floor_eq_iff]
      exact ⟨by exact_mod_cast a, by exact_mod_cast b⟩
    rw [this] at e
    exact_mod_cast e
  obtain ⟨out, e, wf, inf, hv⟩ := shear_core P h.wf (sx := sx) (sy := sy) (by rw [grow h.x h.w0 hh bx h1])
    (by rw [grow h.y h.h0 hw by' h2]) h.info (fun x y hx hy => (aX x y hx hy).1) (fun x y hx hy => (aY x y hx hy).1)
  refine ⟨out, fun x y => toU32 (shearPosX img.info.height sx x y), fun x y => toU32 (shearPosY img.info.width sy x y), e, wf, inf, fun x y hx hy => ?_, fun x' y' hx hy => ?_⟩
  · rw [inf]
    obtain ⟨a, b, c⟩ := aX x y hx hy
    obtain ⟨a', b', c'⟩ := aY x y hx hy
    exact ⟨a, a', b, c, b', c'⟩
  · rw [inf] at hx hy
    exact hv x' y' hx hy

/-! ### factors for which nothing is rounded -/

omit [Libm f32] in
theorem shearNum_dyadic {n k x w j : Nat} {m : Int} (hk : k ≤ n) (hx : x < w) (hj : j ≤ 24)
    (hb : (w * 2 ^ j : Int) + n * |m| ≤ 16777216) : shearNum n ((m : Rat) / 2 ^ j) x k = x + shearDist n ((m : Rat) / 2 ^ j) k := by
  have p0 : (0 : Rat) < 2 ^ j := by positivity
  have hkm : (k : Int) * |m| ≤ n * |m| := mul_le_mul_of_nonneg_right (by exact_mod_cast hk) (abs_nonneg m)
  have km0 : 0 ≤ (k : Int) * |m| := by positivity
  have hxw : (x * 2 ^ j : Int) ≤ w * 2 ^ j := mul_le_mul_of_nonneg_right (by exact_mod_cast hx.le) (by positivity)
  have x0 : 0 ≤ (x * 2 ^ j : Int) := by positivity
  have w0 : 0 ≤ (w * 2 ^ j : Int) := by positivity
  have akm : |-m * (k : Int)| = k * |m| := by rw [abs_mul, abs_neg, Nat.abs_cast, mul_comm]
  have e1 : f32.rnd (-((m : Rat) / 2 ^ j) * k) = ((-m * k : Int) : Rat) / 2 ^ j := by
    have : (-((m : Rat) / 2 ^ j) * k) = ((-m * k : Int) : Rat) / 2 ^ j := by push_cast; ring
    rw [this]
    exact (f32_dy (by rw [akm]; omega) (by omega)).rnd
  have e2 : f32.rnd ((x : Rat) + ((-m * k : Int) : Rat) / 2 ^ j) = ((x * 2 ^ j + -m * k : Int) : Rat) / 2 ^ j := by
    have : ((x : Rat) + ((-m * k : Int) : Rat) / 2 ^ j) = ((x * 2 ^ j + -m * k : Int) : Rat) / 2 ^ j := by
      push_cast; field_simp
    rw [this]
    refine (f32_dy ?_ (by omega)).rnd
    have := abs_add_le (x * 2 ^ j : Int) (-m * k)
    rw [akm, abs_of_nonneg x0] at this
    omega
  have e3 : f32.rnd ((n : Rat) * |(m : Rat) / 2 ^ j|) = ((n * |m| : Int) : Rat) / 2 ^ j := by
    have : ((n : Rat) * |(m : Rat) / 2 ^ j|) = ((n * |m| : Int) : Rat) / 2 ^ j := by
      rw [abs_div, abs_of_pos p0]; push_cast; ring
    rw [this]
    refine (f32_dy ?_ (by omega)).rnd
    rw [abs_of_nonneg (by positivity)]
    omega
  have e4 : 0 < m → f32.rnd (((x * 2 ^ j + -m * k : Int) : Rat) / 2 ^ j + ((n * |m| : Int) : Rat) / 2 ^ j) =
      ((x * 2 ^ j + -m * k + n * |m| : Int) : Rat) / 2 ^ j := by
    intro hm
    rw [← add_div, ← Int.cast_add]
    refine (f32_dy ?_ (by omega)).rnd
    rw [abs_of_pos hm] at *
    rw [abs_le]
    constructor <;> nlinarith
  unfold shearNum shearDist
  dsimp only
  rw [e1, e2, e3]
  by_cases hm : 0 < m
  · have hm' : 0 < (m : Rat) / 2 ^ j := div_pos (by exact_mod_cast hm) p0
    rw [if_pos hm', if_pos hm', e4 hm, abs_of_pos hm', abs_of_pos hm]
    push_cast; field_simp; ring
  · have hm' : ¬ 0 < (m : Rat) / 2 ^ j := by
      rw [not_lt]; exact div_nonpos_of_nonpos_of_nonneg (by exact_mod_cast not_lt.1 hm) p0.le
    rw [if_neg hm', if_neg hm', abs_of_nonpos (not_lt.1 hm')]
    push_cast; field_simp

/-- **C122** shears by multiples of `1 / 2^j` are exact in f32: as long as `W 2^j + H |a|` and `H 2^j + W |b|` do not exceed `2^24`,
the shear by `a / 2^j` and `b / 2^j` succeeds, the output is `W + floor(H |sx|)` by `H + floor(W |sy|)` pixels, the pixel `(x, y)` moves
to exactly `(x + floor(dist_x(y)), y + floor(dist_y(x)))`, and positions that receive no pixel are zero. -/
theorem c122_dyadic (P : Profile) {img : Image F32} (h : img.WF) {sx sy : F32} {a b : Int} {j : Nat} (hj : j ≤ 24)
    (hx : sx.Is ((a : Rat) / 2 ^ j)) (hy : sy.Is ((b : Rat) / 2 ^ j))
    (ha : (img.info.width * 2 ^ j : Int) + img.info.height * |a| ≤ 16777216)
    (hb : (img.info.height * 2 ^ j : Int) + img.info.width * |b| ≤ 16777216)
    (hi : ImageInfo.WF ⟨img.info.width + shearGrowQ img.info.height ((a : Rat) / 2 ^ j),
      img.info.height + shearGrowQ img.info.width ((b : Rat) / 2 ^ j), img.info.channels, img.info.alpha⟩) :
    ∃ out, shear P img sx sy = .ok out ∧ out.WF ∧
      out.info = ⟨img.info.width + shearGrowQ img.info.height ((a : Rat) / 2 ^ j),
        img.info.height + shearGrowQ img.info.width ((b : Rat) / 2 ^ j), img.info.channels, img.info.alpha⟩ ∧
      ∀ x' y', x' < out.info.width → y' < out.info.height →
        (∃ x y, x < img.info.width ∧ y < img.info.height ∧ x + ⌊shearDist img.info.height ((a : Rat) / 2 ^ j) y⌋₊ = x' ∧
          y + ⌊shearDist img.info.width ((b : Rat) / 2 ^ j) x⌋₊ = y' ∧ out.px x' y' = img.px x y) ∨
        ((∀ x y, x < img.info.width → y < img.info.height → ¬ (x + ⌊shearDist img.info.height ((a : Rat) / 2 ^ j) y⌋₊ = x' ∧
          y + ⌊shearDist img.info.width ((b : Rat) / 2 ^ j) x⌋₊ = y')) ∧ out.px x' y' = List.replicate img.info.channels (ofU8 0)) := by
  have pj : (1 : Int) ≤ 2 ^ j := one_le_pow₀ (by norm_num)
  have le1 : ∀ {w n : Nat} {m : Int}, (w * 2 ^ j : Int) + n * |m| ≤ 16777216 → w ≤ 16777216 := by
    intro w n m h
    have : (w : Int) * 1 ≤ w * 2 ^ j := mul_le_mul_of_nonneg_left pj (by positivity)
    have h2 : 0 ≤ (n : Int) * |m| := by positivity
    omega
  have bd : ∀ {w n : Nat} {m : Int}, (w * 2 ^ j : Int) + n * |m| ≤ 16777216 → (n : Rat) * |(m : Rat) / 2 ^ j| ≤ 16777216 := by
    intro w n m h
    have h1 : (n : Int) * |m| ≤ 16777216 := by
      have : 0 ≤ (w * 2 ^ j : Int) := by positivity
      omega
    have h2 : (n : Rat) * |(m : Rat)| ≤ 16777216 := by exact_mod_cast h1
    rw [abs_div, abs_of_pos (show (0 : Rat) < 2 ^ j by positivity), ← mul_div_assoc]
    exact le_trans (div_le_self (by positivity) (one_le_pow₀ (by norm_num))) h2
  have b30 : (16777216 : Rat) ≤ 2 ^ 30 := by norm_num
  have ax : ∀ {w n k x : Nat} {m : Int} {z : F32}, (w * 2 ^ j : Int) + n * |m| ≤ 16777216 → k ≤ n → x < w →
      z.Is (shearNum n ((m : Rat) / 2 ^ j) x k) → toU32 z = x + ⌊shearDist n ((m : Rat) / 2 ^ j) k⌋₊ ∧
        toU32 z < w + shearGrowQ n ((m : Rat) / 2 ^ j) := by
    intro w n k x m z hb hk hx hz
    rw [shearNum_dyadic hk hx hj hb] at hz
    obtain ⟨d0, d1⟩ := shearDist_le ((m : Rat) / 2 ^ j) hk
    have := bd hb
    have hw := le1 hb
    have x0 : (0 : Rat) ≤ x := by positivity
    have xw : (x : Rat) ≤ 16777216 := by exact_mod_cast (by omega : x ≤ 16777216)
    obtain ⟨-, e⟩ := toU32_is hz (by linarith) (n := 33554433) (by norm_num; linarith) (by omega)
    have e' : (toU32 z : Int) = ⌊(x : Rat) + shearDist n ((m : Rat) / 2 ^ j) k⌋ := e
    rw [← Int.natCast_floor_eq_floor (by linarith), add_comm, Nat.floor_add_natCast d0] at e'
    have e'' : toU32 z = x + ⌊shearDist n ((m : Rat) / 2 ^ j) k⌋₊ := by omega
    refine ⟨e'', ?_⟩
    have := Nat.floor_le_floor d1
    unfold shearGrowQ
    omega
  have grow : ∀ {w n : Nat} {s : F32} {m : Int}, s.Is ((m : Rat) / 2 ^ j) → n ≤ 16777216 → (w * 2 ^ j : Int) + n * |m| ≤ 16777216 →
      toU32 (FloatOps.abs (ofNat (F := F32) n *. s)) = shearGrowQ n ((m : Rat) / 2 ^ j) := by
    intro w n s m hs hn hb
    have ho := shearOff_is hs hn (le_trans (bd hb) b30)
    have e3 : f32.rnd ((n : Rat) * |(m : Rat) / 2 ^ j|) = (n : Rat) * |(m : Rat) / 2 ^ j| := by
      have : ((n : Rat) * |(m : Rat) / 2 ^ j|) = ((n * |m| : Int) : Rat) / 2 ^ j := by
        rw [abs_div, abs_of_pos (show (0 : Rat) < 2 ^ j by positivity)]; push_cast; ring
      rw [this]
      refine (f32_dy ?_ (by omega)).rnd
      have : 0 ≤ (w * 2 ^ j : Int) := by positivity
      rw [abs_of_nonneg (by positivity)]
      omega
    rw [e3] at ho
    have r0 : (0 : Rat) ≤ (n : Rat) * |(m : Rat) / 2 ^ j| := by positivity
    obtain ⟨-, e⟩ := toU32_is ho r0 (n := 16777217) (by have := bd hb; norm_num; linarith) (by omega)
    have e' : (toU32 (FloatOps.abs (ofNat (F := F32) n *. s)) : Int) = ⌊(n : Rat) * |(m : Rat) / 2 ^ j|⌋ := e
    rw [← Int.natCast_floor_eq_floor r0] at e'
    unfold shearGrowQ
    omega
  have hw := le1 ha
  have hh := le1 hb
  have pX := fun x y (h1 : x < img.info.width) (h2 : y < img.info.height) =>
    ax ha h2.le h1 (shearPosX_is hx hh h2.le (by omega) (le_trans (bd ha) b30))
  have pY := fun x y (h1 : x < img.info.width) (h2 : y < img.info.height) =>
    ax hb h1.le h2 (shearPosY_is hy hw h1.le (by omega) (le_trans (bd hb) b30))
  obtain ⟨out, e, wf, inf, hv⟩ := shear_core P h (sx := sx) (sy := sy) (by rw [grow hx hh ha]) (by rw [grow hy hw hb]) hi
    (fun x y h1 h2 => (pX x y h1 h2).2) (fun x y h1 h2 => (pY x y h1 h2).2)
  refine ⟨out, e, wf, inf, ?_⟩
  intro x' y' h1 h2
  rw [inf] at h1 h2
  rcases hv x' y' h1 h2 with ⟨x, y, h1, h2, e1, e2, e3⟩ | ⟨hn, e3⟩
  · exact Or.inl ⟨x, y, h1, h2, by rw [← (pX x y h1 h2).1]; exact e1, by rw [← (pY x y h1 h2).1]; exact e2, e3⟩
  · exact Or.inr ⟨fun x y h1 h2 he => hn x y h1 h2 ⟨by rw [(pX x y h1 h2).1]; exact he.1, by rw [(pY x y h1 h2).1]; exact he.2⟩, e3⟩

/-! ### an unlucky factor -/

omit [Libm f32] in
/-- a loop whose steps return or panic panics if one of them cannot return -/
theorem forRange_panics {σ} (I : σ → Prop) {a b m : Nat} {s : σ} {f : Nat → σ → Res σ} (h0 : I s)
    (hs : ∀ k s, a ≤ k → k ≤ m → I s → (∃ s', f k s = .ok s' ∧ I s') ∨ Res.Panics (f k s)) (h1 : a ≤ m) (h2 : m < b)
    (hf : ∀ s, I s → Res.Panics (f m s)) : Res.Panics (forRange a b s f) := by
  obtain ⟨d, hd⟩ : ∃ d, m = a + d := ⟨m - a, by omega⟩
  induction d generalizing a s with
  | zero =>
    obtain rfl : m = a := hd
    rw [forRange_cons h2]
    exact (hf s h0).bind _
  | succ d ih =>
    rw [forRange_cons (by omega)]
    rcases hs a s le_rfl (by omega) h0 with ⟨s', e, h'⟩ | hp
    · rw [e, ok_bind]
      exact ih h' (fun k s hk => hs k s (by omega)) (by omega) (by omega)
    · exact hp.bind _

omit [Libm f32] in
/-- `w - 2^-24` is rounded to `w` -/
theorem rnd_just_below {w : Nat} (h3 : 3 ≤ w) (hw : w ≤ 16777216) : f32.rnd ((w : Rat) - 1 / 2 ^ 24) = w := by
  have hr : RepQ f32.toRFmt (w : Rat) := (f32_nat hw).1
  have hle : f32.rnd ((w : Rat) - 1 / 2 ^ 24) ≤ w := rndQ_le hr (by norm_num)
  have hn := rndQ_nearest ((w : Rat) - 1 / 2 ^ 24) hr
  obtain ⟨m, e, hq, hm, -⟩ := rndQ_rep (f := f32.toRFmt) ((w : Rat) - 1 / 2 ^ 24)
  change |f32.rnd ((w : Rat) - 1 / 2 ^ 24) - _| ≤ _ at hn
  change f32.rnd ((w : Rat) - 1 / 2 ^ 24) = _ at hq
  rw [show (w : Rat) - (w - 1 / 2 ^ 24) = 1 / 2 ^ 24 by ring, abs_of_pos (show (0 : Rat) < 1 / 2 ^ 24 by norm_num)] at hn
  by_contra hne
  have hlt : f32.rnd ((w : Rat) - 1 / 2 ^ 24) < w := lt_of_le_of_ne hle hne
  generalize f32.rnd ((w : Rat) - 1 / 2 ^ 24) = r at *
  have w3 : (3 : Rat) ≤ w := by exact_mod_cast h3
  rw [abs_le] at hn
  rcases le_or_gt (-22 : Int) e with he | he
  · obtain ⟨d, rfl⟩ : ∃ d : Nat, e = -22 + d := ⟨(e + 22).toNat, by omega⟩
    have e1 : r = ((m * 2 ^ d : Int) : Rat) / 2 ^ 22 := by
      rw [hq, pow2_eq, zpow_add₀ (by norm_num), zpow_natCast]
      push_cast
      norm_num
      ring
    have : (m * 2 ^ d : Int) < w * 2 ^ 22 := by
      have h : ((m * 2 ^ d : Int) : Rat) < w * 2 ^ 22 := by
        rw [e1, div_lt_iff₀ (by positivity)] at hlt; exact hlt
      exact_mod_cast h
    have h5 : ((m * 2 ^ d : Int) : Rat) + 1 ≤ w * 2 ^ 22 := by exact_mod_cast this
    generalize ((m * 2 ^ d : Int) : Rat) = z at *
    rw [e1] at hn
    norm_num at hn h5
    linarith [hn.1]
  · have h6 : r ≤ 2 := by
      rw [hq]
      have h7 : (m : Rat) ≤ 2 ^ 24 := by
        have : m ≤ 2 ^ 24 := le_trans (le_abs_self m) hm
        exact_mod_cast this
      have h8 : pow2 e ≤ pow2 (-23) := pow2_le.2 (by omega)
      have h9 : pow2 (-23) = 1 / 2 ^ 23 := by norm_num [pow2_eq]
      have h10 := pow2_pos e
      rw [h9] at h8
      calc (m : Rat) * pow2 e ≤ 2 ^ 24 * pow2 e := mul_le_mul_of_nonneg_right h7 h10.le
        _ ≤ 2 ^ 24 * (1 / 2 ^ 23) := mul_le_mul_of_nonneg_left h8 (by norm_num)
        _ = 2 := by norm_num
    have h11 : (1 : Rat) / 2 ^ 24 < 1 / 2 := by norm_num
    linarith [hn.1]

/-- **C122, violated without the condition**: there are factors for which `shear` panics on every image of at least three columns although
the exact result would fit: whenever the offset `H sx` is rounded to `1 - 2^-24` (for instance `sx = (1 - 2^-24) / H` with `H` a power of
two), the last pixel of the first row is sent to column `W` of an image `W` columns wide. -/
theorem c122_violated (P : Profile) {img : Image F32} (h : img.WF) {sx sy : F32} {σ : Rat} (hx : sx.Is σ) (hy : sy.Is 0) (h0 : 0 < σ)
    (hoff : f32.rnd (img.info.height * σ) = 1 - 1 / 2 ^ 24) (h3 : 3 ≤ img.info.width) (hw : img.info.width ≤ 16777216)
    (h1 : 0 < img.info.height) (hh : img.info.height ≤ 16777216) : Res.Panics (shear P img sx sy) := by
  have hb : (img.info.height : Rat) * |σ| ≤ 2 ^ 30 := by
    rw [abs_of_pos h0]
    by_contra hc
    push Not at hc
    have : (2 : Rat) ^ 20 ≤ f32.rnd (img.info.height * σ) :=
      le_rndQ (f := f32.toRFmt) (by have := (f32_nat (n := 2 ^ 20) (by norm_num)).1; exact_mod_cast this)
        (le_trans (by norm_num) hc.le)
    rw [hoff] at this
    norm_num at this
  have ho := shearOff_is hx hh hb
  rw [abs_of_pos h0, hoff] at ho
  have g0 : toU32 (FloatOps.abs (ofNat (F := F32) img.info.height *. sx)) = 0 := by
    have := (toU32_is ho (by norm_num) (n := 1) (by norm_num) (by omega)).1
    omega
  have hpos : toU32 (shearPosX img.info.height sx (img.info.width - 1) 0) = img.info.width := by
    have h4 := shearPosX_is hx (k := 0) (x := img.info.width - 1) hh (by omega) (by omega) hb
    have e : shearNum img.info.height σ (img.info.width - 1) 0 = (img.info.width : Rat) := by
      unfold shearNum
      dsimp only
      have hz : f32.rnd 0 = 0 := rndQ_zero _
      rw [if_pos h0, Nat.cast_zero, mul_zero, hz, add_zero, abs_of_pos h0, hoff,
        (f32_nat (n := img.info.width - 1) (by omega)).rnd, Nat.cast_sub (by omega)]
      rw [show ((img.info.width : Rat) - (1 : Nat) + (1 - 1 / 2 ^ 24)) = img.info.width - 1 / 2 ^ 24 by push_cast; ring]
      exact rnd_just_below h3 hw
    rw [e] at h4
    exact toU32_int h4 (by omega)
  have hi : ImageInfo.WF ⟨img.info.width, img.info.height, img.info.channels, img.info.alpha⟩ := h.infoWF
  obtain ⟨b, eb, hb'⟩ := Image.blank_eq P (FloatOps.rnum (F := F32)) hi
  unfold shear
  dsimp only
  have hw32 := hi.width
  have hh32 := hi.height
  rw [g0, shearOff_zero hy hw, u32Add_ok (by simpa using hw32), ok_bind, u32Add_ok (by simpa using hh32), ok_bind, Nat.add_zero,
    Nat.zero_add, eb, ok_bind, forRange_cons h1]
  refine Res.Panics.bind ?_ _
  have step : ∀ x (o : Image F32), x < img.info.width → (do
      let coords ← vectorMulMut P (FloatOps.rnum (F := F32)) [num 1, FloatOps.neg sx, FloatOps.neg sy, num 1] [ofNat x, ofNat 0] []
      let a ← idx coords 0
      let cx := if sx >. num 0 then a +. FloatOps.abs (ofNat (F := F32) img.info.height *. sx) else a
      let b ← idx coords 1
      let cy := if sy >. num 0 then b +. FloatOps.abs (ofNat (F := F32) img.info.width *. sy) else b
      let p ← img.getPixel P x 0
      o.setPixel P (toU32 cx) (toU32 cy) p) =
      o.setPixel P (toU32 (shearPosX img.info.height sx x 0)) (toU32 (shearPosY img.info.width sy x 0)) (img.px x 0) := by
    intro x o hx
    rw [vectorMulMut_2, ok_bind, Image.getPixel_eq P h hx h1]
    rfl
  refine forRange_panics (fun o : Image F32 => o.WF ∧ o.info = img.info) (m := img.info.width - 1) ⟨hb'.WF, hb'.info_eq⟩ ?_ (by omega)
    (by omega) ?_
  · intro k o _ hk ⟨wf, inf⟩
    rw [step k o (by omega)]
    obtain ⟨r1, r2⟩ := c02_set_pixel P o wf (toU32 (shearPosX img.info.height sx k 0)) (toU32 (shearPosY img.info.width sy k 0)) (img.px k 0)
    by_cases hc : toU32 (shearPosX img.info.height sx k 0) < o.info.width ∧ toU32 (shearPosY img.info.width sy k 0) < o.info.height ∧
      (img.px k 0).length = o.info.channels
    · left
      rw [Image.setPixel_eq P wf hc.1 hc.2.1 hc.2.2]
      exact ⟨_, rfl, Image.write_WF wf (row_lt hc.1 hc.2.1) hc.2.2, inf⟩
    · right
      exact r2.2 hc
  · intro o ⟨wf, inf⟩
    rw [step _ o (by omega), hpos]
    exact (c02_set_pixel P o wf _ _ _).2.2 (by rw [inf]; omega)

/-- the factor `1 - 2^-24`, one row of three pixels: `c122_violated` applies -/
example (P : Profile) (a b c : F32) (sx sy : F32) (hx : sx.Is (1 - 1 / 2 ^ 24)) (hy : sy.Is 0) :
    Res.Panics (shear P ⟨⟨3, 1, 1, false⟩, [a, b, c]⟩ sx sy) := by
  refine c122_violated P ⟨by simp, by simp, by simp, by simp, by simp, by simp⟩ hx hy (by norm_num) ?_ (by simp) (by simp)
    (by simp) (by simp)
  rw [show (((1 : Nat) : Rat) * (1 - 1 / 2 ^ 24)) = ((16777215 : Int) : Rat) / 2 ^ 24 by norm_num,
    (f32_dy (m := 16777215) (k := 24) (by decide) (by decide)).rnd]
  norm_num

/-- ... and there is such an f32 number -/
example : ∃ sx : F32, sx.Is (1 - 1 / 2 ^ 24) := by
  refine ⟨num 16777215 /. num 16777216, ?_⟩
  have := div_exact (num32 (n := 16777215) (by decide)) (num32 (n := 16777216) (by decide)) (by decide)
    (by have := f32_dy (m := 16777215) (k := 24) (by decide) (by decide); norm_num at this ⊢; exact this)
  norm_num at this ⊢
  exact this

/-- a non-trivial case: the 3 x 2 test image sheared by one half to the right and by minus a quarter downwards -/
example (P : Profile) (p0 p1 p2 p3 p4 p5 : F32) (sx sy : F32) (hx : sx.Is (((2 : Int) : Rat) / 2 ^ 2)) (hy : sy.Is (((-1 : Int) : Rat) / 2 ^ 2)) :
    ∃ out, shear P (gray6 p0 p1 p2 p3 p4 p5) sx sy = .ok out ∧ out.info = ⟨4, 2, 1, false⟩ := by
  have g1 : shearGrowQ 2 (((2 : Int) : Rat) / 2 ^ 2) = 1 := by unfold shearGrowQ; norm_num [abs_of_pos]
  have g2 : shearGrowQ 3 (((-1 : Int) : Rat) / 2 ^ 2) = 0 := by
    unfold shearGrowQ; rw [abs_of_neg (by norm_num)]; norm_num
  obtain ⟨out, e, -, inf, -⟩ := c122_dyadic P (gray6_WF p0 p1 p2 p3 p4 p5) (by decide) hx hy
    (show ((3 : Nat) * 2 ^ 2 : Int) + (2 : Nat) * |2| ≤ 16777216 by decide)
    (show ((2 : Nat) * 2 ^ 2 : Int) + (3 : Nat) * |-1| ≤ 16777216 by decide)
    (by
      show ImageInfo.WF ⟨3 + shearGrowQ 2 _, 2 + shearGrowQ 3 _, 1, false⟩
      rw [g1, g2]
      exact ⟨by decide, by decide, by decide, by decide, by decide⟩)
  refine ⟨out, e, ?_⟩
  rw [inf]
  show (⟨3 + shearGrowQ 2 _, 2 + shearGrowQ 3 _, 1, false⟩ : ImageInfo) = _
  rw [g1, g2]

/-- the condition of `c122_shear` is met by the same factors -/
example : SafeGrow 3 2 (1 / 2) ∧ SafeGrow 2 3 (-1 / 4) ∧ SafeGrow 640 480 (1 / 3) := by
  unfold SafeGrow
  refine ⟨?_, ?_, ?_⟩
  · rw [abs_of_pos (by norm_num)]; norm_num
  · rw [abs_of_neg (by norm_num)]
    have : (0 : Rat) ≤ (⌊((3 : Nat) : Rat) * -(-1 / 4)⌋₊ : Rat) := by positivity
    generalize (⌊((3 : Nat) : Rat) * -(-1 / 4)⌋₊ : Rat) = z at *
    norm_num; linarith
  · rw [abs_of_pos (by norm_num)]; norm_num
end
end Imgproc

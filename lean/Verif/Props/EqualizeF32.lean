import Verif.Props.Trip3
import Verif.Props.Equalize
/-! Property C112: histogram equalization in f32. -/
namespace Imgproc
open FloatOps

section
variable [Libm f32]

/-- the lightness of any colour is a float between -1 and 113 -/
theorem lab_light (hp : PowAccurate) (white : White) (a b c : UInt8) : ∃ (L A B : F32) (t : Rat),
    labOfSrgb white [a, b, c] = [L, A, B] ∧ L.Is t ∧ -1 ≤ t ∧ t ≤ 113 := by
  obtain ⟨W1, W2, W3, w1, w2, w3⟩ := white_near white
  obtain ⟨⟨x0, x1⟩, ⟨y0, y1⟩, z0, z1⟩ := exactXyz_bound a b c
  obtain ⟨x, y, z, e, hx, hy, hz⟩ := toXyz_near hp a b c
  obtain ⟨q, hq', q0, q1, bq⟩ := channel_trip hp w2 hy y0 (by linarith)
  have m : Near (num 116 *. xyzToLabFn (y *. num 100 /. (xyzTristimulusVals (F := F32) white).2.1)) (116 * (q : ℝ)) 8e-6 :=
    (Near.mul (B := 116) (C := 1.11) (Near.num (n := 116) (by decide)) (Near.exact hq') (by norm_num) (by rw [abs_of_nonneg (by linarith)]; exact q1)
      (by norm_num) (by norm_num) (by norm_num)).of_eq (by norm_num)
  obtain ⟨t, ht, hb⟩ := Near.sub (B := 113) (e' := 1.5e-5) m (Near.num (n := 16) (by decide)) (by norm_num)
    (by push_cast; rw [abs_le]; constructor <;> linarith) (by norm_num) (by norm_num)
  rw [abs_le] at hb
  push_cast at hb
  refine ⟨_, _, _, t, by unfold labOfSrgb; rw [List.map_cons, List.map_cons, List.map_cons, List.map_nil, e]; rfl, ht, ?_, ?_⟩
  · have : (-1 : ℝ) ≤ t := by linarith
    exact_mod_cast this
  · have : (t : ℝ) ≤ 113 := by linarith
    exact_mod_cast this

/-- spec: the share of the pixels of `lab` that `generate_histogram_percentiles` is meant to report for bin `k`: pixels in
this or a lower bin, plus one for each such bin that is not empty, over the number of pixels (a fraction, not rounded) -/
def Image.share (lab : Image F32) (precision : F32) (k : Int) : Rat :=
  ((atMost (intensityKeys lab precision) k + distinctAtMost (intensityKeys lab precision) k : ℕ) : Rat) /
    (lab.info.width * lab.info.height : ℕ)

/-- the float computed for the percentile -/
def Image.shareF (lab : Image F32) (precision : F32) (k : Int) : F32 :=
  FloatOps.ofInt ((atMost (intensityKeys lab precision) k : Int) + distinctAtMost (intensityKeys lab precision) k) /.
    ofNat (lab.info.width * lab.info.height)

/-- the float computed for the new lightness -/
def blendF (alpha pc n : F32) : F32 := (alpha *. pc *. num 100) +. ((num 1 -. alpha) *. n)

/-- what the function does, in the floats it computes -/
theorem equalize32 (hp : PowAccurate) (P : Profile) (white : White) (img : Image UInt8) (h : img.WF)
    (hpos : 0 < img.info.width ∧ 0 < img.info.height) (h3 : img.info.colours = 3)
    (hsmall : img.info.width * img.info.height < 1073741824)
    (alpha precision : F32) (c1 : (precision <. (num 0 : F32)) = false) (c2 : (alpha <. (num 0 : F32)) = false)
    (c3 : ((num 1 : F32) <. alpha) = false) :
    ∃ (lab : Image F32) (out : Image UInt8), srgbToLab P img white = .ok lab ∧
      histogramEqualization P img alpha white precision = .ok out ∧ out.WF ∧ out.info = img.info ∧ lab.info.width = img.info.width ∧
      lab.info.height = img.info.height ∧
      (∀ k, (k ∈ intensityKeys lab precision → 0 < atMost (intensityKeys lab precision) k)) ∧
      (∀ k, atMost (intensityKeys lab precision) k ≤ img.info.width * img.info.height) ∧
      ∀ x y, x < img.info.width → y < img.info.height →
        img.info.alphaOf (out.px x y) = img.info.alphaOf (img.px x y) ∧
        ∃ (L A B : F32), labOfSrgb white (img.info.colour (img.px x y)) = [L, A, B] ∧
          histKey L precision ∈ intensityKeys lab precision ∧
          img.info.colour (out.px x y) = srgbOfLab white
            [blendF alpha (lab.shareF precision (histKey L precision)) L, A, B] := by
  obtain ⟨o1, e1, h1⟩ := srgbToLab_CA (F := F32) P white h hpos h3
  obtain ⟨hch, -⟩ := colours3 h3
  have hi := h1.info_eq
  obtain ⟨m, em, hm⟩ := c26_exact P o1 h1.wf (by rw [hi]; omega) [] precision (by rw [hi]; exact hsmall)
  have hL : ∀ x y, x < img.info.width → y < img.info.height → ∃ L a b : F32, labOfSrgb white (img.info.colour (img.px x y)) = [L, a, b] ∧
      (o1.px x y).getD 0 (num 0) = L ∧ histKey L precision ∈ intensityKeys o1 precision := by
    intro x y hx hy
    have hcol := h1.colour x y hx hy
    obtain ⟨a, b, c, e⟩ := three_of_length (colour_len3 h h3 hx hy)
    obtain ⟨L, A, B, t, e', -⟩ := lab_light hp white a b c
    rw [e, e'] at hcol
    have hget : (o1.px x y).getD 0 (num 0) = L := by
      have := img.info.colour_append (o1.px x y)
      rw [hcol] at this
      rw [← this]; rfl
    refine ⟨L, A, B, by rw [e, e'], hget, ?_⟩
    unfold intensityKeys
    simp only [List.mem_flatMap, List.mem_range, List.mem_map]
    exact ⟨y, by rw [hi]; exact hy, x, by rw [hi]; exact hx, by rw [hget]⟩
  obtain ⟨o2, e2, h2⟩ := h1.edit P h3 (k := 0) (by decide)
    (f := equalizeValue m alpha precision)
    (g := fun n => blendF alpha (o1.shareF precision (histKey n precision)) n)
    (fun x y hx hy v hv => by
      obtain ⟨L, a, b, hab, -, hk⟩ := hL x y hx hy
      rw [hab] at hv
      have hv : L = v := Option.some.inj hv
      subst hv
      unfold equalizeValue
      rw [hm, if_pos hk]
      rfl)
  obtain ⟨o3, e3, h3'⟩ := labToSrgb_CA P white h2 hpos h3
  have k1 : checkNonNeg (FloatOps.rnum (F := F32)) precision = .ok () := by
    unfold checkNonNeg
    rw [if_neg]
    show ¬ (precision <. (ofU8 0 : F32)) = true
    have : (ofU8 0 : F32) = num 0 := rfl
    rw [this, c1]; decide
  have k2 : checkInRange (FloatOps.rnum (F := F32)) alpha (num 0) (num 1) = .ok () := by
    unfold checkInRange
    rw [if_neg]
    show ¬ ((alpha <. (num 0 : F32)) || ((num 1 : F32) <. alpha)) = true
    rw [c2, c3]; decide
  refine ⟨o1, o3, e1, ?_, h3'.wf, h3'.info_eq, by rw [hi], by rw [hi], fun k hk => List.length_pos_of_mem (a := k) (by simp [hk]), fun k => ?_, fun x y hx hy => ⟨by rw [h3'.alpha x y hx hy, alpha_back], ?_⟩⟩
  · unfold histogramEqualization
    rw [k1, ok_bind, k2, ok_bind, e1, ok_bind, em, ok_bind, e2, ok_bind, e3]
  · have := atMost_le (intensityKeys o1 precision) k
    rw [intensityKeys_length, hi, Nat.mul_comm] at this
    exact this
  · rw [h3'.colour x y hx hy]
    obtain ⟨L, a, b, hab, -, hk⟩ := hL x y hx hy
    exact ⟨L, a, b, hab, hk, by rw [hab]; rfl⟩
theorem share_near {a n : Nat} (hn : 0 < n) (ha0 : 0 < a) (ha : a ≤ 2 * n) (hn' : n < 1073741824) :
    App (FloatOps.ofInt ((a : Nat) : Int) /. FloatOps.ofNat n : F32) ((a : Rat) / n) (1 / 2000000) := by
  obtain ⟨i1, i2, i3⟩ := percentile_is (a := a) hn (by omega) (by omega)
  have n1 : (1 : Rat) ≤ n := by exact_mod_cast hn
  have a1 : (1 : Rat) ≤ a := by exact_mod_cast ha0
  have an : (a : Rat) ≤ 2 * n := by exact_mod_cast ha
  have r1 := rnd_abs_err (q := (a : Rat)) (B := a) (by rw [abs_of_nonneg (by linarith)]) (by linarith)
  have r2 := rnd_abs_err (q := (n : Rat)) (B := n) (by rw [abs_of_nonneg (by linarith)]) (by linarith)
  generalize f32.rnd (a : Rat) = ra at *
  generalize f32.rnd (n : Rat) = rn at *
  have hq : |ra / rn - (a : Rat) / n| ≤ 5 / 16777216 := by
    have hr : 0 < rn := by linarith
    rw [div_sub_div _ _ (by linarith) (by linarith), abs_div, abs_of_pos (by positivity : 0 < rn * (n : Rat)), div_le_iff₀ (by positivity)]
    have : ra * n - rn * a = (ra - a) * n - (rn - n) * a := by ring
    rw [this]
    refine (abs_sub _ _).trans ?_
    rw [abs_mul, abs_mul, abs_of_pos (by linarith : (0 : Rat) < n), abs_of_pos (by linarith : (0 : Rat) < a)]
    rw [abs_le] at r2
    have t1 := mul_le_mul_of_nonneg_right r1 (by linarith : (0 : Rat) ≤ n)
    have t2 := mul_le_mul_of_nonneg_right (abs_le.2 r2) (by linarith : (0 : Rat) ≤ a)
    have t3 : (n : Rat) * (1 - 1 / 16777216) ≤ rn := by linarith
    have t4 := mul_le_mul_of_nonneg_right t3 (by linarith : (0 : Rat) ≤ n)
    have t5 := mul_le_mul_of_nonneg_right an (by linarith : (0 : Rat) ≤ n)
    nlinarith [mul_self_nonneg (n : Rat)]
  refine App.rnd (B := 2) i1 hq ?_ (by norm_num) (by norm_num)
  rw [abs_of_nonneg (by positivity), div_le_iff₀ (by linarith)]
  exact an

theorem blend_near {alpha pc n : F32} {α p t : Rat} (ha : alpha.Is α) (a0 : 0 ≤ α) (a1 : α ≤ 1) (hpc : App pc p (1 / 2000000))
    (p0 : 0 ≤ p) (p2 : p ≤ 2) (hn : n.Is t) (t0 : -1 ≤ t) (t1 : t ≤ 113) :
    App (blendF alpha pc n) (α * p * 100 + (1 - α) * t) (1 / 5000) := by
  have k1 : App (alpha *. pc) (α * p) (1 / 1500000) :=
    App.mul (B := 1) (C := 2) (App.exact ha) hpc (by rw [abs_le]; constructor <;> linarith) (by rw [abs_le]; constructor <;> linarith)
      (by norm_num) (by norm_num) (by norm_num)
  have ap0 : 0 ≤ α * p := mul_nonneg a0 p0
  have ap2 : α * p ≤ 2 := by nlinarith
  have k2 : App (alpha *. pc *. num 100) (α * p * (100 : Int)) (1 / 10000) :=
    App.mul (B := 2) (C := 100) k1 (App.num (n := 100) (by decide)) (by rw [abs_le]; constructor <;> linarith) (by norm_num)
      (by norm_num) (by norm_num) (by norm_num)
  have k3 : App (num 1 -. alpha : F32) ((1 : Int) - α) (1 / 10000000) :=
    App.sub (B := 1) (App.num (n := 1) (by decide)) (App.exact ha) (by norm_num) (by push_cast; rw [abs_le]; constructor <;> linarith)
      (by norm_num) (by norm_num)
  have k4 : App ((num 1 -. alpha) *. n) (((1 : Int) - α) * t) (1 / 40000) :=
    App.mul (B := 1) (C := 113) k3 (App.exact hn) (by push_cast; rw [abs_le]; constructor <;> linarith)
      (by rw [abs_le]; constructor <;> linarith) (by norm_num) (by norm_num) (by norm_num)
  have := App.add (B := 313) (e' := 1 / 5000) k2 k4 (by norm_num) (by
      push_cast
      have u1 : (1 - α) * t ≤ 113 := by nlinarith
      have u2 : -1 ≤ (1 - α) * t := by nlinarith
      rw [abs_le]; constructor <;> nlinarith) (by norm_num) (by norm_num)
  unfold blendF
  convert this using 1
  push_cast; ring

/-- **C112** (f32) `histogram_equalization` replaces the CIELAB lightness `t` of every pixel by a float within 0.0002 of
`alpha * 100 * share + (1 - alpha) * t`, where `share` is the percentile of the pixel's bin, and changes nothing else: the two
colour coordinates go back through the conversion as they came, and alpha is kept. -/
theorem c112_value (hp : PowAccurate) (P : Profile) (white : White) (img : Image UInt8) (h : img.WF)
    (hpos : 0 < img.info.width ∧ 0 < img.info.height) (h3 : img.info.colours = 3)
    (hsmall : img.info.width * img.info.height < 1073741824)
    (alpha precision : F32) (α : Rat) (ha : alpha.Is α) (a0 : 0 ≤ α) (a1 : α ≤ 1) (hprec : (precision <. (num 0 : F32)) = false) :
    ∃ (lab : Image F32) (out : Image UInt8), srgbToLab P img white = .ok lab ∧
      histogramEqualization P img alpha white precision = .ok out ∧ out.WF ∧ out.info = img.info ∧
      ∀ x y, x < img.info.width → y < img.info.height →
        img.info.alphaOf (out.px x y) = img.info.alphaOf (img.px x y) ∧
        ∃ (L L' A B : F32) (t t' : Rat), labOfSrgb white (img.info.colour (img.px x y)) = [L, A, B] ∧ L.Is t ∧ L'.Is t' ∧
          img.info.colour (out.px x y) = srgbOfLab white [L', A, B] ∧
          |t' - (α * lab.share precision (histKey L precision) * 100 + (1 - α) * t)| ≤ 1 / 5000 := by
  have z : (num 0 : F32).Is 0 := by simpa using num32 (n := 0) (by decide)
  have o : (num 1 : F32).Is 1 := by simpa using num32 (n := 1) (by decide)
  obtain ⟨lab, out, e1, e2, hw, hi, w1, w2, hpos', hle, hs⟩ := equalize32 hp P white img h hpos h3 hsmall alpha precision hprec
    (by rw [lt_is ha z]; simpa using a0) (by rw [lt_is o ha]; simpa using a1)
  refine ⟨lab, out, e1, e2, hw, hi, fun x y hx hy => ⟨(hs x y hx hy).1, ?_⟩⟩
  obtain ⟨-, L, A, B, e, hk, hc⟩ := hs x y hx hy
  obtain ⟨a, b, c, ec⟩ := three_of_length (colour_len3 h h3 hx hy)
  obtain ⟨L2, A2, B2, t, e', ht, t0, t1⟩ := lab_light hp white a b c
  have hL : L2 = L := by rw [ec, e'] at e; exact (List.cons.inj e).1
  subst hL
  have hn : 0 < img.info.width * img.info.height := Nat.mul_pos hpos.1 hpos.2
  have q1 := hpos' _ hk
  have q2 := hle (histKey L2 precision)
  have q3 := distinctAtMost_le (intensityKeys lab precision) (histKey L2 precision)
  have sn : App (lab.shareF precision (histKey L2 precision)) (lab.share precision (histKey L2 precision)) (1 / 2000000) := by
    have := share_near (a := atMost (intensityKeys lab precision) (histKey L2 precision) +
      distinctAtMost (intensityKeys lab precision) (histKey L2 precision)) hn (by omega) (by omega) hsmall
    unfold Image.shareF Image.share
    rw [w1, w2]
    exact_mod_cast this
  have s2 : lab.share precision (histKey L2 precision) ≤ 2 := by
    unfold Image.share
    rw [w1, w2, div_le_iff₀ (by exact_mod_cast hn)]
    exact_mod_cast (by omega : _ ≤ 2 * (img.info.width * img.info.height))
  obtain ⟨t', ht', hb⟩ := blend_near ha a0 a1 sn (by unfold Image.share; positivity) s2 ht t0 t1
  exact ⟨L2, _, A, B, t, t', e, ht, ht', hc, hb⟩

/-- **C112** (f32) `alpha = 0` means no equalization: the image comes back, at most one level darker in places — whatever the
precision, as long as the function accepts it. -/
theorem c112_alpha_zero (hp : PowAccurate) (P : Profile) (white : White) (img : Image UInt8) (h : img.WF)
    (hpos : 0 < img.info.width ∧ 0 < img.info.height) (h3 : img.info.colours = 3)
    (hsmall : img.info.width * img.info.height < 1073741824) (precision : F32) (hprec : (precision <. (num 0 : F32)) = false) :
    ∃ out, histogramEqualization P img (num 0 : F32) white precision = .ok out ∧ img.LosesAtMostOne out := by
  have z : (num 0 : F32).Is 0 := by simpa using num32 (n := 0) (by decide)
  have o : (num 1 : F32).Is 1 := by simpa using num32 (n := 1) (by decide)
  obtain ⟨lab, out, e1, e2, hw, hi, w1, w2, hpos', hle, hs⟩ := equalize32 hp P white img h hpos h3 hsmall (num 0) precision hprec
    (by rw [lt_is z z]; rfl) (by rw [lt_is o z]; rfl)
  refine ⟨out, e2, hw, hi, fun x y hx hy => ⟨(hs x y hx hy).1, ?_⟩⟩
  obtain ⟨-, L, A, B, e, hk, hc⟩ := hs x y hx hy
  obtain ⟨a, b, c, ec⟩ := three_of_length (colour_len3 h h3 hx hy)
  obtain ⟨L2, A2, B2, t, e', ht, hb⟩ := lab_trip hp white a b c
  have hE : [L2, A2, B2] = [L, A, B] := by rw [← e', ← e, ec]
  injection hE with hL hE
  injection hE with hA hE
  injection hE with hB hE
  subst hL hA hB
  rw [hc, ec]
  refine hb _ ?_
  have hn : 0 < img.info.width * img.info.height := Nat.mul_pos hpos.1 hpos.2
  have q1 := hpos' _ hk
  have q2 := hle (histKey L2 precision)
  have q3 := distinctAtMost_le (intensityKeys lab precision) (histKey L2 precision)
  obtain ⟨s, hs', -⟩ := share_near (a := atMost (intensityKeys lab precision) (histKey L2 precision) +
      distinctAtMost (intensityKeys lab precision) (histKey L2 precision)) hn (by omega) (by omega) hsmall
  have hsf : (lab.shareF precision (histKey L2 precision)).Is s := by
    unfold Image.shareF
    rw [w1, w2]
    exact_mod_cast hs'
  have x0 : f32.Exact 0 := z.exact
  have x1 : f32.Exact 1 := o.exact
  have m1 := mul_exact z hsf (by rw [zero_mul]; exact x0)
  rw [zero_mul] at m1
  have m2 := mul_exact m1 (num32 (n := 100) (by decide)) (by rw [zero_mul]; exact x0)
  rw [zero_mul] at m2
  have m3 := sub_exact o z (by rw [sub_zero]; exact x1)
  rw [sub_zero] at m3
  have m4 := mul_exact m3 ht (by rw [one_mul]; exact ht.exact)
  rw [one_mul] at m4
  have := add_exact m2 m4 (by rw [zero_add]; exact ht.exact)
  rw [zero_add] at this
  exact this

/-- **C112** (f32) the order of the lightnesses is kept exactly, rounding included: if one pixel's lightness is at most
another's, the new lightness the function computes is at most the other's. -/
theorem c112_order (hp : PowAccurate) (P : Profile) (white : White) (img : Image UInt8) (h : img.WF)
    (hpos : 0 < img.info.width ∧ 0 < img.info.height) (h3 : img.info.colours = 3)
    (hsmall : img.info.width * img.info.height < 1073741824)
    (alpha precision : F32) (α ρ : Rat) (ha : alpha.Is α) (a0 : 0 ≤ α) (a1 : α ≤ 1) (hprec : precision.Is ρ) (p0 : 0 ≤ ρ)
    (p1 : ρ ≤ 2 ^ 20) :
    ∃ (out : Image UInt8) (light new : Nat → Nat → Rat), histogramEqualization P img alpha white precision = .ok out ∧
      (∀ x y, x < img.info.width → y < img.info.height →
        ∃ (L L' A B : F32), labOfSrgb white (img.info.colour (img.px x y)) = [L, A, B] ∧ L.Is (light x y) ∧ L'.Is (new x y) ∧
          img.info.colour (out.px x y) = srgbOfLab white [L', A, B]) ∧
      ∀ x y x' y', x < img.info.width → y < img.info.height → x' < img.info.width → y' < img.info.height →
        light x y ≤ light x' y' → new x y ≤ new x' y' := by
  have z : (num 0 : F32).Is 0 := by simpa using num32 (n := 0) (by decide)
  have o : (num 1 : F32).Is 1 := by simpa using num32 (n := 1) (by decide)
  obtain ⟨lab, out, e1, e2, hw, hi, w1, w2, hpos', hle, hs⟩ := equalize32 hp P white img h hpos h3 hsmall alpha precision
    (by rw [lt_is hprec z]; simpa using p0) (by rw [lt_is ha z]; simpa using a0) (by rw [lt_is o ha]; simpa using a1)
  have hn : 0 < img.info.width * img.info.height := Nat.mul_pos hpos.1 hpos.2
  -- the bin of a lightness
  let bin : Rat → Int := fun t => max (-2147483648) (min 2147483647 (FP.truncQ (f32.rnd (FP.roundAwayQ (f32.rnd (t * ρ)) : Rat))))
  have bin_mono : ∀ s t, s ≤ t → bin s ≤ bin t := by
    intro s t hst
    have h1 : f32.rnd (s * ρ) ≤ f32.rnd (t * ρ) := rndQ_mono (mul_le_mul_of_nonneg_right hst p0)
    have h2 : (FP.roundAwayQ (f32.rnd (s * ρ)) : Rat) ≤ (FP.roundAwayQ (f32.rnd (t * ρ)) : Rat) := by
      exact_mod_cast roundAwayQ_mono h1
    have h3 := truncQ_mono (rndQ_mono (f := f32.toRFmt) h2)
    show max _ (min _ _) ≤ max _ (min _ _)
    have h3' : FP.truncQ (f32.rnd (FP.roundAwayQ (f32.rnd (s * ρ)) : Rat)) ≤ FP.truncQ (f32.rnd (FP.roundAwayQ (f32.rnd (t * ρ)) : Rat)) := h3
    omega
  let ks := intensityKeys lab precision
  let pc : Int → Rat := fun k => f32.rnd (f32.rnd ((atMost ks k + distinctAtMost ks k : ℕ) : Rat) / f32.rnd ((img.info.width * img.info.height : ℕ) : Rat))
  let fin : Rat → Rat := fun t => f32.rnd (f32.rnd (f32.rnd (α * pc (bin t)) * 100) + f32.rnd (f32.rnd (1 - α) * t))
  have key : ∀ x y, x < img.info.width → y < img.info.height → ∃ (L A B : F32) (t : Rat),
      labOfSrgb white (img.info.colour (img.px x y)) = [L, A, B] ∧ L.Is t ∧
      (blendF alpha (lab.shareF precision (histKey L precision)) L).Is (fin t) ∧
      img.info.colour (out.px x y) = srgbOfLab white [blendF alpha (lab.shareF precision (histKey L precision)) L, A, B] := by
    intro x y hx hy
    obtain ⟨-, L, A, B, e, hk, hc⟩ := hs x y hx hy
    obtain ⟨a, b, c, ec⟩ := three_of_length (colour_len3 h h3 hx hy)
    obtain ⟨L2, A2, B2, t, e', ht, t0, t1⟩ := lab_light hp white a b c
    have hL : L2 = L := by rw [ec, e'] at e; exact (List.cons.inj e).1
    subst hL
    refine ⟨L2, A, B, t, e, ht, ?_, hc⟩
    have q1 := hpos' _ hk
    have q2 := hle (histKey L2 precision)
    have q3 := distinctAtMost_le (intensityKeys lab precision) (histKey L2 precision)
    obtain ⟨i1, i2, i3⟩ := percentile_is (a := atMost ks (histKey L2 precision) + distinctAtMost ks (histKey L2 precision)) hn
      (by show atMost (intensityKeys lab precision) _ + distinctAtMost (intensityKeys lab precision) _ < _; omega) (by omega)
    have hbin : histKey L2 precision = bin t := by
      have b1 : |t * ρ| ≤ 2 ^ 28 := by
        rw [abs_mul, abs_of_nonneg p0]
        have : |t| ≤ 113 := abs_le.2 ⟨by linarith, t1⟩
        nlinarith [abs_nonneg t]
      have m := mul_is ht hprec (f32_ovf (by linarith [show (2 : Rat) ^ 28 ≤ 2 ^ 100 by norm_num]))
      have b2 : |f32.rnd (t * ρ)| ≤ 2 ^ 29 := by
        have := rnd_abs_err (q := t * ρ) (B := 2 ^ 28) b1 (by norm_num)
        have a2 := abs_add_le (f32.rnd (t * ρ) - t * ρ) (t * ρ)
        rw [sub_add_cancel] at a2
        linarith
      have r := toIntegral_is m FP.roundAwayQ (f32_ovf (by
        have : |((FP.roundAwayQ (f32.rnd (t * ρ)) : Int) : Rat)| ≤ 2 ^ 29 + 1 := by
          have u := roundAwayQ_abs (f32.rnd (t * ρ))
          have a2 := abs_add_le (((FP.roundAwayQ (f32.rnd (t * ρ)) : Int) : Rat) - f32.rnd (t * ρ)) (f32.rnd (t * ρ))
          rw [sub_add_cancel] at a2
          linarith
        linarith [show (2 : Rat) ^ 29 + 1 ≤ 2 ^ 100 by norm_num]))
      have := toInt_is (x := FloatOps.round (L2 *. precision)) r (-2147483648) 2147483647
      exact this
    have hsf : (lab.shareF precision (histKey L2 precision)).Is (pc (bin t)) := by
      rw [← hbin]
      unfold Image.shareF
      rw [w1, w2]
      have := i1
      rw [Nat.cast_add] at this
      exact this
    have pcb : |pc (bin t)| ≤ 3 := by
      have := share_near (a := atMost ks (histKey L2 precision) + distinctAtMost ks (histKey L2 precision)) hn
        (by show 0 < atMost (intensityKeys lab precision) _ + distinctAtMost (intensityKeys lab precision) _; omega)
        (by show atMost (intensityKeys lab precision) _ + distinctAtMost (intensityKeys lab precision) _ ≤ _; omega) hsmall
      obtain ⟨s, hs1, hs2⟩ := this
      have : s = pc (bin t) := by rw [← hbin]; exact hs1.unique i1
      rw [← this]
      have : ((atMost ks (histKey L2 precision) + distinctAtMost ks (histKey L2 precision) : ℕ) : Rat) / (img.info.width * img.info.height : ℕ) ≤ 2 := by
        rw [div_le_iff₀ (by exact_mod_cast hn)]
        exact_mod_cast (show atMost (intensityKeys lab precision) (histKey L2 precision) + distinctAtMost (intensityKeys lab precision) (histKey L2 precision) ≤ 2 * (img.info.width * img.info.height) by omega)
      have p : 0 ≤ ((atMost ks (histKey L2 precision) + distinctAtMost ks (histKey L2 precision) : ℕ) : Rat) / (img.info.width * img.info.height : ℕ) := by positivity
      rw [abs_le] at hs2 ⊢
      constructor <;> linarith
    have bd : ∀ {q B : Rat}, |q| ≤ B → 1 ≤ B → |f32.rnd q| ≤ 2 * B := by
      intro q B hq hB
      have := rnd_abs_err hq (by linarith)
      have a2 := abs_add_le (f32.rnd q - q) q
      rw [sub_add_cancel] at a2
      linarith
    have big : ∀ {q : Rat}, |q| ≤ 100000 → |f32.rnd q| < pow2 f32.emax := fun hq => f32_ovf (hq.trans (by norm_num))
    have aα : |α| ≤ 1 := abs_le.2 ⟨by linarith, a1⟩
    have v1 : |α * pc (bin t)| ≤ 3 := by rw [abs_mul]; nlinarith [abs_nonneg α, abs_nonneg (pc (bin t))]
    have m1 := mul_is ha hsf (big (v1.trans (by norm_num)))
    have v1' := bd v1 (by norm_num)
    have v2 : |f32.rnd (α * pc (bin t)) * ((100 : Int) : Rat)| ≤ 600 := by rw [abs_mul]; push_cast; norm_num; linarith
    have m2 := mul_is m1 (num32 (n := 100) (by decide)) (big (v2.trans (by norm_num)))
    have v2' := bd v2 (by norm_num)
    have v3 : |1 - α| ≤ 1 := abs_le.2 ⟨by linarith, by linarith⟩
    have m3 := sub_is o ha (big (v3.trans (by norm_num)))
    have v3' := bd v3 (by norm_num)
    have v4 : |f32.rnd (1 - α) * t| ≤ 226 := by
      have : |t| ≤ 113 := abs_le.2 ⟨by linarith, t1⟩
      rw [abs_mul]; nlinarith [abs_nonneg t, abs_nonneg (f32.rnd (1 - α))]
    have m4 := mul_is m3 ht (big (v4.trans (by norm_num)))
    have v4' := bd v4 (by norm_num)
    have v5 := abs_add_le (f32.rnd (f32.rnd (α * pc (bin t)) * ((100 : Int) : Rat))) (f32.rnd (f32.rnd (1 - α) * t))
    have m5 := add_is m2 m4 (big (by linarith))
    show (blendF _ _ _).Is _
    unfold blendF
    simpa using m5
  have fin_mono : ∀ s t, s ≤ t → fin s ≤ fin t := by
    intro s t hst
    have r0 : f32.rnd 0 = 0 := rndQ_zero _
    have h1 : pc (bin s) ≤ pc (bin t) := by
      refine rndQ_mono (div_le_div_of_nonneg_right (rndQ_mono ?_) (rndQ_nonneg (by positivity)))
      have g1 := atMost_mono ks (bin_mono s t hst)
      have g2 := distinctAtMost_mono ks (bin_mono s t hst)
      exact_mod_cast (by omega : atMost ks (bin s) + distinctAtMost ks (bin s) ≤ atMost ks (bin t) + distinctAtMost ks (bin t))
    have h2 : f32.rnd (f32.rnd (α * pc (bin s)) * 100) ≤ f32.rnd (f32.rnd (α * pc (bin t)) * 100) :=
      rndQ_mono (mul_le_mul_of_nonneg_right (rndQ_mono (mul_le_mul_of_nonneg_left h1 a0)) (by norm_num))
    have h3 : f32.rnd (f32.rnd (1 - α) * s) ≤ f32.rnd (f32.rnd (1 - α) * t) :=
      rndQ_mono (mul_le_mul_of_nonneg_left hst (rndQ_nonneg (by linarith)))
    exact rndQ_mono (add_le_add h2 h3)
  classical
  let light : Nat → Nat → Rat := fun x y => if hxy : x < img.info.width ∧ y < img.info.height then
    (key x y hxy.1 hxy.2).choose_spec.choose_spec.choose_spec.choose else 0
  refine ⟨out, light, fun x y => fin (light x y), e2, fun x y hx hy => ?_, fun x y x' y' hx hy hx' hy' hl => fin_mono _ _ hl⟩
  have hsp := (key x y hx hy).choose_spec.choose_spec.choose_spec.choose_spec
  have hl : light x y = (key x y hx hy).choose_spec.choose_spec.choose_spec.choose := dif_pos ⟨hx, hy⟩
  exact ⟨_, _, _, _, hsp.1, by rw [hl]; exact hsp.2.1, by beta_reduce; rw [hl]; exact hsp.2.2.1, hsp.2.2.2⟩
end

example (P : Profile) : letI := accurateLibm
    ∃ out, histogramEqualization P demoA (num 0 : F32) .d65 (num 10) = .ok out ∧ demoA.LosesAtMostOne out := by
  let := accurateLibm
  exact c112_alpha_zero accurateLibm_spec P .d65 demoA demoA_WF (by decide) (by decide) (by decide) (num 10)
    (by rw [lt_is (num32 (n := 10) (by decide)) (num32 (n := 0) (by decide))]; rfl)
example (P : Profile) : letI := accurateLibm
    ∃ out, histogramEqualization P demoA (num 1 : F32) .d50 (num 255) = .ok out ∧ out.WF := by
  let := accurateLibm
  obtain ⟨lab, out, e1, e2, hw, -⟩ := c112_value accurateLibm_spec P .d50 demoA demoA_WF (by decide) (by decide) (by decide) (num 1)
    (num 255) 1 (by simpa using num32 (n := 1) (by decide)) (by norm_num) (by norm_num)
    (by rw [lt_is (num32 (n := 255) (by decide)) (num32 (n := 0) (by decide))]; rfl)
  exact ⟨out, e2, hw⟩
example (P : Profile) : letI := accurateLibm
    ∃ (out : Image UInt8) (light new : Nat → Nat → Rat), histogramEqualization P demoA (num 1 : F32) .d50 (num 255) = .ok out ∧
      ∀ x y x' y', x < 2 → y < 1 → x' < 2 → y' < 1 → light x y ≤ light x' y' → new x y ≤ new x' y' := by
  let := accurateLibm
  obtain ⟨out, l, n, e, -, h⟩ := c112_order accurateLibm_spec P .d50 demoA demoA_WF (by decide) (by decide) (by decide) (num 1)
    (num 255) 1 255 (by simpa using num32 (n := 1) (by decide)) (by norm_num) (by norm_num) (by simpa using num32 (n := 255) (by decide))
    (by norm_num) (by norm_num)
  exact ⟨out, l, n, e, fun x y x' y' hx hy hx' hy' => h x y x' y' hx hy hx' hy'⟩
end Imgproc

import Verif.Spec.Demo
import Verif.Props.Filter
import Verif.Proofs.Colour
import Verif.Proofs.NoErr
/-! Properties C52 (threshold) and C53 (residual). -/
namespace Imgproc
open FloatOps

/-! ### C52 -/
section
variable {F : Type} [FloatOps F]

/-- spec: the table of src/enums.rs `Thresh`; `above` says whether the channel exceeds the threshold -/
def threshRule (method : Thresh) (above : Bool) (c thr max zero : F) : F :=
  match method, above with
  | .binary, true => max | .binary, false => zero
  | .binaryInv, true => zero | .binaryInv, false => max
  | .trunc, true => thr | .trunc, false => c
  | .toZero, true => c | .toZero, false => zero
  | .toZeroInv, true => zero | .toZeroInv, false => c

/-- spec: a grayscale header is one channel, or two channels the second of which is alpha -/
def Grayscale (i : ImageInfo) : Prop := (i.alpha = false ∧ i.channels = 1) ∨ (i.alpha = true ∧ i.channels = 2)

theorem checkGrayscale_ok {T} {img : Image T} (h : Grayscale img.info) : checkGrayscale img = .ok () := by
  unfold checkGrayscale
  rcases h with ⟨a, b⟩ | ⟨a, b⟩ <;> simp [a, b]
theorem checkGrayscale_err {T} {img : Image T} (h : ¬ Grayscale img.info) : checkGrayscale img = invalidArg := by
  unfold checkGrayscale
  unfold Grayscale at h
  cases ha : img.info.alpha <;> simp_all

/-- C52: threshold applies the documented rule to every colour channel and keeps alpha and info -/
theorem c52_threshold (P : Profile) {img : Image F} (h : img.WF) (hg : Grayscale img.info) (thr max : F)
    (method : Thresh) :
    ∃ out, threshold P img thr max method = .ok out ∧
      out.Shows img.info (fun x y =>
        (img.info.colour (img.px x y)).map (fun c => threshRule method (FloatOps.lt thr c) c thr max (num 0)) ++
          img.info.alphaOf (img.px x y)) := by
  have hc : img.info.alpha = true → 0 < img.info.channels := by
    intro ha; rcases hg with ⟨a, b⟩ | ⟨a, b⟩ <;> omega
  unfold threshold
  rw [checkGrayscale_ok hg, ok_bind]
  have key : ∀ (f : F → F), (∀ c, f c = threshRule method (FloatOps.lt thr c) c thr max (num 0)) →
      ∃ out, img.mapChannelsIfAlpha P (fun c => .ok (f c)) (fun a => .ok a) = .ok out ∧
      out.Shows img.info (fun x y =>
        (img.info.colour (img.px x y)).map (fun c => threshRule method (FloatOps.lt thr c) c thr max (num 0)) ++
          img.info.alphaOf (img.px x y)) := by
    intro f hf
    obtain ⟨out, e, ho⟩ := Image.mapChannelsIfAlpha_colour P h hc (f := fun c => .ok (f c)) (f' := f)
      (g := fun a => .ok a) (g' := id) (fun _ _ => rfl) (fun _ _ => rfl)
    refine ⟨out, e, ho.congr ?_⟩
    intro x y _ _
    rw [List.map_id]; congr 1
    exact List.map_congr_left (fun c _ => hf c)
  cases method <;> exact key _ (fun c => by
    by_cases hb : (c >. thr) = true
    · rw [if_pos hb, show FloatOps.lt thr c = true from hb]; rfl
    · rw [if_neg hb, show FloatOps.lt thr c = false from Bool.eq_false_iff.2 hb]; rfl)

example (P : Profile) (a b c d thr mx : F) : ∃ out, threshold P (grayAlpha2 a b c d) thr mx .toZero = .ok out := by
  obtain ⟨out, h, -⟩ := c52_threshold P (grayAlpha2_WF a b c d) (.inr ⟨rfl, rfl⟩) thr mx .toZero
  exact ⟨out, h⟩

/-- C52: inputs that are not grayscale give an `InvalidArg` error -/
theorem c52_error (P : Profile) (img : Image F) (thr max : F) (method : Thresh) (hg : ¬ Grayscale img.info) :
    threshold P img thr max method = invalidArg := by
  unfold threshold; rw [checkGrayscale_err hg]; rfl

example (P : Profile) (a b c d e f thr mx : F) : threshold P (rgb2 a b c d e f) thr mx .binary = invalidArg :=
  c52_error P _ _ _ _ (by rintro (⟨-, h⟩ | ⟨h, -⟩) <;> cases h)
end

/-- C52: "greater" is comparison of values for finite floats -/
theorem c52_above_finite {f : Fmt} [Libm f] {c thr : Flt f} {a b : Rat} (hc : c.Is a) (ht : thr.Is b) :
    FloatOps.lt thr c = decide (b < a) := lt_is ht hc
/-- C52: a NaN channel (or a NaN threshold) counts as not greater -/
theorem c52_above_nan {f : Fmt} [Libm f] {c thr : Flt f} (h : c.val = .nan ∨ thr.val = .nan) :
    FloatOps.lt thr c = false := by
  rcases h with h | h
  · exact lt_nan_right h
  · exact lt_nan_left h
/-- C52: `+inf` exceeds and `-inf` does not exceed every finite threshold -/
theorem c52_above_inf {f : Fmt} [Libm f] {c thr : Flt f} {s : Bool} {b : Rat} (h : c.val = .inf s) (ht : thr.Is b) :
    FloatOps.lt thr c = !s := lt_inf_right ht h

/-! ### C53 -/

/-- a fallible computation that can only fail with `e` -/
def OnlyFault {α} (e : Fault) (r : Res α) : Prop := ∀ e', r = .error e' → e' = e
theorem OnlyFault.ok {α} {e} (a : α) : OnlyFault e (.ok a : Res α) := fun _ h => by cases h
theorem OnlyFault.forRange {σ} {e : Fault} {a b : Nat} {s : σ} {f : Nat → σ → Res σ}
    (h : ∀ k s, a ≤ k → k < b → OnlyFault e (f k s)) : OnlyFault e (forRange a b s f) := by
  intro e' he
  obtain ⟨k, s', h1, h2, h3⟩ := forRange_error he
  exact h k s' h1 h2 _ h3
theorem OnlyFault.bind {α β} {e : Fault} {r : Res α} {f : α → Res β} (h : OnlyFault e r)
    (hf : ∀ a, r = .ok a → OnlyFault e (f a)) : OnlyFault e (r >>= f) := by
  cases r with
  | error e1 => intro e' he; cases he; exact h _ rfl
  | ok a => exact hf a rfl
theorem OnlyFault.eq {α} {e : Fault} {r : Res α} (h : OnlyFault e r) (hn : ¬ Res.Returns r) : r = .error e := by
  cases r with
  | error e1 => rw [h e1 rfl]
  | ok a => exact absurd ⟨a, rfl⟩ hn

/-- C53: different headers give `InvalidArg` -/
theorem c53_error {T} (P : Profile) (N : RNum T) (a b : Image T) (h : a.info ≠ b.info) :
    residual P N a b = invalidArg := by
  unfold residual; rw [checkEqual_err h]; rfl

example (P : Profile) (a b c d e f : UInt8) :
    residual P u8Num (gray6 a b c d e f) (rgb2 a b c d e f) = invalidArg :=
  c53_error P _ _ _ (by intro h; cases h)

/-- C53: when the channel differences exist, the result is the channel-wise difference -/
theorem c53_residual {T} (P : Profile) (N : RNum T) {a b : Image T} (ha : a.WF) (hb : b.WF)
    (h : a.info = b.info) (d : T → T → T)
    (hd : ∀ (x y c : Nat) u v, x < a.info.width → y < a.info.height → (a.px x y)[c]? = some u → (b.px x y)[c]? = some v →
      N.sub P u v = .ok (d u v)) :
    ∃ out, residual P N a b = .ok out ∧
      out.Shows a.info (fun x y => List.zipWith d (a.px x y) (b.px x y)) := by
  unfold residual
  rw [checkEqual_ok h, ok_bind]
  have hw : b.info.width = a.info.width := by rw [h]
  have hh : b.info.height = a.info.height := by rw [h]
  have hc : b.info.channels = a.info.channels := by rw [h]
  have hin : ∀ x y acc, x < a.info.width → y < a.info.height →
      (do
        let p1 ← a.getPixel P x y
        let p2 ← b.getPixel P x y
        forRange 0 a.info.channels acc fun c data => do
          let u ← idx p1 c
          let v ← idx p2 c
          let e ← N.sub P u v
          .ok (data ++ [e])) = .ok (acc ++ List.zipWith d (a.px x y) (b.px x y)) := by
    intro x y acc hx hy
    rw [Image.getPixel_eq P ha hx hy, ok_bind, Image.getPixel_eq P hb (hw ▸ hx) (hh ▸ hy), ok_bind]
    have l1 := Image.px_length ha hx hy
    have l2 := Image.px_length hb (hw ▸ hx) (hh ▸ hy)
    rw [hc] at l2
    rw [forRange_collect acc _ (fun c => ((List.zipWith d (a.px x y) (b.px x y))[c]?).toList) ?_ (Nat.zero_le _)]
    · congr 2
      have l3 : (List.zipWith d (a.px x y) (b.px x y)).length = a.info.channels := by simp [l1, l2]
      generalize List.zipWith d (a.px x y) (b.px x y) = q at l3
      rw [Nat.sub_zero, ← l3]
      simp only [Nat.zero_add]
      clear * -
      induction q with
      | nil => rfl
      | cons z q ih =>
        rw [List.length_cons, List.range_succ_eq_map, List.flatMap_cons, List.flatMap_map]
        simp only [List.getElem?_cons_succ, ih]
        rfl
    · intro c acc _ hlt
      have c1 : c < (a.px x y).length := by omega
      have c2 : c < (b.px x y).length := by omega
      rw [idx_ok c1, ok_bind, idx_ok c2, ok_bind, hd x y c _ _ hx hy (List.getElem?_eq_getElem c1)
        (List.getElem?_eq_getElem c2), ok_bind]
      congr 2
      rw [List.getElem?_eq_getElem (by simp; omega), List.getElem_zipWith]; rfl
  rw [forRange_collect0 _ (fun y => (List.range a.info.width).flatMap fun x =>
    List.zipWith d (a.px x y) (b.px x y)) ?_, ok_bind]
  · refine ⟨_, rfl, ?_⟩
    have hl : ∀ x y, x < a.info.width → y < a.info.height →
        (List.zipWith d (a.px x y) (b.px x y)).length = a.info.channels := by
      intro x y hx hy
      rw [List.length_zipWith, Image.px_length ha hx hy, Image.px_length hb (hw ▸ hx) (hh ▸ hy), hc]; simp
    have := Image.of_flatMap (info := a.info) ha.infoWF (fun i =>
      List.zipWith d (a.px (i % a.info.width) (i / a.info.width)) (b.px (i % a.info.width) (i / a.info.width)))
      (by
        intro i hi
        have hpos : 0 < a.info.width := by
          rcases Nat.eq_zero_or_pos a.info.width with h0 | h0
          · rw [h0] at hi; simp at hi
          · exact h0
        exact hl _ _ (Nat.mod_lt _ hpos) (Nat.div_lt_of_lt_mul hi))
    have hdiv : ∀ x y, x < a.info.width → (y * a.info.width + x) % a.info.width = x ∧
        (y * a.info.width + x) / a.info.width = y := by
      intro x y hx
      constructor
      · rw [Nat.mul_comm, Nat.mul_add_mod, Nat.mod_eq_of_lt hx]
      · rw [Nat.mul_comm, Nat.mul_add_div (by omega), Nat.div_eq_of_lt hx, Nat.add_zero]
    have e : (List.range a.info.height).flatMap (fun y => (List.range a.info.width).flatMap fun x =>
        List.zipWith d (a.px x y) (b.px x y)) =
        (List.range (a.info.width * a.info.height)).flatMap (fun i =>
      List.zipWith d (a.px (i % a.info.width) (i / a.info.width)) (b.px (i % a.info.width) (i / a.info.width))) := by
      rw [Nat.mul_comm a.info.width]
      generalize a.info.height = n
      induction n with
      | zero => simp
      | succ n ih =>
        rw [List.range_succ, List.flatMap_append, ih, Nat.succ_mul, List.range_add, List.flatMap_append]
        congr 1
        simp only [List.flatMap_cons, List.flatMap_nil, List.append_nil, List.flatMap_map]
        apply flatMap_congr'
        intro x hx
        have hx' := List.mem_range.1 hx
        rw [(hdiv x n hx').1, (hdiv x n hx').2]
    show (Image.mk a.info _ : Image T).Shows _ _
    rw [e]
    refine this.congr ?_
    intro x y hx hy
    rw [(hdiv x y hx).1, (hdiv x y hx).2]
  · intro y acc hy
    have := forRange_collect acc (fun x data => (do
        let p1 ← a.getPixel P x y
        let p2 ← b.getPixel P x y
        forRange 0 a.info.channels data fun c data => do
          let u ← idx p1 c
          let v ← idx p2 c
          let e ← N.sub P u v
          .ok (data ++ [e]))) (fun x => List.zipWith d (a.px x y) (b.px x y))
        (fun x acc _ hx => hin x y acc hx hy) (Nat.zero_le _)
    simpa using this

/-- C53, float images: IEEE subtraction of each channel (never panics) -/
theorem c53_residual_float {F : Type} [FloatOps F] (P : Profile) {a b : Image F} (ha : a.WF) (hb : b.WF)
    (h : a.info = b.info) :
    ∃ out, residual P (FloatOps.rnum (F := F)) a b = .ok out ∧
      out.Shows a.info (fun x y => List.zipWith FloatOps.sub (a.px x y) (b.px x y)) :=
  c53_residual P _ ha hb h _ (fun _ _ _ _ _ _ _ _ _ => rfl)

example (P : Profile) {F : Type} [FloatOps F] (a b c d e f : F) : ∃ out,
    residual P (FloatOps.rnum (F := F)) (gray6 a b c d e f) (gray6 f e d c b a) = .ok out := by
  obtain ⟨out, h, -⟩ := c53_residual_float P (gray6_WF a b c d e f) (gray6_WF f e d c b a) rfl
  exact ⟨out, h⟩

/-- C53, u8 images without overflow checks: wrapping difference -/
theorem c53_residual_u8_release {a b : Image UInt8} (ha : a.WF) (hb : b.WF) (h : a.info = b.info) :
    ∃ out, residual .release u8Num a b = .ok out ∧
      out.Shows a.info (fun x y => List.zipWith (fun u v => UInt8.ofNat ((u.toNat + 256 - v.toNat) % 256)) (a.px x y) (b.px x y)) := by
  refine c53_residual .release _ ha hb h _ ?_
  intro x y c u v _ _ _ _
  have : u - v = UInt8.ofNat ((u.toNat + 256 - v.toNat) % 256) := by
    apply UInt8.toNat_inj.1
    rw [UInt8.toNat_sub, UInt8.toNat_ofNat', Nat.mod_mod]
    have := u.toNat_lt; have := v.toNat_lt
    congr 1; omega
  rw [← this]
  show (if v ≤ u then _ else _) = _
  split <;> rfl

/-- some channel of `b` exceeds the same channel of `a` -/
def SomeExceeds (a b : Image UInt8) : Prop :=
  ∃ (x y c : Nat) (u v : UInt8), x < a.info.width ∧ y < a.info.height ∧ (a.px x y)[c]? = some u ∧ (b.px x y)[c]? = some v ∧ u.toNat < v.toNat

/-- C53, u8 images with overflow checks: the exact difference when no channel of `b` exceeds `a` -/
theorem c53_residual_u8_debug {a b : Image UInt8} (ha : a.WF) (hb : b.WF) (h : a.info = b.info)
    (hn : ¬ SomeExceeds a b) :
    ∃ out, residual .debug u8Num a b = .ok out ∧
      out.Shows a.info (fun x y => List.zipWith (fun u v => UInt8.ofNat (u.toNat - v.toNat)) (a.px x y) (b.px x y)) := by
  refine c53_residual .debug _ ha hb h _ ?_
  intro x y c u v hx hy hu hv
  have hle : v.toNat ≤ u.toNat := by
    by_contra h0
    exact hn ⟨x, y, c, u, v, hx, hy, hu, hv, by omega⟩
  show (if v ≤ u then _ else _) = _
  rw [if_pos (UInt8.le_iff_toNat_le.2 hle)]
  congr 1
  apply UInt8.toNat_inj.1
  rw [UInt8.toNat_sub_of_le _ _ (UInt8.le_iff_toNat_le.2 hle), UInt8.toNat_ofNat', Nat.mod_eq_of_lt]
  have := u.toNat_lt; omega

example : residual .debug u8Num (grayAlpha2 9 5 7 255) (grayAlpha2 2 5 0 255) = .ok (grayAlpha2 7 0 7 0) := rfl

/-- C53, u8 images with overflow checks: panic when some channel of `b` exceeds `a` -/
theorem c53_residual_u8_panic {a b : Image UInt8} (ha : a.WF) (hb : b.WF) (h : a.info = b.info)
    (hs : SomeExceeds a b) : residual .debug u8Num a b = panic .overflow := by
  obtain ⟨x, y, c, u, v, hx, hy, hu, hv, hlt⟩ := hs
  have hw : b.info.width = a.info.width := by rw [h]
  have hh : b.info.height = a.info.height := by rw [h]
  have hc : b.info.channels = a.info.channels := by rw [h]
  have hcc : c < a.info.channels := by
    rw [← Image.px_length ha hx hy]; exact (List.getElem?_eq_some_iff.1 hu).1
  unfold residual
  rw [checkEqual_ok h, ok_bind]
  have e : (forRange 0 a.info.height ([] : List UInt8) fun y data =>
      forRange 0 a.info.width data fun x data => do
        let p1 ← a.getPixel .debug x y
        let p2 ← b.getPixel .debug x y
        forRange 0 a.info.channels data fun c data => do
          let u ← idx p1 c
          let v ← idx p2 c
          let d ← u8Num.sub .debug u v
          .ok (data ++ [d])) = .error (.panic .overflow) := by
    apply OnlyFault.eq
    · apply OnlyFault.forRange; intro j s _ hj
      apply OnlyFault.forRange; intro i s _ hi
      rw [Image.getPixel_eq _ ha hi hj, ok_bind, Image.getPixel_eq _ hb (hw ▸ hi) (hh ▸ hj), ok_bind]
      apply OnlyFault.forRange; intro k s _ hk
      rw [idx_ok (by rw [Image.px_length ha hi hj]; exact hk), ok_bind,
        idx_ok (by rw [Image.px_length hb (hw ▸ hi) (hh ▸ hj), hc]; exact hk), ok_bind]
      refine OnlyFault.bind ?_ (fun _ _ => OnlyFault.ok _)
      intro e' he
      simp only [u8Num] at he
      split at he
      · cases he
      · cases he; rfl
    · apply forRange_not_ok (Nat.zero_le y) hy; intro s
      apply forRange_not_ok (Nat.zero_le x) hx; intro s
      rw [Image.getPixel_eq _ ha hx hy, ok_bind, Image.getPixel_eq _ hb (hw ▸ hx) (hh ▸ hy), ok_bind]
      apply forRange_not_ok (Nat.zero_le c) hcc; intro s
      rw [idx_some hu, ok_bind, idx_some hv, ok_bind]
      have : u8Num.sub .debug u v = panic .overflow := by
        simp only [u8Num]
        rw [if_neg (by rw [UInt8.le_iff_toNat_le]; omega)]
      rw [this]
      rintro ⟨_, h⟩; cases h
  rw [e]; rfl

example : residual .debug u8Num (grayAlpha2 9 5 7 255) (grayAlpha2 2 5 8 255) = panic .overflow :=
  c53_residual_u8_panic (grayAlpha2_WF ..) (grayAlpha2_WF ..) rfl
    ⟨1, 0, 0, 7, 8, by decide, by decide, rfl, rfl, by decide⟩

/-- C53: both outcomes occur -/
example : residual .debug u8Num demo demo ≠ panic .overflow ∧
    residual .release u8Num (Image.fromVec 1 1 1 false [3]) (Image.fromVec 1 1 1 false [5]) =
      .ok (Image.fromVec 1 1 1 false [254]) ∧
    residual .debug u8Num (Image.fromVec 1 1 1 false [3]) (Image.fromVec 1 1 1 false [5]) = panic .overflow := by
  refine ⟨?_, ?_, ?_⟩ <;> decide

end Imgproc

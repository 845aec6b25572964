import Verif.Props.Morphology2
/-! Properties C75 and C76, and when the morphological operations panic. -/
namespace Imgproc
open FloatOps

/-- spec: every white pixel of `a` is white in `b` -/
def WhiteIn (a b : Image UInt8) : Prop := ∀ x y, IsWhite a x y → IsWhite b x y

theorem Eroded.self {img : Image UInt8} {r x y : Nat} (h : Eroded img r x y) : IsWhite img x y := by
  obtain ⟨a, b, e1, e2, hw⟩ := h x y (by simp) (by simp)
  have : x = a := by omega
  have : y = b := by omega
  subst x y; exact hw
theorem Eroded.at {img : Image UInt8} {r x y a b : Nat} (h : Eroded img r x y) (h1 : |(a : Int) - x| ≤ r)
    (h2 : |(b : Int) - y| ≤ r) : IsWhite img a b := by
  obtain ⟨a', b', e1, e2, hw⟩ := h a b h1 h2
  have : a = a' := by omega
  have : b = b' := by omega
  subst a b; exact hw
theorem Eroded.mono {a b : Image UInt8} (h : WhiteIn a b) {r x y : Nat} (he : Eroded a r x y) : Eroded b r x y := by
  intro i j hi hj
  obtain ⟨p, q, e1, e2, hw⟩ := he i j hi hj
  exact ⟨p, q, e1, e2, h p q hw⟩
theorem CodeDilated.self {img : Image UInt8} {r x y : Nat} (h : IsWhite img x y) : CodeDilated img r x y :=
  ⟨x, y, spanLo_le _ _, le_spanHi _ _ _, spanLo_le _ _, le_spanHi _ _ _, h⟩
theorem CodeDilated.mono {a b : Image UInt8} (hi : a.info = b.info) (h : WhiteIn a b) {r x y : Nat}
    (he : CodeDilated a r x y) : CodeDilated b r x y := by
  obtain ⟨p, q, h1, h2, h3, h4, hw⟩ := he
  rw [hi] at h2 h4
  exact ⟨p, q, h1, h2, h3, h4, h p q hw⟩

section
variable [Libm f32]

/-- binary images small enough for exact f32 sums, with a radius in range -/
structure MorphArgs (img : Image UInt8) (r : Nat) : Prop where
  binary : Binary img
  width : r ≤ img.info.width
  height : r ≤ img.info.height
  small : img.info.width * img.info.height * 255 ≤ 8388608

omit [Libm f32] in
theorem MorphArgs.draws {img out : Image UInt8} {r : Nat} {S : Nat → Nat → Prop} (h : MorphArgs img r)
    (ho : out.Draws img.info S) : MorphArgs out r :=
  ⟨ho.binary h.binary.channels h.binary.alpha, by rw [ho.2.1]; exact h.width, by rw [ho.2.1]; exact h.height,
    by rw [ho.2.1]; exact h.small⟩

theorem MorphArgs.erode {img : Image UInt8} {r : Nat} (h : MorphArgs img r) (P : Profile) :
    ∃ out, Imgproc.erode F32 P img r = .ok out ∧ out.Draws img.info (Eroded img r) :=
  c72_erode P h.binary.wf h.binary.channels h.binary.alpha h.width h.height h.small
theorem MorphArgs.dilate {img : Image UInt8} {r : Nat} (h : MorphArgs img r) (P : Profile) :
    ∃ out, Imgproc.dilate F32 P img r = .ok out ∧ out.Draws img.info (CodeDilated img r) :=
  c73_exact_window P h.binary h.width h.height h.small

/-- **C75** erosion shrinks, dilation grows -/
theorem c75_erode_dilate (P : Profile) {img : Image UInt8} {r : Nat} (h : MorphArgs img r) :
    ∃ e d, erode F32 P img r = .ok e ∧ dilate F32 P img r = .ok d ∧ e.info = img.info ∧ d.info = img.info ∧
      WhiteIn e img ∧ WhiteIn img d := by
  obtain ⟨e, ee, he⟩ := h.erode P
  obtain ⟨d, ed, hd⟩ := h.dilate P
  refine ⟨e, d, ee, ed, he.2.1, hd.2.1, fun x y hw => (he.white'.1 hw).2.2.self, fun x y hw => ?_⟩
  exact hd.white'.2 ⟨hw.lt.1, hw.lt.2, CodeDilated.self hw⟩

/-- **C75** erode and dilate preserve order -/
theorem c75_monotone (P : Profile) {a b : Image UInt8} {r : Nat} (ha : MorphArgs a r) (hb : MorphArgs b r)
    (hi : a.info = b.info) (hab : WhiteIn a b) :
    ∃ ea eb da db, erode F32 P a r = .ok ea ∧ erode F32 P b r = .ok eb ∧ dilate F32 P a r = .ok da ∧
      dilate F32 P b r = .ok db ∧ WhiteIn ea eb ∧ WhiteIn da db := by
  obtain ⟨ea, eea, hea⟩ := ha.erode P
  obtain ⟨eb, eeb, heb⟩ := hb.erode P
  obtain ⟨da, eda, hda⟩ := ha.dilate P
  obtain ⟨db, edb, hdb⟩ := hb.dilate P
  refine ⟨ea, eb, da, db, eea, eeb, eda, edb, fun x y hw => ?_, fun x y hw => ?_⟩
  · obtain ⟨h1, h2, h3⟩ := hea.white'.1 hw
    exact heb.white'.2 ⟨hi ▸ h1, hi ▸ h2, h3.mono hab⟩
  · obtain ⟨h1, h2, h3⟩ := hda.white'.1 hw
    exact hdb.white'.2 ⟨hi ▸ h1, hi ▸ h2, h3.mono hi hab⟩

/-- **C75** opening shrinks -/
theorem c75_open (P : Profile) {img : Image UInt8} {r : Nat} (h : MorphArgs img r) :
    ∃ o, morphOpen F32 P img r = .ok o ∧ o.info = img.info ∧ WhiteIn o img := by
  obtain ⟨e, ee, he⟩ := h.erode P
  obtain ⟨o, eo, ho⟩ := (h.draws he).dilate P
  refine ⟨o, by unfold morphOpen; rw [ee, ok_bind, eo], ho.2.1.trans he.2.1, fun x y hw => ?_⟩
  obtain ⟨a, b, h1, h2, hab⟩ := (ho.white'.1 hw).2.2.dilated
  exact (he.white'.1 hab).2.2.at (by rw [abs_sub_comm]; exact h1) (by rw [abs_sub_comm]; exact h2)

/-- **C75** closing, away from the border: white pixels at least `r` away from every edge stay white. Missing: the
border band, where the claim is false (`c75_close_violated`). -/
theorem c75_close_partial (P : Profile) {img : Image UInt8} {r : Nat} (h : MorphArgs img r) :
    ∃ o, morphClose F32 P img r = .ok o ∧ o.info = img.info ∧
      ∀ x y, r ≤ x → x + r < img.info.width → r ≤ y → y + r < img.info.height → IsWhite img x y → IsWhite o x y := by
  obtain ⟨d, ed, hd⟩ := h.dilate P
  obtain ⟨o, eo, ho⟩ := (h.draws hd).erode P
  refine ⟨o, by unfold morphClose; rw [ed, ok_bind, eo], ho.2.1.trans hd.2.1, fun x y h1 h2 h3 h4 hw => ?_⟩
  refine ho.white'.2 ⟨by rw [hd.2.1]; omega, by rw [hd.2.1]; omega, fun i j hi hj => ?_⟩
  rw [abs_le] at hi hj
  refine ⟨i.toNat, j.toNat, by omega, by omega, hd.white'.2 ⟨by omega, by omega, x, y, ?_, ?_, ?_, ?_, hw⟩⟩ <;>
  · simp only [spanLo, spanHi]; split_ifs <;> omega

/-- **C75 is violated by close**: closing an all-white image gives black border pixels -/
theorem c75_close_violated : ∃ img : Image UInt8, MorphArgs img 1 ∧ ∀ P : Profile, ∃ o,
    morphClose F32 P img 1 = .ok o ∧ IsWhite img 0 0 ∧ o.getPixel P 0 0 = .ok [0] := by
  have hA : MorphArgs whiteImg 1 := ⟨whiteImg_binary, by decide, by decide, by decide⟩
  refine ⟨whiteImg, hA, fun P => ?_⟩
  obtain ⟨d, ed, hd⟩ := hA.dilate P
  obtain ⟨o, eo, ho⟩ := (hA.draws hd).erode P
  refine ⟨o, by unfold morphClose; rw [ed, ok_bind, eo], (isWhite_iff whiteImg_binary.wf (by decide) (by decide)).2 rfl, ?_⟩
  rw [ho.2.2 P 0 0 (by rw [hd.2.1]; decide) (by rw [hd.2.1]; decide)]
  dsimp only
  rw [if_neg]
  intro he
  obtain ⟨a, b, e, _⟩ := he (-1) 0 (by decide) (by decide)
  omega

/-! ### C76: gradient -/

omit [Libm f32] in
theorem rep_below_255 {q : Rat} (h : RepQ f32.toRFmt q) (hq : q < 255) : q ≤ 255 - 1 / 65536 := by
  obtain ⟨m, e, rfl, hm, _⟩ := h
  by_cases he : -16 ≤ e
  · obtain ⟨k, hk⟩ : ∃ k : Nat, e = (k : Int) - 16 := ⟨(e + 16).toNat, by omega⟩
    have e1 : (m : Rat) * pow2 e = ((m * 2 ^ k : Int) : Rat) / 65536 := by
      rw [hk, pow2_eq, zpow_sub₀ (by norm_num), zpow_natCast]; push_cast; ring
    rw [e1] at hq ⊢
    rw [div_lt_iff₀ (by norm_num)] at hq
    have : (m * 2 ^ k : Int) < 255 * 65536 := by exact_mod_cast hq
    have : (m * 2 ^ k : Int) ≤ 255 * 65536 - 1 := by omega
    have : ((m * 2 ^ k : Int) : Rat) ≤ 255 * 65536 - 1 := by exact_mod_cast this
    linarith
  · have h1 : pow2 e ≤ pow2 (-17) := pow2_le.2 (by omega)
    have h2 : pow2 (-17) = 1 / 131072 := by rw [pow2_eq]; norm_num
    have h3 : (m : Rat) ≤ 16777216 := by
      have := (abs_le.1 hm).2
      have : m ≤ 16777216 := this
      exact_mod_cast this
    have h4 := pow2_pos e
    nlinarith

theorem isFull_ge {m : Nat} (h1 : 255 ≤ m) (h2 : m < 4294967296) {s : F32} (h : isFull (ofNat m) s = true) :
    (s >=. num 255) = true := by
  have hm1 : (255 : Rat) ≤ (m : Rat) := by exact_mod_cast h1
  have hm2 : (m : Rat) ≤ 4294967296 := by exact_mod_cast h2.le
  have iM : (FloatOps.ofNat m : F32).Is (f32.rnd ((m : Int) : Rat)) := ofInt_is (f32_ovf (by
        rw [abs_of_nonneg (by push_cast; linarith)]; push_cast; linarith))
  have e255 : f32.Exact (255 : Rat) := by have := f32_int (n := 255) (by decide); exact_mod_cast this
  have hM1 : 255 ≤ f32.rnd ((m : Int) : Rat) := le_rndQ e255.1 (by push_cast; exact hm1)
  have heps : (FloatOps.epsilon : F32).Is (f32.rnd (1 / 8388608)) := lit_is (f32_ovf (by norm_num [abs_of_pos]))
  have eeps : f32.rnd (1 / 8388608) = 1 / 8388608 := by decide +kernel
  rw [eeps] at heps
  have n255 : (num 255 : F32).Is ((255 : Int) : Rat) := num32 (by decide)
  have hMv : (FloatOps.ofNat m : F32).val = .fin (f32.rnd ((m : Int) : Rat)) := by
    rcases FP.toQ?_cases iM with h | ⟨_, h⟩
    · exact h
    · linarith
  generalize hMM : f32.rnd ((m : Int) : Rat) = M at *
  have hneg : (FP.neg (FloatOps.ofNat m : F32).val) = .fin (-M) := by
    rw [hMv]; simp only [FP.neg]; rw [if_neg (by linarith)]
  unfold isFull at h
  have noInf : ∀ b, (s -. FloatOps.ofNat m).val = .inf b → False := by
    intro b hb
    have : (FloatOps.abs (s -. FloatOps.ofNat m)).val = .inf false := by
      show FP.abs (s -. FloatOps.ofNat m).val = _
      rw [hb]; rfl
    rw [lt_inf_left this heps] at h
    cases h
  have hsub : (s -. FloatOps.ofNat m).val = FP.add f32 s.val (.fin (-M)) := by rw [← hneg]; rfl
  have fine : ∀ q, s.Is q → RepQ f32.toRFmt q → (s >=. num 255) = true := by
    intro q hq hrep
    show (num 255 <=. s) = true
    rw [le_is n255 hq, decide_eq_true_iff]
    by_contra hlt
    push_cast at hlt
    have hle := rep_below_255 hrep (not_le.1 hlt)
    have hadd : FP.add f32 s.val (.fin (-M)) = FP.round f32 false (q + -M) := by
      rcases FP.toQ?_cases hq with e | ⟨e, e0⟩
      · rw [e]; rfl
      · rw [e, e0]; rfl
    have hr : f32.rnd (q + -M) ≤ -(1 / 65536) := by
      have : RepQ f32.toRFmt (-(1 / 65536)) := by
        have e : (-(1 / 65536) : Rat) = ((-1 : Int) : Rat) * pow2 (-16) := by rw [pow2_eq]; norm_num
        rw [e]; exact RepQ.dyadic (by decide) (by decide)
      exact rndQ_le this (by linarith)
    by_cases hov : |f32.rnd (q - M)| < pow2 f32.emax
    · have hs := sub_is hq iM hov
      rw [lt_is (abs_is hs) heps, decide_eq_true_iff, sub_eq_add_neg, abs_of_nonpos (by linarith)] at h
      linarith
    · refine noInf true ?_
      rw [hsub, hadd]
      unfold FP.round
      rw [if_neg (by linarith)]
      dsimp only
      rw [sub_eq_add_neg] at hov
      rw [if_neg (show ¬ f32.rnd (q + -M) = 0 by linarith), if_neg hov, decide_eq_true (by linarith)]
  rcases hv : s.val with _ | b | _ | q
  · exfalso
    have : (FloatOps.abs (s -. FloatOps.ofNat m)).val = .nan := by
      show FP.abs (s -. FloatOps.ofNat m).val = _
      rw [hsub, hv]; rfl
    rw [lt_nan_left this] at h
    cases h
  · cases b
    · exact le_inf_right n255 hv
    · exact absurd (by rw [hsub, hv]; rfl) (noInf true)
  · exact fine 0 (by show s.val.toQ? = _; rw [hv]; rfl) (RepQ.zero _)
  · refine fine q (by show s.val.toQ? = _; rw [hv]; rfl) ?_
    have := s.rep
    rw [hv] at this
    exact this.1

/-- **C76** gradient = dilate - erode at every pixel, in IEEE f32, for every one-channel image of any size (binary or
not), every radius up to the smaller side for which `(2r+1)^2 * 255` fits in a u32, both profiles. The subtraction does
not wrap: the erosion is never brighter. -/
theorem c76_gradient (P : Profile) {img : Image UInt8} (h : img.WF) (hch : img.info.channels = 1)
    (ha : img.info.alpha = false) {r : Nat} (hrw : r ≤ img.info.width) (hrh : r ≤ img.info.height)
    (hr : (2 * r + 1) * (2 * r + 1) * 255 < 4294967296) :
    ∃ g d e, gradient F32 P img r = .ok g ∧ dilate F32 P img r = .ok d ∧ erode F32 P img r = .ok e ∧
      g.info = img.info ∧ d.info = img.info ∧ e.info = img.info ∧
      ∀ (Q : Profile) (x y : Nat), x < img.info.width → y < img.info.height → ∃ dv ev : UInt8,
        d.getPixel Q x y = .ok [dv] ∧ e.getPixel Q x y = .ok [ev] ∧ ev ≤ dv ∧ g.getPixel Q x y = .ok [dv - ev] := by
  obtain ⟨f, ef, hf⟩ := imageU8ToFloat_shows (F := F32) P h
  obtain ⟨tg, g, tg1, tg2, tg3⟩ := morphScan_eq P h hch hrw hrh f hf.WF hf.info_eq
    (fun s => xor (isFull (ofNat ((2 * r + 1) * (2 * r + 1) * 255)) s) (s >=. num 255))
  obtain ⟨td, d, td1, td2, td3⟩ := morphScan_eq P h hch hrw hrh f hf.WF hf.info_eq (fun s => s >=. num 255)
  obtain ⟨te, e, te1, te2, te3⟩ := morphScan_eq P h hch hrw hrh f hf.WF hf.info_eq
    (isFull (ofNat ((2 * r + 1) * (2 * r + 1) * 255)))
  refine ⟨g, d, e, ?_, ?_, ?_, tg3.2.1, td3.2.1, te3.2.1, fun Q x y hx hy => ?_⟩
  · unfold gradient
    rw [checkGrayscale_ok (Or.inl ⟨ha, hch⟩), ok_bind, morphMaxSum_ok hr, ok_bind, ef, ok_bind, tg1, ok_bind, tg2]
  · unfold dilate
    rw [checkGrayscale_ok (Or.inl ⟨ha, hch⟩), ok_bind, ef, ok_bind, td1, ok_bind, td2]
  · unfold erode
    rw [checkGrayscale_ok (Or.inl ⟨ha, hch⟩), ok_bind, morphMaxSum_ok hr, ok_bind, ef, ok_bind, te1, ok_bind, te2]
  · rw [tg3.2.2 Q x y hx hy, td3.2.2 Q x y hx hy, te3.2.2 Q x y hx hy]
    dsimp only
    generalize winExpr (f.chan 0) (spanLo r x) (spanLo r y) (spanHi r img.info.width x) (spanHi r img.info.height y) = s
    refine ⟨_, _, rfl, rfl, ?_⟩
    have hge := @isFull_ge _ ((2 * r + 1) * (2 * r + 1) * 255)
      (Nat.le_mul_of_pos_left _ (Nat.mul_pos (by omega) (by omega))) hr s
    cases h1 : isFull (ofNat ((2 * r + 1) * (2 * r + 1) * 255)) s
    · cases h2 : (s >=. num 255) <;> exact ⟨by decide, rfl⟩
    · rw [hge h1]; exact ⟨by decide, rfl⟩

example (P : Profile) (a b c d e f : UInt8) : ∃ g, gradient F32 P (gray6 a b c d e f) 2 = .ok g := by
  obtain ⟨g, _, _, h, -⟩ := c76_gradient P (gray6_WF a b c d e f) rfl rfl (r := 2) (by dims) (by dims) (by decide)
  exact ⟨g, h⟩

/-! ### panics -/

omit [Libm f32] in
theorem morphSpan_big {P : Profile} {n r : Nat} (hn : n < r) (hr : r < U32SIZE) :
    Res.Panics (morphSpan P 0 n r) ∨ morphSpan P 0 n r = .ok (0, r) := by
  unfold morphSpan u32Sub
  rw [if_neg (by omega), if_neg (by omega)]
  cases P
  · left; exact ⟨_, rfl⟩
  · right
    dsimp only
    rw [ok_bind, if_pos (by omega), u32Add_ok (by omega), ok_bind, Nat.zero_add]

omit [Libm f32] in
/-- the operations panic, in both profiles, when the radius exceeds a side of a non-empty image -/
theorem morphScan_panics {F : Type} [FloatOps F] (P : Profile) {img : Image UInt8} (h : img.WF) {r : Nat}
    (hw : 0 < img.info.width) (hh : 0 < img.info.height) (hr : r < U32SIZE)
    (hbig : img.info.width < r ∨ img.info.height < r) (table : Image F) (hi : table.info = img.info) (test : F → Bool) :
    Res.Panics (morphScan P img r table test) := by
  obtain ⟨b, eb, hb⟩ := Image.blank_eq P u8Num h.infoWF
  unfold morphScan
  rw [eb, ok_bind, forRange_cons hh]
  refine Res.Panics.bind ?_ _
  rw [forRange_cons hw]
  refine Res.Panics.bind ?_ _
  have fin : ∀ x1 y1, ¬ (x1 < img.info.width ∧ y1 < img.info.height) → ∀ x0 y0, Res.Panics (do
      let s ← rectangularIntensitySum P table x0 y0 x1 y1
      let s0 ← idx s 0
      if test s0 then b.setPixel P 0 0 [255] else .ok b) := by
    intro x1 y1 hout x0 y0
    refine Res.Panics.bind ?_ _
    rw [c40_outside P table x0 y0 x1 y1 (by rw [hi]; exact hout)]
    exact ⟨_, rfl⟩
  have okx : r ≤ img.info.width → morphSpan P 0 img.info.width r = .ok (spanLo r 0, spanHi r img.info.width 0) :=
    fun hle => morphSpan_ok h.width hle
  have oky : r ≤ img.info.height → morphSpan P 0 img.info.height r = .ok (spanLo r 0, spanHi r img.info.height 0) :=
    fun hle => morphSpan_ok h.height hle
  rcases Nat.lt_or_ge img.info.width r with hx | hx
  · rcases morphSpan_big (P := P) hx hr with hp | he
    · exact hp.bind _
    · rw [he, ok_bind]
      dsimp only
      rcases Nat.lt_or_ge img.info.height r with hy | hy
      · rcases morphSpan_big (P := P) hy hr with hp | he
        · exact hp.bind _
        · rw [he, ok_bind]
          exact fin _ _ (by omega) _ _
      · rw [oky hy, ok_bind]
        exact fin _ _ (by omega) _ _
  · rw [okx hx, ok_bind]
    dsimp only
    rcases morphSpan_big (P := P) (show img.info.height < r by omega) hr with hp | he
    · exact hp.bind _
    · rw [he, ok_bind]
      exact fin _ _ (by omega) _ _

omit [Libm f32] in
/-- **C73 and C72, radii out of range**: dilate, erode, majority and gradient panic whenever the radius exceeds the width
or the height of a non-empty grayscale image (any arithmetic, both profiles). -/
theorem c73_radius_panics {F : Type} [FloatOps F] (P : Profile) {img : Image UInt8} (h : img.WF)
    (hg : Grayscale img.info) {r : Nat} (hr : r < 4294967296) (hw : 0 < img.info.width) (hh : 0 < img.info.height)
    (hbig : img.info.width < r ∨ img.info.height < r) :
    Res.Panics (dilate F P img r) ∧ Res.Panics (majority F P img r) ∧ Res.Panics (erode F P img r) ∧
      Res.Panics (gradient F P img r) := by
  obtain ⟨f, ef, hf⟩ := imageU8ToFloat_shows (F := F) P h
  obtain ⟨t, et, ht⟩ := summedAreaTable_eq P f hf.WF
  have hi : t.info = img.info := ht.info_eq.trans hf.info_eq
  have key := morphScan_panics P h hw hh hr hbig t hi
  have mx : Res.Panics (morphMaxSum P r : Res F) ∨ ∃ m, (morphMaxSum P r : Res F) = .ok m := by
    have w : ∀ n v, Res.Panics (wrapNat P n v) ∨ ∃ m, wrapNat P n v = .ok m := by
      intro n v
      unfold wrapNat
      split
      · exact Or.inr ⟨_, rfl⟩
      · cases P
        · exact Or.inl ⟨_, rfl⟩
        · exact Or.inr ⟨_, rfl⟩
    unfold morphMaxSum u32Mul u32Add
    rcases w _ (2 * r) with hp | ⟨a, ea⟩
    · exact Or.inl (hp.bind _)
    rw [ea, ok_bind]
    rcases w _ (a + 1) with hp | ⟨b, eb⟩
    · exact Or.inl (hp.bind _)
    rw [eb, ok_bind]
    rcases w _ (b * b) with hp | ⟨c, ec⟩
    · exact Or.inl (hp.bind _)
    rw [ec, ok_bind]
    rcases w _ (c * 255) with hp | ⟨d, ed⟩
    · exact Or.inl (hp.bind _)
    rw [ed, ok_bind]
    exact Or.inr ⟨_, rfl⟩
  refine ⟨?_, ?_, ?_, ?_⟩
  · unfold dilate; rw [checkGrayscale_ok hg, ok_bind, ef, ok_bind, et, ok_bind]; exact key _
  · unfold majority; rw [checkGrayscale_ok hg, ok_bind, ef, ok_bind, et, ok_bind]; exact key _
  · unfold erode
    rw [checkGrayscale_ok hg, ok_bind]
    rcases mx with hp | ⟨m, em⟩
    · exact hp.bind _
    · rw [em, ok_bind, ef, ok_bind, et, ok_bind]; exact key _
  · unfold gradient
    rw [checkGrayscale_ok hg, ok_bind]
    rcases mx with hp | ⟨m, em⟩
    · exact hp.bind _
    · rw [em, ok_bind, ef, ok_bind, et, ok_bind]; exact key _

example {F : Type} [FloatOps F] (P : Profile) (a b c d e f : UInt8) : Res.Panics (dilate F P (gray6 a b c d e f) 3) :=
  (c73_radius_panics P (gray6_WF ..) (Or.inl ⟨rfl, rfl⟩) (by decide) (by dims) (by dims) (Or.inr (by dims))).1

omit [Libm f32] in
/-- non-grayscale images are rejected with an error -/
theorem c72_not_grayscale {F : Type} [FloatOps F] (P : Profile) {img : Image UInt8} (hg : ¬ Grayscale img.info) (r : Nat) :
    erode F P img r = invalidArg ∧ dilate F P img r = invalidArg ∧ majority F P img r = invalidArg ∧
      gradient F P img r = invalidArg ∧ morphOpen F P img r = invalidArg ∧ morphClose F P img r = invalidArg := by
  refine ⟨?_, ?_, ?_, ?_, ?_, ?_⟩ <;> simp only [erode, dilate, majority, gradient, morphOpen, morphClose, checkGrayscale_err hg] <;> rfl

example {F : Type} [FloatOps F] (P : Profile) (a b c d e f : UInt8) (r : Nat) :
    erode F P (rgb2 a b c d e f) r = invalidArg :=
  (c72_not_grayscale P (by simp [Grayscale, rgb2, Image.fromVec]) r).1

omit [Libm f32] in
/-- the hypotheses are met by a non-trivial pair of images -/
example : MorphArgs dotImg 1 ∧ MorphArgs whiteImg 1 ∧ dotImg.info = whiteImg.info ∧ WhiteIn dotImg whiteImg := by
  refine ⟨⟨dotImg_binary, by decide, by decide, by decide⟩, ⟨whiteImg_binary, by decide, by decide, by decide⟩, rfl, ?_⟩
  intro x y hw
  have h1 : x < 3 := hw.lt.1
  have h2 : y < 3 := hw.lt.2
  rw [isWhite_iff whiteImg_binary.wf h1 h2]
  clear hw
  interval_cases x <;> interval_cases y <;> rfl
end
end Imgproc

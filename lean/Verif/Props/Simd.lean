import Verif.Proofs.Simd
import Verif.Props.Tone
import Verif.Props.Gray
/-! Properties C21, C25, C30, C31: the AVX2 paths. -/
namespace Imgproc

/-! ## C21 — brightness -/

theorem addSat_eq (x : UInt8) {v : Int} (h0 : 0 < v) (h : v ≤ 255) : addSat x (intToU8 v) = satAdd x v := by
  have hx := x.toNat_lt
  have hv : ((intToU8 v).toNat : Int) = v := intToU8_toNat ⟨by omega, by omega⟩
  apply UInt8.toNat_inj.1
  have := satAdd_toNat x v
  unfold addSat
  split
  · show 255 = _; omega
  · rw [UInt8.toNat_add]; omega
theorem subSat_eq (x : UInt8) {v : Int} (h0 : v ≤ 0) (h : -255 ≤ v) : subSat x (intToU8 (-v)) = satAdd x v := by
  have hx := x.toNat_lt
  have hv : ((intToU8 (-v)).toNat : Int) = -v := intToU8_toNat ⟨by omega, by omega⟩
  apply UInt8.toNat_inj.1
  have := satAdd_toNat x v
  unfold subSat
  split
  · show 0 = _; omega
  · rw [UInt8.toNat_sub]; omega
theorem addSat_zero (x : UInt8) : addSat x 0 = x := by
  have hx := x.toNat_lt
  apply UInt8.toNat_inj.1
  unfold addSat; rw [if_neg (by show ¬ x.toNat + 0 > 255; omega), UInt8.toNat_add]; show (x.toNat + 0) % 256 = _; omega
theorem subSat_zero (x : UInt8) : subSat x 0 = x := by
  have hx := x.toNat_lt
  apply UInt8.toNat_inj.1
  unfold subSat; rw [if_neg (by show ¬ x.toNat < 0; omega), UInt8.toNat_sub]; show (256 - 0 + x.toNat) % 256 = _; omega

/-- the vector operation of both addition loops: lanes selected by `m` get `satAdd`, the others are kept -/
theorem vecAdd_tab {val : Int} (hv : -255 ≤ val ∧ val ≤ 255) (m : Nat → Bool) (a : Nat → UInt8) :
    (if val > 0 then
      addsEpu8 (tab 32 a) (tab 32 fun k => if m k then intToU8 (if val < 0 then -val else val) else 0)
     else subsEpu8 (tab 32 a) (tab 32 fun k => if m k then intToU8 (if val < 0 then -val else val) else 0)) =
      tab 32 fun k => if m k then satAdd (a k) val else a k := by
  by_cases h : val > 0
  · rw [if_pos h, addsEpu8_tab, if_neg (by omega)]
    apply tab_congr; intro j _
    cases m j
    · simp [addSat_zero]
    · simp [addSat_eq _ h hv.2]
  · rw [if_neg h, subsEpu8_tab]
    apply tab_congr; intro j _
    cases m j
    · simp [subSat_zero]
    · simp only [if_true]
      rw [show (if val < 0 then -val else val) = -val by split <;> omega]
      exact subSat_eq _ (by omega) hv.1

/-- the output bytes of the AVX2 addition loop -/
def adds256Data (img : Image UInt8) (val : Int) : List UInt8 :=
  tab img.data.length fun j =>
    if j < img.data.length / 32 * 32 then
      if img.info.alpha ∧ j % 4 = 3 then img.data.getD j 0 else satAdd (img.data.getD j 0) val
    else 0

/-- exact result of `adds_256_u8`: whole 32-byte blocks are processed, the remaining bytes are zero;
with an alpha channel every fourth byte is kept, whatever the number of channels. -/
theorem adds256U8_exact (P : Profile) (img : Image UInt8) (h : img.WF) {val : Int} (hv : -255 ≤ val ∧ val ≤ 255)
    (hn : img.info.width * img.info.height * img.info.channels + 32 < U32SIZE) :
    adds256U8 P img val = .ok { img with data := adds256Data img val } := by
  unfold adds256U8 adds256Data
  rw [ImageInfo.fullSize_eq P h.infoWF, ok_bind]
  dsimp only
  rw [i16Abs_ok (by omega) (by omega), ok_bind]
  rw [← h.length] at hn ⊢
  generalize hN : img.data.length = n at hn ⊢
  have hval : (if img.info.alpha then blendv (set1Epi8 (if val < 0 then -val else val)) zero256 (set1Epi32 (-2 * 2 ^ 30))
      else set1Epi8 (if val < 0 then -val else val)) =
      tab 32 fun k => if (!(img.info.alpha && decide (k % 4 = 3))) then intToU8 (if val < 0 then -val else val) else 0 := by
    unfold set1Epi8 zero256
    rw [replicate_tab, replicate_tab, alphaMask_tab, blendv_tab]
    cases img.info.alpha
    · simp
    · simp only [if_true]
      apply tab_congr; intro j _
      by_cases hj : j % 4 = 3
      · simp [hj]
      · simp [hj]
  rw [hval, replicate_tab]
  obtain ⟨i', s', e, h1, h2, ⟨k, hk⟩, h3⟩ := whileStep_rule (add := u32Add P) (step := 32) (n := n)
    (body := fun i data => do
      let chunk ← load256 img.data i
      storeBytes data i (if val > 0 then addsEpu8 chunk (tab 32 fun k => if (!(img.info.alpha && decide (k % 4 = 3))) then intToU8 (if val < 0 then -val else val) else 0)
        else subsEpu8 chunk (tab 32 fun k => if (!(img.info.alpha && decide (k % 4 = 3))) then intToU8 (if val < 0 then -val else val) else 0)))
    (by decide) (fun i hi => u32Add_ok (by omega))
    (fun i data => i % 32 = 0 ∧ data = tab n fun j => if j < i then
        if img.info.alpha ∧ j % 4 = 3 then img.data.getD j 0 else satAdd (img.data.getD j 0) val else 0)
    (by
      rintro i data hi ⟨hm, rfl⟩
      refine ⟨_, ?_, by omega, rfl⟩
      rw [load256_list hN hi, ok_bind, vecAdd_tab hv, storeBytes_tab hi]
      congr 1
      apply tab_congr; intro j hj
      by_cases c1 : i ≤ j ∧ j < i + 32
      · rw [if_pos c1, if_pos c1.2, show i + (j - i) = j by omega]
        have : (j - i) % 4 = j % 4 := by omega
        rw [this]
        by_cases ha : img.info.alpha <;> by_cases hj4 : j % 4 = 3 <;> simp [ha, hj4]
      · rw [if_neg c1]
        by_cases c2 : j < i
        · rw [if_pos c2, if_pos (show j < i + 32 by omega)]
        · rw [if_neg c2, if_neg (show ¬ j < i + 32 by omega)])
    (n / 32 + 2) 0 (tab n fun _ => 0) (by omega) (by omega) ⟨rfl, tab_congr (by intros; simp)⟩
  rw [e, ok_bind]
  dsimp only
  rw [if_neg (by omega), ok_bind, h3.2]
  congr 1
  unfold Image.fromVec
  congr 1
  rw [show n / 32 * 32 = i' by omega]

/-- **C21** When the buffer is a multiple of 32 bytes and the image has no alpha channel or exactly four
channels, `brightness` returns the same image with and without AVX2; missing: all other images
(`c21_exact`, `c21_violated_tail`, `c21_violated_alpha`). -/
theorem c21_brightness_simd_partial (P : Profile) (img : Image UInt8) (h : img.WF)
    (hn : img.data.length + 32 < U32SIZE) (h32 : img.data.length % 32 = 0)
    (ha : img.info.alpha = true → img.info.channels = 4) (bias : Int)
    (hb : -255 ≤ bias ∧ bias ≤ 255) :
    brightness true P img bias = brightness false P img bias := by
  obtain ⟨out, e, ho⟩ := c20_brightness P img bias h (fun h0 => by rw [ha h0]; decide) hb
  rw [e]
  unfold brightness
  rw [i16Abs_ok (by omega) (by omega), ok_bind, checkInRange_byte, if_neg (by split <;> omega), ok_bind, if_pos rfl,
    adds256U8_exact P img h hb (by rw [← h.length]; exact hn)]
  congr 1
  have hw : Image.WF { img with data := adds256Data img bias } :=
    ⟨h.width, h.height, h.channels, h.size, h.full, by unfold adds256Data; rw [tab_length]; exact h.length⟩
  refine Image.Shows.ext hw.shows ?_
  refine ho.congr ?_
  intro x y hx hy
  have hl := Image.px_length h hx hy
  have hpl := Image.px_length hw hx hy
  symm
  apply List.ext_getElem?
  intro k
  unfold Image.px adds256Data at *
  dsimp only at *
  have hrow := row_lt hx hy
  have hb1 : (y * img.info.width + x + 1) * img.info.channels ≤ img.data.length := by
    rw [h.length]; exact Nat.mul_le_mul_right _ hrow
  rw [Nat.add_mul, Nat.one_mul] at hb1
  generalize hp : (y * img.info.width + x) * img.info.channels = p at *
  by_cases hk : k < img.info.channels
  swap
  · rw [List.getElem?_eq_none (by omega), List.getElem?_eq_none]
    rw [List.length_append, List.length_map, img.info.colour_length hl,
      img.info.alphaOf_length hl (fun h0 => by rw [ha h0]; decide)]
    unfold ImageInfo.colours
    cases h0 : img.info.alpha
    · simp; omega
    · have := ha h0; simp; omega
  rw [List.getElem?_take_of_lt hk, List.getElem?_drop, tab_get, if_pos (by omega), if_pos (by omega)]
  cases h0 : img.info.alpha
  · unfold ImageInfo.colour ImageInfo.alphaOf
    rw [h0]
    simp only [Bool.false_eq_true, false_and, if_false, List.append_nil, List.getElem?_map]
    rw [List.getElem?_take_of_lt hk, List.getElem?_drop]
    simp [List.getD, List.getElem?_eq_getElem (show p + k < img.data.length by omega)]
  · have h4 := ha h0
    have hp4 : p % 4 = 0 := by rw [← hp, h4]; omega
    unfold ImageInfo.colour ImageInfo.alphaOf
    rw [h0]
    simp only [true_and, if_true]
    generalize hq : List.take img.info.channels (List.drop p img.data) = q at *
    have hql : q.length = 4 := by rw [hl, h4]
    have hget : ∀ k < 4, q[k]? = some (img.data.getD (p + k) 0) := by
      intro k hk
      rw [← hq, List.getElem?_take_of_lt (by omega), List.getElem?_drop]
      simp [List.getD, List.getElem?_eq_getElem (show p + k < img.data.length by omega)]
    match q, hql with
    | [a, b, c, d], _ =>
      have g0 := hget 0 (by omega); have g1 := hget 1 (by omega)
      have g2 := hget 2 (by omega); have g3 := hget 3 (by omega)
      simp only [List.getElem?_cons_zero, List.getElem?_cons_succ, Option.some.injEq] at g0 g1 g2 g3
      have : k = 0 ∨ k = 1 ∨ k = 2 ∨ k = 3 := by omega
      rcases this with rfl | rfl | rfl | rfl
      · rw [if_neg (by omega), ← g0]; rfl
      · rw [if_neg (by omega), ← g1]; rfl
      · rw [if_neg (by omega), ← g2]; rfl
      · rw [if_pos (by omega), ← g3]; rfl

/-- **C21** exact result of the AVX2 path: the last `len % 32` bytes become 0; with an alpha channel
every fourth byte is kept. -/
theorem c21_exact (P : Profile) (img : Image UInt8) (h : img.WF) (bias : Int)
    (hb : -255 ≤ bias ∧ bias ≤ 255) (hn : img.data.length + 32 < U32SIZE) :
    ∃ out, brightness true P img bias = .ok out ∧ out.info = img.info ∧ out.data.length = img.data.length ∧
      ∀ (j : Nat) (v : UInt8), img.data[j]? = some v → out.data[j]? = some (
        if img.data.length - img.data.length % 32 ≤ j then 0
        else if img.info.alpha = true ∧ j % 4 = 3 then v else satAdd v bias) := by
  unfold brightness
  rw [i16Abs_ok (by omega) (by omega), ok_bind, checkInRange_byte, if_neg (by split <;> omega), ok_bind, if_pos rfl,
    adds256U8_exact P img h hb (by rw [← h.length]; exact hn)]
  refine ⟨_, rfl, rfl, tab_length _ _, ?_⟩
  unfold adds256Data
  intro j v hj
  obtain ⟨hl, hv⟩ := List.getElem?_eq_some_iff.1 hj
  dsimp only
  rw [tab_get, if_pos hl]
  have hd : img.data.getD j 0 = v := by simp [List.getD, hj]
  rw [hd]
  by_cases hc : j < img.data.length / 32 * 32
  · rw [if_pos hc, if_neg (show ¬ img.data.length - img.data.length % 32 ≤ j by omega)]
  · rw [if_neg hc, if_pos (by omega)]

/-- **C21** violated: on a 2x2 RGB image (12 bytes) the AVX2 path returns a black image. -/
theorem c21_violated_tail :
    brightness true .release demo 0 = .ok { demo with data := List.replicate 12 0 } ∧
    brightness false .release demo 0 = .ok demo := by decide +kernel

/-- **C21** violated also for full blocks: with grey + alpha the wrong bytes are left alone. -/
theorem c21_violated_alpha :
    let img : Image UInt8 := Image.fromVec 16 1 2 true (List.replicate 32 7)
    brightness true .release img 1 ≠ brightness false .release img 1 := by decide +kernel

example : ∃ img : Image UInt8, img.WF ∧ img.data.length % 32 = 0 ∧ 0 < img.data.length ∧
    (img.info.alpha = true ∧ img.info.channels = 4) :=
  ⟨Image.fromVec 8 1 4 true (List.replicate 32 1), ⟨by decide, by decide, by decide, by decide, by decide, by decide⟩,
    by decide, by decide, by decide⟩

/-! ## C25 — saturation -/

/-- the AVX2 saturation loop on an image with four channels including alpha -/
def addsNData (img : Image UInt8) (val : Int) : List UInt8 :=
  tab img.data.length fun j =>
    if j < img.data.length / 32 * 32 then
      if j % 4 = 1 then satAdd (img.data.getD j 0) val else img.data.getD j 0
    else 0

theorem addsN256U8_alpha (P : Profile) (img : Image UInt8) (h : img.WF) {val : Int} (hv : -255 ≤ val ∧ val ≤ 255)
    (ha : img.info.alpha = true)
    (hn : img.info.width * img.info.height * img.info.channels + 32 < U32SIZE) :
    addsN256U8 P img val 1 = .ok { img with data := addsNData img val } := by
  unfold addsN256U8 addsNData
  rw [ImageInfo.fullSize_eq P h.infoWF, ok_bind]
  dsimp only
  rw [i16Abs_ok (by omega) (by omega), ok_bind]
  rw [← h.length] at hn ⊢
  generalize hN : img.data.length = n at hn ⊢
  have hval : blendv zero256 (set1Epi8 (if val < 0 then -val else val)) (channelMask img.info.alpha 1) =
      tab 32 fun k => if decide (k % 4 = 1) then intToU8 (if val < 0 then -val else val) else 0 := by
    unfold set1Epi8 zero256
    rw [replicate_tab, replicate_tab, ha, satMaskA_tab, blendv_tab]
    apply tab_congr; intro j _
    by_cases hj : j % 4 = 1 <;> simp [hj]
  rw [hval, replicate_tab, ha]
  simp only [if_true]
  obtain ⟨i', s', e, h1, h2, ⟨k, hk⟩, h3⟩ := whileStep_rule (add := u32Add P) (step := 32) (n := n)
    (body := fun i data => do
      let chunk ← load256 img.data i
      storeBytes data i (if val > 0 then addsEpu8 chunk (tab 32 fun k => if decide (k % 4 = 1) then intToU8 (if val < 0 then -val else val) else 0)
        else subsEpu8 chunk (tab 32 fun k => if decide (k % 4 = 1) then intToU8 (if val < 0 then -val else val) else 0)))
    (by decide) (fun i hi => u32Add_ok (by omega))
    (fun i data => i % 32 = 0 ∧ data = tab n fun j => if j < i then
        if j % 4 = 1 then satAdd (img.data.getD j 0) val else img.data.getD j 0 else 0)
    (by
      rintro i data hi ⟨hm, rfl⟩
      refine ⟨_, ?_, by omega, rfl⟩
      rw [load256_list hN hi, ok_bind, vecAdd_tab hv, storeBytes_tab hi]
      congr 1
      apply tab_congr; intro j hj
      by_cases c1 : i ≤ j ∧ j < i + 32
      · rw [if_pos c1, if_pos c1.2, show i + (j - i) = j by omega]
        have : (j - i) % 4 = j % 4 := by omega
        rw [this]
        by_cases hj4 : j % 4 = 1 <;> simp [hj4]
      · rw [if_neg c1]
        by_cases c2 : j < i
        · rw [if_pos c2, if_pos (show j < i + 32 by omega)]
        · rw [if_neg c2, if_neg (show ¬ j < i + 32 by omega)])
    (n / 30 + 2) 0 (tab n fun _ => 0) (by omega) (by omega) ⟨rfl, tab_congr (by intros; simp)⟩
  simp only [decide_eq_true_eq] at e ⊢
  rw [e, ok_bind]
  dsimp only
  rw [if_neg (by omega), ok_bind, h3.2]
  congr 1
  unfold Image.fromVec
  rw [show n / 32 * 32 = i' by omega, ← ha]

/-- **C25** RGBA images whose buffer is a multiple of 32 bytes (pixel count a multiple of 8): the AVX2
path is memory safe and returns the same image as the scalar path; missing: all others
(`c25_violated_ub`, `c25_violated_tail`). -/
theorem c25_saturation_simd_partial (P : Profile) (img : Image UInt8) (h : img.WF)
    (hpos : 0 < img.info.width ∧ 0 < img.info.height) (ha : img.info.alpha = true) (h4 : img.info.channels = 4)
    (hn : img.data.length + 32 < U32SIZE) (h32 : img.data.length % 32 = 0) (s : Int)
    (hs : -255 ≤ s ∧ s ≤ 255) :
    saturation true P img s = saturation false P img s := by
  have h3 : img.info.colours = 3 := by unfold ImageInfo.colours; rw [ha, h4]; rfl
  obtain ⟨hsv, F, e, hsh, hF⟩ := c32_rgb_to_hsv P img h hpos h3
  have hi := hsh.info_eq
  obtain ⟨hsv', e', hsh'⟩ := c08_edit_channel P hsv hsh.WF (satAdd · s) 1 (by rw [hi, h4]; decide)
  have hlen : hsv.data.length = img.data.length := by rw [hsh.WF.length, h.length, hi]
  unfold saturation
  rw [checkInRange_byte, if_neg (by omega), ok_bind, e, ok_bind]
  have key : addsN256U8 P hsv s 1 = saturationNorm P hsv s := by
    unfold saturationNorm
    have : (fun s' => addClampU8 P s' s) = fun v => .ok (satAdd v s) := by
      funext v; exact addClampU8_eq hs
    rw [this, e', addsN256U8_alpha P hsv hsh.WF hs (by rw [hi]; exact ha) (by rw [← hsh.WF.length, hlen]; exact hn)]
    congr 1
    have hw : Image.WF { hsv with data := addsNData hsv s } :=
      ⟨hsh.WF.width, hsh.WF.height, hsh.WF.channels, hsh.WF.size, hsh.WF.full,
        by unfold addsNData; rw [tab_length]; exact hsh.WF.length⟩
    refine Image.Shows.ext hw.shows (hsh'.congr ?_)
    intro x y hx hy
    symm
    have hrow := row_lt hx hy
    have hc : hsv.info.channels = 4 := by rw [hi, h4]
    have hb1 : (y * hsv.info.width + x + 1) * 4 ≤ hsv.data.length := by
      rw [hsh.WF.length, hc]; exact Nat.mul_le_mul_right _ hrow
    rw [Nat.add_mul, Nat.one_mul] at hb1
    unfold Image.px addsNData
    dsimp only
    rw [hc]
    have hp4 : (y * hsv.info.width + x) * 4 % 4 = 0 := by omega
    generalize (y * hsv.info.width + x) * 4 = p at *
    apply List.ext_getElem?
    intro k
    rw [List.getElem?_modify]
    by_cases hk : k < 4
    swap
    · rw [List.getElem?_eq_none (by simp; omega), List.getElem?_eq_none (l := List.take 4 _) (by simp; omega)]; rfl
    rw [List.getElem?_take_of_lt hk, List.getElem?_take_of_lt hk, List.getElem?_drop, List.getElem?_drop, tab_get,
      if_pos (by omega), if_pos (by omega)]
    have hd : hsv.data[p + k]? = some (hsv.data.getD (p + k) 0) := by
      simp [List.getD, List.getElem?_eq_getElem (show p + k < hsv.data.length by omega)]
    rw [hd]
    by_cases hk1 : 1 = k
    · subst hk1; rw [if_pos (by omega)]; simp
    · rw [if_neg (by omega)]; simp [hk1]
  rw [key]
  rfl

/-- **C25** violated: for every non-empty RGB image (no alpha) whose number of pixels is a multiple of
ten, the AVX2 path reads and writes outside its buffers. -/
theorem c25_violated_ub (P : Profile) (img : Image UInt8) (h : img.WF)
    (hpos : 0 < img.info.width ∧ 0 < img.info.height) (ha : img.info.alpha = false) (h3 : img.info.channels = 3)
    (h10 : img.info.width * img.info.height % 10 = 0) (hn : img.data.length + 30 < U32SIZE) (s : Int)
    (hs : -255 ≤ s ∧ s ≤ 255) :
    Res.UB (saturation true P img s) := by
  have hc3 : img.info.colours = 3 := by unfold ImageInfo.colours; rw [ha, h3]; rfl
  obtain ⟨hsv, F, e, hsh, hF⟩ := c32_rgb_to_hsv P img h hpos hc3
  have hi := hsh.info_eq
  have hlen : hsv.data.length = img.data.length := by rw [hsh.WF.length, h.length, hi]
  have hp : 0 < img.info.width * img.info.height := Nat.mul_pos hpos.1 hpos.2
  have hmod : img.data.length = img.info.width * img.info.height * 3 := by rw [h.length, h3]
  unfold saturation Res.UB
  rw [checkInRange_byte, if_neg (by omega), ok_bind, e, ok_bind, if_pos rfl]
  have key : addsN256U8 P hsv s 1 = .error .ub := by
    unfold addsN256U8
    rw [ImageInfo.fullSize_eq P hsh.WF.infoWF, ok_bind]
    dsimp only
    rw [i16Abs_ok (by omega) (by omega), ok_bind, ← hsh.WF.length, hlen, hi, ha]
    simp only [Bool.false_eq_true, if_false]
    rw [whileStep_fault (e := .ub) (step := 30) (by decide) (fun i hi => u32Add_ok (by omega))
      (fun i (data : List UInt8) => i % 30 = 0 ∧ data.length = img.data.length) (img.data.length - 30)
      (by omega) (by
        rintro i data hij ⟨hm, hl⟩
        rw [load256_list hlen (by omega), ok_bind]
        have hvl : ∀ (a v : List UInt8), a.length = 32 → v.length = 32 →
            (if s > 0 then addsEpu8 a v else subsEpu8 a v).length = 32 := by
          intro a v h1 h2; unfold addsEpu8 subsEpu8; split <;> simp [h1, h2]
        have hvv : (blendv zero256 (set1Epi8 (if s < 0 then -s else s)) (channelMask false 1)).length = 32 := by
          unfold set1Epi8 zero256
          rw [replicate_tab, replicate_tab, satMask_tab, blendv_tab, tab_length]
        have hr := hvl _ _ (tab_length 32 fun k => hsv.data.getD (i + k) 0) hvv
        unfold storeBytes
        rw [hr, if_pos (by omega)]
        refine ⟨_, rfl, by omega, ?_⟩
        simp only [List.length_append, List.length_take, List.length_drop, hr]; omega)
      (by
        rintro data ⟨hm, hl⟩
        rw [load256_ub (by omega)]; rfl)
      (img.data.length / 30 + 2) 0 _ (by omega) ⟨img.data.length / 30 - 1, by omega⟩ (by omega)
      ⟨rfl, by simp⟩]
    rfl
  rw [key]; rfl

/-- **C25** violated: on small RGB images the AVX2 path returns black. -/
theorem c25_violated_tail :
    saturation true .release demo 0 = .ok { demo with data := List.replicate 12 0 } ∧
    saturation false .release demo 0 ≠ .ok { demo with data := List.replicate 12 0 } := by decide +kernel

example : ∃ img : Image UInt8, img.WF ∧ img.info.alpha = false ∧ img.info.channels = 3 ∧
    img.info.width * img.info.height % 10 = 0 ∧ 0 < img.info.width * img.info.height :=
  ⟨Image.fromVec 5 2 3 false (List.replicate 30 1), ⟨by decide, by decide, by decide, by decide, by decide, by decide⟩,
    by decide, by decide, by decide, by decide⟩
end Imgproc

import Verif.Props.Simd
import Verif.Proofs.Loops
import Verif.Props.Gray
/-! Properties C30, C31: the AVX2 grayscale path. -/
namespace Imgproc

theorem unpackLo_tab (f g : Nat → UInt8) : unpackLo (tab 32 f) (tab 32 g) =
    tab 32 fun k => if k % 2 = 0 then f (k / 16 * 16 + k % 16 / 2) else g (k / 16 * 16 + k % 16 / 2) := rfl
theorem unpackHi_tab (f g : Nat → UInt8) : unpackHi (tab 32 f) (tab 32 g) =
    tab 32 fun k => if k % 2 = 0 then f (k / 16 * 16 + 8 + k % 16 / 2) else g (k / 16 * 16 + 8 + k % 16 / 2) := rfl
theorem take16_tab (f : Nat → UInt8) : (tab 32 f).take 16 = tab 16 f := rfl
theorem drop16_tab (f : Nat → UInt8) : (tab 32 f).drop 16 = tab 16 fun k => f (16 + k) := rfl

theorem tab_succ (n : Nat) (g : Nat → UInt8) : tab (n + 1) g = tab n g ++ [g n] := by
  unfold tab; rw [List.range_succ, List.map_append]; rfl

/-- the gather loop collects the channels of 32 consecutive pixels -/
theorem gatherChannels_eq (P : Profile) (img : Image UInt8) (h : img.WF) {off count : Nat} (hc : 0 < img.info.channels)
    (hcount : count ≤ img.info.channels) (hoff : off + 32 * img.info.channels ≤ img.data.length) :
    gatherChannels P img off count =
      .ok ((List.range count).map fun k => tab 32 fun t => img.data.getD (off + t * img.info.channels + k) 0) := by
  have hlen : img.data.length < U32SIZE := by rw [h.length]; exact h.full
  have hch := h.channels
  unfold gatherChannels
  dsimp only
  rw [usizeMul_ok (by omega), ok_bind, usizeAdd_ok (by omega), ok_bind]
  unfold forStep
  rw [if_neg (by omega)]
  have hN : (off + 32 * img.info.channels - off + img.info.channels - 1) / img.info.channels = 32 := by
    rw [show off + 32 * img.info.channels - off + img.info.channels - 1 = (img.info.channels - 1) + img.info.channels * 32 by
      rw [Nat.mul_comm img.info.channels 32]; omega]
    rw [Nat.add_mul_div_left _ _ hc, Nat.div_eq_of_lt (by omega), Nat.zero_add]
  rw [hN]
  obtain ⟨s, e, hs⟩ := forRange_rule (a := 0) (b := 32) (s := List.replicate count ([] : List UInt8))
    (f := fun t vs => forRange 0 count vs fun k vs => do
      let ik ← usizeAdd P (off + t * img.info.channels) k
      let c ← idx img.data ik
      let v ← idx vs k
      setIdx vs k (v ++ [c]))
    (fun t vs => vs = (List.range count).map fun k => tab t fun t => img.data.getD (off + t * img.info.channels + k) 0)
    (by omega) (by
      apply List.ext_getElem?; intro j
      rw [List.getElem?_replicate, List.getElem?_map]
      by_cases hj : j < count
      · rw [if_pos hj, List.getElem?_range hj]; rfl
      · rw [if_neg hj, List.getElem?_eq_none (by simpa using hj)]; rfl)
    (by
      rintro t vs _ ht rfl
      have htm : (t + 1) * img.info.channels ≤ 32 * img.info.channels := Nat.mul_le_mul_right _ ht
      rw [Nat.succ_mul] at htm
      refine ⟨_, forRange_update count _ _ (fun k v => v ++ [img.data.getD (off + t * img.info.channels + k) 0]) ?_, ?_⟩
      · intro k g hk
        rw [usizeAdd_ok (by omega), ok_bind, idx_ok (show off + t * img.info.channels + k < img.data.length by omega), ok_bind]
        have hk' : k < ((List.range count).map g).length := by simpa using hk
        rw [idx_ok hk', ok_bind, setIdx_ok hk']
        congr 2
        have : off + t * img.info.channels + k < img.data.length := by omega
        simp [List.getD, List.getElem?_eq_getElem this]
      · apply List.map_congr_left; intro k _
        rw [tab_succ])
  rw [e, hs]

/-- spec of the vector average of three bytes: round-half-up average of (average of r, g) and b -/
def avg3 (r g b : UInt8) : UInt8 :=
  UInt8.ofNat ((((r.toNat + g.toNat + 1) / 2) + b.toNat + 1) / 2)

theorem avg2_toNat (a b : UInt8) : (UInt8.ofNat ((a.toNat + b.toNat + 1) / 2)).toNat = (a.toNat + b.toNat + 1) / 2 := by
  have := a.toNat_lt; have := b.toNat_lt
  exact UInt8.toNat_ofNat_of_lt' (show _ < 256 by omega)

theorem avgavg_tab (r g b : Nat → UInt8) : avgEpu8 (avgEpu8 (tab 32 r) (tab 32 g)) (tab 32 b) =
    tab 32 fun k => avg3 (r k) (g k) (b k) := by
  rw [avgEpu8_tab, avgEpu8_tab]
  apply tab_congr; intro j _
  rw [avg2_toNat]; rfl

/-- byte `j` of the buffer (0 outside) -/
def Image.byte (img : Image UInt8) (j : Nat) : UInt8 := img.data.getD j 0

/-- exact result of the RGB path -/
theorem avg256U8_exact {F} [FloatOps F] (P : Profile) (img : Image UInt8) (h : img.WF) (h3 : img.info.channels = 3) :
    avg256U8 F P img = .ok (Image.fromVec img.info.width img.info.height 1 img.info.alpha
      (tab (img.info.width * img.info.height) fun i =>
        if i < img.info.width * img.info.height / 32 * 32 then
          avg3 (img.byte (3 * i)) (img.byte (3 * i + 1)) (img.byte (3 * i + 2)) else 0)) := by
  have hlen : img.data.length = img.info.width * img.info.height * 3 := by rw [h.length, h3]
  have hfull := h.full
  unfold avg256U8
  dsimp only
  rw [h3] at hfull
  rw [ImageInfo.fullSize_eq P h.infoWF, h3, usizeMul_ok (by decide), ok_bind, ok_bind]
  generalize hm : img.info.width * img.info.height = m at *
  rw [show m * 3 / 3 = m by omega, replicate_tab]
  obtain ⟨i', s', e, h1, h2, ⟨k, hk⟩, h4⟩ := whileStep_rule (add := usizeAdd P) (step := 32 * 3) (n := m * 3)
    (body := fun i data => do
      let (r, g, b) ← deinterleave3 P img i
      let o ← natDiv i 3
      storeBytes data o (avgEpu8 (avgEpu8 r g) b))
    (by decide) (fun i hi => usizeAdd_ok (by omega))
    (fun i data => i % 96 = 0 ∧ data = tab m fun j => if j < i / 3 then
        avg3 (img.byte (3 * j)) (img.byte (3 * j + 1)) (img.byte (3 * j + 2)) else 0)
    (by
      rintro i data hi ⟨hmod, rfl⟩
      refine ⟨_, ?_, by omega, rfl⟩
      unfold deinterleave3
      rw [gatherChannels_eq P img h (by rw [h3]; decide) (by rw [h3]) (by rw [h3]; omega), ok_bind, h3]
      simp only [List.range_succ, List.range_zero, List.nil_append, List.map_append, List.map_cons, List.map_nil,
        List.cons_append]
      rw [show idx [_, _, _] 0 = .ok _ from rfl, ok_bind, show idx [_, _, _] 1 = .ok _ from rfl, ok_bind,
        show idx [_, _, _] 2 = .ok _ from rfl, ok_bind]
      rw [load256_tab (by decide), ok_bind, load256_tab (by decide), ok_bind, load256_tab (by decide), ok_bind, ok_bind]
      dsimp only
      unfold natDiv
      rw [if_neg (by decide), ok_bind, avgavg_tab, storeBytes_tab (by omega)]
      congr 1
      apply tab_congr; intro j hj
      by_cases c1 : i / 3 ≤ j ∧ j < i / 3 + 32
      · rw [if_pos c1, if_pos (show j < (i + 32 * 3) / 3 by omega)]
        unfold Image.byte
        rw [show i + (0 + (j - i / 3)) * 3 + 0 = 3 * j by omega, show i + (0 + (j - i / 3)) * 3 + 1 = 3 * j + 1 by omega,
          show i + (0 + (j - i / 3)) * 3 + 2 = 3 * j + 2 by omega]
      · rw [if_neg c1]
        by_cases c2 : j < i / 3
        · rw [if_pos c2, if_pos (show j < (i + 32 * 3) / 3 by omega)]
        · rw [if_neg c2, if_neg (show ¬ j < (i + 32 * 3) / 3 by omega)])
    (m * 3 + 2) 0 (tab m fun _ => 0) (by omega) (by omega) ⟨rfl, tab_congr (by intros; simp)⟩
  rw [e, ok_bind]
  dsimp only
  rw [if_neg (by omega), ok_bind, h4.2]
  rw [show m / 32 * 32 = i' / 3 by omega]

/-- exact result of the RGBA path -/
theorem avgAlpha256U8_exact {F} [FloatOps F] (P : Profile) (img : Image UInt8) (h : img.WF) (h4 : img.info.channels = 4) :
    avgAlpha256U8 F P img = .ok (Image.fromVec img.info.width img.info.height 2 img.info.alpha
      (tab (img.info.width * img.info.height * 2) fun j =>
        if j / 2 < img.info.width * img.info.height / 32 * 32 then
          (if j % 2 = 0 then avg3 (img.byte (4 * (j / 2))) (img.byte (4 * (j / 2) + 1)) (img.byte (4 * (j / 2) + 2))
           else img.byte (4 * (j / 2) + 3)) else 0)) := by
  have hlen : img.data.length = img.info.width * img.info.height * 4 := by rw [h.length, h4]
  have hfull := h.full
  unfold avgAlpha256U8
  dsimp only
  rw [h4] at hfull
  rw [ImageInfo.fullSize_eq P h.infoWF, h4, usizeMul_ok (by decide), ok_bind, ok_bind]
  generalize hm : img.info.width * img.info.height = m at *
  rw [show m * 4 / 2 = m * 2 by omega, replicate_tab]
  obtain ⟨i', s', e, h1, h2, ⟨k, hk⟩, h5⟩ := whileStep_rule (add := usizeAdd P) (step := 32 * 4) (n := m * 4)
    (body := fun i data => do
      let (r, g, b, a) ← deinterleave4 P img i
      let data ← storeu2 data (i / 2 + 32) (i / 2) (unpackLo (avgEpu8 (avgEpu8 r g) b) a)
      storeu2 data (i / 2 + 48) (i / 2 + 16) (unpackHi (avgEpu8 (avgEpu8 r g) b) a))
    (by decide) (fun i hi => usizeAdd_ok (by omega))
    (fun i data => i % 128 = 0 ∧ data = tab (m * 2) fun j => if j < i / 2 then
          (if j % 2 = 0 then avg3 (img.byte (4 * (j / 2))) (img.byte (4 * (j / 2) + 1)) (img.byte (4 * (j / 2) + 2))
           else img.byte (4 * (j / 2) + 3)) else 0)
    (by
      rintro i data hi ⟨hmod, rfl⟩
      refine ⟨_, ?_, by omega, rfl⟩
      unfold deinterleave4
      rw [gatherChannels_eq P img h (by rw [h4]; decide) (by rw [h4]) (by rw [h4]; omega), ok_bind, h4]
      simp only [List.range_succ, List.range_zero, List.nil_append, List.map_append, List.map_cons, List.map_nil,
        List.cons_append]
      rw [show idx [_, _, _, _] 0 = .ok _ from rfl, ok_bind, show idx [_, _, _, _] 1 = .ok _ from rfl, ok_bind,
        show idx [_, _, _, _] 2 = .ok _ from rfl, ok_bind, show idx [_, _, _, _] 3 = .ok _ from rfl, ok_bind]
      rw [load256_tab (by decide), ok_bind, load256_tab (by decide), ok_bind, load256_tab (by decide), ok_bind,
        load256_tab (by decide), ok_bind, ok_bind]
      dsimp only
      rw [avgavg_tab, unpackLo_tab, unpackHi_tab]
      unfold storeu2
      simp only [take16_tab, drop16_tab]
      rw [storeBytes_tab (by omega), ok_bind, storeBytes_tab (by omega), ok_bind, storeBytes_tab (by omega), ok_bind,
        storeBytes_tab (by omega)]
      congr 1
      apply tab_congr; intro j hj
      have key : ∀ p : Nat, i / 2 ≤ j → j < i / 2 + 64 → p = (j - i / 2) / 2 →
          ∀ q, i + (0 + p) * 4 + q = 4 * (j / 2) + q := by intros; omega
      by_cases c4 : i / 2 + 48 ≤ j ∧ j < i / 2 + 48 + 16
      · rw [if_pos c4, if_pos (show j < (i + 32 * 4) / 2 by omega)]
        have hp : (16 + (j - (i / 2 + 48))) / 16 * 16 + 8 + (16 + (j - (i / 2 + 48))) % 16 / 2 = (j - i / 2) / 2 := by omega
        have := key _ (by omega) (by omega) hp
        unfold Image.byte
        rw [this, this, this, this]
        by_cases hj2 : j % 2 = 0
        · rw [if_pos (by omega), if_pos hj2]; rfl
        · rw [if_neg (by omega), if_neg hj2]
      rw [if_neg c4]
      by_cases c3 : i / 2 + 16 ≤ j ∧ j < i / 2 + 16 + 16
      · rw [if_pos c3, if_pos (show j < (i + 32 * 4) / 2 by omega)]
        have hp : (j - (i / 2 + 16)) / 16 * 16 + 8 + (j - (i / 2 + 16)) % 16 / 2 = (j - i / 2) / 2 := by omega
        have := key _ (by omega) (by omega) hp
        unfold Image.byte
        rw [this, this, this, this]
        by_cases hj2 : j % 2 = 0
        · rw [if_pos (by omega), if_pos hj2]; rfl
        · rw [if_neg (by omega), if_neg hj2]
      rw [if_neg c3]
      by_cases c2 : i / 2 + 32 ≤ j ∧ j < i / 2 + 32 + 16
      · rw [if_pos c2, if_pos (show j < (i + 32 * 4) / 2 by omega)]
        have hp : (16 + (j - (i / 2 + 32))) / 16 * 16 + (16 + (j - (i / 2 + 32))) % 16 / 2 = (j - i / 2) / 2 := by omega
        have := key _ (by omega) (by omega) hp
        unfold Image.byte
        rw [this, this, this, this]
        by_cases hj2 : j % 2 = 0
        · rw [if_pos (by omega), if_pos hj2]; rfl
        · rw [if_neg (by omega), if_neg hj2]
      rw [if_neg c2]
      by_cases c1 : i / 2 ≤ j ∧ j < i / 2 + 16
      · rw [if_pos c1, if_pos (show j < (i + 32 * 4) / 2 by omega)]
        have hp : (j - i / 2) / 16 * 16 + (j - i / 2) % 16 / 2 = (j - i / 2) / 2 := by omega
        have := key _ (by omega) (by omega) hp
        unfold Image.byte
        rw [this, this, this, this]
        by_cases hj2 : j % 2 = 0
        · rw [if_pos (by omega), if_pos hj2]; rfl
        · rw [if_neg (by omega), if_neg hj2]
      rw [if_neg c1]
      by_cases c0 : j < i / 2
      · rw [if_pos c0, if_pos (show j < (i + 32 * 4) / 2 by omega)]
      · rw [if_neg c0, if_neg (show ¬ j < (i + 32 * 4) / 2 by omega)])
    (m * 4 + 2) 0 (tab (m * 2) fun _ => 0) (by omega) (by omega) ⟨rfl, tab_congr (by intros; simp)⟩
  rw [e, ok_bind]
  dsimp only
  rw [if_neg (by omega), ok_bind, h5.2]
  congr 2
  apply tab_congr; intro j hj
  have hi' : m / 32 * 32 = i' / 4 := by omega
  by_cases hj2 : j < i' / 2
  · rw [if_pos hj2, if_pos (show j / 2 < m / 32 * 32 by omega)]
  · rw [if_neg hj2, if_neg (show ¬ j / 2 < m / 32 * 32 by omega)]

/-! ## C31 — memory safety -/

theorem storeBytes_len {d v : List UInt8} {i : Nat} (h : i + v.length ≤ d.length) :
    ∃ d', storeBytes d i v = .ok d' ∧ d'.length = d.length := by
  unfold storeBytes
  rw [if_pos h]
  exact ⟨_, rfl, by simp; omega⟩

theorem store_tab_len {d : List UInt8} {i m : Nat} (f : Nat → UInt8) (h : i + m ≤ d.length) :
    ∃ d', storeBytes d i (tab m f) = .ok d' ∧ d'.length = d.length :=
  storeBytes_len (by rw [tab_length]; exact h)

/-- **C31** The AVX2 grayscale path returns (no out-of-bounds access, no panic) for every well-formed
image with at least three channels (four if one of them is alpha). Missing: images with fewer channels,
where it writes outside its buffer (`c31_violated`). -/
theorem c31_memory_safe_partial {F} [FloatOps F] (P : Profile) (img : Image UInt8) (h : img.WF)
    (hc : if img.info.alpha then 4 ≤ img.info.channels else 3 ≤ img.info.channels) :
    Res.Returns (rgbToGrayscale F true P img) := by
  have hfull := h.full
  have hlen := h.length
  have hch := h.channels
  unfold rgbToGrayscale avgChecked256U8 Res.Returns
  rw [if_pos rfl]
  cases ha : img.info.alpha
  · rw [ha] at hc
    simp only [Bool.false_eq_true, if_false] at hc ⊢
    unfold avg256U8
    dsimp only
    rw [ImageInfo.fullSize_eq P h.infoWF, usizeMul_ok (by omega), ok_bind, ok_bind]
    generalize hc' : img.info.channels = c at *
    generalize hn : img.info.width * img.info.height * c = n at *
    have hgc := fun {off count : Nat} => gatherChannels_eq (off := off) (count := count) P img h (by omega)
    rw [hc'] at hgc
    obtain ⟨i', s', e, h1, h2, -, h4⟩ := whileStep_rule (add := usizeAdd P) (step := 32 * c) (n := n)
      (body := fun i data => do
        let (r, g, b) ← deinterleave3 P img i
        let o ← natDiv i c
        storeBytes data o (avgEpu8 (avgEpu8 r g) b))
      (by omega) (fun i hi => usizeAdd_ok (by omega))
      (fun i data => data.length = n / 3)
      (by
        rintro i data hi hd
        unfold deinterleave3
        rw [hgc hc (by omega), ok_bind]
        simp only [List.range_succ, List.range_zero, List.nil_append, List.map_cons, List.map_nil,
          List.cons_append]
        rw [show idx [_, _, _] 0 = .ok _ from rfl, ok_bind, show idx [_, _, _] 1 = .ok _ from rfl, ok_bind,
          show idx [_, _, _] 2 = .ok _ from rfl, ok_bind]
        rw [load256_tab (by decide), ok_bind, load256_tab (by decide), ok_bind, load256_tab (by decide), ok_bind, ok_bind]
        dsimp only
        unfold natDiv
        rw [if_neg (by omega), ok_bind, avgavg_tab]
        have h3 : i / c + 32 ≤ n / c := by
          rw [← Nat.add_mul_div_left i 32 (show 0 < c by omega)]
          exact Nat.div_le_div_right (by rw [Nat.mul_comm c 32]; exact hi)
        have h3' : n / c ≤ n / 3 := Nat.div_le_div_left hc (by decide)
        obtain ⟨d', e', hd'⟩ := store_tab_len (d := data) (i := i / c) (m := 32) _ (by omega)
        exact ⟨d', e', by omega⟩)
      (n + 2) 0 (List.replicate (n / 3) 0) (by omega)
      (by have : (n + 2) * 1 ≤ (n + 2) * (32 * c) := Nat.mul_le_mul_left _ (by omega)
          omega) (by simp)
    rw [e, ok_bind]
    dsimp only
    rw [if_neg (by omega), ok_bind]
    exact ⟨_, rfl⟩
  · rw [ha] at hc
    simp only [if_true] at hc ⊢
    unfold avgAlpha256U8
    dsimp only
    rw [ImageInfo.fullSize_eq P h.infoWF, usizeMul_ok (by omega), ok_bind, ok_bind]
    generalize hc' : img.info.channels = c at *
    generalize hn : img.info.width * img.info.height * c = n at *
    have hgc := fun {off count : Nat} => gatherChannels_eq (off := off) (count := count) P img h (by omega)
    rw [hc'] at hgc
    obtain ⟨i', s', e, h1, h2, -, h4⟩ := whileStep_rule (add := usizeAdd P) (step := 32 * c) (n := n)
      (body := fun i data => do
        let (r, g, b, a) ← deinterleave4 P img i
        let data ← storeu2 data (i / 2 + 32) (i / 2) (unpackLo (avgEpu8 (avgEpu8 r g) b) a)
        storeu2 data (i / 2 + 48) (i / 2 + 16) (unpackHi (avgEpu8 (avgEpu8 r g) b) a))
      (by omega) (fun i hi => usizeAdd_ok (by omega))
      (fun i data => data.length = n / 2)
      (by
        rintro i data hi hd
        unfold deinterleave4
        rw [hgc hc (by omega), ok_bind]
        simp only [List.range_succ, List.range_zero, List.nil_append, List.map_cons, List.map_nil,
          List.cons_append]
        rw [show idx [_, _, _, _] 0 = .ok _ from rfl, ok_bind, show idx [_, _, _, _] 1 = .ok _ from rfl, ok_bind,
          show idx [_, _, _, _] 2 = .ok _ from rfl, ok_bind, show idx [_, _, _, _] 3 = .ok _ from rfl, ok_bind]
        rw [load256_tab (by decide), ok_bind, load256_tab (by decide), ok_bind, load256_tab (by decide), ok_bind,
          load256_tab (by decide), ok_bind, ok_bind]
        dsimp only
        rw [avgavg_tab, unpackLo_tab, unpackHi_tab]
        unfold storeu2
        simp only [take16_tab, drop16_tab]
        obtain ⟨d1, e1, l1⟩ := store_tab_len (d := data) (i := i / 2) (m := 16) _ (by omega)
        rw [e1, ok_bind]
        obtain ⟨d2, e2, l2⟩ := store_tab_len (d := d1) (i := i / 2 + 32) (m := 16) _ (by omega)
        rw [e2, ok_bind]
        obtain ⟨d3, e3, l3⟩ := store_tab_len (d := d2) (i := i / 2 + 16) (m := 16) _ (by omega)
        rw [e3, ok_bind]
        obtain ⟨d4, e4, l4⟩ := store_tab_len (d := d3) (i := i / 2 + 48) (m := 16) _ (by omega)
        rw [e4]
        exact ⟨d4, rfl, by omega⟩)
      (n + 2) 0 (List.replicate (n / 2) 0) (by omega)
      (by have : (n + 2) * 1 ≤ (n + 2) * (32 * c) := Nat.mul_le_mul_left _ (by omega)
          omega) (by simp)
    rw [e, ok_bind]
    dsimp only
    rw [if_neg (by omega), ok_bind]
    exact ⟨_, rfl⟩

/-- a one-channel gather of three channels still stays inside the buffer while two further bytes follow -/
theorem gather_first {img : Image UInt8} (P : Profile) (h1 : img.info.channels = 1) (hl : 34 ≤ img.data.length)
    (hlen : img.data.length < U32SIZE) :
    gatherChannels P img 0 3 =
      .ok ((List.range 3).map fun k => tab 32 fun t => img.data.getD (t + k) 0) := by
  unfold gatherChannels
  dsimp only
  rw [h1, usizeMul_ok (by omega), ok_bind, usizeAdd_ok (by omega), ok_bind]
  unfold forStep
  rw [if_neg (by omega)]
  obtain ⟨s, e, hs⟩ := forRange_rule (a := 0) (b := 32) (s := List.replicate 3 ([] : List UInt8))
    (f := fun t vs => forRange 0 3 vs fun k vs => do
      let ik ← usizeAdd P (0 + t * 1) k
      let c ← idx img.data ik
      let v ← idx vs k
      setIdx vs k (v ++ [c]))
    (fun t vs => vs = (List.range 3).map fun k => tab t fun t => img.data.getD (t + k) 0)
    (by omega) rfl
    (by
      rintro t vs _ ht rfl
      refine ⟨_, forRange_update 3 _ _ (fun k v => v ++ [img.data.getD (t + k) 0]) ?_, ?_⟩
      · intro k g hk
        rw [usizeAdd_ok (by omega), ok_bind, show 0 + t * 1 + k = t + k by omega,
          idx_ok (show t + k < img.data.length by omega), ok_bind]
        have hk' : k < ((List.range 3).map g).length := by simpa using hk
        rw [idx_ok hk', ok_bind, setIdx_ok hk']
        congr 2
        have : t + k < img.data.length := by omega
        simp [List.getD, List.getElem?_eq_getElem this]
      · apply List.map_congr_left; intro k _
        rw [tab_succ])
  rw [← hs]
  exact e

/-- **C31** violated: for every one-channel (already grey) image of 34 to 95 pixels without alpha, the
safe function `rgb_to_grayscale` writes outside its output buffer. -/
theorem c31_violated {F} [FloatOps F] (P : Profile) (img : Image UInt8) (h : img.WF)
    (h1 : img.info.channels = 1) (ha : img.info.alpha = false)
    (hm : 34 ≤ img.info.width * img.info.height ∧ img.info.width * img.info.height < 96) :
    Res.UB (rgbToGrayscale F true P img) := by
  have hlen : img.data.length = img.info.width * img.info.height := by rw [h.length, h1, Nat.mul_one]
  unfold rgbToGrayscale avgChecked256U8 Res.UB
  rw [if_pos rfl, ha]
  simp only [Bool.false_eq_true, if_false]
  unfold avg256U8
  dsimp only
  rw [ImageInfo.fullSize_eq P h.infoWF, h1, usizeMul_ok (by decide), ok_bind, ok_bind]
  generalize img.info.width * img.info.height = m at *
  unfold whileStep
  rw [usizeAdd_ok (by decide), ok_bind, if_pos (show 0 + 32 * 1 ≤ m * 1 by omega)]
  unfold deinterleave3
  rw [gather_first P h1 (by omega) (by omega), ok_bind]
  simp only [List.range_succ, List.range_zero, List.nil_append, List.map_cons, List.map_nil,
    List.cons_append]
  rw [show idx [_, _, _] 0 = .ok _ from rfl, ok_bind, show idx [_, _, _] 1 = .ok _ from rfl, ok_bind,
    show idx [_, _, _] 2 = .ok _ from rfl, ok_bind]
  rw [load256_tab (by decide), ok_bind, load256_tab (by decide), ok_bind, load256_tab (by decide), ok_bind, ok_bind]
  dsimp only
  unfold natDiv
  rw [if_neg (by decide), ok_bind, avgavg_tab]
  unfold storeBytes
  rw [if_neg (by rw [tab_length, List.length_replicate]; omega)]
  rfl

example : ∃ img : Image UInt8, img.WF ∧ img.info.channels = 1 ∧ img.info.alpha = false ∧
    34 ≤ img.info.width * img.info.height ∧ img.info.width * img.info.height < 96 :=
  ⟨Image.fromVec 8 8 1 false (List.replicate 64 1), ⟨by decide, by decide, by decide, by decide, by decide, by decide⟩,
    by decide, by decide, by decide, by decide⟩

/-! ## C30 — equivalence with the scalar path -/

theorem px_bytes {img : Image UInt8} {x y k : Nat} (h : img.WF) (hx : x < img.info.width) (hy : y < img.info.height)
    (hk : k < img.info.channels) :
    (img.px x y)[k]? = some (img.byte (img.info.channels * (y * img.info.width + x) + k)) := by
  have hl := Image.px_length h hx hy
  have e := chunk_getElem? img.data img.info.channels (y * img.info.width + x) k hk
  rw [Image.px_eq_chunk, e, Nat.mul_comm img.info.channels]
  have hr : (y * img.info.width + x + 1) * img.info.channels ≤ img.info.width * img.info.height * img.info.channels :=
    Nat.mul_le_mul_right _ (row_lt hx hy)
  rw [Nat.succ_mul, ← h.length] at hr
  unfold Image.byte List.getD
  rw [List.getElem?_eq_getElem (by omega)]; rfl

theorem fromVec_tab_shows {w h c : Nat} {a : Bool} (hw : ImageInfo.WF ⟨w, h, c, a⟩) (g : Nat → UInt8) :
    (Image.fromVec w h c a (tab (w * h * c) g)).Shows ⟨w, h, c, a⟩
      (fun x y => tab c fun k => g ((y * w + x) * c + k)) := by
  refine Image.shows_iff.2 ⟨⟨hw.width, hw.height, hw.channels, hw.size, hw.full, tab_length _ _⟩, rfl, ?_⟩
  intro x y hx hy
  have hx : x < w := hx
  have hy : y < h := hy
  rw [Image.px_eq_chunk]
  show chunk (tab (w * h * c) g) c (y * w + x) = _
  have hr : (y * w + x + 1) * c ≤ w * h * c := Nat.mul_le_mul_right _ (row_lt hx hy)
  rw [Nat.succ_mul] at hr
  apply List.ext_getElem?; intro k
  rw [tab_get]
  by_cases hk : k < c
  · rw [chunk_getElem? _ _ _ _ hk, tab_get, if_pos hk, if_pos (by omega)]
  · rw [if_neg hk, List.getElem?_eq_none]
    exact Nat.le_trans (List.length_take_le _ _) (by omega)

theorem list3 {α} {l : List α} {a b c : α} (hl : l.length = 3) (h0 : l[0]? = some a) (h1 : l[1]? = some b)
    (h2 : l[2]? = some c) : l = [a, b, c] := by
  match l, hl with
  | [x, y, z], _ => simp at *; exact ⟨h0, h1, h2⟩
theorem list4 {α} {l : List α} {a b c d : α} (hl : l.length = 4) (h0 : l[0]? = some a) (h1 : l[1]? = some b)
    (h2 : l[2]? = some c) (h3 : l[3]? = some d) : l = [a, b, c, d] := by
  match l, hl with
  | [x, y, z, w], _ => simp at *; exact ⟨h0, h1, h2, h3⟩

/-- spec of the AVX2 result: vector average of the first three values, remaining values kept -/
def simdGray : List UInt8 → List UInt8
  | r :: g :: b :: rest => avg3 r g b :: rest
  | _ => []

/-- an RGB image without, or an RGBA image with an alpha channel -/
def IsRgb (i : ImageInfo) : Prop := i.channels = 3 ∧ i.alpha = false ∨ i.channels = 4 ∧ i.alpha = true

/-- **C30** exact result of the AVX2 path: `avg(avg(r, g), b)`, both averages rounded up, for the first
`32 * (pixels / 32)` pixels and zero bytes for the rest. -/
theorem c30_exact {F} [FloatOps F] (P : Profile) (img : Image UInt8) (h : img.WF) (hrgb : IsRgb img.info) :
    ∃ out, rgbToGrayscale F true P img = .ok out ∧
      out.Shows { img.info with channels := 1 + (if img.info.alpha then 1 else 0) } (fun x y =>
        if y * img.info.width + x < img.info.width * img.info.height / 32 * 32 then simdGray (img.px x y)
        else List.replicate (1 + (if img.info.alpha then 1 else 0)) 0) := by
  have hfull := h.full
  unfold rgbToGrayscale avgChecked256U8
  rw [if_pos rfl]
  rcases hrgb with ⟨h3, ha⟩ | ⟨h4, ha⟩
  · rw [ha]
    simp only [Bool.false_eq_true, if_false]
    rw [avg256U8_exact P img h h3]
    rw [h3] at hfull
    refine ⟨_, rfl, ?_⟩
    have hs := fromVec_tab_shows (w := img.info.width) (h := img.info.height) (c := 1) (a := img.info.alpha)
      ⟨h.width, h.height, show 1 < 256 by decide, h.size,
        show img.info.width * img.info.height * 1 < U32SIZE by omega⟩ (fun i =>
        if i < img.info.width * img.info.height / 32 * 32 then
          avg3 (img.byte (3 * i)) (img.byte (3 * i + 1)) (img.byte (3 * i + 2)) else 0)
    rw [Nat.mul_one] at hs
    rw [ha] at hs ⊢
    refine hs.congr fun x y hx hy => ?_
    have hx : x < img.info.width := hx
    have hy : y < img.info.height := hy
    have hp : img.px x y = [img.byte (3 * (y * img.info.width + x)), img.byte (3 * (y * img.info.width + x) + 1),
        img.byte (3 * (y * img.info.width + x) + 2)] := by
      have g := fun k hk => px_bytes (k := k) h hx hy hk
      rw [h3] at g
      exact list3 (by rw [Image.px_length h hx hy, h3]) (g 0 (by decide)) (g 1 (by decide)) (g 2 (by decide))
    rw [hp]
    show [_] = _
    dsimp only
    rw [show (y * img.info.width + x) * 1 + 0 = y * img.info.width + x by omega]
    split <;> rfl
  · rw [ha]
    simp only [if_true]
    rw [avgAlpha256U8_exact P img h h4]
    rw [h4] at hfull
    refine ⟨_, rfl, ?_⟩
    have hs := fromVec_tab_shows (w := img.info.width) (h := img.info.height) (c := 2) (a := img.info.alpha)
      ⟨h.width, h.height, show 2 < 256 by decide, h.size,
        show img.info.width * img.info.height * 2 < U32SIZE by omega⟩ (fun j =>
        if j / 2 < img.info.width * img.info.height / 32 * 32 then
          (if j % 2 = 0 then avg3 (img.byte (4 * (j / 2))) (img.byte (4 * (j / 2) + 1)) (img.byte (4 * (j / 2) + 2))
           else img.byte (4 * (j / 2) + 3)) else 0)
    rw [ha] at hs ⊢
    refine hs.congr fun x y hx hy => ?_
    have hx : x < img.info.width := hx
    have hy : y < img.info.height := hy
    have hp : img.px x y = [img.byte (4 * (y * img.info.width + x)), img.byte (4 * (y * img.info.width + x) + 1),
        img.byte (4 * (y * img.info.width + x) + 2), img.byte (4 * (y * img.info.width + x) + 3)] := by
      have g := fun k hk => px_bytes (k := k) h hx hy hk
      rw [h4] at g
      exact list4 (by rw [Image.px_length h hx hy, h4]) (g 0 (by decide)) (g 1 (by decide)) (g 2 (by decide))
        (g 3 (by decide))
    rw [hp]
    generalize y * img.info.width + x = i
    unfold tab
    simp only [List.range_succ, List.range_zero, List.nil_append, List.map_cons, List.map_nil, List.cons_append]
    rw [show (i * 2 + 0) / 2 = i by omega, show (i * 2 + 1) / 2 = i by omega,
      if_pos (show (i * 2 + 0) % 2 = 0 by omega), if_neg (show ¬ (i * 2 + 1) % 2 = 0 by omega)]
    split <;> rfl

theorem avg3_same (v : UInt8) : avg3 v v v = v := by
  unfold avg3
  rw [show (v.toNat + v.toNat + 1) / 2 = v.toNat by omega, show (v.toNat + v.toNat + 1) / 2 = v.toNat by omega]
  exact UInt8.ofNat_toNat

theorem mean_same (v : UInt8) : UInt8.ofNat (meanU8 [v, v, v]) = v := by
  unfold meanU8
  rw [show (List.map UInt8.toNat [v, v, v]).sum / [v, v, v].length = v.toNat by
    simp only [List.map_cons, List.map_nil, List.sum_cons, List.sum_nil, List.length_cons, List.length_nil]; omega]
  exact UInt8.ofNat_toNat

/-- **C30** When every pixel's three colour values are equal and the number of pixels is a multiple of
32, the AVX2 and the scalar path return the same image. Missing: all other images, on which the paths
differ in general (`c30_exact` gives the AVX2 result, `c29_grayscale_partial` the scalar one;
`c30_violated_value`, `c30_violated_tail`). -/
theorem c30_simd_partial {F} [FloatOps F] (P : Profile) (img : Image UInt8) (h : img.WF)
    (hpos : 0 < img.info.width ∧ 0 < img.info.height) (hrgb : IsRgb img.info)
    (h32 : img.info.width * img.info.height % 32 = 0)
    (hgrey : ∀ x y, x < img.info.width → y < img.info.height → ∃ v, img.info.colour (img.px x y) = [v, v, v]) :
    rgbToGrayscale F true P img = rgbToGrayscale F false P img := by
  have hcol : img.info.colours = 3 := by
    unfold ImageInfo.colours
    rcases hrgb with ⟨h3, ha⟩ | ⟨h4, ha⟩
    · rw [ha, h3]; rfl
    · rw [ha, h4]; rfl
  obtain ⟨o1, e1, s1⟩ := c30_exact (F := F) P img h hrgb
  obtain ⟨o2, e2, s2⟩ := c29_grayscale_partial (F := F) P img h hpos (by omega) (by omega)
  rw [e1, e2]
  congr 1
  refine Image.Shows.ext s1 (s2.congr fun x y hx hy => ?_)
  have hr := row_lt hx hy
  obtain ⟨v, hv⟩ := hgrey x y hx hy
  rw [if_pos (show y * img.info.width + x < img.info.width * img.info.height / 32 * 32 by
    rw [Nat.div_mul_cancel (Nat.dvd_of_mod_eq_zero h32)]; exact hr), hv, mean_same]
  have hap := img.info.colour_append (img.px x y)
  have hg : simdGray (img.px x y) = v :: img.info.alphaOf (img.px x y) := by
    conv_lhs => rw [← hap, hv]
    show avg3 v v v :: img.info.alphaOf (img.px x y) = _
    rw [avg3_same]
  rw [hg]; rfl

/-- **C30** violated: 32 pixels `(0, 0, 1)` become 1 with AVX2 and 0 without. -/
theorem c30_violated_value {F} [FloatOps F] :
    rgbToGrayscale F true .release (Image.fromVec 32 1 3 false ((List.range 32).flatMap fun _ => [0, 0, 1])) =
      .ok (Image.fromVec 32 1 1 false (List.replicate 32 1)) ∧
    rgbToGrayscale F false .release (Image.fromVec 32 1 3 false ((List.range 32).flatMap fun _ => [0, 0, 1])) =
      .ok (Image.fromVec 32 1 1 false (List.replicate 32 0)) := by
  constructor
  · unfold rgbToGrayscale avgChecked256U8
    rw [if_pos rfl, if_neg (by decide),
      avg256U8_exact _ _ ⟨by decide, by decide, by decide, by decide, by decide, by decide⟩ (by decide)]
    congr 1
  · unfold rgbToGrayscale
    rw [if_neg (by decide)]
    decide +kernel

/-- **C30** violated: an image with fewer than 32 pixels comes out black with AVX2. -/
theorem c30_violated_tail {F} [FloatOps F] :
    rgbToGrayscale F true .release demo = .ok (Image.fromVec 2 2 1 false [0, 0, 0, 0]) ∧
    rgbToGrayscale F false .release demo ≠ .ok (Image.fromVec 2 2 1 false [0, 0, 0, 0]) := by
  constructor
  · unfold rgbToGrayscale avgChecked256U8
    rw [if_pos rfl, if_neg (by decide), avg256U8_exact _ _ demo_WF (by decide)]
    congr 1
  · unfold rgbToGrayscale
    rw [if_neg (by decide)]
    decide +kernel

example : ∃ img : Image UInt8, img.WF ∧ IsRgb img.info ∧ img.info.width * img.info.height % 32 = 0 ∧
    0 < img.info.width ∧ ∀ x y, x < img.info.width → y < img.info.height →
      ∃ v, img.info.colour (img.px x y) = [v, v, v] :=
  ⟨Image.fromVec 32 1 3 false (List.replicate 96 7), ⟨by decide, by decide, by decide, by decide, by decide, by decide⟩,
    .inl ⟨rfl, rfl⟩, by decide, by decide, by
      intro x y hx hy
      obtain rfl : y = 0 := Nat.lt_one_iff.1 hy
      refine ⟨7, ?_⟩
      have : ∀ x < 32, (Image.fromVec 32 1 3 false (List.replicate 96 (7 : UInt8))).px x 0 = [7, 7, 7] := by decide
      exact this x hx⟩
end Imgproc

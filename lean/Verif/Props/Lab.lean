import Verif.Spec.Demo
import Verif.Proofs.Colour
import Verif.Proofs.IEEE
import Verif.Proofs.NoErr
import Verif.Core.Ideal
import Verif.Props.Image
import Verif.Props.Util
import Verif.Props.Convert
import Verif.Props.Tone
import Verif.Model.Tone
/-! Properties C28, C35, C36, C37: linearization, XYZ and CIELAB conversions and the tone operations
built on them. -/
namespace Imgproc
open FloatOps
variable {T S : Type}

/-- `img` has header `info`, colour parts `C x y` and alpha parts `A x y` -/
structure Image.CA (img : Image T) (info : ImageInfo) (C A : Nat → Nat → List T) : Prop where
  wf : img.WF
  info_eq : img.info = info
  colour : ∀ x y, x < info.width → y < info.height → info.colour (img.px x y) = C x y
  alpha : ∀ x y, x < info.width → y < info.height → info.alphaOf (img.px x y) = A x y

theorem Image.WF.CA {img : Image T} (h : img.WF) :
    img.CA img.info (fun x y => img.info.colour (img.px x y)) (fun x y => img.info.alphaOf (img.px x y)) :=
  ⟨h, rfl, fun _ _ _ _ => rfl, fun _ _ _ _ => rfl⟩

theorem alphaOf_len {img : Image T} (h : img.WF) (hc : img.info.alpha = true → 0 < img.info.channels) {x y : Nat}
    (hx : x < img.info.width) (hy : y < img.info.height) :
    (img.info.alphaOf (img.px x y)).length = if img.info.alpha then 1 else 0 :=
  img.info.alphaOf_length (Image.px_length h hx hy) hc

theorem Image.Shows.CA {img : Image T} {info : ImageInfo} {C A : Nat → Nat → List T}
    (h : img.Shows info (fun x y => C x y ++ A x y))
    (hA : ∀ x y, x < info.width → y < info.height → (A x y).length = if info.alpha then 1 else 0) :
    img.CA info C A :=
  ⟨h.WF, h.info_eq, fun x y hx hy => by rw [h.px_eq hx hy]; exact (info.colour_of_append (hA x y hx hy)).1,
    fun x y hx hy => by rw [h.px_eq hx hy]; exact (info.colour_of_append (hA x y hx hy)).2⟩

theorem Image.CA.congr {img : Image T} {info : ImageInfo} {C A C' A' : Nat → Nat → List T} (h : img.CA info C A)
    (hC : ∀ x y, x < info.width → y < info.height → C x y = C' x y)
    (hA : ∀ x y, x < info.width → y < info.height → A x y = A' x y) : img.CA info C' A' :=
  ⟨h.wf, h.info_eq, fun x y hx hy => (h.colour x y hx hy).trans (hC x y hx hy),
    fun x y hx hy => (h.alpha x y hx hy).trans (hA x y hx hy)⟩

theorem Image.CA.shows {img : Image T} {info : ImageInfo} {C A : Nat → Nat → List T} (h : img.CA info C A) :
    img.Shows info (fun x y => C x y ++ A x y) :=
  Image.shows_iff.2 ⟨h.wf, h.info_eq, fun x y hx hy => by
    rw [← h.colour x y hx hy, ← h.alpha x y hx hy, info.colour_append]⟩

theorem colours3 {i : ImageInfo} (h3 : i.colours = 3) :
    3 + (if i.alpha then 1 else 0) = i.channels ∧ (i.alpha = true → 0 < i.channels) := by
  unfold ImageInfo.colours at h3
  cases ha : i.alpha <;> simp only [ha, if_true, Bool.false_eq_true, if_false] at h3 ⊢ <;> omega

/-- one step of a conversion chain on 3-colour images -/
theorem Image.CA.map3 (P : Profile) {img : Image T} {info : ImageInfo} {C A : Nat → Nat → List T}
    (h : img.CA info C A) (hpos : 0 < info.width ∧ 0 < info.height) (h3 : info.colours = 3)
    {f : List T → List S → Res (List S)} {f' : List T → List S} {g : T → Res S} {g' : T → S}
    (hf : ∀ a b c, f [a, b, c] [] = .ok (f' [a, b, c]) ∧ (f' [a, b, c]).length = 3)
    (hg : ∀ v, g v = .ok (g' v)) :
    ∃ out, img.mapPixelsIfAlpha P f g = .ok out ∧
      out.CA info (fun x y => f' (C x y)) (fun x y => (A x y).map g') := by
  obtain ⟨hw, hi, hC, hA⟩ := h
  subst hi
  obtain ⟨hch, hc⟩ := colours3 h3
  obtain ⟨out, e, hs⟩ := Image.mapPixelsIfAlpha_colour P hw hpos hc (k := 3) (f := f) (f' := f') (g := g) (g' := g')
    (by rw [hch]; exact hw.channels) (by rw [hch]; exact hw.full)
    (fun x y hx hy => by
      have hl := img.info.colour_length (Image.px_length hw hx hy)
      rw [h3] at hl
      obtain ⟨a, b, c, e⟩ : ∃ a b c, img.info.colour (img.px x y) = [a, b, c] := by
        match h : img.info.colour (img.px x y), hl with
        | [a, b, c], _ => exact ⟨a, b, c, rfl⟩
      rw [e]; exact hf a b c)
    (fun v _ => hg v)
  refine ⟨out, e, ?_⟩
  rw [hch] at hs
  refine (Image.Shows.CA (info := img.info) hs (fun x y hx hy => ?_)).congr ?_ ?_
  · rw [List.length_map]; exact alphaOf_len hw hc hx hy
  · intro x y hx hy; rw [hC x y hx hy]
  · intro x y hx hy; rw [hA x y hx hy]

/-- one channel-wise step of a conversion chain -/
theorem Image.CA.mapCh (P : Profile) {img : Image T} {info : ImageInfo} {C A : Nat → Nat → List T}
    (h : img.CA info C A) (hc : info.alpha = true → 0 < info.channels)
    {f g : T → Res S} {f' g' : T → S}
    (hf : ∀ v, f v = .ok (f' v)) (hg : ∀ v, g v = .ok (g' v)) :
    ∃ out, img.mapChannelsIfAlpha P f g = .ok out ∧
      out.CA info (fun x y => (C x y).map f') (fun x y => (A x y).map g') := by
  obtain ⟨hw, hi, hC, hA⟩ := h
  subst hi
  obtain ⟨out, e, hs⟩ := Image.mapChannelsIfAlpha_colour P hw hc (fun v _ => hf v) (fun v _ => hg v)
  refine ⟨out, e, (Image.Shows.CA (info := img.info) hs (fun x y hx hy => ?_)).congr ?_ ?_⟩
  · rw [List.length_map]; exact alphaOf_len hw hc hx hy
  · intro x y hx hy; rw [hC x y hx hy]
  · intro x y hx hy; rw [hA x y hx hy]

/-- editing a colour channel leaves the alpha part alone -/
theorem Image.CA.edit (P : Profile) {img : Image T} {info : ImageInfo} {C A : Nat → Nat → List T}
    (h : img.CA info C A) (h3 : info.colours = 3) {k : Nat} (hk : k < 3) {f : T → Res T} {g : T → T}
    (hf : ∀ x y, x < info.width → y < info.height → ∀ v, (C x y)[k]? = some v → f v = .ok (g v)) :
    ∃ out, img.editChannel P f k = .ok out ∧ out.CA info (fun x y => (C x y).modify k g) A := by
  obtain ⟨hw, hi, hC, hA⟩ := h
  subst hi
  obtain ⟨hch, hc⟩ := colours3 h3
  have hsplit : ∀ x y, x < img.info.width → y < img.info.height → img.px x y = C x y ++ A x y ∧ (C x y).length = 3 ∧
      (A x y).length = if img.info.alpha then 1 else 0 := by
    intro x y hx hy
    rw [← hC x y hx hy, ← hA x y hx hy]
    exact ⟨(img.info.colour_append _).symm, by rw [img.info.colour_length (Image.px_length hw hx hy), h3],
      alphaOf_len hw hc hx hy⟩
  obtain ⟨out, e, hs⟩ := Image.editChannel_eq P hw (k := k) (f := f) (g := g) (by omega)
    (fun x y hx hy v hv => by
      obtain ⟨h1, h2, -⟩ := hsplit x y hx hy
      rw [h1, List.getElem?_append_left (by omega)] at hv
      exact hf x y hx hy v hv)
  refine ⟨out, e, ?_⟩
  refine Image.Shows.CA (info := img.info) (hs.congr fun x y hx hy => ?_) (fun x y hx hy => (hsplit x y hx hy).2.2)
  obtain ⟨h1, h2, -⟩ := hsplit x y hx hy
  rw [h1]
  apply List.ext_getElem?
  intro j
  rw [List.getElem?_modify]
  by_cases hj : j < 3
  · rw [List.getElem?_append_left (by omega), List.getElem?_append_left (by simp; omega), List.getElem?_modify]
  · rw [List.getElem?_append_right (by omega), List.getElem?_append_right (by simp; omega)]
    simp only [show ¬ k = j by omega, if_false, List.length_modify]
    simp

section
variable {F : Type} [FloatOps F]

/-- spec: a row-major 3 x 3 matrix applied to a vector, each row summed left to right from zero -/
def mat3 (m v : List F) : List F :=
  (List.range 3).map fun i => (((m.drop (3 * i)).take 3).zip v).foldl (fun acc e => acc +. e.1 *. e.2) (ofU8 0)

theorem vectorMulMut_3 (P : Profile) (m o : List F) (hm : m.length = 9) (a b c : F) :
    vectorMulMut P FloatOps.rnum m [a, b, c] o = .ok (mat3 m [a, b, c]) := by
  rw [c41_vector_mul_mut]
  exact c41_vector_mul_total P FloatOps.rnum FloatOps.add FloatOps.mul (fun _ _ => rfl) (fun _ _ => rfl) m [a, b, c]
    (by simp) (by rw [hm]; decide) (by rw [hm]; simp)

/-- spec: the lookup-table function of `linearize_srgb_f32` -/
theorem linearize_CA (P : Profile) {img : Image UInt8} (h : img.WF)
    (hc : img.info.alpha = true → 0 < img.info.channels) :
    ∃ out : Image F, linearizeSrgb P img = .ok out ∧
      out.CA img.info (fun x y => (img.info.colour (img.px x y)).map linearizeEntry)
        (fun x y => (img.info.alphaOf (img.px x y)).map ofU8) := by
  unfold linearizeSrgb
  obtain ⟨t, ht, htl, hti⟩ := c78_lookup_table (List.replicate 256 (num 0 : F)) List.length_replicate
    (fun i => linearizeEntry (F := F) i)
  rw [ht, ok_bind]
  refine h.CA.mapCh P hc (fun v => ?_) (fun _ => rfl)
  exact hti v

theorem srgbLinToXyz_CA (P : Profile) {img : Image F} {info : ImageInfo} {C A : Nat → Nat → List F}
    (h : img.CA info C A) (hpos : 0 < info.width ∧ 0 < info.height) (h3 : info.colours = 3) :
    ∃ out, srgbLinToXyz P img = .ok out ∧ out.CA info (fun x y => mat3 SRGB_TO_XYZ_MAT (C x y)) A := by
  obtain ⟨out, e, hs⟩ := h.map3 P hpos h3
    (f := fun channels out => unwrapRes (vectorMulMut P FloatOps.rnum SRGB_TO_XYZ_MAT channels out))
    (f' := mat3 SRGB_TO_XYZ_MAT) (g := fun a => .ok a) (g' := id)
    (fun a b c => ⟨by rw [vectorMulMut_3 P _ _ rfl]; rfl, by simp [mat3]⟩) (fun _ => rfl)
  exact ⟨out, e, hs.congr (fun _ _ _ _ => rfl) (fun _ _ _ _ => by simp)⟩

theorem xyzToSrgbLin_CA (P : Profile) {img : Image F} {info : ImageInfo} {C A : Nat → Nat → List F}
    (h : img.CA info C A) (hpos : 0 < info.width ∧ 0 < info.height) (h3 : info.colours = 3) :
    ∃ out, xyzToSrgbLin P img = .ok out ∧ out.CA info (fun x y => mat3 XYZ_TO_SRGB_MAT (C x y)) A := by
  obtain ⟨out, e, hs⟩ := h.map3 P hpos h3
    (f := fun channels out => unwrapRes (vectorMulMut P FloatOps.rnum XYZ_TO_SRGB_MAT channels out))
    (f' := mat3 XYZ_TO_SRGB_MAT) (g := fun a => .ok a) (g' := id)
    (fun a b c => ⟨by rw [vectorMulMut_3 P _ _ rfl]; rfl, by simp [mat3]⟩) (fun _ => rfl)
  exact ⟨out, e, hs.congr (fun _ _ _ _ => rfl) (fun _ _ _ _ => by simp)⟩

/-- spec: CIELAB from XYZ (values in 0..1 scaled by 100), component by component -/
def labOfXyz (white : White) (p : List F) : List F :=
  let w := xyzTristimulusVals (F := F) white
  let x := xyzToLabFn (p.getD 0 (num 0) *. num 100 /. w.1)
  let y := xyzToLabFn (p.getD 1 (num 0) *. num 100 /. w.2.1)
  let z := xyzToLabFn (p.getD 2 (num 0) *. num 100 /. w.2.2)
  [num 116 *. y -. num 16, num 500 *. (x -. y), num 200 *. (y -. z)]

/-- spec: XYZ from CIELAB -/
def xyzOfLab (white : White) (p : List F) : List F :=
  let w := xyzTristimulusVals (F := F) white
  let n := (p.getD 0 (num 0) +. num 16) /. num 116
  [w.1 *. labToXyzFn (n +. p.getD 1 (num 0) /. num 500) /. num 100,
   w.2.1 *. labToXyzFn n /. num 100,
   w.2.2 *. labToXyzFn (n -. p.getD 2 (num 0) /. num 200) /. num 100]

theorem xyzToLab_CA (P : Profile) (white : White) {img : Image F} {info : ImageInfo} {C A : Nat → Nat → List F}
    (h : img.CA info C A) (hpos : 0 < info.width ∧ 0 < info.height) (h3 : info.colours = 3) :
    ∃ out, xyzToLab P img white = .ok out ∧ out.CA info (fun x y => labOfXyz white (C x y)) A := by
  obtain ⟨out, e, hs⟩ := h.map3 P hpos h3
    (f := fun channels out => do
      let p ← xyzToLabPixel white channels
      .ok (out ++ p))
    (f' := labOfXyz white) (g := fun a => .ok a) (g' := id)
    (fun a b c => ⟨by cases white <;> rfl, rfl⟩) (fun _ => rfl)
  exact ⟨out, e, hs.congr (fun _ _ _ _ => rfl) (fun _ _ _ _ => by simp)⟩

theorem labToXyz_CA (P : Profile) (white : White) {img : Image F} {info : ImageInfo} {C A : Nat → Nat → List F}
    (h : img.CA info C A) (hpos : 0 < info.width ∧ 0 < info.height) (h3 : info.colours = 3) :
    ∃ out, labToXyz P img white = .ok out ∧ out.CA info (fun x y => xyzOfLab white (C x y)) A := by
  obtain ⟨out, e, hs⟩ := h.map3 P hpos h3
    (f := fun channels out => do
      let p ← labToXyzPixel white channels
      .ok (out ++ p))
    (f' := xyzOfLab white) (g := fun a => .ok a) (g' := id)
    (fun a b c => ⟨by cases white <;> rfl, rfl⟩) (fun _ => rfl)
  exact ⟨out, e, hs.congr (fun _ _ _ _ => rfl) (fun _ _ _ _ => by simp)⟩

theorem unlinearize_CA (P : Profile) {img : Image F} {info : ImageInfo} {C A : Nat → Nat → List F}
    (h : img.CA info C A) (hc : info.alpha = true → 0 < info.channels) :
    ∃ out, unlinearizeSrgb P img = .ok out ∧
      out.CA info (fun x y => (C x y).map unlinearizeEntry) (fun x y => (A x y).map fun a => toU8 (FloatOps.round a)) :=
  h.mapCh P hc (fun _ => rfl) (fun _ => rfl)

/-- spec: CIELAB of a colour given by its sRGB bytes -/
def labOfSrgb (white : White) (p : List UInt8) : List F :=
  labOfXyz white (mat3 SRGB_TO_XYZ_MAT (p.map linearizeEntry))
/-- spec: the sRGB bytes of a CIELAB colour -/
def srgbOfLab (white : White) (p : List F) : List UInt8 :=
  (mat3 XYZ_TO_SRGB_MAT (xyzOfLab white p)).map unlinearizeEntry

theorem srgbToLab_CA (P : Profile) (white : White) {img : Image UInt8} (h : img.WF)
    (hpos : 0 < img.info.width ∧ 0 < img.info.height) (h3 : img.info.colours = 3) :
    ∃ out : Image F, srgbToLab P img white = .ok out ∧
      out.CA img.info (fun x y => labOfSrgb white (img.info.colour (img.px x y)))
        (fun x y => (img.info.alphaOf (img.px x y)).map ofU8) := by
  obtain ⟨o1, e1, h1⟩ := linearize_CA (F := F) P h (colours3 h3).2
  obtain ⟨o2, e2, h2⟩ := srgbLinToXyz_CA P h1 hpos h3
  obtain ⟨o3, e3, h3'⟩ := xyzToLab_CA P white h2 hpos h3
  refine ⟨o3, ?_, h3'⟩
  unfold srgbToLab srgbToXyz
  rw [e1, ok_bind, e2, ok_bind, e3]

theorem labToSrgb_CA (P : Profile) (white : White) {img : Image F} {info : ImageInfo} {C A : Nat → Nat → List F}
    (h : img.CA info C A) (hpos : 0 < info.width ∧ 0 < info.height) (h3 : info.colours = 3) :
    ∃ out, labToSrgb P img white = .ok out ∧
      out.CA info (fun x y => srgbOfLab white (C x y)) (fun x y => (A x y).map fun a => toU8 (FloatOps.round a)) := by
  obtain ⟨o1, e1, h1⟩ := labToXyz_CA P white h hpos h3
  obtain ⟨o2, e2, h2⟩ := xyzToSrgbLin_CA P h1 hpos h3
  obtain ⟨o3, e3, h3'⟩ := unlinearize_CA P h2 (colours3 h3).2
  refine ⟨o3, ?_, h3'⟩
  unfold labToSrgb xyzToSrgb
  rw [e1, ok_bind, e2, ok_bind, e3]
end

theorem alpha_back [Libm f32] (l : List UInt8) :
    (l.map (ofU8 (F := F32))).map (fun a => toU8 (FloatOps.round a)) = l := by
  rw [List.map_map]
  have : (fun c : F32 => toU8 (FloatOps.round c)) ∘ (fun v => ofU8 v) = id := by
    funext v; exact round_ofU8 (ofU8_is v) (by decide) (by decide)
  rw [this, List.map_id]

/-! ## C37 — linearization -/

/-- spec: the sRGB transfer function of `linearize_srgb_f32` on a byte, in f32 arithmetic -/
def srgbToLinear [Libm f32] (v : UInt8) : F32 :=
  if v.toNat ≤ 10 then ofU8 v /. num 3294 else FloatOps.pow ((ofU8 v +. lit 14.025) /. lit 269.025) (lit 2.2)

theorem linearizeEntry_eq [Libm f32] (v : UInt8) : linearizeEntry v = srgbToLinear v := by
  unfold linearizeEntry srgbToLinear
  have : ((ofU8 v : F32) <=. num 10) = decide ((v.toNat : Rat) ≤ ((10 : Int) : Rat)) :=
    le_is (ofU8_is v) (num32 (by decide))
  simp only [this]
  by_cases h : v.toNat ≤ 10
  · rw [if_pos h, if_pos (by rw [decide_eq_true_eq]; exact_mod_cast h)]
  · rw [if_neg h, if_neg (by rw [decide_eq_true_eq]; exact_mod_cast h)]
    rfl

/-- **C37** `linearize_srgb_f32` maps every colour channel through the transfer function (linear up to
10, a power above) and copies alpha as a float; nothing else changes. -/
theorem c37_linearize [Libm f32] (P : Profile) (img : Image UInt8) (h : img.WF)
    (hc : img.info.alpha = true → 0 < img.info.channels) :
    ∃ out : Image F32, linearizeSrgb P img = .ok out ∧
      out.Shows img.info (fun x y => (img.info.colour (img.px x y)).map srgbToLinear ++
        (img.info.alphaOf (img.px x y)).map ofU8) := by
  obtain ⟨out, e, ho⟩ := linearize_CA (F := F32) P h hc
  refine ⟨out, e, ho.shows.congr fun x y _ _ => ?_⟩
  rw [show linearizeEntry = srgbToLinear from funext linearizeEntry_eq]

theorem dark_round_trip [Libm f32] (v : UInt8) (hv : v.toNat ≤ 10) : unlinearizeEntry (srgbToLinear v) = v := by
  unfold srgbToLinear
  rw [if_pos hv]
  have key : ∀ n : Nat, n ≤ 10 → f32.rnd ((n : Rat) / ((3294 : Int) : Rat)) ≤ f32.rnd 0.0031308 ∧
      |f32.rnd ((n : Rat) / ((3294 : Int) : Rat)) * f32.rnd 3294.6| ≤ 2 ^ 100 ∧
      |(n : Rat) / ((3294 : Int) : Rat)| ≤ 2 ^ 100 ∧
      FP.truncQ (f32.rnd (f32.rnd ((n : Rat) / ((3294 : Int) : Rat)) * f32.rnd 3294.6)) = n := by
    decide +kernel
  obtain ⟨k1, k2, k3, k4⟩ := key v.toNat hv
  have h1 : ((ofU8 v : F32) /. num 3294).Is (f32.rnd ((v.toNat : Rat) / ((3294 : Int) : Rat))) :=
    div_is (ofU8_is v) (num32 (by decide)) (by norm_num) (f32_ovf k3)
  have h2 : (lit 0.0031308 : F32).Is (f32.rnd 0.0031308) := lit_is (f32_ovf (by norm_num))
  have h3 : (lit 3294.6 : F32).Is (f32.rnd 3294.6) := lit_is (f32_ovf (by norm_num))
  have h4 := mul_is h1 h3 (f32_ovf k2)
  unfold unlinearizeEntry
  rw [if_pos (by rw [le_is h1 h2, decide_eq_true_eq]; exact k1)]
  apply UInt8.toNat_inj.1
  rw [toU8_toNat h4, k4]
  omega

/-- **C37** `unlinearize_srgb_f32` after `linearize_srgb_f32`: same header, the alpha channel is
returned bit for bit, and so are all colour values up to 10. -/
theorem c37_round_trip [Libm f32] (P : Profile) (img : Image UInt8) (h : img.WF)
    (hc : img.info.alpha = true → 0 < img.info.channels) :
    ∃ (mid : Image F32) (out : Image UInt8), linearizeSrgb P img = .ok mid ∧ unlinearizeSrgb P mid = .ok out ∧
      out.WF ∧ out.info = img.info ∧ ∀ x y, x < img.info.width → y < img.info.height →
        img.info.alphaOf (out.px x y) = img.info.alphaOf (img.px x y) ∧
        ∀ (k : Nat) (v : UInt8), (img.info.colour (img.px x y))[k]? = some v → v.toNat ≤ 10 →
          (img.info.colour (out.px x y))[k]? = some v := by
  obtain ⟨mid, e1, h1⟩ := linearize_CA (F := F32) P h hc
  obtain ⟨out, e2, h2⟩ := unlinearize_CA P h1 hc
  refine ⟨mid, out, e1, e2, h2.wf, h2.info_eq, fun x y hx hy => ⟨?_, fun k v hk hv => ?_⟩⟩
  · rw [h2.alpha x y hx hy, alpha_back]
  · rw [h2.colour x y hx hy, List.getElem?_map, List.getElem?_map, hk]
    simp only [Option.map_some]
    rw [linearizeEntry_eq, dark_round_trip v hv]

/-! ## C28 — CIELAB tone operations -/

/-- **C28** `brightness_lab` returns an image with the same header and alpha channel; the colour of each
pixel is obtained by adding `bias/255*100` to the lightness of its CIELAB value. -/
theorem c28_brightness_lab [Libm f32] (P : Profile) (img : Image UInt8) (h : img.WF)
    (hpos : 0 < img.info.width ∧ 0 < img.info.height) (h3 : img.info.colours = 3) (bias : Int)
    (hb : -255 ≤ bias ∧ bias ≤ 255) :
    ∃ out, brightnessLab F32 P img bias = .ok out ∧ out.WF ∧ out.info = img.info ∧
      ∀ x y, x < img.info.width → y < img.info.height →
        img.info.alphaOf (out.px x y) = img.info.alphaOf (img.px x y) ∧
        img.info.colour (out.px x y) = srgbOfLab (F := F32) .d50
          ((labOfSrgb .d50 (img.info.colour (img.px x y))).modify 0
            (fun l => l +. FloatOps.ofInt bias /. num 255 *. num 100)) := by
  unfold brightnessLab
  rw [i16Abs_ok (by omega) (by omega), ok_bind, checkInRange_byte, if_neg (by split <;> omega), ok_bind]
  obtain ⟨o1, e1, h1⟩ := srgbToLab_CA (F := F32) P .d50 h hpos h3
  obtain ⟨o2, e2, h2⟩ := h1.edit P h3 (k := 0) (by decide)
    (f := fun n => .ok (n +. (FloatOps.ofInt bias /. num 255 *. num 100 : F32)))
    (g := fun n => n +. FloatOps.ofInt bias /. num 255 *. num 100) (fun _ _ _ _ _ _ => rfl)
  obtain ⟨o3, e3, h3'⟩ := labToSrgb_CA P .d50 h2 hpos h3
  rw [e1, ok_bind]
  dsimp only
  rw [e2, ok_bind, e3]
  exact ⟨o3, rfl, h3'.wf, h3'.info_eq, fun x y hx hy => ⟨by rw [h3'.alpha x y hx hy, alpha_back],
    h3'.colour x y hx hy⟩⟩

/-- **C28** `contrast_lab` likewise, multiplying the lightness by the gain. Every gain that is not a
number outside [0,1] is covered (so also NaN, which the checks let through). -/
theorem c28_contrast_lab [Libm f32] (P : Profile) (img : Image UInt8) (h : img.WF)
    (hpos : 0 < img.info.width ∧ 0 < img.info.height) (h3 : img.info.colours = 3) (gain : F32)
    (hg : ¬ OutsideUnit gain) :
    ∃ out, contrastLab P img gain = .ok out ∧ out.WF ∧ out.info = img.info ∧
      ∀ x y, x < img.info.width → y < img.info.height →
        img.info.alphaOf (out.px x y) = img.info.alphaOf (img.px x y) ∧
        img.info.colour (out.px x y) = srgbOfLab (F := F32) .d50
          ((labOfSrgb .d50 (img.info.colour (img.px x y))).modify 0 (fun l => l *. gain)) := by
  obtain ⟨o1, e1, h1⟩ := srgbToLab_CA (F := F32) P .d50 h hpos h3
  obtain ⟨o2, e2, h2⟩ := h1.edit P h3 (k := 0) (by decide) (f := fun n => .ok (n *. gain))
    (g := fun n => n *. gain) (fun _ _ _ _ _ _ => rfl)
  obtain ⟨o3, e3, h3'⟩ := labToSrgb_CA P .d50 h2 hpos h3
  refine ⟨o3, ?_, h3'.wf, h3'.info_eq, fun x y hx hy => ⟨by rw [h3'.alpha x y hx hy, alpha_back],
    h3'.colour x y hx hy⟩⟩
  have e1' : f32.Exact 1 := by simpa using f32_int (n := 1) (by decide)
  have c1 : ¬ (gain <. (ofU8 0 : F32)) = true := fun hc =>
    hg (negative_outside ((lt_zero_iff Fmt.Exact.zero _).1 hc))
  have c2 : ¬ ((gain <. (num 0 : F32)) || ((num 1 : F32) <. gain)) = true := fun hc =>
    hg ((outside_unit_iff e1' gain).1 (by simpa using hc))
  unfold contrastLab checkNonNeg checkInRange
  show ((if (gain <. (ofU8 0 : F32)) = true then invalidArg else .ok ()) >>= fun _ =>
    (if ((gain <. (num 0 : F32)) || ((num 1 : F32) <. gain)) = true then invalidArg else .ok ()) >>= fun _ => _) = _
  rw [if_neg c1, ok_bind, if_neg c2, ok_bind, e1, ok_bind, e2, ok_bind, e3]

/-- **C28** the underlying chain `srgb -> lab -> srgb` keeps header and alpha for both whites -/
theorem c28_lab_chain [Libm f32] (P : Profile) (white : White) (img : Image UInt8) (h : img.WF)
    (hpos : 0 < img.info.width ∧ 0 < img.info.height) (h3 : img.info.colours = 3) :
    ∃ (lab : Image F32) (out : Image UInt8), srgbToLab P img white = .ok lab ∧ lab.info = img.info ∧
      labToSrgb P lab white = .ok out ∧ out.WF ∧ out.info = img.info ∧
      ∀ x y, x < img.info.width → y < img.info.height →
        img.info.alphaOf (out.px x y) = img.info.alphaOf (img.px x y) := by
  obtain ⟨o1, e1, h1⟩ := srgbToLab_CA (F := F32) P white h hpos h3
  obtain ⟨o3, e3, h3'⟩ := labToSrgb_CA P white h1 hpos h3
  exact ⟨o1, o3, e1, h1.info_eq, e3, h3'.wf, h3'.info_eq, fun x y hx hy => by rw [h3'.alpha x y hx hy, alpha_back]⟩

example : demo.WF ∧ demo.info.colours = 3 ∧ 0 < demo.info.width ∧ 0 < demo.info.height ∧
    ∃ v ∈ demo.data, v.toNat ≤ 10 := ⟨demo_WF, by decide, by decide, by decide, by decide⟩
example : demoA.WF ∧ demoA.info.colours = 3 ∧ demoA.info.alpha = true := ⟨demoA_WF, by decide, by decide⟩
example : ¬ OutsideUnit (Flt.ofRat f32 (1/2)) := by
  have h2 : (Flt.ofRat f32 (1/2)).val = .fin (1/2) := by decide +kernel
  unfold OutsideUnit
  rw [h2]; norm_num

/-! ## C35 — XYZ matrices -/

section
variable {F : Type} [FloatOps F]

theorem vectorMulMut_panics (P : Profile) {m v o : List F} (hm : m.length = 9) (hv : v.length ≠ 3) :
    Res.Panics (unwrapRes (vectorMulMut P FloatOps.rnum m v o)) := by
  rw [c41_vector_mul_mut]
  by_cases h0 : v = []
  · subst h0; exact ⟨.divZero, rfl⟩
  · have hp := List.length_pos_iff.2 h0
    have hne : m.length / v.length ≠ v.length := by
      rw [hm]
      intro e
      have h1 := Nat.div_mul_le_self 9 v.length
      have h2 := Nat.lt_div_mul_add (a := 9) hp
      rw [e] at h1 h2
      have : v.length ≤ 3 := by
        by_contra hc
        have : 4 * 4 ≤ v.length * v.length := Nat.mul_le_mul (by omega) (by omega)
        omega
      have : v.length = 1 ∨ v.length = 2 := by omega
      rcases this with h | h <;> rw [h] at h2 <;> omega
    have := c41_vector_mul_shape P FloatOps.rnum m v h0 hne
    unfold Res.InvalidArg at this
    rw [this]; exact ⟨.unwrap, rfl⟩

theorem bind_panics {α β} {r : Res α} {k : α → Res β} (h : Res.Panics r) : Res.Panics (r >>= k) := by
  obtain ⟨x, h⟩ := h
  rw [h]; exact ⟨x, rfl⟩

/-- conversion by a 3 x 3 matrix panics unless the image is non-empty with three colour channels -/
theorem matrix_panics (P : Profile) {img : Image F} (h : img.WF) (m : List F) (hm : m.length = 9)
    (hbad : ¬ (0 < img.info.width ∧ 0 < img.info.height ∧ img.info.colours = 3)) :
    Res.Panics (img.mapPixelsIfAlpha P
      (fun channels out => unwrapRes (vectorMulMut P FloatOps.rnum m channels out)) (fun a => .ok a)) := by
  by_cases hz : img.info.width * img.info.height = 0
  · have hs : img.info.size P = .ok 0 := by rw [ImageInfo.size_eq P h.infoWF, hz]
    unfold Image.mapPixelsIfAlpha
    split
    · unfold Image.mapPixels
      rw [hs, ok_bind, forRange_empty (Nat.le_refl _), ok_bind, ok_bind]
      exact ⟨.divZero, rfl⟩
    · rw [hs, ok_bind, forRange_empty (Nat.le_refl _), ok_bind, ok_bind]
      exact ⟨.divZero, rfl⟩
  · have hp : 0 < img.info.width * img.info.height := by omega
    have h3 : img.info.colours ≠ 3 := fun h3 =>
      hbad ⟨Nat.pos_of_ne_zero fun h0 => hz (by rw [h0]; simp), Nat.pos_of_ne_zero fun h0 => hz (by rw [h0]; simp), h3⟩
    have hat := Image.at_eq P h hp
    have hl := chunk_length h.length hp
    have hs := ImageInfo.size_eq P h.infoWF
    unfold Image.mapPixelsIfAlpha
    unfold ImageInfo.colours at h3
    cases ha : img.info.alpha with
    | false =>
      simp only [ha, Bool.false_eq_true, if_false, Bool.not_false, if_true] at h3 ⊢
      unfold Image.mapPixels
      rw [hs, ok_bind, forRange_cons hp]
      refine bind_panics (bind_panics ?_)
      rw [hat, ok_bind]
      exact bind_panics (vectorMulMut_panics P hm (by rw [hl]; exact h3))
    | true =>
      simp only [ha, Bool.not_true, Bool.false_eq_true, if_true, if_false] at h3 ⊢
      rw [hs, ok_bind, forRange_cons hp]
      refine bind_panics (bind_panics ?_)
      rw [hat, ok_bind]
      generalize chunk img.data img.info.channels 0 = p at *
      by_cases hc : img.info.channels = 0
      · have : p = [] := List.length_eq_zero_iff.1 (by omega)
        subst this
        refine bind_panics ?_
        cases P
        · exact ⟨.overflow, rfl⟩
        · exact ⟨.index, rfl⟩
      · unfold Pixel.channelsWithoutAlpha
        rw [usizeSub_ok (by omega), ok_bind]
        rw [show slice p 0 (p.length - 1) = .ok (p.take (p.length - 1)) by simp [slice], ok_bind]
        exact bind_panics (vectorMulMut_panics P hm (by simp; omega))

/-- **C35** `srgb_lin_to_xyz_f32` on a non-empty image with three colour channels applies the matrix to
every pixel's colour channels and keeps header and alpha (any arithmetic: IEEE or exact). -/
theorem c35_to_xyz (P : Profile) (img : Image F) (h : img.WF)
    (hpos : 0 < img.info.width ∧ 0 < img.info.height) (h3 : img.info.colours = 3) :
    ∃ out, srgbLinToXyz P img = .ok out ∧ out.Shows img.info (fun x y =>
      mat3 SRGB_TO_XYZ_MAT (img.info.colour (img.px x y)) ++ img.info.alphaOf (img.px x y)) := by
  obtain ⟨o, e, ho⟩ := srgbLinToXyz_CA P h.CA hpos h3
  exact ⟨o, e, ho.shows⟩

/-- **C35** `xyz_to_srgb_lin_f32` likewise with the inverse matrix. -/
theorem c35_to_srgb_lin (P : Profile) (img : Image F) (h : img.WF)
    (hpos : 0 < img.info.width ∧ 0 < img.info.height) (h3 : img.info.colours = 3) :
    ∃ out, xyzToSrgbLin P img = .ok out ∧ out.Shows img.info (fun x y =>
      mat3 XYZ_TO_SRGB_MAT (img.info.colour (img.px x y)) ++ img.info.alphaOf (img.px x y)) := by
  obtain ⟨o, e, ho⟩ := xyzToSrgbLin_CA P h.CA hpos h3
  exact ⟨o, e, ho.shows⟩

/-- **C35** every other image makes both functions panic. -/
theorem c35_panics (P : Profile) (img : Image F) (h : img.WF)
    (hbad : ¬ (0 < img.info.width ∧ 0 < img.info.height ∧ img.info.colours = 3)) :
    Res.Panics (srgbLinToXyz P img) ∧ Res.Panics (xyzToSrgbLin P img) :=
  ⟨matrix_panics P h _ rfl hbad, matrix_panics P h _ rfl hbad⟩

example (P : Profile) (a b c d e f : F) : (∃ out, srgbLinToXyz P (rgb2 a b c d e f) = .ok out) ∧
    Res.Panics (srgbLinToXyz P (gray6 a b c d e f)) := by
  obtain ⟨out, h, -⟩ := c35_to_xyz P _ (rgb2_WF a b c d e f) (by dims) rfl
  exact ⟨⟨out, h⟩, (c35_panics P _ (gray6_WF ..) (by simp [gray6, Image.fromVec, ImageInfo.colours])).1⟩
end

/-- spec: the published sRGB (D65) matrix in exact arithmetic -/
noncomputable def xyzOfLinear (r g b : ℝ) : List ℝ :=
  [0.4124564 * r + 0.3575761 * g + 0.1804375 * b,
   0.2126729 * r + 0.7151522 * g + 0.0721750 * b,
   0.0193339 * r + 0.1191920 * g + 0.9503041 * b]
/-- spec: the published inverse matrix in exact arithmetic -/
noncomputable def linearOfXyz (x y z : ℝ) : List ℝ :=
  [3.2404542 * x - 1.5371385 * y - 0.4985314 * z,
   -0.9692660 * x + 1.8760108 * y + 0.0415560 * z,
   0.0556434 * x - 0.2040259 * y + 1.0572252 * z]

/-- **C35** in exact arithmetic the conversion is the matrix-vector product with the published numbers. -/
theorem c35_exact_matrices (a b c : ℝ) :
    mat3 SRGB_TO_XYZ_MAT [a, b, c] = xyzOfLinear a b c ∧ mat3 XYZ_TO_SRGB_MAT [a, b, c] = linearOfXyz a b c := by
  constructor <;>
  · simp only [mat3, SRGB_TO_XYZ_MAT, XYZ_TO_SRGB_MAT, xyzOfLinear, linearOfXyz, List.range_succ, List.range_zero,
      List.nil_append, List.cons_append, List.map_cons, List.map_nil, List.drop, List.take, List.zip_cons_cons,
      List.zip_nil_right, List.foldl_cons, List.foldl_nil, Ideal.add_eq, Ideal.mul_eq, Ideal.lit_eq, Ideal.ofU8_eq,
      Nat.mul_zero, Nat.mul_one, Nat.reduceMul]
    norm_num
    try (constructor <;> ring)

/-- **C35** the two matrices are inverse to each other up to 1e-6 per unit of input (exact arithmetic). -/
theorem c35_inverse (r g b M : ℝ) (hr : |r| ≤ M) (hg : |g| ≤ M) (hb : |b| ≤ M) :
    ∃ x y z r' g' b', xyzOfLinear r g b = [x, y, z] ∧ linearOfXyz x y z = [r', g', b'] ∧
      |r' - r| ≤ 1e-6 * M ∧ |g' - g| ≤ 1e-6 * M ∧ |b' - b| ≤ 1e-6 * M := by
  refine ⟨_, _, _, _, _, _, rfl, rfl, ?_, ?_, ?_⟩ <;>
  · rw [abs_le] at *
    constructor <;> nlinarith

/-! ## C36 — XYZ and CIELAB -/

theorem gt_real (x y : ℝ) : (x >. y) = true ↔ y < x := Ideal.lt_eq y x

theorem delta_cube : ((6 : ℝ) / 29) ^ (3 : ℝ) = 216 / 24389 := by
  rw [show (3 : ℝ) = ((3 : ℕ) : ℝ) by norm_num, Real.rpow_natCast]; norm_num
theorem cbrt_cube {n : ℝ} (h : 0 ≤ n) : (n ^ ((1 : ℝ) / 3)) ^ (3 : ℝ) = n := by
  rw [← Real.rpow_mul h]; norm_num
theorem cube_cbrt {n : ℝ} (h : 0 ≤ n) : (n ^ (3 : ℝ)) ^ ((1 : ℝ) / 3) = n := by
  rw [← Real.rpow_mul h]; norm_num

theorem labFn_inv (n : ℝ) : labToXyzFn (xyzToLabFn n) = n := by
  unfold labToXyzFn xyzToLabFn
  simp only [gt_real, Ideal.div_eq, Ideal.num_eq, Ideal.pow_eq, Ideal.add_eq, Ideal.mul_eq, Ideal.sub_eq]
  push_cast
  rw [delta_cube]
  by_cases h : 216 / 24389 < n
  · rw [if_pos h]
    have h0 : 0 ≤ n := by linarith
    have : (6 : ℝ) / 29 < n ^ ((1 : ℝ) / 3) := by
      have h1 := cube_cbrt (n := (6 : ℝ) / 29) (by norm_num)
      rw [delta_cube] at h1
      rw [← h1]
      exact Real.rpow_lt_rpow (by norm_num) h (by norm_num)
    rw [if_pos this, cbrt_cube h0]
  · rw [if_neg h]
    push Not at h
    have e : n / (3 * (6 / 29) * (6 / 29)) = n * (841 / 108) := by ring
    rw [if_neg (by rw [e]; linarith)]
    ring
theorem labFn_inv' (t : ℝ) : xyzToLabFn (labToXyzFn t) = t := by
  unfold labToXyzFn xyzToLabFn
  simp only [gt_real, Ideal.div_eq, Ideal.num_eq, Ideal.pow_eq, Ideal.add_eq, Ideal.mul_eq, Ideal.sub_eq]
  push_cast
  rw [delta_cube]
  by_cases h : (6 : ℝ) / 29 < t
  · rw [if_pos h]
    have h0 : 0 ≤ t := by linarith
    have : 216 / 24389 < t ^ (3 : ℝ) := by
      rw [← delta_cube]
      exact Real.rpow_lt_rpow (by norm_num) h (by norm_num)
    rw [if_pos this, cube_cbrt h0]
  · rw [if_neg h]
    push Not at h
    rw [if_neg (by linarith)]
    ring

theorem white_pos (white : White) : 0 < (xyzTristimulusVals (F := ℝ) white).1 ∧
    0 < (xyzTristimulusVals (F := ℝ) white).2.1 ∧ 0 < (xyzTristimulusVals (F := ℝ) white).2.2 := by
  cases white <;> simp only [xyzTristimulusVals, Ideal.lit_eq, Ideal.num_eq] <;> norm_num

theorem scale_back (w a : ℝ) (hw : 0 < w) : w * (a * 100 / w) / 100 = a := by field_simp
theorem scale_back' (w a : ℝ) (hw : 0 < w) : w * a / 100 * 100 / w = a := by field_simp

/-- **C36** (pixel) in exact arithmetic `lab_to_xyz` inverts `xyz_to_lab` for both whites. -/
theorem c36_xyz_round_trip (white : White) (x y z : ℝ) :
    xyzToLabPixel white [x, y, z] >>= labToXyzPixel white = .ok [x, y, z] := by
  obtain ⟨h1, h2, h3⟩ := white_pos white
  rw [show xyzToLabPixel white [x, y, z] = .ok (labOfXyz white [x, y, z]) by cases white <;> rfl, ok_bind]
  rw [show labToXyzPixel white (labOfXyz white [x, y, z]) = .ok (xyzOfLab white (labOfXyz white [x, y, z])) by
    cases white <;> rfl]
  congr 1
  unfold xyzOfLab labOfXyz
  generalize xyzTristimulusVals (F := ℝ) white = w at *
  simp only [List.getD_cons_zero, List.getD_cons_succ, Ideal.div_eq, Ideal.num_eq, Ideal.add_eq, Ideal.mul_eq,
    Ideal.sub_eq]
  push_cast
  generalize ex : xyzToLabFn (x * 100 / w.1) = X
  generalize ey : xyzToLabFn (y * 100 / w.2.1) = Y
  generalize ez : xyzToLabFn (z * 100 / w.2.2) = Z
  have a1 : (116 * Y - 16 + 16) / 116 + 500 * (X - Y) / 500 = X := by ring
  have a2 : (116 * Y - 16 + 16) / 116 = Y := by ring
  have a3 : (116 * Y - 16 + 16) / 116 - 200 * (Y - Z) / 200 = Z := by ring
  rw [a1, a3, a2, ← ex, ← ey, ← ez, labFn_inv, labFn_inv, labFn_inv, scale_back _ _ h1, scale_back _ _ h2,
    scale_back _ _ h3]

/-- **C36** (pixel) and the other way round. -/
theorem c36_lab_round_trip (white : White) (l a b : ℝ) :
    labToXyzPixel white [l, a, b] >>= xyzToLabPixel white = .ok [l, a, b] := by
  obtain ⟨h1, h2, h3⟩ := white_pos white
  rw [show labToXyzPixel white [l, a, b] = .ok (xyzOfLab white [l, a, b]) by cases white <;> rfl, ok_bind]
  rw [show xyzToLabPixel white (xyzOfLab white [l, a, b]) = .ok (labOfXyz white (xyzOfLab white [l, a, b])) by
    cases white <;> rfl]
  congr 1
  unfold xyzOfLab labOfXyz
  generalize xyzTristimulusVals (F := ℝ) white = w at *
  simp only [List.getD_cons_zero, List.getD_cons_succ, Ideal.div_eq, Ideal.num_eq, Ideal.add_eq, Ideal.mul_eq,
    Ideal.sub_eq]
  push_cast
  rw [scale_back' _ _ h1, scale_back' _ _ h2, scale_back' _ _ h3, labFn_inv', labFn_inv', labFn_inv']
  congr 1
  · ring
  · congr 1
    · ring
    · congr 1; ring

/-- **C36** (image) on every non-empty image with three colour channels, in exact arithmetic,
`lab_to_xyz_f32(xyz_to_lab_f32(img)) = img` and `xyz_to_lab_f32(lab_to_xyz_f32(img)) = img`. -/
theorem c36_image (P : Profile) (white : White) (img : Image ℝ) (h : img.WF)
    (hpos : 0 < img.info.width ∧ 0 < img.info.height) (h3 : img.info.colours = 3) :
    (xyzToLab P img white >>= fun lab => labToXyz P lab white) = .ok img ∧
    (labToXyz P img white >>= fun xyz => xyzToLab P xyz white) = .ok img := by
  have hl : ∀ x y, x < img.info.width → y < img.info.height →
      ∃ a b c, img.info.colour (img.px x y) = [a, b, c] := by
    intro x y hx hy
    have hl := img.info.colour_length (Image.px_length h hx hy)
    rw [h3] at hl
    match h : img.info.colour (img.px x y), hl with
    | [a, b, c], _ => exact ⟨a, b, c, rfl⟩
  constructor
  · obtain ⟨o1, e1, h1⟩ := xyzToLab_CA P white h.CA hpos h3
    obtain ⟨o2, e2, h2⟩ := labToXyz_CA P white h1 hpos h3
    rw [e1, ok_bind, e2]
    congr 1
    refine Image.Shows.ext h2.shows (h.CA.shows.congr fun x y hx hy => ?_)
    congr 1
    obtain ⟨a, b, c, e⟩ := hl x y hx hy
    rw [e]
    have := c36_xyz_round_trip white a b c
    rw [show xyzToLabPixel white [a, b, c] = .ok (labOfXyz white [a, b, c]) by cases white <;> rfl, ok_bind,
      show labToXyzPixel white (labOfXyz white [a, b, c]) = .ok (xyzOfLab white (labOfXyz white [a, b, c])) by
        cases white <;> rfl] at this
    exact (Except.ok.inj this).symm
  · obtain ⟨o1, e1, h1⟩ := labToXyz_CA P white h.CA hpos h3
    obtain ⟨o2, e2, h2⟩ := xyzToLab_CA P white h1 hpos h3
    rw [e1, ok_bind, e2]
    congr 1
    refine Image.Shows.ext h2.shows (h.CA.shows.congr fun x y hx hy => ?_)
    congr 1
    obtain ⟨a, b, c, e⟩ := hl x y hx hy
    rw [e]
    have := c36_lab_round_trip white a b c
    rw [show labToXyzPixel white [a, b, c] = .ok (xyzOfLab white [a, b, c]) by cases white <;> rfl, ok_bind,
      show xyzToLabPixel white (xyzOfLab white [a, b, c]) = .ok (labOfXyz white (xyzOfLab white [a, b, c])) by
        cases white <;> rfl] at this
    exact (Except.ok.inj this).symm

example (P : Profile) (a b c d : ℝ) :
    (xyzToLab P (rgba1 a b c d) .d65 >>= fun lab => labToXyz P lab .d65) = .ok (rgba1 a b c d) :=
  (c36_image P .d65 _ (rgba1_WF ..) (by dims) rfl).1
end Imgproc

import Verif.Props.Scale
import Verif.Proofs.Loops
/-! Properties C67, C68: when scale succeeds, bilinear values. -/
namespace Imgproc
open FloatOps

section
variable {F : Type} [FloatOps F]

/-- the value the code computes from the four neighbours `a1` (left top), `a2` (right top), `a3`, `a4` -/
def bilinearValue (a1 a2 a3 a4 xw yw : F) : F :=
  a1 *. xw *. yw +. a2 *. (num 1 -. xw) *. yw +. a3 *. xw *. (num 1 -. yw) +. a4 *. (num 1 -. xw) *. (num 1 -. yw)

/-- the columns and weight used by `interpolate_bilinear` -/
def biLo (f : F) (x : Nat) : Nat := toU32 (FloatOps.floor (ofNat (F := F) x /. f))
def biHi (f : F) (w x : Nat) : Nat := min (toU32 (FloatOps.ceil (ofNat (F := F) x /. f))) (w - 1)
def biWeight (f : F) (x : Nat) : F := ofNat (F := F) x /. f -. ofNat (biLo f x)

theorem bilinear_ok (P : Profile) {img : Image F} (h : img.WF) {xf yf : F} {x y : Nat}
    (hx : biLo xf x < img.info.width) (hy : biLo yf y < img.info.height) :
    interpolateBilinear P img xf yf x y = .ok ((List.range img.info.channels).map fun c =>
      bilinearValue ((img.px (biLo xf x) (biLo yf y)).getD c (num 0))
        ((img.px (biHi xf img.info.width x) (biLo yf y)).getD c (num 0))
        ((img.px (biLo xf x) (biHi yf img.info.height y)).getD c (num 0))
        ((img.px (biHi xf img.info.width x) (biHi yf img.info.height y)).getD c (num 0))
        (biWeight xf x) (biWeight yf y)) := by
  have hX : biHi xf img.info.width x < img.info.width := by unfold biHi; omega
  have hY : biHi yf img.info.height y < img.info.height := by unfold biHi; omega
  unfold interpolateBilinear
  dsimp only
  rw [u32Sub_ok (by omega), ok_bind, u32Sub_ok (by omega), ok_bind]
  have g1 := Image.getPixel_eq P h hx hy
  have g2 := Image.getPixel_eq P h hX hy
  have g3 := Image.getPixel_eq P h hx hY
  have g4 := Image.getPixel_eq P h hX hY
  unfold biLo biHi at *
  rw [g1, ok_bind, g2, ok_bind, g3, ok_bind, g4, ok_bind]
  rw [forRange_collect0 _ (fun c => [bilinearValue ((img.px (biLo xf x) (biLo yf y)).getD c (num 0))
        ((img.px (biHi xf img.info.width x) (biLo yf y)).getD c (num 0))
        ((img.px (biLo xf x) (biHi yf img.info.height y)).getD c (num 0))
        ((img.px (biHi xf img.info.width x) (biHi yf img.info.height y)).getD c (num 0))
        (biWeight xf x) (biWeight yf y)])]
  · rw [← List.map_eq_flatMap]; rfl
  · intro c acc hc
    have idxd : ∀ {i j}, i < img.info.width → j < img.info.height → idx (img.px i j) c = .ok ((img.px i j).getD c (num 0)) := by
      intro i j hi hj
      have hl : c < (img.px i j).length := by rw [Image.px_length h hi hj]; exact hc
      rw [idx_ok hl]; simp [List.getD_eq_getElem?_getD, hl]
    rw [idxd hx hy, ok_bind, idxd hX hy, ok_bind, idxd hx hY, ok_bind, idxd hX hY, ok_bind]
    rfl

theorem accumPixel_ok {n : Nat} {pIn pOut : List F} (r : F) (hi : pIn.length = n) (ho : pOut.length = n) :
    accumPixel n pIn r pOut = .ok ((List.range n).map fun c => pOut.getD c (num 0) +. pIn.getD c (num 0) *. r) := by
  unfold accumPixel
  obtain ⟨s, e, hs⟩ := forRange_rule (a := 0) (b := n) (s := pOut) (f := fun c pOut => do
    let o ← idx pOut c
    let v ← idx pIn c
    setIdx pOut c (o +. v *. r))
    (fun k s => s = (List.range n).map fun c => if c < k then pOut.getD c (num 0) +. pIn.getD c (num 0) *. r
      else pOut.getD c (num 0)) (Nat.zero_le _)
    (by
      apply List.ext_getElem
      · simp [ho]
      · intro i h1 h2
        simp [List.getD_eq_getElem?_getD, h1])
    (by
      rintro k s _ hk rfl
      have hl : ∀ g : Nat → F, idx ((List.range n).map g) k = .ok (g k) := by
        intro g
        rw [idx_ok (by simpa using hk)]; simp
      refine ⟨_, ?_, rfl⟩
      rw [hl, ok_bind, idx_ok (by omega : k < pIn.length), ok_bind, setIdx_ok (by simpa using hk), set_map_range]
      congr 1
      apply List.map_congr_left
      intro c hc
      by_cases h1 : c = k
      · subst h1; simp [List.getD_eq_getElem?_getD, hi, hk]
      · simp only [if_neg h1]
        have : c < k + 1 ↔ c < k := by omega
        simp only [this])
  rw [e, hs]
  congr 1
  apply List.map_congr_left
  intro c hc
  rw [if_pos (List.mem_range.1 hc)]

/-- accumulation of weighted pixels in the order of the code, one channel -/
def tapFold (K M : Nat) (v w : Nat → Nat → F) : F :=
  (List.range K).foldl (fun acc m => (List.range M).foldl (fun acc n => acc +. v m n *. w m n) acc) (num 0)

theorem resample_ok (ch K M : Nat) (pix : Nat → Nat → List F) (w : Nat → Nat → F)
    (hp : ∀ m n, m < K → n < M → (pix m n).length = ch) :
    (forRange 0 K (List.replicate ch (num 0)) fun m pOut => forRange 0 M pOut fun n pOut =>
      accumPixel ch (pix m n) (w m n) pOut) =
      .ok ((List.range ch).map fun c => tapFold K M (fun m n => (pix m n).getD c (num 0)) w) := by
  have inner : ∀ m < K, ∀ g : Nat → F, ∀ M' ≤ M, (forRange 0 M' ((List.range ch).map g) fun n pOut => accumPixel ch (pix m n) (w m n) pOut) =
      .ok ((List.range ch).map fun c => (List.range M').foldl (fun acc n => acc +. (pix m n).getD c (num 0) *. w m n) (g c)) := by
    intro m hm g M'
    induction M' with
    | zero => intro _; rw [forRange_empty (by omega)]; simp
    | succ k ih =>
      intro hk
      rw [forRange_snoc _ _ (Nat.zero_le _), ih (by omega), ok_bind, accumPixel_ok _ (hp m k hm (by omega)) (by simp)]
      congr 1
      apply List.map_congr_left
      intro c hc
      have hc := List.mem_range.1 hc
      rw [List.range_succ, List.foldl_append]
      simp [List.getD_eq_getElem?_getD, hc]
  have outer : ∀ K' ≤ K, (forRange 0 K' (List.replicate ch (num 0)) fun m pOut => forRange 0 M pOut fun n pOut =>
      accumPixel ch (pix m n) (w m n) pOut) =
      .ok ((List.range ch).map fun c => tapFold K' M (fun m n => (pix m n).getD c (num 0)) w) := by
    intro K'
    induction K' with
    | zero =>
      intro _
      rw [forRange_empty (by omega), show List.replicate ch (num 0 : F) = (List.range ch).map fun _ => num 0 by simp]
      rfl
    | succ k ih =>
      intro hk
      rw [forRange_snoc _ _ (Nat.zero_le _), ih (by omega), ok_bind, inner k (by omega) _ M le_rfl]
      congr 1
      apply List.map_congr_left
      intro c _
      unfold tapFold
      rw [List.range_succ, List.foldl_append]
      rfl
  exact outer K le_rfl

/-- the bicubic and Lanczos loops, once the clamped coordinates are known -/
theorem taps_ok (P : Profile) {img : Image F} (h : img.WF) (lo hi : Int) (cx cy : Int → Res F) (w : Int → Int → F)
    (X Y : Int → Nat) (hX : ∀ i, X i < img.info.width) (hY : ∀ i, Y i < img.info.height)
    (hcx : ∀ i, ∃ z, cx i = .ok z ∧ toU32 z = X i) (hcy : ∀ i, ∃ z, cy i = .ok z ∧ toU32 z = Y i) :
    (forRangeI lo hi (List.replicate img.info.channels (num 0)) fun m pOut => do
      let xc ← cx m
      forRangeI lo hi pOut fun n pOut => do
        let yc ← cy n
        let pIn ← img.getPixelUnchecked P (toU32 xc) (toU32 yc)
        accumPixel img.info.channels pIn (w m n) pOut) =
      .ok ((List.range img.info.channels).map fun c =>
        tapFold (hi - lo).toNat (hi - lo).toNat (fun m n => (img.px (X (lo + (m : Int))) (Y (lo + (n : Int)))).getD c (num 0))
          fun m n => w (lo + (m : Int)) (lo + (n : Int))) := by
  have hget : ∀ i j, img.getPixelUnchecked P (X i) (Y j) = .ok (img.px (X i) (Y j)) := by
    intro i j
    have := Image.getPixel_eq P h (hX i) (hY j)
    unfold Image.getPixel at this
    rw [checkXY_ok (hX i) (hY j), ok_bind] at this
    exact this
  rw [← resample_ok img.info.channels (hi - lo).toNat (hi - lo).toNat
    (fun m n => img.px (X (lo + (m : Int))) (Y (lo + (n : Int)))) (fun m n => w (lo + (m : Int)) (lo + (n : Int)))
    (fun m n _ _ => Image.px_length h (hX _) (hY _))]
  unfold forRangeI
  refine forRange_congr fun m s _ _ => ?_
  obtain ⟨z, ez, hz⟩ := hcx (lo + (m : Int))
  dsimp only
  rw [ez, ok_bind]
  refine forRange_congr fun n s _ _ => ?_
  obtain ⟨z', ez', hz'⟩ := hcy (lo + (n : Int))
  rw [ez', ok_bind, hz, hz', hget, ok_bind]

/-- weight of tap `(m, n)` in `interpolate_bicubic` at output position `(x, y)` -/
def bicubicWeight (xf yf : F) (x y : Nat) (m n : Int) : F :=
  cubicWeightingFn (FloatOps.ofInt m -. (ofNat (F := F) x /. xf -. FloatOps.floor (ofNat (F := F) x /. xf))) *.
    cubicWeightingFn ((ofNat (F := F) y /. yf -. FloatOps.floor (ofNat (F := F) y /. yf)) -. FloatOps.ofInt n)

theorem interpolateBicubic_eq (P : Profile) (img : Image F) (xf yf : F) (x y : Nat) :
    interpolateBicubic P img xf yf x y =
    (forRangeI (-1) 3 (List.replicate img.info.channels (num 0)) fun m pOut => do
      let xc ← FloatOps.clamp (ofNat (F := F) x /. xf +. FloatOps.ofInt m) (num 0) (ofNat (F := F) img.info.width -. num 1)
      forRangeI (-1) 3 pOut fun n pOut => do
        let yc ← FloatOps.clamp (ofNat (F := F) y /. yf +. FloatOps.ofInt n) (num 0) (ofNat (F := F) img.info.height -. num 1)
        let pIn ← img.getPixelUnchecked P (toU32 xc) (toU32 yc)
        accumPixel img.info.channels pIn (bicubicWeight xf yf x y m n) pOut) := rfl
end

section
variable [Libm f32]

theorem toU32_is {x : F32} {q : Rat} (h : x.Is q) (h0 : 0 ≤ q) {n : Nat} (hn : q < n) (hn' : n ≤ 4294967296) :
    toU32 x < n ∧ (toU32 x : Int) = q.floor := by
  unfold toU32
  rw [toInt_is h, truncQ_nonneg h0]
  have h1 : 0 ≤ q.floor := rat_le_floor.2 (by simpa using h0)
  have h2 : q.floor < n := rat_floor_lt.2 (by simpa using hn)
  omega

/-- whatever the argument (NaN, infinity, any number), the clamped coordinate is a column of the image -/
theorem scaleClampCoord {x : F32} {n : Nat} (h0 : 0 < n) (hn : n ≤ 16777216) :
    ∃ z, FloatOps.clamp x (num 0) (ofNat (F := F32) n -. num 1) = .ok z ∧ toU32 z < n := by
  have hz : (num 0 : F32).Is ((0 : Int) : Rat) := num32 (by decide)
  have hN : (ofNat (F := F32) n -. num 1).Is (((n : Int) - 1 : Int) : Rat) := by
    have := sub_exact (nat32 hn) (num32 (n := 1) (by decide)) (by
      rw [show ((n : Nat) : Rat) = ((n : Int) : Rat) by push_cast; rfl, ← Int.cast_sub]; exact f32_int (by rw [abs_le]; omega))
    rwa [show ((n : Nat) : Rat) - ((1 : Int) : Rat) = (((n : Int) - 1 : Int) : Rat) by push_cast; rfl] at this
  have hle : ((0 : Int) : Rat) ≤ (((n : Int) - 1 : Int) : Rat) := by exact_mod_cast (by omega : (0 : Int) ≤ (n : Int) - 1)
  have hlt : (((n : Int) - 1 : Int) : Rat) < (n : Rat) := by push_cast; linarith
  have inRange : ∀ q : Rat, ∀ z : F32, z.Is q → 0 ≤ q → q ≤ (((n : Int) - 1 : Int) : Rat) → toU32 z < n :=
    fun q z hq h0 h1 => (toU32_is hq h0 (lt_of_le_of_lt h1 hlt) (by omega)).1
  rcases hv : x.val with _ | b | _ | q
  · refine ⟨x, clamp_nan hv hz hN hle, ?_⟩
    have : toU32 x = 0 := by
      unfold toU32
      show (FP.toInt 0 4294967295 x.val).toNat = 0
      rw [hv]; rfl
    omega
  · unfold FloatOps.clamp
    rw [le_is hz hN, decide_eq_true hle, if_pos rfl]
    dsimp only
    have e1 : (x <. FloatOps.num 0) = b := lt_inf_left hv hz
    cases b
    · have e2 : (ofNat (F := F32) n -. FloatOps.num 1 <. x) = true := lt_inf_right hN hv
      refine ⟨_, rfl, ?_⟩
      simp only [e1, FloatOps.gt, e2, if_true, Bool.false_eq_true, if_false]
      exact inRange _ _ hN (by exact_mod_cast hle) le_rfl
    · have e2 : (ofNat (F := F32) n -. FloatOps.num 1 <. FloatOps.num 0) = false := by
        rw [lt_is hN hz, decide_eq_false (not_lt.2 hle)]
      refine ⟨_, rfl, ?_⟩
      simp only [e1, FloatOps.gt, e2, if_true, Bool.false_eq_true, if_false]
      exact inRange _ _ hz (by simp) hle
  all_goals
    obtain ⟨r, hr⟩ : ∃ r : Rat, x.Is r := by
      first | exact ⟨0, by show x.val.toQ? = _; rw [hv]; rfl⟩ | exact ⟨_, by show x.val.toQ? = _; rw [hv]; rfl⟩
    obtain ⟨z, ez, hz'⟩ := clamp_is hr hz hN hle
    refine ⟨z, ez, inRange _ z hz' ?_ ?_⟩
    · exact le_max_of_le_left (by simp)
    · exact max_le hle (min_le_left _ _)

/-- a non-empty image whose sides f32 can hold exactly -/
structure ScaleInput (img : Image F32) : Prop where
  wf : img.WF
  width : 0 < img.info.width
  height : 0 < img.info.height
  width' : img.info.width ≤ 16777216
  height' : img.info.height ≤ 16777216

/-- both bicubic and Lanczos interpolation always succeed -/
theorem bicubic_ok (P : Profile) {img : Image F32} (h : ScaleInput img) (xf yf : F32) (x y : Nat) :
    ∃ p, interpolateBicubic P img xf yf x y = .ok p ∧ p.length = img.info.channels := by
  choose X hX1 hX2 using fun i : Int => scaleClampCoord (x := ofNat (F := F32) x /. xf +. FloatOps.ofInt i) h.width h.width'
  choose Y hY1 hY2 using fun i : Int => scaleClampCoord (x := ofNat (F := F32) y /. yf +. FloatOps.ofInt i) h.height h.height'
  have := taps_ok P h.wf (-1) 3
    (fun i => FloatOps.clamp (ofNat (F := F32) x /. xf +. FloatOps.ofInt i) (num 0) (ofNat (F := F32) img.info.width -. num 1))
    (fun i => FloatOps.clamp (ofNat (F := F32) y /. yf +. FloatOps.ofInt i) (num 0) (ofNat (F := F32) img.info.height -. num 1))
    (bicubicWeight xf yf x y) (fun i => toU32 (X i)) (fun i => toU32 (Y i)) hX2 hY2
    (fun i => ⟨X i, hX1 i, rfl⟩) (fun i => ⟨Y i, hY1 i, rfl⟩)
  rw [interpolateBicubic_eq, this]
  exact ⟨_, rfl, by simp⟩

theorem lanczos_ok (P : Profile) {img : Image F32} (h : ScaleInput img) (xf yf : F32) {size : Nat} (hs : size < 2147483647)
    (x y : Nat) : ∃ p, interpolateLanczos P img xf yf size x y = .ok p ∧ p.length = img.info.channels := by
  choose X hX1 hX2 using fun i : Int => scaleClampCoord (x := ofNat (F := F32) x /. xf +. FloatOps.ofInt i) h.width h.width'
  choose Y hY1 hY2 using fun i : Int => scaleClampCoord (x := ofNat (F := F32) y /. yf +. FloatOps.ofInt i) h.height h.height'
  unfold interpolateLanczos
  dsimp only
  rw [toI32_of_lt (by omega), i32Sub_ok (by omega) (by omega), ok_bind, i32Add_ok (by omega) (by omega), ok_bind]
  refine ⟨_, taps_ok P h.wf _ _ _ _ _ (fun i => toU32 (X i)) (fun i => toU32 (Y i)) hX2 hY2
    (fun i => ⟨X i, hX1 i, rfl⟩) (fun i => ⟨Y i, hY1 i, rfl⟩), by simp⟩

/-- the output header of `scale` fits the machine types -/
def OutFits (img : Image F32) (xf yf : F32) : Prop :=
  scaleDim img.info.width xf * scaleDim img.info.height yf * max 1 img.info.channels < 4294967296

theorem OutFits.info {img : Image F32} {xf yf : F32} (h : OutFits img xf yf) (hc : img.info.channels < 256) :
    ImageInfo.WF ⟨scaleDim img.info.width xf, scaleDim img.info.height yf, img.info.channels, img.info.alpha⟩ := by
  have hd : ∀ n (f : F32), scaleDim n f < 4294967296 := by
    intro n f
    unfold scaleDim toU32
    have : ∀ z : F32, FloatOps.toInt 0 4294967295 z ≤ 4294967295 := by
      intro z
      show FP.toInt 0 4294967295 z.val ≤ _
      unfold FP.toInt
      split
      · decide
      · split <;> decide
      · decide
      · omega
    have := this (FloatOps.round (ofNat (F := F32) n *. f))
    omega
  have h1 := Nat.mul_le_mul_left (scaleDim img.info.width xf * scaleDim img.info.height yf) (le_max_left 1 img.info.channels)
  have h2 := Nat.mul_le_mul_left (scaleDim img.info.width xf * scaleDim img.info.height yf) (le_max_right 1 img.info.channels)
  unfold OutFits at h
  exact ⟨hd _ _, hd _ _, hc, by show _ < 4294967296; dsimp only; omega, by show _ < 4294967296; dsimp only; omega⟩

/-- **C67, bicubic and Lanczos**: scale returns an image of the computed size for every non-empty image and *every*
pair of factors accepted by the check (including 0, infinity and NaN) whose output size is representable. -/
theorem c67_bicubic_lanczos_partial (P : Profile) {img : Image F32} (h : ScaleInput img) {xf yf : F32} {m : Scale}
    (hm : m = .bicubic ∨ m = .lanczos)
    (hx : (xf <. num 0) = false) (hy : (yf <. num 0) = false) (hout : OutFits img xf yf) :
    ∃ out, scale P img xf yf m = .ok out ∧ out.WF ∧
      out.info = ⟨scaleDim img.info.width xf, scaleDim img.info.height yf, img.info.channels, img.info.alpha⟩ := by
  have hok : ∀ x y, ∃ p, interpolate P img xf yf m x y = .ok p ∧ p.length = img.info.channels := by
    intro x y
    rcases hm with rfl | rfl
    · exact bicubic_ok P h xf yf x y
    · exact lanczos_ok P h xf yf (by decide) x y
  choose G hG hl using hok
  have chk : ∀ z : F32, (z <. num 0) = false → checkNonNeg (FloatOps.rnum (F := F32)) z = .ok () := by
    intro z hz
    unfold checkNonNeg
    have : (FloatOps.rnum (F := F32)).lt z ((FloatOps.rnum (F := F32)).ofU8 0) = false := hz
    rw [if_neg (by rw [this]; decide)]
  obtain ⟨out, e, ho⟩ := scale_core P (chk xf hx) (chk yf hy) rfl rfl (hout.info h.wf.channels) G
    (fun x y _ _ => hl x y) (fun x y _ _ => hG x y)
  exact ⟨out, e, ho.1, ho.2.1⟩
end
end Imgproc

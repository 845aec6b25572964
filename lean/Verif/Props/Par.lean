import Verif.Spec.Demo
import Verif.Proofs.Par
import Verif.Proofs.Sqrt
import Verif.Props.Image
import Verif.Model.Filter
/-! Property C48: the rayon build computes what the sequential build computes, for every schedule. -/
namespace Imgproc
open FloatOps

theorem at'_length {T} {P : Profile} {img : Image T} {i : Nat} {p : List T} (hc : img.info.channels < 256)
    (h : img.at' P i = .ok p) : p.length = img.info.channels := by
  unfold Image.at' at h
  obtain ⟨s, h1, h⟩ := bind_eq_ok h
  obtain ⟨t, h2, h⟩ := bind_eq_ok h
  have hs : s < USIZE := by
    unfold usizeMul wrapNat at h1
    split at h1
    · cases h1; assumption
    · cases P
      · cases h1
      · cases h1; exact Nat.mod_lt _ (by decide)
  have hl := slice_length h
  unfold slice at h
  unfold usizeAdd wrapNat at h2
  split at h2
  · cases h2; omega
  · cases P
    · cases h2
    · cases h2
      split at h
      · omega
      · cases h
theorem getPixel_length {T} {P : Profile} {img : Image T} {x y : Nat} {p : List T} (hc : img.info.channels < 256)
    (h : img.getPixel P x y = .ok p) : p.length = img.info.channels := by
  unfold Image.getPixel at h
  obtain ⟨_, -, h⟩ := bind_eq_ok h
  obtain ⟨_, -, h⟩ := bind_eq_ok h
  obtain ⟨_, -, h⟩ := bind_eq_ok h
  exact at'_length hc h
theorem getPixelUnchecked_length {T} {P : Profile} {img : Image T} {x y : Nat} {p : List T} (hc : img.info.channels < 256)
    (h : img.getPixelUnchecked P x y = .ok p) : p.length = img.info.channels := by
  unfold Image.getPixelUnchecked at h
  obtain ⟨_, -, h⟩ := bind_eq_ok h
  obtain ⟨_, -, h⟩ := bind_eq_ok h
  exact at'_length hc h

theorem fromVecOfSlice_eq {T} (P : Profile) (w h c : Nat) (a : Bool) (d : List (List T)) :
    Image.fromVecOfSlice P w h c a d = Image.fromVecOfVec P w h c a d := rfl

/-! ### crop -/

theorem cropCheck_ok {T} {P : Profile} {img : Image T} {x y w h : Nat} (hx : x + w < U32SIZE) (hy : y + h < U32SIZE)
    (hk : cropCheck P img x y w h = .ok ()) : x + w < img.info.width ∧ y + h < img.info.height := by
  unfold cropCheck at hk
  rw [u32Add_ok hx, ok_bind] at hk
  split at hk
  · cases hk
  · rw [u32Add_ok hy, ok_bind] at hk
    split at hk
    · cases hk
    · omega

theorem cropBody_noErr {T} (P : Profile) (img : Image T) (x y i j : Nat) :
    NoErr (do
      let ix ← u32Add P i x
      let jy ← u32Add P j y
      img.getPixel P ix jy) := .bind .u32Add fun _ => .bind .u32Add fun _ => .getPixel
theorem cropBody_length {T} {P : Profile} {img : Image T} {x y i j : Nat} {p : List T} (hc : img.info.channels < 256)
    (h : (do
      let ix ← u32Add P i x
      let jy ← u32Add P j y
      img.getPixel P ix jy) = .ok p) : p.length = img.info.channels := by
  obtain ⟨_, -, h⟩ := bind_eq_ok h
  obtain ⟨_, -, h⟩ := bind_eq_ok h
  exact getPixel_length hc h

/-- **C48** `crop`: for rectangles whose corner coordinates fit `u32` (anything else is a caller
overflow, see below) the rayon build agrees with the sequential build under every schedule. -/
theorem c48_crop_partial {T} (P : Profile) (N : RNum T) (img : Image T) (hw : img.WF) (x y w h : Nat)
    (hx : x + w < U32SIZE) (hy : y + h < U32SIZE)
    (order : List Nat) (ho : order.Perm (List.range (w * h))) :
    SameOutcome (crop P N img x y w h) (cropPar order P img x y w h) := by
  unfold crop cropPar
  refine .bind (.refl _) fun u hu => ?_
  obtain ⟨h1, h2⟩ := cropCheck_ok hx hy hu
  have hwh : w * h ≤ img.info.width * img.info.height := Nat.mul_le_mul (by omega) (by omega)
  have hwhc : w * h * img.info.channels ≤ img.info.width * img.info.height * img.info.channels :=
    Nat.mul_le_mul_right _ hwh
  have := par_same P N (info := ⟨w, h, img.info.channels, img.info.alpha⟩)
    ⟨show w < _ by omega, show h < _ by omega, hw.channels, Nat.lt_of_le_of_lt hwh hw.size,
      Nat.lt_of_le_of_lt hwhc hw.full⟩
    (fun i j => do
      let ix ← u32Add P i x
      let jy ← u32Add P j y
      img.getPixel P ix jy) _ (fun _ _ _ _ => rfl)
    (fun i j _ _ => cropBody_noErr P img x y i j)
    (fun i j p _ _ h => cropBody_length hw.channels h) (order := order) ho
  simp only [bind_assoc] at this
  exact this

example {T} (P : Profile) (N : RNum T) (a b c d e f : T) :
    SameOutcome (crop P N (gray6 a b c d e f) 1 0 1 1) (cropPar [0] P (gray6 a b c d e f) 1 0 1 1) :=
  c48_crop_partial P N _ (gray6_WF ..) 1 0 1 1 (by decide) (by decide) _ (by decide)

/-- **C48** `crop` in a debug build: every argument (overflowing ones panic both ways). -/
theorem c48_crop_debug {T} (N : RNum T) (img : Image T) (hw : img.WF) (x y w h : Nat)
    (order : List Nat) (ho : order.Perm (List.range (w * h))) :
    SameOutcome (crop .debug N img x y w h) (cropPar order .debug img x y w h) := by
  by_cases hx : x + w < U32SIZE ∧ y + h < U32SIZE
  · exact c48_crop_partial .debug N img hw x y w h hx.1 hx.2 order ho
  · have : ∀ u, cropCheck .debug img x y w h ≠ .ok u := by
      intro u hu
      unfold cropCheck at hu
      obtain ⟨a, h1, h2⟩ := bind_eq_ok hu
      unfold u32Add wrapNat at h1 h2
      split at h1
      · split at h2
        · cases h2
        · obtain ⟨b, h3, h4⟩ := bind_eq_ok h2
          split at h3
          · exact hx ⟨by assumption, by assumption⟩
          · cases h3
      · cases h1
    unfold crop cropPar
    exact .bind (.refl _) fun u hu => absurd hu (this u)

/-- **C48** is violated in release builds when `x + width` wraps: the sequential build panics, the
rayon build returns an image with an empty buffer. -/
theorem c48_crop_release_counterexample :
    let img : Image UInt8 := Image.fromVec 2 3 1 false [0, 0, 0, 0, 0, 0]
    Res.Panics (crop .release u8Num img 2147483649 0 2147483648 2) ∧
    Res.Returns (cropPar [] .release img 2147483649 0 2147483648 2) := by
  refine ⟨⟨.explicit, ?_⟩, ⟨_, rfl⟩⟩
  unfold crop
  rw [show cropCheck .release (Image.fromVec 2 3 1 false [0, 0, 0, 0, 0, 0] : Image UInt8) 2147483649 0 2147483648 2
    = .ok () from rfl, ok_bind]
  rw [show Image.blank .release u8Num ⟨2147483648, 2, (Image.fromVec 2 3 1 false [0, 0, 0, 0, 0, 0] : Image UInt8).info.channels, (Image.fromVec 2 3 1 false [0, 0, 0, 0, 0, 0] : Image UInt8).info.alpha⟩
    = .ok ⟨⟨2147483648, 2, 1, false⟩, []⟩ from rfl, ok_bind]
  exact forRange_fault_nested (by decide) (by decide) rfl

/-! ### scale -/
section
variable {F : Type} [FloatOps F]

theorem accumPixel_length {c : Nat} {pIn : List F} {r : F} {o o' : List F}
    (h : accumPixel c pIn r o = .ok o') : o'.length = o.length := by
  unfold accumPixel at h
  refine forRange_preserves (fun s : List F => s.length = o.length) ?_ rfl h
  intro k s s' hs h
  obtain ⟨_, -, h⟩ := bind_eq_ok h
  obtain ⟨_, -, h⟩ := bind_eq_ok h
  rw [setIdx_length h, hs]
theorem NoErr.accumPixel {c : Nat} {pIn : List F} {r : F} {o : List F} : NoErr (Imgproc.accumPixel c pIn r o) := by
  unfold Imgproc.accumPixel; no_err

theorem interpolate_noErr (P : Profile) (img : Image F) (xf yf : F) (m : Scale) (x y : Nat) :
    NoErr (interpolate P img xf yf m x y) := by
  cases m
  · unfold interpolate interpolateNearestNeighbor
    exact .bind .u32Add fun _ => .bind .u32Add fun _ => .getPixel
  · unfold interpolate interpolateBilinear
    refine .bind .u32Sub fun _ => .bind .u32Sub fun _ => .bind .getPixel fun _ => .bind .getPixel fun _ =>
      .bind .getPixel fun _ => .bind .getPixel fun _ => ?_
    no_err
  · unfold interpolate interpolateBicubic
    exact .forRangeI fun _ _ => .bind .clamp fun _ => .forRangeI fun _ _ => .bind .clamp fun _ =>
      .bind .getPixelUnchecked fun _ => .accumPixel
  · unfold interpolate interpolateLanczos
    exact .bind .i32Sub fun _ => .bind .i32Add fun _ => .forRangeI fun _ _ => .bind .clamp fun _ => .forRangeI fun _ _ => .bind .clamp fun _ =>
      .bind .getPixelUnchecked fun _ => .accumPixel
theorem interpolateLanczos_noErr (P : Profile) (img : Image F) (xf yf : F) (n x y : Nat) :
    NoErr (interpolateLanczos P img xf yf n x y) := by
  unfold interpolateLanczos
  exact .bind .i32Sub fun _ => .bind .i32Add fun _ => .forRangeI fun _ _ => .bind .clamp fun _ => .forRangeI fun _ _ => .bind .clamp fun _ =>
      .bind .getPixelUnchecked fun _ => .accumPixel

theorem interpolateLanczos_length {P : Profile} {img : Image F} {xf yf : F} {n x y : Nat} {p : List F}
    (h : interpolateLanczos P img xf yf n x y = .ok p) : p.length = img.info.channels := by
  unfold interpolateLanczos at h
  obtain ⟨_, -, h⟩ := bind_eq_ok h
  obtain ⟨_, -, h⟩ := bind_eq_ok h
  refine forRange_preserves (fun s : List F => s.length = img.info.channels) ?_ (by simp) h
  intro k s s' hs h
  obtain ⟨_, -, h⟩ := bind_eq_ok h
  refine forRange_preserves (fun s : List F => s.length = img.info.channels) ?_ hs h
  intro k s s' hs h
  obtain ⟨_, -, h⟩ := bind_eq_ok h
  obtain ⟨_, -, h⟩ := bind_eq_ok h
  rw [accumPixel_length h, hs]

theorem interpolate_length {P : Profile} {img : Image F} (hc : img.info.channels < 256) {xf yf : F} {m : Scale} {x y : Nat} {p : List F}
    (h : interpolate P img xf yf m x y = .ok p) : p.length = img.info.channels := by
  cases m
  · unfold interpolate interpolateNearestNeighbor at h
    obtain ⟨_, -, h⟩ := bind_eq_ok h
    obtain ⟨_, -, h⟩ := bind_eq_ok h
    exact getPixel_length hc h
  · unfold interpolate interpolateBilinear at h
    obtain ⟨_, -, h⟩ := bind_eq_ok h
    obtain ⟨_, -, h⟩ := bind_eq_ok h
    obtain ⟨_, -, h⟩ := bind_eq_ok h
    obtain ⟨_, -, h⟩ := bind_eq_ok h
    obtain ⟨_, -, h⟩ := bind_eq_ok h
    obtain ⟨_, -, h⟩ := bind_eq_ok h
    refine forRange_inv (fun k (s : List F) => s.length = k) (Nat.zero_le _) ?_ rfl h
    intro k s s' _ _ hs h
    obtain ⟨_, -, h⟩ := bind_eq_ok h
    obtain ⟨_, -, h⟩ := bind_eq_ok h
    obtain ⟨_, -, h⟩ := bind_eq_ok h
    obtain ⟨_, -, h⟩ := bind_eq_ok h
    cases h; simp [hs]
  · unfold interpolate interpolateBicubic at h
    refine forRange_preserves (fun s : List F => s.length = img.info.channels) ?_ (by simp) h
    intro k s s' hs h
    obtain ⟨_, -, h⟩ := bind_eq_ok h
    refine forRange_preserves (fun s : List F => s.length = img.info.channels) ?_ hs h
    intro k s s' hs h
    obtain ⟨_, -, h⟩ := bind_eq_ok h
    obtain ⟨_, -, h⟩ := bind_eq_ok h
    rw [accumPixel_length h, hs]
  · exact interpolateLanczos_length h

/-- the sequential loop reads its bounds from the header it is writing to, which never changes -/
theorem scaleLoop_eq (P : Profile) {info : ImageInfo} (interp : Nat → Nat → Res (List F)) :
    (do
      let b ← Image.blank P (FloatOps.rnum (F := F)) info
      scaleLoop P b interp) =
    (do
      let b ← Image.blank P (FloatOps.rnum (F := F)) info
      forRange 0 info.height b fun y o => forRange 0 info.width o fun x o => do
        let p ← interp x y
        o.setPixel P x y p) := by
  cases hb : Image.blank P (FloatOps.rnum (F := F)) info with
  | error e => rfl
  | ok b =>
    have hi : b.info = info := by
      unfold Image.blank at hb
      obtain ⟨_, -, h⟩ := bind_eq_ok hb
      cases h; rfl
    rw [ok_bind, ok_bind]
    unfold scaleLoop
    rw [hi]
    refine fill_bound_congr (out0 := b) (fun o => o.info.width) (fun o h => by rw [h, hi])
      (fun y x o => do
        let p ← interp x y
        o.setPixel P x y p) ?_
    intro j i o o' h
    obtain ⟨_, -, h⟩ := bind_eq_ok h
    exact Image.setPixel_info h

omit [FloatOps F] in
theorem toInt_le {lo hi : Int} (hlh : lo ≤ hi) (h0 : 0 ≤ hi) (x : FP) : FP.toInt lo hi x ≤ hi := by
  unfold FP.toInt
  split
  · exact h0
  · split <;> omega
  · omega
  · omega
theorem scaleDim_lt [Libm f32] (n : Nat) (f : F32) : scaleDim n f < U32SIZE := by
  unfold scaleDim toU32
  have : FloatOps.toInt 0 4294967295 (FloatOps.round ((ofNat n : F32) *. f)) ≤ 4294967295 :=
    toInt_le (by decide) (by decide) _
  omega

theorem scaleLoop_same (P : Profile) {info : ImageInfo} (hw : info.width < U32SIZE) (hh : info.height < U32SIZE)
    (hc : info.channels < 256)
    (hsz : P = .debug ∨ (info.width * info.height < U32SIZE ∧ info.width * info.height * info.channels < U32SIZE))
    (interp : Nat → Nat → Res (List F)) (hne : ∀ x y, NoErr (interp x y))
    (hlen : ∀ x y p, interp x y = .ok p → p.length = info.channels)
    {order : List Nat} (ho : order.Perm (List.range (info.width * info.height))) :
    SameOutcome (do
      let b ← Image.blank P (FloatOps.rnum (F := F)) info
      scaleLoop P b interp) (scaleLoopPar order P info interp) := by
  rw [scaleLoop_eq]
  rcases hsz with rfl | hsz
  · exact par_same_debug _ hw hh hc interp hne hlen ho
  · exact par_same P _ ⟨hw, hh, hc, hsz.1, hsz.2⟩ interp interp (fun _ _ _ _ => rfl) (fun x y _ _ => hne x y)
      (fun x y p _ _ => hlen x y p) ho

/-- **C48** `scale`, every method and scale factor. In release builds the output must fit its `u32`
sizes (in debug builds too large outputs panic both ways). -/
theorem c48_scale_partial [Libm f32] (P : Profile) (img : Image F32) (h : img.WF) (xf yf : F32) (m : Scale)
    (hsz : P = .debug ∨ (scaleDim img.info.width xf * scaleDim img.info.height yf < U32SIZE ∧
      scaleDim img.info.width xf * scaleDim img.info.height yf * img.info.channels < U32SIZE))
    (order : List Nat)
    (ho : order.Perm (List.range (scaleDim img.info.width xf * scaleDim img.info.height yf))) :
    SameOutcome (scale P img xf yf m) (scalePar order P img xf yf m) := by
  unfold scale scalePar
  refine .bind (.refl _) fun _ _ => .bind (.refl _) fun _ _ => ?_
  exact scaleLoop_same P (info := ⟨_, _, _, _⟩) (scaleDim_lt _ _) (scaleDim_lt _ _) h.channels hsz _
    (fun x y => interpolate_noErr P img xf yf m x y) (fun x y p hp => interpolate_length h.channels hp) ho

/-- **C48** `scale_lanczos` with every window size. -/
theorem c48_scale_lanczos_partial [Libm f32] (P : Profile) (img : Image F32) (h : img.WF) (xf yf : F32) (size : Nat)
    (hsz : P = .debug ∨ (scaleDim img.info.width xf * scaleDim img.info.height yf < U32SIZE ∧
      scaleDim img.info.width xf * scaleDim img.info.height yf * img.info.channels < U32SIZE))
    (order : List Nat)
    (ho : order.Perm (List.range (scaleDim img.info.width xf * scaleDim img.info.height yf))) :
    SameOutcome (scaleLanczos P img xf yf size) (scaleLanczosPar order P img xf yf size) := by
  unfold scaleLanczos scaleLanczosPar
  refine .bind (.refl _) fun _ _ => .bind (.refl _) fun _ _ => .bind (.refl _) fun _ _ => ?_
  exact scaleLoop_same P (info := ⟨_, _, _, _⟩) (scaleDim_lt _ _) (scaleDim_lt _ _) h.channels hsz _
    (fun x y => interpolateLanczos_noErr P img xf yf size x y) (fun x y p hp => interpolateLanczos_length hp) ho

/-! ### linear filters -/

theorem NoErr.neighborStart {P x s} : NoErr (Image.neighborStart P x s) := .bind .i32Div fun _ => .i32Sub
theorem NoErr.neighborCoord {P a b c d} : NoErr (Image.neighborCoord P a b c d) := .bind .i32Add fun _ => .ok _
theorem NoErr.getNeighborhood1d {T P} {img : Image T} {x y s v} : NoErr (img.getNeighborhood1d P x y s v) := by
  unfold Image.getNeighborhood1d
  refine .bind .checkXY fun _ => .ite ?_ ?_ <;>
  exact .bind .neighborStart fun _ => .bind (.forRange fun _ _ => .bind .neighborCoord fun _ =>
    .bind .getPixel fun _ => .ok _) fun _ => .ok _
theorem NoErr.getNeighborhood2d {T P} {img : Image T} {x y s} : NoErr (img.getNeighborhood2d P x y s) := by
  unfold Image.getNeighborhood2d
  exact .bind .checkXY fun _ => .bind .neighborStart fun _ => .bind .neighborStart fun _ =>
    .bind (.forRange fun _ _ => .forRange fun _ _ => .bind .neighborCoord fun _ => .bind .neighborCoord fun _ =>
    .bind .getPixel fun _ => .ok _) fun _ => .ok _
theorem getNeighborhood1d_info {T} {P : Profile} {img : Image T} {x y s : Nat} {v : Bool} {nb : SubImage T}
    (h : img.getNeighborhood1d P x y s v = .ok nb) :
    nb.info.width * nb.info.height = s ∧ nb.info.channels = img.info.channels := by
  unfold Image.getNeighborhood1d at h
  obtain ⟨_, -, h⟩ := bind_eq_ok h
  split at h <;>
  · obtain ⟨_, -, h⟩ := bind_eq_ok h
    obtain ⟨_, -, h⟩ := bind_eq_ok h
    cases h
    simp [SubImage.new]
theorem getNeighborhood2d_info {T} {P : Profile} {img : Image T} {x y s : Nat} {nb : SubImage T}
    (h : img.getNeighborhood2d P x y s = .ok nb) :
    nb.info.width = s ∧ nb.info.channels = img.info.channels := by
  unfold Image.getNeighborhood2d at h
  obtain ⟨_, -, h⟩ := bind_eq_ok h
  obtain ⟨_, -, h⟩ := bind_eq_ok h
  obtain ⟨_, -, h⟩ := bind_eq_ok h
  obtain ⟨_, -, h⟩ := bind_eq_ok h
  cases h
  simp [SubImage.new]
theorem NoErr.kernelStep {k : List F} {nb : SubImage F} {i o} : NoErr (Imgproc.kernelStep k nb i o) := by
  unfold Imgproc.kernelStep SubImage.index; no_err
theorem kernelStep_length {k : List F} {nb : SubImage F} {i : Nat} {o o' : List F}
    (h : kernelStep k nb i o = .ok o') : o'.length = o.length := by
  unfold kernelStep at h
  refine forRange_preserves (fun s : List F => s.length = o.length) ?_ rfl h
  intro k s s' hs h
  obtain ⟨_, -, h⟩ := bind_eq_ok h
  obtain ⟨_, -, h⟩ := bind_eq_ok h
  obtain ⟨_, -, h⟩ := bind_eq_ok h
  obtain ⟨_, -, h⟩ := bind_eq_ok h
  rw [setIdx_length h, hs]

theorem apply1d_noErr {P : Profile} {nb : SubImage F} {k : List F} (hodd : k.length % 2 = 1)
    (hs : nb.info.width * nb.info.height = k.length) (hk : k.length < U32SIZE) : NoErr (apply1dKernel P nb k) := by
  unfold apply1dKernel ImageInfo.size
  rw [u32Mul_ok (by omega), ok_bind, checkOdd_usize_ok hodd, ok_bind, checkEqual_ok hs.symm, ok_bind]
  exact .forRange fun _ _ => .kernelStep
theorem apply1d_length {P : Profile} {nb : SubImage F} {k : List F} {p : List F}
    (h : apply1dKernel P nb k = .ok p) : p.length = nb.info.channels := by
  unfold apply1dKernel at h
  obtain ⟨_, -, h⟩ := bind_eq_ok h
  obtain ⟨_, -, h⟩ := bind_eq_ok h
  obtain ⟨_, -, h⟩ := bind_eq_ok h
  refine forRange_preserves (fun s : List F => s.length = nb.info.channels) ?_ (by simp) h
  intro k s s' hs h
  rw [kernelStep_length h, hs]
theorem apply2d_noErr {P : Profile} {nb : SubImage F} {k : List F} (hodd : k.length % 2 = 1)
    (hs : nb.info.width * nb.info.width = k.length) (hk : k.length < U32SIZE) : NoErr (apply2dKernel P nb k) := by
  unfold apply2dKernel
  dsimp only
  rw [checkOdd_usize_ok hodd, ok_bind, usizeMul_ok (by omega), ok_bind, checkEqual_ok hs.symm, ok_bind]
  exact .forRange fun _ _ => .forRange fun _ _ => .bind .usizeMul fun _ => .bind .usizeAdd fun _ => .kernelStep
theorem apply2d_length {P : Profile} {nb : SubImage F} {k : List F} {p : List F}
    (h : apply2dKernel P nb k = .ok p) : p.length = nb.info.channels := by
  unfold apply2dKernel at h
  obtain ⟨_, -, h⟩ := bind_eq_ok h
  obtain ⟨_, -, h⟩ := bind_eq_ok h
  obtain ⟨_, -, h⟩ := bind_eq_ok h
  refine forRange_preserves (fun s : List F => s.length = nb.info.channels) ?_ (by simp) h
  intro k s s' hs h
  refine forRange_preserves (fun s : List F => s.length = nb.info.channels) ?_ hs h
  intro k s s' hs h
  obtain ⟨_, -, h⟩ := bind_eq_ok h
  obtain ⟨_, -, h⟩ := bind_eq_ok h
  rw [kernelStep_length h, hs]

theorem checkOdd_usize_iff {n : Nat} {u : Unit} (h : checkOdd usizeNum n = .ok u) : n % 2 = 1 := by
  by_contra hc
  rw [checkOdd_usize_err hc] at h
  cases h

theorem bind_noErr_of {α β} {r : Res α} {f : α → Res β} (h : NoErr r) (hf : ∀ a, r = .ok a → NoErr (f a)) :
    NoErr (r >>= f) := by
  cases hr : r with
  | ok a => rw [ok_bind]; exact hf a hr
  | error x => rw [hr] at h; intro e he; exact h e (by cases he; rfl)
theorem bind_congr_ok {α β} {r : Res α} {f g : α → Res β} (hf : ∀ a, r = .ok a → f a = g a) :
    (r >>= f) = (r >>= g) := by
  cases hr : r with
  | ok a => rw [ok_bind, ok_bind]; exact hf a hr
  | error x => rfl

/-- **C48** `filter_1d`, every image, kernel (fewer than 2^32 entries) and schedule. -/
theorem c48_filter_1d (P : Profile) (img : Image F) (h : img.WF) (kernel : List F)
    (hk : kernel.length < U32SIZE) (isVert : Bool)
    (order : List Nat) (ho : order.Perm (List.range (img.info.width * img.info.height))) :
    SameOutcome (filter1d P img kernel isVert) (filter1dPar order P img kernel isVert) := by
  unfold filter1d filter1dPar
  refine .bind (.refl _) fun _ hodd => ?_
  have hodd := checkOdd_usize_iff hodd
  have hs : usizeToU32 kernel.length = kernel.length := Nat.mod_eq_of_lt hk
  rw [hs]
  have := par_same P (FloatOps.rnum (F := F)) h.infoWF
    (fun x y => do
      let nb ← img.getNeighborhood1d P x y kernel.length isVert
      apply1dKernel P nb kernel)
    (fun x y => do
      let nb ← img.getNeighborhood1d P x y kernel.length isVert
      unwrapRes (apply1dKernel P nb kernel))
    (fun x y _ _ => bind_congr_ok fun nb hnb =>
      unwrapRes_noErr (apply1d_noErr hodd (getNeighborhood1d_info hnb).1 hk))
    (fun x y _ _ => bind_noErr_of .getNeighborhood1d fun nb hnb =>
      apply1d_noErr hodd (getNeighborhood1d_info hnb).1 hk)
    (fun x y p _ _ hp => by
      obtain ⟨nb, h1, h2⟩ := bind_eq_ok hp
      rw [apply1d_length h2, (getNeighborhood1d_info h1).2]) ho
  simp only [bind_assoc] at this
  exact this

theorem filter1d_returns {P : Profile} {img out : Image F} (h : img.WF) {kernel : List F} {isVert : Bool}
    (hr : filter1d P img kernel isVert = .ok out) : out.WF ∧ out.info = img.info := by
  unfold filter1d at hr
  obtain ⟨_, -, hr⟩ := bind_eq_ok hr
  refine fill_returns (P := P) (N := FloatOps.rnum (F := F)) h.infoWF
    (g := fun x y => do
      let nb ← img.getNeighborhood1d P x y (usizeToU32 kernel.length) isVert
      apply1dKernel P nb kernel) (fun x y p _ _ hp => by
      obtain ⟨nb, h1, h2⟩ := bind_eq_ok hp
      rw [apply1d_length h2, (getNeighborhood1d_info h1).2]) ?_
  simp only [bind_assoc]
  exact hr

/-- **C48** `separable_filter` (two parallel passes, each with its own schedule). -/
theorem c48_separable (P : Profile) (img : Image F) (h : img.WF) (vert horz : List F)
    (hk : vert.length < U32SIZE) (hk' : horz.length < U32SIZE)
    (o1 o2 : List Nat) (ho1 : o1.Perm (List.range (img.info.width * img.info.height)))
    (ho2 : o2.Perm (List.range (img.info.width * img.info.height))) :
    SameOutcome (separableFilter P img vert horz) (separableFilterPar o1 o2 P img vert horz) := by
  unfold separableFilter separableFilterPar
  refine .bind (.refl _) fun _ _ => .bind (.refl _) fun _ _ => .bind (.refl _) fun _ _ => ?_
  refine .bind (c48_filter_1d P img h vert hk true o1 ho1) fun v hv => ?_
  obtain ⟨vw, vi⟩ := filter1d_returns h hv
  exact c48_filter_1d P v vw horz hk' false o2 (by rw [vi]; exact ho2)
end

/-- **C48** `unseparable_filter`, every image, kernel of at most 2^24 entries and schedule. -/
theorem c48_unseparable (P : Profile) [Libm f32] (img : Image F32) (h : img.WF) (kernel : List F32)
    (hk : kernel.length ≤ 16777216)
    (order : List Nat) (ho : order.Perm (List.range (img.info.width * img.info.height))) :
    SameOutcome (unseparableFilter P img kernel) (unseparableFilterPar order P img kernel) := by
  unfold unseparableFilter unseparableFilterPar
  refine .bind (.refl _) fun _ hodd => .bind (.refl _) fun _ hsq => ?_
  have hodd := checkOdd_usize_iff hodd
  obtain ⟨n, hn⟩ : ∃ n : Nat, n * n = kernel.length := by
    by_contra hc
    push Not at hc
    rw [checkSquare_nonsq hk hc] at hsq
    cases hsq
  have hn' : n ≤ 4096 := by
    by_contra hc
    have : 4097 * 4097 ≤ n * n := Nat.mul_le_mul (by omega) (by omega)
    omega
  have hs : toU32 (FloatOps.sqrt (ofNat kernel.length : F32)) = n := by rw [← hn]; exact toU32_sqrt hn'
  dsimp only
  rw [hs]
  have := par_same P (FloatOps.rnum (F := F32)) h.infoWF
    (fun x y => do
      let nb ← img.getNeighborhood2d P x y n
      apply2dKernel P nb kernel)
    (fun x y => do
      let nb ← img.getNeighborhood2d P x y n
      unwrapRes (apply2dKernel P nb kernel))
    (fun x y _ _ => bind_congr_ok fun nb hnb =>
      unwrapRes_noErr (apply2d_noErr hodd (by rw [(getNeighborhood2d_info hnb).1, hn]) (by omega)))
    (fun x y _ _ => bind_noErr_of .getNeighborhood2d fun nb hnb =>
      apply2d_noErr hodd (by rw [(getNeighborhood2d_info hnb).1, hn]) (by omega))
    (fun x y p _ _ hp => by
      obtain ⟨nb, h1, h2⟩ := bind_eq_ok hp
      rw [apply2d_length h2, (getNeighborhood2d_info h1).2]) ho
  simp only [bind_assoc] at this
  exact this

/-- the six pixel tasks of a 3×2 image, run backwards, with a 3-tap and a 3×3 kernel -/
example (P : Profile) [Libm f32] (a b c d e f : F32) :
    SameOutcome (filter1d P (gray6 a b c d e f) [num 1, num 2, num 1] true)
      (filter1dPar [5, 4, 3, 2, 1, 0] P (gray6 a b c d e f) [num 1, num 2, num 1] true) ∧
    SameOutcome (unseparableFilter P (gray6 a b c d e f) (List.replicate 9 (num 1)))
      (unseparableFilterPar [5, 4, 3, 2, 1, 0] P (gray6 a b c d e f) (List.replicate 9 (num 1))) :=
  have ho : [5, 4, 3, 2, 1, 0].Perm (List.range ((gray6 a b c d e f).info.width * (gray6 a b c d e f).info.height)) :=
    show [5, 4, 3, 2, 1, 0].Perm (List.range (3 * 2)) by decide
  ⟨c48_filter_1d P _ (gray6_WF ..) _ (by simp) true _ ho, c48_unseparable P _ (gray6_WF ..) _ (by simp) _ ho⟩

/-- a schedule that runs the four tasks of a 2 x 2 image backwards -/
example : [3, 1, 2, 0].Perm (List.range 4) := by decide

end Imgproc

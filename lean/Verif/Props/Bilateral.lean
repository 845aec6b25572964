import Verif.Spec.Demo
import Verif.Props.Kernels
import Verif.Props.Par
import Verif.Props.Lab
import Verif.Props.Filter
import Verif.Proofs.ExactSum
import Verif.Model.Filter
/-! Properties C59 and the bilateral part of C48. -/
namespace Imgproc
open FloatOps

theorem forRange_foldl {σ} {n : Nat} {s : σ} {f : Nat → σ → Res σ} (g : σ → Nat → σ)
    (h : ∀ i s, i < n → f i s = .ok (g s i)) : forRange 0 n s f = .ok ((List.range n).foldl g s) := by
  obtain ⟨out, e, h⟩ := forRange_rule (a := 0) (b := n) (s := s) (f := f)
    (fun k s' => s' = (List.range k).foldl g s) (Nat.zero_le _) rfl
    (by
      rintro k s' - hk rfl
      exact ⟨_, h k _ hk, by rw [List.range_succ, List.foldl_append]; rfl⟩)
  rw [e, h]

section
variable {F : Type} [FloatOps F]

/-- the value of `gaussian_fn` -/
def gaussOf (x sigma : F) : F :=
  (num 1 /. (num 2 *. FloatOps.pi *. (sigma *. sigma))) *.
    (FloatOps.pow FloatOps.e ((FloatOps.neg (x *. x)) /. (num 2 *. (sigma *. sigma))))

theorem gaussianFn_gen {sigma : F} (h : checkNonNeg (FloatOps.rnum (F := F)) sigma = .ok ()) (x : F) :
    gaussianFn x sigma = .ok (gaussOf x sigma) := by
  unfold gaussianFn
  rw [h, ok_bind]; rfl

/-- weight of window cell `i` for channel `c` of a pixel whose channel value is `v0`: spatial weight
times the Gaussian of the difference of the channel values -/
def bilateralWeight (range : F) (mat : List F) (win : List (List F)) (c : Nat) (v0 : F) (i : Nat) : F :=
  mat.getD i (num 0) *. gaussOf (FloatOps.abs (v0 -. (win.getD i []).getD c (num 0))) range

/-- the weighted mean of the window: left-to-right weighted sum divided by the left-to-right sum of weights -/
def bilateralMean (range : F) (mat : List F) (win : List (List F)) (c : Nat) (v0 : F) : F :=
  ((List.range win.length).foldl (fun acc i =>
      acc +. bilateralWeight range mat win c v0 i *. (win.getD i []).getD c (num 0)) (num 0)) /.
  ((List.range win.length).foldl (fun acc i => acc +. bilateralWeight range mat win c v0 i) (num 0))

theorem foldl_pair {α β : Type} (l : List Nat) (f : α → Nat → α) (g : β → Nat → β) (a : α) (b : β) :
    l.foldl (fun s i => (f s.1 i, g s.2 i)) (a, b) = (l.foldl f a, l.foldl g b) := by
  induction l generalizing a b with
  | nil => rfl
  | cons i l ih => exact ih _ _

theorem bilateralDirectPixel_eq (P : Profile) {lab : Image F} (h : lab.WF) {range : F} (hr : checkNonNeg (FloatOps.rnum (F := F)) range = .ok ())
    {mat : List F} {size x y : Nat} (hm : mat.length = size * size) (h0 : 0 < size) (hs : size < 65536)
    (hx : x < lab.info.width) (hy : y < lab.info.height)
    (hw : lab.info.width + size ≤ 2147483648) (hh : lab.info.height + size ≤ 2147483648) :
    bilateralDirectPixel P lab range mat size x y = .ok ((List.range lab.info.channels).map fun c =>
      bilateralMean range mat (window2d lab x y size) c ((lab.px x y).getD c (num 0))) := by
  have hsq : size * size < U32SIZE := by
    have : size * size ≤ 65535 * 65535 := Nat.mul_le_mul (by omega) (by omega)
    show _ < 4294967296
    omega
  have hpl := Image.px_length h hx hy
  unfold bilateralDirectPixel
  rw [getNeighborhood2d_window P h hx hy hw hh (by omega), ok_bind, Image.getPixel_eq P h hx hy, ok_bind]
  have hwl := window2d_length lab x y size
  obtain ⟨out, e, ho⟩ := forEnum_rule (l := lab.px x y) (s := ([] : List F))
    (f := fun c channel out => do
      let n ← u32Mul P size size
      let (pCurr, total) ← forRange 0 n ((num 0 : F), (num 0 : F)) fun i acc => do
        let q ← (SubImage.new size size lab.info.channels lab.info.alpha (window2d lab x y size)).index i
        let v ← idx q c
        let gr ← unwrapRes (gaussianFn (FloatOps.abs (channel -. v)) range)
        let sm ← idx mat i
        let weight := sm *. gr
        .ok (acc.1 +. weight *. v, acc.2 +. weight)
      .ok (out ++ [pCurr /. total]))
    (fun k s => s = (List.range k).map fun c =>
      bilateralMean range mat (window2d lab x y size) c ((lab.px x y).getD c (num 0))) rfl
    (by
      rintro c ch s hc rfl
      have hcl : c < lab.info.channels := by rw [← hpl]; exact (List.getElem?_eq_some_iff.1 hc).1
      rw [u32Mul_ok hsq, ok_bind]
      have hloop := forRange_foldl (n := size * size) (s := ((num 0 : F), (num 0 : F)))
        (f := fun i acc => do
          let q ← (SubImage.new size size lab.info.channels lab.info.alpha (window2d lab x y size)).index i
          let v ← idx q c
          let gr ← unwrapRes (gaussianFn (FloatOps.abs (ch -. v)) range)
          let sm ← idx mat i
          let weight := sm *. gr
          .ok (acc.1 +. weight *. v, acc.2 +. weight))
        (fun s i => (s.1 +. bilateralWeight range mat (window2d lab x y size) c ch i *.
            ((window2d lab x y size).getD i []).getD c (num 0),
          s.2 +. bilateralWeight range mat (window2d lab x y size) c ch i))
        (by
          intro i s hi
          have hq : ((window2d lab x y size)[i]?) = some ((window2d lab x y size).getD i []) := by
            rw [List.getD_eq_getElem?_getD, List.getElem?_eq_getElem (by rw [hwl]; exact hi)]; rfl
          have hql := window2d_pixels h hx hy _ (List.mem_of_getElem? hq)
          unfold SubImage.index
          rw [idx_some (show (SubImage.new size size lab.info.channels lab.info.alpha (window2d lab x y size)).data[i]? = _ from hq),
            ok_bind, idx_some (a := ((window2d lab x y size).getD i []).getD c (num 0)) (by
              rw [List.getD_eq_getElem?_getD (l := (window2d lab x y size).getD i []),
                List.getElem?_eq_getElem (by rw [hql]; exact hcl)]; rfl), ok_bind, gaussianFn_gen hr]
          rw [show ∀ v : F, unwrapRes (.ok v : Res F) = .ok v from fun _ => rfl, ok_bind,
            idx_some (a := mat.getD i (num 0)) (by
              rw [List.getD_eq_getElem?_getD, List.getElem?_eq_getElem (by rw [hm]; exact hi)]; rfl), ok_bind]
          rfl)
      rw [hloop, foldl_pair _ (fun a i => a +. bilateralWeight range mat (window2d lab x y size) c ch i *.
          ((window2d lab x y size).getD i []).getD c (num 0))
        (fun b i => b +. bilateralWeight range mat (window2d lab x y size) c ch i), ok_bind]
      refine ⟨_, rfl, ?_⟩
      rw [List.range_succ, List.map_append]
      have hch : (lab.px x y).getD c (num 0) = ch := by rw [List.getD_eq_getElem?_getD, hc]; rfl
      simp only [List.map_cons, List.map_nil, bilateralMean, hwl, hch])
  rw [hpl] at ho
  exact e.trans (by rw [ho])

/-- `bilateral_filter` once the spatial matrix is known, over any arithmetic -/
theorem bilateral_core (P : Profile) (img : Image UInt8) (h : img.WF) (range spatial : F)
    (hr : checkNonNeg (FloatOps.rnum (F := F)) range = .ok ())
    (hsp : checkNonNeg (FloatOps.rnum (F := F)) spatial = .ok ()) (size : Nat) (hsize : bilateralSize spatial = size)
    (h0 : 0 < size) (hlt : size < 65536) {mat : List F} (em : generateSpatialMat P size spatial = .ok mat)
    (hml : mat.length = size * size)
    (hpos : 0 < img.info.width ∧ 0 < img.info.height) (h3 : img.info.colours = 3)
    (hw : img.info.width + size ≤ 2147483648) (hh : img.info.height + size ≤ 2147483648) :
    ∃ (out : Image UInt8) (lab filtered : Image F),
      bilateralFilter P img range spatial = .ok out ∧ out.WF ∧ out.info = img.info ∧
      srgbToLab P img .d65 = .ok lab ∧
      lab.CA img.info (fun x y => labOfSrgb .d65 (img.info.colour (img.px x y)))
        (fun x y => (img.info.alphaOf (img.px x y)).map ofU8) ∧
      filtered.Shows img.info (fun x y => (List.range img.info.channels).map fun c =>
        bilateralMean range mat (window2d lab x y size) c ((lab.px x y).getD c (num 0))) ∧
      labToSrgb P filtered .d65 = .ok out ∧
      out.CA img.info (fun x y => srgbOfLab .d65 (img.info.colour (filtered.px x y)))
        (fun x y => (img.info.alphaOf (filtered.px x y)).map fun a => toU8 (FloatOps.round a)) := by
  obtain ⟨lab, el, hl⟩ := srgbToLab_CA (F := F) P .d65 h hpos h3
  have hi := hl.info_eq
  obtain ⟨b, filtered, eb, bi, ef, hf⟩ := Image.fillAll_set P (FloatOps.rnum (F := F)) hl.wf.infoWF
    (fun x y => (List.range lab.info.channels).map fun c =>
        bilateralMean range mat (window2d lab x y size) c ((lab.px x y).getD c (num 0)))
    (fun x y _ _ => by simp)
    (fun y x => bilateralDirectPixel P lab range mat size x y)
    (fun x y hx hy => bilateralDirectPixel_eq P hl.wf hr hml h0 hlt hx hy (by rw [hi]; exact hw)
      (by rw [hi]; exact hh))
  have hfi : filtered.info = img.info := hf.info_eq.trans hi
  obtain ⟨out, eo, ho⟩ := labToSrgb_CA P .d65 hf.WF.CA (by rw [hfi]; exact hpos) (by rw [hfi]; exact h3)
  rw [hfi] at ho
  refine ⟨out, lab, filtered, ?_, ho.wf, ho.info_eq, el, hl, by rw [← hi]; exact hf, eo, ho⟩
  unfold bilateralFilter
  rw [hr, ok_bind, hsp, ok_bind]
  dsimp only
  rw [hsize, em, ok_bind, el, ok_bind, eb, ok_bind, ← hi, ef, ok_bind, eo]
end

section
variable [Libm f32]

theorem nonNeg_ok {x : F32} (h : ¬ Negative x) : checkNonNeg (FloatOps.rnum (F := F32)) x = .ok () :=
  if_neg fun h' => h ((lt_zero_iff Fmt.Exact.zero _).1 h')
theorem nonNeg_err {x : F32} (h : Negative x) : checkNonNeg (FloatOps.rnum (F := F32)) x = invalidArg :=
  if_pos ((lt_zero_iff Fmt.Exact.zero _).2 h)

/-- **C59** negative range or spatial parameters are rejected with an error (both builds). -/
theorem c59_negative (P : Profile) (img : Image UInt8) (range spatial : F32) (order : List Nat)
    (h : Negative range ∨ Negative spatial) :
    bilateralFilter P img range spatial = .error (.err .invalidArg) ∧
    bilateralFilterPar order P img range spatial = .error (.err .invalidArg) := by
  unfold bilateralFilter bilateralFilterPar
  by_cases hr : Negative range
  · rw [nonNeg_err hr]; exact ⟨rfl, rfl⟩
  · rw [nonNeg_ok hr, ok_bind, ok_bind, nonNeg_err (h.resolve_left hr)]; exact ⟨rfl, rfl⟩

/-- **C59** Whenever the window size `(4·spatial + 1) as u32` is odd, `bilateral_filter` returns on every
non-empty 3-colour image (alpha allowed), with the input's info; what it returns is the sRGB image of the
CIELAB image in which each channel is replaced by its bilateral mean over the padded window. Missing from
the English claim: sizes that are even or too large (see `c59_even_panics`). -/
theorem c59_returns_partial (P : Profile) (img : Image UInt8) (h : img.WF) (range spatial : F32)
    (hr : ¬ Negative range) (hsp : ¬ Negative spatial) (size : Nat) (hsize : bilateralSize spatial = size)
    (hodd : size % 2 = 1) (hlt : size < 65536)
    (hpos : 0 < img.info.width ∧ 0 < img.info.height) (h3 : img.info.colours = 3)
    (hw : img.info.width + size ≤ 2147483648) (hh : img.info.height + size ≤ 2147483648) :
    ∃ (out : Image UInt8) (lab filtered : Image F32) (mat : List F32),
      bilateralFilter P img range spatial = .ok out ∧ out.WF ∧ out.info = img.info ∧
      srgbToLab P img .d65 = .ok lab ∧ generateSpatialMat P size spatial = .ok mat ∧
      filtered.Shows img.info (fun x y => (List.range img.info.channels).map fun c =>
        bilateralMean range mat (window2d lab x y size) c ((lab.px x y).getD c (num 0))) ∧
      labToSrgb P filtered .d65 = .ok out := by
  obtain ⟨mat, em, hml, -, -⟩ := c44_spatial_mat_partial P size spatial hodd hlt hsp
  obtain ⟨out, lab, filtered, e, hwf, hi, el, -, hf, eo, -⟩ := bilateral_core P img h range spatial (nonNeg_ok hr)
    (nonNeg_ok hsp) size hsize (by omega) hlt em hml hpos h3 hw hh
  exact ⟨out, lab, filtered, mat, e, hwf, hi, el, em, hf, eo⟩

/-- **C59 fails for even window sizes**: with valid (non-negative) parameters whose window size is even
(or 0, e.g. for a NaN spatial parameter) `bilateral_filter` panics on every image. -/
theorem c59_even_panics (P : Profile) (img : Image UInt8) (range spatial : F32) (order : List Nat)
    (hr : ¬ Negative range) (hsp : ¬ Negative spatial) (heven : bilateralSize spatial % 2 = 0)
    (hlt : bilateralSize spatial < 65536) :
    Res.Panics (bilateralFilter P img range spatial) ∧ Res.Panics (bilateralFilterPar order P img range spatial) := by
  unfold bilateralFilter bilateralFilterPar
  rw [nonNeg_ok hr, ok_bind, ok_bind, nonNeg_ok hsp, ok_bind, ok_bind]
  have := c44_even_panics P _ spatial heven hlt hsp
  exact ⟨this.bind _, this.bind _⟩

/-- the window size for a spatial parameter `k/4` is `k + 1` (so 1/4 gives the even size 2, and 1 gives 5) -/
theorem bilateralSize_quarter {k : Nat} (hk : k < 65535) {spatial : F32} (h : spatial.Is ((k : Rat) / 4)) :
    bilateralSize spatial = k + 1 := by
  have h4 : (num 4 : F32).Is 4 := by simpa using num32 (n := 4) (by decide)
  have h1 : (num 1 : F32).Is 1 := by simpa using num32 (n := 1) (by decide)
  have e : (k : Rat) / 4 * 4 = (k : Rat) := by ring
  have hm := mul_exact h h4 (by rw [e]; exact f32_nat (by omega))
  rw [e] at hm
  have ha := add_exact hm h1 (by
    have := f32_nat (n := k + 1) (by omega)
    push_cast at this; exact this)
  have e2 : (k : Rat) + 1 = (((k + 1 : Nat) : Int) : Rat) := by push_cast; ring
  rw [e2] at ha
  unfold bilateralSize toU32
  rw [toInt_is ha, truncQ_int]
  omega

/-- concrete instances: spatial = 1/4 is an ordinary parameter for which the filter panics; spatial = 1
satisfies the hypotheses of `c59_returns_partial` -/
theorem c59_quarter_panics (P : Profile) (img : Image UInt8) :
    Res.Panics (bilateralFilter P img (num 1 : F32) (lit (1 / 4))) := by
  have h1 : (num 1 : F32).Is 1 := by simpa using num32 (n := 1) (by decide)
  have hq : (lit (1 / 4) : F32).Is (1 / 4) := lit_exact (by
    have := f32_dyadic (m := 64) (by decide)
    rwa [show (((64 : Int) : Rat) / 256) = 1 / 4 by norm_num] at this)
  have hs := bilateralSize_quarter (k := 1) (by decide) (spatial := (lit (1 / 4) : F32)) (by simpa using hq)
  have n1 : ¬ Negative (num 1 : F32) := by
    rw [← lt_zero_iff Fmt.Exact.zero, lt_is h1 (ofU8_is 0)]; simp
  have n2 : ¬ Negative (lit (1 / 4) : F32) := by
    rw [← lt_zero_iff Fmt.Exact.zero, lt_is hq (ofU8_is 0)]; simp
  exact (c59_even_panics P img _ _ [] n1 n2 (by rw [hs]) (by rw [hs]; decide)).1
example (P : Profile) (a b c d : UInt8) :
    ∃ out, bilateralFilter P (rgba1 a b c d) (num 1 : F32) (num 1) = .ok out ∧ out.info = (rgba1 a b c d).info := by
  have h1 : (num 1 : F32).Is 1 := by simpa using num32 (n := 1) (by decide)
  have hn : ¬ Negative (num 1 : F32) := by
    rw [← lt_zero_iff Fmt.Exact.zero, lt_is h1 (ofU8_is 0)]; simp
  obtain ⟨out, _, _, _, h, -, hi, -⟩ := c59_returns_partial P _ (rgba1_WF a b c d) (num 1) (num 1) hn hn 5
    (bilateralSize_quarter (k := 4) (by decide) (by norm_num; exact h1)) rfl (by decide) (by dims) rfl (by dims) (by dims)
  exact ⟨out, h, hi⟩

example : bilateralSize (num 1 : F32) = 5 ∧ ¬ Negative (num 1 : F32) := by
  have h1 : (num 1 : F32).Is 1 := by simpa using num32 (n := 1) (by decide)
  refine ⟨bilateralSize_quarter (k := 4) (by decide) (by norm_num; exact h1), ?_⟩
  rw [← lt_zero_iff Fmt.Exact.zero, lt_is h1 (ofU8_is 0)]; simp

/-! ### C48 for the bilateral filter -/

omit [Libm f32] in
theorem NoErr.forEnum {α σ} {f : Nat → α → σ → Res σ} (hf : ∀ i a s, NoErr (f i a s)) :
    ∀ {l : List α} {k : Nat} {s : σ}, NoErr (Imgproc.forEnum l k s f)
  | [], _, s => .ok s
  | a :: l, k, s => .bind (hf k a s) (fun _ => NoErr.forEnum hf)

theorem NoErr.bilateralDirectPixel {P : Profile} {lab : Image F32} {range : F32} {mat : List F32} {size x y : Nat} :
    NoErr (Imgproc.bilateralDirectPixel P lab range mat size x y) := by
  unfold Imgproc.bilateralDirectPixel
  refine .bind .getNeighborhood2d fun pn => .bind .getPixel fun p => ?_
  refine .forEnum fun k a s => ?_
  unfold SubImage.index
  no_err

theorem bilateralDirectPixel_length {P : Profile} {lab : Image F32} (hc : lab.info.channels < 256) {range : F32}
    {mat : List F32} {size x y : Nat} {p : List F32}
    (h : bilateralDirectPixel P lab range mat size x y = .ok p) : p.length = lab.info.channels := by
  unfold bilateralDirectPixel at h
  obtain ⟨pn, -, h⟩ := bind_eq_ok h
  obtain ⟨q, hq, h⟩ := bind_eq_ok h
  rw [← getPixel_length hc hq]
  have key : ∀ (l : List F32) (k : Nat) (out p : List F32) (f : Nat → F32 → Res F32),
      forEnum l k out (fun c ch o => f c ch >>= fun v => .ok (o ++ [v])) = .ok p → p.length = out.length + l.length := by
    intro l
    induction l with
    | nil => intro k out p f h; cases h; rfl
    | cons a l ih =>
      intro k out p f h
      obtain ⟨o, h1, h2⟩ := bind_eq_ok (h : (f k a >>= fun v => .ok (out ++ [v])) >>= _ = .ok p)
      obtain ⟨v, -, h1⟩ := bind_eq_ok h1
      cases h1
      rw [ih _ _ _ _ h2]; simp; omega
  have := key q 0 [] p (fun c ch => do
    let n ← u32Mul P size size
    let s ← forRange 0 n ((num 0 : F32), (num 0 : F32)) fun i acc => do
      let q ← pn.index i
      let v ← idx q c
      let gr ← unwrapRes (gaussianFn (FloatOps.abs (ch -. v)) range)
      let sm ← idx mat i
      let weight := sm *. gr
      .ok (acc.1 +. weight *. v, acc.2 +. weight)
    .ok (s.1 /. s.2)) (by rw [← h]; simp only [bind_assoc]; rfl)
  simpa using this

/-- **C48** `bilateral_filter` under rayon returns, for every schedule, what the sequential build
returns (for images whose alpha flag implies at least one channel, as the readers guarantee). -/
theorem c48_bilateral (P : Profile) (img : Image UInt8) (h : img.WF)
    (hc : img.info.alpha = true → 0 < img.info.channels) (range spatial : F32)
    (order : List Nat) (ho : order.Perm (List.range (img.info.width * img.info.height))) :
    SameOutcome (bilateralFilter P img range spatial) (bilateralFilterPar order P img range spatial) := by
  unfold bilateralFilter bilateralFilterPar
  refine .bind (.refl _) fun _ _ => .bind (.refl _) fun _ _ => .bind (.refl _) fun mat _ =>
    .bind (.refl _) fun lab hlab => ?_
  have hl : lab.WF ∧ lab.info = img.info := by
    by_cases hgood : 0 < img.info.width ∧ 0 < img.info.height ∧ img.info.colours = 3
    · obtain ⟨l, e, hl⟩ := srgbToLab_CA (F := F32) P .d65 h ⟨hgood.1, hgood.2.1⟩ hgood.2.2
      rw [hlab] at e; cases e
      exact ⟨hl.wf, hl.info_eq⟩
    · obtain ⟨lin, e, hlin⟩ := linearize_CA (F := F32) P h hc
      unfold srgbToLab srgbToXyz at hlab
      rw [e, ok_bind] at hlab
      obtain ⟨k, hk⟩ := (c35_panics P lin hlin.wf (by rw [hlin.info_eq]; exact hgood)).1
      rw [hk] at hlab
      cases hlab
  obtain ⟨hwf, hi⟩ := hl
  have := par_same P (FloatOps.rnum (F := F32)) hwf.infoWF
    (fun x y => bilateralDirectPixel P lab range mat (bilateralSize spatial) x y)
    (fun x y => bilateralDirectPixel P lab range mat (bilateralSize spatial) x y)
    (fun _ _ _ _ => rfl) (fun _ _ _ _ => .bilateralDirectPixel)
    (fun x y p _ _ hp => bilateralDirectPixel_length hwf.channels hp) (order := order) (by rw [hi]; exact ho)
  have h2 := this.bind (f := fun o => labToSrgb P o .d65) (g := fun o => labToSrgb P o .d65) fun _ _ => .refl _
  simp only [bind_assoc] at h2
  rw [← hi]
  exact h2
end
end Imgproc

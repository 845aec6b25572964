import Verif.Props.Filter3
import Verif.Props.Filter6
import Verif.Props.Kernels
import Verif.Props.Scale4
/-! Properties C91 (linear filters are linear, local and act on each channel by itself) and C92 (averaging filters stay
within the range of the window; the Gaussian blur does not, its kernel is not normalised). -/
namespace Imgproc
open FloatOps

/-! ### C91 -/

/-- **Specification**: `h` is the combination `a * f + b * g`, channel by channel, of two images of the same shape -/
structure Combines (a b : ℝ) (f g h : Image ℝ) : Prop where
  wf : f.WF
  wg : g.WF
  wh : h.WF
  ig : g.info = f.info
  ih : h.info = f.info
  eq : ∀ x y c, x < f.info.width → y < f.info.height → c < f.info.channels →
    h.rchan x y c = a * f.rchan x y c + b * g.rchan x y c

/-- a filter that computes the same weighted sums of window values for all images of one shape -/
def WeightedSums (filt : Image ℝ → Res (Image ℝ)) (info : ImageInfo) : Prop :=
  ∃ (n m : Nat) (w : Nat → Nat → ℝ) (X Y : Nat → Nat → Nat),
    (∀ x j, x < info.width → X x j < info.width) ∧ (∀ y i, y < info.height → Y y i < info.height) ∧
    ∀ img : Image ℝ, img.WF → img.info = info → ∃ out, filt img = .ok out ∧ out.Shows info fun x y =>
      (List.range info.channels).map fun c =>
        ∑ i ∈ Finset.range n, ∑ j ∈ Finset.range m, w i j * img.rchan (X x j) (Y y i) c

theorem rchan_of_shows {out : Image ℝ} {info : ImageInfo} {v : Nat → Nat → Nat → ℝ}
    (h : out.Shows info fun x y => (List.range info.channels).map (v x y)) {x y c : Nat} (hx : x < info.width)
    (hy : y < info.height) (hc : c < info.channels) : out.rchan x y c = v x y c := by
  unfold Image.rchan
  rw [h.px_eq hx hy, getD_map_range _ _ _ _ hc]

theorem superpose {filt : Image ℝ → Res (Image ℝ)} {a b : ℝ} {f g h : Image ℝ} (hc : Combines a b f g h)
    (hf : WeightedSums filt f.info) :
    ∃ f' g' h', filt f = .ok f' ∧ filt g = .ok g' ∧ filt h = .ok h' ∧ Combines a b f' g' h' := by
  obtain ⟨n, m, w, X, Y, hX, hY, hfilt⟩ := hf
  obtain ⟨f', ef, sf⟩ := hfilt f hc.wf rfl
  obtain ⟨g', eg, sg⟩ := hfilt g hc.wg hc.ig
  obtain ⟨h', eh, sh⟩ := hfilt h hc.wh hc.ih
  refine ⟨f', g', h', ef, eg, eh, sf.WF, sg.WF, sh.WF, by rw [sg.info_eq, sf.info_eq], by rw [sh.info_eq, sf.info_eq], ?_⟩
  rw [sf.info_eq]
  intro x y c hx hy hcc
  rw [rchan_of_shows sf hx hy hcc, rchan_of_shows sg hx hy hcc, rchan_of_shows sh hx hy hcc, Finset.mul_sum, Finset.mul_sum,
    ← Finset.sum_add_distrib]
  apply Finset.sum_congr rfl; intro i _
  rw [Finset.mul_sum, Finset.mul_sum, ← Finset.sum_add_distrib]
  apply Finset.sum_congr rfl; intro j _
  rw [hc.eq _ _ _ (hX x j hx) (hY y i hy) hcc]
  ring

theorem unseparable_weights (P : Profile) (info : ImageInfo) (kernel : List ℝ) (n : Nat) (hodd : n % 2 = 1)
    (hk : kernel.length = n * n) (hn : n < 65536) (hw : info.width + n ≤ 2147483648) (hh : info.height + n ≤ 2147483648) :
    WeightedSums (fun img => unseparableFilter P img kernel) info := by
  refine ⟨n, n, fun i j => kernel.getD (i * n + j) 0, fun x j => padCoord info.width x ((x : Int) - (n / 2 : Nat) + j),
    fun y i => padCoord info.height y ((y : Int) - (n / 2 : Nat) + i), fun x j hx => padCoord_lt hx, fun y i hy => padCoord_lt hy, ?_⟩
  rintro img h rfl
  obtain ⟨out, e, s⟩ := unseparable_real P img h kernel n hodd hk hn hw hh
  refine ⟨out, e, s.congr fun x y _ _ => ?_⟩
  apply List.map_congr_left
  intro c _
  exact response2d_real _ _ _ _ _ _ hk

theorem separable_weights (P : Profile) (info : ImageInfo) (vert horz : List ℝ) (hodd : vert.length % 2 = 1)
    (heq : vert.length = horz.length) (hw : info.width + vert.length ≤ 2147483648) (hh : info.height + vert.length ≤ 2147483648) :
    WeightedSums (fun img => separableFilter P img vert horz) info := by
  refine ⟨vert.length, vert.length, fun i j => vert.getD i 0 * horz.getD j 0,
    fun x j => padCoord info.width x ((x : Int) - (vert.length / 2 : Nat) + j),
    fun y i => padCoord info.height y ((y : Int) - (vert.length / 2 : Nat) + i), fun x j hx => padCoord_lt hx, fun y i hy => padCoord_lt hy, ?_⟩
  rintro img h rfl
  exact separable_real P img h vert horz hodd heq hw hh

theorem filter1d_weights (P : Profile) (info : ImageInfo) (kernel : List ℝ) (isVert : Bool) (hodd : kernel.length % 2 = 1)
    (hw : info.width + kernel.length ≤ 2147483648) (hh : info.height + kernel.length ≤ 2147483648) :
    WeightedSums (fun img => filter1d P img kernel isVert) info := by
  cases isVert with
  | true =>
    refine ⟨kernel.length, 1, fun i _ => kernel.getD i 0, fun x _ => x,
      fun y i => padCoord info.height y ((y : Int) - (kernel.length / 2 : Nat) + i), fun x j hx => hx,
      fun y i hy => padCoord_lt hy, ?_⟩
    rintro img h rfl
    obtain ⟨out, e, s⟩ := c47_filter_1d_partial P img h kernel true hodd hw hh
    refine ⟨out, e, s.congr fun x y _ _ => ?_⟩
    apply List.map_congr_left
    intro c _
    rw [response1d_real]
    simp only [if_true, Finset.sum_range_one]
    rfl
  | false =>
    refine ⟨1, kernel.length, fun _ j => kernel.getD j 0, fun x j => padCoord info.width x ((x : Int) - (kernel.length / 2 : Nat) + j),
      fun y _ => y, fun x j hx => padCoord_lt hx, fun y i hy => hy, ?_⟩
    rintro img h rfl
    obtain ⟨out, e, s⟩ := c47_filter_1d_partial P img h kernel false hodd hw hh
    refine ⟨out, e, s.congr fun x y _ _ => ?_⟩
    apply List.map_congr_left
    intro c _
    rw [response1d_real]
    simp only [Bool.false_eq_true, if_false, Finset.sum_range_one]
    rfl

/-- **C91** (exact arithmetic) `filter_1d` is linear: filtering `a * f + b * g` gives `a` times the filtered `f` plus `b` times
the filtered `g`, at every pixel, in every channel. -/
theorem c91_filter_1d (P : Profile) {a b : ℝ} {f g h : Image ℝ} (hc : Combines a b f g h) (kernel : List ℝ) (isVert : Bool)
    (hodd : kernel.length % 2 = 1) (hw : f.info.width + kernel.length ≤ 2147483648) (hh : f.info.height + kernel.length ≤ 2147483648) :
    ∃ f' g' h', filter1d P f kernel isVert = .ok f' ∧ filter1d P g kernel isVert = .ok g' ∧ filter1d P h kernel isVert = .ok h' ∧
      Combines a b f' g' h' :=
  superpose hc (filter1d_weights P f.info kernel isVert hodd hw hh)

/-- **C91** `separable_filter` is linear -/
theorem c91_separable (P : Profile) {a b : ℝ} {f g h : Image ℝ} (hc : Combines a b f g h) (vert horz : List ℝ)
    (hodd : vert.length % 2 = 1) (heq : vert.length = horz.length)
    (hw : f.info.width + vert.length ≤ 2147483648) (hh : f.info.height + vert.length ≤ 2147483648) :
    ∃ f' g' h', separableFilter P f vert horz = .ok f' ∧ separableFilter P g vert horz = .ok g' ∧
      separableFilter P h vert horz = .ok h' ∧ Combines a b f' g' h' :=
  superpose hc (separable_weights P f.info vert horz hodd heq hw hh)

/-- **C91** `unseparable_filter` is linear -/
theorem c91_unseparable (P : Profile) {a b : ℝ} {f g h : Image ℝ} (hc : Combines a b f g h) (kernel : List ℝ) (n : Nat)
    (hodd : n % 2 = 1) (hk : kernel.length = n * n) (hn : n < 65536)
    (hw : f.info.width + n ≤ 2147483648) (hh : f.info.height + n ≤ 2147483648) :
    ∃ f' g' h', unseparableFilter P f kernel = .ok f' ∧ unseparableFilter P g kernel = .ok g' ∧
      unseparableFilter P h kernel = .ok h' ∧ Combines a b f' g' h' :=
  superpose hc (unseparable_weights P f.info kernel n hodd hk hn hw hh)

theorem linear_weights (P : Profile) {svd : Svd ℝ} (hsvd : IsSvd svd) (info : ImageInfo) (kernel : List ℝ) (n : Nat)
    (hodd : n % 2 = 1) (hk : kernel.length = n * n) (hn : n < 65536)
    (hw : info.width + n ≤ 2147483648) (hh : info.height + n ≤ 2147483648) :
    WeightedSums (fun img => linearFilter svd P img kernel) info := by
  obtain ⟨n', m, w, X, Y, hX, hY, hf⟩ := unseparable_weights P info kernel n hodd hk hn hw hh
  refine ⟨n', m, w, X, Y, hX, hY, fun img hi he => ?_⟩
  subst he
  obtain ⟨out, e, s⟩ := hf img hi rfl
  exact ⟨out, by rw [← e]; exact (c46_linear_eq_unseparable P hsvd img hi kernel n hodd hn hk hw hh).2, s⟩

/-- **C91** `linear_filter` is linear (given a correct singular value decomposition) -/
theorem c91_linear_filter (P : Profile) {svd : Svd ℝ} (hsvd : IsSvd svd) {a b : ℝ} {f g h : Image ℝ} (hc : Combines a b f g h)
    (kernel : List ℝ) (n : Nat) (hodd : n % 2 = 1) (hk : kernel.length = n * n) (hn : n < 65536)
    (hw : f.info.width + n ≤ 2147483648) (hh : f.info.height + n ≤ 2147483648) :
    ∃ f' g' h', linearFilter svd P f kernel = .ok f' ∧ linearFilter svd P g kernel = .ok g' ∧
      linearFilter svd P h kernel = .ok h' ∧ Combines a b f' g' h' :=
  superpose hc (linear_weights P hsvd f.info kernel n hodd hk hn hw hh)

/-- **C91** the response is linear in the kernel too: filtering with `a * k + b * l` (entry by entry) -/
theorem c91_kernel (P : Profile) (img : Image ℝ) (h : img.WF) (a b : ℝ) (k l : List ℝ) (n : Nat)
    (hodd : n % 2 = 1) (hk : k.length = n * n) (hl : l.length = n * n) (hn : n < 65536)
    (hw : img.info.width + n ≤ 2147483648) (hh : img.info.height + n ≤ 2147483648) :
    ∃ ok ol okl, unseparableFilter P img k = .ok ok ∧ unseparableFilter P img l = .ok ol ∧
      unseparableFilter P img (List.zipWith (fun u v => a * u + b * v) k l) = .ok okl ∧ Combines a b ok ol okl := by
  have hz : (List.zipWith (fun u v => a * u + b * v) k l).length = n * n := by rw [List.length_zipWith, hk, hl, Nat.min_self]
  obtain ⟨o1, e1, s1⟩ := unseparable_real P img h k n hodd hk hn hw hh
  obtain ⟨o2, e2, s2⟩ := unseparable_real P img h l n hodd hl hn hw hh
  obtain ⟨o3, e3, s3⟩ := unseparable_real P img h _ n hodd hz hn hw hh
  refine ⟨o1, o2, o3, e1, e2, e3, s1.WF, s2.WF, s3.WF, by rw [s2.info_eq, s1.info_eq], by rw [s3.info_eq, s1.info_eq], ?_⟩
  rw [s1.info_eq]
  intro x y c hx hy hc
  rw [rchan_of_shows s1 hx hy hc, rchan_of_shows s2 hx hy hc, rchan_of_shows s3 hx hy hc,
    response2d_real _ _ _ _ _ _ hk, response2d_real _ _ _ _ _ _ hl, response2d_real _ _ _ _ _ _ hz, Finset.mul_sum, Finset.mul_sum,
    ← Finset.sum_add_distrib]
  apply Finset.sum_congr rfl; intro i hi
  rw [Finset.mul_sum, Finset.mul_sum, ← Finset.sum_add_distrib]
  apply Finset.sum_congr rfl; intro j hj
  have hij : i * n + j < n * n := by
    have h1 := Finset.mem_range.1 hi
    have h2 := Finset.mem_range.1 hj
    calc i * n + j < i * n + n := by omega
      _ = (i + 1) * n := by rw [Nat.succ_mul]
      _ ≤ n * n := Nat.mul_le_mul_right _ h1
  have : (List.zipWith (fun u v => a * u + b * v) k l).getD (i * n + j) 0 = a * k.getD (i * n + j) 0 + b * l.getD (i * n + j) 0 := by
    rw [List.getD_eq_getElem?_getD, List.getElem?_zipWith, List.getElem?_eq_getElem (by omega), List.getElem?_eq_getElem (by omega),
      List.getD_eq_getElem?_getD, List.getElem?_eq_getElem (by omega), List.getD_eq_getElem?_getD, List.getElem?_eq_getElem (by omega)]
    rfl
  rw [this]
  ring

/-- 2 * (1..6) + 3 * (6..1): a combination that meets the hypotheses -/
example (P : Profile) : ∃ f' g' h', unseparableFilter P (gray6 (1 : ℝ) 2 3 4 5 6) (List.replicate 9 1) = .ok f' ∧
    unseparableFilter P (gray6 (6 : ℝ) 5 4 3 2 1) (List.replicate 9 1) = .ok g' ∧
    unseparableFilter P (gray6 (20 : ℝ) 19 18 17 16 15) (List.replicate 9 1) = .ok h' ∧ Combines 2 3 f' g' h' := by
  have hc : Combines 2 3 (gray6 (1 : ℝ) 2 3 4 5 6) (gray6 (6 : ℝ) 5 4 3 2 1) (gray6 (20 : ℝ) 19 18 17 16 15) := by
    refine ⟨gray6_WF .., gray6_WF .., gray6_WF .., rfl, rfl, ?_⟩
    intro x y c hx hy hc
    change x < 3 at hx
    change y < 2 at hy
    change c < 1 at hc
    obtain rfl : c = 0 := by omega
    have : (x = 0 ∨ x = 1 ∨ x = 2) ∧ (y = 0 ∨ y = 1) := by omega
    rcases this with ⟨rfl | rfl | rfl, rfl | rfl⟩
    · show (20 : ℝ) = 2 * 1 + 3 * 6; norm_num
    · show (17 : ℝ) = 2 * 4 + 3 * 3; norm_num
    · show (19 : ℝ) = 2 * 2 + 3 * 5; norm_num
    · show (16 : ℝ) = 2 * 5 + 3 * 2; norm_num
    · show (18 : ℝ) = 2 * 3 + 3 * 4; norm_num
    · show (15 : ℝ) = 2 * 6 + 3 * 1; norm_num
  have hw : (gray6 (1 : ℝ) 2 3 4 5 6).info.width + 3 ≤ 2147483648 := by show 3 + 3 ≤ 2147483648; omega
  have hh : (gray6 (1 : ℝ) 2 3 4 5 6).info.height + 3 ≤ 2147483648 := by show 2 + 3 ≤ 2147483648; omega
  exact c91_unseparable P hc _ 3 (by decide) (by simp) (by decide) hw hh

section
variable {F : Type} [FloatOps F]

theorem kernelResponse_congr (kernel : List F) (c : Nat) : ∀ (ps qs : List (List F)), ps.length = qs.length →
    (∀ k, (ps.getD k []).getD c (num 0) = (qs.getD k []).getD c (num 0)) → kernelResponse kernel ps c = kernelResponse kernel qs c := by
  suffices H : ∀ (kernel : List F) (ps qs : List (List F)) (a : F), ps.length = qs.length →
      (∀ k, (ps.getD k []).getD c (num 0) = (qs.getD k []).getD c (num 0)) →
      (kernel.zip ps).foldl (fun acc e => acc +. e.1 *. e.2.getD c (num 0)) a =
      (kernel.zip qs).foldl (fun acc e => acc +. e.1 *. e.2.getD c (num 0)) a from fun ps qs h1 h2 => H kernel ps qs _ h1 h2
  intro kernel
  induction kernel with
  | nil => intro ps qs a _ _; rfl
  | cons k kernel ih =>
    intro ps qs a h1 h2
    match ps, qs, h1 with
    | [], [], _ => rfl
    | p :: ps, q :: qs, h1 =>
      have h0 := h2 0
      simp only [List.getD_cons_zero] at h0
      simp only [List.zip_cons_cons, List.foldl_cons]
      rw [h0]
      exact ih ps qs _ (by simpa using h1) fun k => by simpa using h2 (k + 1)

/-- **C91** (any arithmetic) the output pixel depends only on the `n x n` window: two images of the same shape that agree on
the pixels within `n / 2` of `(x, y)` have the same filtered pixel there -/
theorem c91_local (P : Profile) [Libm f32] (img img' : Image F32) (h : img.WF) (h' : img'.WF) (hi : img'.info = img.info)
    (kernel : List F32) (n : Nat) (hodd : n % 2 = 1) (hk : kernel.length = n * n) (hn : n ≤ 65535)
    (hw : img.info.width + n ≤ 2147483648) (hh : img.info.height + n ≤ 2147483648)
    (x y : Nat) (hx : x < img.info.width) (hy : y < img.info.height)
    (hagree : ∀ i j, i < img.info.width → j < img.info.height → i ≤ x + n / 2 → x ≤ i + n / 2 → j ≤ y + n / 2 → y ≤ j + n / 2 →
      img'.px i j = img.px i j) :
    ∃ out out', unseparableFilter P img kernel = .ok out ∧ unseparableFilter P img' kernel = .ok out' ∧
      out'.getPixel P x y = out.getPixel P x y := by
  obtain ⟨out, e, s⟩ := c47_unseparable_large_partial P img h kernel n hodd hk hn hw hh
  obtain ⟨out', e', s'⟩ := c47_unseparable_large_partial P img' h' kernel n hodd hk hn (by rw [hi]; exact hw) (by rw [hi]; exact hh)
  refine ⟨out, out', e, e', ?_⟩
  rw [s.2.2 P x y hx hy, s'.2.2 P x y (by rw [hi]; exact hx) (by rw [hi]; exact hy)]
  have : window2d img' x y n = window2d img x y n := by
    unfold window2d
    rw [hi]
    apply List.flatMap_congr
    intro i hi'
    apply List.map_congr_left
    intro j hj
    have h1 := List.mem_range.1 hi'
    have h2 := List.mem_range.1 hj
    apply hagree _ _ (padCoord_lt hx) (padCoord_lt hy)
    all_goals (unfold padCoord; split <;> omega)
  dsimp only
  rw [hi, this]

/-- **C91** (any arithmetic) each channel is filtered by itself: if two images agree on channel `c`, so do the outputs -/
theorem c91_channel [Libm f32] (P : Profile) (img img' : Image F32) (h : img.WF) (h' : img'.WF) (hi : img'.info = img.info)
    (kernel : List F32) (n : Nat) (hodd : n % 2 = 1) (hk : kernel.length = n * n) (hn : n ≤ 65535)
    (hw : img.info.width + n ≤ 2147483648) (hh : img.info.height + n ≤ 2147483648) (c : Nat)
    (hagree : ∀ x y, x < img.info.width → y < img.info.height → (img'.px x y)[c]? = (img.px x y)[c]?) :
    ∃ out out', unseparableFilter P img kernel = .ok out ∧ unseparableFilter P img' kernel = .ok out' ∧
      ∀ x y, x < img.info.width → y < img.info.height → (out'.px x y)[c]? = (out.px x y)[c]? := by
  obtain ⟨out, e, s⟩ := c47_unseparable_large_partial P img h kernel n hodd hk hn hw hh
  obtain ⟨out', e', s'⟩ := c47_unseparable_large_partial P img' h' kernel n hodd hk hn (by rw [hi]; exact hw) (by rw [hi]; exact hh)
  refine ⟨out, out', e, e', fun x y hx hy => ?_⟩
  rw [s.px_eq hx hy, s'.px_eq (by rw [hi]; exact hx) (by rw [hi]; exact hy), hi]
  by_cases hc : c < img.info.channels
  · rw [List.getElem?_map, List.getElem?_map, List.getElem?_range hc]
    simp only [Option.map_some]
    refine congrArg some (kernelResponse_congr kernel c _ _ ?_ fun k => ?_)
    · simp [window2d]
    · by_cases hkn : k < n * n
      · have hp : 0 < n := by omega
        have hk1 : k / n < n := Nat.div_lt_of_lt_mul hkn
        have hk2 : k % n < n := Nat.mod_lt _ hp
        have e1 := window2d_getD img x y n hk1 hk2
        have e2 := window2d_getD img' x y n hk1 hk2
        rw [Nat.div_add_mod'] at e1 e2
        rw [e1, e2, hi]
        have := hagree _ _ (padCoord_lt (o := (x : Int) - (n / 2 : Nat) + (k % n : Nat)) hx) (padCoord_lt (o := (y : Int) - (n / 2 : Nat) + (k / n : Nat)) hy)
        rw [List.getD_eq_getElem?_getD, this, ← List.getD_eq_getElem?_getD]
      · have l1 : (window2d img x y n).length = n * n := by simp [window2d]
        have l2 : (window2d img' x y n).length = n * n := by simp [window2d]
        rw [List.getD_eq_getElem?_getD (l := window2d img x y n), List.getElem?_eq_none (by omega),
          List.getD_eq_getElem?_getD (l := window2d img' x y n), List.getElem?_eq_none (by omega)]
  · rw [List.getElem?_eq_none (by simp; omega), List.getElem?_eq_none (by simp; omega)]
end

/-! ### C92 -/

/-- **Specification**: every value of channel `c` at a pixel of the image at most `r` away from `(x, y)` in each direction lies
between `lo` and `hi` -/
def WindowWithin (img : Image ℝ) (x y c r : Nat) (lo hi : ℝ) : Prop :=
  ∀ i j, i < img.info.width → j < img.info.height → i ≤ x + r → x ≤ i + r → j ≤ y + r → y ≤ j + r →
    lo ≤ img.rchan i j c ∧ img.rchan i j c ≤ hi

theorem WindowWithin.pad {img : Image ℝ} {x y c n : Nat} {lo hi : ℝ} (h : WindowWithin img x y c (n / 2) lo hi)
    (hx : x < img.info.width) (hy : y < img.info.height) {i j : Nat} (hi' : i < n) (hj : j < n) :
    lo ≤ img.rchan (padCoord img.info.width x ((x : Int) - (n / 2 : Nat) + j)) (padCoord img.info.height y ((y : Int) - (n / 2 : Nat) + i)) c ∧
    img.rchan (padCoord img.info.width x ((x : Int) - (n / 2 : Nat) + j)) (padCoord img.info.height y ((y : Int) - (n / 2 : Nat) + i)) c ≤ hi := by
  apply h _ _ (padCoord_lt hx) (padCoord_lt hy)
  all_goals (unfold padCoord; split <;> omega)

theorem sum_convex {n : Nat} (w v : Nat → Nat → ℝ) (lo hi : ℝ) (hw : ∀ i < n, ∀ j < n, 0 ≤ w i j)
    (h1 : ∑ i ∈ Finset.range n, ∑ j ∈ Finset.range n, w i j = 1) (hv : ∀ i < n, ∀ j < n, lo ≤ v i j ∧ v i j ≤ hi) :
    lo ≤ ∑ i ∈ Finset.range n, ∑ j ∈ Finset.range n, w i j * v i j ∧
      ∑ i ∈ Finset.range n, ∑ j ∈ Finset.range n, w i j * v i j ≤ hi := by
  constructor
  · calc lo = (∑ i ∈ Finset.range n, ∑ j ∈ Finset.range n, w i j) * lo := by rw [h1, one_mul]
      _ = ∑ i ∈ Finset.range n, ∑ j ∈ Finset.range n, w i j * lo := by
        rw [Finset.sum_mul]; exact Finset.sum_congr rfl fun i _ => Finset.sum_mul ..
      _ ≤ _ := Finset.sum_le_sum fun i hi => Finset.sum_le_sum fun j hj =>
        mul_le_mul_of_nonneg_left (hv i (Finset.mem_range.1 hi) j (Finset.mem_range.1 hj)).1
          (hw i (Finset.mem_range.1 hi) j (Finset.mem_range.1 hj))
  · calc _ ≤ ∑ i ∈ Finset.range n, ∑ j ∈ Finset.range n, w i j * hi := Finset.sum_le_sum fun i hi => Finset.sum_le_sum fun j hj =>
          mul_le_mul_of_nonneg_left (hv i (Finset.mem_range.1 hi) j (Finset.mem_range.1 hj)).2
            (hw i (Finset.mem_range.1 hi) j (Finset.mem_range.1 hj))
      _ = (∑ i ∈ Finset.range n, ∑ j ∈ Finset.range n, w i j) * hi := by
        rw [Finset.sum_mul]; exact (Finset.sum_congr rfl fun i _ => Finset.sum_mul ..).symm
      _ = hi := by rw [h1, one_mul]

theorem list_sum_getD (l : List ℝ) : l.sum = ∑ k ∈ Finset.range l.length, l.getD k 0 := by
  induction l with
  | nil => simp
  | cons a l ih => rw [List.sum_cons, ih, List.length_cons, Finset.sum_range_succ']; simp [add_comm]

/-- **C92** (exact arithmetic) a kernel of non-negative entries that sum to 1 averages: the filtered channel value of a pixel
lies between the smallest and the largest value of that channel in the window -/
theorem c92_averaging_kernel (P : Profile) (img : Image ℝ) (h : img.WF) (kernel : List ℝ) (n : Nat)
    (hodd : n % 2 = 1) (hk : kernel.length = n * n) (hn : n < 65536) (hpos : ∀ k ∈ kernel, 0 ≤ k) (hsum : kernel.sum = 1)
    (hw : img.info.width + n ≤ 2147483648) (hh : img.info.height + n ≤ 2147483648) :
    ∃ out, unseparableFilter P img kernel = .ok out ∧ out.info = img.info ∧ out.WF ∧
      ∀ x y c lo hi, x < img.info.width → y < img.info.height → c < img.info.channels →
        WindowWithin img x y c (n / 2) lo hi → lo ≤ out.rchan x y c ∧ out.rchan x y c ≤ hi := by
  obtain ⟨out, e, s⟩ := unseparable_real P img h kernel n hodd hk hn hw hh
  refine ⟨out, e, s.info_eq, s.WF, fun x y c lo hi hx hy hc hwin => ?_⟩
  rw [rchan_of_shows s hx hy hc, response2d_real _ _ _ _ _ _ hk]
  refine sum_convex (fun i j => kernel.getD (i * n + j) 0) (fun i j => img.rchan (padCoord img.info.width x ((x : Int) - (n / 2 : Nat) + j)) (padCoord img.info.height y ((y : Int) - (n / 2 : Nat) + i)) c) lo hi ?_ ?_
    fun i hi' j hj => hwin.pad hx hy hi' hj
  · intro i hi' j hj
    by_cases hlt : i * n + j < kernel.length
    · rw [List.getD_eq_getElem?_getD, List.getElem?_eq_getElem hlt]
      exact hpos _ (List.getElem_mem hlt)
    · rw [List.getD_eq_getElem?_getD, List.getElem?_eq_none (by omega)]; exact le_rfl
  · rw [← sum_range_mul n n fun k => kernel.getD k 0, ← hk, ← list_sum_getD, hsum]

/-- **C92** (exact arithmetic) `weighted_avg_filter` averages -/
theorem c92_weighted_avg (P : Profile) (img : Image ℝ) (h : img.WF) (size weight : Nat) (hodd : size % 2 = 1)
    (hs : size < 65536) (hpos : 0 < size * size - 1 + weight) (hsum : size * size - 1 + weight < U32SIZE)
    (hw : img.info.width + size ≤ 2147483648) (hh : img.info.height + size ≤ 2147483648) :
    ∃ out, weightedAvgFilter P img size weight = .ok out ∧ out.info = img.info ∧ out.WF ∧
      ∀ x y c lo hi, x < img.info.width → y < img.info.height → c < img.info.channels →
        WindowWithin img x y c (size / 2) lo hi → lo ≤ out.rchan x y c ∧ out.rchan x y c ≤ hi := by
  obtain ⟨k, ek, hlen, hone⟩ := c50_normalised P size weight hodd hs hpos hsum
  have hk0 : ∀ a ∈ k, 0 ≤ a := by
    rw [c50_kernel P size weight hodd hs hsum] at ek
    injection ek with ek
    subst ek
    intro a ha
    obtain ⟨i, -, rfl⟩ := List.mem_map.1 ha
    split
    · simp only [Ideal.ofNat_eq, Ideal.div_eq]; positivity
    · simp only [Ideal.ofNat_eq, Ideal.div_eq, Ideal.num_eq]; positivity
  obtain ⟨out, e, rest⟩ := c92_averaging_kernel P img h k size hodd hlen hs hk0 hone hw hh
  refine ⟨out, ?_, rest⟩
  unfold weightedAvgFilter
  have hodd' : checkOdd u32Num size = .ok () := checkOdd_u32_ok hodd
  rw [hodd', ok_bind, ek, ok_bind, e]

/-- **C92** (exact arithmetic) `box_filter` averages (over the window it really uses, `size² x size²`: see C49) -/
theorem c92_box (P : Profile) (img : Image ℝ) (h : img.WF) (size : Nat) (hodd : size % 2 = 1) (hs : size < 65536)
    (hw : img.info.width + size * size ≤ 2147483648) (hh : img.info.height + size * size ≤ 2147483648) :
    ∃ out, boxFilter P img size = .ok out ∧ out.info = img.info ∧ out.WF ∧
      ∀ x y c lo hi, x < img.info.width → y < img.info.height → c < img.info.channels →
        WindowWithin img x y c (size * size / 2) lo hi → lo ≤ out.rchan x y c ∧ out.rchan x y c ≤ hi := by
  obtain ⟨out, e, s⟩ := c49_exact P img h size hodd hs hw hh
  refine ⟨out, e, s.info_eq, s.WF, fun x y c lo hi hx hy hc hwin => ?_⟩
  rw [rchan_of_shows s hx hy hc]
  have hn : 0 < size * size := Nat.mul_pos (by omega) (by omega)
  have hn' : ((size * size : Nat) : ℝ) ≠ 0 := by exact_mod_cast hn.ne'
  have := sum_convex (n := size * size) (fun i j => 1 / (((size * size : Nat) : ℝ) * ((size * size : Nat) : ℝ))) (fun i j => img.rchan (padCoord img.info.width x ((x : Int) - ((size * size) / 2 : Nat) + j)) (padCoord img.info.height y ((y : Int) - ((size * size) / 2 : Nat) + i)) c) lo hi
    (fun i _ j _ => by positivity) (by
      rw [Finset.sum_const, Finset.sum_const, Finset.card_range, nsmul_eq_mul, nsmul_eq_mul]
      field_simp) fun i hi' j hj => hwin.pad hx hy hi' hj
  unfold boxMean
  simp only [← Finset.mul_sum] at this
  rw [div_eq_mul_inv, mul_comm, ← one_div]
  exact this

/-- **C92** `gaussian_blur` of an image of one colour multiplies it by the sum of the kernel entries (exact arithmetic, given a
correct singular value decomposition) -/
theorem c92_gaussian_constant (P : Profile) {svd : Svd ℝ} (hsvd : IsSvd svd) (img : Image ℝ) (h : img.WF) (size : Nat) (sigma : ℝ)
    (hodd : size % 2 = 1) (hs : size ≤ 46340)
    (hw : img.info.width + size ≤ 2147483648) (hh : img.info.height + size ≤ 2147483648)
    (v : Nat → ℝ) (hv : ∀ x y c, x < img.info.width → y < img.info.height → c < img.info.channels → img.rchan x y c = v c) :
    ∃ out, gaussianBlur svd P img size sigma = .ok out ∧ out.info = img.info ∧ out.WF ∧
      ∀ x y c, x < img.info.width → y < img.info.height → c < img.info.channels →
        out.rchan x y c = v c * ∑ i ∈ Finset.range size, ∑ j ∈ Finset.range size,
          1 / (2 * (FloatOps.pi : ℝ) * sigma ^ 2) * (FloatOps.e : ℝ) ^ (-(centreDist2 size i j : ℝ) / (2 * sigma ^ 2)) := by
  have hs2 : size * size < 2147483648 := by
    calc size * size ≤ 46340 * 46340 := Nat.mul_le_mul hs hs
      _ < _ := by decide
  obtain ⟨k, ek, hlen, hval⟩ := c43_gaussian (F := ℝ) P size sigma hodd hs2
  obtain ⟨⟨out, e⟩, heq⟩ := c46_linear_eq_unseparable P hsvd img h k size hodd (by omega) hlen hw hh
  obtain ⟨out', e', s⟩ := unseparable_real P img h k size hodd hlen (by omega) hw hh
  rw [heq, e'] at e
  injection e with e
  subst e
  refine ⟨out', by unfold gaussianBlur; rw [ek, ok_bind, heq, e'], s.info_eq, s.WF, fun x y c hx hy hc => ?_⟩
  rw [rchan_of_shows s hx hy hc, response2d_real _ _ _ _ _ _ hlen, Finset.mul_sum]
  apply Finset.sum_congr rfl; intro i hi
  rw [Finset.mul_sum]
  apply Finset.sum_congr rfl; intro j hj
  have := hv _ _ c (padCoord_lt (o := (x : Int) - (size / 2 : Nat) + j) hx) (padCoord_lt (o := (y : Int) - (size / 2 : Nat) + i) hy) hc
  unfold Image.rchan at this
  rw [this, List.getD_eq_getElem?_getD, hval i j (Finset.mem_range.1 hi) (Finset.mem_range.1 hj), mul_comm]
  simp only [Option.getD_some, Ideal.num_eq, Ideal.div_eq, Ideal.mul_eq, Ideal.pow_eq, Ideal.neg_eq, Ideal.ofInt_eq]
  push_cast
  rw [mul_assoc (2 * FloatOps.pi) sigma sigma, ← sq, mul_assoc 2 sigma sigma, ← sq]

theorem pi_real_bounds : (3 : ℝ) < FloatOps.pi ∧ (FloatOps.pi : ℝ) < 16 / 5 := by
  unfold FloatOps.pi
  rw [Ideal.lit_eq]
  constructor <;> (push_cast; norm_num)

theorem e_real_bounds : (2.718 : ℝ) < FloatOps.e ∧ (FloatOps.e : ℝ) < 2.719 := by
  unfold FloatOps.e
  rw [Ideal.lit_eq]
  constructor <;> (push_cast; norm_num)

theorem centreDist2_nonneg (size i j : Nat) : 0 ≤ centreDist2 size i j := by
  unfold centreDist2; positivity

/-- **C92** the Gaussian kernel is not normalised: whenever `size² ≤ 6 sigma²` the blur makes an image of one positive colour
strictly darker, and whenever `7 sigma² ≤ 1` strictly brighter -/
theorem c92_gaussian_not_averaging (P : Profile) {svd : Svd ℝ} (hsvd : IsSvd svd) (img : Image ℝ) (h : img.WF) (size : Nat) (sigma : ℝ)
    (hodd : size % 2 = 1) (hs : size ≤ 46340) (hsig : sigma ≠ 0)
    (hw : img.info.width + size ≤ 2147483648) (hh : img.info.height + size ≤ 2147483648)
    (v : Nat → ℝ) (hv : ∀ x y c, x < img.info.width → y < img.info.height → c < img.info.channels → img.rchan x y c = v c) :
    ∃ out, gaussianBlur svd P img size sigma = .ok out ∧
      ∀ x y c, x < img.info.width → y < img.info.height → c < img.info.channels → 0 < v c →
        ((size : ℝ) ^ 2 ≤ 6 * sigma ^ 2 → out.rchan x y c < v c) ∧ (7 * sigma ^ 2 ≤ 1 → v c < out.rchan x y c) := by
  obtain ⟨out, e, -, -, hval⟩ := c92_gaussian_constant P hsvd img h size sigma hodd hs hw hh v hv
  refine ⟨out, e, fun x y c hx hy hc hvc => ?_⟩
  rw [hval x y c hx hy hc]
  have hs2 : 0 < sigma ^ 2 := by positivity
  obtain ⟨p1, p2⟩ := pi_real_bounds
  obtain ⟨e1, e2⟩ := e_real_bounds
  have hpi : (0 : ℝ) < FloatOps.pi := by linarith
  have hterm : ∀ i j, 1 / (2 * (FloatOps.pi : ℝ) * sigma ^ 2) * (FloatOps.e : ℝ) ^ (-(centreDist2 size i j : ℝ) / (2 * sigma ^ 2)) ≤
      1 / (2 * (FloatOps.pi : ℝ) * sigma ^ 2) := by
    intro i j
    refine mul_le_of_le_one_right (by positivity) (Real.rpow_le_one_of_one_le_of_nonpos (by linarith) ?_)
    have : (0 : ℝ) ≤ (centreDist2 size i j : ℝ) := by exact_mod_cast centreDist2_nonneg size i j
    exact div_nonpos_of_nonpos_of_nonneg (by linarith) (by positivity)
  have hterm0 : ∀ i j, 0 ≤ 1 / (2 * (FloatOps.pi : ℝ) * sigma ^ 2) * (FloatOps.e : ℝ) ^ (-(centreDist2 size i j : ℝ) / (2 * sigma ^ 2)) := by
    intro i j
    have := Real.rpow_nonneg (show (0 : ℝ) ≤ FloatOps.e by linarith) (-(centreDist2 size i j : ℝ) / (2 * sigma ^ 2))
    positivity
  constructor
  · intro hlt
    apply mul_lt_of_lt_one_right hvc
    calc _ ≤ ∑ i ∈ Finset.range size, ∑ j ∈ Finset.range size, 1 / (2 * (FloatOps.pi : ℝ) * sigma ^ 2) :=
          Finset.sum_le_sum fun i _ => Finset.sum_le_sum fun j _ => hterm i j
      _ = (size : ℝ) ^ 2 / (2 * (FloatOps.pi : ℝ) * sigma ^ 2) := by
        rw [Finset.sum_const, Finset.sum_const, Finset.card_range, nsmul_eq_mul, nsmul_eq_mul]; ring
      _ < 1 := by
        rw [div_lt_one (by positivity)]
        nlinarith
  · intro hlt
    apply lt_mul_of_one_lt_right hvc
    have hm : (size - 1) / 2 < size := by omega
    have hc0 : centreDist2 size ((size - 1) / 2) ((size - 1) / 2) = 0 := by unfold centreDist2; ring
    calc (1 : ℝ) < 1 / (2 * (FloatOps.pi : ℝ) * sigma ^ 2) := by
          rw [lt_div_iff₀ (by positivity)]
          nlinarith
      _ = 1 / (2 * (FloatOps.pi : ℝ) * sigma ^ 2) *
          (FloatOps.e : ℝ) ^ (-(centreDist2 size ((size - 1) / 2) ((size - 1) / 2) : ℝ) / (2 * sigma ^ 2)) := by
        rw [hc0]; simp
      _ ≤ ∑ j ∈ Finset.range size, 1 / (2 * (FloatOps.pi : ℝ) * sigma ^ 2) *
          (FloatOps.e : ℝ) ^ (-(centreDist2 size ((size - 1) / 2) j : ℝ) / (2 * sigma ^ 2)) :=
        Finset.single_le_sum (f := fun j => 1 / (2 * (FloatOps.pi : ℝ) * sigma ^ 2) *
          (FloatOps.e : ℝ) ^ (-(centreDist2 size ((size - 1) / 2) j : ℝ) / (2 * sigma ^ 2))) (fun j _ => hterm0 _ j) (Finset.mem_range.2 hm)
      _ ≤ _ := Finset.single_le_sum (f := fun i => ∑ j ∈ Finset.range size, 1 / (2 * (FloatOps.pi : ℝ) * sigma ^ 2) *
          (FloatOps.e : ℝ) ^ (-(centreDist2 size i j : ℝ) / (2 * sigma ^ 2))) (fun i _ => Finset.sum_nonneg fun j _ => hterm0 i j) (Finset.mem_range.2 hm)

theorem e_rpow_half_lt : (FloatOps.e : ℝ) ^ (-(1 : ℝ) / 2) < 607 / 1000 := by
  obtain ⟨e1, e2⟩ := e_real_bounds
  have h0 : (0 : ℝ) < FloatOps.e := by linarith
  have hsq : ((FloatOps.e : ℝ) ^ (-(1 : ℝ) / 2)) ^ 2 = (FloatOps.e : ℝ)⁻¹ := by
    rw [← Real.rpow_natCast, ← Real.rpow_mul h0.le, ← Real.rpow_neg_one]; norm_num
  have hinv : (FloatOps.e : ℝ)⁻¹ < 368 / 1000 := by
    rw [inv_lt_comm₀ h0 (by norm_num)]; norm_num; linarith
  have hn := Real.rpow_nonneg h0.le (-(1 : ℝ) / 2)
  nlinarith

/-- **C92** for the usual 3 x 3 kernel with sigma = 1: a white image (255) comes back below 200 -/
theorem c92_violated (P : Profile) {svd : Svd ℝ} (hsvd : IsSvd svd) : ∃ out,
    gaussianBlur svd P (gray6 (255 : ℝ) 255 255 255 255 255) 3 1 = .ok out ∧
      ∀ x y, x < 3 → y < 2 → out.rchan x y 0 < 200 := by
  have hw : (gray6 (255 : ℝ) 255 255 255 255 255).info.width + 3 ≤ 2147483648 := by show 3 + 3 ≤ 2147483648; omega
  have hh : (gray6 (255 : ℝ) 255 255 255 255 255).info.height + 3 ≤ 2147483648 := by show 2 + 3 ≤ 2147483648; omega
  obtain ⟨out, e, -, -, hval⟩ := c92_gaussian_constant P hsvd (gray6 (255 : ℝ) 255 255 255 255 255) (gray6_WF ..) 3 1 (by decide)
    (by decide) hw hh (fun _ => 255) (by
      intro x y c hx hy hc
      change x < 3 at hx
      change y < 2 at hy
      change c < 1 at hc
      obtain rfl : c = 0 := by omega
      have : (x = 0 ∨ x = 1 ∨ x = 2) ∧ (y = 0 ∨ y = 1) := by omega
      rcases this with ⟨rfl | rfl | rfl, rfl | rfl⟩ <;> rfl)
  refine ⟨out, e, fun x y hx hy => ?_⟩
  rw [hval x y 0 hx hy (by show 0 < 1; omega)]
  obtain ⟨p1, p2⟩ := pi_real_bounds
  obtain ⟨e1, e2⟩ := e_real_bounds
  have h0 : (0 : ℝ) < FloatOps.e := by linarith
  have hinv : (FloatOps.e : ℝ)⁻¹ < 368 / 1000 := by
    rw [inv_lt_comm₀ h0 (by norm_num)]; norm_num; linarith
  have hhalf := e_rpow_half_lt
  have c00 : centreDist2 3 0 0 = 2 := by decide
  have c01 : centreDist2 3 0 1 = 1 := by decide
  have c02 : centreDist2 3 0 2 = 2 := by decide
  have c10 : centreDist2 3 1 0 = 1 := by decide
  have c11 : centreDist2 3 1 1 = 0 := by decide
  have c12 : centreDist2 3 1 2 = 1 := by decide
  have c20 : centreDist2 3 2 0 = 2 := by decide
  have c21 : centreDist2 3 2 1 = 1 := by decide
  have c22 : centreDist2 3 2 2 = 2 := by decide
  simp only [Finset.sum_range_succ, Finset.sum_range_zero, c00, c01, c02, c10, c11, c12, c20, c21, c22, zero_add, one_pow, mul_one]
  have g2 : (-((2 : ℤ) : ℝ) / 2) = -1 := by norm_num
  have g1 : (-((1 : ℤ) : ℝ) / 2) = -(1 : ℝ) / 2 := by norm_num
  have g0 : (-((0 : ℤ) : ℝ) / 2) = 0 := by norm_num
  rw [g2, g1, g0, Real.rpow_zero, Real.rpow_neg_one]
  have hp : 1 / (2 * (FloatOps.pi : ℝ)) < 0.15916 := by
    rw [div_lt_iff₀ (by positivity)]
    have : (3.1415 : ℝ) < FloatOps.pi := by
      unfold FloatOps.pi; rw [Ideal.lit_eq]; push_cast; norm_num
    linarith
  have hp0 : 0 < 1 / (2 * (FloatOps.pi : ℝ)) := by positivity
  generalize 1 / (2 * (FloatOps.pi : ℝ)) = q at hp hp0 ⊢
  have hhp := Real.rpow_nonneg h0.le (-(1 : ℝ) / 2)
  generalize (FloatOps.e : ℝ) ^ (-(1 : ℝ) / 2) = u at *
  generalize (FloatOps.e : ℝ)⁻¹ = t at *
  nlinarith [mul_lt_mul_of_pos_left hhalf hp0, mul_lt_mul_of_pos_left hinv hp0]

/-- the averaging filters on a concrete image: the corner of a ramp -/
example (P : Profile) : ∃ out, weightedAvgFilter P (gray6 (1 : ℝ) 2 3 4 5 6) 3 4 = .ok out ∧ 1 ≤ out.rchan 0 0 0 ∧ out.rchan 0 0 0 ≤ 5 := by
  have hw : (gray6 (1 : ℝ) 2 3 4 5 6).info.width + 3 ≤ 2147483648 := by show 3 + 3 ≤ 2147483648; omega
  have hh : (gray6 (1 : ℝ) 2 3 4 5 6).info.height + 3 ≤ 2147483648 := by show 2 + 3 ≤ 2147483648; omega
  obtain ⟨out, e, -, -, hval⟩ := c92_weighted_avg P _ (gray6_WF (1 : ℝ) 2 3 4 5 6) 3 4 (by decide) (by decide) (by decide) (by decide) hw hh
  refine ⟨out, e, hval 0 0 0 1 5 (by show 0 < 3; omega) (by show 0 < 2; omega) (by show 0 < 1; omega) ?_⟩
  intro i j hi hj h1 _ h2 _
  have : (i = 0 ∨ i = 1) ∧ (j = 0 ∨ j = 1) := by omega
  rcases this with ⟨rfl | rfl, rfl | rfl⟩
  · show (1 : ℝ) ≤ 1 ∧ (1 : ℝ) ≤ 5; norm_num
  · show (1 : ℝ) ≤ 4 ∧ (4 : ℝ) ≤ 5; norm_num
  · show (1 : ℝ) ≤ 2 ∧ (2 : ℝ) ≤ 5; norm_num
  · show (1 : ℝ) ≤ 5 ∧ (5 : ℝ) ≤ 5; norm_num

end Imgproc

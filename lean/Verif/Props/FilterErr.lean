import Verif.Proofs.ErrSum
import Verif.Props.Filter3
/-! Property C109: how far the f32 filters are from the exact padded correlation, for every finite kernel and image. -/
namespace Imgproc
open FloatOps

/-- spec: the padded correlation of an image of numbers with the `n x n` weights `m` -/
def ratResponse2d (info : ImageInfo) (m : Nat → Rat) (n : Nat) (v : Nat → Nat → Nat → Rat) (x y c : Nat) : Rat :=
  ∑ i ∈ Finset.range n, ∑ j ∈ Finset.range n, m (i * n + j) *
    v (padCoord info.width x ((x : Int) - (n / 2 : Nat) + j)) (padCoord info.height y ((y : Int) - (n / 2 : Nat) + i)) c

/-- spec: the padded 1-d correlation of an image of numbers with the weights `m` -/
def ratResponse1d (info : ImageInfo) (m : Nat → Rat) (n : Nat) (isVert : Bool) (v : Nat → Nat → Nat → Rat)
    (x y c : Nat) : Rat :=
  ∑ k ∈ Finset.range n, m k *
    (if isVert then v x (padCoord info.height y ((y : Int) - (n / 2 : Nat) + k)) c
      else v (padCoord info.width x ((x : Int) - (n / 2 : Nat) + k)) y c)

/-- spec: `out` has header `info` and channel `c` of pixel `(x, y)` is a number within `err x y c` of `val x y c`, as
observed through `get_pixel` -/
def Image.ShowsNear (out : Image F32) (info : ImageInfo) (val err : Nat → Nat → Nat → Rat) : Prop :=
  out.WF ∧ out.info = info ∧ ∀ (P : Profile) (x y : Nat), x < info.width → y < info.height →
    ∃ p : List F32, out.getPixel P x y = .ok p ∧ p.length = info.channels ∧
      ∀ c < info.channels, ∃ (r : F32) (a : Rat), p[c]? = some r ∧ r.Is a ∧ |a - val x y c| ≤ err x y c

theorem Image.Shows.near {out : Image F32} {info : ImageInfo} {f : Nat → Nat → List F32}
    {val err : Nat → Nat → Nat → Rat} (h : out.Shows info f)
    (hl : ∀ x y, x < info.width → y < info.height → (f x y).length = info.channels)
    (hv : ∀ x y c, x < info.width → y < info.height → c < info.channels →
      ∃ (r : F32) (a : Rat), (f x y)[c]? = some r ∧ r.Is a ∧ |a - val x y c| ≤ err x y c) : out.ShowsNear info val err :=
  ⟨h.1, h.2.1, fun P x y hx hy => ⟨f x y, h.2.2 P x y hx hy, hl x y hx hy, fun c hc => hv x y c hx hy hc⟩⟩

theorem Image.ShowsNear.mono {out : Image F32} {info : ImageInfo} {val err val' err' : Nat → Nat → Nat → Rat}
    (h : out.ShowsNear info val err)
    (he : ∀ x y c, x < info.width → y < info.height → c < info.channels → ∀ a, |a - val x y c| ≤ err x y c → |a - val' x y c| ≤ err' x y c) :
    out.ShowsNear info val' err' := by
  obtain ⟨hw, hi, hp⟩ := h
  refine ⟨hw, hi, fun P x y hx hy => ?_⟩
  obtain ⟨p, e, hl, hc⟩ := hp P x y hx hy
  refine ⟨p, e, hl, fun c hc' => ?_⟩
  obtain ⟨r, a, h1, h2, h3⟩ := hc c hc'
  exact ⟨r, a, h1, h2, he x y c hx hy hc' a h3⟩

/-- an image of numbers, with the numbers it shows -/
theorem Image.ShowsNear.values {out : Image F32} {info : ImageInfo} {val err : Nat → Nat → Nat → Rat}
    (h : out.ShowsNear info val err) : ∃ w : Nat → Nat → Nat → Rat, out.ShowsValues info w ∧
      ∀ x y c, x < info.width → y < info.height → c < info.channels → |w x y c - val x y c| ≤ err x y c := by
  obtain ⟨hw, hi, hp⟩ := h
  have key : ∀ x y c, x < info.width → y < info.height → c < info.channels →
      ∃ (r : F32) (a : Rat), (out.px x y)[c]? = some r ∧ r.Is a ∧ |a - val x y c| ≤ err x y c := by
    intro x y c hx hy hc
    obtain ⟨p, e, hl, hc'⟩ := hp .debug x y hx hy
    rw [Image.getPixel_eq _ hw (hi.symm ▸ hx) (hi.symm ▸ hy)] at e
    cases e
    exact hc' c hc
  classical
  refine ⟨fun x y c => if h : x < info.width ∧ y < info.height ∧ c < info.channels then
    Classical.choose (Classical.choose_spec (key x y c h.1 h.2.1 h.2.2)) else 0, ?_, ?_⟩
  · refine ⟨hw, hi, fun P x y hx hy => ⟨out.px x y, Image.getPixel_eq P hw (hi.symm ▸ hx) (hi.symm ▸ hy), ?_, fun c hc => ?_⟩⟩
    · rw [Image.px_length hw (hi.symm ▸ hx) (hi.symm ▸ hy), hi]
    · have := Classical.choose_spec (Classical.choose_spec (key x y c hx hy hc))
      exact ⟨_, this.1, by beta_reduce; rw [dif_pos ⟨hx, hy, hc⟩]; exact this.2.1⟩
  · intro x y c hx hy hc
    have := Classical.choose_spec (Classical.choose_spec (key x y c hx hy hc))
    beta_reduce; rw [dif_pos ⟨hx, hy, hc⟩]; exact this.2.2

theorem sum_range_mul_rat (m n : Nat) (f : Nat → Rat) :
    ∑ k ∈ Finset.range (m * n), f k = ∑ i ∈ Finset.range m, ∑ j ∈ Finset.range n, f (i * n + j) := by
  induction m with
  | zero => simp
  | succ m ih => rw [Nat.succ_mul, Finset.sum_range_add, ih, Finset.sum_range_succ]

theorem ratResponse1d_abs (info : ImageInfo) (m : Nat → Rat) (n : Nat) (isVert : Bool) (v : Nat → Nat → Nat → Rat) (x y c : Nat) :
    |ratResponse1d info m n isVert v x y c| ≤ ratResponse1d info (fun i => |m i|) n isVert (fun x y c => |v x y c|) x y c := by
  unfold ratResponse1d
  refine (Finset.abs_sum_le_sum_abs _ _).trans (le_of_eq (Finset.sum_congr rfl fun i _ => ?_))
  rw [abs_mul]
  cases isVert <;> rfl

theorem ratResponse1d_le {info : ImageInfo} {m : Nat → Rat} {n : Nat} {isVert : Bool} {v : Nat → Nat → Nat → Rat} {B : Rat}
    (hv : ∀ x y c, x < info.width → y < info.height → c < info.channels → |v x y c| ≤ B)
    {x y c : Nat} (hx : x < info.width) (hy : y < info.height) (hc : c < info.channels) :
    ratResponse1d info (fun i => |m i|) n isVert (fun x y c => |v x y c|) x y c ≤ (∑ i ∈ Finset.range n, |m i|) * B := by
  unfold ratResponse1d
  rw [Finset.sum_mul]
  apply Finset.sum_le_sum
  intro i _
  refine mul_le_mul_of_nonneg_left ?_ (abs_nonneg (m i))
  cases isVert
  · simp only [Bool.false_eq_true, if_false]; exact hv _ _ _ (padCoord_lt hx) hy hc
  · simp only [if_true]; exact hv _ _ _ hx (padCoord_lt hy) hc

theorem ratResponse2d_le {info : ImageInfo} {m : Nat → Rat} {n : Nat} {v : Nat → Nat → Nat → Rat} {B : Rat}
    (hv : ∀ x y c, x < info.width → y < info.height → c < info.channels → |v x y c| ≤ B)
    {x y c : Nat} (hx : x < info.width) (hy : y < info.height) (hc : c < info.channels) :
    ratResponse2d info (fun i => |m i|) n (fun x y c => |v x y c|) x y c ≤ (∑ i ∈ Finset.range (n * n), |m i|) * B := by
  unfold ratResponse2d
  rw [sum_range_mul_rat, Finset.sum_mul]
  apply Finset.sum_le_sum
  intro i _
  rw [Finset.sum_mul]
  apply Finset.sum_le_sum
  intro j _
  exact mul_le_mul_of_nonneg_left (hv _ _ _ (padCoord_lt hx) (padCoord_lt hy) hc) (abs_nonneg _)

theorem ratResponse_outer (info : ImageInfo) (m mv mh : Nat → Rat) (n : Nat) (v : Nat → Nat → Nat → Rat)
    (hm : ∀ i < n, ∀ j < n, m (i * n + j) = mv i * mh j) (x y c : Nat) :
    ratResponse1d info mh n false (ratResponse1d info mv n true v) x y c = ratResponse2d info m n v x y c := by
  unfold ratResponse1d ratResponse2d
  simp only [Bool.false_eq_true, if_false, if_true]
  simp only [Finset.mul_sum]
  rw [Finset.sum_comm]
  apply Finset.sum_congr rfl; intro i hi
  apply Finset.sum_congr rfl; intro j hj
  rw [hm i (Finset.mem_range.1 hi) j (Finset.mem_range.1 hj)]
  ring

section
variable [Libm f32]

/-- one pixel of `filter_1d` -/
theorem window1d_err {img : Image F32} {v : Nat → Nat → Nat → Rat} (h : img.ShowsValues img.info v)
    (kernel : List F32) (isVert : Bool) (m : Nat → Rat) (hn : kernel.length < 2 ^ 23)
    (hm : ∀ i < kernel.length, (kernel.getD i (num 0)).Is (m i)) {x y c : Nat}
    (hx : x < img.info.width) (hy : y < img.info.height) (hc : c < img.info.channels)
    (hb : ratResponse1d img.info (fun i => |m i|) kernel.length isVert (fun x y c => |v x y c|) x y c ≤ 2 ^ 97) :
    ∃ a, (kernelResponse kernel (window1d img x y kernel.length isVert) c).Is a ∧
      |a - ratResponse1d img.info m kernel.length isVert v x y c| ≤
        (kernel.length + 1) / 2 ^ 23 *
          ratResponse1d img.info (fun i => |m i|) kernel.length isVert (fun x y c => |v x y c|) x y c + kernel.length / 2 ^ 147 := by
  have key : ∑ i ∈ Finset.range kernel.length, |m i * (if isVert then v x (padCoord img.info.height y ((y : Int) - (kernel.length / 2 : Nat) + i)) c
      else v (padCoord img.info.width x ((x : Int) - (kernel.length / 2 : Nat) + i)) y c)| =
      ratResponse1d img.info (fun i => |m i|) kernel.length isVert (fun x y c => |v x y c|) x y c := by
    unfold ratResponse1d
    refine Finset.sum_congr rfl fun i _ => ?_
    rw [abs_mul]; cases isVert <;> rfl
  have := response_err (kernel := kernel) (pixels := window1d img x y kernel.length isVert) (c := c) m
    (fun k => if isVert then v x (padCoord img.info.height y ((y : Int) - (kernel.length / 2 : Nat) + k)) c
      else v (padCoord img.info.width x ((x : Int) - (kernel.length / 2 : Nat) + k)) y c)
    (by rw [window1d_length]) hn hm
    (by
      intro i hi
      rw [window1d_getD _ _ _ _ _ hi]
      cases isVert
      · simp only [Bool.false_eq_true, if_false]; exact h.px (padCoord_lt hx) hy hc _
      · simp only [if_true]; exact h.px hx (padCoord_lt hy) hc _)
    (by rw [key]; exact hb)
  rw [key] at this
  exact this

/-- **C109** `filter_1d` on finite f32 numbers: every output channel is a finite number that differs from the exact padded
correlation by at most `(n + 1) / 2^23` of the correlation of the absolute values, plus `n / 2^147` for underflow. -/
theorem c109_filter_1d (P : Profile) {img : Image F32} {v : Nat → Nat → Nat → Rat} (h : img.ShowsValues img.info v)
    (kernel : List F32) (isVert : Bool) (m : Nat → Rat) (hodd : kernel.length % 2 = 1) (hn : kernel.length < 2 ^ 23)
    (hm : ∀ i < kernel.length, (kernel.getD i (num 0)).Is (m i))
    (hb : ∀ x y c, x < img.info.width → y < img.info.height → c < img.info.channels →
      ratResponse1d img.info (fun i => |m i|) kernel.length isVert (fun x y c => |v x y c|) x y c ≤ 2 ^ 97)
    (hw : img.info.width + kernel.length ≤ 2147483648) (hh : img.info.height + kernel.length ≤ 2147483648) :
    ∃ out, filter1d P img kernel isVert = .ok out ∧
      out.ShowsNear img.info (ratResponse1d img.info m kernel.length isVert v) fun x y c =>
        (kernel.length + 1) / 2 ^ 23 *
          ratResponse1d img.info (fun i => |m i|) kernel.length isVert (fun x y c => |v x y c|) x y c + kernel.length / 2 ^ 147 := by
  obtain ⟨out, e, hs⟩ := c47_filter_1d_partial P img h.1 kernel isVert hodd hw hh
  refine ⟨out, e, hs.near (fun x y _ _ => by simp) fun x y c hx hy hc => ?_⟩
  obtain ⟨a, ha, he⟩ := window1d_err h kernel isVert m hn hm hx hy hc (hb x y c hx hy hc)
  exact ⟨_, a, by rw [List.getElem?_map, List.getElem?_range hc]; rfl, ha, he⟩

/-- **C109** `unseparable_filter` on finite f32 numbers, kernels of up to 8388608 entries -/
theorem c109_unseparable (P : Profile) {img : Image F32} {v : Nat → Nat → Nat → Rat} (h : img.ShowsValues img.info v)
    (kernel : List F32) (n : Nat) (m : Nat → Rat) (hodd : n % 2 = 1) (hk : kernel.length = n * n) (hn : n * n < 2 ^ 23)
    (hm : ∀ i < kernel.length, (kernel.getD i (num 0)).Is (m i))
    (hb : ∀ x y c, x < img.info.width → y < img.info.height → c < img.info.channels →
      ratResponse2d img.info (fun i => |m i|) n (fun x y c => |v x y c|) x y c ≤ 2 ^ 97)
    (hw : img.info.width + n ≤ 2147483648) (hh : img.info.height + n ≤ 2147483648) :
    ∃ out, unseparableFilter P img kernel = .ok out ∧
      out.ShowsNear img.info (ratResponse2d img.info m n v) fun x y c =>
        (n * n + 1) / 2 ^ 23 * ratResponse2d img.info (fun i => |m i|) n (fun x y c => |v x y c|) x y c + n * n / 2 ^ 147 := by
  have hn' : n ≤ 65535 := by by_contra h'; have : 65536 * 65536 ≤ n * n := Nat.mul_le_mul (by omega) (by omega); omega
  obtain ⟨out, e, hs⟩ := c47_unseparable_large_partial P img h.1 kernel n hodd hk hn' hw hh
  refine ⟨out, e, hs.near (fun x y _ _ => by simp) fun x y c hx hy hc => ?_⟩
  have hdm : ∀ i < n * n, i / n < n ∧ i % n < n := by
    intro i hi
    exact ⟨Nat.div_lt_of_lt_mul hi, Nat.mod_lt _ (by omega)⟩
  have dm : ∀ i j, j < n → (i * n + j) / n = i ∧ (i * n + j) % n = j := by
    intro i j hj
    constructor
    · rw [Nat.mul_comm, Nat.mul_add_div (by omega), Nat.div_eq_of_lt hj, Nat.add_zero]
    · rw [Nat.mul_comm, Nat.mul_add_mod, Nat.mod_eq_of_lt hj]
  set w : Nat → Rat := fun i => v (padCoord img.info.width x ((x : Int) - (n / 2 : Nat) + (i % n : Nat)))
      (padCoord img.info.height y ((y : Int) - (n / 2 : Nat) + (i / n : Nat))) c with hwd
  have key1 : ∑ i ∈ Finset.range kernel.length, m i * w i = ratResponse2d img.info m n v x y c := by
    rw [hk, sum_range_mul_rat]
    unfold ratResponse2d
    apply Finset.sum_congr rfl; intro i _
    apply Finset.sum_congr rfl; intro j hj
    obtain ⟨d1, d2⟩ := dm i j (Finset.mem_range.1 hj)
    rw [hwd]; simp only [d1, d2]
  have key2 : ∑ i ∈ Finset.range kernel.length, |m i * w i| =
      ratResponse2d img.info (fun i => |m i|) n (fun x y c => |v x y c|) x y c := by
    rw [hk, sum_range_mul_rat]
    unfold ratResponse2d
    apply Finset.sum_congr rfl; intro i _
    apply Finset.sum_congr rfl; intro j hj
    obtain ⟨d1, d2⟩ := dm i j (Finset.mem_range.1 hj)
    rw [hwd, abs_mul]; simp only [d1, d2]
  obtain ⟨a, ha, he⟩ := response_err (kernel := kernel) (pixels := window2d img x y n) (c := c) m w
    (by rw [window2d_length, hk]) (by rw [hk]; exact hn) hm
    (by
      intro i hi
      rw [hk] at hi
      have e : i = i / n * n + i % n := by rw [Nat.mul_comm]; exact (Nat.div_add_mod i n).symm
      rw [show (window2d img x y n).getD i [] = (window2d img x y n).getD (i / n * n + i % n) [] by rw [← e],
        window2d_getD _ _ _ _ (hdm i hi).1 (hdm i hi).2]
      exact h.px (padCoord_lt hx) (padCoord_lt hy) hc _)
    (by rw [key2]; exact hb x y c hx hy hc)
  rw [key1, key2, hk] at he
  refine ⟨kernelResponse kernel (window2d img x y n) c, a, by rw [List.getElem?_map, List.getElem?_range hc]; rfl, ha, ?_⟩
  push_cast at he
  exact he

omit [Libm f32] in
theorem separable_err_arith {V H B ε δ e1 e2 : Rat} (hV : 0 ≤ V) (hH : 0 ≤ H) (hB : 0 ≤ B) (hε0 : 0 ≤ ε) (hε : ε ≤ 1) (hδ : 0 ≤ δ)
    (h1 : e1 ≤ ε * (V * B) + δ) (h2 : e2 ≤ ε * (H * (V * B + e1)) + δ) : e2 + H * e1 ≤ 3 * ε * (V * H * B) + (1 + 2 * H) * δ := by
  have a0 : 0 ≤ V * B := mul_nonneg hV hB
  have a1 : H * e1 ≤ H * (ε * (V * B) + δ) := mul_le_mul_of_nonneg_left h1 hH
  have a2 : ε * (H * (V * B + e1)) ≤ ε * (H * (V * B + (ε * (V * B) + δ))) :=
    mul_le_mul_of_nonneg_left (mul_le_mul_of_nonneg_left (by linarith) hH) hε0
  have a3 : ε * (ε * (H * (V * B))) ≤ 1 * (ε * (H * (V * B))) :=
    mul_le_mul_of_nonneg_right hε (mul_nonneg hε0 (mul_nonneg hH a0))
  have a4 : ε * (H * δ) ≤ 1 * (H * δ) := mul_le_mul_of_nonneg_right hε (mul_nonneg hH hδ)
  nlinarith

/-- **C109** `separable_filter` on finite f32 numbers at most `B` in size: the result is within
`3 (n + 1) / 2^23 · Σ|vert| · Σ|horz| · B` (plus underflow) of the exact two-dimensional padded correlation with the outer
product of the kernels. -/
theorem c109_separable (P : Profile) {img : Image F32} {v : Nat → Nat → Nat → Rat} (h : img.ShowsValues img.info v)
    (vert horz : List F32) (mv mh : Nat → Rat) (B : Rat) (hodd : vert.length % 2 = 1) (heq : vert.length = horz.length)
    (hn : vert.length < 2 ^ 23)
    (hmv : ∀ i < vert.length, (vert.getD i (num 0)).Is (mv i)) (hmh : ∀ i < horz.length, (horz.getD i (num 0)).Is (mh i))
    (hB0 : 0 ≤ B) (hv : ∀ x y c, x < img.info.width → y < img.info.height → c < img.info.channels → |v x y c| ≤ B)
    (hb1 : (∑ i ∈ Finset.range vert.length, |mv i|) * B ≤ 2 ^ 90)
    (hb2 : (∑ i ∈ Finset.range vert.length, |mh i|) * ((∑ i ∈ Finset.range vert.length, |mv i|) * B) ≤ 2 ^ 90)
    (hb3 : ∑ i ∈ Finset.range vert.length, |mh i| ≤ 2 ^ 90)
    (hw : img.info.width + vert.length ≤ 2147483648) (hh : img.info.height + vert.length ≤ 2147483648) :
    ∃ out, separableFilter P img vert horz = .ok out ∧
      out.ShowsNear img.info (ratResponse2d img.info (fun k => mv (k / vert.length) * mh (k % vert.length)) vert.length v) fun _ _ _ =>
        3 * ((vert.length + 1) / 2 ^ 23) *
          ((∑ i ∈ Finset.range vert.length, |mv i|) * (∑ i ∈ Finset.range vert.length, |mh i|) * B) +
        (1 + 2 * ∑ i ∈ Finset.range vert.length, |mh i|) * (vert.length / 2 ^ 147) := by
  set V := ∑ i ∈ Finset.range vert.length, |mv i| with hV
  set H := ∑ i ∈ Finset.range vert.length, |mh i| with hH
  have V0 : 0 ≤ V := Finset.sum_nonneg fun _ _ => abs_nonneg _
  have H0 : 0 ≤ H := Finset.sum_nonneg fun _ _ => abs_nonneg _
  set ε : Rat := (vert.length + 1) / 2 ^ 23 with hε
  set δ : Rat := vert.length / 2 ^ 147 with hδ
  have ε0 : 0 ≤ ε := by positivity
  have ε1 : ε ≤ 1 := by
    rw [hε, div_le_one (by norm_num)]; exact_mod_cast (by omega : vert.length + 1 ≤ 2 ^ 23)
  have δ0 : 0 ≤ δ := by positivity
  have δ1 : δ ≤ 1 := by
    rw [hδ, div_le_one (by norm_num)]
    have : (vert.length : Rat) ≤ 2 ^ 23 := by exact_mod_cast hn.le
    exact le_trans this (by norm_num)
  obtain ⟨mid, out, e, hm, ho⟩ := c47_separable_partial P img h.1 vert horz hodd heq hw hh
  have hi : mid.info = img.info := hm.info_eq
  have VB0 : 0 ≤ V * B := mul_nonneg V0 hB0
  have hmid : mid.ShowsNear img.info (ratResponse1d img.info mv vert.length true v) fun _ _ _ => ε * (V * B) + δ := by
    refine hm.near (fun x y _ _ => by simp) fun x y c hx hy hc => ?_
    have hle := ratResponse1d_le (m := mv) (n := vert.length) (isVert := true) hv hx hy hc
    obtain ⟨a, ha, he⟩ := window1d_err h vert true mv hn hmv hx hy hc (le_trans hle (le_trans hb1 (by norm_num)))
    refine ⟨_, a, by rw [List.getElem?_map, List.getElem?_range hc]; rfl, ha, le_trans he ?_⟩
    have := mul_le_mul_of_nonneg_left hle ε0
    rw [hε, hδ] at *
    linarith
  obtain ⟨w, hws, hwe⟩ := hmid.values
  refine ⟨out, e, ho.near (fun x y _ _ => by simp) fun x y c hx hy hc => ?_⟩
  set e1 := ε * (V * B) + δ with he1
  have hr : ∀ x y c, x < img.info.width → y < img.info.height → c < img.info.channels → |w x y c| ≤ V * B + e1 := by
    intro x y c hx hy hc
    have t1 := hwe x y c hx hy hc
    have t2 := le_trans (ratResponse1d_abs img.info mv vert.length true v x y c) (ratResponse1d_le (m := mv) (n := vert.length) (isVert := true) hv hx hy hc)
    have := abs_add_le (w x y c - ratResponse1d img.info mv vert.length true v x y c) (ratResponse1d img.info mv vert.length true v x y c)
    rw [sub_add_cancel] at this
    linarith
  have hle := ratResponse1d_le (m := mh) (n := horz.length) (isVert := false) hr hx hy hc
  rw [← heq, ← hH] at hle
  have e1B : e1 ≤ V * B + 1 := by
    have := mul_le_mul_of_nonneg_right ε1 VB0
    linarith
  have hbig : H * (V * B + e1) ≤ 2 ^ 97 := by
    have : H * (V * B + e1) ≤ H * (V * B + (V * B + 1)) := mul_le_mul_of_nonneg_left (by linarith) H0
    have : H * (V * B + (V * B + 1)) = H * (V * B) + H * (V * B) + H := by ring
    have : (2 : Rat) ^ 90 + 2 ^ 90 + 2 ^ 90 ≤ 2 ^ 97 := by norm_num
    linarith
  have := window1d_err (img := mid) (v := w) (by rw [hi]; exact hws) horz false mh (by omega) hmh
    (x := x) (y := y) (c := c) (by rw [hi]; exact hx) (by rw [hi]; exact hy) (by rw [hi]; exact hc)
    (by rw [hi, ← heq]; exact le_trans hle hbig)
  rw [hi, ← heq] at this
  obtain ⟨a, ha, he⟩ := this
  rw [← heq]
  refine ⟨_, a, by rw [List.getElem?_map, List.getElem?_range hc]; rfl, ha, ?_⟩
  have hdiff : |ratResponse1d img.info mh vert.length false w x y c -
      ratResponse1d img.info mh vert.length false (ratResponse1d img.info mv vert.length true v) x y c| ≤ H * e1 := by
    unfold ratResponse1d
    rw [← Finset.sum_sub_distrib, hH, Finset.sum_mul]
    refine (Finset.abs_sum_le_sum_abs _ _).trans (Finset.sum_le_sum fun i _ => ?_)
    rw [← mul_sub, abs_mul]
    refine mul_le_mul_of_nonneg_left ?_ (abs_nonneg _)
    simp only [Bool.false_eq_true, if_false]
    exact hwe _ _ _ (padCoord_lt hx) hy hc
  have houter := ratResponse_outer img.info (fun k => mv (k / vert.length) * mh (k % vert.length)) mv mh vert.length v
    (fun i hi j hj => by
      have d1 : (i * vert.length + j) / vert.length = i := by
        rw [Nat.mul_comm, Nat.mul_add_div (by omega), Nat.div_eq_of_lt hj, Nat.add_zero]
      have d2 : (i * vert.length + j) % vert.length = j := by
        rw [Nat.mul_comm, Nat.mul_add_mod, Nat.mod_eq_of_lt hj]
      simp only [d1, d2]) x y c
  rw [houter] at hdiff
  have tri := abs_add_le (a - ratResponse1d img.info mh vert.length false w x y c)
    (ratResponse1d img.info mh vert.length false w x y c -
      ratResponse2d img.info (fun k => mv (k / vert.length) * mh (k % vert.length)) vert.length v x y c)
  rw [sub_add_sub_cancel] at tri
  have hl2 : ε * ratResponse1d img.info (fun i => |mh i|) vert.length false (fun x y c => |w x y c|) x y c ≤ ε * (H * (V * B + e1)) :=
    mul_le_mul_of_nonneg_left hle ε0
  have := separable_err_arith V0 H0 hB0 ε0 ε1 δ0 (e1 := e1) (e2 := ε * (H * (V * B + e1)) + δ) le_rfl le_rfl
  rw [← hε, ← hδ] at he
  linarith
end
end Imgproc

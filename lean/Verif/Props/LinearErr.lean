import Verif.Props.FilterErr2
/-! Property C121: superposition in f32, up to rounding. -/
namespace Imgproc
open FloatOps

/-- the padded correlation is linear in the image -/
theorem ratResponse2d_lin (info : ImageInfo) (m : Nat → Rat) (n : Nat) (u v : Nat → Nat → Nat → Rat) (α β : Rat) (x y c : Nat) :
    ratResponse2d info m n (fun x y c => α * u x y c + β * v x y c) x y c =
      α * ratResponse2d info m n u x y c + β * ratResponse2d info m n v x y c := by
  unfold ratResponse2d
  rw [Finset.mul_sum, Finset.mul_sum, ← Finset.sum_add_distrib]
  refine Finset.sum_congr rfl fun i _ => ?_
  rw [Finset.mul_sum, Finset.mul_sum, ← Finset.sum_add_distrib]
  exact Finset.sum_congr rfl fun j _ => by ring

theorem ratResponse1d_lin (info : ImageInfo) (m : Nat → Rat) (n : Nat) (isVert : Bool) (u v : Nat → Nat → Nat → Rat) (α β : Rat) (x y c : Nat) :
    ratResponse1d info m n isVert (fun x y c => α * u x y c + β * v x y c) x y c =
      α * ratResponse1d info m n isVert u x y c + β * ratResponse1d info m n isVert v x y c := by
  unfold ratResponse1d
  rw [Finset.mul_sum, Finset.mul_sum, ← Finset.sum_add_distrib]
  exact Finset.sum_congr rfl fun j _ => by split <;> ring

/-- three values, each near a response, and a linear relation between the responses -/
theorem lin_close {α β a b c A B C e : Rat} (ha : |a - A| ≤ e) (hb : |b - B| ≤ e) (hc : |c - C| ≤ e) (h : C = α * A + β * B) :
    |c - (α * a + β * b)| ≤ (1 + |α| + |β|) * e := by
  have : c - (α * a + β * b) = (c - C) - α * (a - A) - β * (b - B) := by rw [h]; ring
  rw [this]
  have h1 := abs_sub ((c - C) - α * (a - A)) (β * (b - B))
  have h2 := abs_sub (c - C) (α * (a - A))
  rw [abs_mul] at h1 h2
  have h3 := mul_le_mul_of_nonneg_left ha (abs_nonneg α)
  have h4 := mul_le_mul_of_nonneg_left hb (abs_nonneg β)
  linarith

/-- spec: three f32 images of one shape; the numbers in the third are `α` times those of the first plus `β` times those of the second,
and no number exceeds `B` -/
structure Combines32 (α β B : Rat) (f g h : Image F32) (u v : Nat → Nat → Nat → Rat) : Prop where
  ig : g.info = f.info
  ih : h.info = f.info
  vf : f.ShowsValues f.info u
  vg : g.ShowsValues f.info v
  vh : h.ShowsValues f.info fun x y c => α * u x y c + β * v x y c
  bf : ∀ x y c, x < f.info.width → y < f.info.height → c < f.info.channels → |u x y c| ≤ B
  bg : ∀ x y c, x < f.info.width → y < f.info.height → c < f.info.channels → |v x y c| ≤ B
  bh : ∀ x y c, x < f.info.width → y < f.info.height → c < f.info.channels → |α * u x y c + β * v x y c| ≤ B

theorem padded_sum_le {info : ImageInfo} {m : Nat → Rat} {n : Nat} {v : Nat → Nat → Nat → Rat} {B : Rat}
    (hv : ∀ x y c, x < info.width → y < info.height → c < info.channels → |v x y c| ≤ B) {x y c : Nat}
    (hx : x < info.width) (hy : y < info.height) (hc : c < info.channels) :
    ratResponse2d info (fun i => |m i|) n (fun x y c => |v x y c|) x y c ≤ (∑ k ∈ Finset.range (n * n), |m k|) * B := by
  unfold ratResponse2d
  rw [sum_range_mul_rat, Finset.sum_mul]
  refine Finset.sum_le_sum fun i _ => ?_
  rw [Finset.sum_mul]
  exact Finset.sum_le_sum fun j _ => mul_le_mul_of_nonneg_left (hv _ _ _ (padCoord_lt hx) (padCoord_lt hy) hc) (abs_nonneg _)

theorem padded_sum1_le {info : ImageInfo} {m : Nat → Rat} {n : Nat} {isVert : Bool} {v : Nat → Nat → Nat → Rat} {B : Rat}
    (hv : ∀ x y c, x < info.width → y < info.height → c < info.channels → |v x y c| ≤ B) {x y c : Nat}
    (hx : x < info.width) (hy : y < info.height) (hc : c < info.channels) :
    ratResponse1d info (fun i => |m i|) n isVert (fun x y c => |v x y c|) x y c ≤ (∑ k ∈ Finset.range n, |m k|) * B := by
  unfold ratResponse1d
  rw [Finset.sum_mul]
  refine Finset.sum_le_sum fun i _ => mul_le_mul_of_nonneg_left ?_ (abs_nonneg _)
  split
  · exact hv _ _ _ hx (padCoord_lt hy) hc
  · exact hv _ _ _ (padCoord_lt hx) hy hc

section
variable [Libm f32]

/-- **C121** `unseparable_filter` in f32 obeys superposition up to rounding: if `h = α f + β g` then the filtered `h` is `α` times the
filtered `f` plus `β` times the filtered `g`, up to `(1 + |α| + |β|) ((n² + 1) / 2^23 Σ|kernel| B + n² / 2^147)`. -/
theorem c121_unseparable (P : Profile) {α β B : Rat} {f g h : Image F32} {u v : Nat → Nat → Nat → Rat} (hc : Combines32 α β B f g h u v)
    (kernel : List F32) (n : Nat) (m : Nat → Rat) (hodd : n % 2 = 1) (hk : kernel.length = n * n) (hn : n * n < 2 ^ 23)
    (hm : ∀ i < kernel.length, (kernel.getD i (num 0)).Is (m i)) (hb : (∑ k ∈ Finset.range (n * n), |m k|) * B ≤ 2 ^ 97)
    (hw : f.info.width + n ≤ 2147483648) (hh : f.info.height + n ≤ 2147483648) :
    ∃ f' g' h' a b c, unseparableFilter P f kernel = .ok f' ∧ unseparableFilter P g kernel = .ok g' ∧ unseparableFilter P h kernel = .ok h' ∧
      f'.ShowsValues f.info a ∧ g'.ShowsValues f.info b ∧ h'.ShowsValues f.info c ∧
      ∀ x y k, x < f.info.width → y < f.info.height → k < f.info.channels → |c x y k - (α * a x y k + β * b x y k)| ≤
        (1 + |α| + |β|) * ((n * n + 1) / 2 ^ 23 * ((∑ k ∈ Finset.range (n * n), |m k|) * B) + n * n / 2 ^ 147) := by
  have one : ∀ {i : Image F32} {w : Nat → Nat → Nat → Rat}, i.info = f.info → i.ShowsValues f.info w →
      (∀ x y c, x < f.info.width → y < f.info.height → c < f.info.channels → |w x y c| ≤ B) →
      ∃ o a, unseparableFilter P i kernel = .ok o ∧ o.ShowsValues f.info a ∧
        ∀ x y k, x < f.info.width → y < f.info.height → k < f.info.channels → |a x y k - ratResponse2d f.info m n w x y k| ≤
          (n * n + 1) / 2 ^ 23 * ((∑ k ∈ Finset.range (n * n), |m k|) * B) + n * n / 2 ^ 147 := by
    intro i w hi hv hB
    obtain ⟨o, e, s⟩ := c109_unseparable P (img := i) (v := w) (hi ▸ hv) kernel n m hodd hk hn hm
      (fun x y c hx hy hc => by rw [hi] at hx hy hc ⊢; exact (padded_sum_le hB hx hy hc).trans hb) (hi ▸ hw) (hi ▸ hh)
    rw [hi] at s
    obtain ⟨a, sa, ea⟩ := s.values
    refine ⟨o, a, e, sa, fun x y k hx hy hk => (ea x y k hx hy hk).trans ?_⟩
    have := mul_le_mul_of_nonneg_left (padded_sum_le (m := m) (n := n) hB hx hy hk) (show (0 : Rat) ≤ (n * n + 1) / 2 ^ 23 by positivity)
    linarith
  obtain ⟨f', a, e1, s1, h1⟩ := one rfl hc.vf hc.bf
  obtain ⟨g', b, e2, s2, h2⟩ := one hc.ig hc.vg hc.bg
  obtain ⟨h', c, e3, s3, h3⟩ := one hc.ih hc.vh hc.bh
  exact ⟨f', g', h', a, b, c, e1, e2, e3, s1, s2, s3, fun x y k hx hy hk =>
    lin_close (h1 x y k hx hy hk) (h2 x y k hx hy hk) (h3 x y k hx hy hk) (ratResponse2d_lin ..)⟩

/-- **C121** `filter_1d` in f32, in either direction -/
theorem c121_filter_1d (P : Profile) {α β B : Rat} {f g h : Image F32} {u v : Nat → Nat → Nat → Rat} (hc : Combines32 α β B f g h u v)
    (kernel : List F32) (isVert : Bool) (m : Nat → Rat) (hodd : kernel.length % 2 = 1) (hn : kernel.length < 2 ^ 23)
    (hm : ∀ i < kernel.length, (kernel.getD i (num 0)).Is (m i)) (hb : (∑ k ∈ Finset.range kernel.length, |m k|) * B ≤ 2 ^ 97)
    (hw : f.info.width + kernel.length ≤ 2147483648) (hh : f.info.height + kernel.length ≤ 2147483648) :
    ∃ f' g' h' a b c, filter1d P f kernel isVert = .ok f' ∧ filter1d P g kernel isVert = .ok g' ∧ filter1d P h kernel isVert = .ok h' ∧
      f'.ShowsValues f.info a ∧ g'.ShowsValues f.info b ∧ h'.ShowsValues f.info c ∧
      ∀ x y k, x < f.info.width → y < f.info.height → k < f.info.channels → |c x y k - (α * a x y k + β * b x y k)| ≤
        (1 + |α| + |β|) * ((kernel.length + 1) / 2 ^ 23 * ((∑ k ∈ Finset.range kernel.length, |m k|) * B) + kernel.length / 2 ^ 147) := by
  have one : ∀ {i : Image F32} {w : Nat → Nat → Nat → Rat}, i.info = f.info → i.ShowsValues f.info w →
      (∀ x y c, x < f.info.width → y < f.info.height → c < f.info.channels → |w x y c| ≤ B) →
      ∃ o a, filter1d P i kernel isVert = .ok o ∧ o.ShowsValues f.info a ∧
        ∀ x y k, x < f.info.width → y < f.info.height → k < f.info.channels → |a x y k - ratResponse1d f.info m kernel.length isVert w x y k| ≤
          (kernel.length + 1) / 2 ^ 23 * ((∑ k ∈ Finset.range kernel.length, |m k|) * B) + kernel.length / 2 ^ 147 := by
    intro i w hi hv hB
    obtain ⟨o, e, s⟩ := c109_filter_1d P (img := i) (v := w) (hi ▸ hv) kernel isVert m hodd hn hm
      (fun x y c hx hy hc => by rw [hi] at hx hy hc ⊢; exact (padded_sum1_le hB hx hy hc).trans hb) (hi ▸ hw) (hi ▸ hh)
    rw [hi] at s
    obtain ⟨a, sa, ea⟩ := s.values
    refine ⟨o, a, e, sa, fun x y k hx hy hk => (ea x y k hx hy hk).trans ?_⟩
    have := mul_le_mul_of_nonneg_left (padded_sum1_le (m := m) (n := kernel.length) (isVert := isVert) hB hx hy hk)
      (show (0 : Rat) ≤ (kernel.length + 1) / 2 ^ 23 by positivity)
    linarith
  obtain ⟨f', a, e1, s1, h1⟩ := one rfl hc.vf hc.bf
  obtain ⟨g', b, e2, s2, h2⟩ := one hc.ig hc.vg hc.bg
  obtain ⟨h', c, e3, s3, h3⟩ := one hc.ih hc.vh hc.bh
  exact ⟨f', g', h', a, b, c, e1, e2, e3, s1, s2, s3, fun x y k hx hy hk =>
    lin_close (h1 x y k hx hy hk) (h2 x y k hx hy hk) (h3 x y k hx hy hk) (ratResponse1d_lin ..)⟩

/-- **C121** `separable_filter` in f32 -/
theorem c121_separable (P : Profile) {α β B : Rat} {f g h : Image F32} {u v : Nat → Nat → Nat → Rat} (hc : Combines32 α β B f g h u v)
    (vert horz : List F32) (mv mh : Nat → Rat) (hodd : vert.length % 2 = 1) (heq : vert.length = horz.length)
    (hn : vert.length < 2 ^ 23)
    (hmv : ∀ i < vert.length, (vert.getD i (num 0)).Is (mv i)) (hmh : ∀ i < horz.length, (horz.getD i (num 0)).Is (mh i))
    (hB0 : 0 ≤ B) (hb1 : (∑ i ∈ Finset.range vert.length, |mv i|) * B ≤ 2 ^ 90)
    (hb2 : (∑ i ∈ Finset.range vert.length, |mh i|) * ((∑ i ∈ Finset.range vert.length, |mv i|) * B) ≤ 2 ^ 90)
    (hb3 : ∑ i ∈ Finset.range vert.length, |mh i| ≤ 2 ^ 90)
    (hw : f.info.width + vert.length ≤ 2147483648) (hh : f.info.height + vert.length ≤ 2147483648) :
    ∃ f' g' h' a b c, separableFilter P f vert horz = .ok f' ∧ separableFilter P g vert horz = .ok g' ∧ separableFilter P h vert horz = .ok h' ∧
      f'.ShowsValues f.info a ∧ g'.ShowsValues f.info b ∧ h'.ShowsValues f.info c ∧
      ∀ x y k, x < f.info.width → y < f.info.height → k < f.info.channels → |c x y k - (α * a x y k + β * b x y k)| ≤
        (1 + |α| + |β|) * (3 * ((vert.length + 1) / 2 ^ 23) *
          ((∑ i ∈ Finset.range vert.length, |mv i|) * (∑ i ∈ Finset.range vert.length, |mh i|) * B) +
        (1 + 2 * ∑ i ∈ Finset.range vert.length, |mh i|) * (vert.length / 2 ^ 147)) := by
  have one : ∀ {i : Image F32} {w : Nat → Nat → Nat → Rat}, i.info = f.info → i.ShowsValues f.info w →
      (∀ x y c, x < f.info.width → y < f.info.height → c < f.info.channels → |w x y c| ≤ B) →
      ∃ o a, separableFilter P i vert horz = .ok o ∧ o.ShowsValues f.info a ∧
        ∀ x y k, x < f.info.width → y < f.info.height → k < f.info.channels →
          |a x y k - ratResponse2d f.info (fun k => mv (k / vert.length) * mh (k % vert.length)) vert.length w x y k| ≤
          3 * ((vert.length + 1) / 2 ^ 23) *
          ((∑ i ∈ Finset.range vert.length, |mv i|) * (∑ i ∈ Finset.range vert.length, |mh i|) * B) +
        (1 + 2 * ∑ i ∈ Finset.range vert.length, |mh i|) * (vert.length / 2 ^ 147) := by
    intro i w hi hv hB
    obtain ⟨o, e, s⟩ := c109_separable P (img := i) (v := w) (hi ▸ hv) vert horz mv mh B hodd heq hn hmv hmh hB0
      (hi ▸ hB) hb1 hb2 hb3 (hi ▸ hw) (hi ▸ hh)
    rw [hi] at s
    obtain ⟨a, sa, ea⟩ := s.values
    exact ⟨o, a, e, sa, ea⟩
  obtain ⟨f', a, e1, s1, h1⟩ := one rfl hc.vf hc.bf
  obtain ⟨g', b, e2, s2, h2⟩ := one hc.ig hc.vg hc.bg
  obtain ⟨h', c, e3, s3, h3⟩ := one hc.ih hc.vh hc.bh
  exact ⟨f', g', h', a, b, c, e1, e2, e3, s1, s2, s3, fun x y k hx hy hk =>
    lin_close (h1 x y k hx hy hk) (h2 x y k hx hy hk) (h3 x y k hx hy hk) (ratResponse2d_lin ..)⟩
end

/-- three images that meet the hypotheses: `h = 3 f - g` with `f = 1, ..., 6` and `g = 10, ..., 60` -/
example [Libm f32] (P : Profile) : ∃ f' g' h' a b c,
    unseparableFilter P (gray6 (num 1 : F32) (num 2) (num 3) (num 4) (num 5) (num 6)) (List.replicate 9 (num 1)) = .ok f' ∧
    unseparableFilter P (gray6 (num 10 : F32) (num 20) (num 30) (num 40) (num 50) (num 60)) (List.replicate 9 (num 1)) = .ok g' ∧
    unseparableFilter P (gray6 (num (-7) : F32) (num (-14)) (num (-21)) (num (-28)) (num (-35)) (num (-42))) (List.replicate 9 (num 1)) = .ok h' ∧
    f'.ShowsValues ⟨3, 2, 1, false⟩ a ∧ g'.ShowsValues ⟨3, 2, 1, false⟩ b ∧ h'.ShowsValues ⟨3, 2, 1, false⟩ c ∧
    ∀ x y k, x < 3 → y < 2 → k < 1 → |c x y k - (3 * a x y k + -1 * b x y k)| ≤ 1 / 300 := by
  have vals : ∀ (s : Int) (i1 i2 i3 i4 i5 i6 : F32), i1.Is (s * 1 : Int) → i2.Is (s * 2 : Int) → i3.Is (s * 3 : Int) →
      i4.Is (s * 4 : Int) → i5.Is (s * 5 : Int) → i6.Is (s * 6 : Int) →
      (gray6 i1 i2 i3 i4 i5 i6).ShowsValues ⟨3, 2, 1, false⟩ (fun x y _ => (s : Rat) * ((x : Rat) + 3 * y + 1)) := by
    intro s i1 i2 i3 i4 i5 i6 h1 h2 h3 h4 h5 h6
    refine (gray6_WF i1 i2 i3 i4 i5 i6).shows.values (fun x y hx hy => Image.px_length (gray6_WF ..) hx hy) ?_
    intro x y c hx hy hc
    have hx : x < 3 := hx
    have hy : y < 2 := hy
    have hc : c = 0 := Nat.lt_one_iff.1 hc
    subst hc
    push_cast at *
    interval_cases x <;> interval_cases y
    · exact ⟨i1, rfl, by norm_num at *; exact h1⟩
    · exact ⟨i4, rfl, by norm_num at *; exact h4⟩
    · exact ⟨i2, rfl, by norm_num at *; exact h2⟩
    · exact ⟨i5, rfl, by norm_num at *; exact h5⟩
    · exact ⟨i3, rfl, by norm_num at *; exact h3⟩
    · exact ⟨i6, rfl, by norm_num at *; exact h6⟩
  have n : ∀ k : Int, |k| ≤ 100 → (num k : F32).Is (k : Rat) := fun k hk => num32 (by omega)
  have one : ∀ i < (List.replicate 9 (num 1 : F32)).length, ((List.replicate 9 (num 1 : F32)).getD i (num 0)).Is ((fun _ => 1) i) := by
    intro i hi
    rw [List.getD_eq_getElem?_getD, List.getElem?_eq_getElem hi, List.getElem_replicate]
    simpa using n 1 (by decide)
  have xy : ∀ x y : Nat, x < 3 → y < 2 → (1 : Rat) ≤ (x : Rat) + 3 * y + 1 ∧ (x : Rat) + 3 * y + 1 ≤ 6 := by
    intro x y hx hy
    interval_cases x <;> interval_cases y <;> norm_num
  have hc : Combines32 3 (-1) 60 (gray6 (num 1 : F32) (num 2) (num 3) (num 4) (num 5) (num 6))
      (gray6 (num 10 : F32) (num 20) (num 30) (num 40) (num 50) (num 60))
      (gray6 (num (-7) : F32) (num (-14)) (num (-21)) (num (-28)) (num (-35)) (num (-42)))
      (fun x y _ => ((1 : Int) : Rat) * ((x : Rat) + 3 * y + 1)) (fun x y _ => ((10 : Int) : Rat) * ((x : Rat) + 3 * y + 1)) := by
    refine ⟨rfl, rfl, ?_, ?_, ?_, ?_, ?_, ?_⟩
    · exact vals 1 _ _ _ _ _ _ (n 1 (by decide)) (n 2 (by decide)) (n 3 (by decide)) (n 4 (by decide)) (n 5 (by decide)) (n 6 (by decide))
    · exact vals 10 _ _ _ _ _ _ (n 10 (by decide)) (n 20 (by decide)) (n 30 (by decide)) (n 40 (by decide)) (n 50 (by decide)) (n 60 (by decide))
    · have := vals (-7) _ _ _ _ _ _ (n (-7) (by decide)) (n (-14) (by decide)) (n (-21) (by decide)) (n (-28) (by decide)) (n (-35) (by decide)) (n (-42) (by decide))
      have ef : (fun (x y : Nat) (_ : Nat) => (3 : Rat) * (((1 : Int) : Rat) * ((x : Rat) + 3 * y + 1)) + -1 * (((10 : Int) : Rat) * ((x : Rat) + 3 * y + 1))) =
          fun (x y : Nat) (_ : Nat) => ((-7 : Int) : Rat) * ((x : Rat) + 3 * y + 1) := by
        funext x y _; push_cast; ring
      rw [ef]; exact this
    all_goals
      intro x y c hx hy _
      obtain ⟨a, b⟩ := xy x y hx hy
      push_cast
      rw [abs_le]
      constructor <;> linarith
  obtain ⟨f', g', h', a, b, c, e1, e2, e3, s1, s2, s3, hh⟩ := c121_unseparable P hc (List.replicate 9 (num 1)) 3 (fun _ => 1) rfl (by simp) (by decide) one
    (by simp; norm_num) (show 3 + 3 ≤ _ by decide) (show 2 + 3 ≤ _ by decide)
  refine ⟨f', g', h', a, b, c, e1, e2, e3, s1, s2, s3, fun x y k hx hy hk => (hh x y k hx hy hk).trans ?_⟩
  simp
  norm_num
end Imgproc
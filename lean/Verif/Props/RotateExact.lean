import Verif.Props.RotateF32
/-! Properties C124 (exact positions) and C71 (rotation by 0 degrees in f32). -/
namespace Imgproc
open FloatOps

/-- a multiple of `2^-k` of magnitude at most `2^24 / 2^k` is not changed by rounding -/
theorem rnd_dy {m : Int} {k : Nat} (h : |m| ≤ 16777216) (hk : k ≤ 100) : f32.rnd ((m : Rat) / 2 ^ k) = (m : Rat) / 2 ^ k :=
  rndQ_of_rep (f32_dy h hk).1

/-- multiples of `2^-k` up to a bound `B / 2^k` -/
def Dyq (k : Nat) (B : Int) (q : Rat) : Prop := ∃ m : Int, q = (m : Rat) / 2 ^ k ∧ |m| ≤ B

theorem Dyq.rnd {k : Nat} {B : Int} {q : Rat} (h : Dyq k B q) (hB : B ≤ 16777216) (hk : k ≤ 100) : f32.rnd q = q := by
  obtain ⟨m, rfl, hm⟩ := h
  exact rnd_dy (hm.trans hB) hk

theorem Dyq.add {k : Nat} {A B : Int} {p q : Rat} (h : Dyq k A p) (h' : Dyq k B q) : Dyq k (A + B) (p + q) := by
  obtain ⟨m, rfl, hm⟩ := h
  obtain ⟨n, rfl, hn⟩ := h'
  refine ⟨m + n, by push_cast; ring, (abs_add_le _ _).trans (by omega)⟩

theorem Dyq.neg {k : Nat} {A : Int} {p : Rat} (h : Dyq k A p) : Dyq k A (-p) := by
  obtain ⟨m, rfl, hm⟩ := h
  exact ⟨-m, by push_cast; ring, by rwa [abs_neg]⟩

theorem Dyq.sub {k : Nat} {A B : Int} {p q : Rat} (h : Dyq k A p) (h' : Dyq k B q) : Dyq k (A + B) (p - q) := by
  rw [sub_eq_add_neg]; exact h.add h'.neg

theorem Dyq.abs {k : Nat} {A : Int} {p : Rat} (h : Dyq k A p) : Dyq k A |p| := by
  rcases abs_choice p with e | e <;> rw [e]
  · exact h
  · exact h.neg

theorem Dyq.mul {k : Nat} {A : Int} {p : Rat} (h : Dyq k A p) {n : Int} {N : Int} (hn : |n| ≤ N) : Dyq k (A * N) (p * n) := by
  obtain ⟨m, rfl, hm⟩ := h
  refine ⟨m * n, by push_cast; ring, ?_⟩
  rw [abs_mul]
  exact mul_le_mul hm hn (abs_nonneg _) (le_trans (abs_nonneg _) hm)

theorem Dyq.mono {k : Nat} {A B : Int} {p : Rat} (h : Dyq k A p) (hb : A ≤ B) : Dyq k B p := by
  obtain ⟨m, e, hm⟩ := h
  exact ⟨m, e, hm.trans hb⟩

theorem dyq_one {k : Nat} : Dyq k (2 ^ k) 1 := ⟨2 ^ k, by push_cast; rw [div_self (by positivity)], by rw [abs_of_nonneg (by positivity)]⟩

/-- products and sums of dyadic numbers with integers are exact -/
theorem ptNum_exact {a b : Rat} {k : Nat} (hk : k ≤ 100) (ha : Dyq k (2 ^ k) a) (hb : Dyq k (2 ^ k) b) {u v M N : Int} (hu : |u| ≤ M)
    (hv : |v| ≤ N) (hB : 2 ^ k * (M + N) ≤ 4194304) :
    ptNum a b u v = a * u + b * v ∧ Dyq k (2 ^ k * (M + N)) (a * u + b * v) := by
  have m0 := le_trans (abs_nonneg _) hu
  have n0 := le_trans (abs_nonneg _) hv
  have p0 : (0 : Int) ≤ 2 ^ k := by positivity
  have e := mul_add ((2 : Int) ^ k) M N
  have b1 : (2 : Int) ^ k * M ≤ 16777216 := by nlinarith
  have b2 : (2 : Int) ^ k * N ≤ 16777216 := by nlinarith
  have h1 := ha.mul hu
  have h2 := hb.mul hv
  have h3 := h1.add h2
  rw [← mul_add] at h3
  refine ⟨?_, h3⟩
  unfold ptNum
  rw [h1.rnd b1 hk, h2.rnd b2 hk, h3.rnd (by omega) hk]

theorem rotS_exact {a b : Rat} {k : Nat} (hk : k ≤ 100) (ha : Dyq k (2 ^ k) a) (hb : Dyq k (2 ^ k) b) {m n : Nat}
    (hB : 2 ^ k * ((m : Int) + n) ≤ 4194304) :
    rotS a b m n = |a| * m + |b| * n ∧ Dyq k (2 ^ k * ((m : Int) + n)) (|a| * m + |b| * n) := by
  have := ptNum_exact hk ha.abs hb.abs (u := m) (v := n) (M := m) (N := n) (by rw [Nat.abs_cast]) (by rw [Nat.abs_cast]) hB
  push_cast at this
  exact this

theorem nat_floor_int (z : Int) : ⌊(z : Rat)⌋₊ = z.toNat := by
  rw [← Int.floor_toNat, Int.floor_intCast]

/-- truncation of an exact position -/
theorem nat_floor_of {q : Rat} {n : Nat} (h1 : q - 1 < n) (h2 : (n : Rat) ≤ max 0 q) : n = ⌊q⌋₊ := by
  rcases le_or_gt 0 q with h | h
  · rw [max_eq_right h] at h2
    exact ((Nat.floor_eq_iff h).2 ⟨h2, by linarith⟩).symm
  · rw [max_eq_left h.le] at h2
    rw [Nat.floor_of_nonpos h.le]
    exact_mod_cast le_antisymm h2 (Nat.cast_nonneg _)

set_option maxHeartbeats 400000 in
/-- **C124, exact positions** If the platform's cosine and sine of the angle are multiples of `2^-k` and the image has at most
`2^(22-k)` columns plus rows, nothing is rounded: the output has exactly the truncated size, every pixel goes to exactly the
truncated position (and the left neighbour), and of several pixels sent to the same place the last one, row by row, wins. -/
theorem c124_exact [Libm f32] (P : Profile) {img : Image F32} {deg : F32} {γ σ : Rat} (h : RotateInput32 img deg γ σ) {k : Nat} {g s : Int}
    (hγ : γ = g / 2 ^ k) (hσ : σ = s / 2 ^ k) (hk : (img.info.width + img.info.height) * 2 ^ k ≤ 4194304) :
    ∃ out, rotate P img deg = .ok out ∧ out.WF ∧
      (let W := img.info.width; let H := img.info.height
       let X := fun i j => ⌊rotColQ γ σ W H i j⌋₊; let Y := fun i j => ⌊rotRowQ γ σ W H i j⌋₊
        out.info = ⟨⌊W * |γ| + H * |σ|⌋₊, ⌊H * |γ| + W * |σ|⌋₊, img.info.channels, img.info.alpha⟩ ∧
        (∀ i j, i < W → j < H → X i j < out.info.width ∧ Y i j < out.info.height) ∧
        ∀ x' y', x' < out.info.width → y' < out.info.height →
          (∃ i j, i < W ∧ j < H ∧ ((X i j = x' ∨ X i j = x' + 1) ∧ Y i j = y') ∧ out.px x' y' = img.px i j ∧
            ∀ i₂ j₂, i₂ < W → j₂ < H → (X i₂ j₂ = x' ∨ X i₂ j₂ = x' + 1) ∧ Y i₂ j₂ = y' → j₂ < j ∨ j₂ = j ∧ i₂ ≤ i) ∨
          ((∀ i j, i < W → j < H → ¬ ((X i j = x' ∨ X i j = x' + 1) ∧ Y i j = y')) ∧
            out.px x' y' = List.replicate img.info.channels (ofU8 0))) := by
  obtain ⟨out, X, Y, e, wfo, och, oal, sx, sy, pos, px⟩ := rotate32_core P h
  obtain ⟨wf, hc, hs, lc, ls, cs, wpos, hpos, size, fits⟩ := h
  refine ⟨out, e, wfo, ?_⟩
  dsimp only at *
  have k100 : k ≤ 100 := by
    by_contra hc
    have h1 : 2 ^ 100 ≤ 2 ^ k := Nat.pow_le_pow_right (by omega) (by omega)
    have h2 : 2 ^ k ≤ (img.info.width + img.info.height) * 2 ^ k := Nat.le_mul_of_pos_left _ (by omega)
    have := (h1.trans h2).trans hk
    norm_num at this
  have dy : ∀ {q : Rat} {m : Int}, |q| ≤ 1 → q = m / 2 ^ k → Dyq k (2 ^ k) q := by
    intro q m hq e
    refine ⟨m, e, ?_⟩
    have hp : (0 : Rat) < 2 ^ k := by positivity
    rw [e, abs_div, abs_of_pos hp, div_le_one hp] at hq
    exact_mod_cast hq
  have dγ := dy lc hγ
  have dσ := dy ls hσ
  have dσ' := dσ.neg
  have lo := hiM_add γ img.info.width
  have lo2 := hiM_add (-σ) img.info.height
  have lo3 := hiM_add σ img.info.width
  have lo4 := hiM_add γ img.info.height
  have bx := hiM_bounds γ img.info.width
  have by' := hiM_bounds (-σ) img.info.height
  have bx2 := hiM_bounds σ img.info.width
  have by2 := hiM_bounds γ img.info.height
  have infe : out.info = ⟨out.info.width, out.info.height, img.info.channels, img.info.alpha⟩ := by rw [← och, ← oal]
  generalize img.info.width = W at *
  generalize img.info.height = H at *
  have hkZ : ((2 : Int) ^ k) * ((W : Int) + H) ≤ 4194304 := by rw [mul_comm]; exact_mod_cast hk
  have p1 : (1 : Int) ≤ 2 ^ k := one_le_pow₀ (by norm_num)
  have sub : ∀ {m n : Int}, 0 ≤ m → 0 ≤ n → m + n ≤ (W : Int) + H → ((2 : Int) ^ k) * (m + n) ≤ 4194304 := by
    intro m n _ _ h
    exact le_trans (mul_le_mul_of_nonneg_left h (by omega)) hkZ
  obtain ⟨S1, s1⟩ := rotS_exact k100 dγ dσ' (m := hiM γ W) (n := loM (-σ) H) (sub (by omega) (by omega) (by omega))
  obtain ⟨S2, s2⟩ := rotS_exact k100 dγ dσ' (m := loM γ W) (n := hiM (-σ) H) (sub (by omega) (by omega) (by omega))
  obtain ⟨S3, s3⟩ := rotS_exact k100 dσ dγ (m := hiM σ W) (n := loM γ H) (sub (by omega) (by omega) (by omega))
  obtain ⟨S4, s4⟩ := rotS_exact k100 dσ dγ (m := loM σ W) (n := hiM γ H) (sub (by omega) (by omega) (by omega))
  have up : ∀ {q : Rat} {m n : Int}, Dyq k (2 ^ k * (m + n)) q → 0 ≤ m → 0 ≤ n → m + n ≤ (W : Int) + H → Dyq k 4194304 q :=
    fun hq h1 h2 h3 => hq.mono (sub h1 h2 h3)
  replace s1 := up s1 (by omega) (by omega) (by omega)
  replace s2 := up s2 (by omega) (by omega) (by omega)
  replace s3 := up s3 (by omega) (by omega) (by omega)
  replace s4 := up s4 (by omega) (by omega) (by omega)
  have pk : (2 : Int) ^ k ≤ 4194304 := by
    have h1 : (1 : Int) ≤ (W : Int) + H := by omega
    have h2 := mul_le_mul_of_nonneg_left h1 (by omega : (0 : Int) ≤ 2 ^ k)
    omega
  have one : Dyq k 4194304 1 := (dyq_one (k := k)).mono pk
  have two : ∀ {p q : Rat}, Dyq k 4194304 p → Dyq k 4194304 q → Dyq k 8388608 (p + q) := fun h1 h2 => (h1.add h2).mono (by norm_num)
  have two' : ∀ {p q : Rat}, Dyq k 4194304 p → Dyq k 4194304 q → Dyq k 8388608 (p - q) := fun h1 h2 => (h1.sub h2).mono (by norm_num)
  have rn2 : ∀ {q : Rat}, Dyq k 8388608 q → f32.rnd q = q := fun h => h.rnd (by norm_num) k100
  have rn3 : ∀ {q : Rat}, Dyq k (4194304 + 8388608) q → f32.rnd q = q := fun h => h.rnd (by norm_num) k100
  have rn4 : ∀ {q : Rat}, Dyq k (8388608 + 4194304) q → f32.rnd q = q := fun h => h.rnd (by norm_num) k100
  rw [S1, S2, rn2 (two s1 s2)] at sx
  rw [S3, S4, rn2 (two s3 s4)] at sy
  have cast1 : ((hiM γ W : Nat) : Rat) + (loM γ W : Nat) = W := by exact_mod_cast lo
  have cast2 : ((hiM (-σ) H : Nat) : Rat) + (loM (-σ) H : Nat) = H := by exact_mod_cast lo2
  have cast3 : ((hiM σ W : Nat) : Rat) + (loM σ W : Nat) = W := by exact_mod_cast lo3
  have cast4 : ((hiM γ H : Nat) : Rat) + (loM γ H : Nat) = H := by exact_mod_cast lo4
  have ew : out.info.width = ⌊(W : Rat) * |γ| + H * |σ|⌋₊ := by
    refine nat_floor_of ?_ (le_trans ?_ (le_max_right _ _))
    · refine lt_of_eq_of_lt ?_ sx.1
      rw [← cast1, ← cast2, abs_neg]; ring
    · refine le_of_le_of_eq sx.2 ?_
      rw [← cast1, ← cast2, abs_neg]; ring
  have eh : out.info.height = ⌊(H : Rat) * |γ| + W * |σ|⌋₊ := by
    refine nat_floor_of ?_ (le_trans ?_ (le_max_right _ _))
    · refine lt_of_eq_of_lt ?_ sy.1
      rw [← cast3, ← cast4]; ring
    · refine le_of_le_of_eq sy.2 ?_
      rw [← cast3, ← cast4]; ring
  have exy : ∀ i j, i < W → j < H → (X i j = ⌊rotColQ γ σ W H i j⌋₊ ∧ Y i j = ⌊rotRowQ γ σ W H i j⌋₊) := by
    intro i j hi hj
    obtain ⟨-, -, q1, q2, r1, r2⟩ := pos i j hi hj
    have hu : |(i : Int) - (W / 2 : Nat)| ≤ (W : Int) - (W / 2 : Nat) := by rw [abs_le]; omega
    have hv : |((H / 2 : Nat) : Int) - j| ≤ (H : Int) - (H / 2 : Nat) := by rw [abs_le]; omega
    obtain ⟨T1, t1⟩ := ptNum_exact k100 dγ dσ' hu hv (sub (by omega) (by omega) (by omega))
    obtain ⟨T2, t2⟩ := ptNum_exact k100 dσ dγ hu hv (sub (by omega) (by omega) (by omega))
    replace t1 := up t1 (by omega) (by omega) (by omega)
    replace t2 := up t2 (by omega) (by omega) (by omega)
    simp only [Int.cast_sub, Int.cast_natCast] at T1 T2 t1 t2
    rw [S1, T1, rn2 (two' s1 one), rn3 (t1.add (two' s1 one))] at q1 q2
    rw [S3, T2, rn2 (two' s3 t2), rn4 ((two' s3 t2).sub one)] at r1 r2
    have e1 : γ * ((i : Rat) - (W / 2 : Nat)) + -σ * (((H / 2 : Nat) : Rat) - j) + (|γ| * (hiM γ W : Nat) + |(-σ)| * (loM (-σ) H : Nat) - 1) =
        rotColQ γ σ W H i j := by unfold rotColQ rotEdge; ring
    have e2 : |σ| * (hiM σ W : Nat) + |γ| * (loM γ H : Nat) - (σ * ((i : Rat) - (W / 2 : Nat)) + γ * (((H / 2 : Nat) : Rat) - j)) - 1 =
        rotRowQ γ σ W H i j := by unfold rotRowQ rotEdge; ring
    rw [e1] at q1 q2
    rw [e2] at r1 r2
    exact ⟨nat_floor_of q1 q2, nat_floor_of r1 r2⟩
  refine ⟨by rw [infe, ← ew, ← eh], fun i j hi hj => ?_, fun x' y' hx hy => ?_⟩
  · obtain ⟨b1, b2, -⟩ := pos i j hi hj
    obtain ⟨e1, e2⟩ := exy i j hi hj
    rw [← e1, ← e2]
    exact ⟨b1, b2⟩
  · rcases px x' y' hx hy with ⟨i, j, hi, hj, hr, hp, hl⟩ | ⟨hn, hp⟩
    · refine Or.inl ⟨i, j, hi, hj, ?_, hp, ?_⟩
      · rw [← (exy i j hi hj).1, ← (exy i j hi hj).2]; exact hr
      · intro i₂ j₂ hi₂ hj₂
        rw [← (exy i₂ j₂ hi₂ hj₂).1, ← (exy i₂ j₂ hi₂ hj₂).2]
        exact hl i₂ j₂ hi₂ hj₂
    · refine Or.inr ⟨?_, hp⟩
      intro i₂ j₂ hi₂ hj₂
      rw [← (exy i₂ j₂ hi₂ hj₂).1, ← (exy i₂ j₂ hi₂ hj₂).2]
      exact hn i₂ j₂ hi₂ hj₂

/-- **Specification**: the pixel of `img` in the given source column and row, zero if there is none -/
def rot0Px {T : Type} (img : Image T) (z : T) (col row : Option Nat) : List T :=
  match col, row with
  | some k, some r => img.px k r
  | _, _ => List.replicate img.info.channels z

/-- the angle zero, in radians -/
theorem toRadians_zero [Libm f32] {deg : F32} (h : deg.Is 0) : (FloatOps.toRadians deg).Is 0 := by
  have hp : ∃ p, (FloatOps.pi : F32).Is p ∧ |p| ≤ 4 := by
    have : f32.Exact (13176795 / 4194304 : Rat) := by
      have := f32_dy (m := 13176795) (k := 22) (by decide) (by omega)
      norm_num at this ⊢; exact this
    exact ⟨_, lit_exact this, by norm_num [abs_le]⟩
  obtain ⟨p, hp, lp⟩ := hp
  have b1 : |p / ((180 : Int) : Rat)| ≤ 1 := by
    rw [abs_div]; push_cast
    rw [abs_of_pos (show (0 : Rat) < 180 by norm_num), div_le_one (by norm_num)]
    linarith
  have d := div_is hp (num32 (n := 180) (by decide)) (by norm_num) (f32_ovf (le_trans b1 (by norm_num)))
  have m := mul_exact h d (by simpa using f32_nat (n := 0) (by omega))
  rw [zero_mul] at m
  exact m

/-- **C71 in f32** What `rotate(img, 0)` returns on 32-bit floats (the platform's cosine of 0 is 1 and its sine of 0 is 0): an image of
the same size, shifted up by one row and left by one column (odd width) or two columns (even width); the last row, if there is more than one, and for even
widths the last column are zero. -/
theorem c71_f32_describe_partial [Libm f32] (P : Profile) {img : Image F32} (h : img.WF) (hw : 0 < img.info.width) (hh : 0 < img.info.height)
    (size : img.info.width + img.info.height < 1048576) {deg : F32} (hd : deg.Is 0)
    (hc : ∀ z : F32, z.Is 0 → (FloatOps.cos z).Is 1) (hs : ∀ z : F32, z.Is 0 → (FloatOps.sin z).Is 0) :
    ∃ out, rotate P img deg = .ok out ∧ out.WF ∧ out.info = img.info ∧
      ∀ x' y', x' < img.info.width → y' < img.info.height →
        out.px x' y' = rot0Px img (ofU8 0) (rot0Col img.info.width x') (rot0Row img.info.height y') := by
  have side : ∀ m n : Nat, m + n < 1048576 → rotSide 1 0 m n = m := by
    intro m n hmn
    unfold rotSide
    rw [Nat.floor_eq_iff (by positivity)]
    have h1 : ((m : Rat) + n) < 1048576 := by exact_mod_cast hmn
    have h2 : (0 : Rat) ≤ (m : Rat) + n := by positivity
    rw [abs_one, abs_zero]
    constructor <;> linarith
  have hr := toRadians_zero hd
  obtain ⟨out, e, wf, inf, bnd, px⟩ := c124_exact P (γ := 1) (σ := 0) (k := 0) (g := 1) (s := 0) (img := img) (deg := deg)
    { wf := h, c := hc _ hr, s := hs _ hr, lc := by norm_num, ls := by norm_num, cs := by norm_num, wpos := hw, hpos := hh, size := by omega
      fits := by
        rw [side _ _ size, side _ _ (by omega)]
        exact h.infoWF } (by norm_num) (by norm_num) (by omega)
  have inf' : out.info = img.info := by
    rw [inf, abs_one, abs_zero]
    simp
  refine ⟨out, e, wf, inf', fun x' y' hx hy => ?_⟩
  have eX : ∀ i j, i < img.info.width → ⌊rotColQ 1 0 img.info.width img.info.height i j⌋₊ = i - (1 - img.info.width % 2) := by
    intro i j hi
    have : rotColQ 1 0 img.info.width img.info.height i j = (((i : Int) - (1 - img.info.width % 2 : Nat) : Int) : Rat) := by
      unfold rotColQ rotEdge hiM
      rw [if_pos (by norm_num)]
      have e : ((img.info.width - img.info.width / 2 : Nat) : Rat) - (img.info.width / 2 : Nat) - 1 = -((1 - img.info.width % 2 : Nat) : Rat) := by
        have : ((img.info.width - img.info.width / 2 : Nat) : Int) - (img.info.width / 2 : Nat) - 1 = -((1 - img.info.width % 2 : Nat) : Int) := by omega
        exact_mod_cast this
      push_cast at e ⊢
      simp only [abs_one, neg_zero, abs_zero]
      linarith
    rw [this, nat_floor_int]
    omega
  have eY : ∀ i j, j < img.info.height → ⌊rotRowQ 1 0 img.info.width img.info.height i j⌋₊ = j - 1 := by
    intro i j hj
    have : rotRowQ 1 0 img.info.width img.info.height i j = (((j : Int) - 1 : Int) : Rat) := by
      unfold rotRowQ rotEdge loM
      rw [if_pos (show (0 : Rat) ≤ 1 by norm_num)]
      push_cast
      simp only [abs_one, abs_zero]
      ring
    rw [this, nat_floor_int]
    omega
  have hx2 : x' < out.info.width := by rw [inf']; exact hx
  have hy2 : y' < out.info.height := by rw [inf']; exact hy
  dsimp only at px
  rcases px x' y' hx2 hy2 with ⟨i, j, hi, hj, ⟨hX, hY⟩, hp, hl⟩ | ⟨hn, hp⟩
  · rw [hp]
    rw [eX i j hi] at hX
    rw [eY i j hj] at hY
    have last : ∀ i₂ j₂, i₂ < img.info.width → j₂ < img.info.height →
        (i₂ - (1 - img.info.width % 2) = x' ∨ i₂ - (1 - img.info.width % 2) = x' + 1) ∧ j₂ - 1 = y' → j₂ < j ∨ j₂ = j ∧ i₂ ≤ i := by
      intro i₂ j₂ hi₂ hj₂
      have := hl i₂ j₂ hi₂ hj₂
      rw [eX i₂ j₂ hi₂, eY i₂ j₂ hj₂] at this
      exact this
    have l1 := last i (y' + 1) hi
    have l2 := last (x' + (1 - img.info.width % 2)) j
    have l3 := last (x' + 1 + (1 - img.info.width % 2)) j
    have row : rot0Row img.info.height y' = some j := by
      unfold rot0Row
      split_ifs <;> (congr 1; omega)
    have col : rot0Col img.info.width x' = some i := by
      unfold rot0Col
      split_ifs <;> (congr 1; omega)
    rw [row, col]
    rfl
  · have hn' : ∀ i j, i < img.info.width → j < img.info.height →
        ¬ ((i - (1 - img.info.width % 2) = x' ∨ i - (1 - img.info.width % 2) = x' + 1) ∧ j - 1 = y') := by
      intro i j hi hj
      have := hn i j hi hj
      rwa [eX i j hi, eY i j hj] at this
    rw [hp]
    have n1 := hn' (x' + (1 - img.info.width % 2)) (y' + 1)
    have n2 := hn' (x' + (1 - img.info.width % 2)) 0
    have n3 := hn' 0 0
    have n4 := hn' 0 (y' + 1)
    have : rot0Col img.info.width x' = none ∨ rot0Row img.info.height y' = none := by
      unfold rot0Col rot0Row
      split_ifs <;> first | (exact Or.inr rfl) | (exact Or.inl rfl) | (exfalso; omega)
    rcases this with h | h <;> rw [h]
    · rfl
    · cases rot0Col img.info.width x' <;> rfl

/-- **C71 is violated in f32** by every image of two or more rows whose last row is not zero -/
theorem c71_f32_violated [Libm f32] (P : Profile) {img : Image F32} (h : img.WF) (hh : 2 ≤ img.info.height)
    (size : img.info.width + img.info.height < 1048576) {deg : F32} (hd : deg.Is 0)
    (hc : ∀ z : F32, z.Is 0 → (FloatOps.cos z).Is 1) (hs : ∀ z : F32, z.Is 0 → (FloatOps.sin z).Is 0) {x : Nat} (hx : x < img.info.width)
    (hne : img.px x (img.info.height - 1) ≠ List.replicate img.info.channels (ofU8 0)) : rotate P img deg ≠ .ok img := by
  intro hcc
  obtain ⟨out, e, wf, inf, hv⟩ := c71_f32_describe_partial P h (by omega) (by omega) size hd hc hs
  rw [e] at hcc
  injection hcc with hcc
  subst hcc
  apply hne
  rw [hv x (out.info.height - 1) hx (by omega)]
  have : rot0Row out.info.height (out.info.height - 1) = none := by
    unfold rot0Row; split_ifs <;> first | rfl | omega
  rw [this]
  cases rot0Col out.info.width x <;> rfl

/-- a 3 by 2 image rotated by zero: the second row moves up, the second row is zero -/
example (P : Profile) : letI := roundedLibm
    ∃ out, rotate P (gray6 (num 1) (num 2) (num 3) (num 4) (num 5) (num 6)) (num 0 : F32) = .ok out ∧
      out.px 0 0 = [num 5] ∧ out.px 1 0 = [num 6] ∧ out.px 2 0 = [num 6] ∧ out.px 0 1 = [ofU8 0] := by
  let := roundedLibm
  have near0 : ∀ {q : Rat} {n : Rat}, f32.Exact n → NearestTo q n → q = n := by
    intro q n hn hq
    have := hq.2 n hn
    rw [sub_self, abs_zero] at this
    have := abs_eq_zero.1 (le_antisymm this (abs_nonneg _))
    have h2 : (q : ℝ) = n := by linarith
    exact_mod_cast h2
  obtain ⟨out, e, wf, inf, hv⟩ := c71_f32_describe_partial P (img := gray6 (num 1) (num 2) (num 3) (num 4) (num 5) (num 6)) (gray6_WF ..)
    (by dims) (by dims) (by dims) (deg := num 0) (by simpa using num32 (n := 0) (by decide))
    (fun z hz => by
      obtain ⟨γ, σ, h1, -, n1, -⟩ := roundedLibm_spec hz
      rw [Rat.cast_zero, Real.cos_zero] at n1
      have e := near0 (q := γ) (n := 1) (by simpa using f32_nat (n := 1) (by omega)) (by simpa using n1)
      rwa [e] at h1)
    (fun z hz => by
      obtain ⟨γ, σ, -, h1, -, n1⟩ := roundedLibm_spec hz
      rw [Rat.cast_zero, Real.sin_zero] at n1
      have e := near0 (q := σ) (n := 0) (by simpa using f32_nat (n := 0) (by omega)) (by simpa using n1)
      rwa [e] at h1)
  refine ⟨out, e, ?_, ?_, ?_, ?_⟩
  · rw [hv 0 0 (by dims) (by dims)]; simp [rot0Px, rot0Col, rot0Row, gray6, Image.px, Image.fromVec]
  · rw [hv 1 0 (by dims) (by dims)]; simp [rot0Px, rot0Col, rot0Row, gray6, Image.px, Image.fromVec]
  · rw [hv 2 0 (by dims) (by dims)]; simp [rot0Px, rot0Col, rot0Row, gray6, Image.px, Image.fromVec]
  · rw [hv 0 1 (by dims) (by dims)]; simp [rot0Px, rot0Col, rot0Row, gray6, Image.fromVec]
end Imgproc

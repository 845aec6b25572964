import Verif.Props.Filter
import Verif.Props.Scale2
import Verif.Props.Par
/-! Property C47 for kernels of side 4097 to 65535, where the kernel length is not an f32 number. -/
namespace Imgproc
open FloatOps
section
variable [Libm f32]

/-- the f32 root of the f32 nearest to `k * k` is `k`, when `2^e < k < 2^(e+1)` -/
theorem sqrt_rounded_square {x : F32} {k e : Nat} (he : e ≤ 15) (h1 : 2 ^ e < k) (h2 : k < 2 ^ (e + 1))
    (hx : x.Is (f32.rnd ((k * k : Nat) : Rat))) : (FloatOps.sqrt x).Is (k : Rat) := by
  obtain ⟨B, hB⟩ : ∃ B : Rat, B = 2 ^ e := ⟨_, rfl⟩
  have hB1 : (1 : Rat) ≤ B := by rw [hB]; exact one_le_pow₀ (by norm_num)
  have hBm : B ≤ 32768 := by
    rw [hB]
    calc (2 : Rat) ^ e ≤ 2 ^ 15 := pow_le_pow_right₀ (by norm_num) he
      _ = 32768 := by norm_num
  have hk1 : B + 1 ≤ k := by rw [hB]; exact_mod_cast h1
  have hk2 : (k : Rat) + 1 ≤ 2 * B := by
    rw [hB, ← pow_succ']; exact_mod_cast h2
  obtain ⟨K, hK⟩ : ∃ K : Rat, K = k := ⟨_, rfl⟩
  rw [← hK] at hk1 hk2
  have hN : ((k * k : Nat) : Rat) = K * K := by push_cast; rw [hK]
  rw [hN] at hx
  obtain ⟨q, hq⟩ : ∃ q, q = f32.rnd (K * K) := ⟨_, rfl⟩
  rw [← hq] at hx
  have hK1 : 1 ≤ K := by linarith
  have hKK : 1 ≤ K * K := by nlinarith
  have herr : |q - K * K| ≤ K * K / 16777216 := by
    have := rnd32_rel (q := K * K) (by
      rw [abs_of_pos (by linarith)]
      refine le_trans ?_ hKK
      decide +kernel)
    rw [← hq, abs_of_pos (by linarith : 0 < K * K)] at this
    rcases this with h | h
    · rw [h, sub_self, abs_zero]; positivity
    · exact h.le
  obtain ⟨lo, hi⟩ := abs_le.1 herr
  have hq0 : 0 < q := by linarith
  have p1 : pow2 (2 * (e : Int) + 2) = 4 * B ^ 2 := by
    rw [pow2_eq, hB, ← pow_mul]
    rw [show (2 * (e : Int) + 2) = ((2 * e + 2 : Nat) : Int) by push_cast; ring, zpow_natCast]
    rw [pow_add, mul_comm e 2]; ring
  have p2 : pow2 ((e : Int) - 24) = B / 16777216 := by
    rw [pow2_eq, hB, zpow_sub₀ (by norm_num), zpow_natCast]; norm_num
  have hE : sqrtExp f32 q ≤ (e : Int) - 25 := by
    have hlt : q < pow2 (2 * (e : Int) + 2) := by
      rw [p1]; nlinarith
    have := ilog2_lt hq0 hlt
    unfold sqrtExp
    rw [f32_p]; omega
  -- the points k - h and k + h are on the grid
  have hgrid : ∀ m : Nat, ∃ j : Nat, (m : Rat) * (B / 16777216) = (j : Rat) * pow2 (sqrtExp f32 q) := by
    intro m
    obtain ⟨j, hj⟩ := grid_mul (show sqrtExp f32 q ≤ (e : Int) - 24 by omega) m
    exact ⟨j, by rw [← p2]; exact hj⟩
  have hBd : ∃ d : Nat, K = d * (B / 16777216) ∧ 1 ≤ d := by
    refine ⟨k * 2 ^ (24 - e), ?_, Nat.mul_pos (by omega) (by positivity)⟩
    have : (2 : Rat) ^ (24 - e) * 2 ^ e = 16777216 := by
      rw [← pow_add, show 24 - e + e = 24 by omega]; norm_num
    rw [hB, hK]; push_cast
    rw [mul_assoc, mul_div_assoc', this]; norm_num
  obtain ⟨d, hd, hd1⟩ := hBd
  have vlo : K - B / 16777216 < FP.sqrtApprox f32 q := by
    obtain ⟨j, hj⟩ := hgrid (d - 1)
    rw [Nat.cast_sub hd1, sub_mul, ← hd, Nat.cast_one, one_mul] at hj
    have := sqrtApprox_lt (f := f32) hq0 j (by rw [← hj]; nlinarith)
    rwa [← hj] at this
  have vhi : FP.sqrtApprox f32 q < K + B / 16777216 := by
    obtain ⟨j, hj⟩ := hgrid (d + 1)
    rw [Nat.cast_add, add_mul, ← hd, Nat.cast_one, one_mul] at hj
    have := lt_sqrtApprox (f := f32) hq0 j (by rw [← hj]; nlinarith)
    rwa [← hj] at this
  have his := fun h => sqrt_is (f := f32) hx hq0 h
  generalize FP.sqrtApprox f32 q = v at *
  have hv0 : 0 < v := by nlinarith
  have hlog : ilog2 |v| = e := by
    rw [abs_of_pos hv0]
    have s := ilog2_spec hv0
    have b1 : pow2 (e : Int) = B := by rw [pow2_eq, hB, zpow_natCast]
    have b2 : pow2 ((e : Int) + 1) = 2 * B := by
      rw [pow2_eq, hB, ← pow_succ', show (e : Int) + 1 = ((e + 1 : Nat) : Int) by push_cast; rfl, zpow_natCast]
    have l1 : (e : Int) < ilog2 v + 1 := pow2_lt.1 (lt_of_le_of_lt (by rw [b1]; nlinarith : pow2 (e : Int) ≤ v) s.2)
    have l2 : ilog2 v < (e : Int) + 1 := pow2_lt.1 (lt_of_le_of_lt s.1 (by rw [b2]; nlinarith))
    omega
  have hulp : ulpExp f32.toRFmt v = (e : Int) - 23 := by
    unfold ulpExp
    rw [hlog]
    show max ((e : Int) - (24 - 1)) (-149) = _
    omega
  have p3 : pow2 ((e : Int) - 23) = B / 8388608 := by
    rw [pow2_eq, hB, zpow_sub₀ (by norm_num), zpow_natCast]; norm_num
  have hr : f32.rnd v = K := by
    show rndQ f32.toRFmt v = K
    unfold rndQ
    rw [if_neg hv0.ne']
    simp only [hulp]
    rw [p3]
    obtain ⟨D, hD⟩ : ∃ D : Int, K = D * (B / 8388608) := by
      refine ⟨(k : Int) * 2 ^ (23 - e), ?_⟩
      have : (2 : Rat) ^ (23 - e) * 2 ^ e = 8388608 := by
        rw [← pow_add, show 23 - e + e = 23 by omega]; norm_num
      rw [hB, hK]; push_cast
      rw [mul_assoc, mul_div_assoc', this]; norm_num
    have hu : 0 < B / 8388608 := by positivity
    have near : |(D : Rat) - v / (B / 8388608)| < 1 / 2 := by
      have e1 : (D : Rat) - v / (B / 8388608) = (K - v) / (B / 8388608) := by
        rw [hD]; field_simp
      rw [e1, abs_div, abs_of_pos hu, div_lt_iff₀ hu, abs_lt]
      constructor <;> linarith
    have n1 := roundHalfEven_nearest (v / (B / 8388608)) D
    have : roundHalfEven (v / (B / 8388608)) = D := by
      generalize v / (B / 8388608) = w at *
      have a1 := abs_lt.1 near
      have a2 := abs_le.1 n1
      have a3 := abs_lt.1 (lt_of_le_of_lt n1 near)
      have b1 : (roundHalfEven w : Rat) - D < 1 := by linarith
      have b2 : (-1 : Rat) < (roundHalfEven w : Rat) - D := by linarith
      have b1 : roundHalfEven w - D < 1 := by exact_mod_cast b1
      have b2 : -1 < roundHalfEven w - D := by exact_mod_cast b2
      omega
    rw [this, ← hD]
  have hkm : k ≤ 16777216 := by
    have : (2 : Nat) ^ (e + 1) ≤ 2 ^ 16 := Nat.pow_le_pow_right (by decide) (by omega)
    omega
  have := his (by rw [hr, hK]; exact (f32_nat hkm).2)
  rw [hr, hK] at this
  exact this

/-- an integer converted to f32 -/
theorem ofNat_rnd {n : Nat} (h : n ≤ 2 ^ 64) : (FloatOps.ofNat n : F32).Is (f32.rnd (n : Rat)) := by
  have := ofInt_is (f := f32) (n := (n : Int)) (f32_ovf (by
    rw [abs_of_nonneg (by positivity)]
    have : ((n : Int) : Rat) ≤ 2 ^ 64 := by exact_mod_cast h
    refine this.trans (by norm_num)))
  simpa [FloatOps.ofNat] using this

theorem sqrt_odd_square {k : Nat} (hk : k ≤ 65535) (hodd : k % 2 = 1) :
    (FloatOps.sqrt (ofNat (k * k) : F32)).Is (k : Rat) := by
  rcases Nat.lt_or_ge 4096 k with h | h
  · have hl : k ≠ 0 := by omega
    have h1 : 2 ^ Nat.log2 k ≤ k := Nat.log2_self_le hl
    have h2 : k < 2 ^ (Nat.log2 k + 1) := Nat.lt_log2_self
    have he : Nat.log2 k ≤ 15 := by
      by_contra hc
      have : 2 ^ 16 ≤ 2 ^ Nat.log2 k := Nat.pow_le_pow_right (by decide) (by omega)
      omega
    have hne : 2 ^ Nat.log2 k ≠ k := by
      intro hh
      have h0 : Nat.log2 k ≠ 0 := by intro h0; rw [h0] at hh; omega
      obtain ⟨m, hm⟩ := Nat.exists_eq_succ_of_ne_zero h0
      rw [hm, Nat.pow_succ] at hh
      omega
    have hkk : k * k ≤ 65535 * 65535 := Nat.mul_le_mul hk hk
    exact sqrt_rounded_square he (by omega) h2 (ofNat_rnd (by omega))
  · have hkk : k * k ≤ 4096 * 4096 := Nat.mul_le_mul h h
    exact sqrt_square h (nat32 (by omega))

theorem checkSquare_of_root {x : F32} {k : Nat} (h : (FloatOps.sqrt x).Is (k : Rat)) : checkSquare x = .ok () := by
  unfold checkSquare
  have e : (k : Rat) - (FP.truncQ ((k : Rat) / ((1 : Int) : Rat)) : Rat) * ((1 : Int) : Rat) = 0 := by
    rw [Int.cast_one, div_one, mul_one, truncQ_nat]; push_cast; ring
  have hr := rem_is h (num32 (n := 1) (by decide)) (by norm_num) (by rw [e]; exact f32_ovf (by norm_num))
  rw [e, Fmt.rnd, rndQ_zero] at hr
  rw [eq_is hr (num32 (n := 0) (by decide))]
  simp

/-- **C47, unseparable_filter** with a kernel of any odd side up to 65535 (beyond that the number of window pixels does not
fit 32 bits): the kernel length is a perfect square that f32 cannot hold when the side is above 4096, but the code still
finds the side. Missing: image side plus kernel side above 2^31. -/
theorem c47_unseparable_large_partial (P : Profile) (img : Image F32) (h : img.WF) (kernel : List F32) (n : Nat)
    (hodd : n % 2 = 1) (hk : kernel.length = n * n) (hn : n ≤ 65535)
    (hw : img.info.width + n ≤ 2147483648) (hh : img.info.height + n ≤ 2147483648) :
    ∃ out, unseparableFilter P img kernel = .ok out ∧ out.Shows img.info fun x y =>
      (List.range img.info.channels).map (kernelResponse kernel (window2d img x y n)) := by
  have hr := sqrt_odd_square hn hodd
  refine unseparable_of_sqrt P img h kernel n hodd hk (by omega) (checkSquare_of_root hr) ?_ hw hh
  unfold toU32
  rw [toInt_is hr, truncQ_nat]; omega

example (P : Profile) (a b c d e f : F32) (k : List F32) (hk : k.length = 50001 * 50001) : ∃ out,
    unseparableFilter P (gray6 a b c d e f) k = .ok out := by
  obtain ⟨out, h, -⟩ := c47_unseparable_large_partial P (gray6 a b c d e f) (gray6_WF ..) k 50001 (by decide)
    hk (by decide) (by show 3 + 50001 ≤ 2147483648; decide) (by show 2 + 50001 ≤ 2147483648; decide)
  exact ⟨out, h⟩

/-- the computed side of a kernel of at most `2^32` elements is at most 65537 -/
theorem toU32_sqrt_le {n : Nat} (hn : n ≤ 4294967296) : toU32 (FloatOps.sqrt (ofNat n : F32)) ≤ 65537 := by
  rcases Nat.eq_zero_or_pos n with rfl | h0
  · have := sqrt_zero_is (f := f32) (x := ofNat 0) (by simpa using nat32 (n := 0) (by decide))
    unfold toU32
    rw [toInt_is this, truncQ_zero]; decide
  have hx := ofNat_rnd (n := n) (by omega)
  have hq1 : (1 : Rat) ≤ f32.rnd (n : Rat) :=
    le_rndQ (f := f32.toRFmt) (f32_nat (n := 1) (by decide)).1 (by exact_mod_cast h0) |>.trans' (by norm_num)
  have rep32 : RepQ f32.toRFmt 4294967296 := ⟨1, 32, by rw [pow2_eq]; norm_num, by decide, by decide⟩
  have hq2 : f32.rnd (n : Rat) ≤ 4294967296 := rndQ_le (f := f32.toRFmt) rep32 (by exact_mod_cast hn)
  generalize f32.rnd (n : Rat) = q at *
  have hq0 : 0 < q := by linarith
  have he : sqrtExp f32 q ≤ 0 := by
    have := ilog2_lt (n := 33) hq0 (by rw [pow2_eq]; norm_num; linarith)
    unfold sqrtExp; rw [f32_p]; omega
  obtain ⟨j, hj⟩ := grid_mul he 65537
  rw [show pow2 0 = 1 by decide +kernel, mul_one] at hj
  have hv := lt_sqrtApprox (f := f32) hq0 j (by rw [← hj]; push_cast; linarith)
  rw [← hj] at hv
  obtain ⟨j', hj'⟩ := grid_mul he 0
  have hv0 := sqrtApprox_lt (f := f32) hq0 j' (by rw [← hj']; simpa using hq0)
  rw [← hj'] at hv0
  simp only [Nat.cast_zero, zero_mul] at hv0
  push_cast at hv
  have his := fun h => sqrt_is (f := f32) hx hq0 h
  generalize FP.sqrtApprox f32 q = v at *
  have hr := his (f32_ovf (by rw [abs_of_pos hv0]; linarith))
  have r1 : f32.rnd v ≤ 65537 := rndQ_le (f := f32.toRFmt) (f32_nat (n := 65537) (by decide)).1 (by push_cast; linarith)
  have r0 : 0 ≤ f32.rnd v := by
    have := le_rndQ (f := f32.toRFmt) (f32_nat (n := 0) (by decide)).1 (q := v) (by push_cast; linarith)
    simpa using this
  have := toU32_is hr r0 (n := 65538) (by push_cast; linarith) (by decide)
  omega

theorem invalidArg_of_mismatch (P : Profile) {img : Image F32} (h : img.WF) (kernel : List F32) {s : Nat}
    (ho : kernel.length % 2 = 1) (hne : kernel.length ≠ s * s) (hs : s ≤ 65537)
    (hw0 : 0 < img.info.width) (hh0 : 0 < img.info.height)
    (hw : img.info.width + 65537 ≤ 2147483648) (hh : img.info.height + 65537 ≤ 2147483648) :
    (do
      let nb ← img.getNeighborhood2d P 0 0 s
      apply2dKernel P nb kernel) = invalidArg := by
  rw [getNeighborhood2d_eq P h hw0 hh0 (by omega) (by omega) (by omega) (by omega), ok_bind]
  unfold apply2dKernel
  rw [checkOdd_usize_ok ho, ok_bind]
  have hss : s * s ≤ 65537 * 65537 := Nat.mul_le_mul hs hs
  show (usizeMul P s s >>= _) = _
  rw [usizeMul_ok (by omega), ok_bind, checkEqual_err hne]
  rfl

/-- **C47** `unseparable_filter` rejects kernels whose length is not a perfect square, also those longer than `2^24` for
which the f32 test may accept: then the length is compared with the square of the computed side. (Non-empty images.) -/
theorem c47_unseparable_nonsquare (P : Profile) (img : Image F32) (h : img.WF) (kernel : List F32)
    (hn : kernel.length ≤ 4294967296) (hsq : ∀ k : Nat, k * k ≠ kernel.length)
    (hw0 : 0 < img.info.width) (hh0 : 0 < img.info.height)
    (hw : img.info.width + 65537 ≤ 2147483648) (hh : img.info.height + 65537 ≤ 2147483648) :
    Res.InvalidArg (unseparableFilter P img kernel) := by
  by_cases ho : kernel.length % 2 = 1
  · unfold unseparableFilter
    rw [checkOdd_usize_ok ho, ok_bind]
    have hc : checkSquare (ofNat (F := F32) kernel.length) = .ok () ∨ checkSquare (ofNat (F := F32) kernel.length) = invalidArg := by
      unfold checkSquare; split
      · exact .inr rfl
      · exact .inl rfl
    rcases hc with hc | hc
    · rw [hc, ok_bind]
      obtain ⟨b, eb, hb⟩ := Image.blank_eq P (FloatOps.rnum (F := F32)) h.infoWF
      dsimp only
      rw [eb, ok_bind, forRange_cons hh0, forRange_cons hw0]
      have := invalidArg_of_mismatch P h kernel ho (fun hh => hsq _ hh.symm) (toU32_sqrt_le hn) hw0 hh0 hw hh
      rw [← bind_assoc, this]
      rfl
    · rw [hc]; rfl
  · exact c47_unseparable_even P img kernel (by omega)

example (P : Profile) (a b c d e f : F32) (k : List F32) (hk : k.length = 50001 * 50001 - 2) :
    Res.InvalidArg (unseparableFilter P (gray6 a b c d e f) k) := by
  refine c47_unseparable_nonsquare P _ (gray6_WF ..) k (by rw [hk]; decide) (fun k hk' => ?_)
    (by dims) (by dims) (by show 3 + 65537 ≤ 2147483648; decide) (by show 2 + 65537 ≤ 2147483648; decide)
  rw [hk] at hk'
  rcases Nat.lt_or_ge k 50001 with h1 | h1
  · have := Nat.mul_le_mul (Nat.le_of_lt_succ h1) (Nat.le_of_lt_succ h1); omega
  · have := Nat.mul_le_mul h1 h1; omega

/-- **C48** `unseparable_filter` with any kernel whose length is the square of an odd number up to 65535 -/
theorem c48_unseparable_square (P : Profile) (img : Image F32) (h : img.WF) (kernel : List F32) {n : Nat}
    (hn : kernel.length = n * n) (hodd' : n % 2 = 1) (hn' : n ≤ 65535)
    (order : List Nat) (ho : order.Perm (List.range (img.info.width * img.info.height))) :
    SameOutcome (unseparableFilter P img kernel) (unseparableFilterPar order P img kernel) := by
  have hnn : n * n ≤ 65535 * 65535 := Nat.mul_le_mul hn' hn'
  unfold unseparableFilter unseparableFilterPar
  refine .bind (.refl _) fun _ hodd => .bind (.refl _) fun _ hsq => ?_
  have hodd := checkOdd_usize_iff hodd
  have hs : toU32 (FloatOps.sqrt (ofNat kernel.length : F32)) = n := by
    rw [hn]
    unfold toU32
    rw [toInt_is (sqrt_odd_square hn' hodd'), truncQ_nat]; omega
  dsimp only
  rw [hs]
  have := par_same P (FloatOps.rnum (F := F32)) h.infoWF
    (fun x y => do
      let nb ← img.getNeighborhood2d P x y n
      apply2dKernel P nb kernel)
    (fun x y => do
      let nb ← img.getNeighborhood2d P x y n
      unwrapRes (apply2dKernel P nb kernel))
    (fun x y _ _ => bind_congr_ok fun nb hnb =>
      unwrapRes_noErr (apply2d_noErr hodd (by rw [(getNeighborhood2d_info hnb).1, hn]) (by omega)))
    (fun x y _ _ => bind_noErr_of .getNeighborhood2d fun nb hnb =>
      apply2d_noErr hodd (by rw [(getNeighborhood2d_info hnb).1, hn]) (by omega))
    (fun x y p _ _ hp => by
      obtain ⟨nb, h1, h2⟩ := bind_eq_ok hp
      rw [apply2d_length h2, (getNeighborhood2d_info h1).2]) ho
  simp only [bind_assoc] at this
  exact this

example (P : Profile) (a b c d e f : F32) (k : List F32) (hk : k.length = 50001 * 50001) :
    SameOutcome (unseparableFilter P (gray6 a b c d e f) k)
      (unseparableFilterPar [5, 3, 1, 0, 2, 4] P (gray6 a b c d e f) k) :=
  c48_unseparable_square P _ (gray6_WF ..) k (n := 50001) hk (by decide) (by decide) _
    (by show [5, 3, 1, 0, 2, 4].Perm (List.range 6); decide)

/-- **C48 is violated for some kernel lengths above `2^24`**: with 16785407 = 4097^2 - 2 entries the f32 test for
squareness accepts the kernel, and the later length check gives an error in the sequential build, but is unwrapped in the
rayon build. -/
theorem c48_unseparable_violated (P : Profile) (img : Image F32) (h : img.WF) (kernel : List F32)
    (hk : kernel.length = 16785407) (hw0 : 0 < img.info.width) (hh0 : 0 < img.info.height)
    (hw : img.info.width + 65537 ≤ 2147483648) (hh : img.info.height + 65537 ≤ 2147483648)
    (order : List Nat) (ho : order.Perm (List.range (img.info.width * img.info.height))) :
    Res.InvalidArg (unseparableFilter P img kernel) ∧ NoErr (unseparableFilterPar order P img kernel) ∧
      ¬ Res.Returns (unseparableFilterPar order P img kernel) := by
  have hroot : (FloatOps.sqrt (ofNat 16785407 : F32)).Is ((4097 : Nat) : Rat) := by
    refine sqrt_rounded_square (e := 12) (by decide) (by decide) (by decide) ?_
    have e : f32.rnd ((4097 * 4097 : Nat) : Rat) = f32.rnd ((16785407 : Nat) : Rat) := by decide +kernel
    rw [e]; exact ofNat_rnd (by decide)
  have hs : toU32 (FloatOps.sqrt (ofNat 16785407 : F32)) = 4097 := by
    unfold toU32; rw [toInt_is hroot, truncQ_nat]; decide
  have hodd : kernel.length % 2 = 1 := by rw [hk]
  have hne : kernel.length ≠ 4097 * 4097 := by rw [hk]; decide
  refine ⟨?_, ?_, ?_⟩
  · refine c47_unseparable_nonsquare P img h kernel (by rw [hk]; decide) ?_ hw0 hh0 hw hh
    rw [hk]
    intro k hk'
    rcases Nat.lt_or_ge k 4097 with h1 | h1
    · have := Nat.mul_le_mul (Nat.le_of_lt_succ h1) (Nat.le_of_lt_succ h1); omega
    · have := Nat.mul_le_mul h1 h1; omega
  · unfold unseparableFilterPar
    rw [checkOdd_usize_ok hodd, ok_bind, hk, checkSquare_of_root hroot, ok_bind]
    exact .bind .size fun _ => .bind (.parCollect fun _ => .bind .get2dCoords fun _ =>
      .bind .getNeighborhood2d fun _ => .unwrapRes) fun _ => .fromVecOfVec
  · unfold unseparableFilterPar
    rw [checkOdd_usize_ok hodd, ok_bind, hk, checkSquare_of_root hroot, ok_bind]
    dsimp only
    rw [hs, ImageInfo.size_eq P h.infoWF, ok_bind]
    rintro ⟨v, hv⟩
    obtain ⟨d, h1, -⟩ := bind_eq_ok hv
    refine parCollect_fail ho (i := 0) (Nat.mul_pos hw0 hh0) ?_ ⟨d, h1⟩
    have h0 := c38_get_2d_coords_inv P 0 0 img.info.width hw0
    rw [Nat.zero_mul, Nat.zero_add] at h0
    rw [h0, ok_bind]
    rintro ⟨p, hp⟩
    obtain ⟨nb, h2, h3⟩ := bind_eq_ok hp
    have h4 := invalidArg_of_mismatch P h kernel hodd hne (by decide) hw0 hh0 hw hh
    rw [h2, ok_bind] at h4
    rw [h4] at h3
    cases h3

example (P : Profile) (a b c d e f : F32) (k : List F32) (hk : k.length = 16785407) :
    Res.InvalidArg (unseparableFilter P (gray6 a b c d e f) k) ∧
      ¬ Res.Returns (unseparableFilterPar [5, 3, 1, 0, 2, 4] P (gray6 a b c d e f) k) :=
  have h := c48_unseparable_violated P _ (gray6_WF a b c d e f) k hk (by dims) (by dims) (by show 3 + 65537 ≤ 2147483648; decide)
    (by show 2 + 65537 ≤ 2147483648; decide) [5, 3, 1, 0, 2, 4] (by show [5, 3, 1, 0, 2, 4].Perm (List.range 6); decide)
  ⟨h.1, h.2.2⟩
end
end Imgproc

import Verif.Proofs.Shapes2
/-!
C131, continued: transformations that change the size, the AVX2 and the rayon versions.
-/
namespace Imgproc
open FloatOps
variable {T S F : Type} [FloatOps F] {i : ImageInfo} {P : Profile}

/-- in a loop that finishes, every round finished -/
theorem loop_reach {σ : Type} {p : σ → Prop} {a b : Nat} {s s' : σ} {f : Nat → σ → Res σ} (h0 : p s)
    (hf : ∀ k s, p s → Gives p (f k s)) (e : forRange a b s f = .ok s') {k : Nat} (h1 : a ≤ k) (h2 : k < b) :
    ∃ s1 s2, p s1 ∧ f k s1 = .ok s2 := by
  obtain ⟨n, rfl⟩ : ∃ n, b = a + n := ⟨b - a, by omega⟩
  induction n generalizing a s with
  | zero => omega
  | succ n ih =>
    rw [forRange_cons (by omega)] at e
    obtain ⟨s1, e1, e⟩ := bind_eq_ok e
    rcases Nat.eq_or_lt_of_le h1 with rfl | h
    · exact ⟨s, s1, h0, e1⟩
    · rw [show a + (n + 1) = a + 1 + n by omega] at e
      exact ih (hf a s h0 s1 e1) (by omega) e (by omega)

/-- a pixel that was written lies in the buffer -/
theorem setPixel_fits {img o : Image T} {x y : Nat} {p : List T} (e : img.setPixel P x y p = .ok o)
    (h1 : y * img.info.width + x < U32SIZE) (h2 : (y * img.info.width + x) * img.info.channels < U32SIZE) (hc : img.info.channels < 256) :
    (y * img.info.width + x) * img.info.channels + img.info.channels ≤ img.data.length := by
  unfold Image.setPixel at e
  obtain ⟨_, -, e⟩ := bind_eq_ok e
  obtain ⟨_, -, e⟩ := bind_eq_ok e
  obtain ⟨a, ea, e⟩ := bind_eq_ok e
  obtain ⟨b, eb, e⟩ := bind_eq_ok e
  obtain ⟨d, ed, e⟩ := bind_eq_ok e
  unfold Image.index at ea
  rw [u32Mul_ok (by omega), ok_bind, u32Add_ok h1, ok_bind, u32Mul_ok h2] at ea
  cases ea
  unfold usizeAdd at eb
  rw [show wrapNat P USIZE _ = .ok _ from if_pos (by omega)] at eb
  cases eb
  unfold writeSlice at ed
  split at ed
  · omega
  · cases ed

/-- a blank image of which every pixel is then written: if all the writes succeed, the sizes fit -/
theorem gives_fill {N : RNum T} (hw : i.width < U32SIZE) (hh : i.height < U32SIZE) (hc : i.channels < 256) (h0 : 0 < i.channels)
    {f : Nat → Nat → Res (List T)} {w : Image T → Nat} (hiw : ∀ o : Image T, o.info = i → w o = i.width) :
    Gives (Shaped i) (do
      let output ← Image.blank P N i
      forRange 0 i.height output fun y output =>
        forRange 0 (w output) output fun x output => do
          let p ← f x y
          output.setPixel P x y p) := by
  have keep : ∀ o, Shaped i o → Gives (Shaped i) (forRange 0 i.height o fun y output =>
        forRange 0 (w output) output fun x output => do
          let p ← f x y
          output.setPixel P x y p) := fun o ho =>
    .loop ho fun y s hs => .loop hs fun x s hs => .bindAny fun _ => gives_setPixel hs
  cases P with
  | debug => exact .bind (gives_blank_debug hw hh hc) keep
  | release =>
    by_cases hf : i.width * i.height * i.channels < U32SIZE
    · have hs : i.width * i.height < U32SIZE := (Nat.le_mul_of_pos_right _ h0).trans_lt hf
      exact .bind (gives_blank ⟨hw, hh, hc, hs, hf⟩) keep
    intro o e
    exfalso
    obtain ⟨b, eb, e⟩ := bind_eq_ok e
    unfold Image.blank at eb
    obtain ⟨n, en, eb⟩ := bind_eq_ok eb
    have hn : n < U32SIZE := by
      unfold ImageInfo.fullSize at en
      obtain ⟨m, -, en⟩ := bind_eq_ok en
      exact gives_wrap (n := U32SIZE) (by decide) n en
    cases eb
    -- the first pixel that does not lie in the buffer
    have k1 : n / i.channels * i.channels ≤ n := Nat.div_mul_le_self _ _
    have k2 : n < n / i.channels * i.channels + i.channels := by
      have := Nat.lt_div_mul_add (a := n) h0
      omega
    have k3 : n / i.channels < i.width * i.height := by
      refine Nat.lt_of_mul_lt_mul_right (a := i.channels) ?_
      omega
    have k4 : n / i.channels ≤ n := Nat.div_le_self _ _
    generalize n / i.channels = k at *
    have hw0 : 0 < i.width := by
      rcases Nat.eq_zero_or_pos i.width with h | h
      · rw [h] at k3; omega
      · exact h
    have hk := Nat.div_add_mod k i.width
    rw [Nat.mul_comm] at hk
    let p := fun s : Image T => s.info = i ∧ s.data.length = n
    have hp : ∀ (y x : Nat) (s : Image T), p s → Gives p (do
        let q ← f x y
        s.setPixel .release x y q) := by
      intro y x s hs
      refine .bindAny fun q => ?_
      unfold Image.setPixel
      exact .bindAny fun _ => .bindAny fun _ => .bindAny fun _ => .bindAny fun _ => .bind gives_writeSlice fun d hd =>
        .ok ⟨hs.1, hd.trans hs.2⟩
    obtain ⟨s1, s2, h1, e⟩ := loop_reach (p := p) (k := k / i.width) ⟨rfl, by simp⟩ (fun y s hs => .loop hs fun x s hs => hp y x s hs) e
      (Nat.zero_le _) (Nat.div_lt_of_lt_mul k3)
    obtain ⟨s3, s4, h3, e⟩ := loop_reach (p := p) (k := k % i.width) h1 (fun x s hs => hp (k / i.width) x s hs) e
      (Nat.zero_le _) (by rw [hiw s1 h1.1]; exact Nat.mod_lt _ hw0)
    obtain ⟨q, -, e⟩ := bind_eq_ok e
    have := setPixel_fits e (by rw [h3.1, hk]; omega) (by rw [h3.1, hk]; omega) (by rw [h3.1]; exact hc)
    rw [h3.1, hk, h3.2] at this
    omega

/-! ### Crop, scale -/
theorem gives_crop {N : RNum T} {a : Image T} (h : a.WF) (h0 : 0 < a.info.channels) {x y w k : Nat} (hw : w < U32SIZE) (hk : k < U32SIZE) :
    Gives (Shaped ⟨w, k, a.info.channels, a.info.alpha⟩) (crop P N a x y w k) := by
  unfold crop
  refine .bindAny fun _ => ?_
  have := gives_fill (P := P) (N := N) (i := ⟨w, k, a.info.channels, a.info.alpha⟩) hw hk h.channels h0
    (f := fun i j => do
      let ix ← u32Add P i x
      let jy ← u32Add P j y
      a.getPixel P ix jy) (w := fun _ => w) (fun _ _ => rfl)
  simpa only [bind_assoc] using this

/-- a blank image some pixels of which are then written -/
theorem gives_draw {N : RNum T} {f : Image T → Res (Image T)} (hd : P = .debug ∨ i.WF) (hw : i.width < U32SIZE) (hh : i.height < U32SIZE)
    (hc : i.channels < 256) (hf : ∀ o, Shaped i o → Gives (Shaped i) (f o)) : Gives (Shaped i) (Image.blank P N i >>= f) := by
  rcases hd with rfl | hd
  · exact .bind (gives_blank_debug hw hh hc) hf
  · exact .bind (gives_blank hd) hf

/-- the header never changes after `blank` -/
theorem gives_info {N : RNum T} {f : Image T → Res (Image T)} (hf : ∀ o, o.info = i → Gives (fun o => o.info = i) (f o)) :
    Gives (fun o => o.info = i) (Image.blank P N i >>= f) := by
  refine .bind (q := fun o => o.info = i) ?_ hf
  unfold Image.blank
  exact .bindAny fun _ => .ok rfl
theorem gives_setPixel_info {o : Image T} (h : o.info = i) {x y : Nat} {p : List T} : Gives (fun o => o.info = i) (o.setPixel P x y p) := by
  unfold Image.setPixel
  exact .bindAny fun _ => .bindAny fun _ => .bindAny fun _ => .bindAny fun _ => .bindAny fun _ => .ok h

/-- every returned image whose header fits is consistent; in a build with overflow checks every returned image -/
def ConsistentIfFits (P : Profile) (o : Image T) : Prop := (P = .debug ∨ o.info.WF) → o.WF

theorem gives_fits {N : RNum T} {f : Image T → Res (Image T)} (hw : i.width < U32SIZE) (hh : i.height < U32SIZE)
    (hc : i.channels < 256) (hf : ∀ o, Shaped i o → Gives (Shaped i) (f o)) (hg : ∀ o, o.info = i → Gives (fun o => o.info = i) (f o)) :
    Gives (ConsistentIfFits P) (Image.blank P N i >>= f) := by
  intro o e hd
  have hi := gives_info hg o e
  exact (gives_draw (hi ▸ hd) hw hh hc hf o e).1

section
variable [Libm f32]
theorem toU32_f32_lt (v : F32) : toU32 v < U32SIZE := by
  unfold toU32
  rw [show FloatOps.toInt 0 4294967295 v = FP.toInt 0 4294967295 v.val from rfl]
  unfold FP.toInt
  split
  · decide
  · split <;> decide
  · decide
  · generalize FP.truncQ _ = z
    omega

theorem gives_scaleLoop {c : Nat} {al : Bool} (hc : c < 256) (h0 : 0 < c) (u v : F32) {f : Nat → Nat → Res (List F32)} :
    Gives (Shaped ⟨toU32 u, toU32 v, c, al⟩) (do
      let output ← Image.blank P FloatOps.rnum ⟨toU32 u, toU32 v, c, al⟩
      scaleLoop P output f) := by
  have := gives_fill (P := P) (N := FloatOps.rnum) (i := ⟨toU32 u, toU32 v, c, al⟩) (toU32_f32_lt u) (toU32_f32_lt v) hc h0 (f := f)
    (w := fun o => o.info.width) (fun o ho => by rw [ho])
  intro o e
  refine this o ?_
  obtain ⟨b, eb, e⟩ := bind_eq_ok e
  have hb : b.info = ⟨toU32 u, toU32 v, c, al⟩ := by
    unfold Image.blank at eb
    obtain ⟨n, -, eb⟩ := bind_eq_ok eb
    cases eb; rfl
  rw [eb, ok_bind]
  unfold scaleLoop at e
  rw [hb] at e
  exact e

theorem gives_scale {a : Image F32} (h : a.WF) (h0 : 0 < a.info.channels) {u v : F32} {m : Scale} :
    Gives (Shaped ⟨scaleDim a.info.width u, scaleDim a.info.height v, a.info.channels, a.info.alpha⟩) (scale P a u v m) :=
  .bindAny fun _ => .bindAny fun _ => gives_scaleLoop h.channels h0 _ _
theorem gives_scaleLanczos {a : Image F32} (h : a.WF) (h0 : 0 < a.info.channels) {u v : F32} {n : Nat} :
    Gives (Shaped ⟨scaleDim a.info.width u, scaleDim a.info.height v, a.info.channels, a.info.alpha⟩) (scaleLanczos P a u v n) :=
  .bindAny fun _ => .bindAny fun _ => .bindAny fun _ => gives_scaleLoop h.channels h0 _ _

/-! ### Shear and rotate: consistent when the size of the result fits -/

theorem gives_shear {a : Image F32} (h : a.WF) {u v : F32} : Gives (ConsistentIfFits P) (shear P a u v) := by
  unfold shear
  refine .bind (gives_wrap (by decide)) fun w hw => .bind (gives_wrap (by decide)) fun k hk => ?_
  refine gives_fits hw hk h.channels (fun o ho => ?_) fun o ho => ?_
  · sh
  · refine .loop ho fun y s hs => .loop hs fun x s hs => ?_
    exact .bindAny fun _ => .bindAny fun _ => .bindAny fun _ => .bindAny fun _ => gives_setPixel_info hs

theorem gives_rotate {a : Image F32} (h : a.WF) {d : F32} : Gives (ConsistentIfFits P) (rotate P a d) := by
  unfold rotate
  dsimp only
  iterate 13 refine .bindAny fun _ => ?_
  refine gives_fits (toU32_f32_lt _) (toU32_f32_lt _) h.channels (fun o ho => ?_) fun o ho => ?_
  · refine .loop ho fun y s hs => .loop hs fun x s hs => .bindAny fun _ => .bindAny fun _ => .bindAny fun _ => .bindAny fun _ =>
      .bind (gives_setPixel hs) fun s hs => .ite (fun _ => .bindAny fun _ => .bindAny fun _ => gives_setPixel hs) fun _ => .ok hs
  · refine .loop ho fun y s hs => .loop hs fun x s hs => .bindAny fun _ => .bindAny fun _ => .bindAny fun _ => .bindAny fun _ =>
      .bind (gives_setPixel_info hs) fun s hs => .ite (fun _ => .bindAny fun _ => .bindAny fun _ => gives_setPixel_info hs) fun _ => .ok hs
end

/-! ### AVX2 -/
theorem gives_storeBytes {l v : List UInt8} {k : Nat} : Gives (fun d => d.length = l.length) (storeBytes l k v) := by
  unfold storeBytes
  refine .ite (fun h => .ok ?_) fun _ => .error
  simp; omega
theorem gives_storeu2 {l v : List UInt8} {j k : Nat} : Gives (fun d => d.length = l.length) (storeu2 l j k v) := by
  unfold storeu2
  exact .bind gives_storeBytes fun d hd => gives_storeBytes.mono fun e he => he.trans hd
theorem gives_whileStep {σ : Type} {p : σ → Prop} {add : Nat → Nat → Res Nat} {st n : Nat} {f : Nat → σ → Res σ}
    (hf : ∀ k s, p s → Gives p (f k s)) {fuel k : Nat} {s : σ} (h0 : p s) : Gives (fun r => p r.2) (whileStep add st n f fuel k s) := by
  induction fuel generalizing k s with
  | zero => exact .panics
  | succ m ih => exact .bindAny fun t => .ite (fun _ => .bind (hf k s h0) fun s hs => ih hs) fun _ => .ok h0

theorem gives_adds256U8 {img : Image UInt8} (h : Shaped i img) {v : Int} : Gives (Shaped i) (adds256U8 P img v) := by
  obtain ⟨h, rfl⟩ := h
  unfold adds256U8
  refine .bind (gives_fullSize h.infoWF) fun n hn => .bindAny fun _ =>
    .bind (gives_whileStep (p := fun d : List UInt8 => d.length = n) (fun k s hs => .bindAny fun _ => gives_storeBytes.mono fun d hd => hd.trans hs) (by simp)) fun r hr => ?_
  obtain ⟨j, d⟩ := r
  dsimp only at hr ⊢
  have fin : ∀ d : List UInt8, d.length = n → Shaped img.info (Image.fromVec img.info.width img.info.height img.info.channels img.info.alpha d) :=
    fun d hd => shaped_of h.infoWF rfl (by simpa [Image.fromVec] using hd.trans hn)
  refine .ite (fun _ => .bindAny fun _ => .bind (q := fun d => d.length = n) (Gives.loop hr fun k s hs => .bindAny fun _ => .bindAny fun _ =>
    gives_setIdx.mono fun d hd => hd.trans hs) fun d hd => .ok (fin d hd)) fun _ => .ok (fin d hr)
theorem gives_addsN256U8 {img : Image UInt8} (h : Shaped i img) {v : Int} {k : Nat} : Gives (Shaped i) (addsN256U8 P img v k) := by
  obtain ⟨h, rfl⟩ := h
  unfold addsN256U8
  refine .bind (gives_fullSize h.infoWF) fun n hn => .bindAny fun _ =>
    .bind (gives_whileStep (p := fun d : List UInt8 => d.length = n) (fun k s hs => .bindAny fun _ => gives_storeBytes.mono fun d hd => hd.trans hs) (by simp)) fun r hr => ?_
  obtain ⟨j, d⟩ := r
  dsimp only at hr ⊢
  have fin : ∀ d : List UInt8, d.length = n → Shaped img.info (Image.fromVec img.info.width img.info.height img.info.channels img.info.alpha d) :=
    fun d hd => shaped_of h.infoWF rfl (by simpa [Image.fromVec] using hd.trans hn)
  refine .ite (fun _ => .bindAny fun _ => .bind (q := fun d => d.length = n) (Gives.step hr fun k s hs => .bindAny fun _ => .bindAny fun _ => .bindAny fun _ =>
    gives_setIdx.mono fun d hd => hd.trans hs) fun d hd => .ok (fin d hd)) fun _ => .ok (fin d hr)
theorem gives_brightness_any {avx2 : Bool} {img : Image UInt8} (h : Shaped i img) {b : Int} : Gives (Shaped i) (brightness avx2 P img b) := by
  cases avx2
  · exact gives_brightness h
  · exact .bindAny fun _ => .bindAny fun _ => gives_adds256U8 h
theorem gives_saturation_any {avx2 : Bool} {img : Image UInt8} (h : Shaped i img) {b : Int} :
    Gives (Shaped (i.recolour 3)) (saturation avx2 P img b) := by
  cases avx2
  · exact gives_saturation h
  · exact .bindAny fun _ => .bind (gives_rgbToHsv h) fun _ h => .bind (gives_addsN256U8 h) fun _ h => gives_hsvToRgb (i := i.recolour 3) h

/-- the AVX2 grayscale conversion assumes three colour channels -/
theorem gives_rgbToGrayscale {avx2 : Bool} {img : Image UInt8} (h : Shaped i img) (h3 : avx2 = true → i = i.recolour 3) :
    Gives (Shaped (i.recolour 1)) (rgbToGrayscale F avx2 P img) := by
  cases avx2 with
  | false => exact gives_rgbToGrayscaleNorm h
  | true =>
    obtain ⟨h, rfl⟩ := h
    have hc : img.info.channels = if img.info.alpha then 4 else 3 := congrArg ImageInfo.channels (h3 rfl)
    have hf := h.full
    have hs := h.size
    unfold rgbToGrayscale avgChecked256U8
    simp only [if_true]
    cases ha : img.info.alpha with
    | true =>
      simp only [ha, if_true] at hc ⊢
      unfold avgAlpha256U8
      refine .bindAny fun _ => .bind (gives_fullSize h.infoWF) fun n hn =>
        .bind (gives_whileStep (p := fun d : List UInt8 => d.length = n / 2) (fun k s hs => .bindAny fun _ => .bind gives_storeu2 fun d hd =>
          gives_storeu2.mono fun e he => he.trans (hd.trans hs)) (by simp)) fun r hr => ?_
      obtain ⟨j, d⟩ := r
      dsimp only at hr ⊢
      suffices fin : ∀ d : List UInt8, d.length = n / 2 → Shaped (img.info.recolour 1) (Image.fromVec img.info.width img.info.height 2 img.info.alpha d) by
        refine .ite (fun _ => .bindAny fun _ => .bind (q := fun d => d.length = n / 2) (Gives.step hr fun k s hs => .bindAny fun _ => .bind gives_setIdx fun d hd => .bindAny fun _ =>
          gives_setIdx.mono fun e he => he.trans (hd.trans hs)) fun d hd => .ok (fin d hd)) fun _ => .ok (fin d hr)
      · intro d hd
        rw [hc] at hn hf
        refine shaped_of (i := img.info.recolour 1) ?_ (by simp [Image.fromVec, ImageInfo.recolour, ha]) ?_
        · exact ⟨h.width, h.height, by simp [ImageInfo.recolour, ha], h.size, by simp only [ImageInfo.recolour, ha, if_true]; omega⟩
        · simp only [Image.fromVec, ImageInfo.recolour, ha, if_true]; omega
    | false =>
      simp only [ha, Bool.false_eq_true, if_false] at hc ⊢
      unfold avg256U8
      refine .bindAny fun _ => .bind (gives_fullSize h.infoWF) fun n hn =>
        .bind (gives_whileStep (p := fun d : List UInt8 => d.length = n / 3) (fun k s hs => .bindAny fun _ => .bindAny fun _ =>
          gives_storeBytes.mono fun d hd => hd.trans hs) (by simp)) fun r hr => ?_
      obtain ⟨j, d⟩ := r
      dsimp only at hr ⊢
      suffices fin : ∀ d : List UInt8, d.length = n / 3 → Shaped (img.info.recolour 1) (Image.fromVec img.info.width img.info.height 1 img.info.alpha d) by
        refine .ite (fun _ => .bindAny fun _ => .bind (q := fun d => d.length = n / 3) (Gives.step hr fun k s hs => .bindAny fun _ => .bindAny fun _ =>
          gives_setIdx.mono fun e he => he.trans hs) fun d hd => .ok (fin d hd)) fun _ => .ok (fin d hr)
      · intro d hd
        rw [hc] at hn hf
        refine shaped_of (i := img.info.recolour 1) ?_ (by simp [Image.fromVec, ImageInfo.recolour, ha]) ?_
        · exact ⟨h.width, h.height, by simp [ImageInfo.recolour, ha], h.size, by simp only [ImageInfo.recolour, ha, if_false, Bool.false_eq_true]; omega⟩
        · simp only [Image.fromVec, ImageInfo.recolour, ha, if_false, Bool.false_eq_true]; omega
end Imgproc

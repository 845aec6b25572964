import Verif.Model.Tone
import Verif.Proofs.Res
/-! Computations that never return `Err(..)` (they may panic). -/
namespace Imgproc

/-- the call does not return `Err(..)` -/
def NoErr {α} (r : Res α) : Prop := ∀ e, r ≠ .error (.err e)

theorem NoErr.ok {α} (a : α) : NoErr (.ok a : Res α) := fun _ h => by cases h
theorem NoErr.pure {α} (a : α) : NoErr (Pure.pure a : Res α) := fun _ h => by cases h
theorem NoErr.panic {α} (k) : NoErr (Imgproc.panic k : Res α) := fun _ h => by cases h
theorem NoErr.ub {α} : NoErr (.error .ub : Res α) := fun _ h => by cases h
theorem NoErr.bind {α β} {r : Res α} {f : α → Res β} (h : NoErr r) (hf : ∀ a, NoErr (f a)) :
    NoErr (r >>= f) := by
  cases r with
  | ok a => exact hf a
  | error x => intro e he; exact h e (by cases he; rfl)
theorem NoErr.wrapNat {P n v} : NoErr (Imgproc.wrapNat P n v) := by
  unfold Imgproc.wrapNat; split
  · exact .ok _
  · cases P <;> first | exact .ok _ | exact .panic _
theorem NoErr.wrapInt {P n v} : NoErr (Imgproc.wrapInt P n v) := by
  unfold Imgproc.wrapInt; split
  · exact .ok _
  · cases P <;> first | exact .ok _ | exact .panic _
theorem NoErr.u32Add {P a b} : NoErr (Imgproc.u32Add P a b) := .wrapNat
theorem NoErr.u32Mul {P a b} : NoErr (Imgproc.u32Mul P a b) := .wrapNat
theorem NoErr.usizeAdd {P a b} : NoErr (Imgproc.usizeAdd P a b) := .wrapNat
theorem NoErr.usizeMul {P a b} : NoErr (Imgproc.usizeMul P a b) := .wrapNat
theorem NoErr.u32Sub {P a b} : NoErr (Imgproc.u32Sub P a b) := by
  unfold Imgproc.u32Sub; split
  · exact .ok _
  · cases P <;> first | exact .ok _ | exact .panic _
theorem NoErr.usizeSub {P a b} : NoErr (Imgproc.usizeSub P a b) := by
  unfold Imgproc.usizeSub; split
  · exact .ok _
  · cases P <;> first | exact .ok _ | exact .panic _
theorem NoErr.i32Add {P a b} : NoErr (Imgproc.i32Add P a b) := .wrapInt
theorem NoErr.i32Sub {P a b} : NoErr (Imgproc.i32Sub P a b) := .wrapInt
theorem NoErr.i32Mul {P a b} : NoErr (Imgproc.i32Mul P a b) := .wrapInt
theorem NoErr.i16Add {P a b} : NoErr (Imgproc.i16Add P a b) := .wrapInt
theorem NoErr.i16Abs {P a} : NoErr (Imgproc.i16Abs P a) := .wrapInt
theorem NoErr.natDiv {a b} : NoErr (Imgproc.natDiv a b) := by
  unfold Imgproc.natDiv; split <;> first | exact .ok _ | exact .panic _
theorem NoErr.i32Div {a b} : NoErr (Imgproc.i32Div a b) := by
  unfold Imgproc.i32Div; split
  · exact .panic _
  · split <;> first | exact .ok _ | exact .panic _
theorem NoErr.intClamp {a b c} : NoErr (Imgproc.intClamp a b c) := by
  unfold Imgproc.intClamp; split <;> first | exact .ok _ | exact .panic _
theorem NoErr.idx {α} {l : List α} {i} : NoErr (Imgproc.idx l i) := by
  unfold Imgproc.idx; split <;> first | exact .ok _ | exact .panic _
theorem NoErr.setIdx {α} {l : List α} {i v} : NoErr (Imgproc.setIdx l i v) := by
  unfold Imgproc.setIdx; split <;> first | exact .ok _ | exact .panic _
theorem NoErr.slice {α} {l : List α} {i v} : NoErr (Imgproc.slice l i v) := by
  unfold Imgproc.slice; split <;> first | exact .ok _ | exact .panic _
theorem NoErr.writeSlice {α} {l : List α} {i v p} : NoErr (Imgproc.writeSlice l i v p) := by
  unfold Imgproc.writeSlice; split <;> first | exact .ok _ | exact .panic _
theorem NoErr.unwrapRes {α} {r : Res α} : NoErr (Imgproc.unwrapRes r) := by
  unfold Imgproc.unwrapRes
  split
  · exact .panic _
  · rename_i h; intro e he; exact h e he
theorem NoErr.loopFrom {σ} {f : Nat → σ → Res σ} (hf : ∀ i s, NoErr (f i s)) :
    ∀ n i s, NoErr (Imgproc.loopFrom f n i s)
  | 0, _, s => .ok s
  | n + 1, i, s => .bind (hf i s) (fun _ => NoErr.loopFrom hf n _ _)
theorem NoErr.forRange {σ} {a b} {s : σ} {f : Nat → σ → Res σ} (hf : ∀ i s, NoErr (f i s)) :
    NoErr (Imgproc.forRange a b s f) := .loopFrom hf _ _ _
theorem NoErr.forStep {σ} {a b c} {s : σ} {f : Nat → σ → Res σ} (hf : ∀ i s, NoErr (f i s)) :
    NoErr (Imgproc.forStep a b c s f) := by
  unfold Imgproc.forStep; split
  · exact .panic _
  · exact .forRange (fun _ _ => hf _ _)
theorem NoErr.forList {α σ} {f : α → σ → Res σ} (hf : ∀ i s, NoErr (f i s)) :
    ∀ {l : List α} {s : σ}, NoErr (Imgproc.forList l s f)
  | [], s => .ok s
  | a :: l, s => .bind (hf a s) (fun _ => NoErr.forList hf)
theorem NoErr.ite {α} {c : Prop} [Decidable c] {a b : Res α} (ha : NoErr a) (hb : NoErr b) :
    NoErr (if c then a else b) := by split <;> assumption
theorem NoErr.whileStep {σ} {add : Nat → Nat → Res Nat} {step n} {body : Nat → σ → Res σ}
    (ha : ∀ i j, NoErr (add i j)) (hb : ∀ i s, NoErr (body i s)) :
    ∀ fuel i s, NoErr (Imgproc.whileStep add step n body fuel i s)
  | 0, _, _ => .panic _
  | fuel + 1, i, s => .bind (ha _ _) (fun _ => .ite (.bind (hb _ _) fun _ => NoErr.whileStep ha hb _ _ _) (.ok _))

/-- discharge `NoErr` goals structurally -/
macro "no_err" : tactic => `(tactic| repeat' first
  | assumption
  | with_reducible exact NoErr.ok _ | with_reducible exact NoErr.pure _ | with_reducible exact NoErr.panic _ | with_reducible exact NoErr.ub
  | with_reducible exact NoErr.u32Add | with_reducible exact NoErr.u32Mul | with_reducible exact NoErr.usizeAdd | with_reducible exact NoErr.usizeMul
  | with_reducible exact NoErr.u32Sub | with_reducible exact NoErr.usizeSub | with_reducible exact NoErr.i32Add | with_reducible exact NoErr.i32Sub
  | with_reducible exact NoErr.i32Mul | with_reducible exact NoErr.i16Add | with_reducible exact NoErr.i16Abs | with_reducible exact NoErr.natDiv
  | with_reducible exact NoErr.i32Div | with_reducible exact NoErr.intClamp | with_reducible exact NoErr.idx | with_reducible exact NoErr.setIdx
  | with_reducible exact NoErr.slice | with_reducible exact NoErr.writeSlice | with_reducible exact NoErr.unwrapRes
  | with_reducible refine NoErr.forRange (fun _ _ => ?_)
  | with_reducible refine NoErr.forStep (fun _ _ => ?_)
  | with_reducible refine NoErr.forList (fun _ _ => ?_)
  | with_reducible refine NoErr.bind ?_ (fun _ => ?_)
  | with_reducible refine NoErr.ite ?_ ?_
  | split)

theorem NoErr.fullSize {P} {i : ImageInfo} : NoErr (i.fullSize P) := by
  unfold ImageInfo.fullSize; no_err
theorem NoErr.size {P} {i : ImageInfo} : NoErr (i.size P) := NoErr.u32Mul
theorem NoErr.checkXY {x y w h} : NoErr (Imgproc.checkXY x y w h) := by
  unfold Imgproc.checkXY; no_err
theorem NoErr.checkChannels {x y} : NoErr (Imgproc.checkChannels x y) := by
  unfold Imgproc.checkChannels; no_err
theorem NoErr.at' {T P} {img : Image T} {i} : NoErr (img.at' P i) := by
  unfold Image.at'; no_err
theorem NoErr.getPixel {T P} {img : Image T} {x y} : NoErr (img.getPixel P x y) := by
  unfold Image.getPixel
  exact .bind .checkXY fun _ => .bind .u32Mul fun _ => .bind .u32Add fun _ => .at'
theorem NoErr.pixelAlpha {T P} {p : List T} : NoErr (Pixel.alpha P p) := by
  unfold Pixel.alpha; no_err
theorem NoErr.channelsWithoutAlpha {T P} {p : List T} : NoErr (Pixel.channelsWithoutAlpha P p) := by
  unfold Pixel.channelsWithoutAlpha; no_err
theorem NoErr.mapAlpha {T S P} {p : List T} {f g : T → Res S} (hf : ∀ v, NoErr (f v)) (hg : ∀ v, NoErr (g v)) :
    NoErr (Pixel.mapAlpha P p f g) := by
  unfold Pixel.mapAlpha
  exact .bind .channelsWithoutAlpha fun _ => .bind (.forList fun _ _ => .bind (hf _) fun _ => .ok _) fun _ =>
    .bind .pixelAlpha fun _ => .bind (hg _) fun _ => .ok _
theorem NoErr.mapChannels {T S P} {img : Image T} {f : T → Res S} (hf : ∀ v, NoErr (f v)) :
    NoErr (img.mapChannels P f) := by
  unfold Image.mapChannels
  exact .bind .fullSize fun _ => .bind (.forRange fun _ _ => .bind .idx fun _ => .bind (hf _) fun _ => .ok _)
    fun _ => .ok _
theorem NoErr.mapChannelsIfAlpha {T S P} {img : Image T} {f g : T → Res S} (hf : ∀ v, NoErr (f v))
    (hg : ∀ v, NoErr (g v)) : NoErr (img.mapChannelsIfAlpha P f g) := by
  unfold Image.mapChannelsIfAlpha
  exact .ite (.mapChannels hf) (.bind .fullSize fun _ => .bind .size fun _ => .bind
    (.forRange fun _ _ => .bind .at' fun _ => .bind (.mapAlpha hf hg) fun _ => .ok _) fun _ => .ok _)
theorem NoErr.mapPixels {T S P} {img : Image T} {f : List T → List S → Res (List S)}
    (hf : ∀ p o, NoErr (f p o)) : NoErr (img.mapPixels P f) := by
  unfold Image.mapPixels
  exact .bind .size fun _ => .bind (.forRange fun _ _ => .bind .at' fun _ => .bind (hf _ _) fun _ => .ok _)
    fun _ => .bind .size fun _ => .bind .natDiv fun _ => .ok _
theorem NoErr.mapPixelsIfAlpha {T S P} {img : Image T} {f : List T → List S → Res (List S)} {g : T → Res S}
    (hf : ∀ p o, NoErr (f p o)) (hg : ∀ v, NoErr (g v)) : NoErr (img.mapPixelsIfAlpha P f g) := by
  unfold Image.mapPixelsIfAlpha
  exact .ite (.mapPixels hf) (.bind .size fun _ => .bind
    (.forRange fun _ _ => .bind .at' fun _ => .bind .channelsWithoutAlpha fun _ => .bind (hf _ _) fun _ =>
      .bind .at' fun _ => .bind .pixelAlpha fun _ => .bind (hg _) fun _ => .ok _)
    fun _ => .bind .size fun _ => .bind .natDiv fun _ => .ok _)
theorem NoErr.editChannel {T P} {img : Image T} {f : T → Res T} {k} (hf : ∀ v, NoErr (f v)) :
    NoErr (img.editChannel P f k) := by
  unfold Image.editChannel
  exact .bind .fullSize fun _ => .forStep fun _ _ => .bind .idx fun _ => .bind (hf _) fun _ =>
    .bind .setIdx fun _ => .ok _
theorem NoErr.generateLookupTable {T} {t : List T} {f : UInt8 → Res T} (hf : ∀ v, NoErr (f v)) :
    NoErr (Imgproc.generateLookupTable t f) := by
  unfold Imgproc.generateLookupTable
  exact .forRange fun _ _ => .bind (hf _) fun _ => .setIdx
theorem NoErr.addClampU8 {P c v} : NoErr (Imgproc.addClampU8 P c v) := by
  unfold Imgproc.addClampU8; no_err
theorem NoErr.load256 {d i} : NoErr (Imgproc.load256 d i) := by unfold Imgproc.load256; no_err
theorem NoErr.storeBytes {d i v} : NoErr (Imgproc.storeBytes d i v) := by unfold Imgproc.storeBytes; no_err
theorem NoErr.adds256U8 {P img v} : NoErr (Imgproc.adds256U8 P img v) := by
  unfold Imgproc.adds256U8
  refine .bind .fullSize fun _ => .bind .i16Abs fun _ => ?_
  dsimp only
  refine .bind (.whileStep (fun _ _ => .u32Add) (fun _ _ => .bind .load256 fun _ => .storeBytes) _ _ _) fun _ => ?_
  have := @NoErr.addClampU8 P
  no_err
  all_goals first | exact .addClampU8 | skip
theorem NoErr.addsN256U8 {P img v n} : NoErr (Imgproc.addsN256U8 P img v n) := by
  unfold Imgproc.addsN256U8
  refine .bind .fullSize fun _ => .bind .i16Abs fun _ => ?_
  dsimp only
  refine .bind (.whileStep (fun _ _ => .u32Add) (fun _ _ => .bind .load256 fun _ => .storeBytes) _ _ _) fun _ => ?_
  no_err
  all_goals first | exact .addClampU8 | skip
theorem NoErr.rgbToHsv {P img} : NoErr (Imgproc.rgbToHsv P img) := by
  unfold Imgproc.rgbToHsv
  refine .mapPixelsIfAlpha (fun p o => .bind ?_ fun _ => .ok _) (fun _ => .ok _)
  unfold rgbToHsvPixel; no_err
theorem NoErr.hsvToRgb {P img} : NoErr (Imgproc.hsvToRgb P img) := by
  unfold Imgproc.hsvToRgb
  refine .mapPixelsIfAlpha (fun p o => .bind ?_ fun _ => .ok _) (fun _ => .ok _)
  unfold hsvToRgbPixel; no_err

section
variable {F : Type} [FloatOps F]
theorem NoErr.clamp {x a b : F} : NoErr (FloatOps.clamp x a b) := by
  unfold FloatOps.clamp; no_err
theorem NoErr.linearizeSrgb {P img} : NoErr (Imgproc.linearizeSrgb (F := F) P img) := by
  unfold Imgproc.linearizeSrgb
  exact .bind (.generateLookupTable fun _ => .ok _) fun _ => .mapChannelsIfAlpha (fun _ => .idx) (fun _ => .ok _)
theorem NoErr.srgbToLab {P img w} : NoErr (Imgproc.srgbToLab (F := F) P img w) := by
  unfold Imgproc.srgbToLab srgbToXyz srgbLinToXyz xyzToLab
  refine .bind (.bind .linearizeSrgb fun _ => .mapPixelsIfAlpha (fun _ _ => .unwrapRes) fun _ => .ok _)
    fun _ => .mapPixelsIfAlpha (fun _ _ => .bind ?_ fun _ => .ok _) fun _ => .ok _
  unfold xyzToLabPixel; no_err
theorem NoErr.labToSrgb {P} {img : Image F} {w} : NoErr (Imgproc.labToSrgb P img w) := by
  unfold Imgproc.labToSrgb xyzToSrgb xyzToSrgbLin labToXyz unlinearizeSrgb
  refine .bind (.mapPixelsIfAlpha (fun _ _ => .bind ?_ fun _ => .ok _) fun _ => .ok _)
    fun _ => .bind (.mapPixelsIfAlpha (fun _ _ => .unwrapRes) fun _ => .ok _)
      fun _ => .mapChannelsIfAlpha (fun _ => .ok _) (fun _ => .ok _)
  unfold labToXyzPixel; no_err
theorem NoErr.histBump {P k} : ∀ {l}, NoErr (Imgproc.histBump P k l)
  | [] => by unfold Imgproc.histBump; no_err
  | _ :: l => by
    unfold Imgproc.histBump
    refine .ite (.bind .i32Add fun _ => .ok _) (.ite (.bind .i32Add fun _ => .ok _) (.bind NoErr.histBump fun _ => .ok _))
theorem NoErr.percentiles {P} {img : Image F} {pc prec} :
    NoErr (generateHistogramPercentiles P img pc prec) := by
  unfold generateHistogramPercentiles
  exact .bind (.forRange fun _ _ => .forRange fun _ _ => .bind .getPixel fun _ => .bind .idx fun _ => .histBump)
    fun _ => .bind .size fun _ => .bind (.forList fun _ _ => .bind .i32Add fun _ => .ok _) fun _ => .ok _
end
end Imgproc

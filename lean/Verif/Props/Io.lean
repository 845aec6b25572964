import Verif.Model.Io
import Verif.Props.Image
import Mathlib.Tactic.SplitIfs
/-! Property C77: writing an image and reading it back. -/
namespace Imgproc

/-- the layouts the library can store -/
inductive Storable : Nat → Bool → ColorType → Prop
  | gray : Storable 1 false .l8
  | grayAlpha : Storable 2 true .la8
  | rgb : Storable 3 false .rgb8
  | rgba : Storable 4 true .rgba8

/-- What a lossless codec guarantees for files at `path` (the only assumption about the external codec):
saving complete pixel data succeeds, and the resulting file decodes to the same pixels. -/
def Lossless {File : Type} (codec : Codec File) (path : String) : Prop :=
  ∀ channels alpha color, Storable channels alpha color → ∀ w h bytes, bytes.length = w * h * channels →
    ∃ f, codec.save path color w h bytes = (true, some f) ∧ codec.decode path f = some ⟨color, w, h, bytes⟩

theorem ioWrite_storable {File : Type} (codec : Codec File) (fs : FileSys File) (img : Image UInt8) (path : String)
    {color : ColorType} (hs : Storable img.info.channels img.info.alpha color) :
    ioWrite codec fs img path =
      saveBuffer codec fs path color img.info.channels img.info.width img.info.height img.data := by
  obtain ⟨⟨w, h, c, a⟩, d⟩ := img
  simp only at hs
  cases hs <;> rfl

/-- **C77** For every storable image and lossless codec: `write` succeeds, changes no other file, and
`read` of the same path then returns the image. -/
theorem c77_round_trip {File : Type} (codec : Codec File) (fs : FileSys File) (img : Image UInt8) (path : String)
    (h : img.WF) {color : ColorType} (hs : Storable img.info.channels img.info.alpha color)
    (hcodec : Lossless codec path) :
    (ioWrite codec fs img path).1 = .ok () ∧
    (∀ p, p ≠ path → (ioWrite codec fs img path).2 p = fs p) ∧
    ioRead codec (ioWrite codec fs img path).2 path = .ok img := by
  rw [ioWrite_storable codec fs img path hs]
  have hlen := h.length
  obtain ⟨f, h1, h2⟩ := hcodec _ _ _ hs img.info.width img.info.height img.data hlen
  have ht : img.data.take (img.info.width * img.info.height * img.info.channels) = img.data := by
    rw [← hlen]; exact List.take_length
  unfold saveBuffer
  rw [if_neg (by omega), ht]
  simp only [h1, if_true]
  refine ⟨trivial, fun p hp => if_neg hp, ?_⟩
  unfold ioRead
  simp only [if_true, h2]
  obtain ⟨⟨w, h', c, a⟩, d⟩ := img
  simp only at hs
  cases hs <;> rfl

/-- **C77** every other layout is rejected and nothing is written. -/
theorem c77_rejects_layout {File : Type} (codec : Codec File) (fs : FileSys File) (img : Image UInt8) (path : String)
    (hs : ∀ color, ¬ Storable img.info.channels img.info.alpha color) :
    ioWrite codec fs img path = (.error (.err .unsupportedColorType), fs) := by
  unfold ioWrite
  split_ifs with ha
  · split
    · rename_i h; exact absurd (h ▸ ha ▸ Storable.grayAlpha) (hs _)
    · rename_i h; exact absurd (h ▸ ha ▸ Storable.rgba) (hs _)
    · rfl
  · rw [Bool.not_eq_true] at ha
    split
    · rename_i h; exact absurd (h ▸ ha ▸ Storable.gray) (hs _)
    · rename_i h; exact absurd (h ▸ ha ▸ Storable.rgb) (hs _)
    · rfl

/-- **C77** an image whose buffer is shorter than its header says is rejected and nothing is written. -/
theorem c77_rejects_short {File : Type} (codec : Codec File) (fs : FileSys File) (img : Image UInt8) (path : String)
    {color : ColorType} (hs : Storable img.info.channels img.info.alpha color)
    (hshort : img.data.length < img.info.width * img.info.height * img.info.channels) :
    ioWrite codec fs img path = (.error (.err .imageWrite), fs) := by
  rw [ioWrite_storable codec fs img path hs]
  unfold saveBuffer
  rw [if_pos hshort]

/-- **C77** whatever happens, only the file at the given path can change. -/
theorem c77_only_that_file {File : Type} (codec : Codec File) (fs : FileSys File) (img : Image UInt8)
    (path p : String) (hp : p ≠ path) : (ioWrite codec fs img path).2 p = fs p := by
  have key : ∀ color samples w h d, (saveBuffer codec fs path color samples w h d).2 p = fs p := by
    intro color samples w h d
    unfold saveBuffer
    split
    · rfl
    · show (match (codec.save path color w h (List.take (w * h * samples) d)).2 with
        | none => fs
        | some f => fun p => if p = path then some f else fs p) p = fs p
      cases (codec.save path color w h (List.take (w * h * samples) d)).2 with
      | none => rfl
      | some f => exact if_neg hp
  unfold ioWrite
  split
  · split <;> first | exact key _ _ _ _ _ | rfl
  · split <;> first | exact key _ _ _ _ _ | rfl

/-- **C77** reading rejects files that do not exist, cannot be decoded or have an unsupported colour type,
and otherwise reports the decoded dimensions with the layout of the colour type. -/
theorem c77_read {File : Type} (codec : Codec File) (fs : FileSys File) (path : String) (img : Image UInt8) :
    ioRead codec fs path = .ok img ↔ ∃ f d, fs path = some f ∧ codec.decode path f = some d ∧
      img.info.width = d.width ∧ img.info.height = d.height ∧ img.data = d.bytes ∧
      (Storable img.info.channels img.info.alpha d.color ∨
       (d.color = .bgr8 ∧ img.info.channels = 3 ∧ img.info.alpha = false) ∨
       (d.color = .bgra8 ∧ img.info.channels = 4 ∧ img.info.alpha = true)) := by
  obtain ⟨⟨w, h, c, a⟩, data⟩ := img
  unfold ioRead
  cases hf : fs path with
  | none => simp
  | some f =>
    cases hd : codec.decode path f with
    | none => simp [hd]
    | some d =>
      obtain ⟨col, dw, dh, db⟩ := d
      simp only [Option.some.injEq, exists_and_left, exists_eq_left', hd]
      constructor
      · intro h
        cases col <;> cases h
        · exact ⟨rfl, rfl, rfl, .inl .gray⟩
        · exact ⟨rfl, rfl, rfl, .inl .grayAlpha⟩
        · exact ⟨rfl, rfl, rfl, .inl .rgb⟩
        · exact ⟨rfl, rfl, rfl, .inl .rgba⟩
        · exact ⟨rfl, rfl, rfl, .inr (.inl ⟨rfl, rfl, rfl⟩)⟩
        · exact ⟨rfl, rfl, rfl, .inr (.inr ⟨rfl, rfl, rfl⟩)⟩
      · rintro ⟨rfl, rfl, rfl, (h | ⟨rfl, rfl, rfl⟩ | ⟨rfl, rfl, rfl⟩)⟩
        · cases h <;> rfl
        · rfl
        · rfl

/-- a codec meeting the assumption (files that store everything) and a storable image -/
def rawCodec : Codec Decoded where
  save _ c w h b := (true, some ⟨c, w, h, b⟩)
  decode _ d := some d
example (path : String) : Lossless rawCodec path := fun _ _ _ _ _ _ _ _ => ⟨_, rfl, rfl⟩
example : demo.WF ∧ Storable demo.info.channels demo.info.alpha .rgb8 := ⟨demo_WF, .rgb⟩
end Imgproc

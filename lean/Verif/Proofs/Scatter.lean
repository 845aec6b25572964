import Verif.Proofs.Fill
/-! Loops that write each input pixel somewhere. -/
namespace Imgproc
variable {T : Type}

/-- invariant rule for two nested loops -/
theorem nested_rule {σ} {W H : Nat} {s : σ} {f : Nat → Nat → σ → Res σ} (I : Nat → Nat → σ → Prop) (h0 : I 0 0 s)
    (hrow : ∀ j s, j < H → I j W s → I (j + 1) 0 s)
    (hstep : ∀ j i s, j < H → i < W → I j i s → ∃ s', f j i s = .ok s' ∧ I j (i + 1) s') :
    ∃ s', (forRange 0 H s fun j s => forRange 0 W s fun i s => f j i s) = .ok s' ∧ I H 0 s' := by
  refine forRange_rule (fun j s => I j 0 s) (Nat.zero_le _) h0 ?_
  intro j s _ hj hs
  obtain ⟨s', e, h'⟩ := forRange_rule (a := 0) (b := W) (s := s) (f := fun i s => f j i s) (fun i s => I j i s)
    (Nat.zero_le _) hs (fun i s _ hi h => hstep j i s hj hi h)
  exact ⟨s', e, hrow j s' hj h'⟩

/-- processed before position `(i, j)` -/
def Before (W i j x y : Nat) : Prop := x < W ∧ (y < j ∨ (y = j ∧ x < i))

/-- Writing pixel `p x y` at `(X x y, Y x y)` for all `x < W`, `y < H`: every output position holds one of the pixels
sent there, or its old value if there is none. -/
theorem Image.scatter (P : Profile) {out0 : Image T} (h : out0.WF) {W H : Nat} (X Y : Nat → Nat → Nat) (p : Nat → Nat → List T)
    (hX : ∀ x y, x < W → y < H → X x y < out0.info.width) (hY : ∀ x y, x < W → y < H → Y x y < out0.info.height)
    (hp : ∀ x y, x < W → y < H → (p x y).length = out0.info.channels)
    (step : Nat → Nat → Image T → Res (Image T))
    (hstep : ∀ x y o, x < W → y < H → o.info = out0.info → step y x o = o.setPixel P (X x y) (Y x y) (p x y)) :
    ∃ out, (forRange 0 H out0 fun j o => forRange 0 W o fun i o => step j i o) = .ok out ∧ out.WF ∧
      out.info = out0.info ∧
      ∀ x' y', x' < out0.info.width → y' < out0.info.height →
        (∃ x y, x < W ∧ y < H ∧ X x y = x' ∧ Y x y = y' ∧ out.px x' y' = p x y) ∨
        ((∀ x y, x < W → y < H → ¬ (X x y = x' ∧ Y x y = y')) ∧ out.px x' y' = out0.px x' y') := by
  obtain ⟨out, e, hw, hi, hv⟩ := nested_rule (W := W) (H := H) (s := out0) (f := step)
    (fun j i (o : Image T) => o.WF ∧ o.info = out0.info ∧ ∀ x' y', x' < out0.info.width → y' < out0.info.height →
        (∃ x y, Before W i j x y ∧ X x y = x' ∧ Y x y = y' ∧ o.px x' y' = p x y) ∨
        ((∀ x y, Before W i j x y → ¬ (X x y = x' ∧ Y x y = y')) ∧ o.px x' y' = out0.px x' y'))
    ⟨h, rfl, fun x' y' _ _ => Or.inr ⟨fun x y hb => by unfold Before at hb; omega, rfl⟩⟩
    (by
      rintro j s hj ⟨w, i, v⟩
      refine ⟨w, i, fun x' y' hx hy => ?_⟩
      have hb : ∀ x y, Before W W j x y ↔ Before W 0 (j + 1) x y := by intro x y; unfold Before; omega
      simpa only [hb] using v x' y' hx hy)
    (by
      rintro j i s hj hi ⟨w, inf, v⟩
      have hx := hX i j hi hj
      have hy := hY i j hi hj
      have hl := hp i j hi hj
      refine ⟨_, (hstep i j s hi hj inf).trans (Image.setPixel_eq P w (by rw [inf]; exact hx) (by rw [inf]; exact hy)
        (by rw [inf]; exact hl)), ?_, inf, ?_⟩
      · exact Image.write_WF w (row_lt (by rw [inf]; exact hx) (by rw [inf]; exact hy)) (by rw [inf]; exact hl)
      · intro x' y' hx' hy'
        rw [Image.px_write w (by rw [inf]; exact hx) (by rw [inf]; exact hy) (by rw [inf]; exact hx')
          (by rw [inf]; exact hy') (by rw [inf]; exact hl)]
        by_cases hc : x' = X i j ∧ y' = Y i j
        · rw [if_pos hc]
          exact Or.inl ⟨i, j, by unfold Before; omega, hc.1.symm, hc.2.symm, rfl⟩
        · rw [if_neg hc]
          rcases v x' y' hx' hy' with ⟨x, y, hb, e1, e2, e3⟩ | ⟨hn, e3⟩
          · exact Or.inl ⟨x, y, by unfold Before at *; omega, e1, e2, e3⟩
          · refine Or.inr ⟨fun x y hb he => ?_, e3⟩
            by_cases hxy : x = i ∧ y = j
            · obtain ⟨rfl, rfl⟩ := hxy
              exact hc ⟨he.1.symm, he.2.symm⟩
            · exact hn x y (by unfold Before at *; omega) he)
  refine ⟨out, e, hw, hi, fun x' y' hx hy => ?_⟩
  rcases hv x' y' hx hy with ⟨x, y, hb, e1, e2, e3⟩ | ⟨hn, e3⟩
  · exact Or.inl ⟨x, y, by unfold Before at hb; omega, by unfold Before at hb; omega, e1, e2, e3⟩
  · exact Or.inr ⟨fun x y h1 h2 => hn x y (by unfold Before; omega), e3⟩
end Imgproc

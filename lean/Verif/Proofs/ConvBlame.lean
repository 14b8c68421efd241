import Verif.Proofs.Nested
import Verif.Proofs.ConvCalls2
/-!
If a setting of a converter changed in a transaction, some call to the converter set it.
-/
namespace Verif

open Relation

theorem tx_noInstall {orc fuel} {tx : Tx} {w : World} {T : Addr} (hk : (w.kind T).isOwned) {f : Frame}
    (h : Called w (tx.apply orc fuel w) f) (hT : f.to = T) (i : Install) : f.call ≠ .onInstall i := by
  obtain ⟨new, e1, _, _, _, hni⟩ := (ownMachine T).tx orc fuel tx w hk
  obtain ⟨new', e', hf⟩ := h
  have : new' = new := List.append_cancel_right (e'.symm.trans e1)
  exact hni f (this ▸ hf) hT i

/-- A setting `π` of converter `T` that differs after a transaction was set to its final value by a call satisfying `P`. -/
theorem conv_blame {α : Type} (π : ConvSt → α) (P : Frame → α → Prop)
    (hstep : ∀ f c c', (∀ i, f.call ≠ .onInstall i) → ConvStep f c c' → π c' = π c ∨ P f (π c'))
    (h1 : ∀ c m, π { c with newManager := m } = π c) (h2 : ∀ c m m', π { c with manager := m, newManager := m' } = π c)
    {orc fuel} {tx : Tx} {w : World} {T : Addr} (hk : w.kind T = .conv)
    (h : π ((tx.apply orc fuel w).conv T) ≠ π (w.conv T)) :
    ∃ f, Called w (tx.apply orc fuel w) f ∧ f.to = T ∧ P f (π ((tx.apply orc fuel w).conv T)) := by
  have key := (tx_steps orc fuel tx w).blame (T := T)
    (R := fun u u' => π ((tx.apply orc fuel w).conv T) ≠ π (u.conv T) → π ((tx.apply orc fuel w).conv T) ≠ π (u'.conv T))
    (P := fun f => (∃ i, f.call = .onInstall i) ∨ P f (π ((tx.apply orc fuel w).conv T))) (by rw [hk]; rintro ⟨⟩) ?_ ?_ ?_
  · rcases key with key | ⟨f, h1, h2, h3⟩
    · exact absurd rfl (key h)
    · refine ⟨f, h1, h2, h3.resolve_left ?_⟩
      rintro ⟨i, hi⟩
      exact tx_noInstall (by rw [hk]; simp [Kind.isOwned]) h1 h2 i hi
  · intro _ _ hs; rw [hs.conv]; exact id
  · intro _ _ _ h1 h2 h3; exact h2 (h1 h3)
  · intro f u u' hu hf hl
    by_cases hi : ∃ i, f.call = .onInstall i
    · exact .inr (.inl hi)
    have hi' : ∀ i, f.call ≠ .onInstall i := fun i e => hi ⟨i, e⟩
    cases hl with
    | conv c' _ hc =>
      rw [hf] at hc
      by_cases e : π ((tx.apply orc fuel w).conv T) = π c'
      · rcases hstep f _ _ hi' hc with h | h
        · left; intro h'; exact absurd (e.trans h) h'
        · right; right; rw [e]; exact h
      · left; intro _; rw [hf]; simpa using e
    | nominateManager m => left; rw [hf]; simp [h1]
    | acceptManager => left; rw [hf]; simp [h2]
    | _ => exact .inl id

end Verif

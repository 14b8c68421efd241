import Verif.Proofs.ConvInv
/-!
Who made the calls of a transaction.
-/
namespace Verif

open Relation

/-- The call `f` was made by an ordinary account, or by a running contract with code of known shape. -/
def Origin (B : List Frame) (w : World) (f : Frame) : Prop :=
  f.sender.isContract = false ∨
  ∃ f' u, Since B w f' ∧ f'.to = f.sender ∧ OutCall f' u f.to f.value f.call ∧ ∀ a, u.kind a ≠ .none → w.kind a = u.kind a

theorem Origin.mono {B B' w w' f} (h : Origin B w f) (hs : Step B' w w') : Origin B w' f := by
  rcases h with h | ⟨f', u, h1, h2, h3, h4⟩
  · exact .inl h
  · refine .inr ⟨f', u, h1.mono hs.frames, h2, h3, fun a ha => ?_⟩
    rw [hs.kind (by rw [h4 a ha]; exact ha), h4 a ha]

theorem Steps.origin {B w w'} (h : Steps B w w') : ∀ f, Since B w' f → Since B w f ∨ Origin B w' f := by
  induction h with
  | refl => intro f hf; exact .inl hf
  | @tail b c hab hbc ih =>
    intro f hf
    have old : Since B b f → Since B w f ∨ Origin B c f := fun h => by
      rcases ih f h with h | h
      · exact .inl h
      · exact .inr (h.mono hbc)
    have split : ∀ g, c.frames = g :: b.frames → (f = g → Origin B c f) → Since B w f ∨ Origin B c f := by
      intro g hg hfg
      obtain ⟨new, e, hm⟩ := hf
      cases new with
      | nil => cases hm
      | cons x new =>
        have h1 : g :: b.frames = x :: (new ++ B) := by rw [← hg, e]; rfl
        injection h1 with h1 h2
        rcases List.mem_cons.mp hm with h | h
        · exact .inr (hfg (by rw [h, h1]))
        · exact old ⟨new, h2, h⟩
    cases hbc with
    | enter s t v c hv hc hcal hn =>
      refine split (mkFrame b s t v c) rfl ?_
      rintro rfl
      rcases hcal with h | ⟨f', h1, h2, h3⟩
      · exact .inl h
      · exact .inr ⟨f', b, h1.mono (List.suffix_cons _ _), h2, h3, fun _ _ => rfl⟩
    | loc g w' _ hl =>
      obtain ⟨new, e, hm⟩ := hf
      exact old ⟨new, by rw [← hl.frames, e], hm⟩
    | deploy s a i w' hs _ _ _ _ hI =>
      refine split (mkFrame (b.setKind a i.kind) s a 0 (.onInstall i)) (by rw [hI.frames]; rfl) ?_
      rintro rfl
      exact .inl hs

theorem since_self {w : World} {f : Frame} : ¬ Since w.frames w f := by
  rintro ⟨new, e, hm⟩
  have : new = [] := by
    have := congrArg List.length e
    simp at this
    exact this
  subst this; cases hm

/-- Every call of a transaction has an origin. -/
theorem tx_origin {orc fuel} {tx : Tx} {w : World} {f : Frame} (h : Called w (tx.apply orc fuel w) f) :
    Origin w.frames (tx.apply orc fuel w) f :=
  ((tx_steps orc fuel tx w).origin f h).resolve_left since_self

end Verif

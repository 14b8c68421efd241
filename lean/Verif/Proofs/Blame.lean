import Verif.Proofs.Inv
/-!
If the storage of a contract changed, some call to that contract did it.
-/
namespace Verif

open Relation

/-- The storage of the contract at `T` is the same. -/
structure SameAt (T : Addr) (u u' : World) : Prop where
  kind : u'.kind T = u.kind T
  tok : u'.tok T = u.tok T
  own : u'.own T = u.own T
  flex : u'.flex T = u.flex T
  conv : u'.conv T = u.conv T
  reg : u'.reg T = u.reg T
  net : u'.net T = u.net T

theorem SameAt.refl (T : Addr) (w : World) : SameAt T w w := ⟨rfl, rfl, rfl, rfl, rfl, rfl, rfl⟩

theorem SameAt.enter (T : Addr) (w : World) (s t v c) : SameAt T w (enterW w s t v c) :=
  ⟨rfl, rfl, rfl, rfl, rfl, rfl, rfl⟩

theorem LocalStep.sameAt {f w w'} (h : LocalStep f w w') {T : Addr} (hT : f.to ≠ T) : SameAt T w w' where
  kind := by rw [h.kind]
  tok := h.tok (fun e => hT e.1.symm)
  own := h.own (fun e => hT e.1.symm)
  flex := h.flex (fun e => hT e.1.symm)
  conv := h.convSt (fun e => hT e.1.symm)
  reg := h.reg (fun e => hT e.1.symm)
  net := h.net (fun e => hT e.1.symm)

theorem installed_sameAt {s a : Addr} {w w' : World} {i : Install}
    (h : Installed s a (enterW (w.setKind a i.kind) s a 0 (.onInstall i)) i w') {T : Addr} (hT : a ≠ T) : SameAt T w w' where
  kind := by rw [h.kind, enterW_kind, setKind_kind, if_neg (Ne.symm hT)]
  tok := h.tok (fun e => hT e.1.symm)
  own := h.own (fun e => hT e.1.symm)
  flex := h.flexSt (fun e => hT e.1.symm)
  conv := h.convSt (fun e => hT e.1.symm)
  reg := h.regSt (fun e => hT e.1.symm)
  net := by rw [h.netSt]; rfl

theorem Step.kind {B w w'} (h : Step B w w') {T : Addr} (hk : w.kind T ≠ .none) : w'.kind T = w.kind T := by
  cases h with
  | enter => rfl
  | loc f w' _ hl => rw [hl.kind]
  | deploy s a i w' _ _ _ hn _ hI => exact (installed_sameAt hI (by rintro rfl; exact hk hn)).kind

theorem Steps.kind {B w w'} (h : Steps B w w') {T : Addr} (hk : w.kind T ≠ .none) : w'.kind T = w.kind T := by
  induction h with
  | refl => rfl
  | tail _ s ih => rw [s.kind (by rw [ih]; exact hk), ih]

/-- Either `R` relates the storage of `T` before and after, or some call to `T` satisfies `P`. -/
theorem Steps.blame {B w w'} {T : Addr} (hk : w.kind T ≠ .none) {R : World → World → Prop}
    (hs : ∀ u u', SameAt T u u' → R u u') (ht : ∀ a b c, R a b → R b c → R a c) {P : Frame → Prop}
    (hl : ∀ f u u', u.kind T = w.kind T → f.to = T → LocalStep f u u' → R u u' ∨ P f) (h : Steps B w w') :
    R w w' ∨ ∃ f, Since B w' f ∧ f.to = T ∧ P f := by
  induction h with
  | refl => exact .inl (hs _ _ (.refl _ _))
  | @tail b c hab hbc ih =>
    have hkb := Steps.kind hab hk
    rcases ih with ih | ⟨f, h1, h2, h3⟩
    · cases hbc with
      | enter => exact .inl (ht _ _ _ ih (hs _ _ (.enter _ _ _ _ _ _)))
      | loc f w' hf hls =>
        by_cases e : f.to = T
        · rcases hl f _ _ hkb e hls with h | h
          · exact .inl (ht _ _ _ ih h)
          · exact .inr ⟨f, hf.mono hls.stable.frames, e, h⟩
        · exact .inl (ht _ _ _ ih (hs _ _ (hls.sameAt e)))
      | deploy s a i w' _ _ _ hn _ hI =>
        refine .inl (ht _ _ _ ih (hs _ _ (installed_sameAt hI ?_)))
        rintro rfl
        exact hk (by rw [← hkb]; exact hn)
    · exact .inr ⟨f, h1.mono hbc.frames, h2, h3⟩

/-- If the storage of `T` can only change as `R` allows, it did. -/
theorem Steps.keep {B w w'} {T : Addr} (hk : w.kind T ≠ .none) {R : World → World → Prop}
    (hs : ∀ u u', SameAt T u u' → R u u') (ht : ∀ a b c, R a b → R b c → R a c)
    (hl : ∀ f u u', u.kind T = w.kind T → f.to = T → LocalStep f u u' → R u u') (h : Steps B w w') : R w w' := by
  rcases Steps.blame hk (P := fun _ => False) hs ht (fun f u u' h1 h2 h3 => .inl (hl f u u' h1 h2 h3)) h with h | ⟨_, _, _, h⟩
  · exact h
  · exact h.elim

end Verif

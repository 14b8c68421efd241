import Verif.Proofs.Origin
/-!
Reading a replay backwards: where the current owner and manager come from.
-/
namespace Verif

theorem EachCall.tail {σ : Type} {δ : Frame → σ → σ} {L : Frame → σ → Prop} {f l s} (h : EachCall δ L (f :: l) s) : EachCall δ L l s := by
  intro later g earlier e
  exact h (f :: later) g earlier (by rw [e]; rfl)

theorem EachCall.head {σ : Type} {δ : Frame → σ → σ} {L : Frame → σ → Prop} {f l s} (h : EachCall δ L (f :: l) s) : L f (replay δ l s) :=
  h [] f l rfl

/-- The last call that decided something about a replayed state. -/
theorem replay_last {σ : Type} {δ : Frame → σ → σ} {P : Frame → Prop} {Q : σ → Prop} (hq : ∀ f s, ¬ P f → Q (δ f s) → Q s)
    {l : List Frame} {s : σ} (h0 : ¬ Q s) (h : Q (replay δ l s)) :
    ∃ later f earlier, l = later ++ f :: earlier ∧ P f ∧ Q (δ f (replay δ earlier s)) ∧ ∀ g ∈ later, ¬ P g := by
  induction l with
  | nil => exact absurd h h0
  | cons f l ih =>
    by_cases hp : P f
    · exact ⟨[], f, l, rfl, hp, h, by simp⟩
    · obtain ⟨later, g, earlier, e, h1, h2, h3⟩ := ih (hq f _ hp h)
      refine ⟨f :: later, g, earlier, by rw [e]; rfl, h1, h2, ?_⟩
      intro x hx
      rcases List.mem_cons.mp hx with rfl | hx
      · exact hp
      · exact h3 x hx

end Verif

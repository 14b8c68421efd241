import Verif.Proofs.Blame
import Verif.Proofs.TokenCalls
/-!
Induction over the nesting of calls, with one contract `T` singled out.
-/
namespace Verif

open Relation

/-- `Q` together with what every call keeps. -/
def WithStable (Q : Addr → Addr → Int → Call → World → World → Prop) (s t : Addr) (v : Int) (c : Call) (w w' : World) : Prop :=
  Stable w w' ∧ Q s t v c w w'

theorem withStable (Q) : StableC (WithStable Q) := fun _ _ _ _ _ _ h => h.1

/-- `Q` holds of all calls with budget `n`. -/
def AllCalls (orc : Oracle) (n : Nat) (Q : Addr → Addr → Int → Call → World → World → Prop) : Prop :=
  ∀ s t v c w x w', exec orc n s t v c w = .ok (x, w') → Q s t v c w w'

theorem exec_body {orc n} {Q : Addr → Addr → Int → Call → World → World → Prop} (ih : AllCalls orc n Q)
    {s t v c w x w'} (h : exec orc (n + 1) s t v c w = .ok (x, w')) :
    0 ≤ v ∧ v ≤ w.coin s ∧ Body (WithStable Q) (mkFrame w s t v c) (enterW w s t v c) w' := by
  obtain ⟨⟨hv, hb⟩, h⟩ := exec_succ h
  have hcall : CallOK (WithStable Q) { fr := mkFrame w s t v c, call := exec orc n t } :=
    fun t' v' c' w1 x1 w1' e => ⟨(exec_rel orc n t t' v' c' w1 x1 w1' e).1, ih _ _ _ _ _ _ _ e⟩
  exact ⟨hv, hb, body_body orc hcall (withStable Q) (start_enter w s t v c hv) _ _ h⟩

/-- Induction over the nesting of calls. -/
theorem exec_hier (orc : Oracle) (T : Addr) {P : World → World → Prop} {Q : Addr → Addr → Int → Call → World → World → Prop}
    (hr : ∀ w, P w w) (ht : ∀ a b c, P a b → P b c → P a c)
    (hl : ∀ f w w', f.to ≠ T → LocalStep f w w' → P w w')
    (hq : ∀ f w t v c w', f.to ≠ T → OutCall f w t v c → Stable w w' → Q f.to t v c w w' → P w w')
    (he : ∀ s t v c w w', t ≠ T → 0 ≤ v → v ≤ w.coin s → Stable w w' → P (enterW w s t v c) w' → Q s t v c w w')
    (hT : ∀ n s v c w x w', AllCalls orc n Q → exec orc (n + 1) s T v c w = .ok (x, w') → Q s T v c w w') :
    ∀ n, AllCalls orc n Q := by
  intro n
  induction n with
  | zero => intro s t v c w x w' h; exact (exec_zero h).elim
  | succ n ih =>
    intro s t v c w x w' h
    by_cases e : t = T
    · subst e; exact hT n s v c w x w' ih h
    · obtain ⟨hv, hb, hB⟩ := exec_body ih h
      refine he s t v c w w' e hv hb ((enterW_stable ..).trans (hB.stable (withStable Q))) ?_
      exact Body.elim hr ht (fun w w' hs => hl _ _ _ e hs) (fun t v c w w' ho hq' => hq _ _ _ _ _ _ e ho hq'.1 hq'.2) hB

end Verif

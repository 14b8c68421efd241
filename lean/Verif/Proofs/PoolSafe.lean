import Verif.Proofs.Drain
import Verif.Props.Conversion
import Verif.Proofs.Pool
import Verif.Spec.Pool
/-!
What anybody can do to the pool behind a converter is trading along the curve.
-/
set_option linter.unusedSimpArgs false
namespace Verif

open Relation

section
variable {T t R N : Addr} {l : List Addr} {wt : {a // a ∈ l} → Int}

/-- What is kept as long as nobody meddles. -/
structure Cfg (T t R N : Addr) (l : List Addr) (wt : {a // a ∈ l} → Int) (w : World) : Prop where
  tr : Trading w T t R N l
  inv : ConvInv T (w.conv T)
  weights : w.weights T l = wt
  nz : N ≠ ZERO

def Rel (T t : Addr) (l : List Addr) (wt : {a // a ∈ l} → Int) (w w' : World) : Prop :=
  0 < (w'.tok t).supply → 0 < (w.tok t).supply ∧
    ∃ n, n + w.frames.length ≤ w'.frames.length ∧ Curve.Trades wt n (w.pool T t l) (w'.pool T t l)

def Excuse (T t R : Addr) (l : List Addr) (w w' : World) : Prop := ∃ f, Called w w' f ∧ Meddles T t R l f

/-- Either somebody meddled, or everything is in order. -/
def Safe (T t R N : Addr) (l : List Addr) (wt : {a // a ∈ l} → Int) (w w' : World) : Prop :=
  Stable w w' ∧ (Cfg T t R N l wt w → Excuse T t R l w w' ∨ (Cfg T t R N l wt w' ∧ Rel T t l wt w w'))

theorem trades_trans {ι : Type} [DecidableEq ι] {wt : ι → Int} {n m : Nat} {P Q S : Curve.Pool ι} (h : Curve.Trades wt n P Q)
    (h' : Curve.Trades wt m Q S) : Curve.Trades wt (n + m) P S := by
  induction h' with
  | none => exact h
  | more _ ht ih => exact .more (ih h) ht

theorem Safe.refl (w : World) : Safe T t R N l wt w w :=
  ⟨.refl w, fun h => .inr ⟨h, fun hs => ⟨hs, 0, by omega, .none _⟩⟩⟩

theorem Safe.trans {a b c : World} (h1 : Safe T t R N l wt a b) (h2 : Safe T t R N l wt b c) : Safe T t R N l wt a c := by
  refine ⟨h1.1.trans h2.1, fun hc => ?_⟩
  rcases h1.2 hc with ⟨f, h3, h4⟩ | ⟨hb, r1⟩
  · exact .inl ⟨f, Since.mono h3 h2.1.frames, h4⟩
  · rcases h2.2 hb with ⟨f, h3, h4⟩ | ⟨hc', r2⟩
    · exact .inl ⟨f, Since.weaken h3 h1.1.frames, h4⟩
    · refine .inr ⟨hc', fun hs => ?_⟩
      obtain ⟨s2, n2, l2, t2⟩ := r2 hs
      obtain ⟨s1, n1, l1, t1⟩ := r1 s2
      exact ⟨s1, n1 + n2, by omega, trades_trans t1 t2⟩

/-- Nothing that matters has changed. -/
theorem Safe.same {w w' : World} (hs : Stable w w') (h1 : (w'.tok t).supply = (w.tok t).supply)
    (h2 : ∀ a ∈ l, (w'.tok a).bal T = (w.tok a).bal T) (hc : Cfg T t R N l wt w → Cfg T t R N l wt w') :
    Safe T t R N l wt w w' := by
  refine ⟨hs, fun h => .inr ⟨hc h, fun hp => ?_⟩⟩
  rw [h1] at hp
  refine ⟨hp, 0, by have := hs.frames.length_le; omega, ?_⟩
  have : w'.pool T t l = w.pool T t l := by
    unfold World.pool
    rw [h1]; congr 1; funext a; exact h2 a.1 a.2
  rw [this]; exact .none _

theorem Cfg.same {w w' : World} (hk : w'.kind = w.kind) (hc : w'.conv T = w.conv T) (ho : (w'.own t).owner = (w.own t).owner)
    (hr : w'.reg R = w.reg R) (hcoin : ∀ a, 0 ≤ w'.coin a) (h : Cfg T t R N l wt w) : Cfg T t R N l wt w' := by
  obtain ⟨⟨⟨c1, c2, c3, c4, c5, c6, c7, c8, c9⟩, h2, h3, h4, h5, h6⟩, i, ws, nz⟩ := h
  refine ⟨⟨⟨by rw [hk]; exact c1, by rw [hc]; exact c2, by rw [hk]; exact c3, by rw [hc]; exact c4, by rw [hk]; exact c5, by rw [hr]; exact c6,
    by rw [hk]; exact c7, c8, hcoin⟩, by rw [ho]; exact h2, by rw [hr]; exact h3, by rw [hc]; exact h4, fun a ha => by rw [hk]; exact h5 a ha,
    fun a ha => by rw [hc]; exact h6 a ha⟩, by rw [hc]; exact i, ?_, nz⟩
  rw [← ws]; unfold World.weights; rw [hc]

theorem Cfg.isSet {w : World} (h : Cfg T t R N l wt w) {a : Addr} : a ∈ l ↔ ((w.conv T).connectors a).isSet = true := by
  rw [← h.inv.mem, h.tr.connectors]

theorem Cfg.act {w : World} (h : Cfg T t R N l wt w) : w.active T := ⟨t, h.tr.wired.token, h.tr.active⟩

/-- Local steps of contracts that do not matter. -/
theorem safe_other {f : Frame} {w w' : World} (h : LocalStep f w w') (h1 : f.to ≠ T) (h2 : f.to ≠ t) (h3 : f.to ≠ R) (h4 : f.to ∉ l) :
    Safe T t R N l wt w w' := by
  refine .same h.stable (by rw [(h.sameAt h2).tok]) (fun a ha => by rw [(h.sameAt (T := a) (by rintro rfl; exact h4 ha)).tok]) fun hc => ?_
  exact hc.same h.stable.kind (h.sameAt h1).conv (by rw [(h.sameAt h2).own]) (h.sameAt h3).reg (by rw [h.coin]; exact hc.tr.wired.coin)

theorem safe_enter {w : World} {s d : Addr} {v : Int} {c : Call} (hv : 0 ≤ v) (hb : v ≤ w.coin s) : Safe T t R N l wt w (enterW w s d v c) := by
  refine .same (enterW_stable ..) rfl (fun _ _ => rfl) fun hc => Cfg.same (w := w) rfl rfl rfl rfl (fun a => ?_) hc
  have h1 := hc.tr.wired.coin a
  have h2 := hc.tr.wired.coin s
  rw [enterW_coin']
  split <;> split <;> simp_all <;> omega

/-- Calls about which nothing is claimed by themselves: they are the parts of a conversion. -/
def Inner (T t : Addr) (l : List Addr) (s d : Addr) (c : Call) : Prop :=
  (s = T ∧ d ∈ l ∧ ((∃ a v x, c = .transfer a v x) ∨ (∃ a v, c = .destroy a v) ∨ (∃ v, c = .withdraw v) ∨ ∃ v a, c = .withdrawTo v a)) ∨
  (s = T ∧ d = t ∧ ((∃ a v, c = .issue a v) ∨ ∃ a v, c = .destroy a v)) ∨
  (d = T ∧ (s ∈ l ∨ s = t) ∧ ∃ f v x, c = .tokenFallback f v x)

/-- What is shown about calls. -/
def SafeCall (T t R N : Addr) (l : List Addr) (wt : {a // a ∈ l} → Int) (s d : Addr) (_ : Int) (c : Call) (w w' : World) : Prop :=
  Inner T t l s d c ∨ Safe T t R N l wt w w'

end
end Verif

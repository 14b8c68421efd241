import Verif.Proofs.Steps
import Mathlib.Tactic.Convert

/-!
Every method body of the model is a sequence of elementary steps and nested calls (`Body`).
-/
namespace Verif

open Relation

/-- What nested calls of the context do is described by `C`. -/
def CallOK (C : Addr → Addr → Int → Call → World → World → Prop) (cx : Ctx) : Prop :=
  ∀ t v c w x w', cx.call t v c w = .ok (x, w') → C cx.self t v c w w'

/-- Nested calls keep the stable parts. -/
def StableC (C : Addr → Addr → Int → Call → World → World → Prop) : Prop :=
  ∀ s t v c w w', C s t v c w w' → Stable w w'

theorem Body.trans {C f a b c} (h : Body C f a b) (h' : Body C f b c) : Body C f a c := ReflTransGen.trans h h'

theorem Body.stable {C f} (hC : StableC C) {w w'} (h : Body C f w w') : Stable w w' :=
  Body.elim (R := Stable) Stable.refl (fun _ _ _ => Stable.trans) (fun _ _ => LocalStep.stable)
    (fun _ _ _ _ _ _ hc => hC _ _ _ _ _ _ hc) h

/-- The frame agrees with the ledger it was made from. -/
structure Start (f : Frame) (w : World) : Prop where
  owner : (w.own f.to).owner = f.owner
  manager : (w.conv f.to).manager = f.manager
  allow : (w.conv f.to).allowRegistryUpdate = f.allow
  value : 0 ≤ f.value
  top : w.frames.head? = some f

variable {C : Addr → Addr → Int → Call → World → World → Prop} {cx : Ctx}

theorem wp_call (hcall : CallOK C cx) {t v c w} {Q : Val → World → Prop}
    (o : OutCall cx.fr w t v c) (k : ∀ x w', Body C cx.fr w w' → Q x w') : wp (cx.call t v c) Q w := by
  intro x w' e
  exact k x w' (Body.call Body.refl o (hcall _ _ _ _ _ _ e))

/-! ### Owned, TokenHolder -/

theorem body_ownedDispatch {w : World} (hs : Start cx.fr w) (hk : (w.kind cx.self).isOwned) {c : Call} {m : M Val} (hc : cx.fr.call = c)
    (h : Owned.dispatch cx c = some m) : wp m (fun _ w' => Body C cx.fr w w') w := by
  unfold Owned.dispatch at h
  split at h <;> cases h
  · simp [Owned.getOwner, Body.refl]
  · simp [Owned.getNewOwner, Body.refl]
  · simp only [Owned.transferOwnerShip, Owned.requireOwnerOnly, wp_bind, wp_get, wp_require, wp_modOwn, wp_pure]
    intro h1 h2
    exact Body.refl.local (.nominate _ hk hs.top hc (by rw [← hs.owner, h1]) (by rw [← hs.owner]; exact fun h => h2 h.symm))
  · simp only [Owned.acceptOwnerShip, wp_bind, wp_get, wp_require, wp_modOwn, wp_pure, wp_emit]
    intro h1
    have e := (Body.refl (C := C) (f := cx.fr) (w := w)).local
      (.log (.OwnerUpdate (w.own cx.self).owner (w.own cx.self).newOwner) (.inr hc))
    have e2 := e.local (.accept hk hs.top hc h1.symm)
    convert e2 using 1
    simp [h1]

theorem body_withdrawTokens (hcall : CallOK C cx) {w : World} (hk : (w.kind cx.self).isOwned ∧ w.kind cx.self ≠ .reg) {tok to : Addr} {v : Int}
    (hc : cx.fr.call = .withdrawTokens tok to v) (hs : w.kind cx.self ≠ .conv → (w.own cx.self).owner = cx.fr.owner) :
    wp (TokenHolder.withdrawTokens cx tok to v) (fun _ w' => Body C cx.fr w w') w := by
  simp only [TokenHolder.withdrawTokens, Owned.requireOwnerOnly, wp_bind, wp_get, wp_require]
  intro h1 h2 h3 h4
  refine wp_call hcall (.withdrawTokens tok to v hk hc h1.symm h2 h3 ?_ fun h => by rw [← hs h]; exact h1.symm) ?_
  · intro e; subst e; simp [isValidAddress] at h4
  · intro x w' hb; simpa using hb

/-! ### Tokens -/

theorem body_ircTransfer (hcall : CallOK C cx) {w : World} {to : Addr} {v : Int} {d : Option Data}
    (hc : cx.fr.call = .transfer to v d) (hk : (w.kind cx.self).isToken)
    (hflex : w.kind cx.self = .flex → (w.flex cx.self).transferable = true) (hicx : w.kind cx.self = .icx → cx.self ≠ to) :
    wp (IRCToken.transfer cx to v d) (fun _ w' => Body C cx.fr w w') w := by
  simp only [IRCToken.transfer, IRCToken.transfer', wp_bind, wp_get, wp_require, wp_modTok, wp_ite, wp_emit]
  intro h1 h2
  have b1 : Body C cx.fr w (w.setTok cx.self { w.tok cx.self with bal := moveBal (w.tok cx.self).bal cx.sender to v }) :=
    Body.refl.local (.transfer to v d hk hc (Int.not_lt.mp h1) (Int.not_lt.mp h2) hflex hicx)
  have e : (((w.setTok cx.self { w.tok cx.self with bal := upd (w.tok cx.self).bal cx.sender ((w.tok cx.self).bal cx.sender - v) })).setTok cx.self
      { ((w.setTok cx.self { w.tok cx.self with bal := upd (w.tok cx.self).bal cx.sender ((w.tok cx.self).bal cx.sender - v) })).tok cx.self with
        bal := upd (((w.setTok cx.self { w.tok cx.self with bal := upd (w.tok cx.self).bal cx.sender ((w.tok cx.self).bal cx.sender - v) })).tok cx.self).bal to
          ((((w.setTok cx.self { w.tok cx.self with bal := upd (w.tok cx.self).bal cx.sender ((w.tok cx.self).bal cx.sender - v) })).tok cx.self).bal to + v) }) =
      w.setTok cx.self { w.tok cx.self with bal := moveBal (w.tok cx.self).bal cx.sender to v } := by
    simp [moveBal_eq]
  rw [e]
  refine ⟨fun hto => ?_, fun _ => b1.local (.log _ <| .inr (by rw [hc]; trivial))⟩
  refine wp_call hcall (.fallback to v d (by simpa using hk) hc hto) ?_
  intro x w' hb
  exact (b1.trans hb).local (.log _ <| .inr (by rw [hc]; trivial))

theorem body_views {w : World} {c : Call} {m : M Val} (h : IRCToken.dispatchViews cx c = some m) :
    wp m (fun _ w' => Body C cx.fr w w') w := by
  unfold IRCToken.dispatchViews at h
  split at h <;> cases h <;> simp [Body.refl]

theorem body_runNonPayable {w : World} {t : Option (M Val)}
    (h : ∀ m, cx.value = 0 → t = some m → wp m (fun _ w' => Body C cx.fr w w') w) :
    wp (runNonPayable cx t) (fun _ w' => Body C cx.fr w w') w := by
  simp only [runNonPayable, notPayable, wp_bind, wp_require]
  intro hv
  cases t with
  | none => simp [Body.refl]
  | some m => exact h m hv rfl

theorem orElse'_some {a b : Option (M Val)} {m} (h : orElse' a b = some m) : a = some m ∨ b = some m := by
  cases a with
  | none => exact .inr h
  | some m' => exact .inl h

theorem body_irc (hcall : CallOK C cx) {w : World} (hk : w.kind cx.self = .irc) :
    wp (IRCToken.dispatch cx) (fun _ w' => Body C cx.fr w w') w := by
  unfold IRCToken.dispatch
  apply body_runNonPayable
  intro m _ hm
  replace hm := orElse'_some hm; rcases hm with hm | hm
  · exact body_views hm
  · split at hm <;> cases hm
    rename_i to v d hc
    simp only [wp_bind, wp_pure]
    exact body_ircTransfer hcall hc (.inl hk) (by simp [hk]) (by simp [hk])

theorem body_icxWithdraw (hcall : CallOK C cx) {w : World} (hk : w.kind cx.self = .icx) {v : Int} {to : Addr}
    (hc : cx.fr.call = .withdrawTo v to ∨ (cx.fr.call = .withdraw v ∧ to = cx.sender)) :
    wp (IcxToken.withdrawTo cx v to) (fun _ w' => Body C cx.fr w w') w := by
  simp only [IcxToken.withdrawTo, wp_bind, wp_get, wp_require, wp_modTok, wp_emit]
  intro h1 h2
  simp only [setTok_setTok, setTok_tok_same]
  have b1 := (Body.refl (C := C)).local (LocalStep.withdraw (f := cx.fr) v to hk hc h1 (Int.not_lt.mp h2))
  refine wp_call hcall (.icxOut v to (by simpa using hk) hc h1) ?_
  intro x w' hb
  exact (b1.trans hb).local (.log _ <| .inr (by rcases hc with hc | ⟨hc, _⟩ <;> (rw [hc]; trivial)))

theorem body_icxDeposit {w : World} (hs : Start cx.fr w) (hk : w.kind cx.self = .icx)
    (hc : cx.fr.call = .fallback ∨ cx.fr.call = .deposit) :
    wp (IcxToken.deposit cx) (fun _ w' => Body C cx.fr w w') w := by
  simp only [IcxToken.deposit, wp_bind, wp_modTok, wp_emit]
  simp only [setTok_setTok, setTok_tok_same]
  have hm : Moving (w.kind cx.fr.to) cx.fr.call := by
    generalize cx.fr.call = c at hc
    rcases hc with rfl | rfl
    · exact hk
    · trivial
  exact (((Body.refl (C := C)).local (LocalStep.deposit (f := cx.fr) hk hc hs.value)).local (.log (.Issuance _) (.inr hm))).local (.log (.Transfer _ _ _ _) (.inr hm))

theorem body_icx (hcall : CallOK C cx) {w : World} (hs : Start cx.fr w) (hk : w.kind cx.self = .icx) :
    wp (IcxToken.dispatch cx) (fun _ w' => Body C cx.fr w w') w := by
  unfold IcxToken.dispatch
  split
  · rename_i hc; simp only [wp_bind, wp_pure]; exact body_icxDeposit hs hk (.inl hc)
  · rename_i hc; simp only [wp_bind, wp_pure]; exact body_icxDeposit hs hk (.inr hc)
  · apply body_runNonPayable
    intro m _ hm
    replace hm := orElse'_some hm; rcases hm with hm | hm
    · exact body_views hm
    replace hm := orElse'_some hm; rcases hm with hm | hm
    · exact body_ownedDispatch hs (by simp [Kind.isOwned, hk]) rfl hm
    split at hm <;> cases hm <;> rename_i hc <;> simp only [wp_bind, wp_pure]
    · simp only [IcxToken.transfer, wp_bind, wp_require]
      intro h1
      exact body_ircTransfer hcall hc (.inr (.inl hk)) (by simp [hk]) (fun _ => h1)
    · exact body_withdrawTokens hcall (by simp [Kind.isOwned, hk]) hc fun _ => hs.owner
    · exact body_icxWithdraw hcall hk (.inr ⟨hc, rfl⟩)
    · exact body_icxWithdraw hcall hk (.inl hc)

theorem not_zero_of_valid {a : Addr} (h : isValidAddress (some a) = true) : a ≠ ZERO := by
  intro e; subst e; simp [isValidAddress] at h

theorem body_flex (hcall : CallOK C cx) {w : World} (hs : Start cx.fr w) (hk : w.kind cx.self = .flex) :
    wp (FlexibleToken.dispatch cx) (fun _ w' => Body C cx.fr w w') w := by
  unfold FlexibleToken.dispatch
  apply body_runNonPayable
  intro m _ hm
  replace hm := orElse'_some hm; rcases hm with hm | hm
  · exact body_views hm
  replace hm := orElse'_some hm; rcases hm with hm | hm
  · exact body_ownedDispatch hs (by simp [Kind.isOwned, hk]) rfl hm
  split at hm <;> cases hm <;> try rename_i hc
  · simp only [wp_bind, wp_pure, FlexibleToken.transfer, wp_get, wp_require]
    intro h1
    exact body_ircTransfer hcall hc (.inr (.inr hk)) (fun _ => h1) (by simp [hk])
  · simp only [wp_bind, wp_pure]; exact body_withdrawTokens hcall (by simp [Kind.isOwned, hk]) hc fun _ => hs.owner
  · simp only [wp_bind, wp_pure, FlexibleToken.disableTransfer, Owned.requireOwnerOnly, wp_get, wp_require, wp_modFlex]
    intro h1
    exact Body.refl.local (.disableTransfer _ hk hc (by rw [← hs.owner, h1]))
  · simp [Body.refl]
  · simp [Body.refl]
  · simp only [wp_bind, wp_pure, FlexibleToken.issue, Owned.requireOwnerOnly, wp_get, wp_require, wp_modTok, wp_emit]
    intro h1 h2 h3 h4
    simp only [setTok_setTok, setTok_tok_same]
    exact ((Body.refl.local (.issue _ _ hk hc h1 (by rw [← hs.owner, h2]) (not_zero_of_valid h3) h4)).local (.log _ <| .inr (by rw [hc]; trivial))).local (.log _ <| .inr (by rw [hc]; trivial))
  · simp only [wp_bind, wp_pure, FlexibleToken.destroy, wp_get, wp_require, wp_modTok, wp_emit]
    intro h1 h2 h3
    simp only [setTok_setTok, setTok_tok_same]
    refine ((Body.refl.local (.destroy _ _ hk hc h1 h2 ?_)).local (.log _ <| .inr (by rw [hc]; trivial))).local (.log _ <| .inr (by rw [hc]; trivial))
    rcases h3 with h3 | h3
    · exact .inl h3
    · exact .inr (by rw [← hs.owner, h3])

/-! ### Registry -/

theorem body_reg {w : World} (hs : Start cx.fr w) (hk : w.kind cx.self = .reg) :
    wp (ScoreRegistry.dispatch cx) (fun _ w' => Body C cx.fr w w') w := by
  unfold ScoreRegistry.dispatch
  apply body_runNonPayable
  intro m _ hm
  replace hm := orElse'_some hm; rcases hm with hm | hm
  · exact body_ownedDispatch hs (by simp [Kind.isOwned, hk]) rfl hm
  split at hm <;> cases hm <;> try rename_i hc
  · simp [ScoreRegistry.getAddress, Body.refl]
  · simp [Body.refl]
  · simp only [wp_bind, wp_pure, ScoreRegistry.registerAddress, ScoreRegistry.setEntry, Owned.requireOwnerOnly, wp_get,
      wp_require, wp_modify, wp_emit]
    intro h1 h2 h3 h4
    exact (Body.refl.local (.register _ _ hk ⟨hc, by rw [← hs.owner, h1]⟩ (not_zero_of_valid h2) h3 h4)).local (.log _ (.inr (.inl ⟨_, _, hc⟩)))
  · simp only [wp_bind, wp_pure, ScoreRegistry.unregisterAddress, ScoreRegistry.setEntry, Owned.requireOwnerOnly, wp_get,
      wp_require, wp_modify, wp_emit]
    intro h1 h2
    exact (Body.refl.local (.unregister _ hk hc (by rw [← hs.owner, h1]))).local (.log _ (.inr (.inr ⟨_, hc⟩)))

/-! ### Third parties -/

theorem body_prog (hcall : CallOK C cx) (hC : StableC C) (p : Prog) : ∀ {w : World}, w.kind cx.self = .foreign →
    wp (runProg cx.self cx.call p) (fun _ w' => Body C cx.fr w w') w := by
  induction p with
  | ret v => intro w _; simp [runProg, Body.refl]
  | fail => intro w _; simp [runProg]
  | look k ih => intro w hk; simp only [runProg, wp_bind, wp_get]; exact ih w hk
  | store n k ih =>
    intro w hk
    simp only [runProg, wp_bind, wp_modify]
    refine wp_mono (ih (by simpa using hk)) ?_
    intro x w' hb
    exact (Body.refl.local (.store n hk)).trans hb
  | emit e k ih =>
    intro w hk
    simp only [runProg, wp_bind, wp_emit]
    refine wp_mono (ih (by simpa using hk)) ?_
    intro x w' hb
    exact (Body.refl.local (.log e (.inl hk))).trans hb
  | call to value c k ih =>
    intro w hk x w' e
    simp only [runProg] at e
    split at e
    · rename_i v w1 hcl
      have s := hcall _ _ _ _ _ _ hcl
      have b1 := (Body.refl (C := C)).call (OutCall.foreign to value c hk) s
      exact b1.trans (ih (some v) (by rw [(hC _ _ _ _ _ _ s).kind]; exact hk) _ _ e)
    · exact ih none hk _ _ e

end Verif

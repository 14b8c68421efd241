import Verif.Proofs.Coin
import Verif.Props.Scenario
/-!
C58: coin is never stuck in a contract, and leaves an account only on its order.
-/
set_option autoImplicit false
namespace Verif

open Scenario (ready ready_reachable alice bob owner)

variable {w : World}

/-- C58. Plain and flexible tokens, converters, registries and networks never hold any coin, nor do addresses without
contract behind them. (ICX tokens hold exactly their supply: C09.) -/
theorem C58_no_coin_stuck (h : Reachable w) {T : Addr}
    (hk : w.kind T = .irc ∨ w.kind T = .flex ∨ w.kind T = .conv ∨ w.kind T = .reg ∨ w.kind T = .net ∨
      (w.kind T = .none ∧ T.isContract = true)) : w.coin T = 0 := by
  rcases hk with hk | hk | hk | hk | hk | ⟨hk, hc⟩
  · exact h.dry (.inl hk)
  · exact h.dry (.inr (.inl hk))
  · exact h.dry (.inr (.inr (.inl hk)))
  · exact h.dry (.inr (.inr (.inr (.inl hk))))
  · exact h.dry (.inr (.inr (.inr (.inr hk))))
  · exact h.basic.coin_none T hk hc

/-- C58. Coin sent along with a call is refused by plain and flexible tokens, converters and registries whatever the call; by a
network unless the call is `convert` or `convertFor`; by an ICX token unless it is a deposit or a plain coin transfer. -/
theorem C58_refused {s T : Addr} {cv : Int} {c : Call} (hcv : cv ≠ 0)
    (hk : w.kind T = .irc ∨ w.kind T = .flex ∨ w.kind T = .conv ∨ w.kind T = .reg ∨
      (w.kind T = .net ∧ (∀ p m, c ≠ .convert p m) ∧ ∀ p m f, c ≠ .convertFor p m f) ∨
      (w.kind T = .icx ∧ c ≠ .deposit ∧ c ≠ .fallback)) : Fails w s T cv c := by
  intro orc n x w' h
  cases n with
  | zero => exact exec_zero h
  | succ n =>
    have key : (w.kind T).isDry → (w.kind T = .net → (∀ p m, c ≠ .convert p m) ∧ ∀ p m f, c ≠ .convertFor p m f) → False := by
      intro hd hn
      rcases exec_dry_value hd h with h1 | ⟨h1, ⟨p, m, e⟩ | ⟨p, m, f, e⟩⟩
      · exact hcv h1
      · exact (hn h1).1 _ _ e
      · exact (hn h1).2 _ _ _ e
    rcases hk with hk | hk | hk | hk | ⟨hk, hc⟩ | ⟨hk, hc⟩
    · exact key (.inl hk) fun e => by rw [hk] at e; cases e
    · exact key (.inr (.inl hk)) fun e => by rw [hk] at e; cases e
    · exact key (.inr (.inr (.inl hk))) fun e => by rw [hk] at e; cases e
    · exact key (.inr (.inr (.inr (.inl hk)))) fun e => by rw [hk] at e; cases e
    · exact key (.inr (.inr (.inr (.inr hk)))) fun _ => hc
    · exact hcv (exec_tok_value (.inr (.inl hk)) h fun _ => hc)

/-- C58. A transaction costs its signer at most the coin sent along, and costs no other ordinary account any coin. -/
theorem C58_purse {orc : Oracle} {fuel : Nat} {tx : Tx} (h : Reachable w) {a : Addr} (ha : a.isContract = false) :
    (∃ t v c, tx = .call a t v c ∧ w.coin a - v ≤ (tx.apply orc fuel w).coin a) ∨ w.coin a ≤ (tx.apply orc fuel w).coin a := by
  have hk : w.kind a = .none := by
    by_contra hn
    rw [h.basic.contract a hn] at ha; cases ha
  cases tx with
  | call s t v c =>
    have key : w.coin a - (if s = a then v else 0) ≤ ((Tx.call s t v c).apply orc fuel w).coin a ∨
        w.coin a ≤ ((Tx.call s t v c).apply orc fuel w).coin a := by
      rcases apply_cases orc fuel (.call s t v c) w with e | ⟨s', t', v', c', x, e1, _, e⟩ | ⟨s', b, i, x, e1, _⟩
      · rw [e]; exact .inr (Int.le_refl _)
      · cases e1
        exact .inl (purse_exec orc a fuel _ _ _ _ _ _ _ e hk)
      · cases e1
    rcases key with key | key
    · split at key
      · rename_i hs; subst hs; exact .inl ⟨t, v, c, rfl, key⟩
      · right; omega
    · exact .inr key
  | deploy s b i =>
    right
    rcases apply_cases orc fuel (.deploy s b i) w with e | ⟨s', t', v', c', x, e1, _, e⟩ | ⟨s', b, i, x, e1, _, e⟩
    · rw [e]
    · cases e1
    · cases e1
      exact purse_deploy ha hk e

set_option maxRecDepth 100000 in
example : ready.kind Scenario.conv = .conv ∧ ready.kind Scenario.network = .net ∧ ready.coin Scenario.network = 0 ∧
    ready.coin alice = 500 ∧
    ((Tx.call alice Scenario.network 100 (.convert (Scenario.pathText [Scenario.icxt, Scenario.flex, Scenario.irc]) 1)).apply
      Scenario.orc 20 ready).coin alice = 400 ∧
    ((Tx.call alice Scenario.network 100 (.convert (Scenario.pathText [Scenario.icxt, Scenario.flex, Scenario.irc]) 1)).apply
      Scenario.orc 20 ready).coin Scenario.network = 0 ∧
    ((Tx.call alice Scenario.conv 100 .fallback).apply Scenario.orc 20 ready).coin alice = 500 := by decide +kernel

end Verif

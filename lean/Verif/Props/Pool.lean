import Verif.Proofs.PoolExec
import Verif.Props.Scenario
/-!
C59: nobody gets anything for nothing out of a converter.
-/
set_option autoImplicit false
namespace Verif

open Real

section
variable {w w' : World} {T t R N : Addr} {l : List Addr}

theorem Trading.cfg (hw : Reachable w) (ht : Trading w T t R N l) : Cfg T t R N l (w.weights T l) w :=
  ⟨ht, hw.convInv T, rfl, (hw.regInv R "Network" N ht.wired.network).1⟩

theorem Trading.later (hw : Reachable w) (ht : Trading w T t R N l) (h : Later w w') :
    w.frames <:+ w'.frames ∧ (Excuse T t R l w w' ∨ (Cfg T t R N l (w.weights T l) w' ∧ Rel T t l (w.weights T l) w w')) := by
  have hc := hw.basic.contract
  refine safe_later ht.wired.contract.1 ?_ ?_ (ht.cfg hw) h
  · intro a ha
    refine hc a ?_
    have := ht.honest a ha
    rintro e; rw [e] at this; simp [Kind.isToken] at this
  · refine hc t ?_
    rw [ht.wired.flex]; simp

/-- C59. As long as nobody in office meddles, a converter that is open for business stays so, with the same weights, whatever
transactions are made, by whomever, and with whatever third-party contracts. -/
theorem C59_stays_open (hw : Reachable w) (ht : Trading w T t R N l) (h : Later w w')
    (hno : ∀ f, Called w w' f → ¬ Meddles T t R l f) : Trading w' T t R N l ∧ w'.weights T l = w.weights T l := by
  obtain ⟨_, ⟨f, h1, h2⟩ | ⟨h1, _⟩⟩ := ht.later hw h
  · exact absurd h2 (hno f h1)
  · exact ⟨h1.tr, h1.weights⟩

/-- C59. Whatever transactions are made, by whomever, and with whatever third-party contracts: as long as nobody in office
meddles, and there is supply left, what happens to the pool behind a converter is a sequence of trades along the curve (and of
gifts), not more of them than calls. -/
theorem C59_trades (hw : Reachable w) (ht : Trading w T t R N l) (h : Later w w')
    (hno : ∀ f, Called w w' f → ¬ Meddles T t R l f) (hs : 0 < (w'.tok t).supply) :
    ∃ n, n ≤ w'.frames.length - w.frames.length ∧ Curve.Trades (w.weights T l) n (w.pool T t l) (w'.pool T t l) := by
  obtain ⟨_, ⟨f, h1, h2⟩ | ⟨_, h1⟩⟩ := ht.later hw h
  · exact absurd h2 (hno f h1)
  · obtain ⟨_, n, h3, h4⟩ := h1 hs
    exact ⟨n, by omega, h4⟩

theorem Trading.weight_pos (hw : Reachable w) (ht : Trading w T t R N l) (i : {a // a ∈ l}) : 1 ≤ w.weights T l i := by
  have := (hw.convInv T).weight i.1 ((ht.cfg hw).isSet.1 i.2)
  unfold World.weights; omega

theorem Trading.supply (hw : Reachable w) (ht : Trading w T t R N l) (h : Later w w')
    (hno : ∀ f, Called w w' f → ¬ Meddles T t R l f) (hs : 0 < (w'.tok t).supply) : 0 < (w.tok t).supply := by
  obtain ⟨_, ⟨f, h1, h2⟩ | ⟨_, h1⟩⟩ := ht.later hw h
  · exact absurd h2 (hno f h1)
  · exact (h1 hs).1

/-- C59. No connector is ever drained as long as there is supply left. -/
theorem C59_never_drained (hw : Reachable w) (ht : Trading w T t R N l) (h : Later w w')
    (hno : ∀ f, Called w w' f → ¬ Meddles T t R l f) (hb : ∀ a ∈ l, 0 < (w.tok a).bal T) (hs : 0 < (w'.tok t).supply) :
    ∀ a ∈ l, 0 < (w'.tok a).bal T := by
  obtain ⟨n, _, h1⟩ := C59_trades hw ht h hno hs
  have := (h1.value (ht.weight_pos hw) ⟨ht.supply hw h hno hs, fun i => hb i.1 i.2⟩).1.2
  exact fun a ha => this ⟨a, ha⟩

/-- C59. The value of the pool per flexible token does not fall, but for a rounding error of at most `5 / 2^127` per call. -/
theorem C59_value (hw : Reachable w) (ht : Trading w T t R N l) (h : Later w w')
    (hno : ∀ f, Called w w' f → ¬ Meddles T t R l f) (hb : ∀ a ∈ l, 0 < (w.tok a).bal T) (hs : 0 < (w'.tok t).supply) :
    (w.pool T t l).value (w.weights T l) * exp (-((w'.frames.length - w.frames.length : Nat) * (5 / 2 ^ 127))) ≤
      (w'.pool T t l).value (w.weights T l) := by
  obtain ⟨n, hn, h1⟩ := C59_trades hw ht h hno hs
  have hS := ht.supply hw h hno hs
  refine le_trans ?_ (Formula.C46_value (ht.weight_pos hw) hS (fun i => hb i.1 i.2) h1)
  have hpos : 0 ≤ (w.pool T t l).value (w.weights T l) := by
    unfold Curve.Pool.value
    refine div_nonneg (Finset.prod_nonneg fun i _ => Real.rpow_nonneg ?_ _) ?_
    · exact_mod_cast le_of_lt (hb i.1 i.2)
    · exact_mod_cast le_of_lt hS
  refine mul_le_mul_of_nonneg_left (Real.exp_le_exp.2 ?_) hpos
  have : (n : ℝ) ≤ ((w'.frames.length - w.frames.length : Nat) : ℝ) := by exact_mod_cast hn
  have h5 : (0 : ℝ) ≤ 5 / 2 ^ 127 := by positivity
  have := mul_le_mul_of_nonneg_right this h5
  linarith

/-- C59. Nobody takes connector tokens out for nothing: if afterwards the supply is not smaller, and the converter does not hold
more of any other connector, then it does not hold less of this one (up to `2^104` tokens times calls). -/
theorem C59_no_free_balance {a : Addr} (hw : Reachable w) (ht : Trading w T t R N l) (h : Later w w')
    (hno : ∀ f, Called w w' f → ¬ Meddles T t R l f) (hb : ∀ a ∈ l, 0 < (w.tok a).bal T) (hs : 0 < (w'.tok t).supply)
    (ha : a ∈ l) (hsupply : (w.tok t).supply ≤ (w'.tok t).supply) (hothers : ∀ b ∈ l, b ≠ a → (w'.tok b).bal T ≤ (w.tok b).bal T)
    (hsize : (w.tok a).bal T * (w'.frames.length - w.frames.length : Nat) ≤ 2 ^ 104) :
    (w.tok a).bal T ≤ (w'.tok a).bal T := by
  obtain ⟨n, hn, h1⟩ := C59_trades hw ht h hno hs
  refine Formula.C46_no_free_balance (i := ⟨a, ha⟩) (ht.weight_pos hw) (ht.supply hw h hno hs) (fun i => hb i.1 i.2) h1 hsupply
    (fun j hj => hothers j.1 j.2 (by rintro rfl; exact hj rfl)) (le_trans ?_ hsize)
  refine mul_le_mul_of_nonneg_left ?_ (le_of_lt (hb a ha))
  exact_mod_cast hn

/-- C59. Nobody gets flexible tokens for nothing: if afterwards the converter does not hold more of any connector, then the
supply is not greater (up to `2^120` tokens times calls). -/
theorem C59_no_free_supply (hw : Reachable w) (ht : Trading w T t R N l) (h : Later w w')
    (hno : ∀ f, Called w w' f → ¬ Meddles T t R l f) (hb : ∀ a ∈ l, 0 < (w.tok a).bal T) (hs : 0 < (w'.tok t).supply)
    (hbal : ∀ b ∈ l, (w'.tok b).bal T ≤ (w.tok b).bal T)
    (hsize : (w.tok t).supply * (w'.frames.length - w.frames.length : Nat) ≤ 2 ^ 120) :
    (w'.tok t).supply ≤ (w.tok t).supply := by
  obtain ⟨n, hn, h1⟩ := C59_trades hw ht h hno hs
  have hS := ht.supply hw h hno hs
  refine Formula.C46_no_free_supply (ht.weight_pos hw) hS (fun i => hb i.1 i.2) h1 (fun j => hbal j.1 j.2) (le_trans ?_ hsize)
  refine mul_le_mul_of_nonneg_left ?_ (le_of_lt hS)
  exact_mod_cast hn

end

/-! ### A pool and a history -/

open Scenario in
set_option maxRecDepth 100000 in
theorem ready_trading : Trading ready conv flex registry network [irc, icxt] where
  wired := ready_wired
  active := ready_tokens.2.2.2
  listed := by decide +kernel
  connectors := by decide +kernel
  honest := by decide +kernel
  real := by decide +kernel

/-- Calls that nobody could call meddling with the pool of the scenario. -/
def Frame.plain (f : Frame) : Bool := match f.call with
  | .updateConnector .. | .restoreRegistry | .registerAddress .. | .unregisterAddress .. | .acceptOwnerShip => false
  | .destroy .. => f.to = Scenario.flex
  | _ => true

/-- Alice buys, converts back and forth between the connectors, and sells. -/
def Scenario.busy : World := Scenario.run [
  Scenario.trade [Scenario.irc, Scenario.flex, Scenario.flex] 5000 1,
  Scenario.trade [Scenario.irc, Scenario.flex, Scenario.icxt] 100 1,
  Scenario.trade [Scenario.icxt, Scenario.flex, Scenario.irc] 100 1,
  Scenario.trade [Scenario.flex, Scenario.flex, Scenario.irc] 2000 1] Scenario.ready

theorem run_later (txs : List Tx) {w w' : World} (h : Later w w') : Later w (Scenario.run txs w') := by
  induction txs generalizing w' with
  | nil => exact h
  | cons tx txs ih => exact ih (.step Scenario.orc 20 tx h)

open Scenario in
theorem busy_later : Later ready busy := run_later _ .refl

open Scenario in
set_option maxRecDepth 100000 in
/-- Afterwards there are 408 flexible tokens more, and the converter holds 825 more of one connector and 11 more of the other. -/
theorem busy_pool : (ready.tok flex).supply = 100000 ∧ (busy.tok flex).supply = 100408 ∧ (ready.tok irc).bal conv = 50000 ∧
    (busy.tok irc).bal conv = 50825 ∧ (ready.tok icxt).bal conv = 50000 ∧ (busy.tok icxt).bal conv = 50011 ∧
    ready.frames.length = 25 ∧ busy.frames.length = 96 := by decide +kernel

open Scenario in
theorem plain_since {w0 w : World} (key : (w.frames.take (w.frames.length - w0.frames.length)).all Frame.plain = true) :
    ∀ f, Called w0 w f → ¬ Meddles conv flex registry [irc, icxt] f := by
  rintro f ⟨new, h1, h2⟩ hm
  have hmem : f ∈ w.frames.take (w.frames.length - w0.frames.length) := by
    rw [h1, List.length_append, Nat.add_sub_cancel, List.take_left]; exact h2
  have := List.all_eq_true.1 key f hmem
  unfold Frame.plain at this
  rcases hm with ⟨_, _, _, _, _, _, h⟩ | ⟨_, _, h⟩ | ⟨_, _, ⟨_, _, h⟩ | ⟨_, h⟩⟩ | ⟨_, _, h⟩ | ⟨h', _, _, h⟩ <;> rw [h] at this
  · cases this
  · cases this
  · cases this
  · cases this
  · cases this
  · simp only [decide_eq_true_eq] at this
    rw [this] at h'
    exact absurd h' (by decide)

open Scenario in
theorem plain_of {w : World} (key : (w.frames.take (w.frames.length - ready.frames.length)).all Frame.plain = true) :
    ∀ f, Called ready w f → ¬ Meddles conv flex registry [irc, icxt] f := plain_since key

open Scenario in
set_option maxRecDepth 100000 in
theorem busy_plain : ∀ f, Called ready busy f → ¬ Meddles conv flex registry [irc, icxt] f := plain_of (by decide +kernel)

open Scenario in
/-- The history of trades above meets the hypotheses. -/
example : ∃ n, n ≤ 71 ∧ Curve.Trades (ready.weights conv [irc, icxt]) n (ready.pool conv flex [irc, icxt]) (busy.pool conv flex [irc, icxt]) := by
  obtain ⟨n, h1, h2⟩ := C59_trades ready_reachable ready_trading busy_later busy_plain (by rw [busy_pool.2.1]; decide)
  rw [busy_pool.2.2.2.2.2.2.1, busy_pool.2.2.2.2.2.2.2] at h1
  exact ⟨n, h1, h2⟩

open Scenario in
example : ∀ a ∈ [irc, icxt], 0 < (busy.tok a).bal conv := by
  refine C59_never_drained ready_reachable ready_trading busy_later busy_plain ?_ (by rw [busy_pool.2.1]; decide)
  intro a ha
  simp only [List.mem_cons, List.not_mem_nil, or_false] at ha
  rcases ha with rfl | rfl
  · rw [busy_pool.2.2.1]; decide
  · rw [busy_pool.2.2.2.2.1]; decide

/-- Alice buys and sells what she got. -/
def Scenario.round : World := Scenario.run [
  Scenario.trade [Scenario.irc, Scenario.flex, Scenario.flex] 5000 1,
  Scenario.trade [Scenario.flex, Scenario.flex, Scenario.irc] 2408 1] Scenario.ready

open Scenario in
set_option maxRecDepth 100000 in
theorem round_pool : (round.tok flex).supply = 100000 ∧ (round.tok irc).bal conv = 50012 ∧ (round.tok icxt).bal conv = 50000 ∧
    round.frames.length = 59 := by decide +kernel

open Scenario in
set_option maxRecDepth 100000 in
theorem round_plain : ∀ f, Called ready round f → ¬ Meddles conv flex registry [irc, icxt] f := plain_of (by decide +kernel)

open Scenario in
/-- Here the supply and the other connector are as before, so the converter cannot have lost anything. -/
example : (ready.tok irc).bal conv ≤ (round.tok irc).bal conv := by
  have hb : ∀ a ∈ [irc, icxt], 0 < (ready.tok a).bal conv := by
    intro a ha
    simp only [List.mem_cons, List.not_mem_nil, or_false] at ha
    rcases ha with rfl | rfl
    · rw [busy_pool.2.2.1]; decide
    · rw [busy_pool.2.2.2.2.1]; decide
  refine C59_no_free_balance ready_reachable ready_trading (run_later _ .refl) round_plain hb (by rw [round_pool.1]; decide) (by decide) (by rw [busy_pool.1, round_pool.1]) ?_ ?_
  · intro b hb hne
    simp only [List.mem_cons, List.not_mem_nil, or_false] at hb
    rcases hb with rfl | rfl
    · exact absurd rfl hne
    · rw [round_pool.2.2.1, busy_pool.2.2.2.2.1]
  · rw [round_pool.2.2.2, busy_pool.2.2.2.2.2.2.1, busy_pool.2.2.1]; decide

/-! ### Connectors with a virtual balance -/

/-- The scenario after the owner gave the ICX token connector a virtual balance of 600. -/
def Scenario.lowVirtual : World := Scenario.run [.call Scenario.owner Scenario.conv 0 (.updateConnector Scenario.icxt 250000 true 600)] Scenario.ready

/-- Alice buys with 500 of the ICX token, and sells what she got. -/
def Scenario.exploited : World := Scenario.run [
  Scenario.trade [Scenario.icxt, Scenario.flex, Scenario.flex] 500 1,
  Scenario.trade [Scenario.flex, Scenario.flex, Scenario.icxt] 56451 1] Scenario.lowVirtual

open Scenario in
set_option maxRecDepth 100000 in
/-- C59 does not hold of connectors with a virtual balance: there is a ledger, with a converter open for business but for a
connector with a virtual balance, and a history of two trades by a person without office, from which she has 415 more of the coin
and everything else as before, the supply is as before, and the converter has lost 415 of its reserve. (The deposit is subtracted
from the virtual balance although it was not added to it, so purchases are overpaid.) -/
theorem C59_virtual_is_drained : ∃ w w' : World, ∃ T t R N A : Addr, ∃ a b, Reachable w ∧ Later w w' ∧ Wired w T t R N ∧
    (w.own t).owner = some T ∧ w.reg R "ScoreRegistry" = some R ∧ (w.conv T).connectorTokens = [a, b] ∧
    ((w.conv T).connectors a).isVirtual = false ∧ ((w.conv T).connectors b).isVirtual = true ∧
    (w.tok b).bal T = 50000 ∧ ((w.conv T).connectors b).virtualBalance = 600 ∧ w.kind a = .irc ∧ w.kind b = .icx ∧
    (∀ f, Called w w' f → ¬ Meddles T t R [a, b] f) ∧
    (w'.tok t).supply = (w.tok t).supply ∧ (w'.tok t).bal A = (w.tok t).bal A ∧ (w'.tok a).bal A = (w.tok a).bal A ∧
    (w'.tok b).bal A + w'.coin A = (w.tok b).bal A + w.coin A + 415 ∧
    (w'.tok a).bal T = (w.tok a).bal T ∧ (w'.tok b).bal T = (w.tok b).bal T - 415 := by
  refine ⟨lowVirtual, exploited, conv, flex, registry, network, alice, irc, icxt, run_reachable _ ready_reachable, run_later _ .refl, ?_, ?_⟩
  · refine wired_of_reachable (run_reachable _ ready_reachable) ?_ ?_ ?_ ?_ ?_ ?_ ?_ <;> decide +kernel
  · refine ⟨by decide +kernel, by decide +kernel, by decide +kernel, by decide +kernel, by decide +kernel, by decide +kernel, by decide +kernel,
      by decide +kernel, by decide +kernel, ?_, by decide +kernel⟩
    exact plain_since (by decide +kernel)

end Verif

import Verif.Proofs.Source.Ledger
import Verif.Props.Tokens
/-!
C76: the model is the source text. `Model/Source/Text.lean` holds the syntax trees of every function and method in contracts/ (generated from the
Python files), `Model/Source/Sem.lean` an interpreter of that part of Python, and `Model/Source/Machine.lean` the ledger on which the interpreted
text runs. The theorems: what the interpreted text does is what the model, about which all other properties are proved, does.
-/
set_option autoImplicit false
namespace Verif.Props
open Verif Scenario Formula

/-- Two computations succeed on the same ledgers, with the same answer and the same new ledger. -/
def SameResults (m m' : M Val) : Prop := ∀ (w : World) (v : Val) (w' : World), m w = .ok (v, w') ↔ m' w = .ok (v, w')

theorem sameResults_of {m m' : M Val} (h : ∀ w, Src.opt m w = Src.opt m' w) : SameResults m m' := by
  intro w v w'
  have h := h w
  unfold Src.opt at h
  cases h1 : m w <;> cases h2 : m' w <;> rw [h1, h2] at h <;> simp only [Option.some.injEq, reduceCtorEq] at h
  · simp
  · rw [h]

/-- C76, calls: for every third-party code, sender, callee, coin, method and arguments, at every nesting budget, the interpreted source text and the model
succeed on the same ledgers, with the same answer and the same new ledger, event logs and nested calls included. -/
theorem C76_call (orc : Oracle) (depth loops : Nat) (hd : 8 ≤ depth) (hl : 96 ≤ loops) (fuel : Nat) (sender callee : Addr) (value : Int) (c : Call) :
    SameResults (Src.exec orc depth loops fuel sender callee value c) (exec orc fuel sender callee value c) :=
  sameResults_of fun w => Src.exec_eq orc depth loops hd hl fuel sender callee value c w

/-- C76, deployments: the interpreted `on_install` of every SCORE does what the model's does. -/
theorem C76_deploy (orc : Oracle) (depth loops : Nat) (hd : 8 ≤ depth) (hl : 96 ≤ loops) (fuel : Nat) (sender addr : Addr) (i : Install) :
    SameResults (Src.deploy orc depth loops fuel sender addr i) (deploy orc fuel sender addr i) :=
  sameResults_of fun w => Src.deploy_eq orc depth loops hd hl fuel sender addr i w

/-- C76, transactions: the ledger after a transaction is the same. -/
theorem C76_tx (orc : Oracle) (depth loops : Nat) (hd : 8 ≤ depth) (hl : 96 ≤ loops) (fuel : Nat) (tx : Tx) (w : World) :
    Src.apply orc depth loops fuel tx w = tx.apply orc fuel w := Src.apply_eq orc depth loops hd hl fuel tx w

/-- C76, histories: the source text reaches exactly the ledgers the model reaches, so what is proved of all reachable ledgers of the model is proved of all
ledgers the source text reaches. -/
theorem C76_reachable (depth loops : Nat) (hd : 8 ≤ depth) (hl : 96 ≤ loops) (w : World) : Src.Reachable depth loops w ↔ Reachable w :=
  Src.reachable_iff depth loops hd hl w

/-- C76, budgets: no call needs more than 8 levels of calls within a contract or 96 rounds of a `while` loop: with larger bounds nothing changes. -/
theorem C76_budgets (orc : Oracle) (depth loops : Nat) (hd : 8 ≤ depth) (hl : 96 ≤ loops) (fuel : Nat) (sender callee : Addr) (value : Int) (c : Call) :
    SameResults (Src.exec orc depth loops fuel sender callee value c) (Src.exec orc 8 96 fuel sender callee value c) :=
  sameResults_of fun w => (Src.exec_eq orc depth loops hd hl fuel sender callee value c w).trans
    (Src.exec_eq orc 8 96 (Nat.le_refl _) (Nat.le_refl _) fuel sender callee value c w).symm

/-- C76, the formula: the text of fixed_map_formula.py computes the model's formula, for all numbers, and changes nothing. -/
theorem C76_formula (cx : Src.Cx) (depth : Nat) (hd : 4 ≤ depth) (hl : 96 ≤ cx.loops) (w : World) (supply balance weight amount : Int) :
    (∀ r, Src.invoke cx depth "FixedMapFormula" (some "FixedMapFormula") Src.tFixedMapFormula_calculate_purchase_return
        [.int supply, .int balance, .int weight, .int amount] w = some (.int r, w) ↔ calculatePurchaseReturn supply balance weight amount = .ok r) ∧
    (∀ r, Src.invoke cx depth "FixedMapFormula" (some "FixedMapFormula") Src.tFixedMapFormula_calculate_sale_return
        [.int supply, .int balance, .int weight, .int amount] w = some (.int r, w) ↔ calculateSaleReturn supply balance weight amount = .ok r) ∧
    ∀ (balance' weight' : Int) r, Src.invoke cx depth "FixedMapFormula" (some "FixedMapFormula") Src.tFixedMapFormula_calculate_cross_connector_return
        [.int balance, .int weight, .int balance', .int weight', .int amount] w = some (.int r, w) ↔
      calculateCrossConnectorReturn balance weight balance' weight' amount = .ok r := by
  have key : ∀ (e : Except Err Int) (r : Int), (Src.andThen (Src.optE e) fun r => some (Src.PV.int r, w)) = some (.int r, w) ↔ e = .ok r := by
    intro e r
    cases e with
    | ok a => simp [Src.optE, Src.andThen]
    | error a => simp [Src.optE, Src.andThen]
  refine ⟨fun r => ?_, fun r => ?_, fun b' w' r => ?_⟩
  · rw [Src.inv_purchase _ _ hd hl]; exact key _ _
  · rw [Src.inv_sale _ _ hd hl]; exact key _ _
  · rw [Src.inv_cross _ _ hd hl]; exact key _ _

/-- C76, an instance (C01): whatever is done to the contracts, as their text is written, the supply of every token is the sum of its balances, and no balance is
negative. -/
theorem C76_supply_is_sum {depth loops : Nat} (hd : 8 ≤ depth) (hl : 96 ≤ loops) {w : World} (h : Src.Reachable depth loops w) (T : Addr) :
    (w.tok T).supply = ∑ᶠ a, (w.tok T).bal a ∧ ∀ a, 0 ≤ (w.tok T).bal a :=
  have h := C01_supply_is_sum ((C76_reachable depth loops hd hl w).mp h) T
  ⟨h.1, h.2.1⟩

set_option maxRecDepth 100000 in
/-- The hypotheses are met: the ledger of the scenario is reached by the source text. -/
example : Src.Reachable 8 96 ready := (C76_reachable 8 96 (by decide) (by decide) ready).mpr ready_reachable

set_option maxRecDepth 100000 in
/-- The source text, run by the interpreter from the empty ledger: the deployment of all contracts, the set-up of the converter and the first purchases; then a trade
through the network gives alice 48 more tokens; one with too high a demand fails. -/
example :
    let w := setup.foldl (fun w tx => Src.apply orc 8 96 20 tx w) genesis
    (w.tok flex).bal alice = 10000 ∧ (w.own flex).owner = some conv ∧ w.coin icxt = 60500 ∧
      ((Src.apply orc 8 96 20 (trade [irc, flex, flex] 100 1) w).tok flex).bal alice = 10048 ∧
      ((Src.apply orc 8 96 20 (trade [irc, flex, flex] 100 49) w).tok flex).bal alice = 10000 := by decide +kernel

end Verif.Props

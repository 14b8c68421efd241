import Mathlib.Analysis.SpecialFunctions.Pow.Real
import Mathlib.Data.Fintype.BigOperators
import Verif.Model.Formula
/-!
What the formula is meant to compute: the exact curve, as the docstrings of fixed_map_formula.py write it
(lines 183-184, 213-214, 253-254), over the real numbers. And pools that trade along it.
-/
set_option autoImplicit false
namespace Verif.Curve

/-- `supply * ((1 + deposit_amount / connector_balance) ^ (connector_weight / 1000000) - 1)` -/
noncomputable def purchase (supply balance weight deposit : ℝ) : ℝ :=
  supply * ((1 + deposit / balance) ^ (weight / 1000000) - 1)

/-- `connector_balance * (1 - (1 - sell_amount / supply) ^ (1 / (connector_weight / 1000000)))` -/
noncomputable def sale (supply balance weight sold : ℝ) : ℝ :=
  balance * (1 - (1 - sold / supply) ^ (1 / (weight / 1000000)))

/-- `to_connector_balance * (1 - (from_connector_balance / (from_connector_balance + amount)) ^ (from_connector_weight / to_connector_weight))` -/
noncomputable def cross (fromBalance fromWeight toBalance toWeight amount : ℝ) : ℝ :=
  toBalance * (1 - (fromBalance / (fromBalance + amount)) ^ (fromWeight / toWeight))

/-- A supply and the balances of its connectors. -/
structure Pool (ι : Type) where
  supply : Int
  balance : ι → Int

/-- One trade against a pool with connector weights `weight`. The trader gets at most what the formula returns
(a fee may be kept) and never pays less than the amount the formula was asked about. -/
inductive Trade {ι : Type} [DecidableEq ι] (weight : ι → Int) : Pool ι → Pool ι → Prop
  | buy (P : Pool ι) (i : ι) (deposit quote got : Int) : 0 ≤ deposit →
      Formula.calculatePurchaseReturn P.supply (P.balance i) (weight i) deposit = .ok quote → 0 ≤ got → got ≤ quote →
      Trade weight P ⟨P.supply + got, Function.update P.balance i (P.balance i + deposit)⟩
  | sell (P : Pool ι) (i : ι) (sold quote got : Int) : 0 ≤ sold → sold < P.supply →
      Formula.calculateSaleReturn P.supply (P.balance i) (weight i) sold = .ok quote → 0 ≤ got → got ≤ quote →
      Trade weight P ⟨P.supply - sold, Function.update P.balance i (P.balance i - got)⟩
  | cross (P : Pool ι) (i j : ι) (paid quote got : Int) : i ≠ j → 0 ≤ paid →
      Formula.calculateCrossConnectorReturn (P.balance i) (weight i) (P.balance j) (weight j) paid = .ok quote → 0 ≤ got → got ≤ quote →
      Trade weight P ⟨P.supply, Function.update (Function.update P.balance i (P.balance i + paid)) j (P.balance j - got)⟩
  /-- Somebody gives tokens to a connector for nothing. -/
  | gift (P : Pool ι) (i : ι) (amount : Int) : 0 ≤ amount →
      Trade weight P ⟨P.supply, Function.update P.balance i (P.balance i + amount)⟩
  /-- Somebody destroys smart tokens for nothing. -/
  | burn (P : Pool ι) (amount : Int) : 0 ≤ amount → amount < P.supply → Trade weight P ⟨P.supply - amount, P.balance⟩

/-- `n` trades, one after the other, by anybody. -/
inductive Trades {ι : Type} [DecidableEq ι] (weight : ι → Int) : Nat → Pool ι → Pool ι → Prop
  | none (P : Pool ι) : Trades weight 0 P P
  | more {n : Nat} {P Q R : Pool ι} : Trades weight n P Q → Trade weight Q R → Trades weight (n + 1) P R

/-- The value of a pool, in smart tokens per smart token: the weighted product of the balances divided by the supply.
The exact curve keeps it constant. -/
noncomputable def Pool.value {ι : Type} [Fintype ι] (weight : ι → Int) (P : Pool ι) : ℝ :=
  (∏ i, (P.balance i : ℝ) ^ ((weight i : ℝ) / 1000000)) / P.supply

end Verif.Curve

import Verif.Model.Exec
/-!
How deep calls of each method nest, and how many calls they make, when there are no third-party contracts (C74).
-/
set_option autoImplicit false
namespace Verif

/-- No third-party contract on the ledger. -/
def World.Own (w : World) : Prop := ∀ a, w.kind a ≠ .foreign

/-- Data a network reads as a request to convert along a path. -/
def Data.asksNetwork (d : Data) : Bool := (Network.convertBytesData d ZERO).isSome

/-- Data a converter reads as a request to convert. -/
def Data.asksConverter (d : Data) : Bool := (Converter.parseRequest d).isSome

/-- How deep the receipt of tokens with this data can nest, itself included. -/
def Data.depth (d : Data) : Nat := if d.asksNetwork then 6 else if d.asksConverter then 4 else 2

/-- How many calls the receipt of tokens with this data can make, itself included. -/
def Data.calls (d : Data) : Nat := if d.asksNetwork then 195 else if d.asksConverter then 15 else 3

/-- How deep a call can nest, itself included. -/
def Call.depth : Call → Nat
  | .transfer _ _ d => (d.getD .noneBytes).depth + 1
  | .tokenFallback _ _ d => d.depth
  | .convert .. => 6
  | .convertFor .. => 6
  | .withdrawFromToken .. => 5
  | .withdrawTokens .. => 4
  | .getExpectedReturnByPath .. => 3
  | .getReturn .. => 2
  | .getConnectorBalance .. => 2
  | .isActive => 2
  | .transferTokenOwnership .. => 2
  | .acceptTokenOwnership => 2
  | .disableTokenTransfers .. => 2
  | .addConnector .. => 2
  | .updateRegistry => 2
  | .withdraw .. => 2
  | .withdrawTo .. => 2
  | _ => 1

/-- How many calls a call can make, itself included. -/
def Call.calls : Call → Nat
  | .transfer _ _ d => (d.getD .noneBytes).calls + 1
  | .tokenFallback _ _ d => d.calls
  | .convert .. => 196
  | .convertFor .. => 196
  | .withdrawFromToken .. => 7
  | .withdrawTokens .. => 6
  | .getExpectedReturnByPath .. => 51
  | .getReturn .. => 4
  | .getConnectorBalance .. => 2
  | .isActive => 2
  | .transferTokenOwnership .. => 2
  | .acceptTokenOwnership => 2
  | .disableTokenTransfers .. => 2
  | .addConnector .. => 2
  | .updateRegistry => 2
  | .withdraw .. => 2
  | .withdrawTo .. => 2
  | _ => 1

/-- A transaction that deploys no third-party code. -/
def Tx.Own : Tx → Prop
  | .call .. => True
  | .deploy _ _ i => i ≠ .foreign

/-- The ledger after transactions, each with its own budget. -/
def Tx.history (orc : Oracle) : List (Nat × Tx) → World → World
  | [], w => w
  | (n, tx) :: l, w => Tx.history orc l (tx.apply orc n w)

end Verif

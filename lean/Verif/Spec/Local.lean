import Verif.Spec.Depth
/-!
What a transaction touches, and what there is at an address (C75).
-/
set_option autoImplicit false
namespace Verif

/-- Everything the ledger has at one address: the contract's code, its storage, and its coin. -/
structure Row where
  kind : Kind
  coin : Int
  tok : TokSt
  own : OwnSt
  flex : FlexSt
  conv : ConvSt
  reg : String → Option Addr
  net : Addr → Bool
  store : Nat

/-- What the ledger has at an address. -/
def World.row (w : World) (a : Addr) : Row where
  kind := w.kind a
  coin := w.coin a
  tok := w.tok a
  own := w.own a
  flex := w.flex a
  conv := w.conv a
  reg := w.reg a
  net := w.net a
  store := w.store a

/-- The calls made on the way from one ledger to a later one. -/
def World.calls (w w1 : World) : List Frame := w1.frames.take (w1.frames.length - w.frames.length)

/-- The event logs written on the way from one ledger to a later one. -/
def World.events (w w1 : World) : List (Addr × Event) := w1.log.take (w1.log.length - w.log.length)

/-- Who signs a transaction. -/
def Tx.signer : Tx → Addr
  | .call s .. => s
  | .deploy s .. => s

/-- Whom a transaction calls, or the address of the contract it deploys. -/
def Tx.target : Tx → Addr
  | .call _ t .. => t
  | .deploy _ a _ => a

/-- The addresses a transaction touches on its way from one ledger to a later one: its signer, its target and all receivers of
nested calls. -/
def Tx.touches (tx : Tx) (w w1 : World) (a : Addr) : Prop := a = tx.signer ∨ a = tx.target ∨ ∃ f ∈ w.calls w1, f.to = a

end Verif

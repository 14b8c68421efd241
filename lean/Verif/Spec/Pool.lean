import Verif.Spec
import Verif.Spec.Curve
/-!
The pool behind a converter, and what may disturb it.
-/
set_option autoImplicit false
namespace Verif

/-- The pool behind converter `T` of flexible token `t` with connectors `l`: the supply of `t`, and what `T` holds of each
connector token. -/
def World.pool (w : World) (T t : Addr) (l : List Addr) : Curve.Pool {a // a ∈ l} :=
  ⟨(w.tok t).supply, fun a => (w.tok a.1).bal T⟩

/-- The weights of the connectors. -/
def World.weights (w : World) (T : Addr) (l : List Addr) : {a // a ∈ l} → Int := fun a => ((w.conv T).connectors a.1).weight

/-- Converter `T` of flexible token `t` is open for business: it is wired to a registry that lists itself and a network of this
code base, it owns its flexible token, and its connectors, `l`, are tokens of this code base without virtual balances. -/
structure Trading (w : World) (T t R N : Addr) (l : List Addr) : Prop where
  wired : Wired w T t R N
  active : (w.own t).owner = some T
  listed : w.reg R "ScoreRegistry" = some R
  connectors : (w.conv T).connectorTokens = l
  honest : ∀ a ∈ l, (w.kind a).isToken
  real : ∀ a ∈ l, ((w.conv T).connectors a).isVirtual = false

/-- The calls by which people in office can disturb the pool: the converter's owner redefines a connector, he or the manager
restores the previous registry, the registry's owner changes an entry, somebody takes over the flexible token (after the
converter's owner has had him nominated), the owner of a connector token destroys tokens of the converter. -/
def Meddles (T t R : Addr) (l : List Addr) (f : Frame) : Prop :=
  (f.to = T ∧ f.owner = some f.sender ∧ ∃ a wt b vb, f.call = .updateConnector a wt b vb) ∨
  (f.to = T ∧ (f.owner = some f.sender ∨ f.manager = some f.sender) ∧ f.call = .restoreRegistry) ∨
  (f.to = R ∧ f.owner = some f.sender ∧ ((∃ n a, f.call = .registerAddress n a) ∨ ∃ n, f.call = .unregisterAddress n)) ∨
  (f.to = t ∧ f.sender ≠ T ∧ f.call = .acceptOwnerShip) ∨
  (f.to ∈ l ∧ f.owner = some f.sender ∧ ∃ v, f.call = .destroy T v)

end Verif

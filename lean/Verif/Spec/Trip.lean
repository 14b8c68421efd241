import Verif.Spec.Legs
import Verif.Spec.Curve
/-!
Round trips (C82).
-/
set_option autoImplicit false
namespace Verif

/-- Account `s` gives network `N` an order to convert `v` of token `a` into token `b` with the converter of flexible token `t`; it is carried out, and `s` gets `r`. -/
def Exchanged (w w' : World) (N t s a b : Addr) (v r : Int) : Prop :=
  ∃ orc k tx m coins x, Order N s v m s coins [a, t, b] tx ∧ tx.run orc k w = .ok (x, w') ∧ Settled w w' N s a b s v r coins

/-- Account `s` has `v` of `a` converted into `b` and gets `r`; then, with no transaction in between, he has these `r` converted back and gets `p`. The converter `T`, the network and the
tokens are contracts of this code base; neither token is a connector with a virtual balance. -/
structure RoundTrip (w w' : World) (N T t s a b : Addr) (v r p : Int) : Prop where
  reachable : Reachable w
  plain : s.isContract = false
  wired : ∃ R, Wired w T t R N
  active : (w.own t).owner = some T
  tokens : (w.kind a).isToken ∧ (w.kind b).isToken
  real : ∀ z, z = a ∨ z = b → z ≠ t → ((w.conv T).connectors z).isVirtual = false
  trip : ∃ w1, Exchanged w w1 N t s a b v r ∧ Exchanged w1 w' N t s b a r p

/-- Account `s` gives network `N` an order to convert `v` of token `a` along the path `p` into token `z`; it is carried out, and `s` gets `r`. -/
def Carried (w w' : World) (N s : Addr) (p : List Addr) (a z : Addr) (v r : Int) : Prop :=
  ∃ orc k tx m coins x, Order N s v m s coins p tx ∧ tx.run orc k w = .ok (x, w') ∧ Settled w w' N s a z s v r coins

/-- The converters of a path pay and are paid from real balances, and these (or the supply, where the flexible token is sold) are not too large. -/
def MeasuredPath (w : World) : Addr → List Addr → Prop
  | a, t :: b :: rest => (∀ T, (w.own t).owner = some T → (∀ z, z = a ∨ z = b → z ≠ t → ((w.conv T).connectors z).isVirtual = false) ∧
      (a ≠ t → (w.tok a).bal T ≤ 2 ^ 103) ∧ (a = t → (w.tok t).supply ≤ 2 ^ 119)) ∧ MeasuredPath w b rest
  | _, _ => True

/-- Account `s` has `v` of `a` converted along the path `a, rest` and gets `r`; then, with no transaction in between, it has these `r` converted back along the reverse of the path
and gets `p`. -/
structure PathTrip (w w' : World) (N s a : Addr) (rest : List Addr) (v r p : Int) : Prop where
  reachable : Reachable w
  plain : s.isContract = false
  net : w.kind N = .net
  honest : HonestPath w N a rest
  measured : MeasuredPath w a rest
  trip : ∃ w1, Carried w w1 N s (a :: rest) a (lastOf a rest) v r ∧ Carried w1 w' N s (a :: rest).reverse (lastOf a rest) a r p

end Verif

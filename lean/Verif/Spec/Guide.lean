import Verif.Spec
/-!
Vocabulary for the deployment guide, README.md:172-478.
-/
set_option autoImplicit false
namespace Verif

/-- All transactions of the list succeed, one after the other, and lead from the first ledger to the second. -/
inductive Works (orc : Oracle) (n : Nat) : World → List Tx → World → Prop
  | nil {w : World} : Works orc n w [] w
  | cons {w w1 w' : World} {tx : Tx} {txs : List Tx} {x : Val} :
      tx.run orc n w = .ok (x, w1) → Works orc n w1 txs w' → Works orc n w (tx :: txs) w'

/-- Steps 1 to 3 of the guide, README.md:198-305: network, registry and ICX token are deployed and registered, and `v` coin is
sent to the ICX token. -/
def guideSystem (s N R X : Addr) (v : Int) : List Tx :=
  [.deploy s N .net, .deploy s R .reg, .deploy s X .icx,
   .call s R 0 (.registerAddress "Network" N),
   .call s N 0 (.registerIcxToken X true),
   .call s X v .fallback]

/-- A connector of a converter set: its token, weight, and the reserve it starts with. -/
structure Plan where
  token : Addr
  weight : Int
  reserve : Int
  deriving DecidableEq

/-- What a connector looks like after it was added. -/
def Plan.connector (p : Plan) : Connector :=
  { virtualBalance := 0, weight := p.weight, isVirtual := false, isPurchaseEnabled := true, isSet := true }

/-- Steps 4 to 6, README.md:315-436: the flexible token `F`, its converter `C` with the first connector, and the other connectors. -/
def guideSet (s F C R : Addr) (name symbol : String) (i d m : Int) (first : Plan) (others : List Plan) : List Tx :=
  [.deploy s F (.flex name symbol i d), .deploy s C (.conv (some F) (some R) m (some first.token) first.weight)] ++
  others.map fun p => .call s C 0 (.addConnector p.token p.weight false)

/-- Initial reserves (README.md:654-673 lists some; the guide has no step for them). -/
def guideReserves (s C : Addr) (ps : List Plan) : List Tx := ps.map fun p => .call s p.token 0 (.transfer C p.reserve none)

/-- Activation. The first call is missing in the guide; the second is step 7, README.md:438-466. -/
def guideActivation (s F C : Addr) : List Tx := [.call s F 0 (.transferOwnerShip C), .call s C 0 .acceptTokenOwnership]

end Verif

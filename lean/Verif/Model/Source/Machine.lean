import Verif.Model.Source.Sem
/-!
The ledger driven by the source text: calls reach the methods of `Text.lean` through the interpreter of `Sem.lean`. What is not source text here is
the platform, as in `Exec.lean`: entering a call, ordinary accounts, third-party contracts, deployment and transactions.
-/
set_option autoImplicit false
namespace Verif.Src

/-- A computation with its failures identified. -/
def opt {α : Type} (m : M α) (w : World) : Option (α × World) := match m w with
  | .ok p => some p
  | .error _ => none

/-- A computation that may fail, as one of the platform. -/
def lift {α : Type} (f : World → Option (α × World)) : M α := fun w => match f w with
  | some p => .ok p
  | none => .error (.revert "failed")

/-- What source code sees of a call. -/
def Cx.of (cx : Ctx) (cls : String) (loops : Nat) : Cx := ⟨cx.fr, cls, loops, fun a v c => opt (cx.call a v c)⟩

/-- The argument `_data: bytes = None`. -/
def optData : Option Data → PV
  | none => .none
  | some d => .bytes d

/-- The class of a deployed SCORE (the `main_score` of its package.json, see C52). -/
def className : Kind → Option String
  | .irc => some "IRCToken"
  | .icx => some "IcxToken"
  | .flex => some "FlexibleToken"
  | .conv => some "Converter"
  | .net => some "Network"
  | .reg => some "ScoreRegistry"
  | .none => none
  | .foreign => none

/-- The method a call names, and its arguments. -/
def request : Call → Option (String × List PV)
  | .name => some ("name", [])
  | .symbol => some ("symbol", [])
  | .decimals => some ("decimals", [])
  | .totalSupply => some ("totalSupply", [])
  | .balanceOf a => some ("balanceOf", [.addr a])
  | .transfer a v d => some ("transfer", [.addr a, .int v, optData d])
  | .disableTransfer b => some ("disableTransfer", [.bool b])
  | .getFlexibleTokenVersion => some ("getFlexibleTokenVersion", [])
  | .getTransferPossibility => some ("getTransferPossibility", [])
  | .issue a v => some ("issue", [.addr a, .int v])
  | .destroy a v => some ("destroy", [.addr a, .int v])
  | .deposit => some ("deposit", [])
  | .withdraw v => some ("withdraw", [.int v])
  | .withdrawTo v a => some ("withdrawTo", [.int v, .addr a])
  | .getOwner => some ("getOwner", [])
  | .getNewOwner => some ("getNewOwner", [])
  | .transferOwnerShip a => some ("transferOwnerShip", [.addr a])
  | .acceptOwnerShip => some ("acceptOwnerShip", [])
  | .getManager => some ("getManager", [])
  | .getNewManager => some ("getNewManager", [])
  | .transferManagement a => some ("transferManagement", [.addr a])
  | .acceptManagement => some ("acceptManagement", [])
  | .withdrawTokens t a v => some ("withdrawTokens", [.addr t, .addr a, .int v])
  | .tokenFallback a v d => some ("tokenFallback", [.addr a, .int v, .bytes d])
  | .isActive => some ("isActive", [])
  | .transferTokenOwnership a => some ("transferTokenOwnership", [.addr a])
  | .acceptTokenOwnership => some ("acceptTokenOwnership", [])
  | .disableTokenTransfers b => some ("disableTokenTransfers", [.bool b])
  | .withdrawFromToken t a v => some ("withdrawFromToken", [.addr t, .addr a, .int v])
  | .getToken => some ("getToken", [])
  | .addConnector t v b => some ("addConnector", [.addr t, .int v, .bool b])
  | .updateConnector t v b u => some ("updateConnector", [.addr t, .int v, .bool b, .int u])
  | .disableConnectorPurchases t b => some ("disableConnectorPurchases", [.addr t, .bool b])
  | .updateRegistry => some ("updateRegistry", [])
  | .restoreRegistry => some ("restoreRegistry", [])
  | .disableRegistryUpdate b => some ("disableRegistryUpdate", [.bool b])
  | .disableConversions b => some ("disableConversions", [.bool b])
  | .setConversionFee v => some ("setConversionFee", [.int v])
  | .isAllowRegistryUpdate => some ("isAllowRegistryUpdate", [])
  | .getPreviousRegistry => some ("getPreviousRegistry", [])
  | .getRegistry => some ("getRegistry", [])
  | .getConnectorTokenCount => some ("getConnectorTokenCount", [])
  | .getMaxConversionFee => some ("getMaxConversionFee", [])
  | .getConversionFee => some ("getConversionFee", [])
  | .isConversionsEnabled => some ("isConversionsEnabled", [])
  | .getConnectorAt i => some ("getConnectorAt", [.int i])
  | .getConnector a => some ("getConnector", [.addr a])
  | .getConnectorBalance a => some ("getConnectorBalance", [.addr a])
  | .getReturn a b v => some ("getReturn", [.addr a, .addr b, .int v])
  | .getFinalAmount a m => some ("getFinalAmount", [.int a, .int m])
  | .getAddress s => some ("getAddress", [.str s])
  | .getScoreIds => some ("getScoreIds", [])
  | .registerAddress s a => some ("registerAddress", [.str s, .addr a])
  | .unregisterAddress s => some ("unregisterAddress", [.str s])
  | .getExpectedReturnByPath p v => some ("getExpectedReturnByPath", [.text p, .int v])
  | .getIcxTokenRegistered a => some ("getIcxTokenRegistered", [.addr a])
  | .registerIcxToken a b => some ("registerIcxToken", [.addr a, .bool b])
  | .convert p m => some ("convert", [.text p, .int m])
  | .convertFor p m a => some ("convertFor", [.text p, .int m, .addr a])
  | .fallback => some ("fallback", [])
  | .other _ => none
  | .onInstall _ => none

/-- A call of a SCORE (platform): the method of that name, as the class of the SCORE resolves it, must be `@external` (or `fallback`), and `@payable` if
coin comes with the call; a class without `fallback` inherits that of `IconScoreBase`, which does nothing and is not payable. -/
def callMethod (cx : Cx) (depth : Nat) (w : World) : Option (Val × World) :=
  match request cx.fr.call with
  | none => none
  | some (m, args) => match find cx.cls m with
    | some (here, d) =>
      if (d.ext = true ∨ m = "fallback") ∧ (d.payable = true ∨ cx.fr.value = 0) then
        invoke cx depth here (some cx.cls) d args w >>- fun p => toVal d.answers p.1 >>- fun v => some (v, p.2)
      else none
    | none => if m = "fallback" ∧ cx.fr.value = 0 then some (.unit, w) else none

/-- The body that runs for a frame (platform, as `Verif.body`), with the source text for the SCOREs of this code base. -/
def body (orc : Oracle) (depth loops : Nat) (cx : Ctx) : M Val := do
  let w ← get
  match className (w.kind cx.self) with
  | some c => lift (callMethod (Cx.of cx c loops) depth)
  | none =>
    if w.kind cx.self = .foreign then
      match cx.fr.call with
      | .onInstall _ => fail (.platform "MethodNotFound")
      | _ => runProg cx.self cx.call (orc cx.fr)
    else if cx.self.isContract = false ∧ cx.fr.call = .fallback then pure .unit else fail (.platform "no contract")

/-- A call, transaction or nested (platform, as `Verif.exec`). -/
def exec (orc : Oracle) (depth loops : Nat) : Nat → Addr → Addr → Int → Call → M Val
  | 0, _, _, _, _ => fail (.platform "out of steps")
  | n + 1, sender, to, value, c => do
    let f ← enter sender to value c
    body orc depth loops { fr := f, call := exec orc depth loops n f.to }

/-- The arguments of `on_install`. -/
def installArgs : Install → List PV
  | .irc a b s d => [.str a, .str b, .int s, .int d]
  | .flex a b s d => [.str a, .str b, .int s, .int d]
  | .conv t r m ct cw => [optAddr t, optAddr r, .int m, optAddr ct, .int cw]
  | _ => []

/-- The `on_install` of a class. -/
def onInstall (cx : Cx) (depth : Nat) (i : Install) (w : World) : Option (Unit × World) :=
  find cx.cls "on_install" >>- fun p => invoke cx depth p.1 (some cx.cls) p.2 (installArgs i) w >>- fun q => some ((), q.2)

/-- The `on_install` of a new contract. -/
def install (orc : Oracle) (depth loops : Nat) (cx : Ctx) (i : Install) : M Unit :=
  match className i.kind with
  | some c => lift (onInstall (Cx.of cx c loops) depth i)
  | none => do let _ ← runProg cx.self cx.call (orc cx.fr)

/-- Deployment (platform, as `Verif.deploy`). -/
def deploy (orc : Oracle) (depth loops fuel : Nat) (sender addr : Addr) (i : Install) : M Val := do
  let w ← get
  require (addr.isContract = true ∧ addr ≠ ZERO ∧ w.kind addr = .none)
  modify fun w => w.setKind addr i.kind
  let f ← enter sender addr 0 (.onInstall i)
  install orc depth loops { fr := f, call := exec orc depth loops fuel addr } i
  return .unit

/-- The effect of a transaction (platform, as `Tx.run`). -/
def run (orc : Oracle) (depth loops fuel : Nat) : Tx → M Val
  | .call s t v c => do
    require (s.isContract = false)
    exec orc depth loops fuel s t v c
  | .deploy s a i => do
    require (s.isContract = false)
    deploy orc depth loops fuel s a i

/-- The ledger after a transaction (platform, as `Tx.apply`). -/
def apply (orc : Oracle) (depth loops fuel : Nat) (tx : Tx) (w : World) : World :=
  match run orc depth loops fuel tx w with
  | .ok (_, w') => w'
  | .error _ => w

/-- Ledgers that some history of transactions leads to, when the source text is what runs. -/
inductive Reachable (depth loops : Nat) : World → Prop where
  | genesis {w} : Genesis w → Reachable depth loops w
  | step {w} (orc : Oracle) (fuel : Nat) (tx : Tx) : Reachable depth loops w → Reachable depth loops (apply orc depth loops fuel tx w)

end Verif.Src

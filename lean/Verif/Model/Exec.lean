import Verif.Model.Network
/-!
Dispatch of calls to method bodies, nested calls, deployment, transactions and histories.
This part models the ICON platform as far as the contracts rely on it (see DESIGN.md), together with the tables of
`@external` methods of every SCORE.
-/
namespace Verif

/-- External methods of `Owned`, owned.py:46-70. -/
def Owned.dispatch (cx : Ctx) : Call → Option (M Val)
  | .getOwner => some do return .addr (← Owned.getOwner cx)
  | .getNewOwner => some do return .addr (← Owned.getNewOwner cx)
  | .transferOwnerShip a => some do Owned.transferOwnerShip cx a; return .unit
  | .acceptOwnerShip => some do Owned.acceptOwnerShip cx; return .unit
  | _ => none

/-- Read-only external methods of every token, irc_token.py:68-86. -/
def IRCToken.dispatchViews (cx : Ctx) : Call → Option (M Val)
  | .name => some do return .str ((← get).tok cx.self).name
  | .symbol => some do return .str ((← get).tok cx.self).symbol
  | .decimals => some do return .int ((← get).tok cx.self).decimals
  | .totalSupply => some do return .int ((← get).tok cx.self).supply
  | .balanceOf a => some do return .int (((← get).tok cx.self).bal a)
  | _ => none

/-- Runs the first of two method tables that knows the method. -/
def orElse' (a b : Option (M Val)) : Option (M Val) := match a with
  | some m => some m
  | none => b

/-- Runs a non-payable method table; an unknown method fails. Plain ICX transfers reach `fallback`, which every SCORE
inherits from the platform's base class as a non-payable method that does nothing. -/
def runNonPayable (cx : Ctx) (table : Option (M Val)) : M Val := do
  notPayable cx
  match table with
  | some m => m
  | none => if cx.fr.call = .fallback then pure .unit else fail (.platform "MethodNotFound")

/-- `IRCToken`, irc_token.py. -/
def IRCToken.dispatch (cx : Ctx) : M Val :=
  runNonPayable cx <| orElse' (IRCToken.dispatchViews cx cx.fr.call) <| match cx.fr.call with
    | .transfer to v d => some do IRCToken.transfer cx to v d; return .unit
    | _ => none

/-- `FlexibleToken`, flexible_token.py. -/
def FlexibleToken.dispatch (cx : Ctx) : M Val :=
  runNonPayable cx <| orElse' (IRCToken.dispatchViews cx cx.fr.call) <| orElse' (Owned.dispatch cx cx.fr.call) <|
  match cx.fr.call with
    | .transfer to v d => some do FlexibleToken.transfer cx to v d; return .unit
    | .withdrawTokens t to v => some do TokenHolder.withdrawTokens cx t to v; return .unit
    | .disableTransfer b => some do FlexibleToken.disableTransfer cx b; return .unit
    | .getFlexibleTokenVersion => some do return .str ((← get).flex cx.self).version
    | .getTransferPossibility => some do return .bool ((← get).flex cx.self).transferable
    | .issue to v => some do FlexibleToken.issue cx to v; return .unit
    | .destroy from_ v => some do FlexibleToken.destroy cx from_ v; return .unit
    | _ => none

/-- `IcxToken`, icx_token.py; `fallback` and `deposit` are payable. -/
def IcxToken.dispatch (cx : Ctx) : M Val :=
  match cx.fr.call with
  | .fallback => do IcxToken.deposit cx; return .unit
  | .deposit => do IcxToken.deposit cx; return .unit
  | _ =>
    runNonPayable cx <| orElse' (IRCToken.dispatchViews cx cx.fr.call) <| orElse' (Owned.dispatch cx cx.fr.call) <|
    match cx.fr.call with
      | .transfer to v d => some do IcxToken.transfer cx to v d; return .unit
      | .withdrawTokens t to v => some do TokenHolder.withdrawTokens cx t to v; return .unit
      | .withdraw v => some do IcxToken.withdrawTo cx v cx.sender; return .unit
      | .withdrawTo v to => some do IcxToken.withdrawTo cx v to; return .unit
      | _ => none

/-- `ScoreRegistry`, score_registry.py. -/
def ScoreRegistry.dispatch (cx : Ctx) : M Val :=
  runNonPayable cx <| orElse' (Owned.dispatch cx cx.fr.call) <| match cx.fr.call with
    | .getAddress n => some do return .addr (some (← ScoreRegistry.getAddress cx n))
    | .getScoreIds => some do return .strs ScoreRegistry.SCORE_KEYS
    | .registerAddress n a => some do ScoreRegistry.registerAddress cx n a; return .unit
    | .unregisterAddress n => some do ScoreRegistry.unregisterAddress cx n; return .unit
    | _ => none

/-- `Converter`, converter.py, with the methods inherited from flexible_token_controller.py and managed.py. -/
def Converter.dispatch (cx : Ctx) : M Val :=
  runNonPayable cx <| orElse' (Owned.dispatch cx cx.fr.call) <| match cx.fr.call with
    | .withdrawTokens t to v => some do Converter.withdrawTokens cx t to v; return .unit
    | .tokenFallback from_ v d => some do Converter.tokenFallback cx from_ v d
    | .isActive => some do return .bool (← Controller.isActive cx)
    | .transferTokenOwnership a => some do Controller.transferTokenOwnership cx a; return .unit
    | .acceptTokenOwnership => some do Controller.acceptTokenOwnership cx; return .unit
    | .disableTokenTransfers b => some do Controller.disableTokenTransfers cx b; return .unit
    | .withdrawFromToken t to v => some do Controller.withdrawFromToken cx t to v; return .unit
    | .getToken => some do return .addr ((← get).conv cx.self).token
    | .getManager => some do return .addr ((← get).conv cx.self).manager
    | .getNewManager => some do return .addr ((← get).conv cx.self).newManager
    | .transferManagement a => some do Managed.transferManagement cx a; return .unit
    | .acceptManagement => some do Managed.acceptManagement cx; return .unit
    | .addConnector t wt b => some do Converter.addConnector cx t wt b; return .unit
    | .updateConnector t wt b vb => some do Converter.updateConnector cx t wt b vb; return .unit
    | .disableConnectorPurchases t b => some do Converter.disableConnectorPurchases cx t b; return .unit
    | .updateRegistry => some do Converter.updateRegistry cx; return .unit
    | .restoreRegistry => some do Converter.restoreRegistry cx; return .unit
    | .disableRegistryUpdate b => some do Converter.disableRegistryUpdate cx b; return .unit
    | .disableConversions b => some do Converter.disableConversions cx b; return .unit
    | .setConversionFee n => some do Converter.setConversionFee cx n; return .unit
    | .isAllowRegistryUpdate => some do return .bool ((← get).conv cx.self).allowRegistryUpdate
    | .getPreviousRegistry => some do return .addr ((← get).conv cx.self).prevRegistry
    | .getRegistry => some do return .addr ((← get).conv cx.self).registry
    | .getConnectorTokenCount => some do return .int ((← get).conv cx.self).connectorTokens.length
    | .getMaxConversionFee => some do return .int ((← get).conv cx.self).maxFee
    | .getConversionFee => some do return .int ((← get).conv cx.self).fee
    | .isConversionsEnabled => some do return .bool ((← get).conv cx.self).enabled
    | .getConnectorAt i => some do return .addr (some (← Converter.getConnectorAt cx i))
    | .getConnector a => some do
        let c ← Converter.connector cx a
        return .conn (if c.isSet then some c else none)
    | .getConnectorBalance a => some do return .int (← Converter.getConnectorBalance cx a)
    | .getReturn a b v => some do
        let r ← Converter.getReturn cx a b v
        return .ret r.1 r.2
    | .getFinalAmount a m => some do return .int (← Converter.getFinalAmount cx a m)
    | _ => none

/-- `Network`, network.py; `convert` and `convertFor` are payable. -/
def Network.dispatch (cx : Ctx) : M Val :=
  match cx.fr.call with
  | .convert p m => do return .int (← Network.convert cx p m)
  | .convertFor p m f => do return .int (← Network.convertFor cx p m f)
  | _ =>
    runNonPayable cx <| orElse' (Owned.dispatch cx cx.fr.call) <| match cx.fr.call with
      | .withdrawTokens t to v => some do TokenHolder.withdrawTokens cx t to v; return .unit
      | .tokenFallback from_ v d => some do Network.tokenFallback cx from_ v d; return .unit
      | .getExpectedReturnByPath p a => some do return .int (← Network.getExpectedReturnByPath cx p a)
      | .getIcxTokenRegistered a => some do return .bool ((← get).net cx.self a)
      | .registerIcxToken a b => some do Network.registerIcxToken cx a b; return .unit
      | _ => none

/-- Replaces the private storage of a third-party contract. -/
def World.setStore (w : World) (a : Addr) (n : Nat) : World := { w with store := upd w.store a n }

/-- Runs third-party code. A failing call made by it is undone and reported. -/
def runProg (self : Addr) (call : Addr → Int → Call → M Val) : Prog → M Val
  | .ret v => pure v
  | .fail => fail (.revert "third party")
  | .look k => do
    let w ← get
    runProg self call (k w)
  | .store n k => do
    modify fun w => w.setStore self n
    runProg self call k
  | .emit e k => do
    emit self e
    runProg self call k
  | .call to value c k => fun w =>
    match call to value c w with
    | .ok (v, w') => runProg self call (k (some v)) w'
    | .error _ => runProg self call (k none) w

/-- The frame of a call, with the callee's owner, manager and registry-update permission at this moment. -/
def mkFrame (w : World) (sender to : Addr) (value : Int) (c : Call) : Frame :=
  { sender := sender, to := to, value := value, call := c, owner := (w.own to).owner, manager := (w.conv to).manager
    allow := (w.conv to).allowRegistryUpdate }

/-- Moves ICX coin from `a` to `b` (platform). -/
def World.moveCoin (w : World) (a b : Addr) (v : Int) : World :=
  let c := upd w.coin a (w.coin a - v)
  { w with coin := upd c b (c b + v) }

/-- Entering a call (platform): the coin sent along must be covered, it is moved, and the frame is recorded. -/
def enter (sender to : Addr) (value : Int) (c : Call) : M Frame := do
  let w ← get
  require (0 ≤ value ∧ value ≤ w.coin sender) "Out of balance"
  modify fun w => w.moveCoin sender to value
  let f := mkFrame w sender to value c
  modify fun w => { w with frames := f :: w.frames }
  return f

/-- The body that runs for a frame, by what is deployed at the callee's address. An ordinary account accepts plain ICX
transfers only; a contract address without contract accepts nothing. `on_install` cannot be called. -/
def body (orc : Oracle) (cx : Ctx) : M Val := do
  let w ← get
  match w.kind cx.self with
  | .none =>
    if cx.self.isContract = false ∧ cx.fr.call = .fallback then pure .unit else fail (.platform "no contract")
  | .irc => IRCToken.dispatch cx
  | .icx => IcxToken.dispatch cx
  | .flex => FlexibleToken.dispatch cx
  | .conv => Converter.dispatch cx
  | .net => Network.dispatch cx
  | .reg => ScoreRegistry.dispatch cx
  | .foreign => match cx.fr.call with
    | .onInstall _ => fail (.platform "MethodNotFound")
    | _ => runProg cx.self cx.call (orc cx.fr)

/-- A call (transaction or nested). The budget bounds the nesting depth; when it is used up the call fails (platform:
call depth and step limits). -/
def exec (orc : Oracle) : Nat → Addr → Addr → Int → Call → M Val
  | 0, _, _, _, _ => fail (.platform "out of steps")
  | n + 1, sender, to, value, c => do
    let f ← enter sender to value c
    body orc { fr := f, call := exec orc n f.to }

/-- The `on_install` of a new contract. -/
def install (orc : Oracle) (cx : Ctx) : Install → M Unit
  | .irc n s i d => IRCToken.onInstall cx n s i d
  | .icx => IcxToken.onInstall cx
  | .flex n s i d => FlexibleToken.onInstall cx n s i d
  | .conv t r m ct cw => Converter.onInstall cx t r m ct cw
  | .net => Owned.onInstall cx
  | .reg => ScoreRegistry.onInstall cx
  | .foreign => do let _ ← runProg cx.self cx.call (orc cx.fr)

/-- The kind a deployment creates. -/
def Install.kind : Install → Kind
  | .irc .. => .irc
  | .icx => .icx
  | .flex .. => .flex
  | .conv .. => .conv
  | .net => .net
  | .reg => .reg
  | .foreign => .foreign

/-- Puts a contract at an address. -/
def World.setKind (w : World) (a : Addr) (k : Kind) : World := { w with kind := upd w.kind a k }

/-- Deployment at a fresh contract address (platform). -/
def deploy (orc : Oracle) (fuel : Nat) (sender addr : Addr) (i : Install) : M Val := do
  let w ← get
  require (addr.isContract = true ∧ addr ≠ ZERO ∧ w.kind addr = .none)
  modify fun w => w.setKind addr i.kind
  let f ← enter sender addr 0 (.onInstall i)
  install orc { fr := f, call := exec orc fuel addr } i
  return .unit

/-- A transaction, signed by an ordinary account. -/
inductive Tx where
  | call (sender to : Addr) (value : Int) (c : Call)
  | deploy (sender addr : Addr) (i : Install)

/-- The effect of a transaction. Transactions are signed by ordinary accounts. -/
def Tx.run (orc : Oracle) (fuel : Nat) : Tx → M Val
  | .call s t v c => do
    require (s.isContract = false)
    exec orc fuel s t v c
  | .deploy s a i => do
    require (s.isContract = false)
    Verif.deploy orc fuel s a i

/-- The ledger after a transaction: a failed transaction leaves no effect. -/
def Tx.apply (orc : Oracle) (fuel : Nat) (tx : Tx) (w : World) : World :=
  match tx.run orc fuel w with
  | .ok (_, w') => w'
  | .error _ => w

/-- Ledgers before anything is deployed: empty storage, and coin only at ordinary accounts. -/
structure Genesis (w : World) : Prop where
  kind : ∀ a, w.kind a = .none
  tok : ∀ a, w.tok a = {}
  own : ∀ a, w.own a = {}
  flex : ∀ a, w.flex a = {}
  conv : ∀ a, w.conv a = {}
  reg : ∀ a n, w.reg a n = none
  net : ∀ a b, w.net a b = false
  log : w.log = []
  frames : w.frames = []
  coin_nonneg : ∀ a, 0 ≤ w.coin a
  coin_contract : ∀ a, a.isContract = true → w.coin a = 0

/-- Ledgers that some history of transactions leads to, with any third-party code and any budgets. -/
inductive Reachable : World → Prop where
  | genesis {w} : Genesis w → Reachable w
  | step {w} (orc : Oracle) (fuel : Nat) (tx : Tx) : Reachable w → Reachable (tx.apply orc fuel w)

end Verif

import Verif.Model.Address
/-!
The ledger: what every SCORE stores, ICX coin, event log, and the call alphabet (ABI) between contracts.
-/
namespace Verif

/-- Point update of a table (`DictDB.__setitem__`, platform). -/
def upd {α β} [DecidableEq α] (f : α → β) (a : α) (b : β) : α → β := fun x => if x = a then b else f x

/-- A parsed JSON value, as far as the contracts look at it. A float is represented by its ceiling: the contracts only
compare it with integers by `x > 0` and `r >= x` (utils.py:20, converter.py:298, 338, 399), for which this is exact.
`other` is anything else (lists, objects, NaN, infinity): every use of it fails. -/
inductive JVal where
  | null
  | int (n : Int)
  | bool (b : Bool)
  | float (ceil : Int)
  | str (s : List Char)
  | other
  deriving DecidableEq, Repr

/-- The `_data: bytes` argument of `transfer`/`tokenFallback`, by what the contracts can tell about it:
`b'None'` (irc_token.py:91), `b'conversionResult'` (converter.py:28, network.py:172), an encoded JSON object with its
fields, or bytes that are neither (not UTF-8, not JSON, JSON but not an object: all fail in converter.py:245-250 and
network.py:102-114). Which bytes are which of these is modelled in `Model/Json.lean` (`Json.ofBytes`). -/
inductive Data where
  | noneBytes
  | conversionResult
  | json (fields : List (String × JVal))
  | junk (tag : Nat)
  deriving DecidableEq, Repr

/-- Deployment parameters: the `on_install` of irc_token.py:48, icx_token.py:39, flexible_token.py:46, converter.py:178,
network.py:42, score_registry.py:35, and of a third-party contract. -/
inductive Install where
  | irc (name symbol : String) (initialSupply decimals : Int)
  | icx
  | flex (name symbol : String) (initialSupply decimals : Int)
  | conv (token : Option Addr) (registry : Option Addr) (maxConversionFee : Int) (connectorToken : Option Addr)
      (connectorWeight : Int)
  | net
  | reg
  | foreign
  deriving DecidableEq, Repr

/-- Calls between contracts and from users: every `@external` method of every SCORE in contracts/, with its parameters
(names as in the source), plus `fallback` (plain ICX transfer, platform), plus `other` for methods no SCORE of this code
base has, plus `onInstall` (deployment; cannot be called). Simplification: address arguments are never `None`. -/
inductive Call where
  -- irc_token.py:68-92, flexible_token.py:103, icx_token.py:78
  | name | symbol | decimals | totalSupply
  | balanceOf (owner : Addr)
  | transfer (to : Addr) (value : Int) (data : Option Data)
  -- flexible_token.py:62-101
  | disableTransfer (disable : Bool)
  | getFlexibleTokenVersion | getTransferPossibility
  | issue (to : Addr) (amount : Int)
  | destroy (from_ : Addr) (amount : Int)
  -- icx_token.py:51-66
  | deposit
  | withdraw (amount : Int)
  | withdrawTo (amount : Int) (to : Addr)
  -- owned.py:46-70
  | getOwner | getNewOwner
  | transferOwnerShip (newOwner : Addr)
  | acceptOwnerShip
  -- managed.py:53-87
  | getManager | getNewManager
  | transferManagement (newManager : Addr)
  | acceptManagement
  -- token_holder.py:33, converter.py:672
  | withdrawTokens (token to : Addr) (amount : Int)
  -- converter.py:210, network.py:151
  | tokenFallback (from_ : Addr) (value : Int) (data : Data)
  -- flexible_token_controller.py:73-136
  | isActive
  | transferTokenOwnership (newOwner : Addr)
  | acceptTokenOwnership
  | disableTokenTransfers (disable : Bool)
  | withdrawFromToken (token to : Addr) (amount : Int)
  | getToken
  -- converter.py:518-839
  | addConnector (token : Addr) (weight : Int) (enableVirtualBalance : Bool)
  | updateConnector (connectorToken : Addr) (weight : Int) (enableVirtualBalance : Bool) (virtualBalance : Int)
  | disableConnectorPurchases (connectorToken : Addr) (disable : Bool)
  | updateRegistry
  | restoreRegistry
  | disableRegistryUpdate (disable : Bool)
  | disableConversions (disable : Bool)
  | setConversionFee (conversionFee : Int)
  | isAllowRegistryUpdate | getPreviousRegistry | getRegistry | getConnectorTokenCount | getMaxConversionFee
  | getConversionFee | isConversionsEnabled
  | getConnectorAt (index : Int)
  | getConnector (address : Addr)
  | getConnectorBalance (connectorToken : Addr)
  | getReturn (fromToken toToken : Addr) (amount : Int)
  | getFinalAmount (amount magnitude : Int)
  -- score_registry.py:42-69
  | getAddress (scoreName : String)
  | getScoreIds
  | registerAddress (scoreName : String) (scoreAddress : Addr)
  | unregisterAddress (scoreName : String)
  -- network.py:48-202
  | getExpectedReturnByPath (path : List Char) (amount : Int)
  | getIcxTokenRegistered (icxToken : Addr)
  | registerIcxToken (icxToken : Addr) (register : Bool)
  | convert (path : List Char) (minReturn : Int)
  | convertFor (path : List Char) (minReturn : Int) (for_ : Addr)
  -- platform
  | fallback
  | other (tag : Nat)
  | onInstall (i : Install)
  deriving DecidableEq, Repr

/-- One connector, converter.py:37-52. The default is that of empty `VarDB`s. -/
structure Connector where
  virtualBalance : Int := 0
  weight : Int := 0
  isVirtual : Bool := false
  isPurchaseEnabled : Bool := false
  isSet : Bool := false
  deriving DecidableEq, Repr

/-- Values returned by calls. `ret` is the dict `{'amount', 'fee'}` of converter.py:458; `conn` the dict of converter.py:780
(`none` is the empty dict). -/
inductive Val where
  | unit
  | int (n : Int)
  | bool (b : Bool)
  | str (s : String)
  | strs (s : List String)
  | addr (a : Option Addr)
  | ret (amount fee : Int)
  | conn (c : Option Connector)
  deriving DecidableEq, Repr

/-- Event logs: irc_token.py:36, flexible_token.py:29-39, icx_token.py:28-34, owned.py:25, managed.py:28,
converter.py:98-125, score_registry.py:27. -/
inductive Event where
  | Transfer (from_ to : Addr) (value : Int) (data : Data)
  | NewFlexibleToken (token : Addr)
  | Issuance (amount : Int)
  | Destruction (amount : Int)
  | OwnerUpdate (prevOwner newOwner : Option Addr)
  | ManagerUpdate (prevManager newManager : Option Addr)
  | Conversion (fromToken toToken trader : Addr) (amount ret fee : Int)
  | PriceDataUpdate (connectorToken : Addr) (tokenSupply connectorBalance connectorWeight : Int)
  | ConversionFeeUpdate (prevFee newFee : Int)
  | ConversionsEnable (enabled : Bool)
  | AddressUpdate (contractName : String) (scoreAddress : Addr)
  deriving DecidableEq, Repr

/-- What is deployed at an address. `foreign` is a third-party contract with arbitrary code. -/
inductive Kind where
  | none | irc | icx | flex | conv | net | reg | foreign
  deriving DecidableEq, Repr

/-- Storage of a token, irc_token.py:40-46. -/
structure TokSt where
  name : String := ""
  symbol : String := ""
  decimals : Int := 0
  supply : Int := 0
  bal : Addr → Int := fun _ => 0

/-- Storage of an owned SCORE, owned.py:29-32. -/
structure OwnSt where
  owner : Option Addr := none
  newOwner : Option Addr := none

/-- Additional storage of a flexible token, flexible_token.py:41-44. -/
structure FlexSt where
  version : String := ""
  transferable : Bool := false

/-- Storage of a converter, converter.py:156-176, flexible_token_controller.py:43, managed.py:34-35. -/
structure ConvSt where
  token : Option Addr := none
  allowRegistryUpdate : Bool := false
  prevRegistry : Option Addr := none
  registry : Option Addr := none
  connectorTokens : List Addr := []
  totalWeight : Int := 0
  maxFee : Int := 0
  fee : Int := 0
  enabled : Bool := false
  connectors : Addr → Connector := fun _ => {}
  manager : Option Addr := none
  newManager : Option Addr := none

/-- A call frame: who called what, with which value; `owner`, `manager` and `allow` are the callee's owner, manager and
permission of public registry updates at that moment.
Ghost information: recorded for the statements of properties; no contract of this code base reads it. -/
structure Frame where
  sender : Addr
  to : Addr
  value : Int
  call : Call
  owner : Option Addr
  manager : Option Addr
  allow : Bool
  deriving DecidableEq, Repr

/-- The ledger. Every table gives, for an address, the storage of the contract there (default before deployment).
`coin` are ICX balances (platform). `store` is the private storage of third-party contracts (any value can be coded as a
number). `log` holds the event logs, newest first. `frames` (ghost) holds the call frames entered so far, newest first. -/
structure World where
  kind : Addr → Kind
  coin : Addr → Int
  tok : Addr → TokSt
  own : Addr → OwnSt
  flex : Addr → FlexSt
  conv : Addr → ConvSt
  reg : Addr → String → Option Addr
  net : Addr → Addr → Bool
  store : Addr → Nat
  log : List (Addr × Event)
  frames : List Frame

/-- The behaviour of third-party code for one incoming call: it may return, fail, look at the whole ledger, write its
storage, log any event (in its own name), and call any contract with any arguments and any value of its own coin. A failed call is undone and reported
as `none` (the third party may catch the exception). -/
inductive Prog where
  | ret (v : Val)
  | fail
  | look (k : World → Prog)
  | store (n : Nat) (k : Prog)
  | emit (e : Event) (k : Prog)
  | call (to : Addr) (value : Int) (c : Call) (k : Option Val → Prog)

/-- All third-party code: what it does when entered by a given frame. -/
abbrev Oracle := Frame → Prog

/-- A computation of a contract: reads and writes the ledger, may fail. -/
abbrev M := StateT World (Except Err)

/-- Failure. -/
def fail {α} (e : Err) : M α := fun _ => .error e

/-- `require`, utils.py:33-41. -/
def require (c : Prop) [Decidable c] (msg : String := "") : M Unit :=
  if c then pure () else fail (.revert msg)

/-- Runs a pure function that may raise. -/
def liftE {α} : Except Err α → M α
  | .ok a => pure a
  | .error e => fail e

/-- Adds an event log of contract `a`. -/
def World.addLog (w : World) (a : Addr) (e : Event) : World := { w with log := (a, e) :: w.log }

/-- Emits an event log of contract `a` (platform). -/
def emit (a : Addr) (e : Event) : M Unit := modify fun w => w.addLog a e

/-- A Python number returned by another contract (`bool` is a subclass of `int`). -/
def asInt : Val → M Int
  | .int n => pure n
  | .bool b => pure (if b then 1 else 0)
  | _ => fail (.python "TypeError")

/-- A value used as an `Address`. -/
def asAddr : Val → M Addr
  | .addr (some a) => pure a
  | _ => fail (.python "TypeError")

/-- Compares a returned value with an address, Python `==`. -/
def Val.isAddr (v : Val) (a : Addr) : Bool := v = .addr (some a)

/-- The `['amount']` entry of a returned dict (network.py:71). -/
def asAmount : Val → M Int
  | .ret a _ => pure a
  | _ => fail (.python "TypeError")

/-- What a method body can see of its call: the frame (`self.msg`, `self.address`) and the means to call other
contracts (`create_interface_score`, `self.icx.transfer`). -/
structure Ctx where
  fr : Frame
  call : Addr → Int → Call → M Val

/-- `self.address` -/
abbrev Ctx.self (cx : Ctx) : Addr := cx.fr.to
/-- `self.msg.sender` -/
abbrev Ctx.sender (cx : Ctx) : Addr := cx.fr.sender
/-- `self.msg.value` -/
abbrev Ctx.value (cx : Ctx) : Int := cx.fr.value

/-- Calls of methods without `@payable` must not carry coin (platform). -/
def notPayable (cx : Ctx) : M Unit := require (cx.value = 0) "not payable"

/-- Replaces the token storage of `a`. -/
def World.setTok (w : World) (a : Addr) (t : TokSt) : World := { w with tok := upd w.tok a t }
/-- Replaces the ownership storage of `a`. -/
def World.setOwn (w : World) (a : Addr) (t : OwnSt) : World := { w with own := upd w.own a t }
/-- Replaces the flexible token storage of `a`. -/
def World.setFlex (w : World) (a : Addr) (t : FlexSt) : World := { w with flex := upd w.flex a t }
/-- Replaces the converter storage of `a`. -/
def World.setConv (w : World) (a : Addr) (t : ConvSt) : World := { w with conv := upd w.conv a t }
/-- Replaces the table of a registry `a`. -/
def World.setReg (w : World) (a : Addr) (t : String → Option Addr) : World := { w with reg := upd w.reg a t }
/-- Replaces the table of a network `a`. -/
def World.setNet (w : World) (a : Addr) (t : Addr → Bool) : World := { w with net := upd w.net a t }

/-- Updates the token storage of `a`. -/
def modTok (a : Addr) (g : TokSt → TokSt) : M Unit := modify fun w => w.setTok a (g (w.tok a))
/-- Updates the ownership storage of `a`. -/
def modOwn (a : Addr) (g : OwnSt → OwnSt) : M Unit := modify fun w => w.setOwn a (g (w.own a))
/-- Updates the flexible token storage of `a`. -/
def modFlex (a : Addr) (g : FlexSt → FlexSt) : M Unit := modify fun w => w.setFlex a (g (w.flex a))
/-- Updates the converter storage of `a`. -/
def modConv (a : Addr) (g : ConvSt → ConvSt) : M Unit := modify fun w => w.setConv a (g (w.conv a))

end Verif

import Verif.Model.Registry
import Verif.Model.Formula
/-!
Model of contracts/converter/converter.py with contracts/utility/managed.py and flexible_token_controller.py.
Every `self._x.get()` of the source is a read of the current ledger at that point (`← get`), because calls to other
contracts in between may have re-entered this converter.
-/
namespace Verif

/-! ### Managed -/
namespace Managed

/-- `require_owner_or_manager_only`, managed.py:49-51. -/
def requireOwnerOrManagerOnly (cx : Ctx) : M Unit := do
  let w ← get
  require (some cx.sender = (w.conv cx.self).manager ∨ some cx.sender = (w.own cx.self).owner) "Invalid sender"

/-- `transferManagement`, managed.py:61-73. -/
def transferManagement (cx : Ctx) (newManager : Addr) : M Unit := do
  requireOwnerOrManagerOnly cx
  let w ← get
  require ((w.conv cx.self).manager ≠ some newManager) "New manager is already manager"
  modConv cx.self fun c => { c with newManager := some newManager }

/-- `acceptManagement`, managed.py:75-87. -/
def acceptManagement (cx : Ctx) : M Unit := do
  let w ← get
  require (some cx.sender = (w.conv cx.self).newManager) "You are not a new manager"
  let prev := (w.conv cx.self).manager
  let new := (w.conv cx.self).newManager
  emit cx.self (.ManagerUpdate prev new)
  modConv cx.self fun c => { c with manager := new }
  modConv cx.self fun c => { c with newManager := some ZERO }

end Managed

/-! ### FlexibleTokenController -/
namespace Controller

/-- `self._token.get()`, used as the address of an interface (fails on `None`). -/
def token (cx : Ctx) : M Addr := do
  match ((← get).conv cx.self).token with
  | some t => pure t
  | none => fail (.python "None has no address")

/-- `on_install`, flexible_token_controller.py:45-48. -/
def onInstall (cx : Ctx) (token : Option Addr) : M Unit := do
  require (isValidAddress token)
  Owned.onInstall cx
  modConv cx.self fun c => { c with token := token }

/-- `_is_active`, flexible_token_controller.py:53-59. -/
def isActive (cx : Ctx) : M Bool := do
  let t ← token cx
  let v ← cx.call t 0 .getOwner
  return v.isAddr cx.self

/-- `_require_active`, flexible_token_controller.py:61-65. -/
def requireActive (cx : Ctx) : M Unit := do
  let a ← isActive cx
  require (a = true) "required active"

/-- `_require_inactive`, flexible_token_controller.py:67-71. -/
def requireInactive (cx : Ctx) : M Unit := do
  let a ← isActive cx
  require (¬ a = true) "required inactive"

/-- `transferTokenOwnership`, flexible_token_controller.py:81-91. -/
def transferTokenOwnership (cx : Ctx) (newOwner : Addr) : M Unit := do
  Owned.requireOwnerOnly cx
  let t ← token cx
  let _ ← cx.call t 0 (.transferOwnerShip newOwner)

/-- `acceptTokenOwnership`, flexible_token_controller.py:93-101. -/
def acceptTokenOwnership (cx : Ctx) : M Unit := do
  Owned.requireOwnerOnly cx
  let t ← token cx
  let _ ← cx.call t 0 .acceptOwnerShip

/-- `disableTokenTransfers`, flexible_token_controller.py:103-113. -/
def disableTokenTransfers (cx : Ctx) (disable : Bool) : M Unit := do
  Owned.requireOwnerOnly cx
  let t ← token cx
  let _ ← cx.call t 0 (.disableTransfer disable)

/-- `withdrawFromToken`, flexible_token_controller.py:115-127. -/
def withdrawFromToken (cx : Ctx) (tok to : Addr) (amount : Int) : M Unit := do
  Owned.requireOwnerOnly cx
  let t ← token cx
  let _ ← cx.call t 0 (.withdrawTokens tok to amount)

end Controller

/-! ### Converter -/
namespace Converter

/-- `_MAX_WEIGHT`, converter.py:94. -/
def MAX_WEIGHT : Int := 1000000
/-- `_MAX_CONVERSION_FEE`, converter.py:95. -/
def MAX_CONVERSION_FEE : Int := 1000000

/-- `self._connectors[a]`, converter.py:55-72. -/
def connector (cx : Ctx) (a : Addr) : M Connector := do return ((← get).conv cx.self).connectors a

/-- Writes one connector record. -/
def modConnector (cx : Ctx) (a : Addr) (g : Connector → Connector) : M Unit :=
  modConv cx.self fun c => { c with connectors := upd c.connectors a (g (c.connectors a)) }

/-- `_require_valid_connector`, converter.py:128-129. -/
def requireValidConnector (cx : Ctx) (a : Addr) : M Unit := do
  let c ← connector cx a
  require (c.isSet = true) "invalid connector"

/-- `_require_valid_connector_weight`, converter.py:145-146. -/
def requireValidConnectorWeight (weight : Int) : M Unit :=
  require (0 < weight ∧ weight ≤ MAX_WEIGHT) "invalid connector weight"

/-- `getFinalAmount`, converter.py:829-839, as a function of the current fee. For a negative magnitude Python would
compute with floats; that case is modelled as a failure. -/
def finalAmount (fee amount magnitude : Int) : Except Err Int :=
  if magnitude < 0 then .error (.python "float arithmetic not modelled")
  else .ok (amount * (MAX_CONVERSION_FEE - fee) ^ magnitude.toNat / MAX_CONVERSION_FEE ^ magnitude.toNat)

/-- `getFinalAmount`, converter.py:829-839. -/
def getFinalAmount (cx : Ctx) (amount magnitude : Int) : M Int := do
  let w ← get
  liftE (finalAmount (w.conv cx.self).fee amount magnitude)

/-- `safe_sub`, utils.py:48-57. -/
def safeSub (x y : Int) : M Int := do
  require (¬ x < y) "Difference between two numbers should be positive"
  return x - y

/-- `getConnectorBalance`, converter.py:788-805. -/
def getConnectorBalance (cx : Ctx) (connectorToken : Addr) : M Int := do
  requireValidConnector cx connectorToken
  let c ← connector cx connectorToken
  if c.isVirtual then
    return c.virtualBalance
  else
    let v ← cx.call connectorToken 0 (.balanceOf cx.self)
    asInt v

/-- Fee deduction at the end of the three quote functions, converter.py:457-458, 481-482, 515-516. -/
def finish (cx : Ctx) (calculated magnitude : Int) : M (Int × Int) := do
  let final ← getFinalAmount cx calculated magnitude
  let fee ← safeSub calculated final
  return (final, fee)

/-- `get_purchase_return`, converter.py:431-458. -/
def getPurchaseReturn (cx : Ctx) (connectorToken : Addr) (amount : Int) (fromConversion : Bool) : M (Int × Int) := do
  Controller.requireActive cx
  requireValidConnector cx connectorToken
  let c ← connector cx connectorToken
  require (c.isPurchaseEnabled = true) "required purchase enabled"
  let t ← Controller.token cx
  let v ← cx.call t 0 .totalSupply
  let supply ← asInt v
  let bal ← getConnectorBalance cx connectorToken
  let bal := if fromConversion then bal - amount else bal
  let c ← connector cx connectorToken
  let calculated ← liftE (Formula.calculatePurchaseReturn supply bal c.weight amount)
  finish cx calculated 1

/-- `get_sale_return`, converter.py:460-482. -/
def getSaleReturn (cx : Ctx) (connectorToken : Addr) (amount : Int) : M (Int × Int) := do
  Controller.requireActive cx
  requireValidConnector cx connectorToken
  let t ← Controller.token cx
  let v ← cx.call t 0 .totalSupply
  let supply ← asInt v
  let bal ← getConnectorBalance cx connectorToken
  let c ← connector cx connectorToken
  let calculated ← liftE (Formula.calculateSaleReturn supply bal c.weight amount)
  finish cx calculated 1

/-- `get_cross_connector_return`, converter.py:484-516. -/
def getCrossConnectorReturn (cx : Ctx) (fromToken toToken : Addr) (amount : Int) (fromConversion : Bool) :
    M (Int × Int) := do
  Controller.requireActive cx
  requireValidConnector cx fromToken
  requireValidConnector cx toToken
  let c ← connector cx toToken
  require (c.isPurchaseEnabled = true) "required purchase enabled"
  let fromBal ← getConnectorBalance cx fromToken
  let fromBal := if fromConversion then fromBal - amount else fromBal
  let toBal ← getConnectorBalance cx toToken
  let cf ← connector cx fromToken
  let ct ← connector cx toToken
  let calculated ← liftE (Formula.calculateCrossConnectorReturn fromBal cf.weight toBal ct.weight amount)
  finish cx calculated 2

/-- `getReturn`, converter.py:807-827. -/
def getReturn (cx : Ctx) (fromToken toToken : Addr) (amount : Int) : M (Int × Int) := do
  require (fromToken ≠ toToken) "'from token' and 'to token' must not be same"
  let w ← get
  let t := (w.conv cx.self).token
  if some toToken = t then getPurchaseReturn cx fromToken amount false
  else if some fromToken = t then getSaleReturn cx toToken amount
  else getCrossConnectorReturn cx fromToken toToken amount false

/-- `PriceDataUpdate` at the end of `_buy` and `_sell`, converter.py:316-319, 371-374. -/
def priceDataUpdate (cx : Ctx) (t connectorToken : Addr) : M Unit := do
  let v ← cx.call t 0 .totalSupply
  let supply ← asInt v
  let bal ← getConnectorBalance cx connectorToken
  let c ← connector cx connectorToken
  emit cx.self (.PriceDataUpdate connectorToken supply bal c.weight)

/-- A virtual connector's recorded balance grows by what was received: converter.py:300-303 (`_buy`), 400-403
(`_convert_cross_connector`). -/
def creditVirtual (cx : Ctx) (a : Addr) (amount : Int) : M Unit := do
  let c ← connector cx a
  if c.isVirtual then
    modConnector cx a fun c => { c with virtualBalance := c.virtualBalance + amount }

/-- A virtual connector's recorded balance shrinks by what is paid out: converter.py:351-355 (`_sell`), 404-408
(`_convert_cross_connector`). -/
def debitVirtual (cx : Ctx) (a : Addr) (amount : Int) : M Unit := do
  let c ← connector cx a
  if c.isVirtual then
    let nb ← safeSub c.virtualBalance amount
    modConnector cx a fun c => { c with virtualBalance := nb }

/-- `_buy`, converter.py:283-321. -/
def buy (cx : Ctx) (trader connectorToken : Addr) (amount minReturn : Int) : M Int := do
  let (returnAmount, feeAmount) ← getPurchaseReturn cx connectorToken amount true
  require (returnAmount ≥ minReturn) "returning amount less than minimum requested amount"
  creditVirtual cx connectorToken amount
  let t ← Controller.token cx
  let _ ← cx.call t 0 (.issue trader returnAmount)
  emit cx.self (.Conversion connectorToken t trader amount returnAmount feeAmount)
  priceDataUpdate cx t connectorToken
  return returnAmount

/-- `_sell`, converter.py:323-376. -/
def sell (cx : Ctx) (trader connectorToken : Addr) (amount minReturn : Int) : M Int := do
  let (returnAmount, feeAmount) ← getSaleReturn cx connectorToken amount
  require (returnAmount ≥ minReturn) "returning amount less than minimum requested amount"
  let t ← Controller.token cx
  let v ← cx.call t 0 .totalSupply
  let supply ← asInt v
  let bal ← getConnectorBalance cx connectorToken
  require (returnAmount < bal ∨ (returnAmount = bal ∧ amount = supply))
    "returning amount does not meet connector balance condition"
  debitVirtual cx connectorToken returnAmount
  let _ ← cx.call t 0 (.destroy cx.self amount)
  let _ ← cx.call connectorToken 0 (.transfer trader returnAmount (some .conversionResult))
  emit cx.self (.Conversion t connectorToken trader amount returnAmount feeAmount)
  priceDataUpdate cx t connectorToken
  return returnAmount

/-- `_convert_cross_connector`, converter.py:378-429. -/
def convertCrossConnector (cx : Ctx) (trader fromToken toToken : Addr) (amount minReturn : Int) : M Int := do
  let (returnAmount, feeAmount) ← getCrossConnectorReturn cx fromToken toToken amount true
  require (returnAmount ≥ minReturn) "returning amount less than minimum requested amount"
  creditVirtual cx fromToken amount
  debitVirtual cx toToken returnAmount
  let toBal ← getConnectorBalance cx toToken
  require (returnAmount < toBal) "returning amount does not meet connector balance condition"
  let _ ← cx.call toToken 0 (.transfer trader returnAmount (some .conversionResult))
  emit cx.self (.Conversion fromToken toToken trader amount returnAmount feeAmount)
  let t ← Controller.token cx
  let v ← cx.call t 0 .totalSupply
  let supply ← asInt v
  let b1 ← getConnectorBalance cx fromToken
  let c1 ← connector cx fromToken
  emit cx.self (.PriceDataUpdate fromToken supply b1 c1.weight)
  let b2 ← getConnectorBalance cx toToken
  let c2 ← connector cx toToken
  emit cx.self (.PriceDataUpdate toToken supply b2 c2.weight)
  return returnAmount

/-- `_convert`, converter.py:252-281. -/
def convert (cx : Ctx) (trader fromToken toToken : Addr) (amount minReturn : Int) : M Int := do
  let w ← get
  require ((w.conv cx.self).enabled = true) "required conversions enabled"
  require (minReturn > 0) "Amount should be greater than 0"
  require (fromToken ≠ toToken) "'from token' and 'to token' must not be same"
  let t := (w.conv cx.self).token
  if some toToken = t then buy cx trader fromToken amount minReturn
  else if some fromToken = t then sell cx trader toToken amount minReturn
  else convertCrossConnector cx trader fromToken toToken amount minReturn

/-- A JSON value used as a number in comparisons with integers (see `JVal`). -/
def _root_.Verif.JVal.asNumber : JVal → Option Int
  | .int n => some n
  | .bool b => some (if b then 1 else 0)
  | .float c => some c
  | _ => none

/-- Reading of the conversion request, converter.py:245-247: `json_loads`, `['toToken']`, `Address.from_string`,
`['minReturn']`. `none` models any exception (all are turned into a revert, converter.py:249-250; a `minReturn` that is
not a number raises at its first use, converter.py:270, before any effect, and is rejected here). -/
def parseRequest (d : Data) : Option (Addr × Int) :=
  match d with
  | .json fields =>
    match fields.lookup "toToken", fields.lookup "minReturn" with
    | some (.str s), some m =>
      match Text.toAddr s, m.asNumber with
      | some a, some n => some (a, n)
      | _, _ => none
    | _, _ => none
  | _ => none

/-- The condition for a plain deposit by the owner, converter.py:231-234, evaluated left to right. -/
def acceptsDeposit (cx : Ctx) (from_ : Addr) : M Bool := do
  let w ← get
  if some from_ = (w.own cx.self).owner ∧ ((w.conv cx.self).connectors cx.sender).isSet = true then
    let a ← Controller.isActive cx
    pure (!a)
  else pure false

/-- `tokenFallback`, converter.py:210-250. `_from == self.getManager` (line 231) compares with a bound method and is
always false. It answers what `_convert` answers (line 248), nothing for a deposit. -/
def tokenFallback (cx : Ctx) (from_ : Addr) (value : Int) (data : Data) : M Val := do
  require (value > 0) "Amount should be greater than 0"
  let accept ← acceptsDeposit cx from_
  if accept then
    pure .unit
  else
    match ((← get).conv cx.self).registry with
    | none => fail (.python "None has no address")
    | some registry =>
      let network ← cx.call registry 0 (.getAddress ScoreRegistry.NETWORK)
      require (network.isAddr from_ = true) "'trader' must be network only"
      match parseRequest data with
      | none => fail (.revert "cannot parse")
      | some (toToken, minReturn) =>
        let r ← convert cx from_ cx.sender toToken value minReturn
        pure (.int r)

/-- `addConnector`, converter.py:518-547. -/
def addConnector (cx : Ctx) (token : Addr) (weight : Int) (enableVirtualBalance : Bool) : M Unit := do
  Owned.requireOwnerOnly cx
  Controller.requireInactive cx
  require (isValidAddress (some token))
  require (cx.self ≠ token)
  requireValidConnectorWeight weight
  let w ← get
  require ((w.conv cx.self).token ≠ some token) "the input token should not be the flexible token"
  require (¬ ((w.conv cx.self).connectors token).isSet = true) "the input token has already been set"
  require ((w.conv cx.self).totalWeight + weight ≤ MAX_WEIGHT) "total connector weight is overflow"
  modConnector cx token fun _ =>
    { virtualBalance := 0, weight := weight, isVirtual := enableVirtualBalance, isPurchaseEnabled := true, isSet := true }
  modConv cx.self fun c => { c with connectorTokens := c.connectorTokens ++ [token] }
  modConv cx.self fun c => { c with totalWeight := c.totalWeight + weight }

/-- `updateConnector`, converter.py:549-574. -/
def updateConnector (cx : Ctx) (connectorToken : Addr) (weight : Int) (enableVirtualBalance : Bool)
    (virtualBalance : Int) : M Unit := do
  Owned.requireOwnerOnly cx
  requireValidConnector cx connectorToken
  requireValidConnectorWeight weight
  let w ← get
  let newTotal := (w.conv cx.self).totalWeight - ((w.conv cx.self).connectors connectorToken).weight + weight
  require (newTotal ≤ MAX_WEIGHT) "total connector weight is overflow"
  modConv cx.self fun c => { c with totalWeight := newTotal }
  modConnector cx connectorToken fun c =>
    { c with weight := weight, isVirtual := enableVirtualBalance, virtualBalance := virtualBalance }

/-- `disableConnectorPurchases`, converter.py:576-589. -/
def disableConnectorPurchases (cx : Ctx) (connectorToken : Addr) (disable : Bool) : M Unit := do
  Owned.requireOwnerOnly cx
  requireValidConnector cx connectorToken
  modConnector cx connectorToken fun c => { c with isPurchaseEnabled := !disable }

/-- `updateRegistry`, converter.py:591-612. -/
def updateRegistry (cx : Ctx) : M Unit := do
  let w ← get
  require ((w.conv cx.self).allowRegistryUpdate = true ∨ some cx.sender = (w.own cx.self).owner)
    "should be allowed updating or caller is the owner"
  match (w.conv cx.self).registry with
  | none => fail (.python "None has no address")
  | some registry =>
    let v ← cx.call registry 0 (.getAddress ScoreRegistry.SCORE_REGISTRY)
    let new ← asAddr v
    require (isValidAddress (some new))
    let w ← get
    require (some new ≠ (w.conv cx.self).registry) "new registry should not be same with old one"
    modConv cx.self fun c => { c with prevRegistry := c.registry }
    modConv cx.self fun c => { c with registry := some new }

/-- `restoreRegistry`, converter.py:614-626. -/
def restoreRegistry (cx : Ctx) : M Unit := do
  Managed.requireOwnerOrManagerOnly cx
  modConv cx.self fun c => { c with registry := c.prevRegistry }
  modConv cx.self fun c => { c with allowRegistryUpdate := false }

/-- `disableRegistryUpdate`, converter.py:628-639. -/
def disableRegistryUpdate (cx : Ctx) (disable : Bool) : M Unit := do
  Managed.requireOwnerOrManagerOnly cx
  modConv cx.self fun c => { c with allowRegistryUpdate := !disable }

/-- `disableConversions`, converter.py:641-655. -/
def disableConversions (cx : Ctx) (disable : Bool) : M Unit := do
  Managed.requireOwnerOrManagerOnly cx
  let w ← get
  if (w.conv cx.self).enabled = disable then
    modConv cx.self fun c => { c with enabled := !disable }
    emit cx.self (.ConversionsEnable (!disable))

/-- `setConversionFee`, converter.py:657-670 (`_require_valid_conversion_fee` is converter.py:141-142). -/
def setConversionFee (cx : Ctx) (fee : Int) : M Unit := do
  Managed.requireOwnerOrManagerOnly cx
  let w ← get
  require (0 ≤ fee ∧ fee ≤ (w.conv cx.self).maxFee) "invalid conversion fee"
  emit cx.self (.ConversionFeeUpdate (w.conv cx.self).fee fee)
  modConv cx.self fun c => { c with fee := fee }

/-- `withdrawTokens`, converter.py:672-685. -/
def withdrawTokens (cx : Ctx) (token to : Addr) (amount : Int) : M Unit := do
  let a ← Controller.isActive cx
  let c ← connector cx token
  require (¬ a = true ∨ ¬ c.isSet = true) "withdrawing token should be inactive or not a connector token"
  TokenHolder.withdrawTokens cx token to amount

/-- `getConnectorAt`, converter.py:760-768; `ArrayDB.__getitem__` (platform) counts negative indices from the end. -/
def getConnectorAt (cx : Ctx) (index : Int) : M Addr := do
  let l := ((← get).conv cx.self).connectorTokens
  let i := if index < 0 then index + l.length else index
  if 0 ≤ i then
    match l[i.toNat]? with
    | some a => return a
    | none => fail (.python "ArrayDB out of index")
  else fail (.python "ArrayDB out of index")

/-- `on_install`, converter.py:178-205 (`_require_valid_max_conversion_fee` is converter.py:137-138). -/
def onInstall (cx : Ctx) (token registry : Option Addr) (maxConversionFee : Int) (connectorToken : Option Addr)
    (connectorWeight : Int) : M Unit := do
  require (isValidAddress registry)
  require (0 ≤ maxConversionFee ∧ maxConversionFee ≤ MAX_CONVERSION_FEE) "invalid max conversion fee"
  Controller.onInstall cx token
  modConv cx.self fun c =>
    { c with allowRegistryUpdate := true, registry := registry, prevRegistry := registry, enabled := true
             maxFee := maxConversionFee }
  match connectorToken with
  | some t => if isValidAddress (some t) then addConnector cx t connectorWeight false
  | none => pure ()

end Converter
end Verif

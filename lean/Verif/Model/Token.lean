import Verif.Model.World
/-!
Models of contracts/utility/owned.py, token_holder.py and of the three tokens: irc_token.py, flexible_token.py, icx_token.py.
-/
namespace Verif

/-! ### Owned -/
namespace Owned

/-- `on_install`, owned.py:34-36. -/
def onInstall (cx : Ctx) : M Unit := modOwn cx.self fun _ => { owner := some cx.sender, newOwner := some ZERO }

/-- `require_owner_only`, owned.py:41-44. -/
def requireOwnerOnly (cx : Ctx) : M Unit := do
  let w ← get
  require (some cx.sender = (w.own cx.self).owner) "Invalid owner"

/-- `getOwner`, owned.py:46-48. -/
def getOwner (cx : Ctx) : M (Option Addr) := do return ((← get).own cx.self).owner

/-- `getNewOwner`, owned.py:50-52. -/
def getNewOwner (cx : Ctx) : M (Option Addr) := do return ((← get).own cx.self).newOwner

/-- `transferOwnerShip`, owned.py:54-59. -/
def transferOwnerShip (cx : Ctx) (newOwner : Addr) : M Unit := do
  requireOwnerOnly cx
  let w ← get
  require (some newOwner ≠ (w.own cx.self).owner) "New owner is already owner"
  modOwn cx.self fun o => { o with newOwner := some newOwner }

/-- `acceptOwnerShip`, owned.py:61-70. -/
def acceptOwnerShip (cx : Ctx) : M Unit := do
  let w ← get
  require (some cx.sender = (w.own cx.self).newOwner) "You are not a new owner"
  let prev := (w.own cx.self).owner
  let new := (w.own cx.self).newOwner
  emit cx.self (.OwnerUpdate prev new)
  modOwn cx.self fun o => { o with owner := new }
  modOwn cx.self fun o => { o with newOwner := some ZERO }

end Owned

/-! ### TokenHolder -/
namespace TokenHolder

/-- `withdrawTokens`, token_holder.py:33-41. -/
def withdrawTokens (cx : Ctx) (token to : Addr) (amount : Int) : M Unit := do
  Owned.requireOwnerOnly cx
  require (amount > 0) "Amount should be greater than 0"
  require (cx.self ≠ to)
  require (isValidAddress (some to))
  let _ ← cx.call token 0 (.transfer to amount none)

end TokenHolder

/-! ### IRCToken -/
namespace IRCToken

/-- `on_install`, irc_token.py:48-63. -/
def onInstall (cx : Ctx) (name symbol : String) (initialSupply decimals : Int) : M Unit := do
  require (¬ initialSupply < 0) "Initial supply cannot be less than zero"
  require (¬ decimals < 0) "Decimals cannot be less than zero"
  let totalSupply := initialSupply * 10 ^ decimals.toNat
  modTok cx.self fun t =>
    { t with name := name, symbol := symbol, supply := totalSupply, decimals := decimals
             bal := upd t.bal cx.sender totalSupply }

/-- `_transfer`, irc_token.py:94-113. -/
def transfer' (cx : Ctx) (from_ to : Addr) (value : Int) (data : Data) : M Unit := do
  require (¬ value < 0) "Transferring value cannot be less than zero"
  let w ← get
  require (¬ (w.tok cx.self).bal from_ < value) "Out of balance"
  modTok cx.self fun t => { t with bal := upd t.bal from_ (t.bal from_ - value) }
  modTok cx.self fun t => { t with bal := upd t.bal to (t.bal to + value) }
  if to.isContract then
    let _ ← cx.call to 0 (.tokenFallback from_ value data)
  emit cx.self (.Transfer from_ to value data)

/-- `transfer`, irc_token.py:88-92. -/
def transfer (cx : Ctx) (to : Addr) (value : Int) (data : Option Data) : M Unit :=
  transfer' cx cx.sender to value (data.getD .noneBytes)

end IRCToken

/-! ### FlexibleToken -/
namespace FlexibleToken

/-- `on_install`, flexible_token.py:46-53. `_VERSION` is flexible_token.py:27. -/
def onInstall (cx : Ctx) (name symbol : String) (initialSupply decimals : Int) : M Unit := do
  IRCToken.onInstall cx name symbol initialSupply decimals
  Owned.onInstall cx
  modFlex cx.self fun _ => { version := "0.1", transferable := true }
  emit cx.self (.NewFlexibleToken cx.self)

/-- `disableTransfer`, flexible_token.py:62-65. -/
def disableTransfer (cx : Ctx) (disable : Bool) : M Unit := do
  Owned.requireOwnerOnly cx
  modFlex cx.self fun s => { s with transferable := !disable }

/-- `issue`, flexible_token.py:75-87. -/
def issue (cx : Ctx) (to : Addr) (amount : Int) : M Unit := do
  require (amount > 0) "Amount should be greater than 0"
  Owned.requireOwnerOnly cx
  require (isValidAddress (some to))
  require (cx.self ≠ to)
  modTok cx.self fun t => { t with bal := upd t.bal to (t.bal to + amount) }
  modTok cx.self fun t => { t with supply := t.supply + amount }
  emit cx.self (.Issuance amount)
  emit cx.self (.Transfer cx.self to amount .noneBytes)

/-- `destroy`, flexible_token.py:89-101. -/
def destroy (cx : Ctx) (from_ : Addr) (amount : Int) : M Unit := do
  require (amount > 0) "Amount should be greater than 0"
  let w ← get
  require ((w.tok cx.self).bal from_ ≥ amount) "Out of balance"
  require (cx.sender = from_ ∨ some cx.sender = (w.own cx.self).owner) "You are not token holder or flexible token owner"
  modTok cx.self fun t => { t with bal := upd t.bal from_ (t.bal from_ - amount) }
  modTok cx.self fun t => { t with supply := t.supply - amount }
  emit cx.self (.Destruction amount)
  emit cx.self (.Transfer from_ cx.self amount .noneBytes)

/-- `transfer`, flexible_token.py:103-106. -/
def transfer (cx : Ctx) (to : Addr) (value : Int) (data : Option Data) : M Unit := do
  let w ← get
  require ((w.flex cx.self).transferable) "This flexible token cannot transfer"
  IRCToken.transfer cx to value data

end FlexibleToken

/-! ### IcxToken -/
namespace IcxToken

/-- `on_install`, icx_token.py:39-41. -/
def onInstall (cx : Ctx) : M Unit := do
  IRCToken.onInstall cx "ICX Token" "ICXT" 0 18
  Owned.onInstall cx

/-- `deposit` (also `fallback`), icx_token.py:47-59. -/
def deposit (cx : Ctx) : M Unit := do
  modTok cx.self fun t => { t with bal := upd t.bal cx.sender (t.bal cx.sender + cx.value) }
  modTok cx.self fun t => { t with supply := t.supply + cx.value }
  emit cx.self (.Issuance cx.value)
  emit cx.self (.Transfer cx.self cx.sender cx.value .noneBytes)

/-- `withdrawTo`, icx_token.py:65-76. -/
def withdrawTo (cx : Ctx) (amount : Int) (to : Addr) : M Unit := do
  require (amount > 0) "Amount should be greater than 0"
  let w ← get
  require (¬ (w.tok cx.self).bal cx.sender < amount) "Out of balance"
  modTok cx.self fun t => { t with bal := upd t.bal cx.sender (t.bal cx.sender - amount) }
  modTok cx.self fun t => { t with supply := t.supply - amount }
  let _ ← cx.call to amount .fallback
  emit cx.self (.Destruction amount)

/-- `transfer`, icx_token.py:78-81. -/
def transfer (cx : Ctx) (to : Addr) (value : Int) (data : Option Data) : M Unit := do
  require (cx.self ≠ to)
  IRCToken.transfer cx to value data

end IcxToken

end Verif

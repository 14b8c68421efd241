import Verif.Model.Token
/-!
Model of contracts/score_registry/score_registry.py; names from contracts/interfaces/abc_score_registry.py.
-/
namespace Verif.ScoreRegistry

/-- `SCORE_REGISTRY`, abc_score_registry.py:25. -/
def SCORE_REGISTRY : String := "ScoreRegistry"
/-- `NETWORK`, abc_score_registry.py:27. -/
def NETWORK : String := "Network"
/-- `SCORE_KEYS`, abc_score_registry.py:29. -/
def SCORE_KEYS : List String := [SCORE_REGISTRY, NETWORK]

/-- Writes one entry of the address table of registry `a`, score_registry.py:33. -/
def setEntry (a : Addr) (name : String) (v : Option Addr) : M Unit :=
  modify fun w => w.setReg a (upd (w.reg a) name v)

/-- `getAddress`, score_registry.py:42-47. -/
def getAddress (cx : Ctx) (scoreName : String) : M Addr := do
  let w ← get
  return match w.reg cx.self scoreName with
    | none => ZERO
    | some a => a

/-- `registerAddress`, score_registry.py:53-61. -/
def registerAddress (cx : Ctx) (scoreName : String) (scoreAddress : Addr) : M Unit := do
  Owned.requireOwnerOnly cx
  require (isValidAddress (some scoreAddress))
  require (scoreAddress.isContract) "only SCORE address can be registered"
  require (scoreName ∈ SCORE_KEYS) "_scoreName is not in the score key list"
  setEntry cx.self scoreName (some scoreAddress)
  emit cx.self (.AddressUpdate scoreName scoreAddress)

/-- `unregisterAddress`, score_registry.py:63-69. -/
def unregisterAddress (cx : Ctx) (scoreName : String) : M Unit := do
  Owned.requireOwnerOnly cx
  let w ← get
  require (w.reg cx.self scoreName ≠ none) "this score is not registered"
  setEntry cx.self scoreName none
  emit cx.self (.AddressUpdate scoreName ZERO)

/-- `on_install`, score_registry.py:35-37. -/
def onInstall (cx : Ctx) : M Unit := do
  Owned.onInstall cx
  registerAddress cx SCORE_REGISTRY cx.self

end Verif.ScoreRegistry

import Verif.Proofs.Source.Network
/-!
The views of contracts/converter/converter.py, and the installation of converters and networks.
-/
set_option autoImplicit false
namespace Verif.Src
attribute [local irreducible] glob find findNext function const mroOf ifaceHas fields cfields Verif.ZERO

variable (cx : Ctx) (L : Nat) {n : Nat} (w : World)

theorem inv_isAllow (h : 1 ≤ n) : invoke (Cx.of cx "Converter" L) n "Converter" (some "Converter") tConverter_isAllowRegistryUpdate [] w =
    some (.bool (w.conv cx.self).allowRegistryUpdate, w) := by py_start tConverter_isAllowRegistryUpdate
theorem inv_isActive (h : 2 ≤ n) : invoke (Cx.of cx "Converter" L) n "Converter" (some "Converter") tConverter_isActive [] w =
    opt (Controller.isActive cx) w >>- fun p => some (.bool p.1, p.2) := by
  py_start tConverter_isActive
  py_go
theorem inv_prevRegistry (h : 1 ≤ n) : invoke (Cx.of cx "Converter" L) n "Converter" (some "Converter") tConverter_getPreviousRegistry [] w =
    some (optAddr (w.conv cx.self).prevRegistry, w) := by py_start tConverter_getPreviousRegistry
theorem inv_getRegistry (h : 1 ≤ n) : invoke (Cx.of cx "Converter" L) n "Converter" (some "Converter") tConverter_getRegistry [] w =
    some (optAddr (w.conv cx.self).registry, w) := by py_start tConverter_getRegistry
@[py] theorem len_tokens (s : Addr) : len s w (.field .connectorTokens) = some (.int (w.conv s).connectorTokens.length) := rfl
theorem inv_tokenCount (h : 1 ≤ n) : invoke (Cx.of cx "Converter" L) n "Converter" (some "Converter") tConverter_getConnectorTokenCount [] w =
    some (.int (w.conv cx.self).connectorTokens.length, w) := by py_start tConverter_getConnectorTokenCount
theorem inv_maxFee (h : 1 ≤ n) : invoke (Cx.of cx "Converter" L) n "Converter" (some "Converter") tConverter_getMaxConversionFee [] w =
    some (.int (w.conv cx.self).maxFee, w) := by py_start tConverter_getMaxConversionFee
theorem inv_getFee (h : 1 ≤ n) : invoke (Cx.of cx "Converter" L) n "Converter" (some "Converter") tConverter_getConversionFee [] w =
    some (.int (w.conv cx.self).fee, w) := by py_start tConverter_getConversionFee
theorem inv_enabled (h : 1 ≤ n) : invoke (Cx.of cx "Converter" L) n "Converter" (some "Converter") tConverter_isConversionsEnabled [] w =
    some (.bool (w.conv cx.self).enabled, w) := by py_start tConverter_isConversionsEnabled

theorem inv_connectorAt (h : 1 ≤ n) (i : Int) :
    invoke (Cx.of cx "Converter" L) n "Converter" (some "Converter") tConverter_getConnectorAt [.int i] w =
      opt (Converter.getConnectorAt cx i) w >>- fun p => some (.addr p.1, p.2) := by
  have e : opt (Converter.getConnectorAt cx i) w = pyIndex (w.conv cx.self).connectorTokens i >>- fun a => some (a, w) := by
    unfold Converter.getConnectorAt pyIndex
    simp only [opt_bind, opt_get, andThen_some]
    generalize (if i < 0 then i + ((w.conv cx.self).connectorTokens.length : Int) else i) = j
    by_cases hj : 0 ≤ j
    · rw [if_pos hj, if_pos hj]
      cases (w.conv cx.self).connectorTokens[j.toNat]? <;> rfl
    · rw [if_neg hj, if_neg hj]
      rfl
  rw [e]
  py_start tConverter_getConnectorAt
  cases pyIndex (w.conv cx.self).connectorTokens i <;> rfl

theorem inv_connectorView (h : 1 ≤ n) (a : Addr) :
    invoke (Cx.of cx "Converter" L) n "Converter" (some "Converter") tConverter_getConnector [.addr a] w =
      some (ofVal (.conn (if ((w.conv cx.self).connectors a).isSet then some ((w.conv cx.self).connectors a) else none)), w) := by
  py_start tConverter_getConnector [pairs]
  split <;> rfl

theorem inv_convInstall (h : 4 ≤ n) (t r : Option Addr) (m : Int) (ct : Option Addr) (cw : Int) :
    invoke (Cx.of cx "Converter" L) n "Converter" (some "Converter") tConverter_on_install [optAddr t, optAddr r, .int m, optAddr ct, .int cw] w =
      opt (Converter.onInstall cx t r m ct cw) w >>- fun p => some (.none, p.2) := by
  unfold Converter.onInstall
  cases r with
  | none =>
    py_start tConverter_on_install [optAddr]
    rfl
  | some r => 
    cases ct with
    | none =>
      py_start tConverter_on_install [show optAddr (some r) = .addr r from rfl, show optAddr none = .none from rfl]
      py_go
    | some ct =>
      py_start tConverter_on_install [show optAddr (some r) = .addr r from rfl, show optAddr (some ct) = .addr ct from rfl]
      py_go

theorem inv_netInstall (h : 3 ≤ n) :
    invoke (Cx.of cx "Network" L) n "Network" (some "Network") tNetwork_on_install [] w =
      opt (Owned.onInstall cx) w >>- fun p => some (.none, p.2) := by
  py_start tNetwork_on_install
  py_go

end Verif.Src

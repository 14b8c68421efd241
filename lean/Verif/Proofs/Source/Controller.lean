import Verif.Proofs.Source.Registry
/-!
The methods of contracts/utility/managed.py and flexible_token_controller.py, and those of the converter that do not compute prices.
-/
set_option autoImplicit false
namespace Verif.Src
attribute [local irreducible] glob find findNext function const mroOf ifaceHas fields cfields Verif.ZERO

variable (cx : Ctx) (L : Nat) {n : Nat} (w : World)

@[py] theorem opt_token : opt (Controller.token cx) w = (w.conv cx.fr.to).token >>- fun t => some (t, w) := by
  unfold Controller.token
  py_simp
  cases (w.conv cx.fr.to).token <;> rfl
@[py] theorem opt_connector (a : Addr) : opt (Converter.connector cx a) w = some ((w.conv cx.fr.to).connectors a, w) := rfl
@[py] theorem opt_modConnector (a : Addr) (g : Connector → Connector) : opt (Converter.modConnector cx a g) w =
    some ((), w.setConv cx.fr.to { w.conv cx.fr.to with connectors := upd (w.conv cx.fr.to).connectors a (g ((w.conv cx.fr.to).connectors a)) }) := rfl
@[py] theorem pyEq_ofVal (v : Val) (a : Addr) : pyEq (ofVal v) (.addr a) = some (v.isAddr a) := by
  rcases v with _ | _ | _ | _ | _ | (_ | _) | _ | (_ | _) <;> simp [ofVal, optAddr, pyEq, Val.isAddr]
@[py] theorem pyEq_addr_ofVal (v : Val) (a : Addr) : pyEq (.addr a) (ofVal v) = some (v.isAddr a) := by
  rcases v with _ | _ | _ | _ | _ | (_ | _) | _ | (_ | _) <;> simp [ofVal, optAddr, pyEq, Val.isAddr, eq_comm]

/-- A converter's method. -/
abbrev inv (n : Nat) (here : String) (d : Def) (args : List PV) (w : World) : Option (PV × World) :=
  invoke (Cx.of cx "Converter" L) n here (some "Converter") d args w

/-! ### Managed -/

@[py] theorem inv_managedInstall (h : 1 ≤ n) : invoke (Cx.of cx "Converter" L) n "Managed" (some "Converter") tManaged_on_install [] w =
    some (.none, w.setConv cx.self { w.conv cx.self with manager := some cx.sender, newManager := some ZERO }) := by
  py_start tManaged_on_install

@[py] theorem inv_ownerOrManager (h : 2 ≤ n) :
    invoke (Cx.of cx "Converter" L) n "Managed" (some "Converter") tManaged_require_owner_or_manager_only [] w =
      opt (Managed.requireOwnerOrManagerOnly cx) w >>- fun p => some (.none, p.2) := by
  py_start tManaged_require_owner_or_manager_only [Managed.requireOwnerOrManagerOnly]

theorem inv_getManager (h : 1 ≤ n) : invoke (Cx.of cx "Converter" L) n "Managed" (some "Converter") tManaged_getManager [] w =
    some (optAddr (w.conv cx.self).manager, w) := by
  py_start tManaged_getManager
theorem inv_getNewManager (h : 1 ≤ n) : invoke (Cx.of cx "Converter" L) n "Managed" (some "Converter") tManaged_getNewManager [] w =
    some (optAddr (w.conv cx.self).newManager, w) := by
  py_start tManaged_getNewManager

theorem inv_transferManagement (h : 3 ≤ n) (a : Addr) :
    invoke (Cx.of cx "Converter" L) n "Managed" (some "Converter") tManaged_transferManagement [.addr a] w =
      opt (Managed.transferManagement cx a) w >>- fun p => some (.none, p.2) := by
  py_start tManaged_transferManagement [Managed.transferManagement]
  py_go

theorem inv_acceptManagement (h : 2 ≤ n) :
    invoke (Cx.of cx "Converter" L) n "Managed" (some "Converter") tManaged_acceptManagement [] w =
      opt (Managed.acceptManagement cx) w >>- fun p => some (.none, p.2) := by
  py_start tManaged_acceptManagement [Managed.acceptManagement]

/-! ### FlexibleTokenController -/

@[py] theorem inv_controllerInstall (h : 3 ≤ n) (o : Option Addr) :
    invoke (Cx.of cx "Converter" L) n "FlexibleTokenController" (some "Converter") tFlexibleTokenController_on_install [optAddr o] w =
      opt (Controller.onInstall cx o) w >>- fun p => some (.none, p.2) := by
  cases o
  · py_start tFlexibleTokenController_on_install [Controller.onInstall, optAddr]
    simp [isValidAddress]
  · py_start tFlexibleTokenController_on_install [Controller.onInstall, optAddr]
    py_go

@[py] theorem inv_isActive' (h : 1 ≤ n) :
    invoke (Cx.of cx "Converter" L) n "FlexibleTokenController" (some "Converter") tFlexibleTokenController__is_active [] w =
      opt (Controller.isActive cx) w >>- fun p => some (.bool p.1, p.2) := by
  py_start tFlexibleTokenController__is_active [Controller.isActive]
  py_go

@[py] theorem inv_requireActive (h : 2 ≤ n) :
    invoke (Cx.of cx "Converter" L) n "FlexibleTokenController" (some "Converter") tFlexibleTokenController__require_active [] w =
      opt (Controller.requireActive cx) w >>- fun p => some (.none, p.2) := by
  py_start tFlexibleTokenController__require_active [Controller.requireActive]
  py_go

@[py] theorem inv_requireInactive (h : 2 ≤ n) :
    invoke (Cx.of cx "Converter" L) n "FlexibleTokenController" (some "Converter") tFlexibleTokenController__require_inactive [] w =
      opt (Controller.requireInactive cx) w >>- fun p => some (.none, p.2) := by
  py_start tFlexibleTokenController__require_inactive [Controller.requireInactive]
  py_go

theorem inv_transferTokenOwnership (h : 2 ≤ n) (a : Addr) :
    invoke (Cx.of cx "Converter" L) n "FlexibleTokenController" (some "Converter") tFlexibleTokenController_transferTokenOwnership [.addr a] w =
      opt (Controller.transferTokenOwnership cx a) w >>- fun p => some (.none, p.2) := by
  py_start tFlexibleTokenController_transferTokenOwnership [Controller.transferTokenOwnership]
  py_go

theorem inv_acceptTokenOwnership (h : 2 ≤ n) :
    invoke (Cx.of cx "Converter" L) n "FlexibleTokenController" (some "Converter") tFlexibleTokenController_acceptTokenOwnership [] w =
      opt (Controller.acceptTokenOwnership cx) w >>- fun p => some (.none, p.2) := by
  py_start tFlexibleTokenController_acceptTokenOwnership [Controller.acceptTokenOwnership]
  py_go

theorem inv_disableTokenTransfers (h : 2 ≤ n) (b : Bool) :
    invoke (Cx.of cx "Converter" L) n "FlexibleTokenController" (some "Converter") tFlexibleTokenController_disableTokenTransfers [.bool b] w =
      opt (Controller.disableTokenTransfers cx b) w >>- fun p => some (.none, p.2) := by
  py_start tFlexibleTokenController_disableTokenTransfers [Controller.disableTokenTransfers]
  py_go

theorem inv_withdrawFromToken (h : 2 ≤ n) (t a : Addr) (v : Int) :
    invoke (Cx.of cx "Converter" L) n "FlexibleTokenController" (some "Converter") tFlexibleTokenController_withdrawFromToken
        [.addr t, .addr a, .int v] w =
      opt (Controller.withdrawFromToken cx t a v) w >>- fun p => some (.none, p.2) := by
  py_start tFlexibleTokenController_withdrawFromToken [Controller.withdrawFromToken]
  py_go

theorem inv_getToken (h : 1 ≤ n) :
    invoke (Cx.of cx "Converter" L) n "FlexibleTokenController" (some "Converter") tFlexibleTokenController_getToken [] w =
    some (optAddr (w.conv cx.self).token, w) := by
  py_start tFlexibleTokenController_getToken

/-! ### Converter: settings -/

@[py] theorem inv_validConnector (h : 2 ≤ n) (a : Addr) :
    invoke (Cx.of cx "Converter" L) n "Converter" (some "Converter") tConverter__require_valid_connector [.addr a] w =
      opt (Converter.requireValidConnector cx a) w >>- fun p => some (.none, p.2) := by
  py_start tConverter__require_valid_connector [Converter.requireValidConnector]

@[py] theorem inv_validMaxFee (h : 2 ≤ n) (v : Int) :
    invoke (Cx.of cx "Converter" L) n "Converter" (some "Converter") tConverter__require_valid_max_conversion_fee [.int v] w =
      if 0 ≤ v ∧ v ≤ Converter.MAX_CONVERSION_FEE then some (.none, w) else none := by
  py_start tConverter__require_valid_max_conversion_fee

@[py] theorem inv_validFee (h : 2 ≤ n) (v : Int) :
    invoke (Cx.of cx "Converter" L) n "Converter" (some "Converter") tConverter__require_valid_conversion_fee [.int v] w =
      if 0 ≤ v ∧ v ≤ (w.conv cx.self).maxFee then some (.none, w) else none := by
  py_start tConverter__require_valid_conversion_fee

@[py] theorem inv_validWeight (h : 2 ≤ n) (v : Int) :
    invoke (Cx.of cx "Converter" L) n "Converter" (some "Converter") tConverter__require_valid_connector_weight [.int v] w =
      opt (Converter.requireValidConnectorWeight v) w >>- fun p => some (.none, p.2) := by
  py_start tConverter__require_valid_connector_weight [Converter.requireValidConnectorWeight]

@[py] theorem inv_conversionsAllowed (h : 2 ≤ n) :
    invoke (Cx.of cx "Converter" L) n "Converter" (some "Converter") tConverter__require_conversions_allowed [] w =
      if (w.conv cx.self).enabled = true then some (.none, w) else none := by
  py_start tConverter__require_conversions_allowed

@[py] theorem inv_addConnector (h : 3 ≤ n) (t : Addr) (v : Int) (b : Bool) :
    invoke (Cx.of cx "Converter" L) n "Converter" (some "Converter") tConverter_addConnector [.addr t, .int v, .bool b] w =
      opt (Converter.addConnector cx t v b) w >>- fun p => some (.none, p.2) := by
  py_start tConverter_addConnector [Converter.addConnector]
  py_go

theorem inv_updateConnector (h : 3 ≤ n) (t : Addr) (v : Int) (b : Bool) (u : Int) :
    invoke (Cx.of cx "Converter" L) n "Converter" (some "Converter") tConverter_updateConnector [.addr t, .int v, .bool b, .int u] w =
      opt (Converter.updateConnector cx t v b u) w >>- fun p => some (.none, p.2) := by
  py_start tConverter_updateConnector [Converter.updateConnector]
  py_go

theorem inv_disableConnectorPurchases (h : 3 ≤ n) (t : Addr) (b : Bool) :
    invoke (Cx.of cx "Converter" L) n "Converter" (some "Converter") tConverter_disableConnectorPurchases [.addr t, .bool b] w =
      opt (Converter.disableConnectorPurchases cx t b) w >>- fun p => some (.none, p.2) := by
  py_start tConverter_disableConnectorPurchases [Converter.disableConnectorPurchases]
  py_go

theorem inv_valid_other (cx : Cx) (h : 2 ≤ n) (v : PV) (h1 : isNone v = false) (h2 : pyEq v (.addr ZERO) = some false) :
    invoke cx n "" none f_require_valid_address [v] w = some (.none, w) := by
  have : ∀ n, 1 ≤ n → invoke cx n "" none f_is_valid_address [v] w = some (.bool true, w) := by
    intro n h
    py_start f_is_valid_address [h1, h2]
  py_start f_require_valid_address [this]

theorem pyEq_other_opt (v : PV) (o : Option Addr) (h1 : pyEq v .none = some false) (h2 : ∀ a, pyEq v (.addr a) = some false) :
    pyEq v (optAddr o) = some false := by
  cases o
  · exact h1
  · exact h2 _

theorem inv_updateRegistry (h : 3 ≤ n) :
    invoke (Cx.of cx "Converter" L) n "Converter" (some "Converter") tConverter_updateRegistry [] w =
      opt (Converter.updateRegistry cx) w >>- fun p => some (.none, p.2) := by
  py_start tConverter_updateRegistry [Converter.updateRegistry]
  refine ite_congr' Iff.rfl (fun _ => ?_) (fun _ => rfl)
  cases (w.conv cx.fr.to).registry
  · rfl
  · py_simp
    py_go
    rename_i p
    obtain ⟨v, w'⟩ := p
    rcases v with _ | _ | _ | _ | _ | (_ | a) | _ | _
    all_goals try cases ‹Option Connector›
    all_goals py_simp [asAddr, ofVal, optAddr_some]
    all_goals try py_simp [show optAddr none = PV.none from rfl]
    all_goals rw [inv_valid_other _ _ (by omega) _ rfl rfl]
    all_goals py_simp
    all_goals rw [pyEq_other_opt _ _ rfl (fun _ => rfl)]
    all_goals py_simp [ofVal]

theorem inv_restoreRegistry (h : 3 ≤ n) :
    invoke (Cx.of cx "Converter" L) n "Converter" (some "Converter") tConverter_restoreRegistry [] w =
      opt (Converter.restoreRegistry cx) w >>- fun p => some (.none, p.2) := by
  py_start tConverter_restoreRegistry [Converter.restoreRegistry]
  py_go

theorem inv_disableRegistryUpdate (h : 3 ≤ n) (b : Bool) :
    invoke (Cx.of cx "Converter" L) n "Converter" (some "Converter") tConverter_disableRegistryUpdate [.bool b] w =
      opt (Converter.disableRegistryUpdate cx b) w >>- fun p => some (.none, p.2) := by
  py_start tConverter_disableRegistryUpdate [Converter.disableRegistryUpdate]
  py_go

theorem inv_disableConversions (h : 3 ≤ n) (b : Bool) :
    invoke (Cx.of cx "Converter" L) n "Converter" (some "Converter") tConverter_disableConversions [.bool b] w =
      opt (Converter.disableConversions cx b) w >>- fun p => some (.none, p.2) := by
  py_start tConverter_disableConversions [Converter.disableConversions]
  py_go

theorem inv_setConversionFee (h : 3 ≤ n) (v : Int) :
    invoke (Cx.of cx "Converter" L) n "Converter" (some "Converter") tConverter_setConversionFee [.int v] w =
      opt (Converter.setConversionFee cx v) w >>- fun p => some (.none, p.2) := by
  py_start tConverter_setConversionFee [Converter.setConversionFee]
  py_go

theorem inv_convWithdraw (h : 4 ≤ n) (t a : Addr) (v : Int) :
    invoke (Cx.of cx "Converter" L) n "Converter" (some "Converter") tConverter_withdrawTokens [.addr t, .addr a, .int v] w =
      opt (Converter.withdrawTokens cx t a v) w >>- fun p => some (.none, p.2) := by
  py_start tConverter_withdrawTokens [Converter.withdrawTokens]
  py_go

end Verif.Src

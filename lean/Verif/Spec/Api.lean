import Verif.Model.ClassTable
import Verif.Model.Exec
/-!
What C69 compares: the calls of the ledger model, and the methods in the text of the classes.
-/
set_option autoImplicit false
namespace Verif

open Py (Method table)

/-- The class deployed as a contract of each kind. -/
def Kind.className : Kind → Option String
  | .none => Option.none
  | .irc => some "IRCToken"
  | .icx => some "IcxToken"
  | .flex => some "FlexibleToken"
  | .conv => some "Converter"
  | .net => some "Network"
  | .reg => some "ScoreRegistry"
  | .foreign => Option.none

/-- The method a call asks for, and the types of its arguments. -/
def Call.sig : Call → Option (String × List String)
  | .name => some ("name", [])
  | .symbol => some ("symbol", [])
  | .decimals => some ("decimals", [])
  | .totalSupply => some ("totalSupply", [])
  | .balanceOf _ => some ("balanceOf", ["Address"])
  | .transfer _ _ _ => some ("transfer", ["Address", "int", "bytes"])
  | .disableTransfer _ => some ("disableTransfer", ["bool"])
  | .getFlexibleTokenVersion => some ("getFlexibleTokenVersion", [])
  | .getTransferPossibility => some ("getTransferPossibility", [])
  | .issue _ _ => some ("issue", ["Address", "int"])
  | .destroy _ _ => some ("destroy", ["Address", "int"])
  | .deposit => some ("deposit", [])
  | .withdraw _ => some ("withdraw", ["int"])
  | .withdrawTo _ _ => some ("withdrawTo", ["int", "Address"])
  | .getOwner => some ("getOwner", [])
  | .getNewOwner => some ("getNewOwner", [])
  | .transferOwnerShip _ => some ("transferOwnerShip", ["Address"])
  | .acceptOwnerShip => some ("acceptOwnerShip", [])
  | .getManager => some ("getManager", [])
  | .getNewManager => some ("getNewManager", [])
  | .transferManagement _ => some ("transferManagement", ["Address"])
  | .acceptManagement => some ("acceptManagement", [])
  | .withdrawTokens _ _ _ => some ("withdrawTokens", ["Address", "Address", "int"])
  | .tokenFallback _ _ _ => some ("tokenFallback", ["Address", "int", "bytes"])
  | .isActive => some ("isActive", [])
  | .transferTokenOwnership _ => some ("transferTokenOwnership", ["Address"])
  | .acceptTokenOwnership => some ("acceptTokenOwnership", [])
  | .disableTokenTransfers _ => some ("disableTokenTransfers", ["bool"])
  | .withdrawFromToken _ _ _ => some ("withdrawFromToken", ["Address", "Address", "int"])
  | .getToken => some ("getToken", [])
  | .addConnector _ _ _ => some ("addConnector", ["Address", "int", "bool"])
  | .updateConnector _ _ _ _ => some ("updateConnector", ["Address", "int", "bool", "int"])
  | .disableConnectorPurchases _ _ => some ("disableConnectorPurchases", ["Address", "bool"])
  | .updateRegistry => some ("updateRegistry", [])
  | .restoreRegistry => some ("restoreRegistry", [])
  | .disableRegistryUpdate _ => some ("disableRegistryUpdate", ["bool"])
  | .disableConversions _ => some ("disableConversions", ["bool"])
  | .setConversionFee _ => some ("setConversionFee", ["int"])
  | .isAllowRegistryUpdate => some ("isAllowRegistryUpdate", [])
  | .getPreviousRegistry => some ("getPreviousRegistry", [])
  | .getRegistry => some ("getRegistry", [])
  | .getConnectorTokenCount => some ("getConnectorTokenCount", [])
  | .getMaxConversionFee => some ("getMaxConversionFee", [])
  | .getConversionFee => some ("getConversionFee", [])
  | .isConversionsEnabled => some ("isConversionsEnabled", [])
  | .getConnectorAt _ => some ("getConnectorAt", ["int"])
  | .getConnector _ => some ("getConnector", ["Address"])
  | .getConnectorBalance _ => some ("getConnectorBalance", ["Address"])
  | .getReturn _ _ _ => some ("getReturn", ["Address", "Address", "int"])
  | .getFinalAmount _ _ => some ("getFinalAmount", ["int", "int"])
  | .getAddress _ => some ("getAddress", ["str"])
  | .getScoreIds => some ("getScoreIds", [])
  | .registerAddress _ _ => some ("registerAddress", ["str", "Address"])
  | .unregisterAddress _ => some ("unregisterAddress", ["str"])
  | .getExpectedReturnByPath _ _ => some ("getExpectedReturnByPath", ["str", "int"])
  | .getIcxTokenRegistered _ => some ("getIcxTokenRegistered", ["Address"])
  | .registerIcxToken _ _ => some ("registerIcxToken", ["Address", "bool"])
  | .convert _ _ => some ("convert", ["str", "int"])
  | .convertFor _ _ _ => some ("convertFor", ["str", "int", "Address"])
  | .fallback => none
  | .other _ => none
  | .onInstall _ => none

/-- The methods of each kind of contract, with the types of the parameters, whether they accept coin, and whether they are read-only.
(`C69_table`: this is what the classes say.) -/
def methodsOf : Kind → List ((String × List String) × Bool × Bool)
  | .irc => [
      (("name", []), false, true),
      (("symbol", []), false, true),
      (("decimals", []), false, true),
      (("totalSupply", []), false, true),
      (("balanceOf", ["Address"]), false, true),
      (("transfer", ["Address", "int", "bytes"]), false, false)]
  | .icx => [
      (("deposit", []), true, false),
      (("withdraw", ["int"]), false, false),
      (("withdrawTo", ["int", "Address"]), false, false),
      (("transfer", ["Address", "int", "bytes"]), false, false),
      (("name", []), false, true),
      (("symbol", []), false, true),
      (("decimals", []), false, true),
      (("totalSupply", []), false, true),
      (("balanceOf", ["Address"]), false, true),
      (("withdrawTokens", ["Address", "Address", "int"]), false, false),
      (("getOwner", []), false, true),
      (("getNewOwner", []), false, true),
      (("transferOwnerShip", ["Address"]), false, false),
      (("acceptOwnerShip", []), false, false)]
  | .flex => [
      (("disableTransfer", ["bool"]), false, false),
      (("getFlexibleTokenVersion", []), false, true),
      (("getTransferPossibility", []), false, true),
      (("issue", ["Address", "int"]), false, false),
      (("destroy", ["Address", "int"]), false, false),
      (("transfer", ["Address", "int", "bytes"]), false, false),
      (("name", []), false, true),
      (("symbol", []), false, true),
      (("decimals", []), false, true),
      (("totalSupply", []), false, true),
      (("balanceOf", ["Address"]), false, true),
      (("withdrawTokens", ["Address", "Address", "int"]), false, false),
      (("getOwner", []), false, true),
      (("getNewOwner", []), false, true),
      (("transferOwnerShip", ["Address"]), false, false),
      (("acceptOwnerShip", []), false, false)]
  | .conv => [
      (("tokenFallback", ["Address", "int", "bytes"]), false, false),
      (("addConnector", ["Address", "int", "bool"]), false, false),
      (("updateConnector", ["Address", "int", "bool", "int"]), false, false),
      (("disableConnectorPurchases", ["Address", "bool"]), false, false),
      (("updateRegistry", []), false, false),
      (("restoreRegistry", []), false, false),
      (("disableRegistryUpdate", ["bool"]), false, false),
      (("disableConversions", ["bool"]), false, false),
      (("setConversionFee", ["int"]), false, false),
      (("withdrawTokens", ["Address", "Address", "int"]), false, false),
      (("isAllowRegistryUpdate", []), false, true),
      (("isActive", []), false, true),
      (("getPreviousRegistry", []), false, true),
      (("getRegistry", []), false, true),
      (("getConnectorTokenCount", []), false, true),
      (("getMaxConversionFee", []), false, true),
      (("getConversionFee", []), false, true),
      (("isConversionsEnabled", []), false, true),
      (("getConnectorAt", ["int"]), false, true),
      (("getConnector", ["Address"]), false, true),
      (("getConnectorBalance", ["Address"]), false, true),
      (("getReturn", ["Address", "Address", "int"]), false, true),
      (("getFinalAmount", ["int", "int"]), false, true),
      (("transferTokenOwnership", ["Address"]), false, false),
      (("acceptTokenOwnership", []), false, false),
      (("disableTokenTransfers", ["bool"]), false, false),
      (("withdrawFromToken", ["Address", "Address", "int"]), false, false),
      (("getToken", []), false, true),
      (("getManager", []), false, true),
      (("getNewManager", []), false, true),
      (("transferManagement", ["Address"]), false, false),
      (("acceptManagement", []), false, false),
      (("getOwner", []), false, true),
      (("getNewOwner", []), false, true),
      (("transferOwnerShip", ["Address"]), false, false),
      (("acceptOwnerShip", []), false, false)]
  | .net => [
      (("getExpectedReturnByPath", ["str", "int"]), false, true),
      (("getIcxTokenRegistered", ["Address"]), false, true),
      (("registerIcxToken", ["Address", "bool"]), false, false),
      (("tokenFallback", ["Address", "int", "bytes"]), false, false),
      (("convert", ["str", "int"]), true, false),
      (("convertFor", ["str", "int", "Address"]), true, false),
      (("withdrawTokens", ["Address", "Address", "int"]), false, false),
      (("getOwner", []), false, true),
      (("getNewOwner", []), false, true),
      (("transferOwnerShip", ["Address"]), false, false),
      (("acceptOwnerShip", []), false, false)]
  | .reg => [
      (("getAddress", ["str"]), false, true),
      (("getScoreIds", []), false, true),
      (("registerAddress", ["str", "Address"]), false, false),
      (("unregisterAddress", ["str"]), false, false),
      (("getOwner", []), false, true),
      (("getNewOwner", []), false, true),
      (("transferOwnerShip", ["Address"]), false, false),
      (("acceptOwnerShip", []), false, false)]
  | _ => []

/-- The call `c` asks a contract of kind `k` for one of its methods, with the right types; `pay`: the method accepts coin, `ro`: it is
read-only. -/
def Offers (k : Kind) (c : Call) (pay ro : Bool) : Prop := ∃ sg, c.sig = some sg ∧ (sg, pay, ro) ∈ methodsOf k

/-- The plain coin transfers a class accepts: its `fallback`, as found in the order of resolution, is `@payable`. -/
def acceptsCoin (k : Kind) : Bool :=
  match k.className with
  | none => false
  | some cls => match (Py.defs table ((Py.mro table 20 cls).getD []) "fallback").head? with
    | none => false
    | some f => f.2.payable

/-- The methods (with the types of their parameters) of the interfaces through which a contract of kind `k` calls others: for each class in its
order of resolution, the interfaces this class uses, with the methods they inherit. -/
def declared (k : Kind) : List (String × List String) :=
  match k.className with
  | none => []
  | some cls =>
    let used := ((Py.mro table 20 cls).getD []).flatMap fun c => ((Py.find table c).map Py.Class.uses).getD []
    used.flatMap fun i => ((Py.mro table 20 i).getD []).flatMap fun c => ((Py.find table c).map fun cl =>
      (cl.methods.filter fun m => m.abstract || m.interface).map fun m => (m.name, m.params.map Prod.snd)).getD []

/-- The classes that are deployed as contracts. -/
def scores : List Kind := [.irc, .icx, .flex, .conv, .net, .reg]

end Verif

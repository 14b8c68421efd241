import Verif.Model.Classes
/-!
Generated by tools/gen_classes.py from the text of /repo/contracts: every class but those of the formula, `Storage` and `ProxyScore`.
-/
namespace Verif.Py

/-- `Connector`, contracts/converter/converter.py:37-52. -/
def cConnector : Class := {
  name := "Connector"
  bases := ["object"]
  uses := ["ABCFlexibleToken", "ABCIRCToken", "ABCScoreRegistry"]
  methods := [
    { name := "__init__", params := [("db", "IconScoreDatabase")] }] }

/-- `ConnectorDict`, contracts/converter/converter.py:55-72. -/
def cConnectorDict : Class := {
  name := "ConnectorDict"
  bases := ["object"]
  uses := ["ABCFlexibleToken", "ABCIRCToken", "ABCScoreRegistry"]
  methods := [
    { name := "__init__", params := [("db", "IconScoreDatabase")] },
    { name := "__getitem__", params := [("key", "Address")] },
    { name := "__setitem__", params := [("key", ""), ("value", "")] }] }

/-- `Converter`, contracts/converter/converter.py:76-839. -/
def cConverter : Class := {
  name := "Converter"
  bases := ["ABCConverter", "FlexibleTokenController", "Managed"]
  uses := ["ABCFlexibleToken", "ABCIRCToken", "ABCScoreRegistry"]
  methods := [
    { name := "Conversion", params := [("_fromToken", "Address"), ("_toToken", "Address"), ("_trader", "Address"), ("_amount", "int"), ("_return", "int"), ("_conversionFee", "int")], event := true },
    { name := "PriceDataUpdate", params := [("_connectorToken", "Address"), ("_tokenSupply", "int"), ("_connectorBalance", "int"), ("_connectorWeight", "int")], event := true },
    { name := "ConversionFeeUpdate", params := [("_prevFee", "int"), ("_newFee", "int")], event := true },
    { name := "ConversionsEnable", params := [("_conversionsEnabled", "bool")], event := true },
    { name := "_require_valid_connector", params := [("address", "Address")] },
    { name := "_require_valid_token", params := [("address", "Address")] },
    { name := "_require_valid_max_conversion_fee", params := [("conversion_fee", "int")] },
    { name := "_require_valid_conversion_fee", params := [("conversion_fee", "int")] },
    { name := "_require_valid_connector_weight", params := [("weight", "int")] },
    { name := "_require_max_total_weight_only", params := [] },
    { name := "_require_conversions_allowed", params := [] },
    { name := "__init__", params := [("db", "IconScoreDatabase")], up := [.next "__init__"] },
    { name := "on_install", params := [("_token", "Address"), ("_registry", "Address"), ("_maxConversionFee", "int"), ("_connectorToken", "Address"), ("_connectorWeight", "int")], up := [.of "FlexibleTokenController" "on_install"] },
    { name := "on_update", params := [], up := [.of "FlexibleTokenController" "on_update"] },
    { name := "tokenFallback", params := [("_from", "Address"), ("_value", "int"), ("_data", "bytes")], ext := true },
    { name := "_convert", params := [("trader", "Address"), ("from_token", "Address"), ("to_token", "Address"), ("amount", "int"), ("min_return", "int")] },
    { name := "_buy", params := [("trader", "Address"), ("connector_token", "Address"), ("amount", "int"), ("min_return", "int")] },
    { name := "_sell", params := [("trader", "Address"), ("connector_token", "Address"), ("amount", "int"), ("min_return", "int")] },
    { name := "_convert_cross_connector", params := [("trader", "Address"), ("from_token", "Address"), ("to_token", "Address"), ("amount", "int"), ("min_return", "int")] },
    { name := "get_purchase_return", params := [("connector_token", "Address"), ("amount", "int"), ("from_conversion", "bool")] },
    { name := "get_sale_return", params := [("connector_token", "Address"), ("amount", "int")] },
    { name := "get_cross_connector_return", params := [("from_token", "Address"), ("to_token", "Address"), ("amount", "int"), ("from_conversion", "bool")] },
    { name := "addConnector", params := [("_token", "Address"), ("_weight", "int"), ("_enableVirtualBalance", "bool")], ext := true },
    { name := "updateConnector", params := [("_connectorToken", "Address"), ("_weight", "int"), ("_enableVirtualBalance", "bool"), ("_virtualBalance", "int")], ext := true },
    { name := "disableConnectorPurchases", params := [("_connectorToken", "Address"), ("_disable", "bool")], ext := true },
    { name := "updateRegistry", params := [], ext := true },
    { name := "restoreRegistry", params := [], ext := true },
    { name := "disableRegistryUpdate", params := [("_disable", "bool")], ext := true },
    { name := "disableConversions", params := [("_disable", "bool")], ext := true },
    { name := "setConversionFee", params := [("_conversionFee", "int")], ext := true },
    { name := "withdrawTokens", params := [("_token", "Address"), ("_to", "Address"), ("_amount", "int")], ext := true, up := [.next "withdrawTokens"] },
    { name := "isAllowRegistryUpdate", params := [], ext := true, readonly := true },
    { name := "isActive", params := [], ext := true, readonly := true },
    { name := "getPreviousRegistry", params := [], ext := true, readonly := true },
    { name := "getRegistry", params := [], ext := true, readonly := true },
    { name := "getConnectorTokenCount", params := [], ext := true, readonly := true },
    { name := "getMaxConversionFee", params := [], ext := true, readonly := true },
    { name := "getConversionFee", params := [], ext := true, readonly := true },
    { name := "isConversionsEnabled", params := [], ext := true, readonly := true },
    { name := "getConnectorAt", params := [("_index", "int")], ext := true, readonly := true },
    { name := "getConnector", params := [("_address", "Address")], ext := true, readonly := true },
    { name := "getConnectorBalance", params := [("_connectorToken", "Address")], ext := true, readonly := true },
    { name := "getReturn", params := [("_fromToken", "Address"), ("_toToken", "Address"), ("_amount", "int")], ext := true, readonly := true },
    { name := "getFinalAmount", params := [("_amount", "int"), ("_magnitude", "int")], ext := true, readonly := true }] }

/-- `FlexibleToken`, contracts/flexible_token/flexible_token.py:26-106. -/
def cFlexibleToken : Class := {
  name := "FlexibleToken"
  bases := ["IRCToken", "TokenHolder", "ABCFlexibleToken"]
  uses := []
  methods := [
    { name := "NewFlexibleToken", params := [("_token", "Address")], event := true },
    { name := "Issuance", params := [("_amount", "int")], event := true },
    { name := "Destruction", params := [("_amount", "int")], event := true },
    { name := "__init__", params := [("db", "IconScoreDatabase")], up := [.next "__init__"] },
    { name := "on_install", params := [("_name", "str"), ("_symbol", "str"), ("_initialSupply", "int"), ("_decimals", "int")], up := [.of "IRCToken" "on_install", .of "TokenHolder" "on_install"] },
    { name := "on_update", params := [], up := [.of "IRCToken" "on_update", .of "TokenHolder" "on_update"] },
    { name := "require_transfer_allowed", params := [] },
    { name := "disableTransfer", params := [("_disable", "bool")], ext := true },
    { name := "getFlexibleTokenVersion", params := [], ext := true, readonly := true },
    { name := "getTransferPossibility", params := [], ext := true, readonly := true },
    { name := "issue", params := [("_to", "Address"), ("_amount", "int")], ext := true },
    { name := "destroy", params := [("_from", "Address"), ("_amount", "int")], ext := true },
    { name := "transfer", params := [("_to", "Address"), ("_value", "int"), ("_data", "bytes")], ext := true, up := [.of "IRCToken" "transfer"] }] }

/-- `IcxToken`, contracts/icx_token/icx_token.py:26-81. -/
def cIcxToken : Class := {
  name := "IcxToken"
  bases := ["IRCToken", "TokenHolder", "ABCIcxToken"]
  uses := []
  methods := [
    { name := "Issuance", params := [("_amount", "int")], event := true },
    { name := "Destruction", params := [("_amount", "int")], event := true },
    { name := "__init__", params := [("db", "IconScoreDatabase")], up := [.next "__init__"] },
    { name := "on_install", params := [], up := [.of "IRCToken" "on_install", .of "TokenHolder" "on_install"] },
    { name := "on_update", params := [], up := [.of "IRCToken" "on_update", .of "TokenHolder" "on_update"] },
    { name := "fallback", params := [], payable := true },
    { name := "deposit", params := [], ext := true, payable := true },
    { name := "withdraw", params := [("_amount", "int")], ext := true },
    { name := "withdrawTo", params := [("_amount", "int"), ("_to", "Address")], ext := true },
    { name := "transfer", params := [("_to", "Address"), ("_value", "int"), ("_data", "bytes")], ext := true, up := [.of "IRCToken" "transfer"] }] }

/-- `ABCConverter`, contracts/interfaces/abc_converter.py:20-86. -/
def cABCConverter : Class := {
  name := "ABCConverter"
  bases := ["ABC"]
  uses := []
  methods := [
    { name := "getReturn", params := [("_fromToken", "Address"), ("_toToken", "Address"), ("_amount", "int")], abstract := true },
    { name := "getConversionFee", params := [], abstract := true },
    { name := "getConnector", params := [("_address", "Address")], abstract := true },
    { name := "getConnectorBalance", params := [("_connectorToken", "Address")], abstract := true },
    { name := "tokenFallback", params := [("_from", "Address"), ("_value", "int"), ("_data", "bytes")], abstract := true }] }

/-- `ABCFlexibleToken`, contracts/interfaces/abc_flexible_token.py:23-61. -/
def cABCFlexibleToken : Class := {
  name := "ABCFlexibleToken"
  bases := ["ABCIRCToken", "ABCTokenHolder"]
  uses := []
  methods := [
    { name := "disableTransfer", params := [("_disable", "bool")], abstract := true },
    { name := "issue", params := [("_to", "Address"), ("_amount", "int")], abstract := true },
    { name := "destroy", params := [("_from", "Address"), ("_amount", "int")], abstract := true }] }

/-- `ABCFormula`, contracts/interfaces/abc_formula.py:20-87. -/
def cABCFormula : Class := {
  name := "ABCFormula"
  bases := ["ABC"]
  uses := []
  methods := [
    { name := "calculate_purchase_return", params := [("supply", "int"), ("connector_balance", "int"), ("connector_weight", "int"), ("deposit_amount", "int")], abstract := true },
    { name := "calculate_sale_return", params := [("supply", "int"), ("connector_balance", "int"), ("connector_weight", "int"), ("sell_amount", "int")], abstract := true },
    { name := "calculate_cross_connector_return", params := [("from_connector_balance", "int"), ("from_connector_weight", "int"), ("to_connector_balance", "int"), ("to_connector_weight", "int"), ("amount", "int")], abstract := true }] }

/-- `ABCIcxToken`, contracts/interfaces/abc_icx_token.py:23-54. -/
def cABCIcxToken : Class := {
  name := "ABCIcxToken"
  bases := ["ABCIRCToken", "ABCTokenHolder"]
  uses := []
  methods := [
    { name := "deposit", params := [], abstract := true },
    { name := "withdraw", params := [("_amount", "int")], abstract := true },
    { name := "withdrawTo", params := [("_amount", "int"), ("_to", "Address")], abstract := true }] }

/-- `ABCIRCToken`, contracts/interfaces/abc_irc_token.py:20-84. -/
def cABCIRCToken : Class := {
  name := "ABCIRCToken"
  bases := ["ABC"]
  uses := []
  methods := [
    { name := "name", params := [], abstract := true },
    { name := "symbol", params := [], abstract := true },
    { name := "decimals", params := [], abstract := true },
    { name := "totalSupply", params := [], abstract := true },
    { name := "balanceOf", params := [("_owner", "Address")], abstract := true },
    { name := "transfer", params := [("_to", "Address"), ("_value", "int"), ("_data", "bytes")], abstract := true }] }

/-- `ABCOwned`, contracts/interfaces/abc_owned.py:20-53. -/
def cABCOwned : Class := {
  name := "ABCOwned"
  bases := ["ABC"]
  uses := []
  methods := [
    { name := "getOwner", params := [], abstract := true },
    { name := "transferOwnerShip", params := [("_newOwner", "Address")], abstract := true },
    { name := "acceptOwnerShip", params := [], abstract := true }] }

/-- `ABCScoreRegistry`, contracts/interfaces/abc_score_registry.py:20-38. -/
def cABCScoreRegistry : Class := {
  name := "ABCScoreRegistry"
  bases := ["ABC"]
  uses := []
  methods := [
    { name := "getAddress", params := [("_scoreName", "bytes")], abstract := true }] }

/-- `ABCTokenHolder`, contracts/interfaces/abc_token_holder.py:22-38. -/
def cABCTokenHolder : Class := {
  name := "ABCTokenHolder"
  bases := ["ABCOwned"]
  uses := []
  methods := [
    { name := "withdrawTokens", params := [("_token", "Address"), ("_to", "Address"), ("_amount", "int")], abstract := true }] }

/-- `TokenFallbackInterface`, contracts/irc_token/irc_token.py:23-26. -/
def cTokenFallbackInterface : Class := {
  name := "TokenFallbackInterface"
  bases := ["InterfaceScore"]
  uses := []
  methods := [
    { name := "tokenFallback", params := [("_from", "Address"), ("_value", "int"), ("_data", "bytes")], interface := true }] }

/-- `IRCToken`, contracts/irc_token/irc_token.py:29-113. -/
def cIRCToken : Class := {
  name := "IRCToken"
  bases := ["IconScoreBase", "ABCIRCToken"]
  uses := ["TokenFallbackInterface"]
  methods := [
    { name := "Transfer", params := [("_from", "Address"), ("_to", "Address"), ("_value", "int"), ("_data", "bytes")], event := true },
    { name := "__init__", params := [("db", "IconScoreDatabase")], up := [.next "__init__"] },
    { name := "on_install", params := [("_name", "str"), ("_symbol", "str"), ("_initialSupply", "int"), ("_decimals", "int")] },
    { name := "on_update", params := [] },
    { name := "name", params := [], ext := true, readonly := true },
    { name := "symbol", params := [], ext := true, readonly := true },
    { name := "decimals", params := [], ext := true, readonly := true },
    { name := "totalSupply", params := [], ext := true, readonly := true },
    { name := "balanceOf", params := [("_owner", "Address")], ext := true, readonly := true },
    { name := "transfer", params := [("_to", "Address"), ("_value", "int"), ("_data", "bytes")], ext := true },
    { name := "_transfer", params := [("_from", "Address"), ("_to", "Address"), ("_value", "int"), ("_data", "bytes")] }] }

/-- `Network`, contracts/network/network.py:35-290. -/
def cNetwork : Class := {
  name := "Network"
  bases := ["TokenHolder"]
  uses := ["ABCConverter", "ABCFlexibleToken", "ABCIRCToken", "ABCIcxToken"]
  methods := [
    { name := "__init__", params := [("db", "IconScoreDatabase")], up := [.next "__init__"] },
    { name := "on_install", params := [], up := [.of "TokenHolder" "on_install"] },
    { name := "on_update", params := [], up := [.of "TokenHolder" "on_update"] },
    { name := "getExpectedReturnByPath", params := [("_path", "str"), ("_amount", "int")], ext := true, readonly := true },
    { name := "getIcxTokenRegistered", params := [("_icxToken", "Address")], ext := true, readonly := true },
    { name := "_convert_path", params := [("path", "str")] },
    { name := "_convert_bytes_data", params := [("data", "bytes"), ("token_sender_address", "Address")] },
    { name := "_require_valid_path", params := [("path", "list")] },
    { name := "registerIcxToken", params := [("_icxToken", "Address"), ("_register", "bool")], ext := true },
    { name := "tokenFallback", params := [("_from", "Address"), ("_value", "int"), ("_data", "bytes")], ext := true },
    { name := "convert", params := [("_path", "str"), ("_minReturn", "int")], ext := true, payable := true },
    { name := "convertFor", params := [("_path", "str"), ("_minReturn", "int"), ("_for", "Address")], ext := true, payable := true },
    { name := "_convert_for_internal", params := [("path", "list"), ("amount", "int"), ("min_return", "int"), ("_for", "Address")] },
    { name := "_convert_by_path", params := [("path", "list"), ("amount", "int"), ("min_return", "int"), ("_for", "Address")] }] }

/-- `ScoreRegistry`, contracts/score_registry/score_registry.py:25-69. -/
def cScoreRegistry : Class := {
  name := "ScoreRegistry"
  bases := ["Owned", "ABCScoreRegistry"]
  uses := []
  methods := [
    { name := "AddressUpdate", params := [("_contractName", "str"), ("_scoreAddress", "Address")], event := true },
    { name := "__init__", params := [("db", "IconScoreDatabase")], up := [.next "__init__"] },
    { name := "on_install", params := [], up := [.of "Owned" "on_install"] },
    { name := "on_update", params := [], up := [.of "Owned" "on_update"] },
    { name := "getAddress", params := [("_scoreName", "str")], ext := true, readonly := true },
    { name := "getScoreIds", params := [], ext := true, readonly := true },
    { name := "registerAddress", params := [("_scoreName", "str"), ("_scoreAddress", "Address")], ext := true },
    { name := "unregisterAddress", params := [("_scoreName", "str")], ext := true }] }

/-- `FlexibleTokenController`, contracts/utility/flexible_token_controller.py:27-136. -/
def cFlexibleTokenController : Class := {
  name := "FlexibleTokenController"
  bases := ["TokenHolder"]
  uses := ["ABCFlexibleToken"]
  methods := [
    { name := "__init__", params := [("db", "IconScoreDatabase")], up := [.next "__init__"] },
    { name := "on_install", params := [("_token", "Address")], up := [.of "TokenHolder" "on_install"] },
    { name := "on_update", params := [], up := [.of "TokenHolder" "on_update"] },
    { name := "_is_active", params := [] },
    { name := "_require_active", params := [] },
    { name := "_require_inactive", params := [] },
    { name := "isActive", params := [], ext := true, readonly := true },
    { name := "transferTokenOwnership", params := [("_newOwner", "Address")], ext := true },
    { name := "acceptTokenOwnership", params := [], ext := true },
    { name := "disableTokenTransfers", params := [("_disable", "bool")], ext := true },
    { name := "withdrawFromToken", params := [("_token", "Address"), ("_to", "Address"), ("_amount", "int")], ext := true },
    { name := "getToken", params := [], ext := true, readonly := true }] }

/-- `Managed`, contracts/utility/managed.py:22-87. -/
def cManaged : Class := {
  name := "Managed"
  bases := ["Owned"]
  uses := []
  methods := [
    { name := "ManagerUpdate", params := [("_prevManager", "Address"), ("_newManager", "Address")], event := true },
    { name := "__init__", params := [("db", "IconScoreDatabase")], up := [.next "__init__"] },
    { name := "on_install", params := [] },
    { name := "on_update", params := [], up := [.of "Owned" "on_update"] },
    { name := "require_manager_only", params := [] },
    { name := "require_owner_or_manager_only", params := [] },
    { name := "getManager", params := [], ext := true, readonly := true },
    { name := "getNewManager", params := [], ext := true, readonly := true },
    { name := "transferManagement", params := [("_newManager", "Address")], ext := true },
    { name := "acceptManagement", params := [], ext := true }] }

/-- `Owned`, contracts/utility/owned.py:23-70. -/
def cOwned : Class := {
  name := "Owned"
  bases := ["IconScoreBase", "ABCOwned"]
  uses := []
  methods := [
    { name := "OwnerUpdate", params := [("_prevOwner", "Address"), ("_newOwner", "Address")], event := true },
    { name := "__init__", params := [("db", "IconScoreDatabase")], up := [.next "__init__"] },
    { name := "on_install", params := [] },
    { name := "on_update", params := [] },
    { name := "require_owner_only", params := [] },
    { name := "getOwner", params := [], ext := true, readonly := true },
    { name := "getNewOwner", params := [], ext := true, readonly := true },
    { name := "transferOwnerShip", params := [("_newOwner", "Address")], ext := true },
    { name := "acceptOwnerShip", params := [], ext := true }] }

/-- `TokenHolder`, contracts/utility/token_holder.py:23-41. -/
def cTokenHolder : Class := {
  name := "TokenHolder"
  bases := ["Owned", "ABCTokenHolder"]
  uses := ["ABCIRCToken"]
  methods := [
    { name := "__init__", params := [("db", "IconScoreDatabase")], up := [.next "__init__"] },
    { name := "on_install", params := [], up := [.of "Owned" "on_install"] },
    { name := "on_update", params := [], up := [.of "Owned" "on_update"] },
    { name := "withdrawTokens", params := [("_token", "Address"), ("_to", "Address"), ("_amount", "int")], ext := true }] }

/-- All of them, after the platform's. -/
def table : List Class := platform ++
  [cConnector, cConnectorDict, cConverter, cFlexibleToken, cIcxToken, cABCConverter, cABCFlexibleToken, cABCFormula, cABCIcxToken, cABCIRCToken, cABCOwned, cABCScoreRegistry, cABCTokenHolder, cTokenFallbackInterface, cIRCToken, cNetwork, cScoreRegistry, cFlexibleTokenController, cManaged, cOwned, cTokenHolder]

end Verif.Py

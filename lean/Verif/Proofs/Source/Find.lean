import Verif.Model.Source.Sem
import Verif.Proofs.Source.Attr
/-!
Generated by tools/gen_find.py: the results of all look-ups in the source text, each checked by the kernel.
-/
set_option autoImplicit false
namespace Verif.Src

@[py] theorem mro_Converter : mroOf "Converter" = ["Converter", "ABCConverter", "FlexibleTokenController", "TokenHolder", "Managed", "Owned", "IconScoreBase", "ABCTokenHolder", "ABCOwned", "ABC", "object"] := by krefl
@[py] theorem mro_FlexibleToken : mroOf "FlexibleToken" = ["FlexibleToken", "IRCToken", "TokenHolder", "Owned", "IconScoreBase", "ABCFlexibleToken", "ABCIRCToken", "ABCTokenHolder", "ABCOwned", "ABC", "object"] := by krefl
@[py] theorem mro_IcxToken : mroOf "IcxToken" = ["IcxToken", "IRCToken", "TokenHolder", "Owned", "IconScoreBase", "ABCIcxToken", "ABCIRCToken", "ABCTokenHolder", "ABCOwned", "ABC", "object"] := by krefl
@[py] theorem mro_Network : mroOf "Network" = ["Network", "TokenHolder", "Owned", "IconScoreBase", "ABCTokenHolder", "ABCOwned", "ABC", "object"] := by krefl
@[py] theorem mro_ScoreRegistry : mroOf "ScoreRegistry" = ["ScoreRegistry", "Owned", "IconScoreBase", "ABCOwned", "ABCScoreRegistry", "ABC", "object"] := by krefl
@[py] theorem mro_IRCToken : mroOf "IRCToken" = ["IRCToken", "IconScoreBase", "ABCIRCToken", "ABC", "object"] := by krefl
@[py] theorem mro_FixedMapFormula : mroOf "FixedMapFormula" = ["FixedMapFormula"] := by krefl
@[py] theorem mro_TokenHolder : mroOf "TokenHolder" = ["TokenHolder", "Owned", "IconScoreBase", "ABCTokenHolder", "ABCOwned", "ABC", "object"] := by krefl
@[py] theorem mro_Owned : mroOf "Owned" = ["Owned", "IconScoreBase", "ABCOwned", "ABC", "object"] := by krefl
@[py] theorem mro_FlexibleTokenController : mroOf "FlexibleTokenController" = ["FlexibleTokenController", "TokenHolder", "Owned", "IconScoreBase", "ABCTokenHolder", "ABCOwned", "ABC", "object"] := by krefl

@[py] theorem find_Converter_Conversion : find "Converter" "Conversion" = some ("Converter", tConverter_Conversion) := by rw [find, mro_Converter]; krefl
@[py] theorem find_Converter_ConversionFeeUpdate : find "Converter" "ConversionFeeUpdate" = some ("Converter", tConverter_ConversionFeeUpdate) := by rw [find, mro_Converter]; krefl
@[py] theorem find_Converter_ConversionsEnable : find "Converter" "ConversionsEnable" = some ("Converter", tConverter_ConversionsEnable) := by rw [find, mro_Converter]; krefl
@[py] theorem find_Converter_ManagerUpdate : find "Converter" "ManagerUpdate" = some ("Managed", tManaged_ManagerUpdate) := by rw [find, mro_Converter]; krefl
@[py] theorem find_Converter_OwnerUpdate : find "Converter" "OwnerUpdate" = some ("Owned", tOwned_OwnerUpdate) := by rw [find, mro_Converter]; krefl
@[py] theorem find_Converter_PriceDataUpdate : find "Converter" "PriceDataUpdate" = some ("Converter", tConverter_PriceDataUpdate) := by rw [find, mro_Converter]; krefl
@[py] theorem find_Converter__buy : find "Converter" "_buy" = some ("Converter", tConverter__buy) := by rw [find, mro_Converter]; krefl
@[py] theorem find_Converter__convert : find "Converter" "_convert" = some ("Converter", tConverter__convert) := by rw [find, mro_Converter]; krefl
@[py] theorem find_Converter__convert_cross_connector : find "Converter" "_convert_cross_connector" = some ("Converter", tConverter__convert_cross_connector) := by rw [find, mro_Converter]; krefl
@[py] theorem find_Converter__is_active : find "Converter" "_is_active" = some ("FlexibleTokenController", tFlexibleTokenController__is_active) := by rw [find, mro_Converter]; krefl
@[py] theorem find_Converter__require_active : find "Converter" "_require_active" = some ("FlexibleTokenController", tFlexibleTokenController__require_active) := by rw [find, mro_Converter]; krefl
@[py] theorem find_Converter__require_conversions_allowed : find "Converter" "_require_conversions_allowed" = some ("Converter", tConverter__require_conversions_allowed) := by rw [find, mro_Converter]; krefl
@[py] theorem find_Converter__require_inactive : find "Converter" "_require_inactive" = some ("FlexibleTokenController", tFlexibleTokenController__require_inactive) := by rw [find, mro_Converter]; krefl
@[py] theorem find_Converter__require_max_total_weight_only : find "Converter" "_require_max_total_weight_only" = some ("Converter", tConverter__require_max_total_weight_only) := by rw [find, mro_Converter]; krefl
@[py] theorem find_Converter__require_valid_connector : find "Converter" "_require_valid_connector" = some ("Converter", tConverter__require_valid_connector) := by rw [find, mro_Converter]; krefl
@[py] theorem find_Converter__require_valid_connector_weight : find "Converter" "_require_valid_connector_weight" = some ("Converter", tConverter__require_valid_connector_weight) := by rw [find, mro_Converter]; krefl
@[py] theorem find_Converter__require_valid_conversion_fee : find "Converter" "_require_valid_conversion_fee" = some ("Converter", tConverter__require_valid_conversion_fee) := by rw [find, mro_Converter]; krefl
@[py] theorem find_Converter__require_valid_max_conversion_fee : find "Converter" "_require_valid_max_conversion_fee" = some ("Converter", tConverter__require_valid_max_conversion_fee) := by rw [find, mro_Converter]; krefl
@[py] theorem find_Converter__require_valid_token : find "Converter" "_require_valid_token" = some ("Converter", tConverter__require_valid_token) := by rw [find, mro_Converter]; krefl
@[py] theorem find_Converter__sell : find "Converter" "_sell" = some ("Converter", tConverter__sell) := by rw [find, mro_Converter]; krefl
@[py] theorem find_Converter_acceptManagement : find "Converter" "acceptManagement" = some ("Managed", tManaged_acceptManagement) := by rw [find, mro_Converter]; krefl
@[py] theorem find_Converter_acceptOwnerShip : find "Converter" "acceptOwnerShip" = some ("Owned", tOwned_acceptOwnerShip) := by rw [find, mro_Converter]; krefl
@[py] theorem find_Converter_acceptTokenOwnership : find "Converter" "acceptTokenOwnership" = some ("FlexibleTokenController", tFlexibleTokenController_acceptTokenOwnership) := by rw [find, mro_Converter]; krefl
@[py] theorem find_Converter_addConnector : find "Converter" "addConnector" = some ("Converter", tConverter_addConnector) := by rw [find, mro_Converter]; krefl
@[py] theorem find_Converter_disableConnectorPurchases : find "Converter" "disableConnectorPurchases" = some ("Converter", tConverter_disableConnectorPurchases) := by rw [find, mro_Converter]; krefl
@[py] theorem find_Converter_disableConversions : find "Converter" "disableConversions" = some ("Converter", tConverter_disableConversions) := by rw [find, mro_Converter]; krefl
@[py] theorem find_Converter_disableRegistryUpdate : find "Converter" "disableRegistryUpdate" = some ("Converter", tConverter_disableRegistryUpdate) := by rw [find, mro_Converter]; krefl
@[py] theorem find_Converter_disableTokenTransfers : find "Converter" "disableTokenTransfers" = some ("FlexibleTokenController", tFlexibleTokenController_disableTokenTransfers) := by rw [find, mro_Converter]; krefl
@[py] theorem find_Converter_getConnector : find "Converter" "getConnector" = some ("Converter", tConverter_getConnector) := by rw [find, mro_Converter]; krefl
@[py] theorem find_Converter_getConnectorAt : find "Converter" "getConnectorAt" = some ("Converter", tConverter_getConnectorAt) := by rw [find, mro_Converter]; krefl
@[py] theorem find_Converter_getConnectorBalance : find "Converter" "getConnectorBalance" = some ("Converter", tConverter_getConnectorBalance) := by rw [find, mro_Converter]; krefl
@[py] theorem find_Converter_getConnectorTokenCount : find "Converter" "getConnectorTokenCount" = some ("Converter", tConverter_getConnectorTokenCount) := by rw [find, mro_Converter]; krefl
@[py] theorem find_Converter_getConversionFee : find "Converter" "getConversionFee" = some ("Converter", tConverter_getConversionFee) := by rw [find, mro_Converter]; krefl
@[py] theorem find_Converter_getFinalAmount : find "Converter" "getFinalAmount" = some ("Converter", tConverter_getFinalAmount) := by rw [find, mro_Converter]; krefl
@[py] theorem find_Converter_getManager : find "Converter" "getManager" = some ("Managed", tManaged_getManager) := by rw [find, mro_Converter]; krefl
@[py] theorem find_Converter_getMaxConversionFee : find "Converter" "getMaxConversionFee" = some ("Converter", tConverter_getMaxConversionFee) := by rw [find, mro_Converter]; krefl
@[py] theorem find_Converter_getNewManager : find "Converter" "getNewManager" = some ("Managed", tManaged_getNewManager) := by rw [find, mro_Converter]; krefl
@[py] theorem find_Converter_getNewOwner : find "Converter" "getNewOwner" = some ("Owned", tOwned_getNewOwner) := by rw [find, mro_Converter]; krefl
@[py] theorem find_Converter_getOwner : find "Converter" "getOwner" = some ("Owned", tOwned_getOwner) := by rw [find, mro_Converter]; krefl
@[py] theorem find_Converter_getPreviousRegistry : find "Converter" "getPreviousRegistry" = some ("Converter", tConverter_getPreviousRegistry) := by rw [find, mro_Converter]; krefl
@[py] theorem find_Converter_getRegistry : find "Converter" "getRegistry" = some ("Converter", tConverter_getRegistry) := by rw [find, mro_Converter]; krefl
@[py] theorem find_Converter_getReturn : find "Converter" "getReturn" = some ("Converter", tConverter_getReturn) := by rw [find, mro_Converter]; krefl
@[py] theorem find_Converter_getToken : find "Converter" "getToken" = some ("FlexibleTokenController", tFlexibleTokenController_getToken) := by rw [find, mro_Converter]; krefl
@[py] theorem find_Converter_get_cross_connector_return : find "Converter" "get_cross_connector_return" = some ("Converter", tConverter_get_cross_connector_return) := by rw [find, mro_Converter]; krefl
@[py] theorem find_Converter_get_purchase_return : find "Converter" "get_purchase_return" = some ("Converter", tConverter_get_purchase_return) := by rw [find, mro_Converter]; krefl
@[py] theorem find_Converter_get_sale_return : find "Converter" "get_sale_return" = some ("Converter", tConverter_get_sale_return) := by rw [find, mro_Converter]; krefl
@[py] theorem find_Converter_isActive : find "Converter" "isActive" = some ("Converter", tConverter_isActive) := by rw [find, mro_Converter]; krefl
@[py] theorem find_Converter_isAllowRegistryUpdate : find "Converter" "isAllowRegistryUpdate" = some ("Converter", tConverter_isAllowRegistryUpdate) := by rw [find, mro_Converter]; krefl
@[py] theorem find_Converter_isConversionsEnabled : find "Converter" "isConversionsEnabled" = some ("Converter", tConverter_isConversionsEnabled) := by rw [find, mro_Converter]; krefl
@[py] theorem find_Converter_on_install : find "Converter" "on_install" = some ("Converter", tConverter_on_install) := by rw [find, mro_Converter]; krefl
@[py] theorem find_Converter_on_update : find "Converter" "on_update" = some ("Converter", tConverter_on_update) := by rw [find, mro_Converter]; krefl
@[py] theorem find_Converter_require_manager_only : find "Converter" "require_manager_only" = some ("Managed", tManaged_require_manager_only) := by rw [find, mro_Converter]; krefl
@[py] theorem find_Converter_require_owner_only : find "Converter" "require_owner_only" = some ("Owned", tOwned_require_owner_only) := by rw [find, mro_Converter]; krefl
@[py] theorem find_Converter_require_owner_or_manager_only : find "Converter" "require_owner_or_manager_only" = some ("Managed", tManaged_require_owner_or_manager_only) := by rw [find, mro_Converter]; krefl
@[py] theorem find_Converter_restoreRegistry : find "Converter" "restoreRegistry" = some ("Converter", tConverter_restoreRegistry) := by rw [find, mro_Converter]; krefl
@[py] theorem find_Converter_setConversionFee : find "Converter" "setConversionFee" = some ("Converter", tConverter_setConversionFee) := by rw [find, mro_Converter]; krefl
@[py] theorem find_Converter_tokenFallback : find "Converter" "tokenFallback" = some ("Converter", tConverter_tokenFallback) := by rw [find, mro_Converter]; krefl
@[py] theorem find_Converter_transferManagement : find "Converter" "transferManagement" = some ("Managed", tManaged_transferManagement) := by rw [find, mro_Converter]; krefl
@[py] theorem find_Converter_transferOwnerShip : find "Converter" "transferOwnerShip" = some ("Owned", tOwned_transferOwnerShip) := by rw [find, mro_Converter]; krefl
@[py] theorem find_Converter_transferTokenOwnership : find "Converter" "transferTokenOwnership" = some ("FlexibleTokenController", tFlexibleTokenController_transferTokenOwnership) := by rw [find, mro_Converter]; krefl
@[py] theorem find_Converter_updateConnector : find "Converter" "updateConnector" = some ("Converter", tConverter_updateConnector) := by rw [find, mro_Converter]; krefl
@[py] theorem find_Converter_updateRegistry : find "Converter" "updateRegistry" = some ("Converter", tConverter_updateRegistry) := by rw [find, mro_Converter]; krefl
@[py] theorem find_Converter_withdrawFromToken : find "Converter" "withdrawFromToken" = some ("FlexibleTokenController", tFlexibleTokenController_withdrawFromToken) := by rw [find, mro_Converter]; krefl
@[py] theorem find_Converter_withdrawTokens : find "Converter" "withdrawTokens" = some ("Converter", tConverter_withdrawTokens) := by rw [find, mro_Converter]; krefl
@[py] theorem find_FlexibleToken_Destruction : find "FlexibleToken" "Destruction" = some ("FlexibleToken", tFlexibleToken_Destruction) := by rw [find, mro_FlexibleToken]; krefl
@[py] theorem find_FlexibleToken_Issuance : find "FlexibleToken" "Issuance" = some ("FlexibleToken", tFlexibleToken_Issuance) := by rw [find, mro_FlexibleToken]; krefl
@[py] theorem find_FlexibleToken_NewFlexibleToken : find "FlexibleToken" "NewFlexibleToken" = some ("FlexibleToken", tFlexibleToken_NewFlexibleToken) := by rw [find, mro_FlexibleToken]; krefl
@[py] theorem find_FlexibleToken_OwnerUpdate : find "FlexibleToken" "OwnerUpdate" = some ("Owned", tOwned_OwnerUpdate) := by rw [find, mro_FlexibleToken]; krefl
@[py] theorem find_FlexibleToken_Transfer : find "FlexibleToken" "Transfer" = some ("IRCToken", tIRCToken_Transfer) := by rw [find, mro_FlexibleToken]; krefl
@[py] theorem find_FlexibleToken__transfer : find "FlexibleToken" "_transfer" = some ("IRCToken", tIRCToken__transfer) := by rw [find, mro_FlexibleToken]; krefl
@[py] theorem find_FlexibleToken_acceptOwnerShip : find "FlexibleToken" "acceptOwnerShip" = some ("Owned", tOwned_acceptOwnerShip) := by rw [find, mro_FlexibleToken]; krefl
@[py] theorem find_FlexibleToken_balanceOf : find "FlexibleToken" "balanceOf" = some ("IRCToken", tIRCToken_balanceOf) := by rw [find, mro_FlexibleToken]; krefl
@[py] theorem find_FlexibleToken_decimals : find "FlexibleToken" "decimals" = some ("IRCToken", tIRCToken_decimals) := by rw [find, mro_FlexibleToken]; krefl
@[py] theorem find_FlexibleToken_destroy : find "FlexibleToken" "destroy" = some ("FlexibleToken", tFlexibleToken_destroy) := by rw [find, mro_FlexibleToken]; krefl
@[py] theorem find_FlexibleToken_disableTransfer : find "FlexibleToken" "disableTransfer" = some ("FlexibleToken", tFlexibleToken_disableTransfer) := by rw [find, mro_FlexibleToken]; krefl
@[py] theorem find_FlexibleToken_getFlexibleTokenVersion : find "FlexibleToken" "getFlexibleTokenVersion" = some ("FlexibleToken", tFlexibleToken_getFlexibleTokenVersion) := by rw [find, mro_FlexibleToken]; krefl
@[py] theorem find_FlexibleToken_getNewOwner : find "FlexibleToken" "getNewOwner" = some ("Owned", tOwned_getNewOwner) := by rw [find, mro_FlexibleToken]; krefl
@[py] theorem find_FlexibleToken_getOwner : find "FlexibleToken" "getOwner" = some ("Owned", tOwned_getOwner) := by rw [find, mro_FlexibleToken]; krefl
@[py] theorem find_FlexibleToken_getTransferPossibility : find "FlexibleToken" "getTransferPossibility" = some ("FlexibleToken", tFlexibleToken_getTransferPossibility) := by rw [find, mro_FlexibleToken]; krefl
@[py] theorem find_FlexibleToken_issue : find "FlexibleToken" "issue" = some ("FlexibleToken", tFlexibleToken_issue) := by rw [find, mro_FlexibleToken]; krefl
@[py] theorem find_FlexibleToken_name : find "FlexibleToken" "name" = some ("IRCToken", tIRCToken_name) := by rw [find, mro_FlexibleToken]; krefl
@[py] theorem find_FlexibleToken_on_install : find "FlexibleToken" "on_install" = some ("FlexibleToken", tFlexibleToken_on_install) := by rw [find, mro_FlexibleToken]; krefl
@[py] theorem find_FlexibleToken_on_update : find "FlexibleToken" "on_update" = some ("FlexibleToken", tFlexibleToken_on_update) := by rw [find, mro_FlexibleToken]; krefl
@[py] theorem find_FlexibleToken_require_owner_only : find "FlexibleToken" "require_owner_only" = some ("Owned", tOwned_require_owner_only) := by rw [find, mro_FlexibleToken]; krefl
@[py] theorem find_FlexibleToken_require_transfer_allowed : find "FlexibleToken" "require_transfer_allowed" = some ("FlexibleToken", tFlexibleToken_require_transfer_allowed) := by rw [find, mro_FlexibleToken]; krefl
@[py] theorem find_FlexibleToken_symbol : find "FlexibleToken" "symbol" = some ("IRCToken", tIRCToken_symbol) := by rw [find, mro_FlexibleToken]; krefl
@[py] theorem find_FlexibleToken_totalSupply : find "FlexibleToken" "totalSupply" = some ("IRCToken", tIRCToken_totalSupply) := by rw [find, mro_FlexibleToken]; krefl
@[py] theorem find_FlexibleToken_transfer : find "FlexibleToken" "transfer" = some ("FlexibleToken", tFlexibleToken_transfer) := by rw [find, mro_FlexibleToken]; krefl
@[py] theorem find_FlexibleToken_transferOwnerShip : find "FlexibleToken" "transferOwnerShip" = some ("Owned", tOwned_transferOwnerShip) := by rw [find, mro_FlexibleToken]; krefl
@[py] theorem find_FlexibleToken_withdrawTokens : find "FlexibleToken" "withdrawTokens" = some ("TokenHolder", tTokenHolder_withdrawTokens) := by rw [find, mro_FlexibleToken]; krefl
@[py] theorem find_IcxToken_Destruction : find "IcxToken" "Destruction" = some ("IcxToken", tIcxToken_Destruction) := by rw [find, mro_IcxToken]; krefl
@[py] theorem find_IcxToken_Issuance : find "IcxToken" "Issuance" = some ("IcxToken", tIcxToken_Issuance) := by rw [find, mro_IcxToken]; krefl
@[py] theorem find_IcxToken_OwnerUpdate : find "IcxToken" "OwnerUpdate" = some ("Owned", tOwned_OwnerUpdate) := by rw [find, mro_IcxToken]; krefl
@[py] theorem find_IcxToken_Transfer : find "IcxToken" "Transfer" = some ("IRCToken", tIRCToken_Transfer) := by rw [find, mro_IcxToken]; krefl
@[py] theorem find_IcxToken__transfer : find "IcxToken" "_transfer" = some ("IRCToken", tIRCToken__transfer) := by rw [find, mro_IcxToken]; krefl
@[py] theorem find_IcxToken_acceptOwnerShip : find "IcxToken" "acceptOwnerShip" = some ("Owned", tOwned_acceptOwnerShip) := by rw [find, mro_IcxToken]; krefl
@[py] theorem find_IcxToken_balanceOf : find "IcxToken" "balanceOf" = some ("IRCToken", tIRCToken_balanceOf) := by rw [find, mro_IcxToken]; krefl
@[py] theorem find_IcxToken_decimals : find "IcxToken" "decimals" = some ("IRCToken", tIRCToken_decimals) := by rw [find, mro_IcxToken]; krefl
@[py] theorem find_IcxToken_deposit : find "IcxToken" "deposit" = some ("IcxToken", tIcxToken_deposit) := by rw [find, mro_IcxToken]; krefl
@[py] theorem find_IcxToken_fallback : find "IcxToken" "fallback" = some ("IcxToken", tIcxToken_fallback) := by rw [find, mro_IcxToken]; krefl
@[py] theorem find_IcxToken_getNewOwner : find "IcxToken" "getNewOwner" = some ("Owned", tOwned_getNewOwner) := by rw [find, mro_IcxToken]; krefl
@[py] theorem find_IcxToken_getOwner : find "IcxToken" "getOwner" = some ("Owned", tOwned_getOwner) := by rw [find, mro_IcxToken]; krefl
@[py] theorem find_IcxToken_name : find "IcxToken" "name" = some ("IRCToken", tIRCToken_name) := by rw [find, mro_IcxToken]; krefl
@[py] theorem find_IcxToken_on_install : find "IcxToken" "on_install" = some ("IcxToken", tIcxToken_on_install) := by rw [find, mro_IcxToken]; krefl
@[py] theorem find_IcxToken_on_update : find "IcxToken" "on_update" = some ("IcxToken", tIcxToken_on_update) := by rw [find, mro_IcxToken]; krefl
@[py] theorem find_IcxToken_require_owner_only : find "IcxToken" "require_owner_only" = some ("Owned", tOwned_require_owner_only) := by rw [find, mro_IcxToken]; krefl
@[py] theorem find_IcxToken_symbol : find "IcxToken" "symbol" = some ("IRCToken", tIRCToken_symbol) := by rw [find, mro_IcxToken]; krefl
@[py] theorem find_IcxToken_totalSupply : find "IcxToken" "totalSupply" = some ("IRCToken", tIRCToken_totalSupply) := by rw [find, mro_IcxToken]; krefl
@[py] theorem find_IcxToken_transfer : find "IcxToken" "transfer" = some ("IcxToken", tIcxToken_transfer) := by rw [find, mro_IcxToken]; krefl
@[py] theorem find_IcxToken_transferOwnerShip : find "IcxToken" "transferOwnerShip" = some ("Owned", tOwned_transferOwnerShip) := by rw [find, mro_IcxToken]; krefl
@[py] theorem find_IcxToken_withdraw : find "IcxToken" "withdraw" = some ("IcxToken", tIcxToken_withdraw) := by rw [find, mro_IcxToken]; krefl
@[py] theorem find_IcxToken_withdrawTo : find "IcxToken" "withdrawTo" = some ("IcxToken", tIcxToken_withdrawTo) := by rw [find, mro_IcxToken]; krefl
@[py] theorem find_IcxToken_withdrawTokens : find "IcxToken" "withdrawTokens" = some ("TokenHolder", tTokenHolder_withdrawTokens) := by rw [find, mro_IcxToken]; krefl
@[py] theorem find_Network_OwnerUpdate : find "Network" "OwnerUpdate" = some ("Owned", tOwned_OwnerUpdate) := by rw [find, mro_Network]; krefl
@[py] theorem find_Network__convert_by_path : find "Network" "_convert_by_path" = some ("Network", tNetwork__convert_by_path) := by rw [find, mro_Network]; krefl
@[py] theorem find_Network__convert_bytes_data : find "Network" "_convert_bytes_data" = some ("Network", tNetwork__convert_bytes_data) := by rw [find, mro_Network]; krefl
@[py] theorem find_Network__convert_for_internal : find "Network" "_convert_for_internal" = some ("Network", tNetwork__convert_for_internal) := by rw [find, mro_Network]; krefl
@[py] theorem find_Network__convert_path : find "Network" "_convert_path" = some ("Network", tNetwork__convert_path) := by rw [find, mro_Network]; krefl
@[py] theorem find_Network__require_valid_path : find "Network" "_require_valid_path" = some ("Network", tNetwork__require_valid_path) := by rw [find, mro_Network]; krefl
@[py] theorem find_Network_acceptOwnerShip : find "Network" "acceptOwnerShip" = some ("Owned", tOwned_acceptOwnerShip) := by rw [find, mro_Network]; krefl
@[py] theorem find_Network_convert : find "Network" "convert" = some ("Network", tNetwork_convert) := by rw [find, mro_Network]; krefl
@[py] theorem find_Network_convertFor : find "Network" "convertFor" = some ("Network", tNetwork_convertFor) := by rw [find, mro_Network]; krefl
@[py] theorem find_Network_getExpectedReturnByPath : find "Network" "getExpectedReturnByPath" = some ("Network", tNetwork_getExpectedReturnByPath) := by rw [find, mro_Network]; krefl
@[py] theorem find_Network_getIcxTokenRegistered : find "Network" "getIcxTokenRegistered" = some ("Network", tNetwork_getIcxTokenRegistered) := by rw [find, mro_Network]; krefl
@[py] theorem find_Network_getNewOwner : find "Network" "getNewOwner" = some ("Owned", tOwned_getNewOwner) := by rw [find, mro_Network]; krefl
@[py] theorem find_Network_getOwner : find "Network" "getOwner" = some ("Owned", tOwned_getOwner) := by rw [find, mro_Network]; krefl
@[py] theorem find_Network_on_install : find "Network" "on_install" = some ("Network", tNetwork_on_install) := by rw [find, mro_Network]; krefl
@[py] theorem find_Network_on_update : find "Network" "on_update" = some ("Network", tNetwork_on_update) := by rw [find, mro_Network]; krefl
@[py] theorem find_Network_registerIcxToken : find "Network" "registerIcxToken" = some ("Network", tNetwork_registerIcxToken) := by rw [find, mro_Network]; krefl
@[py] theorem find_Network_require_owner_only : find "Network" "require_owner_only" = some ("Owned", tOwned_require_owner_only) := by rw [find, mro_Network]; krefl
@[py] theorem find_Network_tokenFallback : find "Network" "tokenFallback" = some ("Network", tNetwork_tokenFallback) := by rw [find, mro_Network]; krefl
@[py] theorem find_Network_transferOwnerShip : find "Network" "transferOwnerShip" = some ("Owned", tOwned_transferOwnerShip) := by rw [find, mro_Network]; krefl
@[py] theorem find_Network_withdrawTokens : find "Network" "withdrawTokens" = some ("TokenHolder", tTokenHolder_withdrawTokens) := by rw [find, mro_Network]; krefl
@[py] theorem find_ScoreRegistry_AddressUpdate : find "ScoreRegistry" "AddressUpdate" = some ("ScoreRegistry", tScoreRegistry_AddressUpdate) := by rw [find, mro_ScoreRegistry]; krefl
@[py] theorem find_ScoreRegistry_OwnerUpdate : find "ScoreRegistry" "OwnerUpdate" = some ("Owned", tOwned_OwnerUpdate) := by rw [find, mro_ScoreRegistry]; krefl
@[py] theorem find_ScoreRegistry_acceptOwnerShip : find "ScoreRegistry" "acceptOwnerShip" = some ("Owned", tOwned_acceptOwnerShip) := by rw [find, mro_ScoreRegistry]; krefl
@[py] theorem find_ScoreRegistry_getAddress : find "ScoreRegistry" "getAddress" = some ("ScoreRegistry", tScoreRegistry_getAddress) := by rw [find, mro_ScoreRegistry]; krefl
@[py] theorem find_ScoreRegistry_getNewOwner : find "ScoreRegistry" "getNewOwner" = some ("Owned", tOwned_getNewOwner) := by rw [find, mro_ScoreRegistry]; krefl
@[py] theorem find_ScoreRegistry_getOwner : find "ScoreRegistry" "getOwner" = some ("Owned", tOwned_getOwner) := by rw [find, mro_ScoreRegistry]; krefl
@[py] theorem find_ScoreRegistry_getScoreIds : find "ScoreRegistry" "getScoreIds" = some ("ScoreRegistry", tScoreRegistry_getScoreIds) := by rw [find, mro_ScoreRegistry]; krefl
@[py] theorem find_ScoreRegistry_on_install : find "ScoreRegistry" "on_install" = some ("ScoreRegistry", tScoreRegistry_on_install) := by rw [find, mro_ScoreRegistry]; krefl
@[py] theorem find_ScoreRegistry_on_update : find "ScoreRegistry" "on_update" = some ("ScoreRegistry", tScoreRegistry_on_update) := by rw [find, mro_ScoreRegistry]; krefl
@[py] theorem find_ScoreRegistry_registerAddress : find "ScoreRegistry" "registerAddress" = some ("ScoreRegistry", tScoreRegistry_registerAddress) := by rw [find, mro_ScoreRegistry]; krefl
@[py] theorem find_ScoreRegistry_require_owner_only : find "ScoreRegistry" "require_owner_only" = some ("Owned", tOwned_require_owner_only) := by rw [find, mro_ScoreRegistry]; krefl
@[py] theorem find_ScoreRegistry_transferOwnerShip : find "ScoreRegistry" "transferOwnerShip" = some ("Owned", tOwned_transferOwnerShip) := by rw [find, mro_ScoreRegistry]; krefl
@[py] theorem find_ScoreRegistry_unregisterAddress : find "ScoreRegistry" "unregisterAddress" = some ("ScoreRegistry", tScoreRegistry_unregisterAddress) := by rw [find, mro_ScoreRegistry]; krefl
@[py] theorem find_IRCToken_Transfer : find "IRCToken" "Transfer" = some ("IRCToken", tIRCToken_Transfer) := by rw [find, mro_IRCToken]; krefl
@[py] theorem find_IRCToken__transfer : find "IRCToken" "_transfer" = some ("IRCToken", tIRCToken__transfer) := by rw [find, mro_IRCToken]; krefl
@[py] theorem find_IRCToken_balanceOf : find "IRCToken" "balanceOf" = some ("IRCToken", tIRCToken_balanceOf) := by rw [find, mro_IRCToken]; krefl
@[py] theorem find_IRCToken_decimals : find "IRCToken" "decimals" = some ("IRCToken", tIRCToken_decimals) := by rw [find, mro_IRCToken]; krefl
@[py] theorem find_IRCToken_name : find "IRCToken" "name" = some ("IRCToken", tIRCToken_name) := by rw [find, mro_IRCToken]; krefl
@[py] theorem find_IRCToken_on_install : find "IRCToken" "on_install" = some ("IRCToken", tIRCToken_on_install) := by rw [find, mro_IRCToken]; krefl
@[py] theorem find_IRCToken_on_update : find "IRCToken" "on_update" = some ("IRCToken", tIRCToken_on_update) := by rw [find, mro_IRCToken]; krefl
@[py] theorem find_IRCToken_symbol : find "IRCToken" "symbol" = some ("IRCToken", tIRCToken_symbol) := by rw [find, mro_IRCToken]; krefl
@[py] theorem find_IRCToken_totalSupply : find "IRCToken" "totalSupply" = some ("IRCToken", tIRCToken_totalSupply) := by rw [find, mro_IRCToken]; krefl
@[py] theorem find_IRCToken_transfer : find "IRCToken" "transfer" = some ("IRCToken", tIRCToken_transfer) := by rw [find, mro_IRCToken]; krefl
@[py] theorem find_FixedMapFormula__find_position_in_max_exp_array : find "FixedMapFormula" "_find_position_in_max_exp_array" = some ("FixedMapFormula", tFixedMapFormula__find_position_in_max_exp_array) := by rw [find, mro_FixedMapFormula]; krefl
@[py] theorem find_FixedMapFormula__floor_log2 : find "FixedMapFormula" "_floor_log2" = some ("FixedMapFormula", tFixedMapFormula__floor_log2) := by rw [find, mro_FixedMapFormula]; krefl
@[py] theorem find_FixedMapFormula__general_exp : find "FixedMapFormula" "_general_exp" = some ("FixedMapFormula", tFixedMapFormula__general_exp) := by rw [find, mro_FixedMapFormula]; krefl
@[py] theorem find_FixedMapFormula__general_log : find "FixedMapFormula" "_general_log" = some ("FixedMapFormula", tFixedMapFormula__general_log) := by rw [find, mro_FixedMapFormula]; krefl
@[py] theorem find_FixedMapFormula__optimal_exp : find "FixedMapFormula" "_optimal_exp" = some ("FixedMapFormula", tFixedMapFormula__optimal_exp) := by rw [find, mro_FixedMapFormula]; krefl
@[py] theorem find_FixedMapFormula__optimal_log : find "FixedMapFormula" "_optimal_log" = some ("FixedMapFormula", tFixedMapFormula__optimal_log) := by rw [find, mro_FixedMapFormula]; krefl
@[py] theorem find_FixedMapFormula__power : find "FixedMapFormula" "_power" = some ("FixedMapFormula", tFixedMapFormula__power) := by rw [find, mro_FixedMapFormula]; krefl
@[py] theorem find_FixedMapFormula_calculate_cross_connector_return : find "FixedMapFormula" "calculate_cross_connector_return" = some ("FixedMapFormula", tFixedMapFormula_calculate_cross_connector_return) := by rw [find, mro_FixedMapFormula]; krefl
@[py] theorem find_FixedMapFormula_calculate_purchase_return : find "FixedMapFormula" "calculate_purchase_return" = some ("FixedMapFormula", tFixedMapFormula_calculate_purchase_return) := by rw [find, mro_FixedMapFormula]; krefl
@[py] theorem find_FixedMapFormula_calculate_sale_return : find "FixedMapFormula" "calculate_sale_return" = some ("FixedMapFormula", tFixedMapFormula_calculate_sale_return) := by rw [find, mro_FixedMapFormula]; krefl
@[py] theorem find_TokenHolder_on_install : find "TokenHolder" "on_install" = some ("TokenHolder", tTokenHolder_on_install) := by rw [find, mro_TokenHolder]; krefl
@[py] theorem find_TokenHolder_on_update : find "TokenHolder" "on_update" = some ("TokenHolder", tTokenHolder_on_update) := by rw [find, mro_TokenHolder]; krefl
@[py] theorem find_Owned_on_install : find "Owned" "on_install" = some ("Owned", tOwned_on_install) := by rw [find, mro_Owned]; krefl
@[py] theorem find_Owned_on_update : find "Owned" "on_update" = some ("Owned", tOwned_on_update) := by rw [find, mro_Owned]; krefl
@[py] theorem find_FlexibleTokenController_on_install : find "FlexibleTokenController" "on_install" = some ("FlexibleTokenController", tFlexibleTokenController_on_install) := by rw [find, mro_FlexibleTokenController]; krefl
@[py] theorem find_FlexibleTokenController_on_update : find "FlexibleTokenController" "on_update" = some ("FlexibleTokenController", tFlexibleTokenController_on_update) := by rw [find, mro_FlexibleTokenController]; krefl

@[py] theorem next_withdrawTokens : findNext "Converter" "Converter" "withdrawTokens" = some ("TokenHolder", tTokenHolder_withdrawTokens) := by
  rw [findNext, mro_Converter]; krefl

@[py] theorem fn_require_positive_value : function "require_positive_value" = some f_require_positive_value := by krefl
@[py] theorem fn_require_valid_address : function "require_valid_address" = some f_require_valid_address := by krefl
@[py] theorem fn_require_not_this : function "require_not_this" = some f_require_not_this := by krefl
@[py] theorem fn_require : function "require" = some f_require := by krefl
@[py] theorem fn_is_valid_address : function "is_valid_address" = some f_is_valid_address := by krefl
@[py] theorem fn_safe_sub : function "safe_sub" = some f_safe_sub := by krefl
@[py] theorem fn_len : function "len" = none := by krefl
@[py] theorem fn_range : function "range" = none := by krefl
@[py] theorem fn_enumerate : function "enumerate" = none := by krefl
@[py] theorem fn_dict : function "dict" = none := by krefl
@[py] theorem fn_json_loads : function "json_loads" = none := by krefl
@[py] theorem fn_json_dumps : function "json_dumps" = none := by krefl
@[py] theorem fn_str : function "str" = none := by krefl
@[py] theorem fn_isinstance : function "isinstance" = none := by krefl
@[py] theorem fn_ProxyScore : function "ProxyScore" = none := by krefl
@[py] theorem fn_revert : function "revert" = none := by krefl

@[py] theorem fields__owner : fields.lookup "_owner" = some .owner := by krefl
@[py] theorem fields__new_owner : fields.lookup "_new_owner" = some .newOwner := by krefl
@[py] theorem fields__manager : fields.lookup "_manager" = some .manager := by krefl
@[py] theorem fields__new_manager : fields.lookup "_new_manager" = some .newManager := by krefl
@[py] theorem fields__name : fields.lookup "_name" = some .name := by krefl
@[py] theorem fields__symbol : fields.lookup "_symbol" = some .symbol := by krefl
@[py] theorem fields__decimals : fields.lookup "_decimals" = some .decimals := by krefl
@[py] theorem fields__total_supply : fields.lookup "_total_supply" = some .totalSupply := by krefl
@[py] theorem fields__balances : fields.lookup "_balances" = some .balances := by krefl
@[py] theorem fields__version : fields.lookup "_version" = some .version := by krefl
@[py] theorem fields__transfer_possibility : fields.lookup "_transfer_possibility" = some .transferPossibility := by krefl
@[py] theorem fields__token : fields.lookup "_token" = some .token := by krefl
@[py] theorem fields__allow_registry_update : fields.lookup "_allow_registry_update" = some .allowRegistryUpdate := by krefl
@[py] theorem fields__prev_registry : fields.lookup "_prev_registry" = some .prevRegistry := by krefl
@[py] theorem fields__registry : fields.lookup "_registry" = some .registry := by krefl
@[py] theorem fields__connector_tokens : fields.lookup "_connector_tokens" = some .connectorTokens := by krefl
@[py] theorem fields__total_connector_weight : fields.lookup "_total_connector_weight" = some .totalConnectorWeight := by krefl
@[py] theorem fields__max_conversion_fee : fields.lookup "_max_conversion_fee" = some .maxConversionFee := by krefl
@[py] theorem fields__conversion_fee : fields.lookup "_conversion_fee" = some .conversionFee := by krefl
@[py] theorem fields__conversions_enabled : fields.lookup "_conversions_enabled" = some .conversionsEnabled := by krefl
@[py] theorem fields__connectors : fields.lookup "_connectors" = some .connectors := by krefl
@[py] theorem fields__score_address : fields.lookup "_score_address" = some .scoreAddress := by krefl
@[py] theorem fields__icx_tokens : fields.lookup "_icx_tokens" = some .icxTokens := by krefl
@[py] theorem cfields_virtual_balance : cfields.lookup "virtual_balance" = some .virtualBalance := by krefl
@[py] theorem cfields_weight : cfields.lookup "weight" = some .weight := by krefl
@[py] theorem cfields_is_virtual_balance_enabled : cfields.lookup "is_virtual_balance_enabled" = some .isVirtual := by krefl
@[py] theorem cfields_is_purchase_enabled : cfields.lookup "is_purchase_enabled" = some .isPurchaseEnabled := by krefl
@[py] theorem cfields_is_set : cfields.lookup "is_set" = some .isSet := by krefl

@[py] theorem const_reg1 : const "ABCScoreRegistry" "SCORE_REGISTRY" = some (.str "ScoreRegistry") := by krefl
@[py] theorem const_reg2 : const "ABCScoreRegistry" "NETWORK" = some (.str "Network") := by krefl
@[py] theorem const_ScoreRegistry_SCORE_REGISTRY : const "ScoreRegistry" "SCORE_REGISTRY" = some (.str "ScoreRegistry") := by rw [const, mro_ScoreRegistry]; krefl
@[py] theorem nofield_ScoreRegistry_SCORE_REGISTRY : fields.lookup "SCORE_REGISTRY" = none := by krefl
@[py] theorem const_ScoreRegistry_SCORE_KEYS : const "ScoreRegistry" "SCORE_KEYS" = some (.list [.str "ScoreRegistry", .str "Network"]) := by rw [const, mro_ScoreRegistry]; krefl
@[py] theorem nofield_ScoreRegistry_SCORE_KEYS : fields.lookup "SCORE_KEYS" = none := by krefl
@[py] theorem const_FlexibleToken__VERSION : const "FlexibleToken" "_VERSION" = some (.str "0.1") := by rw [const, mro_FlexibleToken]; krefl
@[py] theorem nofield_FlexibleToken__VERSION : fields.lookup "_VERSION" = none := by krefl
@[py] theorem const_Converter__REVISION : const "Converter" "_REVISION" = some (.int 0) := by rw [const, mro_Converter]; krefl
@[py] theorem nofield_Converter__REVISION : fields.lookup "_REVISION" = none := by krefl
@[py] theorem const_Converter__MAX_WEIGHT : const "Converter" "_MAX_WEIGHT" = some (.int 1000000) := by rw [const, mro_Converter]; krefl
@[py] theorem nofield_Converter__MAX_WEIGHT : fields.lookup "_MAX_WEIGHT" = none := by krefl
@[py] theorem const_Converter__MAX_CONVERSION_FEE : const "Converter" "_MAX_CONVERSION_FEE" = some (.int 1000000) := by rw [const, mro_Converter]; krefl
@[py] theorem nofield_Converter__MAX_CONVERSION_FEE : fields.lookup "_MAX_CONVERSION_FEE" = none := by krefl
@[py] theorem const_Network__MAX_CONVERSION_COUNT : const "Network" "_MAX_CONVERSION_COUNT" = some (.int 10) := by rw [const, mro_Network]; krefl
@[py] theorem nofield_Network__MAX_CONVERSION_COUNT : fields.lookup "_MAX_CONVERSION_COUNT" = none := by krefl
@[py] theorem const_FixedMapFormula__ONE : const "FixedMapFormula" "_ONE" = some (.int 1) := by rw [const, mro_FixedMapFormula]; krefl
@[py] theorem nofield_FixedMapFormula__ONE : fields.lookup "_ONE" = none := by krefl
@[py] theorem const_FixedMapFormula__MAX_WEIGHT : const "FixedMapFormula" "_MAX_WEIGHT" = some (.int 1000000) := by rw [const, mro_FixedMapFormula]; krefl
@[py] theorem nofield_FixedMapFormula__MAX_WEIGHT : fields.lookup "_MAX_WEIGHT" = none := by krefl
@[py] theorem const_FixedMapFormula__MIN_PRECISION : const "FixedMapFormula" "_MIN_PRECISION" = some (.int 32) := by rw [const, mro_FixedMapFormula]; krefl
@[py] theorem nofield_FixedMapFormula__MIN_PRECISION : fields.lookup "_MIN_PRECISION" = none := by krefl
@[py] theorem const_FixedMapFormula__MAX_PRECISION : const "FixedMapFormula" "_MAX_PRECISION" = some (.int 127) := by rw [const, mro_FixedMapFormula]; krefl
@[py] theorem nofield_FixedMapFormula__MAX_PRECISION : fields.lookup "_MAX_PRECISION" = none := by krefl
@[py] theorem const_FixedMapFormula__FIXED_1 : const "FixedMapFormula" "_FIXED_1" = some (.int 0x80000000000000000000000000000000) := by rw [const, mro_FixedMapFormula]; krefl
@[py] theorem nofield_FixedMapFormula__FIXED_1 : fields.lookup "_FIXED_1" = none := by krefl
@[py] theorem const_FixedMapFormula__FIXED_2 : const "FixedMapFormula" "_FIXED_2" = some (.int 0x100000000000000000000000000000000) := by rw [const, mro_FixedMapFormula]; krefl
@[py] theorem nofield_FixedMapFormula__FIXED_2 : fields.lookup "_FIXED_2" = none := by krefl
@[py] theorem const_FixedMapFormula__MAX_NUM : const "FixedMapFormula" "_MAX_NUM" = some (.int 0x200000000000000000000000000000000) := by rw [const, mro_FixedMapFormula]; krefl
@[py] theorem nofield_FixedMapFormula__MAX_NUM : fields.lookup "_MAX_NUM" = none := by krefl
@[py] theorem const_FixedMapFormula__LN2_NUMERATOR : const "FixedMapFormula" "_LN2_NUMERATOR" = some (.int 0x3f80fe03f80fe03f80fe03f80fe03f8) := by rw [const, mro_FixedMapFormula]; krefl
@[py] theorem nofield_FixedMapFormula__LN2_NUMERATOR : fields.lookup "_LN2_NUMERATOR" = none := by krefl
@[py] theorem const_FixedMapFormula__LN2_DENOMINATOR : const "FixedMapFormula" "_LN2_DENOMINATOR" = some (.int 0x5b9de1d10bf4103d647b0955897ba80) := by rw [const, mro_FixedMapFormula]; krefl
@[py] theorem nofield_FixedMapFormula__LN2_DENOMINATOR : fields.lookup "_LN2_DENOMINATOR" = none := by krefl
@[py] theorem const_FixedMapFormula__OPT_LOG_MAX_VAL : const "FixedMapFormula" "_OPT_LOG_MAX_VAL" = some (.int 0x15bf0a8b1457695355fb8ac404e7a79e3) := by rw [const, mro_FixedMapFormula]; krefl
@[py] theorem nofield_FixedMapFormula__OPT_LOG_MAX_VAL : fields.lookup "_OPT_LOG_MAX_VAL" = none := by krefl
@[py] theorem const_FixedMapFormula__OPT_EXP_MAX_VAL : const "FixedMapFormula" "_OPT_EXP_MAX_VAL" = some (.int 0x800000000000000000000000000000000) := by rw [const, mro_FixedMapFormula]; krefl
@[py] theorem nofield_FixedMapFormula__OPT_EXP_MAX_VAL : fields.lookup "_OPT_EXP_MAX_VAL" = none := by krefl
@[py] theorem nofield_getManager : fields.lookup "getManager" = none := by krefl
@[py] theorem const_getManager : const "Converter" "getManager" = none := by rw [const, mro_Converter]; krefl

@[py] theorem glob_Converter_FlexibleToken : glob "Converter" "FlexibleToken" = some (.iclass "ABCFlexibleToken") := by krefl
@[py] theorem glob_Converter_ScoreRegistry : glob "Converter" "ScoreRegistry" = some (.iclass "ABCScoreRegistry") := by krefl
@[py] theorem glob_Converter_IRCToken : glob "Converter" "IRCToken" = some (.iclass "ABCIRCToken") := by krefl
@[py] theorem glob_Converter_TRANSFER_DATA : glob "Converter" "TRANSFER_DATA" = some (.bytes .conversionResult) := by krefl
@[py] theorem glob_Converter_TAG : glob "Converter" "TAG" = some (.str "Converter") := by krefl
@[py] theorem glob_FlexibleTokenController_FlexibleToken : glob "FlexibleTokenController" "FlexibleToken" = some (.iclass "ABCFlexibleToken") := by krefl
@[py] theorem glob_IRCToken_TAG : glob "IRCToken" "TAG" = some (.str "IRCToken") := by krefl
@[py] theorem glob_Network_IRCToken : glob "Network" "IRCToken" = some (.iclass "ABCIRCToken") := by krefl
@[py] theorem glob_Network_IcxToken : glob "Network" "IcxToken" = some (.iclass "ABCIcxToken") := by krefl
@[py] theorem glob_Network_FlexibleToken : glob "Network" "FlexibleToken" = some (.iclass "ABCFlexibleToken") := by krefl
@[py] theorem glob_Network_Converter : glob "Network" "Converter" = some (.iclass "ABCConverter") := by krefl
@[py] theorem glob_IRCToken_TokenFallbackInterface : glob "IRCToken" "TokenFallbackInterface" = some (.cls "TokenFallbackInterface") := by krefl
@[py] theorem glob_IRCToken_Logger : glob "IRCToken" "Logger" = some (.cls "Logger") := by krefl
@[py] theorem glob_IRCToken_IconScoreBase : glob "IRCToken" "IconScoreBase" = some (.cls "IconScoreBase") := by krefl
@[py] theorem glob_TokenHolder_Owned : glob "TokenHolder" "Owned" = some (.cls "Owned") := by krefl
@[py] theorem glob_TokenHolder_ABCIRCToken : glob "TokenHolder" "ABCIRCToken" = some (.cls "ABCIRCToken") := by krefl
@[py] theorem glob_FlexibleTokenController_TokenHolder : glob "FlexibleTokenController" "TokenHolder" = some (.cls "TokenHolder") := by krefl
@[py] theorem glob_FlexibleToken_IRCToken : glob "FlexibleToken" "IRCToken" = some (.cls "IRCToken") := by krefl
@[py] theorem glob_FlexibleToken_TokenHolder : glob "FlexibleToken" "TokenHolder" = some (.cls "TokenHolder") := by krefl
@[py] theorem glob_IcxToken_IRCToken : glob "IcxToken" "IRCToken" = some (.cls "IRCToken") := by krefl
@[py] theorem glob_IcxToken_TokenHolder : glob "IcxToken" "TokenHolder" = some (.cls "TokenHolder") := by krefl
@[py] theorem glob_ScoreRegistry_Owned : glob "ScoreRegistry" "Owned" = some (.cls "Owned") := by krefl
@[py] theorem glob_Converter_FlexibleTokenController : glob "Converter" "FlexibleTokenController" = some (.cls "FlexibleTokenController") := by krefl
@[py] theorem glob_Converter_formula : glob "Converter" "formula" = some (.obj "FixedMapFormula") := by krefl
@[py] theorem glob_Converter_Address : glob "Converter" "Address" = some (.cls "Address") := by krefl
@[py] theorem glob_Network_Address : glob "Network" "Address" = some (.cls "Address") := by krefl
@[py] theorem glob_Network_int : glob "Network" "int" = some (.cls "int") := by krefl
@[py] theorem glob_Network_TokenHolder : glob "Network" "TokenHolder" = some (.cls "TokenHolder") := by krefl
@[py] theorem glob_Owned_IconScoreBase : glob "Owned" "IconScoreBase" = some (.cls "IconScoreBase") := by krefl
@[py] theorem glob__ZERO_SCORE_ADDRESS : glob "" "ZERO_SCORE_ADDRESS" = some (.addr ZERO) := by krefl
@[py] theorem glob_Owned_ZERO_SCORE_ADDRESS : glob "Owned" "ZERO_SCORE_ADDRESS" = some (.addr ZERO) := by krefl
@[py] theorem glob_Managed_ZERO_SCORE_ADDRESS : glob "Managed" "ZERO_SCORE_ADDRESS" = some (.addr ZERO) := by krefl
@[py] theorem glob_ScoreRegistry_ZERO_SCORE_ADDRESS : glob "ScoreRegistry" "ZERO_SCORE_ADDRESS" = some (.addr ZERO) := by krefl
@[py] theorem glob_Network_ZERO_SCORE_ADDRESS : glob "Network" "ZERO_SCORE_ADDRESS" = some (.addr ZERO) := by krefl

@[py] theorem iface_ABCIRCToken_transfer : ifaceHas "ABCIRCToken" "transfer" = true := by krefl
@[py] theorem iface_ABCIRCToken_balanceOf : ifaceHas "ABCIRCToken" "balanceOf" = true := by krefl
@[py] theorem iface_ABCFlexibleToken_getOwner : ifaceHas "ABCFlexibleToken" "getOwner" = true := by krefl
@[py] theorem iface_ABCFlexibleToken_transferOwnerShip : ifaceHas "ABCFlexibleToken" "transferOwnerShip" = true := by krefl
@[py] theorem iface_ABCFlexibleToken_acceptOwnerShip : ifaceHas "ABCFlexibleToken" "acceptOwnerShip" = true := by krefl
@[py] theorem iface_ABCFlexibleToken_disableTransfer : ifaceHas "ABCFlexibleToken" "disableTransfer" = true := by krefl
@[py] theorem iface_ABCFlexibleToken_withdrawTokens : ifaceHas "ABCFlexibleToken" "withdrawTokens" = true := by krefl
@[py] theorem iface_ABCFlexibleToken_totalSupply : ifaceHas "ABCFlexibleToken" "totalSupply" = true := by krefl
@[py] theorem iface_ABCFlexibleToken_issue : ifaceHas "ABCFlexibleToken" "issue" = true := by krefl
@[py] theorem iface_ABCFlexibleToken_destroy : ifaceHas "ABCFlexibleToken" "destroy" = true := by krefl
@[py] theorem iface_ABCScoreRegistry_getAddress : ifaceHas "ABCScoreRegistry" "getAddress" = true := by krefl
@[py] theorem iface_ABCConverter_getReturn : ifaceHas "ABCConverter" "getReturn" = true := by krefl
@[py] theorem iface_ABCIcxToken_withdrawTo : ifaceHas "ABCIcxToken" "withdrawTo" = true := by krefl
@[py] theorem iface_TokenFallbackInterface_tokenFallback : ifaceHas "TokenFallbackInterface" "tokenFallback" = true := by krefl

@[py] theorem event_f_require_positive_value : f_require_positive_value.event = false := by decide
@[py] theorem event_f_require_valid_address : f_require_valid_address.event = false := by decide
@[py] theorem event_f_require_not_this : f_require_not_this.event = false := by decide
@[py] theorem event_f_require : f_require.event = false := by decide
@[py] theorem event_f_is_valid_address : f_is_valid_address.event = false := by decide
@[py] theorem event_f_safe_sub : f_safe_sub.event = false := by decide
@[py] theorem event_tOwned___init__ : tOwned___init__.event = false := by decide
@[py] theorem event_tOwned_OwnerUpdate : tOwned_OwnerUpdate.event = true := by decide
@[py] theorem event_tOwned_on_install : tOwned_on_install.event = false := by decide
@[py] theorem event_tOwned_on_update : tOwned_on_update.event = false := by decide
@[py] theorem event_tOwned_require_owner_only : tOwned_require_owner_only.event = false := by decide
@[py] theorem event_tOwned_getOwner : tOwned_getOwner.event = false := by decide
@[py] theorem event_tOwned_getNewOwner : tOwned_getNewOwner.event = false := by decide
@[py] theorem event_tOwned_transferOwnerShip : tOwned_transferOwnerShip.event = false := by decide
@[py] theorem event_tOwned_acceptOwnerShip : tOwned_acceptOwnerShip.event = false := by decide
@[py] theorem event_tManaged___init__ : tManaged___init__.event = false := by decide
@[py] theorem event_tManaged_ManagerUpdate : tManaged_ManagerUpdate.event = true := by decide
@[py] theorem event_tManaged_on_install : tManaged_on_install.event = false := by decide
@[py] theorem event_tManaged_on_update : tManaged_on_update.event = false := by decide
@[py] theorem event_tManaged_require_manager_only : tManaged_require_manager_only.event = false := by decide
@[py] theorem event_tManaged_require_owner_or_manager_only : tManaged_require_owner_or_manager_only.event = false := by decide
@[py] theorem event_tManaged_getManager : tManaged_getManager.event = false := by decide
@[py] theorem event_tManaged_getNewManager : tManaged_getNewManager.event = false := by decide
@[py] theorem event_tManaged_transferManagement : tManaged_transferManagement.event = false := by decide
@[py] theorem event_tManaged_acceptManagement : tManaged_acceptManagement.event = false := by decide
@[py] theorem event_tTokenHolder___init__ : tTokenHolder___init__.event = false := by decide
@[py] theorem event_tTokenHolder_on_install : tTokenHolder_on_install.event = false := by decide
@[py] theorem event_tTokenHolder_on_update : tTokenHolder_on_update.event = false := by decide
@[py] theorem event_tTokenHolder_withdrawTokens : tTokenHolder_withdrawTokens.event = false := by decide
@[py] theorem event_tFlexibleTokenController___init__ : tFlexibleTokenController___init__.event = false := by decide
@[py] theorem event_tFlexibleTokenController_on_install : tFlexibleTokenController_on_install.event = false := by decide
@[py] theorem event_tFlexibleTokenController_on_update : tFlexibleTokenController_on_update.event = false := by decide
@[py] theorem event_tFlexibleTokenController__is_active : tFlexibleTokenController__is_active.event = false := by decide
@[py] theorem event_tFlexibleTokenController__require_active : tFlexibleTokenController__require_active.event = false := by decide
@[py] theorem event_tFlexibleTokenController__require_inactive : tFlexibleTokenController__require_inactive.event = false := by decide
@[py] theorem event_tFlexibleTokenController_isActive : tFlexibleTokenController_isActive.event = false := by decide
@[py] theorem event_tFlexibleTokenController_transferTokenOwnership : tFlexibleTokenController_transferTokenOwnership.event = false := by decide
@[py] theorem event_tFlexibleTokenController_acceptTokenOwnership : tFlexibleTokenController_acceptTokenOwnership.event = false := by decide
@[py] theorem event_tFlexibleTokenController_disableTokenTransfers : tFlexibleTokenController_disableTokenTransfers.event = false := by decide
@[py] theorem event_tFlexibleTokenController_withdrawFromToken : tFlexibleTokenController_withdrawFromToken.event = false := by decide
@[py] theorem event_tFlexibleTokenController_getToken : tFlexibleTokenController_getToken.event = false := by decide
@[py] theorem event_tIRCToken___init__ : tIRCToken___init__.event = false := by decide
@[py] theorem event_tIRCToken_Transfer : tIRCToken_Transfer.event = true := by decide
@[py] theorem event_tIRCToken_on_install : tIRCToken_on_install.event = false := by decide
@[py] theorem event_tIRCToken_on_update : tIRCToken_on_update.event = false := by decide
@[py] theorem event_tIRCToken_name : tIRCToken_name.event = false := by decide
@[py] theorem event_tIRCToken_symbol : tIRCToken_symbol.event = false := by decide
@[py] theorem event_tIRCToken_decimals : tIRCToken_decimals.event = false := by decide
@[py] theorem event_tIRCToken_totalSupply : tIRCToken_totalSupply.event = false := by decide
@[py] theorem event_tIRCToken_balanceOf : tIRCToken_balanceOf.event = false := by decide
@[py] theorem event_tIRCToken_transfer : tIRCToken_transfer.event = false := by decide
@[py] theorem event_tIRCToken__transfer : tIRCToken__transfer.event = false := by decide
@[py] theorem event_tFlexibleToken___init__ : tFlexibleToken___init__.event = false := by decide
@[py] theorem event_tFlexibleToken_NewFlexibleToken : tFlexibleToken_NewFlexibleToken.event = true := by decide
@[py] theorem event_tFlexibleToken_Issuance : tFlexibleToken_Issuance.event = true := by decide
@[py] theorem event_tFlexibleToken_Destruction : tFlexibleToken_Destruction.event = true := by decide
@[py] theorem event_tFlexibleToken_on_install : tFlexibleToken_on_install.event = false := by decide
@[py] theorem event_tFlexibleToken_on_update : tFlexibleToken_on_update.event = false := by decide
@[py] theorem event_tFlexibleToken_require_transfer_allowed : tFlexibleToken_require_transfer_allowed.event = false := by decide
@[py] theorem event_tFlexibleToken_disableTransfer : tFlexibleToken_disableTransfer.event = false := by decide
@[py] theorem event_tFlexibleToken_getFlexibleTokenVersion : tFlexibleToken_getFlexibleTokenVersion.event = false := by decide
@[py] theorem event_tFlexibleToken_getTransferPossibility : tFlexibleToken_getTransferPossibility.event = false := by decide
@[py] theorem event_tFlexibleToken_issue : tFlexibleToken_issue.event = false := by decide
@[py] theorem event_tFlexibleToken_destroy : tFlexibleToken_destroy.event = false := by decide
@[py] theorem event_tFlexibleToken_transfer : tFlexibleToken_transfer.event = false := by decide
@[py] theorem event_tIcxToken___init__ : tIcxToken___init__.event = false := by decide
@[py] theorem event_tIcxToken_Issuance : tIcxToken_Issuance.event = true := by decide
@[py] theorem event_tIcxToken_Destruction : tIcxToken_Destruction.event = true := by decide
@[py] theorem event_tIcxToken_on_install : tIcxToken_on_install.event = false := by decide
@[py] theorem event_tIcxToken_on_update : tIcxToken_on_update.event = false := by decide
@[py] theorem event_tIcxToken_fallback : tIcxToken_fallback.event = false := by decide
@[py] theorem event_tIcxToken_deposit : tIcxToken_deposit.event = false := by decide
@[py] theorem event_tIcxToken_withdraw : tIcxToken_withdraw.event = false := by decide
@[py] theorem event_tIcxToken_withdrawTo : tIcxToken_withdrawTo.event = false := by decide
@[py] theorem event_tIcxToken_transfer : tIcxToken_transfer.event = false := by decide
@[py] theorem event_tScoreRegistry___init__ : tScoreRegistry___init__.event = false := by decide
@[py] theorem event_tScoreRegistry_AddressUpdate : tScoreRegistry_AddressUpdate.event = true := by decide
@[py] theorem event_tScoreRegistry_on_install : tScoreRegistry_on_install.event = false := by decide
@[py] theorem event_tScoreRegistry_on_update : tScoreRegistry_on_update.event = false := by decide
@[py] theorem event_tScoreRegistry_getAddress : tScoreRegistry_getAddress.event = false := by decide
@[py] theorem event_tScoreRegistry_getScoreIds : tScoreRegistry_getScoreIds.event = false := by decide
@[py] theorem event_tScoreRegistry_registerAddress : tScoreRegistry_registerAddress.event = false := by decide
@[py] theorem event_tScoreRegistry_unregisterAddress : tScoreRegistry_unregisterAddress.event = false := by decide
@[py] theorem event_tConnector___init__ : tConnector___init__.event = false := by decide
@[py] theorem event_tConnectorDict___init__ : tConnectorDict___init__.event = false := by decide
@[py] theorem event_tConnectorDict___getitem__ : tConnectorDict___getitem__.event = false := by decide
@[py] theorem event_tConverter___init__ : tConverter___init__.event = false := by decide
@[py] theorem event_tConverter_Conversion : tConverter_Conversion.event = true := by decide
@[py] theorem event_tConverter_PriceDataUpdate : tConverter_PriceDataUpdate.event = true := by decide
@[py] theorem event_tConverter_ConversionFeeUpdate : tConverter_ConversionFeeUpdate.event = true := by decide
@[py] theorem event_tConverter_ConversionsEnable : tConverter_ConversionsEnable.event = true := by decide
@[py] theorem event_tConverter__require_valid_connector : tConverter__require_valid_connector.event = false := by decide
@[py] theorem event_tConverter__require_valid_token : tConverter__require_valid_token.event = false := by decide
@[py] theorem event_tConverter__require_valid_max_conversion_fee : tConverter__require_valid_max_conversion_fee.event = false := by decide
@[py] theorem event_tConverter__require_valid_conversion_fee : tConverter__require_valid_conversion_fee.event = false := by decide
@[py] theorem event_tConverter__require_valid_connector_weight : tConverter__require_valid_connector_weight.event = false := by decide
@[py] theorem event_tConverter__require_max_total_weight_only : tConverter__require_max_total_weight_only.event = false := by decide
@[py] theorem event_tConverter__require_conversions_allowed : tConverter__require_conversions_allowed.event = false := by decide
@[py] theorem event_tConverter_on_install : tConverter_on_install.event = false := by decide
@[py] theorem event_tConverter_on_update : tConverter_on_update.event = false := by decide
@[py] theorem event_tConverter_tokenFallback : tConverter_tokenFallback.event = false := by decide
@[py] theorem event_tConverter__convert : tConverter__convert.event = false := by decide
@[py] theorem event_tConverter__buy : tConverter__buy.event = false := by decide
@[py] theorem event_tConverter__sell : tConverter__sell.event = false := by decide
@[py] theorem event_tConverter__convert_cross_connector : tConverter__convert_cross_connector.event = false := by decide
@[py] theorem event_tConverter_get_purchase_return : tConverter_get_purchase_return.event = false := by decide
@[py] theorem event_tConverter_get_sale_return : tConverter_get_sale_return.event = false := by decide
@[py] theorem event_tConverter_get_cross_connector_return : tConverter_get_cross_connector_return.event = false := by decide
@[py] theorem event_tConverter_addConnector : tConverter_addConnector.event = false := by decide
@[py] theorem event_tConverter_updateConnector : tConverter_updateConnector.event = false := by decide
@[py] theorem event_tConverter_disableConnectorPurchases : tConverter_disableConnectorPurchases.event = false := by decide
@[py] theorem event_tConverter_updateRegistry : tConverter_updateRegistry.event = false := by decide
@[py] theorem event_tConverter_restoreRegistry : tConverter_restoreRegistry.event = false := by decide
@[py] theorem event_tConverter_disableRegistryUpdate : tConverter_disableRegistryUpdate.event = false := by decide
@[py] theorem event_tConverter_disableConversions : tConverter_disableConversions.event = false := by decide
@[py] theorem event_tConverter_setConversionFee : tConverter_setConversionFee.event = false := by decide
@[py] theorem event_tConverter_withdrawTokens : tConverter_withdrawTokens.event = false := by decide
@[py] theorem event_tConverter_isAllowRegistryUpdate : tConverter_isAllowRegistryUpdate.event = false := by decide
@[py] theorem event_tConverter_isActive : tConverter_isActive.event = false := by decide
@[py] theorem event_tConverter_getPreviousRegistry : tConverter_getPreviousRegistry.event = false := by decide
@[py] theorem event_tConverter_getRegistry : tConverter_getRegistry.event = false := by decide
@[py] theorem event_tConverter_getConnectorTokenCount : tConverter_getConnectorTokenCount.event = false := by decide
@[py] theorem event_tConverter_getMaxConversionFee : tConverter_getMaxConversionFee.event = false := by decide
@[py] theorem event_tConverter_getConversionFee : tConverter_getConversionFee.event = false := by decide
@[py] theorem event_tConverter_isConversionsEnabled : tConverter_isConversionsEnabled.event = false := by decide
@[py] theorem event_tConverter_getConnectorAt : tConverter_getConnectorAt.event = false := by decide
@[py] theorem event_tConverter_getConnector : tConverter_getConnector.event = false := by decide
@[py] theorem event_tConverter_getConnectorBalance : tConverter_getConnectorBalance.event = false := by decide
@[py] theorem event_tConverter_getReturn : tConverter_getReturn.event = false := by decide
@[py] theorem event_tConverter_getFinalAmount : tConverter_getFinalAmount.event = false := by decide
@[py] theorem event_tNetwork___init__ : tNetwork___init__.event = false := by decide
@[py] theorem event_tNetwork_on_install : tNetwork_on_install.event = false := by decide
@[py] theorem event_tNetwork_on_update : tNetwork_on_update.event = false := by decide
@[py] theorem event_tNetwork_getExpectedReturnByPath : tNetwork_getExpectedReturnByPath.event = false := by decide
@[py] theorem event_tNetwork_getIcxTokenRegistered : tNetwork_getIcxTokenRegistered.event = false := by decide
@[py] theorem event_tNetwork__convert_path : tNetwork__convert_path.event = false := by decide
@[py] theorem event_tNetwork__convert_bytes_data : tNetwork__convert_bytes_data.event = false := by decide
@[py] theorem event_tNetwork__require_valid_path : tNetwork__require_valid_path.event = false := by decide
@[py] theorem event_tNetwork_registerIcxToken : tNetwork_registerIcxToken.event = false := by decide
@[py] theorem event_tNetwork_tokenFallback : tNetwork_tokenFallback.event = false := by decide
@[py] theorem event_tNetwork_convert : tNetwork_convert.event = false := by decide
@[py] theorem event_tNetwork_convertFor : tNetwork_convertFor.event = false := by decide
@[py] theorem event_tNetwork__convert_for_internal : tNetwork__convert_for_internal.event = false := by decide
@[py] theorem event_tNetwork__convert_by_path : tNetwork__convert_by_path.event = false := by decide
@[py] theorem event_tFixedMapFormula_calculate_purchase_return : tFixedMapFormula_calculate_purchase_return.event = false := by decide
@[py] theorem event_tFixedMapFormula_calculate_sale_return : tFixedMapFormula_calculate_sale_return.event = false := by decide
@[py] theorem event_tFixedMapFormula_calculate_cross_connector_return : tFixedMapFormula_calculate_cross_connector_return.event = false := by decide
@[py] theorem event_tFixedMapFormula__power : tFixedMapFormula__power.event = false := by decide
@[py] theorem event_tFixedMapFormula__general_log : tFixedMapFormula__general_log.event = false := by decide
@[py] theorem event_tFixedMapFormula__floor_log2 : tFixedMapFormula__floor_log2.event = false := by decide
@[py] theorem event_tFixedMapFormula__find_position_in_max_exp_array : tFixedMapFormula__find_position_in_max_exp_array.event = false := by decide
@[py] theorem event_tFixedMapFormula__general_exp : tFixedMapFormula__general_exp.event = false := by decide
@[py] theorem event_tFixedMapFormula__optimal_log : tFixedMapFormula__optimal_log.event = false := by decide
@[py] theorem event_tFixedMapFormula__optimal_exp : tFixedMapFormula__optimal_exp.event = false := by decide

end Verif.Src

import Verif.Proofs.Source.Find
/-!
Generated by tools/gen_find.py: the methods of the interface a class does not have, and the declarations of those it has.
-/
set_option autoImplicit false
namespace Verif.Src

@[py] theorem none_Converter_name : find "Converter" "name" = none := by rw [find, mro_Converter]; krefl
@[py] theorem none_Converter_symbol : find "Converter" "symbol" = none := by rw [find, mro_Converter]; krefl
@[py] theorem none_Converter_decimals : find "Converter" "decimals" = none := by rw [find, mro_Converter]; krefl
@[py] theorem none_Converter_totalSupply : find "Converter" "totalSupply" = none := by rw [find, mro_Converter]; krefl
@[py] theorem none_Converter_balanceOf : find "Converter" "balanceOf" = none := by rw [find, mro_Converter]; krefl
@[py] theorem none_Converter_transfer : find "Converter" "transfer" = none := by rw [find, mro_Converter]; krefl
@[py] theorem none_Converter_disableTransfer : find "Converter" "disableTransfer" = none := by rw [find, mro_Converter]; krefl
@[py] theorem none_Converter_getFlexibleTokenVersion : find "Converter" "getFlexibleTokenVersion" = none := by rw [find, mro_Converter]; krefl
@[py] theorem none_Converter_getTransferPossibility : find "Converter" "getTransferPossibility" = none := by rw [find, mro_Converter]; krefl
@[py] theorem none_Converter_issue : find "Converter" "issue" = none := by rw [find, mro_Converter]; krefl
@[py] theorem none_Converter_destroy : find "Converter" "destroy" = none := by rw [find, mro_Converter]; krefl
@[py] theorem none_Converter_deposit : find "Converter" "deposit" = none := by rw [find, mro_Converter]; krefl
@[py] theorem none_Converter_withdraw : find "Converter" "withdraw" = none := by rw [find, mro_Converter]; krefl
@[py] theorem none_Converter_withdrawTo : find "Converter" "withdrawTo" = none := by rw [find, mro_Converter]; krefl
@[py] theorem none_Converter_getAddress : find "Converter" "getAddress" = none := by rw [find, mro_Converter]; krefl
@[py] theorem none_Converter_getScoreIds : find "Converter" "getScoreIds" = none := by rw [find, mro_Converter]; krefl
@[py] theorem none_Converter_registerAddress : find "Converter" "registerAddress" = none := by rw [find, mro_Converter]; krefl
@[py] theorem none_Converter_unregisterAddress : find "Converter" "unregisterAddress" = none := by rw [find, mro_Converter]; krefl
@[py] theorem none_Converter_getExpectedReturnByPath : find "Converter" "getExpectedReturnByPath" = none := by rw [find, mro_Converter]; krefl
@[py] theorem none_Converter_getIcxTokenRegistered : find "Converter" "getIcxTokenRegistered" = none := by rw [find, mro_Converter]; krefl
@[py] theorem none_Converter_registerIcxToken : find "Converter" "registerIcxToken" = none := by rw [find, mro_Converter]; krefl
@[py] theorem none_Converter_convert : find "Converter" "convert" = none := by rw [find, mro_Converter]; krefl
@[py] theorem none_Converter_convertFor : find "Converter" "convertFor" = none := by rw [find, mro_Converter]; krefl
@[py] theorem none_Converter_fallback : find "Converter" "fallback" = none := by rw [find, mro_Converter]; krefl
@[py] theorem none_FlexibleToken_deposit : find "FlexibleToken" "deposit" = none := by rw [find, mro_FlexibleToken]; krefl
@[py] theorem none_FlexibleToken_withdraw : find "FlexibleToken" "withdraw" = none := by rw [find, mro_FlexibleToken]; krefl
@[py] theorem none_FlexibleToken_withdrawTo : find "FlexibleToken" "withdrawTo" = none := by rw [find, mro_FlexibleToken]; krefl
@[py] theorem none_FlexibleToken_getManager : find "FlexibleToken" "getManager" = none := by rw [find, mro_FlexibleToken]; krefl
@[py] theorem none_FlexibleToken_getNewManager : find "FlexibleToken" "getNewManager" = none := by rw [find, mro_FlexibleToken]; krefl
@[py] theorem none_FlexibleToken_transferManagement : find "FlexibleToken" "transferManagement" = none := by rw [find, mro_FlexibleToken]; krefl
@[py] theorem none_FlexibleToken_acceptManagement : find "FlexibleToken" "acceptManagement" = none := by rw [find, mro_FlexibleToken]; krefl
@[py] theorem none_FlexibleToken_tokenFallback : find "FlexibleToken" "tokenFallback" = none := by rw [find, mro_FlexibleToken]; krefl
@[py] theorem none_FlexibleToken_isActive : find "FlexibleToken" "isActive" = none := by rw [find, mro_FlexibleToken]; krefl
@[py] theorem none_FlexibleToken_transferTokenOwnership : find "FlexibleToken" "transferTokenOwnership" = none := by rw [find, mro_FlexibleToken]; krefl
@[py] theorem none_FlexibleToken_acceptTokenOwnership : find "FlexibleToken" "acceptTokenOwnership" = none := by rw [find, mro_FlexibleToken]; krefl
@[py] theorem none_FlexibleToken_disableTokenTransfers : find "FlexibleToken" "disableTokenTransfers" = none := by rw [find, mro_FlexibleToken]; krefl
@[py] theorem none_FlexibleToken_withdrawFromToken : find "FlexibleToken" "withdrawFromToken" = none := by rw [find, mro_FlexibleToken]; krefl
@[py] theorem none_FlexibleToken_getToken : find "FlexibleToken" "getToken" = none := by rw [find, mro_FlexibleToken]; krefl
@[py] theorem none_FlexibleToken_addConnector : find "FlexibleToken" "addConnector" = none := by rw [find, mro_FlexibleToken]; krefl
@[py] theorem none_FlexibleToken_updateConnector : find "FlexibleToken" "updateConnector" = none := by rw [find, mro_FlexibleToken]; krefl
@[py] theorem none_FlexibleToken_disableConnectorPurchases : find "FlexibleToken" "disableConnectorPurchases" = none := by rw [find, mro_FlexibleToken]; krefl
@[py] theorem none_FlexibleToken_updateRegistry : find "FlexibleToken" "updateRegistry" = none := by rw [find, mro_FlexibleToken]; krefl
@[py] theorem none_FlexibleToken_restoreRegistry : find "FlexibleToken" "restoreRegistry" = none := by rw [find, mro_FlexibleToken]; krefl
@[py] theorem none_FlexibleToken_disableRegistryUpdate : find "FlexibleToken" "disableRegistryUpdate" = none := by rw [find, mro_FlexibleToken]; krefl
@[py] theorem none_FlexibleToken_disableConversions : find "FlexibleToken" "disableConversions" = none := by rw [find, mro_FlexibleToken]; krefl
@[py] theorem none_FlexibleToken_setConversionFee : find "FlexibleToken" "setConversionFee" = none := by rw [find, mro_FlexibleToken]; krefl
@[py] theorem none_FlexibleToken_isAllowRegistryUpdate : find "FlexibleToken" "isAllowRegistryUpdate" = none := by rw [find, mro_FlexibleToken]; krefl
@[py] theorem none_FlexibleToken_getPreviousRegistry : find "FlexibleToken" "getPreviousRegistry" = none := by rw [find, mro_FlexibleToken]; krefl
@[py] theorem none_FlexibleToken_getRegistry : find "FlexibleToken" "getRegistry" = none := by rw [find, mro_FlexibleToken]; krefl
@[py] theorem none_FlexibleToken_getConnectorTokenCount : find "FlexibleToken" "getConnectorTokenCount" = none := by rw [find, mro_FlexibleToken]; krefl
@[py] theorem none_FlexibleToken_getMaxConversionFee : find "FlexibleToken" "getMaxConversionFee" = none := by rw [find, mro_FlexibleToken]; krefl
@[py] theorem none_FlexibleToken_getConversionFee : find "FlexibleToken" "getConversionFee" = none := by rw [find, mro_FlexibleToken]; krefl
@[py] theorem none_FlexibleToken_isConversionsEnabled : find "FlexibleToken" "isConversionsEnabled" = none := by rw [find, mro_FlexibleToken]; krefl
@[py] theorem none_FlexibleToken_getConnectorAt : find "FlexibleToken" "getConnectorAt" = none := by rw [find, mro_FlexibleToken]; krefl
@[py] theorem none_FlexibleToken_getConnector : find "FlexibleToken" "getConnector" = none := by rw [find, mro_FlexibleToken]; krefl
@[py] theorem none_FlexibleToken_getConnectorBalance : find "FlexibleToken" "getConnectorBalance" = none := by rw [find, mro_FlexibleToken]; krefl
@[py] theorem none_FlexibleToken_getReturn : find "FlexibleToken" "getReturn" = none := by rw [find, mro_FlexibleToken]; krefl
@[py] theorem none_FlexibleToken_getFinalAmount : find "FlexibleToken" "getFinalAmount" = none := by rw [find, mro_FlexibleToken]; krefl
@[py] theorem none_FlexibleToken_getAddress : find "FlexibleToken" "getAddress" = none := by rw [find, mro_FlexibleToken]; krefl
@[py] theorem none_FlexibleToken_getScoreIds : find "FlexibleToken" "getScoreIds" = none := by rw [find, mro_FlexibleToken]; krefl
@[py] theorem none_FlexibleToken_registerAddress : find "FlexibleToken" "registerAddress" = none := by rw [find, mro_FlexibleToken]; krefl
@[py] theorem none_FlexibleToken_unregisterAddress : find "FlexibleToken" "unregisterAddress" = none := by rw [find, mro_FlexibleToken]; krefl
@[py] theorem none_FlexibleToken_getExpectedReturnByPath : find "FlexibleToken" "getExpectedReturnByPath" = none := by rw [find, mro_FlexibleToken]; krefl
@[py] theorem none_FlexibleToken_getIcxTokenRegistered : find "FlexibleToken" "getIcxTokenRegistered" = none := by rw [find, mro_FlexibleToken]; krefl
@[py] theorem none_FlexibleToken_registerIcxToken : find "FlexibleToken" "registerIcxToken" = none := by rw [find, mro_FlexibleToken]; krefl
@[py] theorem none_FlexibleToken_convert : find "FlexibleToken" "convert" = none := by rw [find, mro_FlexibleToken]; krefl
@[py] theorem none_FlexibleToken_convertFor : find "FlexibleToken" "convertFor" = none := by rw [find, mro_FlexibleToken]; krefl
@[py] theorem none_FlexibleToken_fallback : find "FlexibleToken" "fallback" = none := by rw [find, mro_FlexibleToken]; krefl
@[py] theorem none_IcxToken_disableTransfer : find "IcxToken" "disableTransfer" = none := by rw [find, mro_IcxToken]; krefl
@[py] theorem none_IcxToken_getFlexibleTokenVersion : find "IcxToken" "getFlexibleTokenVersion" = none := by rw [find, mro_IcxToken]; krefl
@[py] theorem none_IcxToken_getTransferPossibility : find "IcxToken" "getTransferPossibility" = none := by rw [find, mro_IcxToken]; krefl
@[py] theorem none_IcxToken_issue : find "IcxToken" "issue" = none := by rw [find, mro_IcxToken]; krefl
@[py] theorem none_IcxToken_destroy : find "IcxToken" "destroy" = none := by rw [find, mro_IcxToken]; krefl
@[py] theorem none_IcxToken_getManager : find "IcxToken" "getManager" = none := by rw [find, mro_IcxToken]; krefl
@[py] theorem none_IcxToken_getNewManager : find "IcxToken" "getNewManager" = none := by rw [find, mro_IcxToken]; krefl
@[py] theorem none_IcxToken_transferManagement : find "IcxToken" "transferManagement" = none := by rw [find, mro_IcxToken]; krefl
@[py] theorem none_IcxToken_acceptManagement : find "IcxToken" "acceptManagement" = none := by rw [find, mro_IcxToken]; krefl
@[py] theorem none_IcxToken_tokenFallback : find "IcxToken" "tokenFallback" = none := by rw [find, mro_IcxToken]; krefl
@[py] theorem none_IcxToken_isActive : find "IcxToken" "isActive" = none := by rw [find, mro_IcxToken]; krefl
@[py] theorem none_IcxToken_transferTokenOwnership : find "IcxToken" "transferTokenOwnership" = none := by rw [find, mro_IcxToken]; krefl
@[py] theorem none_IcxToken_acceptTokenOwnership : find "IcxToken" "acceptTokenOwnership" = none := by rw [find, mro_IcxToken]; krefl
@[py] theorem none_IcxToken_disableTokenTransfers : find "IcxToken" "disableTokenTransfers" = none := by rw [find, mro_IcxToken]; krefl
@[py] theorem none_IcxToken_withdrawFromToken : find "IcxToken" "withdrawFromToken" = none := by rw [find, mro_IcxToken]; krefl
@[py] theorem none_IcxToken_getToken : find "IcxToken" "getToken" = none := by rw [find, mro_IcxToken]; krefl
@[py] theorem none_IcxToken_addConnector : find "IcxToken" "addConnector" = none := by rw [find, mro_IcxToken]; krefl
@[py] theorem none_IcxToken_updateConnector : find "IcxToken" "updateConnector" = none := by rw [find, mro_IcxToken]; krefl
@[py] theorem none_IcxToken_disableConnectorPurchases : find "IcxToken" "disableConnectorPurchases" = none := by rw [find, mro_IcxToken]; krefl
@[py] theorem none_IcxToken_updateRegistry : find "IcxToken" "updateRegistry" = none := by rw [find, mro_IcxToken]; krefl
@[py] theorem none_IcxToken_restoreRegistry : find "IcxToken" "restoreRegistry" = none := by rw [find, mro_IcxToken]; krefl
@[py] theorem none_IcxToken_disableRegistryUpdate : find "IcxToken" "disableRegistryUpdate" = none := by rw [find, mro_IcxToken]; krefl
@[py] theorem none_IcxToken_disableConversions : find "IcxToken" "disableConversions" = none := by rw [find, mro_IcxToken]; krefl
@[py] theorem none_IcxToken_setConversionFee : find "IcxToken" "setConversionFee" = none := by rw [find, mro_IcxToken]; krefl
@[py] theorem none_IcxToken_isAllowRegistryUpdate : find "IcxToken" "isAllowRegistryUpdate" = none := by rw [find, mro_IcxToken]; krefl
@[py] theorem none_IcxToken_getPreviousRegistry : find "IcxToken" "getPreviousRegistry" = none := by rw [find, mro_IcxToken]; krefl
@[py] theorem none_IcxToken_getRegistry : find "IcxToken" "getRegistry" = none := by rw [find, mro_IcxToken]; krefl
@[py] theorem none_IcxToken_getConnectorTokenCount : find "IcxToken" "getConnectorTokenCount" = none := by rw [find, mro_IcxToken]; krefl
@[py] theorem none_IcxToken_getMaxConversionFee : find "IcxToken" "getMaxConversionFee" = none := by rw [find, mro_IcxToken]; krefl
@[py] theorem none_IcxToken_getConversionFee : find "IcxToken" "getConversionFee" = none := by rw [find, mro_IcxToken]; krefl
@[py] theorem none_IcxToken_isConversionsEnabled : find "IcxToken" "isConversionsEnabled" = none := by rw [find, mro_IcxToken]; krefl
@[py] theorem none_IcxToken_getConnectorAt : find "IcxToken" "getConnectorAt" = none := by rw [find, mro_IcxToken]; krefl
@[py] theorem none_IcxToken_getConnector : find "IcxToken" "getConnector" = none := by rw [find, mro_IcxToken]; krefl
@[py] theorem none_IcxToken_getConnectorBalance : find "IcxToken" "getConnectorBalance" = none := by rw [find, mro_IcxToken]; krefl
@[py] theorem none_IcxToken_getReturn : find "IcxToken" "getReturn" = none := by rw [find, mro_IcxToken]; krefl
@[py] theorem none_IcxToken_getFinalAmount : find "IcxToken" "getFinalAmount" = none := by rw [find, mro_IcxToken]; krefl
@[py] theorem none_IcxToken_getAddress : find "IcxToken" "getAddress" = none := by rw [find, mro_IcxToken]; krefl
@[py] theorem none_IcxToken_getScoreIds : find "IcxToken" "getScoreIds" = none := by rw [find, mro_IcxToken]; krefl
@[py] theorem none_IcxToken_registerAddress : find "IcxToken" "registerAddress" = none := by rw [find, mro_IcxToken]; krefl
@[py] theorem none_IcxToken_unregisterAddress : find "IcxToken" "unregisterAddress" = none := by rw [find, mro_IcxToken]; krefl
@[py] theorem none_IcxToken_getExpectedReturnByPath : find "IcxToken" "getExpectedReturnByPath" = none := by rw [find, mro_IcxToken]; krefl
@[py] theorem none_IcxToken_getIcxTokenRegistered : find "IcxToken" "getIcxTokenRegistered" = none := by rw [find, mro_IcxToken]; krefl
@[py] theorem none_IcxToken_registerIcxToken : find "IcxToken" "registerIcxToken" = none := by rw [find, mro_IcxToken]; krefl
@[py] theorem none_IcxToken_convert : find "IcxToken" "convert" = none := by rw [find, mro_IcxToken]; krefl
@[py] theorem none_IcxToken_convertFor : find "IcxToken" "convertFor" = none := by rw [find, mro_IcxToken]; krefl
@[py] theorem none_Network_name : find "Network" "name" = none := by rw [find, mro_Network]; krefl
@[py] theorem none_Network_symbol : find "Network" "symbol" = none := by rw [find, mro_Network]; krefl
@[py] theorem none_Network_decimals : find "Network" "decimals" = none := by rw [find, mro_Network]; krefl
@[py] theorem none_Network_totalSupply : find "Network" "totalSupply" = none := by rw [find, mro_Network]; krefl
@[py] theorem none_Network_balanceOf : find "Network" "balanceOf" = none := by rw [find, mro_Network]; krefl
@[py] theorem none_Network_transfer : find "Network" "transfer" = none := by rw [find, mro_Network]; krefl
@[py] theorem none_Network_disableTransfer : find "Network" "disableTransfer" = none := by rw [find, mro_Network]; krefl
@[py] theorem none_Network_getFlexibleTokenVersion : find "Network" "getFlexibleTokenVersion" = none := by rw [find, mro_Network]; krefl
@[py] theorem none_Network_getTransferPossibility : find "Network" "getTransferPossibility" = none := by rw [find, mro_Network]; krefl
@[py] theorem none_Network_issue : find "Network" "issue" = none := by rw [find, mro_Network]; krefl
@[py] theorem none_Network_destroy : find "Network" "destroy" = none := by rw [find, mro_Network]; krefl
@[py] theorem none_Network_deposit : find "Network" "deposit" = none := by rw [find, mro_Network]; krefl
@[py] theorem none_Network_withdraw : find "Network" "withdraw" = none := by rw [find, mro_Network]; krefl
@[py] theorem none_Network_withdrawTo : find "Network" "withdrawTo" = none := by rw [find, mro_Network]; krefl
@[py] theorem none_Network_getManager : find "Network" "getManager" = none := by rw [find, mro_Network]; krefl
@[py] theorem none_Network_getNewManager : find "Network" "getNewManager" = none := by rw [find, mro_Network]; krefl
@[py] theorem none_Network_transferManagement : find "Network" "transferManagement" = none := by rw [find, mro_Network]; krefl
@[py] theorem none_Network_acceptManagement : find "Network" "acceptManagement" = none := by rw [find, mro_Network]; krefl
@[py] theorem none_Network_isActive : find "Network" "isActive" = none := by rw [find, mro_Network]; krefl
@[py] theorem none_Network_transferTokenOwnership : find "Network" "transferTokenOwnership" = none := by rw [find, mro_Network]; krefl
@[py] theorem none_Network_acceptTokenOwnership : find "Network" "acceptTokenOwnership" = none := by rw [find, mro_Network]; krefl
@[py] theorem none_Network_disableTokenTransfers : find "Network" "disableTokenTransfers" = none := by rw [find, mro_Network]; krefl
@[py] theorem none_Network_withdrawFromToken : find "Network" "withdrawFromToken" = none := by rw [find, mro_Network]; krefl
@[py] theorem none_Network_getToken : find "Network" "getToken" = none := by rw [find, mro_Network]; krefl
@[py] theorem none_Network_addConnector : find "Network" "addConnector" = none := by rw [find, mro_Network]; krefl
@[py] theorem none_Network_updateConnector : find "Network" "updateConnector" = none := by rw [find, mro_Network]; krefl
@[py] theorem none_Network_disableConnectorPurchases : find "Network" "disableConnectorPurchases" = none := by rw [find, mro_Network]; krefl
@[py] theorem none_Network_updateRegistry : find "Network" "updateRegistry" = none := by rw [find, mro_Network]; krefl
@[py] theorem none_Network_restoreRegistry : find "Network" "restoreRegistry" = none := by rw [find, mro_Network]; krefl
@[py] theorem none_Network_disableRegistryUpdate : find "Network" "disableRegistryUpdate" = none := by rw [find, mro_Network]; krefl
@[py] theorem none_Network_disableConversions : find "Network" "disableConversions" = none := by rw [find, mro_Network]; krefl
@[py] theorem none_Network_setConversionFee : find "Network" "setConversionFee" = none := by rw [find, mro_Network]; krefl
@[py] theorem none_Network_isAllowRegistryUpdate : find "Network" "isAllowRegistryUpdate" = none := by rw [find, mro_Network]; krefl
@[py] theorem none_Network_getPreviousRegistry : find "Network" "getPreviousRegistry" = none := by rw [find, mro_Network]; krefl
@[py] theorem none_Network_getRegistry : find "Network" "getRegistry" = none := by rw [find, mro_Network]; krefl
@[py] theorem none_Network_getConnectorTokenCount : find "Network" "getConnectorTokenCount" = none := by rw [find, mro_Network]; krefl
@[py] theorem none_Network_getMaxConversionFee : find "Network" "getMaxConversionFee" = none := by rw [find, mro_Network]; krefl
@[py] theorem none_Network_getConversionFee : find "Network" "getConversionFee" = none := by rw [find, mro_Network]; krefl
@[py] theorem none_Network_isConversionsEnabled : find "Network" "isConversionsEnabled" = none := by rw [find, mro_Network]; krefl
@[py] theorem none_Network_getConnectorAt : find "Network" "getConnectorAt" = none := by rw [find, mro_Network]; krefl
@[py] theorem none_Network_getConnector : find "Network" "getConnector" = none := by rw [find, mro_Network]; krefl
@[py] theorem none_Network_getConnectorBalance : find "Network" "getConnectorBalance" = none := by rw [find, mro_Network]; krefl
@[py] theorem none_Network_getReturn : find "Network" "getReturn" = none := by rw [find, mro_Network]; krefl
@[py] theorem none_Network_getFinalAmount : find "Network" "getFinalAmount" = none := by rw [find, mro_Network]; krefl
@[py] theorem none_Network_getAddress : find "Network" "getAddress" = none := by rw [find, mro_Network]; krefl
@[py] theorem none_Network_getScoreIds : find "Network" "getScoreIds" = none := by rw [find, mro_Network]; krefl
@[py] theorem none_Network_registerAddress : find "Network" "registerAddress" = none := by rw [find, mro_Network]; krefl
@[py] theorem none_Network_unregisterAddress : find "Network" "unregisterAddress" = none := by rw [find, mro_Network]; krefl
@[py] theorem none_Network_fallback : find "Network" "fallback" = none := by rw [find, mro_Network]; krefl
@[py] theorem none_ScoreRegistry_name : find "ScoreRegistry" "name" = none := by rw [find, mro_ScoreRegistry]; krefl
@[py] theorem none_ScoreRegistry_symbol : find "ScoreRegistry" "symbol" = none := by rw [find, mro_ScoreRegistry]; krefl
@[py] theorem none_ScoreRegistry_decimals : find "ScoreRegistry" "decimals" = none := by rw [find, mro_ScoreRegistry]; krefl
@[py] theorem none_ScoreRegistry_totalSupply : find "ScoreRegistry" "totalSupply" = none := by rw [find, mro_ScoreRegistry]; krefl
@[py] theorem none_ScoreRegistry_balanceOf : find "ScoreRegistry" "balanceOf" = none := by rw [find, mro_ScoreRegistry]; krefl
@[py] theorem none_ScoreRegistry_transfer : find "ScoreRegistry" "transfer" = none := by rw [find, mro_ScoreRegistry]; krefl
@[py] theorem none_ScoreRegistry_disableTransfer : find "ScoreRegistry" "disableTransfer" = none := by rw [find, mro_ScoreRegistry]; krefl
@[py] theorem none_ScoreRegistry_getFlexibleTokenVersion : find "ScoreRegistry" "getFlexibleTokenVersion" = none := by rw [find, mro_ScoreRegistry]; krefl
@[py] theorem none_ScoreRegistry_getTransferPossibility : find "ScoreRegistry" "getTransferPossibility" = none := by rw [find, mro_ScoreRegistry]; krefl
@[py] theorem none_ScoreRegistry_issue : find "ScoreRegistry" "issue" = none := by rw [find, mro_ScoreRegistry]; krefl
@[py] theorem none_ScoreRegistry_destroy : find "ScoreRegistry" "destroy" = none := by rw [find, mro_ScoreRegistry]; krefl
@[py] theorem none_ScoreRegistry_deposit : find "ScoreRegistry" "deposit" = none := by rw [find, mro_ScoreRegistry]; krefl
@[py] theorem none_ScoreRegistry_withdraw : find "ScoreRegistry" "withdraw" = none := by rw [find, mro_ScoreRegistry]; krefl
@[py] theorem none_ScoreRegistry_withdrawTo : find "ScoreRegistry" "withdrawTo" = none := by rw [find, mro_ScoreRegistry]; krefl
@[py] theorem none_ScoreRegistry_getManager : find "ScoreRegistry" "getManager" = none := by rw [find, mro_ScoreRegistry]; krefl
@[py] theorem none_ScoreRegistry_getNewManager : find "ScoreRegistry" "getNewManager" = none := by rw [find, mro_ScoreRegistry]; krefl
@[py] theorem none_ScoreRegistry_transferManagement : find "ScoreRegistry" "transferManagement" = none := by rw [find, mro_ScoreRegistry]; krefl
@[py] theorem none_ScoreRegistry_acceptManagement : find "ScoreRegistry" "acceptManagement" = none := by rw [find, mro_ScoreRegistry]; krefl
@[py] theorem none_ScoreRegistry_withdrawTokens : find "ScoreRegistry" "withdrawTokens" = none := by rw [find, mro_ScoreRegistry]; krefl
@[py] theorem none_ScoreRegistry_tokenFallback : find "ScoreRegistry" "tokenFallback" = none := by rw [find, mro_ScoreRegistry]; krefl
@[py] theorem none_ScoreRegistry_isActive : find "ScoreRegistry" "isActive" = none := by rw [find, mro_ScoreRegistry]; krefl
@[py] theorem none_ScoreRegistry_transferTokenOwnership : find "ScoreRegistry" "transferTokenOwnership" = none := by rw [find, mro_ScoreRegistry]; krefl
@[py] theorem none_ScoreRegistry_acceptTokenOwnership : find "ScoreRegistry" "acceptTokenOwnership" = none := by rw [find, mro_ScoreRegistry]; krefl
@[py] theorem none_ScoreRegistry_disableTokenTransfers : find "ScoreRegistry" "disableTokenTransfers" = none := by rw [find, mro_ScoreRegistry]; krefl
@[py] theorem none_ScoreRegistry_withdrawFromToken : find "ScoreRegistry" "withdrawFromToken" = none := by rw [find, mro_ScoreRegistry]; krefl
@[py] theorem none_ScoreRegistry_getToken : find "ScoreRegistry" "getToken" = none := by rw [find, mro_ScoreRegistry]; krefl
@[py] theorem none_ScoreRegistry_addConnector : find "ScoreRegistry" "addConnector" = none := by rw [find, mro_ScoreRegistry]; krefl
@[py] theorem none_ScoreRegistry_updateConnector : find "ScoreRegistry" "updateConnector" = none := by rw [find, mro_ScoreRegistry]; krefl
@[py] theorem none_ScoreRegistry_disableConnectorPurchases : find "ScoreRegistry" "disableConnectorPurchases" = none := by rw [find, mro_ScoreRegistry]; krefl
@[py] theorem none_ScoreRegistry_updateRegistry : find "ScoreRegistry" "updateRegistry" = none := by rw [find, mro_ScoreRegistry]; krefl
@[py] theorem none_ScoreRegistry_restoreRegistry : find "ScoreRegistry" "restoreRegistry" = none := by rw [find, mro_ScoreRegistry]; krefl
@[py] theorem none_ScoreRegistry_disableRegistryUpdate : find "ScoreRegistry" "disableRegistryUpdate" = none := by rw [find, mro_ScoreRegistry]; krefl
@[py] theorem none_ScoreRegistry_disableConversions : find "ScoreRegistry" "disableConversions" = none := by rw [find, mro_ScoreRegistry]; krefl
@[py] theorem none_ScoreRegistry_setConversionFee : find "ScoreRegistry" "setConversionFee" = none := by rw [find, mro_ScoreRegistry]; krefl
@[py] theorem none_ScoreRegistry_isAllowRegistryUpdate : find "ScoreRegistry" "isAllowRegistryUpdate" = none := by rw [find, mro_ScoreRegistry]; krefl
@[py] theorem none_ScoreRegistry_getPreviousRegistry : find "ScoreRegistry" "getPreviousRegistry" = none := by rw [find, mro_ScoreRegistry]; krefl
@[py] theorem none_ScoreRegistry_getRegistry : find "ScoreRegistry" "getRegistry" = none := by rw [find, mro_ScoreRegistry]; krefl
@[py] theorem none_ScoreRegistry_getConnectorTokenCount : find "ScoreRegistry" "getConnectorTokenCount" = none := by rw [find, mro_ScoreRegistry]; krefl
@[py] theorem none_ScoreRegistry_getMaxConversionFee : find "ScoreRegistry" "getMaxConversionFee" = none := by rw [find, mro_ScoreRegistry]; krefl
@[py] theorem none_ScoreRegistry_getConversionFee : find "ScoreRegistry" "getConversionFee" = none := by rw [find, mro_ScoreRegistry]; krefl
@[py] theorem none_ScoreRegistry_isConversionsEnabled : find "ScoreRegistry" "isConversionsEnabled" = none := by rw [find, mro_ScoreRegistry]; krefl
@[py] theorem none_ScoreRegistry_getConnectorAt : find "ScoreRegistry" "getConnectorAt" = none := by rw [find, mro_ScoreRegistry]; krefl
@[py] theorem none_ScoreRegistry_getConnector : find "ScoreRegistry" "getConnector" = none := by rw [find, mro_ScoreRegistry]; krefl
@[py] theorem none_ScoreRegistry_getConnectorBalance : find "ScoreRegistry" "getConnectorBalance" = none := by rw [find, mro_ScoreRegistry]; krefl
@[py] theorem none_ScoreRegistry_getReturn : find "ScoreRegistry" "getReturn" = none := by rw [find, mro_ScoreRegistry]; krefl
@[py] theorem none_ScoreRegistry_getFinalAmount : find "ScoreRegistry" "getFinalAmount" = none := by rw [find, mro_ScoreRegistry]; krefl
@[py] theorem none_ScoreRegistry_getExpectedReturnByPath : find "ScoreRegistry" "getExpectedReturnByPath" = none := by rw [find, mro_ScoreRegistry]; krefl
@[py] theorem none_ScoreRegistry_getIcxTokenRegistered : find "ScoreRegistry" "getIcxTokenRegistered" = none := by rw [find, mro_ScoreRegistry]; krefl
@[py] theorem none_ScoreRegistry_registerIcxToken : find "ScoreRegistry" "registerIcxToken" = none := by rw [find, mro_ScoreRegistry]; krefl
@[py] theorem none_ScoreRegistry_convert : find "ScoreRegistry" "convert" = none := by rw [find, mro_ScoreRegistry]; krefl
@[py] theorem none_ScoreRegistry_convertFor : find "ScoreRegistry" "convertFor" = none := by rw [find, mro_ScoreRegistry]; krefl
@[py] theorem none_ScoreRegistry_fallback : find "ScoreRegistry" "fallback" = none := by rw [find, mro_ScoreRegistry]; krefl
@[py] theorem none_IRCToken_disableTransfer : find "IRCToken" "disableTransfer" = none := by rw [find, mro_IRCToken]; krefl
@[py] theorem none_IRCToken_getFlexibleTokenVersion : find "IRCToken" "getFlexibleTokenVersion" = none := by rw [find, mro_IRCToken]; krefl
@[py] theorem none_IRCToken_getTransferPossibility : find "IRCToken" "getTransferPossibility" = none := by rw [find, mro_IRCToken]; krefl
@[py] theorem none_IRCToken_issue : find "IRCToken" "issue" = none := by rw [find, mro_IRCToken]; krefl
@[py] theorem none_IRCToken_destroy : find "IRCToken" "destroy" = none := by rw [find, mro_IRCToken]; krefl
@[py] theorem none_IRCToken_deposit : find "IRCToken" "deposit" = none := by rw [find, mro_IRCToken]; krefl
@[py] theorem none_IRCToken_withdraw : find "IRCToken" "withdraw" = none := by rw [find, mro_IRCToken]; krefl
@[py] theorem none_IRCToken_withdrawTo : find "IRCToken" "withdrawTo" = none := by rw [find, mro_IRCToken]; krefl
@[py] theorem none_IRCToken_getOwner : find "IRCToken" "getOwner" = none := by rw [find, mro_IRCToken]; krefl
@[py] theorem none_IRCToken_getNewOwner : find "IRCToken" "getNewOwner" = none := by rw [find, mro_IRCToken]; krefl
@[py] theorem none_IRCToken_transferOwnerShip : find "IRCToken" "transferOwnerShip" = none := by rw [find, mro_IRCToken]; krefl
@[py] theorem none_IRCToken_acceptOwnerShip : find "IRCToken" "acceptOwnerShip" = none := by rw [find, mro_IRCToken]; krefl
@[py] theorem none_IRCToken_getManager : find "IRCToken" "getManager" = none := by rw [find, mro_IRCToken]; krefl
@[py] theorem none_IRCToken_getNewManager : find "IRCToken" "getNewManager" = none := by rw [find, mro_IRCToken]; krefl
@[py] theorem none_IRCToken_transferManagement : find "IRCToken" "transferManagement" = none := by rw [find, mro_IRCToken]; krefl
@[py] theorem none_IRCToken_acceptManagement : find "IRCToken" "acceptManagement" = none := by rw [find, mro_IRCToken]; krefl
@[py] theorem none_IRCToken_withdrawTokens : find "IRCToken" "withdrawTokens" = none := by rw [find, mro_IRCToken]; krefl
@[py] theorem none_IRCToken_tokenFallback : find "IRCToken" "tokenFallback" = none := by rw [find, mro_IRCToken]; krefl
@[py] theorem none_IRCToken_isActive : find "IRCToken" "isActive" = none := by rw [find, mro_IRCToken]; krefl
@[py] theorem none_IRCToken_transferTokenOwnership : find "IRCToken" "transferTokenOwnership" = none := by rw [find, mro_IRCToken]; krefl
@[py] theorem none_IRCToken_acceptTokenOwnership : find "IRCToken" "acceptTokenOwnership" = none := by rw [find, mro_IRCToken]; krefl
@[py] theorem none_IRCToken_disableTokenTransfers : find "IRCToken" "disableTokenTransfers" = none := by rw [find, mro_IRCToken]; krefl
@[py] theorem none_IRCToken_withdrawFromToken : find "IRCToken" "withdrawFromToken" = none := by rw [find, mro_IRCToken]; krefl
@[py] theorem none_IRCToken_getToken : find "IRCToken" "getToken" = none := by rw [find, mro_IRCToken]; krefl
@[py] theorem none_IRCToken_addConnector : find "IRCToken" "addConnector" = none := by rw [find, mro_IRCToken]; krefl
@[py] theorem none_IRCToken_updateConnector : find "IRCToken" "updateConnector" = none := by rw [find, mro_IRCToken]; krefl
@[py] theorem none_IRCToken_disableConnectorPurchases : find "IRCToken" "disableConnectorPurchases" = none := by rw [find, mro_IRCToken]; krefl
@[py] theorem none_IRCToken_updateRegistry : find "IRCToken" "updateRegistry" = none := by rw [find, mro_IRCToken]; krefl
@[py] theorem none_IRCToken_restoreRegistry : find "IRCToken" "restoreRegistry" = none := by rw [find, mro_IRCToken]; krefl
@[py] theorem none_IRCToken_disableRegistryUpdate : find "IRCToken" "disableRegistryUpdate" = none := by rw [find, mro_IRCToken]; krefl
@[py] theorem none_IRCToken_disableConversions : find "IRCToken" "disableConversions" = none := by rw [find, mro_IRCToken]; krefl
@[py] theorem none_IRCToken_setConversionFee : find "IRCToken" "setConversionFee" = none := by rw [find, mro_IRCToken]; krefl
@[py] theorem none_IRCToken_isAllowRegistryUpdate : find "IRCToken" "isAllowRegistryUpdate" = none := by rw [find, mro_IRCToken]; krefl
@[py] theorem none_IRCToken_getPreviousRegistry : find "IRCToken" "getPreviousRegistry" = none := by rw [find, mro_IRCToken]; krefl
@[py] theorem none_IRCToken_getRegistry : find "IRCToken" "getRegistry" = none := by rw [find, mro_IRCToken]; krefl
@[py] theorem none_IRCToken_getConnectorTokenCount : find "IRCToken" "getConnectorTokenCount" = none := by rw [find, mro_IRCToken]; krefl
@[py] theorem none_IRCToken_getMaxConversionFee : find "IRCToken" "getMaxConversionFee" = none := by rw [find, mro_IRCToken]; krefl
@[py] theorem none_IRCToken_getConversionFee : find "IRCToken" "getConversionFee" = none := by rw [find, mro_IRCToken]; krefl
@[py] theorem none_IRCToken_isConversionsEnabled : find "IRCToken" "isConversionsEnabled" = none := by rw [find, mro_IRCToken]; krefl
@[py] theorem none_IRCToken_getConnectorAt : find "IRCToken" "getConnectorAt" = none := by rw [find, mro_IRCToken]; krefl
@[py] theorem none_IRCToken_getConnector : find "IRCToken" "getConnector" = none := by rw [find, mro_IRCToken]; krefl
@[py] theorem none_IRCToken_getConnectorBalance : find "IRCToken" "getConnectorBalance" = none := by rw [find, mro_IRCToken]; krefl
@[py] theorem none_IRCToken_getReturn : find "IRCToken" "getReturn" = none := by rw [find, mro_IRCToken]; krefl
@[py] theorem none_IRCToken_getFinalAmount : find "IRCToken" "getFinalAmount" = none := by rw [find, mro_IRCToken]; krefl
@[py] theorem none_IRCToken_getAddress : find "IRCToken" "getAddress" = none := by rw [find, mro_IRCToken]; krefl
@[py] theorem none_IRCToken_getScoreIds : find "IRCToken" "getScoreIds" = none := by rw [find, mro_IRCToken]; krefl
@[py] theorem none_IRCToken_registerAddress : find "IRCToken" "registerAddress" = none := by rw [find, mro_IRCToken]; krefl
@[py] theorem none_IRCToken_unregisterAddress : find "IRCToken" "unregisterAddress" = none := by rw [find, mro_IRCToken]; krefl
@[py] theorem none_IRCToken_getExpectedReturnByPath : find "IRCToken" "getExpectedReturnByPath" = none := by rw [find, mro_IRCToken]; krefl
@[py] theorem none_IRCToken_getIcxTokenRegistered : find "IRCToken" "getIcxTokenRegistered" = none := by rw [find, mro_IRCToken]; krefl
@[py] theorem none_IRCToken_registerIcxToken : find "IRCToken" "registerIcxToken" = none := by rw [find, mro_IRCToken]; krefl
@[py] theorem none_IRCToken_convert : find "IRCToken" "convert" = none := by rw [find, mro_IRCToken]; krefl
@[py] theorem none_IRCToken_convertFor : find "IRCToken" "convertFor" = none := by rw [find, mro_IRCToken]; krefl
@[py] theorem none_IRCToken_fallback : find "IRCToken" "fallback" = none := by rw [find, mro_IRCToken]; krefl
@[py] theorem ext_tOwned_getOwner : tOwned_getOwner.ext = true := rfl
@[py] theorem pay_tOwned_getOwner : tOwned_getOwner.payable = false := rfl
@[py] theorem ans_tOwned_getOwner : tOwned_getOwner.answers = "Address" := rfl
@[py] theorem ext_tOwned_getNewOwner : tOwned_getNewOwner.ext = true := rfl
@[py] theorem pay_tOwned_getNewOwner : tOwned_getNewOwner.payable = false := rfl
@[py] theorem ans_tOwned_getNewOwner : tOwned_getNewOwner.answers = "Address" := rfl
@[py] theorem ext_tOwned_transferOwnerShip : tOwned_transferOwnerShip.ext = true := rfl
@[py] theorem pay_tOwned_transferOwnerShip : tOwned_transferOwnerShip.payable = false := rfl
@[py] theorem ans_tOwned_transferOwnerShip : tOwned_transferOwnerShip.answers = "" := rfl
@[py] theorem ext_tOwned_acceptOwnerShip : tOwned_acceptOwnerShip.ext = true := rfl
@[py] theorem pay_tOwned_acceptOwnerShip : tOwned_acceptOwnerShip.payable = false := rfl
@[py] theorem ans_tOwned_acceptOwnerShip : tOwned_acceptOwnerShip.answers = "" := rfl
@[py] theorem ext_tManaged_getManager : tManaged_getManager.ext = true := rfl
@[py] theorem pay_tManaged_getManager : tManaged_getManager.payable = false := rfl
@[py] theorem ans_tManaged_getManager : tManaged_getManager.answers = "Address" := rfl
@[py] theorem ext_tManaged_getNewManager : tManaged_getNewManager.ext = true := rfl
@[py] theorem pay_tManaged_getNewManager : tManaged_getNewManager.payable = false := rfl
@[py] theorem ans_tManaged_getNewManager : tManaged_getNewManager.answers = "Address" := rfl
@[py] theorem ext_tManaged_transferManagement : tManaged_transferManagement.ext = true := rfl
@[py] theorem pay_tManaged_transferManagement : tManaged_transferManagement.payable = false := rfl
@[py] theorem ans_tManaged_transferManagement : tManaged_transferManagement.answers = "" := rfl
@[py] theorem ext_tManaged_acceptManagement : tManaged_acceptManagement.ext = true := rfl
@[py] theorem pay_tManaged_acceptManagement : tManaged_acceptManagement.payable = false := rfl
@[py] theorem ans_tManaged_acceptManagement : tManaged_acceptManagement.answers = "" := rfl
@[py] theorem ext_tTokenHolder_withdrawTokens : tTokenHolder_withdrawTokens.ext = true := rfl
@[py] theorem pay_tTokenHolder_withdrawTokens : tTokenHolder_withdrawTokens.payable = false := rfl
@[py] theorem ans_tTokenHolder_withdrawTokens : tTokenHolder_withdrawTokens.answers = "None" := rfl
@[py] theorem ext_tFlexibleTokenController_isActive : tFlexibleTokenController_isActive.ext = true := rfl
@[py] theorem pay_tFlexibleTokenController_isActive : tFlexibleTokenController_isActive.payable = false := rfl
@[py] theorem ans_tFlexibleTokenController_isActive : tFlexibleTokenController_isActive.answers = "bool" := rfl
@[py] theorem ext_tFlexibleTokenController_transferTokenOwnership : tFlexibleTokenController_transferTokenOwnership.ext = true := rfl
@[py] theorem pay_tFlexibleTokenController_transferTokenOwnership : tFlexibleTokenController_transferTokenOwnership.payable = false := rfl
@[py] theorem ans_tFlexibleTokenController_transferTokenOwnership : tFlexibleTokenController_transferTokenOwnership.answers = "None" := rfl
@[py] theorem ext_tFlexibleTokenController_acceptTokenOwnership : tFlexibleTokenController_acceptTokenOwnership.ext = true := rfl
@[py] theorem pay_tFlexibleTokenController_acceptTokenOwnership : tFlexibleTokenController_acceptTokenOwnership.payable = false := rfl
@[py] theorem ans_tFlexibleTokenController_acceptTokenOwnership : tFlexibleTokenController_acceptTokenOwnership.answers = "None" := rfl
@[py] theorem ext_tFlexibleTokenController_disableTokenTransfers : tFlexibleTokenController_disableTokenTransfers.ext = true := rfl
@[py] theorem pay_tFlexibleTokenController_disableTokenTransfers : tFlexibleTokenController_disableTokenTransfers.payable = false := rfl
@[py] theorem ans_tFlexibleTokenController_disableTokenTransfers : tFlexibleTokenController_disableTokenTransfers.answers = "None" := rfl
@[py] theorem ext_tFlexibleTokenController_withdrawFromToken : tFlexibleTokenController_withdrawFromToken.ext = true := rfl
@[py] theorem pay_tFlexibleTokenController_withdrawFromToken : tFlexibleTokenController_withdrawFromToken.payable = false := rfl
@[py] theorem ans_tFlexibleTokenController_withdrawFromToken : tFlexibleTokenController_withdrawFromToken.answers = "None" := rfl
@[py] theorem ext_tFlexibleTokenController_getToken : tFlexibleTokenController_getToken.ext = true := rfl
@[py] theorem pay_tFlexibleTokenController_getToken : tFlexibleTokenController_getToken.payable = false := rfl
@[py] theorem ans_tFlexibleTokenController_getToken : tFlexibleTokenController_getToken.answers = "Address" := rfl
@[py] theorem ext_tIRCToken_name : tIRCToken_name.ext = true := rfl
@[py] theorem pay_tIRCToken_name : tIRCToken_name.payable = false := rfl
@[py] theorem ans_tIRCToken_name : tIRCToken_name.answers = "str" := rfl
@[py] theorem ext_tIRCToken_symbol : tIRCToken_symbol.ext = true := rfl
@[py] theorem pay_tIRCToken_symbol : tIRCToken_symbol.payable = false := rfl
@[py] theorem ans_tIRCToken_symbol : tIRCToken_symbol.answers = "str" := rfl
@[py] theorem ext_tIRCToken_decimals : tIRCToken_decimals.ext = true := rfl
@[py] theorem pay_tIRCToken_decimals : tIRCToken_decimals.payable = false := rfl
@[py] theorem ans_tIRCToken_decimals : tIRCToken_decimals.answers = "int" := rfl
@[py] theorem ext_tIRCToken_totalSupply : tIRCToken_totalSupply.ext = true := rfl
@[py] theorem pay_tIRCToken_totalSupply : tIRCToken_totalSupply.payable = false := rfl
@[py] theorem ans_tIRCToken_totalSupply : tIRCToken_totalSupply.answers = "int" := rfl
@[py] theorem ext_tIRCToken_balanceOf : tIRCToken_balanceOf.ext = true := rfl
@[py] theorem pay_tIRCToken_balanceOf : tIRCToken_balanceOf.payable = false := rfl
@[py] theorem ans_tIRCToken_balanceOf : tIRCToken_balanceOf.answers = "int" := rfl
@[py] theorem ext_tIRCToken_transfer : tIRCToken_transfer.ext = true := rfl
@[py] theorem pay_tIRCToken_transfer : tIRCToken_transfer.payable = false := rfl
@[py] theorem ans_tIRCToken_transfer : tIRCToken_transfer.answers = "" := rfl
@[py] theorem ext_tIRCToken__transfer : tIRCToken__transfer.ext = false := rfl
@[py] theorem pay_tIRCToken__transfer : tIRCToken__transfer.payable = false := rfl
@[py] theorem ans_tIRCToken__transfer : tIRCToken__transfer.answers = "" := rfl
@[py] theorem ext_tFlexibleToken_disableTransfer : tFlexibleToken_disableTransfer.ext = true := rfl
@[py] theorem pay_tFlexibleToken_disableTransfer : tFlexibleToken_disableTransfer.payable = false := rfl
@[py] theorem ans_tFlexibleToken_disableTransfer : tFlexibleToken_disableTransfer.answers = "None" := rfl
@[py] theorem ext_tFlexibleToken_getFlexibleTokenVersion : tFlexibleToken_getFlexibleTokenVersion.ext = true := rfl
@[py] theorem pay_tFlexibleToken_getFlexibleTokenVersion : tFlexibleToken_getFlexibleTokenVersion.payable = false := rfl
@[py] theorem ans_tFlexibleToken_getFlexibleTokenVersion : tFlexibleToken_getFlexibleTokenVersion.answers = "str" := rfl
@[py] theorem ext_tFlexibleToken_getTransferPossibility : tFlexibleToken_getTransferPossibility.ext = true := rfl
@[py] theorem pay_tFlexibleToken_getTransferPossibility : tFlexibleToken_getTransferPossibility.payable = false := rfl
@[py] theorem ans_tFlexibleToken_getTransferPossibility : tFlexibleToken_getTransferPossibility.answers = "bool" := rfl
@[py] theorem ext_tFlexibleToken_issue : tFlexibleToken_issue.ext = true := rfl
@[py] theorem pay_tFlexibleToken_issue : tFlexibleToken_issue.payable = false := rfl
@[py] theorem ans_tFlexibleToken_issue : tFlexibleToken_issue.answers = "None" := rfl
@[py] theorem ext_tFlexibleToken_destroy : tFlexibleToken_destroy.ext = true := rfl
@[py] theorem pay_tFlexibleToken_destroy : tFlexibleToken_destroy.payable = false := rfl
@[py] theorem ans_tFlexibleToken_destroy : tFlexibleToken_destroy.answers = "None" := rfl
@[py] theorem ext_tFlexibleToken_transfer : tFlexibleToken_transfer.ext = true := rfl
@[py] theorem pay_tFlexibleToken_transfer : tFlexibleToken_transfer.payable = false := rfl
@[py] theorem ans_tFlexibleToken_transfer : tFlexibleToken_transfer.answers = "" := rfl
@[py] theorem ext_tIcxToken_fallback : tIcxToken_fallback.ext = false := rfl
@[py] theorem pay_tIcxToken_fallback : tIcxToken_fallback.payable = true := rfl
@[py] theorem ans_tIcxToken_fallback : tIcxToken_fallback.answers = "" := rfl
@[py] theorem ext_tIcxToken_deposit : tIcxToken_deposit.ext = true := rfl
@[py] theorem pay_tIcxToken_deposit : tIcxToken_deposit.payable = true := rfl
@[py] theorem ans_tIcxToken_deposit : tIcxToken_deposit.answers = "" := rfl
@[py] theorem ext_tIcxToken_withdraw : tIcxToken_withdraw.ext = true := rfl
@[py] theorem pay_tIcxToken_withdraw : tIcxToken_withdraw.payable = false := rfl
@[py] theorem ans_tIcxToken_withdraw : tIcxToken_withdraw.answers = "" := rfl
@[py] theorem ext_tIcxToken_withdrawTo : tIcxToken_withdrawTo.ext = true := rfl
@[py] theorem pay_tIcxToken_withdrawTo : tIcxToken_withdrawTo.payable = false := rfl
@[py] theorem ans_tIcxToken_withdrawTo : tIcxToken_withdrawTo.answers = "" := rfl
@[py] theorem ext_tIcxToken_transfer : tIcxToken_transfer.ext = true := rfl
@[py] theorem pay_tIcxToken_transfer : tIcxToken_transfer.payable = false := rfl
@[py] theorem ans_tIcxToken_transfer : tIcxToken_transfer.answers = "" := rfl
@[py] theorem ext_tScoreRegistry_getAddress : tScoreRegistry_getAddress.ext = true := rfl
@[py] theorem pay_tScoreRegistry_getAddress : tScoreRegistry_getAddress.payable = false := rfl
@[py] theorem ans_tScoreRegistry_getAddress : tScoreRegistry_getAddress.answers = "Address" := rfl
@[py] theorem ext_tScoreRegistry_getScoreIds : tScoreRegistry_getScoreIds.ext = true := rfl
@[py] theorem pay_tScoreRegistry_getScoreIds : tScoreRegistry_getScoreIds.payable = false := rfl
@[py] theorem ans_tScoreRegistry_getScoreIds : tScoreRegistry_getScoreIds.answers = "list" := rfl
@[py] theorem ext_tScoreRegistry_registerAddress : tScoreRegistry_registerAddress.ext = true := rfl
@[py] theorem pay_tScoreRegistry_registerAddress : tScoreRegistry_registerAddress.payable = false := rfl
@[py] theorem ans_tScoreRegistry_registerAddress : tScoreRegistry_registerAddress.answers = "" := rfl
@[py] theorem ext_tScoreRegistry_unregisterAddress : tScoreRegistry_unregisterAddress.ext = true := rfl
@[py] theorem pay_tScoreRegistry_unregisterAddress : tScoreRegistry_unregisterAddress.payable = false := rfl
@[py] theorem ans_tScoreRegistry_unregisterAddress : tScoreRegistry_unregisterAddress.answers = "" := rfl
@[py] theorem ext_tConverter_tokenFallback : tConverter_tokenFallback.ext = true := rfl
@[py] theorem pay_tConverter_tokenFallback : tConverter_tokenFallback.payable = false := rfl
@[py] theorem ans_tConverter_tokenFallback : tConverter_tokenFallback.answers = "" := rfl
@[py] theorem ext_tConverter__convert : tConverter__convert.ext = false := rfl
@[py] theorem pay_tConverter__convert : tConverter__convert.payable = false := rfl
@[py] theorem ans_tConverter__convert : tConverter__convert.answers = "int" := rfl
@[py] theorem ext_tConverter_addConnector : tConverter_addConnector.ext = true := rfl
@[py] theorem pay_tConverter_addConnector : tConverter_addConnector.payable = false := rfl
@[py] theorem ans_tConverter_addConnector : tConverter_addConnector.answers = "" := rfl
@[py] theorem ext_tConverter_updateConnector : tConverter_updateConnector.ext = true := rfl
@[py] theorem pay_tConverter_updateConnector : tConverter_updateConnector.payable = false := rfl
@[py] theorem ans_tConverter_updateConnector : tConverter_updateConnector.answers = "" := rfl
@[py] theorem ext_tConverter_disableConnectorPurchases : tConverter_disableConnectorPurchases.ext = true := rfl
@[py] theorem pay_tConverter_disableConnectorPurchases : tConverter_disableConnectorPurchases.payable = false := rfl
@[py] theorem ans_tConverter_disableConnectorPurchases : tConverter_disableConnectorPurchases.answers = "" := rfl
@[py] theorem ext_tConverter_updateRegistry : tConverter_updateRegistry.ext = true := rfl
@[py] theorem pay_tConverter_updateRegistry : tConverter_updateRegistry.payable = false := rfl
@[py] theorem ans_tConverter_updateRegistry : tConverter_updateRegistry.answers = "" := rfl
@[py] theorem ext_tConverter_restoreRegistry : tConverter_restoreRegistry.ext = true := rfl
@[py] theorem pay_tConverter_restoreRegistry : tConverter_restoreRegistry.payable = false := rfl
@[py] theorem ans_tConverter_restoreRegistry : tConverter_restoreRegistry.answers = "" := rfl
@[py] theorem ext_tConverter_disableRegistryUpdate : tConverter_disableRegistryUpdate.ext = true := rfl
@[py] theorem pay_tConverter_disableRegistryUpdate : tConverter_disableRegistryUpdate.payable = false := rfl
@[py] theorem ans_tConverter_disableRegistryUpdate : tConverter_disableRegistryUpdate.answers = "" := rfl
@[py] theorem ext_tConverter_disableConversions : tConverter_disableConversions.ext = true := rfl
@[py] theorem pay_tConverter_disableConversions : tConverter_disableConversions.payable = false := rfl
@[py] theorem ans_tConverter_disableConversions : tConverter_disableConversions.answers = "" := rfl
@[py] theorem ext_tConverter_setConversionFee : tConverter_setConversionFee.ext = true := rfl
@[py] theorem pay_tConverter_setConversionFee : tConverter_setConversionFee.payable = false := rfl
@[py] theorem ans_tConverter_setConversionFee : tConverter_setConversionFee.answers = "" := rfl
@[py] theorem ext_tConverter_withdrawTokens : tConverter_withdrawTokens.ext = true := rfl
@[py] theorem pay_tConverter_withdrawTokens : tConverter_withdrawTokens.payable = false := rfl
@[py] theorem ans_tConverter_withdrawTokens : tConverter_withdrawTokens.answers = "" := rfl
@[py] theorem ext_tConverter_isAllowRegistryUpdate : tConverter_isAllowRegistryUpdate.ext = true := rfl
@[py] theorem pay_tConverter_isAllowRegistryUpdate : tConverter_isAllowRegistryUpdate.payable = false := rfl
@[py] theorem ans_tConverter_isAllowRegistryUpdate : tConverter_isAllowRegistryUpdate.answers = "bool" := rfl
@[py] theorem ext_tConverter_isActive : tConverter_isActive.ext = true := rfl
@[py] theorem pay_tConverter_isActive : tConverter_isActive.payable = false := rfl
@[py] theorem ans_tConverter_isActive : tConverter_isActive.answers = "bool" := rfl
@[py] theorem ext_tConverter_getPreviousRegistry : tConverter_getPreviousRegistry.ext = true := rfl
@[py] theorem pay_tConverter_getPreviousRegistry : tConverter_getPreviousRegistry.payable = false := rfl
@[py] theorem ans_tConverter_getPreviousRegistry : tConverter_getPreviousRegistry.answers = "Address" := rfl
@[py] theorem ext_tConverter_getRegistry : tConverter_getRegistry.ext = true := rfl
@[py] theorem pay_tConverter_getRegistry : tConverter_getRegistry.payable = false := rfl
@[py] theorem ans_tConverter_getRegistry : tConverter_getRegistry.answers = "Address" := rfl
@[py] theorem ext_tConverter_getConnectorTokenCount : tConverter_getConnectorTokenCount.ext = true := rfl
@[py] theorem pay_tConverter_getConnectorTokenCount : tConverter_getConnectorTokenCount.payable = false := rfl
@[py] theorem ans_tConverter_getConnectorTokenCount : tConverter_getConnectorTokenCount.answers = "int" := rfl
@[py] theorem ext_tConverter_getMaxConversionFee : tConverter_getMaxConversionFee.ext = true := rfl
@[py] theorem pay_tConverter_getMaxConversionFee : tConverter_getMaxConversionFee.payable = false := rfl
@[py] theorem ans_tConverter_getMaxConversionFee : tConverter_getMaxConversionFee.answers = "int" := rfl
@[py] theorem ext_tConverter_getConversionFee : tConverter_getConversionFee.ext = true := rfl
@[py] theorem pay_tConverter_getConversionFee : tConverter_getConversionFee.payable = false := rfl
@[py] theorem ans_tConverter_getConversionFee : tConverter_getConversionFee.answers = "int" := rfl
@[py] theorem ext_tConverter_isConversionsEnabled : tConverter_isConversionsEnabled.ext = true := rfl
@[py] theorem pay_tConverter_isConversionsEnabled : tConverter_isConversionsEnabled.payable = false := rfl
@[py] theorem ans_tConverter_isConversionsEnabled : tConverter_isConversionsEnabled.answers = "bool" := rfl
@[py] theorem ext_tConverter_getConnectorAt : tConverter_getConnectorAt.ext = true := rfl
@[py] theorem pay_tConverter_getConnectorAt : tConverter_getConnectorAt.payable = false := rfl
@[py] theorem ans_tConverter_getConnectorAt : tConverter_getConnectorAt.answers = "Address" := rfl
@[py] theorem ext_tConverter_getConnector : tConverter_getConnector.ext = true := rfl
@[py] theorem pay_tConverter_getConnector : tConverter_getConnector.payable = false := rfl
@[py] theorem ans_tConverter_getConnector : tConverter_getConnector.answers = "dict" := rfl
@[py] theorem ext_tConverter_getConnectorBalance : tConverter_getConnectorBalance.ext = true := rfl
@[py] theorem pay_tConverter_getConnectorBalance : tConverter_getConnectorBalance.payable = false := rfl
@[py] theorem ans_tConverter_getConnectorBalance : tConverter_getConnectorBalance.answers = "int" := rfl
@[py] theorem ext_tConverter_getReturn : tConverter_getReturn.ext = true := rfl
@[py] theorem pay_tConverter_getReturn : tConverter_getReturn.payable = false := rfl
@[py] theorem ans_tConverter_getReturn : tConverter_getReturn.answers = "dict" := rfl
@[py] theorem ext_tConverter_getFinalAmount : tConverter_getFinalAmount.ext = true := rfl
@[py] theorem pay_tConverter_getFinalAmount : tConverter_getFinalAmount.payable = false := rfl
@[py] theorem ans_tConverter_getFinalAmount : tConverter_getFinalAmount.answers = "int" := rfl
@[py] theorem ext_tNetwork_getExpectedReturnByPath : tNetwork_getExpectedReturnByPath.ext = true := rfl
@[py] theorem pay_tNetwork_getExpectedReturnByPath : tNetwork_getExpectedReturnByPath.payable = false := rfl
@[py] theorem ans_tNetwork_getExpectedReturnByPath : tNetwork_getExpectedReturnByPath.answers = "int" := rfl
@[py] theorem ext_tNetwork_getIcxTokenRegistered : tNetwork_getIcxTokenRegistered.ext = true := rfl
@[py] theorem pay_tNetwork_getIcxTokenRegistered : tNetwork_getIcxTokenRegistered.payable = false := rfl
@[py] theorem ans_tNetwork_getIcxTokenRegistered : tNetwork_getIcxTokenRegistered.answers = "bool" := rfl
@[py] theorem ext_tNetwork_registerIcxToken : tNetwork_registerIcxToken.ext = true := rfl
@[py] theorem pay_tNetwork_registerIcxToken : tNetwork_registerIcxToken.payable = false := rfl
@[py] theorem ans_tNetwork_registerIcxToken : tNetwork_registerIcxToken.answers = "" := rfl
@[py] theorem ext_tNetwork_tokenFallback : tNetwork_tokenFallback.ext = true := rfl
@[py] theorem pay_tNetwork_tokenFallback : tNetwork_tokenFallback.payable = false := rfl
@[py] theorem ans_tNetwork_tokenFallback : tNetwork_tokenFallback.answers = "" := rfl
@[py] theorem ext_tNetwork_convert : tNetwork_convert.ext = true := rfl
@[py] theorem pay_tNetwork_convert : tNetwork_convert.payable = true := rfl
@[py] theorem ans_tNetwork_convert : tNetwork_convert.answers = "" := rfl
@[py] theorem ext_tNetwork_convertFor : tNetwork_convertFor.ext = true := rfl
@[py] theorem pay_tNetwork_convertFor : tNetwork_convertFor.payable = true := rfl
@[py] theorem ans_tNetwork_convertFor : tNetwork_convertFor.answers = "" := rfl

end Verif.Src

import Verif.Model.Source.Lang
/-!
Generated by tools/gen_source.py from the text of /repo/contracts: the syntax trees of all functions and methods of the contracts and of
the formula.
-/
set_option autoImplicit false
namespace Verif.Src

/-- `require_positive_value`, contracts/utility/utils.py:19-20. -/
def f_require_positive_value : Def where
  params := [("amount", none)]
  answers := ""
  body := (.expr (.fn "require" ⟪.cmp .gt (.name "amount") (.num 0), .str "Amount should be greater than 0"⟫))

/-- `require_valid_address`, contracts/utility/utils.py:23-25. -/
def f_require_valid_address : Def where
  params := [("address", none)]
  answers := ""
  body := (.expr (.fn "require" ⟪.fn "is_valid_address" ⟪.name "address"⟫, .str ""⟫))

/-- `require_not_this`, contracts/utility/utils.py:28-30. -/
def f_require_not_this : Def where
  params := [("score_address", none), ("address", none)]
  answers := ""
  body := (.expr (.fn "require" ⟪.cmp .ne (.name "score_address") (.name "address"), .str ""⟫))

/-- `require`, contracts/utility/utils.py:33-41. -/
def f_require : Def where
  params := [("condition", none), ("revert_message", some .none)]
  answers := ""
  body := (.ite (.not_ (.name "condition"))
      (.expr (.fn "revert" ⟪.name "revert_message"⟫))
      .pass)

/-- `is_valid_address`, contracts/utility/utils.py:44-45. -/
def f_is_valid_address : Def where
  params := [("address", none)]
  answers := ""
  body := (.ret (.and_ (.cmp .isNot (.name "address") .none) (.cmp .ne (.name "address") (.name "ZERO_SCORE_ADDRESS"))))

/-- `safe_sub`, contracts/utility/utils.py:48-57. -/
def f_safe_sub : Def where
  params := [("_x", none), ("_y", none)]
  answers := "int"
  body := (.ite (.cmp .lt (.name "_x") (.name "_y"))
      (.expr (.fn "revert" ⟪.str "Difference between two numbers should be positive"⟫))
      .pass ;;
    .ret (.op .sub (.name "_x") (.name "_y")))

/-- `__init__`, contracts/utility/owned.py:29-32. -/
def tOwned___init__ : Def where
  params := [("db", none)]
  answers := "None"
  body := (.expr (.sup "__init__" ⟪.name "db"⟫) ;;
    .assign (.attr (.name "self") "_owner") (.fn "VarDB" ⟪.str "prev_owner", .name "db", .name "Address"⟫) ;;
    .assign (.attr (.name "self") "_new_owner") (.fn "VarDB" ⟪.str "new_owner", .name "db", .name "Address"⟫))

/-- `OwnerUpdate`, contracts/utility/owned.py:26-27. -/
def tOwned_OwnerUpdate : Def where
  params := [("_prevOwner", none), ("_newOwner", none)]
  answers := ""
  event := true
  body := (.pass)

/-- `on_install`, contracts/utility/owned.py:34-36. -/
def tOwned_on_install : Def where
  params := []
  answers := "None"
  body := (.expr (.meth (.attr (.name "self") "_owner") "set" ⟪.attr (.attr (.name "self") "msg") "sender"⟫) ;;
    .expr (.meth (.attr (.name "self") "_new_owner") "set" ⟪.name "ZERO_SCORE_ADDRESS"⟫))

/-- `on_update`, contracts/utility/owned.py:38-39. -/
def tOwned_on_update : Def where
  params := []
  answers := "None"
  body := (.expr (.meth (.name "IconScoreBase") "on_update" ⟪.name "self"⟫))

/-- `require_owner_only`, contracts/utility/owned.py:41-44. -/
def tOwned_require_owner_only : Def where
  params := []
  answers := ""
  body := (.ite (.cmp .ne (.attr (.attr (.name "self") "msg") "sender") (.meth (.attr (.name "self") "_owner") "get" ⟪⟫))
      (.expr (.fn "revert" ⟪.str "Invalid owner"⟫))
      .pass)

/-- `getOwner`, contracts/utility/owned.py:47-48. -/
def tOwned_getOwner : Def where
  params := []
  answers := "Address"
  ext := true
  body := (.ret (.meth (.attr (.name "self") "_owner") "get" ⟪⟫))

/-- `getNewOwner`, contracts/utility/owned.py:51-52. -/
def tOwned_getNewOwner : Def where
  params := []
  answers := "Address"
  ext := true
  body := (.ret (.meth (.attr (.name "self") "_new_owner") "get" ⟪⟫))

/-- `transferOwnerShip`, contracts/utility/owned.py:55-59. -/
def tOwned_transferOwnerShip : Def where
  params := [("_newOwner", none)]
  answers := ""
  ext := true
  body := (.expr (.meth (.name "self") "require_owner_only" ⟪⟫) ;;
    .ite (.cmp .eq (.name "_newOwner") (.meth (.attr (.name "self") "_owner") "get" ⟪⟫))
      (.expr (.fn "revert" ⟪.str "New owner is already owner"⟫))
      .pass ;;
    .expr (.meth (.attr (.name "self") "_new_owner") "set" ⟪.name "_newOwner"⟫))

/-- `acceptOwnerShip`, contracts/utility/owned.py:62-70. -/
def tOwned_acceptOwnerShip : Def where
  params := []
  answers := ""
  ext := true
  body := (.ite (.cmp .ne (.attr (.attr (.name "self") "msg") "sender") (.meth (.attr (.name "self") "_new_owner") "get" ⟪⟫))
      (.expr (.fn "revert" ⟪.str "You are not a new owner"⟫))
      .pass ;;
    .assign (.name "prev_owner") (.meth (.attr (.name "self") "_owner") "get" ⟪⟫) ;;
    .assign (.name "new_owner") (.meth (.attr (.name "self") "_new_owner") "get" ⟪⟫) ;;
    .expr (.meth (.name "self") "OwnerUpdate" ⟪.name "prev_owner", .name "new_owner"⟫) ;;
    .expr (.meth (.attr (.name "self") "_owner") "set" ⟪.name "new_owner"⟫) ;;
    .expr (.meth (.attr (.name "self") "_new_owner") "set" ⟪.name "ZERO_SCORE_ADDRESS"⟫))

/-- `__init__`, contracts/utility/managed.py:32-35. -/
def tManaged___init__ : Def where
  params := [("db", none)]
  answers := "None"
  body := (.expr (.sup "__init__" ⟪.name "db"⟫) ;;
    .assign (.attr (.name "self") "_manager") (.fn "VarDB" ⟪.str "manager", .name "db", .name "Address"⟫) ;;
    .assign (.attr (.name "self") "_new_manager") (.fn "VarDB" ⟪.str "new_manager", .name "db", .name "Address"⟫))

/-- `ManagerUpdate`, contracts/utility/managed.py:29-30. -/
def tManaged_ManagerUpdate : Def where
  params := [("_prevManager", none), ("_newManager", none)]
  answers := ""
  event := true
  body := (.pass)

/-- `on_install`, contracts/utility/managed.py:37-39. -/
def tManaged_on_install : Def where
  params := []
  answers := "None"
  body := (.expr (.meth (.attr (.name "self") "_manager") "set" ⟪.attr (.attr (.name "self") "msg") "sender"⟫) ;;
    .expr (.meth (.attr (.name "self") "_new_manager") "set" ⟪.name "ZERO_SCORE_ADDRESS"⟫))

/-- `on_update`, contracts/utility/managed.py:41-42. -/
def tManaged_on_update : Def where
  params := []
  answers := "None"
  body := (.expr (.meth (.name "Owned") "on_update" ⟪.name "self"⟫))

/-- `require_manager_only`, contracts/utility/managed.py:45-46. -/
def tManaged_require_manager_only : Def where
  params := []
  answers := ""
  body := (.expr (.fn "require" ⟪.cmp .eq (.attr (.attr (.name "self") "msg") "sender") (.meth (.attr (.name "self") "_manager") "get" ⟪⟫), .str "Invalid manager"⟫))

/-- `require_owner_or_manager_only`, contracts/utility/managed.py:49-51. -/
def tManaged_require_owner_or_manager_only : Def where
  params := []
  answers := ""
  body := (.expr (.fn "require" ⟪.or_ (.cmp .eq (.attr (.attr (.name "self") "msg") "sender") (.meth (.attr (.name "self") "_manager") "get" ⟪⟫)) (.cmp .eq (.attr (.attr (.name "self") "msg") "sender") (.meth (.name "self") "getOwner" ⟪⟫)), .str "Invalid sender"⟫))

/-- `getManager`, contracts/utility/managed.py:54-55. -/
def tManaged_getManager : Def where
  params := []
  answers := "Address"
  ext := true
  body := (.ret (.meth (.attr (.name "self") "_manager") "get" ⟪⟫))

/-- `getNewManager`, contracts/utility/managed.py:58-59. -/
def tManaged_getNewManager : Def where
  params := []
  answers := "Address"
  ext := true
  body := (.ret (.meth (.attr (.name "self") "_new_manager") "get" ⟪⟫))

/-- `transferManagement`, contracts/utility/managed.py:62-73. -/
def tManaged_transferManagement : Def where
  params := [("_newManager", none)]
  answers := ""
  ext := true
  body := (.expr (.meth (.name "self") "require_owner_or_manager_only" ⟪⟫) ;;
    .expr (.fn "require" ⟪.cmp .ne (.meth (.attr (.name "self") "_manager") "get" ⟪⟫) (.name "_newManager"), .str "New manager is already manager"⟫) ;;
    .expr (.meth (.attr (.name "self") "_new_manager") "set" ⟪.name "_newManager"⟫))

/-- `acceptManagement`, contracts/utility/managed.py:76-87. -/
def tManaged_acceptManagement : Def where
  params := []
  answers := ""
  ext := true
  body := (.ite (.cmp .ne (.attr (.attr (.name "self") "msg") "sender") (.meth (.attr (.name "self") "_new_manager") "get" ⟪⟫))
      (.expr (.fn "revert" ⟪.str "You are not a new manager"⟫))
      .pass ;;
    .assign (.name "prev_manager") (.meth (.attr (.name "self") "_manager") "get" ⟪⟫) ;;
    .assign (.name "new_manager") (.meth (.attr (.name "self") "_new_manager") "get" ⟪⟫) ;;
    .expr (.meth (.name "self") "ManagerUpdate" ⟪.name "prev_manager", .name "new_manager"⟫) ;;
    .expr (.meth (.attr (.name "self") "_manager") "set" ⟪.name "new_manager"⟫) ;;
    .expr (.meth (.attr (.name "self") "_new_manager") "set" ⟪.name "ZERO_SCORE_ADDRESS"⟫))

/-- `__init__`, contracts/utility/token_holder.py:24-25. -/
def tTokenHolder___init__ : Def where
  params := [("db", none)]
  answers := ""
  body := (.expr (.sup "__init__" ⟪.name "db"⟫))

/-- `on_install`, contracts/utility/token_holder.py:27-28. -/
def tTokenHolder_on_install : Def where
  params := []
  answers := "None"
  body := (.expr (.meth (.name "Owned") "on_install" ⟪.name "self"⟫))

/-- `on_update`, contracts/utility/token_holder.py:30-31. -/
def tTokenHolder_on_update : Def where
  params := []
  answers := "None"
  body := (.expr (.meth (.name "Owned") "on_update" ⟪.name "self"⟫))

/-- `withdrawTokens`, contracts/utility/token_holder.py:34-41. -/
def tTokenHolder_withdrawTokens : Def where
  params := [("_token", none), ("_to", none), ("_amount", none)]
  answers := "None"
  ext := true
  body := (.expr (.meth (.name "self") "require_owner_only" ⟪⟫) ;;
    .expr (.fn "require_positive_value" ⟪.name "_amount"⟫) ;;
    .expr (.fn "require_not_this" ⟪.attr (.name "self") "address", .name "_to"⟫) ;;
    .expr (.fn "require_valid_address" ⟪.name "_to"⟫) ;;
    .assign (.name "irc_token_score") (.meth (.name "self") "create_interface_score" ⟪.name "_token", .fn "ProxyScore" ⟪.name "ABCIRCToken"⟫⟫) ;;
    .expr (.meth (.name "irc_token_score") "transfer" ⟪.name "_to", .name "_amount"⟫))

/-- `__init__`, contracts/utility/flexible_token_controller.py:41-43. -/
def tFlexibleTokenController___init__ : Def where
  params := [("db", none)]
  answers := ""
  body := (.expr (.sup "__init__" ⟪.name "db"⟫) ;;
    .assign (.attr (.name "self") "_token") (.fn "VarDB" ⟪.str "token", .name "db", .name "Address"⟫))

/-- `on_install`, contracts/utility/flexible_token_controller.py:45-48. -/
def tFlexibleTokenController_on_install : Def where
  params := [("_token", none)]
  answers := "None"
  body := (.expr (.fn "require_valid_address" ⟪.name "_token"⟫) ;;
    .expr (.meth (.name "TokenHolder") "on_install" ⟪.name "self"⟫) ;;
    .expr (.meth (.attr (.name "self") "_token") "set" ⟪.name "_token"⟫))

/-- `on_update`, contracts/utility/flexible_token_controller.py:50-51. -/
def tFlexibleTokenController_on_update : Def where
  params := []
  answers := "None"
  body := (.expr (.meth (.name "TokenHolder") "on_update" ⟪.name "self"⟫))

/-- `_is_active`, contracts/utility/flexible_token_controller.py:53-59. -/
def tFlexibleTokenController__is_active : Def where
  params := []
  answers := "bool"
  body := (.assign (.name "flexible_token") (.meth (.name "self") "create_interface_score" ⟪.meth (.attr (.name "self") "_token") "get" ⟪⟫, .name "FlexibleToken"⟫) ;;
    .ret (.cmp .eq (.meth (.name "flexible_token") "getOwner" ⟪⟫) (.attr (.name "self") "address")))

/-- `_require_active`, contracts/utility/flexible_token_controller.py:61-65. -/
def tFlexibleTokenController__require_active : Def where
  params := []
  answers := ""
  body := (.expr (.fn "require" ⟪.meth (.name "self") "_is_active" ⟪⟫, .str "required active"⟫))

/-- `_require_inactive`, contracts/utility/flexible_token_controller.py:67-71. -/
def tFlexibleTokenController__require_inactive : Def where
  params := []
  answers := ""
  body := (.expr (.fn "require" ⟪.not_ (.meth (.name "self") "_is_active" ⟪⟫), .str "required inactive"⟫))

/-- `isActive`, contracts/utility/flexible_token_controller.py:74-79. -/
def tFlexibleTokenController_isActive : Def where
  params := []
  answers := "bool"
  ext := true
  body := (.ret (.meth (.name "self") "_is_active" ⟪⟫))

/-- `transferTokenOwnership`, contracts/utility/flexible_token_controller.py:82-91. -/
def tFlexibleTokenController_transferTokenOwnership : Def where
  params := [("_newOwner", none)]
  answers := "None"
  ext := true
  body := (.expr (.meth (.name "self") "require_owner_only" ⟪⟫) ;;
    .assign (.name "flexible_token") (.meth (.name "self") "create_interface_score" ⟪.meth (.attr (.name "self") "_token") "get" ⟪⟫, .name "FlexibleToken"⟫) ;;
    .expr (.meth (.name "flexible_token") "transferOwnerShip" ⟪.name "_newOwner"⟫))

/-- `acceptTokenOwnership`, contracts/utility/flexible_token_controller.py:94-101. -/
def tFlexibleTokenController_acceptTokenOwnership : Def where
  params := []
  answers := "None"
  ext := true
  body := (.expr (.meth (.name "self") "require_owner_only" ⟪⟫) ;;
    .assign (.name "flexible_token") (.meth (.name "self") "create_interface_score" ⟪.meth (.attr (.name "self") "_token") "get" ⟪⟫, .name "FlexibleToken"⟫) ;;
    .expr (.meth (.name "flexible_token") "acceptOwnerShip" ⟪⟫))

/-- `disableTokenTransfers`, contracts/utility/flexible_token_controller.py:104-113. -/
def tFlexibleTokenController_disableTokenTransfers : Def where
  params := [("_disable", none)]
  answers := "None"
  ext := true
  body := (.expr (.meth (.name "self") "require_owner_only" ⟪⟫) ;;
    .assign (.name "flexible_token") (.meth (.name "self") "create_interface_score" ⟪.meth (.attr (.name "self") "_token") "get" ⟪⟫, .name "FlexibleToken"⟫) ;;
    .expr (.meth (.name "flexible_token") "disableTransfer" ⟪.name "_disable"⟫))

/-- `withdrawFromToken`, contracts/utility/flexible_token_controller.py:116-127. -/
def tFlexibleTokenController_withdrawFromToken : Def where
  params := [("_token", none), ("_to", none), ("_amount", none)]
  answers := "None"
  ext := true
  body := (.expr (.meth (.name "self") "require_owner_only" ⟪⟫) ;;
    .assign (.name "flexible_token") (.meth (.name "self") "create_interface_score" ⟪.meth (.attr (.name "self") "_token") "get" ⟪⟫, .name "FlexibleToken"⟫) ;;
    .expr (.meth (.name "flexible_token") "withdrawTokens" ⟪.name "_token", .name "_to", .name "_amount"⟫))

/-- `getToken`, contracts/utility/flexible_token_controller.py:130-136. -/
def tFlexibleTokenController_getToken : Def where
  params := []
  answers := "Address"
  ext := true
  body := (.ret (.meth (.attr (.name "self") "_token") "get" ⟪⟫))

/-- `__init__`, contracts/irc_token/irc_token.py:40-46. -/
def tIRCToken___init__ : Def where
  params := [("db", none)]
  answers := "None"
  body := (.expr (.sup "__init__" ⟪.name "db"⟫) ;;
    .assign (.attr (.name "self") "_name") (.fn "VarDB" ⟪.attr (.name "self") "_NAME", .name "db", .name "str"⟫) ;;
    .assign (.attr (.name "self") "_symbol") (.fn "VarDB" ⟪.attr (.name "self") "_SYMBOL", .name "db", .name "str"⟫) ;;
    .assign (.attr (.name "self") "_total_supply") (.fn "VarDB" ⟪.attr (.name "self") "_TOTAL_SUPPLY", .name "db", .name "int"⟫) ;;
    .assign (.attr (.name "self") "_decimals") (.fn "VarDB" ⟪.attr (.name "self") "_DECIMALS", .name "db", .name "int"⟫) ;;
    .assign (.attr (.name "self") "_balances") (.fn "DictDB" ⟪.attr (.name "self") "_BALANCES", .name "db", .name "int"⟫))

/-- `Transfer`, contracts/irc_token/irc_token.py:37-38. -/
def tIRCToken_Transfer : Def where
  params := [("_from", none), ("_to", none), ("_value", none), ("_data", none)]
  answers := ""
  event := true
  body := (.pass)

/-- `on_install`, contracts/irc_token/irc_token.py:48-63. -/
def tIRCToken_on_install : Def where
  params := [("_name", none), ("_symbol", none), ("_initialSupply", none), ("_decimals", none)]
  answers := "None"
  body := (.expr (.meth (.name "IconScoreBase") "on_install" ⟪.name "self"⟫) ;;
    .ite (.cmp .lt (.name "_initialSupply") (.num 0))
      (.expr (.fn "revert" ⟪.str "Initial supply cannot be less than zero"⟫))
      .pass ;;
    .ite (.cmp .lt (.name "_decimals") (.num 0))
      (.expr (.fn "revert" ⟪.str "Decimals cannot be less than zero"⟫))
      .pass ;;
    .assign (.name "total_supply") (.op .mul (.name "_initialSupply") (.op .pow (.num 10) (.name "_decimals"))) ;;
    .expr (.meth (.name "Logger") "debug" ⟪.fstr, .name "TAG"⟫) ;;
    .expr (.meth (.attr (.name "self") "_name") "set" ⟪.name "_name"⟫) ;;
    .expr (.meth (.attr (.name "self") "_symbol") "set" ⟪.name "_symbol"⟫) ;;
    .expr (.meth (.attr (.name "self") "_total_supply") "set" ⟪.name "total_supply"⟫) ;;
    .expr (.meth (.attr (.name "self") "_decimals") "set" ⟪.name "_decimals"⟫) ;;
    .assign (.index (.attr (.name "self") "_balances") (.attr (.attr (.name "self") "msg") "sender")) (.name "total_supply"))

/-- `on_update`, contracts/irc_token/irc_token.py:65-66. -/
def tIRCToken_on_update : Def where
  params := []
  answers := "None"
  body := (.expr (.meth (.name "IconScoreBase") "on_update" ⟪.name "self"⟫))

/-- `name`, contracts/irc_token/irc_token.py:69-70. -/
def tIRCToken_name : Def where
  params := []
  answers := "str"
  ext := true
  body := (.ret (.meth (.attr (.name "self") "_name") "get" ⟪⟫))

/-- `symbol`, contracts/irc_token/irc_token.py:73-74. -/
def tIRCToken_symbol : Def where
  params := []
  answers := "str"
  ext := true
  body := (.ret (.meth (.attr (.name "self") "_symbol") "get" ⟪⟫))

/-- `decimals`, contracts/irc_token/irc_token.py:77-78. -/
def tIRCToken_decimals : Def where
  params := []
  answers := "int"
  ext := true
  body := (.ret (.meth (.attr (.name "self") "_decimals") "get" ⟪⟫))

/-- `totalSupply`, contracts/irc_token/irc_token.py:81-82. -/
def tIRCToken_totalSupply : Def where
  params := []
  answers := "int"
  ext := true
  body := (.ret (.meth (.attr (.name "self") "_total_supply") "get" ⟪⟫))

/-- `balanceOf`, contracts/irc_token/irc_token.py:85-86. -/
def tIRCToken_balanceOf : Def where
  params := [("_owner", none)]
  answers := "int"
  ext := true
  body := (.ret (.index (.attr (.name "self") "_balances") (.name "_owner")))

/-- `transfer`, contracts/irc_token/irc_token.py:89-92. -/
def tIRCToken_transfer : Def where
  params := [("_to", none), ("_value", none), ("_data", some .none)]
  answers := ""
  ext := true
  body := (.ite (.cmp .is (.name "_data") .none)
      (.assign (.name "_data") (.bytes "None"))
      .pass ;;
    .expr (.meth (.name "self") "_transfer" ⟪.attr (.attr (.name "self") "msg") "sender", .name "_to", .name "_value", .name "_data"⟫))

/-- `_transfer`, contracts/irc_token/irc_token.py:94-113. -/
def tIRCToken__transfer : Def where
  params := [("_from", none), ("_to", none), ("_value", none), ("_data", none)]
  answers := ""
  body := (.ite (.cmp .lt (.name "_value") (.num 0))
      (.expr (.fn "revert" ⟪.str "Transferring value cannot be less than zero"⟫))
      .pass ;;
    .ite (.cmp .lt (.index (.attr (.name "self") "_balances") (.name "_from")) (.name "_value"))
      (.expr (.fn "revert" ⟪.str "Out of balance"⟫))
      .pass ;;
    .assign (.index (.attr (.name "self") "_balances") (.name "_from")) (.op .sub (.index (.attr (.name "self") "_balances") (.name "_from")) (.name "_value")) ;;
    .assign (.index (.attr (.name "self") "_balances") (.name "_to")) (.op .add (.index (.attr (.name "self") "_balances") (.name "_to")) (.name "_value")) ;;
    .ite (.attr (.name "_to") "is_contract")
      (.assign (.name "recipient_score") (.meth (.name "self") "create_interface_score" ⟪.name "_to", .name "TokenFallbackInterface"⟫) ;;
      .expr (.meth (.name "recipient_score") "tokenFallback" ⟪.name "_from", .name "_value", .name "_data"⟫))
      .pass ;;
    .expr (.meth (.name "self") "Transfer" ⟪.name "_from", .name "_to", .name "_value", .name "_data"⟫) ;;
    .expr (.meth (.name "Logger") "debug" ⟪.fstr, .name "TAG"⟫))

/-- `__init__`, contracts/flexible_token/flexible_token.py:41-44. -/
def tFlexibleToken___init__ : Def where
  params := [("db", none)]
  answers := "None"
  body := (.expr (.sup "__init__" ⟪.name "db"⟫) ;;
    .assign (.attr (.name "self") "_version") (.fn "VarDB" ⟪.str "version", .name "db", .name "str"⟫) ;;
    .assign (.attr (.name "self") "_transfer_possibility") (.fn "VarDB" ⟪.str "transfer_possibility", .name "db", .name "bool"⟫))

/-- `NewFlexibleToken`, contracts/flexible_token/flexible_token.py:30-31. -/
def tFlexibleToken_NewFlexibleToken : Def where
  params := [("_token", none)]
  answers := ""
  event := true
  body := (.pass)

/-- `Issuance`, contracts/flexible_token/flexible_token.py:34-35. -/
def tFlexibleToken_Issuance : Def where
  params := [("_amount", none)]
  answers := ""
  event := true
  body := (.pass)

/-- `Destruction`, contracts/flexible_token/flexible_token.py:38-39. -/
def tFlexibleToken_Destruction : Def where
  params := [("_amount", none)]
  answers := ""
  event := true
  body := (.pass)

/-- `on_install`, contracts/flexible_token/flexible_token.py:46-53. -/
def tFlexibleToken_on_install : Def where
  params := [("_name", none), ("_symbol", none), ("_initialSupply", none), ("_decimals", none)]
  answers := "None"
  body := (.expr (.meth (.name "IRCToken") "on_install" ⟪.name "self", .name "_name", .name "_symbol", .name "_initialSupply", .name "_decimals"⟫) ;;
    .expr (.meth (.name "TokenHolder") "on_install" ⟪.name "self"⟫) ;;
    .expr (.meth (.attr (.name "self") "_version") "set" ⟪.attr (.name "self") "_VERSION"⟫) ;;
    .expr (.meth (.attr (.name "self") "_transfer_possibility") "set" ⟪.bool true⟫) ;;
    .expr (.meth (.name "self") "NewFlexibleToken" ⟪.attr (.name "self") "address"⟫))

/-- `on_update`, contracts/flexible_token/flexible_token.py:55-57. -/
def tFlexibleToken_on_update : Def where
  params := []
  answers := "None"
  body := (.expr (.meth (.name "IRCToken") "on_update" ⟪.name "self"⟫) ;;
    .expr (.meth (.name "TokenHolder") "on_update" ⟪.name "self"⟫))

/-- `require_transfer_allowed`, contracts/flexible_token/flexible_token.py:59-60. -/
def tFlexibleToken_require_transfer_allowed : Def where
  params := []
  answers := ""
  body := (.expr (.fn "require" ⟪.meth (.attr (.name "self") "_transfer_possibility") "get" ⟪⟫, .str "This flexible token cannot transfer"⟫))

/-- `disableTransfer`, contracts/flexible_token/flexible_token.py:63-65. -/
def tFlexibleToken_disableTransfer : Def where
  params := [("_disable", none)]
  answers := "None"
  ext := true
  body := (.expr (.meth (.name "self") "require_owner_only" ⟪⟫) ;;
    .expr (.meth (.attr (.name "self") "_transfer_possibility") "set" ⟪.not_ (.name "_disable")⟫))

/-- `getFlexibleTokenVersion`, contracts/flexible_token/flexible_token.py:68-69. -/
def tFlexibleToken_getFlexibleTokenVersion : Def where
  params := []
  answers := "str"
  ext := true
  body := (.ret (.meth (.attr (.name "self") "_version") "get" ⟪⟫))

/-- `getTransferPossibility`, contracts/flexible_token/flexible_token.py:72-73. -/
def tFlexibleToken_getTransferPossibility : Def where
  params := []
  answers := "bool"
  ext := true
  body := (.ret (.meth (.attr (.name "self") "_transfer_possibility") "get" ⟪⟫))

/-- `issue`, contracts/flexible_token/flexible_token.py:76-87. -/
def tFlexibleToken_issue : Def where
  params := [("_to", none), ("_amount", none)]
  answers := "None"
  ext := true
  body := (.expr (.fn "require_positive_value" ⟪.name "_amount"⟫) ;;
    .expr (.meth (.name "self") "require_owner_only" ⟪⟫) ;;
    .expr (.fn "require_valid_address" ⟪.name "_to"⟫) ;;
    .expr (.fn "require_not_this" ⟪.attr (.name "self") "address", .name "_to"⟫) ;;
    .aug (.index (.attr (.name "self") "_balances") (.name "_to")) .add (.name "_amount") ;;
    .assign (.name "total_supply") (.meth (.attr (.name "self") "_total_supply") "get" ⟪⟫) ;;
    .expr (.meth (.attr (.name "self") "_total_supply") "set" ⟪.op .add (.name "total_supply") (.name "_amount")⟫) ;;
    .expr (.meth (.name "self") "Issuance" ⟪.name "_amount"⟫) ;;
    .expr (.meth (.name "self") "Transfer" ⟪.attr (.name "self") "address", .name "_to", .name "_amount", .bytes "None"⟫))

/-- `destroy`, contracts/flexible_token/flexible_token.py:90-101. -/
def tFlexibleToken_destroy : Def where
  params := [("_from", none), ("_amount", none)]
  answers := "None"
  ext := true
  body := (.expr (.fn "require_positive_value" ⟪.name "_amount"⟫) ;;
    .expr (.fn "require" ⟪.cmp .ge (.index (.attr (.name "self") "_balances") (.name "_from")) (.name "_amount"), .str "Out of balance"⟫) ;;
    .expr (.fn "require" ⟪.or_ (.cmp .eq (.attr (.attr (.name "self") "msg") "sender") (.name "_from")) (.cmp .eq (.attr (.attr (.name "self") "msg") "sender") (.meth (.attr (.name "self") "_owner") "get" ⟪⟫)), .str "You are not token holder or flexible token owner"⟫) ;;
    .aug (.index (.attr (.name "self") "_balances") (.name "_from")) .sub (.name "_amount") ;;
    .assign (.name "total_supply") (.meth (.attr (.name "self") "_total_supply") "get" ⟪⟫) ;;
    .expr (.meth (.attr (.name "self") "_total_supply") "set" ⟪.op .sub (.name "total_supply") (.name "_amount")⟫) ;;
    .expr (.meth (.name "self") "Destruction" ⟪.name "_amount"⟫) ;;
    .expr (.meth (.name "self") "Transfer" ⟪.name "_from", .attr (.name "self") "address", .name "_amount", .bytes "None"⟫))

/-- `transfer`, contracts/flexible_token/flexible_token.py:104-106. -/
def tFlexibleToken_transfer : Def where
  params := [("_to", none), ("_value", none), ("_data", some .none)]
  answers := ""
  ext := true
  body := (.expr (.meth (.name "self") "require_transfer_allowed" ⟪⟫) ;;
    .expr (.meth (.name "IRCToken") "transfer" ⟪.name "self", .name "_to", .name "_value", .name "_data"⟫))

/-- `__init__`, contracts/icx_token/icx_token.py:36-37. -/
def tIcxToken___init__ : Def where
  params := [("db", none)]
  answers := "None"
  body := (.expr (.sup "__init__" ⟪.name "db"⟫))

/-- `Issuance`, contracts/icx_token/icx_token.py:29-30. -/
def tIcxToken_Issuance : Def where
  params := [("_amount", none)]
  answers := ""
  event := true
  body := (.pass)

/-- `Destruction`, contracts/icx_token/icx_token.py:33-34. -/
def tIcxToken_Destruction : Def where
  params := [("_amount", none)]
  answers := ""
  event := true
  body := (.pass)

/-- `on_install`, contracts/icx_token/icx_token.py:39-41. -/
def tIcxToken_on_install : Def where
  params := []
  answers := "None"
  body := (.expr (.meth (.name "IRCToken") "on_install" ⟪.name "self", .str "ICX Token", .str "ICXT", .num 0, .num 18⟫) ;;
    .expr (.meth (.name "TokenHolder") "on_install" ⟪.name "self"⟫))

/-- `on_update`, contracts/icx_token/icx_token.py:43-45. -/
def tIcxToken_on_update : Def where
  params := []
  answers := "None"
  body := (.expr (.meth (.name "IRCToken") "on_update" ⟪.name "self"⟫) ;;
    .expr (.meth (.name "TokenHolder") "on_update" ⟪.name "self"⟫))

/-- `fallback`, contracts/icx_token/icx_token.py:48-49. -/
def tIcxToken_fallback : Def where
  params := []
  answers := ""
  payable := true
  body := (.expr (.meth (.name "self") "deposit" ⟪⟫))

/-- `deposit`, contracts/icx_token/icx_token.py:53-59. -/
def tIcxToken_deposit : Def where
  params := []
  answers := ""
  ext := true
  payable := true
  body := (.aug (.index (.attr (.name "self") "_balances") (.attr (.attr (.name "self") "msg") "sender")) .add (.attr (.attr (.name "self") "msg") "value") ;;
    .assign (.name "total_supply") (.meth (.attr (.name "self") "_total_supply") "get" ⟪⟫) ;;
    .expr (.meth (.attr (.name "self") "_total_supply") "set" ⟪.op .add (.name "total_supply") (.attr (.attr (.name "self") "msg") "value")⟫) ;;
    .expr (.meth (.name "self") "Issuance" ⟪.attr (.attr (.name "self") "msg") "value"⟫) ;;
    .expr (.meth (.name "self") "Transfer" ⟪.attr (.name "self") "address", .attr (.attr (.name "self") "msg") "sender", .attr (.attr (.name "self") "msg") "value", .bytes "None"⟫))

/-- `withdraw`, contracts/icx_token/icx_token.py:62-63. -/
def tIcxToken_withdraw : Def where
  params := [("_amount", none)]
  answers := ""
  ext := true
  body := (.expr (.meth (.name "self") "withdrawTo" ⟪.name "_amount", .attr (.attr (.name "self") "msg") "sender"⟫))

/-- `withdrawTo`, contracts/icx_token/icx_token.py:66-76. -/
def tIcxToken_withdrawTo : Def where
  params := [("_amount", none), ("_to", none)]
  answers := ""
  ext := true
  body := (.expr (.fn "require_positive_value" ⟪.name "_amount"⟫) ;;
    .ite (.cmp .lt (.index (.attr (.name "self") "_balances") (.attr (.attr (.name "self") "msg") "sender")) (.name "_amount"))
      (.expr (.fn "revert" ⟪.str "Out of balance"⟫))
      .pass ;;
    .aug (.index (.attr (.name "self") "_balances") (.attr (.attr (.name "self") "msg") "sender")) .sub (.name "_amount") ;;
    .assign (.name "total_supply") (.meth (.attr (.name "self") "_total_supply") "get" ⟪⟫) ;;
    .expr (.meth (.attr (.name "self") "_total_supply") "set" ⟪.op .sub (.name "total_supply") (.name "_amount")⟫) ;;
    .expr (.meth (.attr (.name "self") "icx") "transfer" ⟪.name "_to", .name "_amount"⟫) ;;
    .expr (.meth (.name "self") "Destruction" ⟪.name "_amount"⟫))

/-- `transfer`, contracts/icx_token/icx_token.py:79-81. -/
def tIcxToken_transfer : Def where
  params := [("_to", none), ("_value", none), ("_data", some .none)]
  answers := ""
  ext := true
  body := (.expr (.fn "require_not_this" ⟪.attr (.name "self") "address", .name "_to"⟫) ;;
    .expr (.meth (.name "IRCToken") "transfer" ⟪.name "self", .name "_to", .name "_value", .name "_data"⟫))

/-- `__init__`, contracts/score_registry/score_registry.py:31-33. -/
def tScoreRegistry___init__ : Def where
  params := [("db", none)]
  answers := "None"
  body := (.expr (.sup "__init__" ⟪.name "db"⟫) ;;
    .assign (.attr (.name "self") "_score_address") (.fn "DictDB" ⟪.str "score_address", .name "db", .name "Address"⟫))

/-- `AddressUpdate`, contracts/score_registry/score_registry.py:28-29. -/
def tScoreRegistry_AddressUpdate : Def where
  params := [("_contractName", none), ("_scoreAddress", none)]
  answers := ""
  event := true
  body := (.pass)

/-- `on_install`, contracts/score_registry/score_registry.py:35-37. -/
def tScoreRegistry_on_install : Def where
  params := []
  answers := "None"
  body := (.expr (.meth (.name "Owned") "on_install" ⟪.name "self"⟫) ;;
    .expr (.meth (.name "self") "registerAddress" ⟪.attr (.name "self") "SCORE_REGISTRY", .attr (.name "self") "address"⟫))

/-- `on_update`, contracts/score_registry/score_registry.py:39-40. -/
def tScoreRegistry_on_update : Def where
  params := []
  answers := "None"
  body := (.expr (.meth (.name "Owned") "on_update" ⟪.name "self"⟫))

/-- `getAddress`, contracts/score_registry/score_registry.py:43-47. -/
def tScoreRegistry_getAddress : Def where
  params := [("_scoreName", none)]
  answers := "Address"
  ext := true
  body := (.ite (.cmp .is (.index (.attr (.name "self") "_score_address") (.name "_scoreName")) .none)
      (.ret (.name "ZERO_SCORE_ADDRESS"))
      (.ret (.index (.attr (.name "self") "_score_address") (.name "_scoreName"))))

/-- `getScoreIds`, contracts/score_registry/score_registry.py:50-51. -/
def tScoreRegistry_getScoreIds : Def where
  params := []
  answers := "list"
  ext := true
  body := (.ret (.attr (.name "self") "SCORE_KEYS"))

/-- `registerAddress`, contracts/score_registry/score_registry.py:54-61. -/
def tScoreRegistry_registerAddress : Def where
  params := [("_scoreName", none), ("_scoreAddress", none)]
  answers := ""
  ext := true
  body := (.expr (.meth (.name "self") "require_owner_only" ⟪⟫) ;;
    .expr (.fn "require_valid_address" ⟪.name "_scoreAddress"⟫) ;;
    .expr (.fn "require" ⟪.attr (.name "_scoreAddress") "is_contract", .str "only SCORE address can be registered"⟫) ;;
    .expr (.fn "require" ⟪.cmp .in_ (.name "_scoreName") (.attr (.name "self") "SCORE_KEYS"), .fstr⟫) ;;
    .assign (.index (.attr (.name "self") "_score_address") (.name "_scoreName")) (.name "_scoreAddress") ;;
    .expr (.meth (.name "self") "AddressUpdate" ⟪.name "_scoreName", .name "_scoreAddress"⟫))

/-- `unregisterAddress`, contracts/score_registry/score_registry.py:64-69. -/
def tScoreRegistry_unregisterAddress : Def where
  params := [("_scoreName", none)]
  answers := ""
  ext := true
  body := (.expr (.meth (.name "self") "require_owner_only" ⟪⟫) ;;
    .expr (.fn "require" ⟪.cmp .isNot (.index (.attr (.name "self") "_score_address") (.name "_scoreName")) .none, .str "this score is not registered"⟫) ;;
    .del (.index (.attr (.name "self") "_score_address") (.name "_scoreName")) ;;
    .expr (.meth (.name "self") "AddressUpdate" ⟪.name "_scoreName", .name "ZERO_SCORE_ADDRESS"⟫))

/-- `__init__`, contracts/converter/converter.py:42-52. -/
def tConnector___init__ : Def where
  params := [("db", none)]
  answers := ""
  body := (.assign (.attr (.name "self") "virtual_balance") (.fn "VarDB" ⟪.str "virtual_balance", .name "db", .name "int"⟫) ;;
    .assign (.attr (.name "self") "weight") (.fn "VarDB" ⟪.str "weight", .name "db", .name "int"⟫) ;;
    .assign (.attr (.name "self") "is_virtual_balance_enabled") (.fn "VarDB" ⟪.str "is_virtual_balance_enabled", .name "db", .name "bool"⟫) ;;
    .assign (.attr (.name "self") "is_purchase_enabled") (.fn "VarDB" ⟪.str "is_purchase_enabled", .name "db", .name "bool"⟫) ;;
    .assign (.attr (.name "self") "is_set") (.fn "VarDB" ⟪.str "is_set", .name "db", .name "bool"⟫))

/-- `__init__`, contracts/converter/converter.py:60-62. -/
def tConnectorDict___init__ : Def where
  params := [("db", none)]
  answers := ""
  body := (.assign (.attr (.name "self") "_db") (.name "db") ;;
    .assign (.attr (.name "self") "_items") (.dict ⟪⟫))

/-- `__getitem__`, contracts/converter/converter.py:64-69. -/
def tConnectorDict___getitem__ : Def where
  params := [("key", none)]
  answers := "Connector"
  body := (.ite (.cmp .notIn (.name "key") (.attr (.name "self") "_items"))
      (.assign (.name "sub_db") (.meth (.attr (.name "self") "_db") "get_sub_db" ⟪.meth (.bytes "|") "join" ⟪.list ⟪.name "CONNECTOR_DB_PREFIX", .meth (.name "key") "to_bytes" ⟪⟫⟫⟫⟫) ;;
      .assign (.index (.attr (.name "self") "_items") (.name "key")) (.fn "Connector" ⟪.name "sub_db"⟫))
      .pass ;;
    .ret (.index (.attr (.name "self") "_items") (.name "key")))

/-- `__init__`, contracts/converter/converter.py:156-176. -/
def tConverter___init__ : Def where
  params := [("db", none)]
  answers := ""
  body := (.expr (.sup "__init__" ⟪.name "db"⟫) ;;
    .assign (.attr (.name "self") "_allow_registry_update") (.fn "VarDB" ⟪.str "allow_registry_update", .name "db", .name "bool"⟫) ;;
    .assign (.attr (.name "self") "_prev_registry") (.fn "VarDB" ⟪.str "prev_registry", .name "db", .name "Address"⟫) ;;
    .assign (.attr (.name "self") "_registry") (.fn "VarDB" ⟪.str "registry", .name "db", .name "Address"⟫) ;;
    .assign (.attr (.name "self") "_connector_tokens") (.fn "ArrayDB" ⟪.str "connector_tokens", .name "db", .name "Address"⟫) ;;
    .assign (.attr (.name "self") "_total_connector_weight") (.fn "VarDB" ⟪.str "total_connector_weight", .name "db", .name "int"⟫) ;;
    .assign (.attr (.name "self") "_max_conversion_fee") (.fn "VarDB" ⟪.str "max_conversion_fee", .name "db", .name "int"⟫) ;;
    .assign (.attr (.name "self") "_conversion_fee") (.fn "VarDB" ⟪.str "conversion_fee", .name "db", .name "int"⟫) ;;
    .assign (.attr (.name "self") "_conversions_enabled") (.fn "VarDB" ⟪.str "conversions_enabled", .name "db", .name "bool"⟫) ;;
    .assign (.attr (.name "self") "_connectors") (.fn "ConnectorDict" ⟪.name "db"⟫))

/-- `Conversion`, contracts/converter/converter.py:99-106. -/
def tConverter_Conversion : Def where
  params := [("_fromToken", none), ("_toToken", none), ("_trader", none), ("_amount", none), ("_return", none), ("_conversionFee", none)]
  answers := ""
  event := true
  body := (.pass)

/-- `PriceDataUpdate`, contracts/converter/converter.py:110-115. -/
def tConverter_PriceDataUpdate : Def where
  params := [("_connectorToken", none), ("_tokenSupply", none), ("_connectorBalance", none), ("_connectorWeight", none)]
  answers := ""
  event := true
  body := (.pass)

/-- `ConversionFeeUpdate`, contracts/converter/converter.py:119-120. -/
def tConverter_ConversionFeeUpdate : Def where
  params := [("_prevFee", none), ("_newFee", none)]
  answers := ""
  event := true
  body := (.pass)

/-- `ConversionsEnable`, contracts/converter/converter.py:124-125. -/
def tConverter_ConversionsEnable : Def where
  params := [("_conversionsEnabled", none)]
  answers := ""
  event := true
  body := (.pass)

/-- `_require_valid_connector`, contracts/converter/converter.py:128-129. -/
def tConverter__require_valid_connector : Def where
  params := [("address", none)]
  answers := ""
  body := (.expr (.fn "require" ⟪.meth (.attr (.index (.attr (.name "self") "_connectors") (.name "address")) "is_set") "get" ⟪⟫, .str "invalid connector"⟫))

/-- `_require_valid_token`, contracts/converter/converter.py:132-134. -/
def tConverter__require_valid_token : Def where
  params := [("address", none)]
  answers := ""
  body := (.expr (.fn "require" ⟪.or_ (.cmp .eq (.name "address") (.meth (.attr (.name "self") "_token") "get" ⟪⟫)) (.meth (.attr (.index (.attr (.name "self") "_connectors") (.name "address")) "is_set") "get" ⟪⟫), .str "invalid token"⟫))

/-- `_require_valid_max_conversion_fee`, contracts/converter/converter.py:137-138. -/
def tConverter__require_valid_max_conversion_fee : Def where
  params := [("conversion_fee", none)]
  answers := ""
  body := (.expr (.fn "require" ⟪.chain (.num 0) .le (.name "conversion_fee") .le (.attr (.name "self") "_MAX_CONVERSION_FEE"), .str "invalid max conversion fee"⟫))

/-- `_require_valid_conversion_fee`, contracts/converter/converter.py:141-142. -/
def tConverter__require_valid_conversion_fee : Def where
  params := [("conversion_fee", none)]
  answers := ""
  body := (.expr (.fn "require" ⟪.chain (.num 0) .le (.name "conversion_fee") .le (.meth (.attr (.name "self") "_max_conversion_fee") "get" ⟪⟫), .str "invalid conversion fee"⟫))

/-- `_require_valid_connector_weight`, contracts/converter/converter.py:145-146. -/
def tConverter__require_valid_connector_weight : Def where
  params := [("weight", none)]
  answers := ""
  body := (.expr (.fn "require" ⟪.chain (.num 0) .lt (.name "weight") .le (.attr (.name "self") "_MAX_WEIGHT"), .str "invalid connector weight"⟫))

/-- `_require_max_total_weight_only`, contracts/converter/converter.py:149-150. -/
def tConverter__require_max_total_weight_only : Def where
  params := []
  answers := ""
  body := (.expr (.fn "require" ⟪.cmp .eq (.meth (.attr (.name "self") "_total_connector_weight") "get" ⟪⟫) (.attr (.name "self") "_MAX_WEIGHT"), .str "required max total weight"⟫))

/-- `_require_conversions_allowed`, contracts/converter/converter.py:153-154. -/
def tConverter__require_conversions_allowed : Def where
  params := []
  answers := ""
  body := (.expr (.fn "require" ⟪.meth (.attr (.name "self") "_conversions_enabled") "get" ⟪⟫, .str "required conversions enabled"⟫))

/-- `on_install`, contracts/converter/converter.py:178-205. -/
def tConverter_on_install : Def where
  params := [("_token", none), ("_registry", none), ("_maxConversionFee", none), ("_connectorToken", none), ("_connectorWeight", none)]
  answers := ""
  body := (.expr (.fn "require_valid_address" ⟪.name "_registry"⟫) ;;
    .expr (.meth (.name "self") "_require_valid_max_conversion_fee" ⟪.name "_maxConversionFee"⟫) ;;
    .expr (.meth (.name "FlexibleTokenController") "on_install" ⟪.name "self", .name "_token"⟫) ;;
    .expr (.meth (.attr (.name "self") "_allow_registry_update") "set" ⟪.bool true⟫) ;;
    .expr (.meth (.attr (.name "self") "_registry") "set" ⟪.name "_registry"⟫) ;;
    .expr (.meth (.attr (.name "self") "_prev_registry") "set" ⟪.name "_registry"⟫) ;;
    .expr (.meth (.attr (.name "self") "_conversions_enabled") "set" ⟪.bool true⟫) ;;
    .expr (.meth (.attr (.name "self") "_max_conversion_fee") "set" ⟪.name "_maxConversionFee"⟫) ;;
    .ite (.fn "is_valid_address" ⟪.name "_connectorToken"⟫)
      (.expr (.meth (.name "self") "addConnector" ⟪.name "_connectorToken", .name "_connectorWeight", .bool false⟫))
      .pass)

/-- `on_update`, contracts/converter/converter.py:207-208. -/
def tConverter_on_update : Def where
  params := []
  answers := "None"
  body := (.expr (.meth (.name "FlexibleTokenController") "on_update" ⟪.name "self"⟫))

/-- `tokenFallback`, contracts/converter/converter.py:211-250. -/
def tConverter_tokenFallback : Def where
  params := [("_from", none), ("_value", none), ("_data", none)]
  answers := ""
  ext := true
  body := (.expr (.fn "require_positive_value" ⟪.name "_value"⟫) ;;
    .assign (.name "from_token") (.attr (.attr (.name "self") "msg") "sender") ;;
    .ite (.and_ (.or_ (.cmp .eq (.name "_from") (.meth (.name "self") "getOwner" ⟪⟫)) (.cmp .eq (.name "_from") (.attr (.name "self") "getManager"))) (.and_ (.meth (.attr (.index (.attr (.name "self") "_connectors") (.name "from_token")) "is_set") "get" ⟪⟫) (.not_ (.meth (.name "self") "_is_active" ⟪⟫))))
      (.pass)
      (.assign (.name "registry") (.meth (.name "self") "create_interface_score" ⟪.meth (.attr (.name "self") "_registry") "get" ⟪⟫, .name "ScoreRegistry"⟫) ;;
      .assign (.name "network") (.meth (.name "registry") "getAddress" ⟪.attr (.name "ScoreRegistry") "NETWORK"⟫) ;;
      .expr (.fn "require" ⟪.cmp .eq (.name "_from") (.name "network"), .str "'trader' must be network only"⟫) ;;
      .try_ (.assign (.name "conversion_params") (.fn "json_loads" ⟪.meth (.name "_data") "decode" ⟪.str "utf-8"⟫⟫) ;;
        .assign (.name "to_token") (.meth (.name "Address") "from_string" ⟪.index (.name "conversion_params") (.str "toToken")⟫) ;;
        .assign (.name "min_return") (.index (.name "conversion_params") (.str "minReturn")) ;;
        .ret (.meth (.name "self") "_convert" ⟪.name "_from", .name "from_token", .name "to_token", .name "_value", .name "min_return"⟫))
        (.expr (.fn "revert" ⟪.fn "str" ⟪.name "e"⟫⟫))))

/-- `_convert`, contracts/converter/converter.py:252-281. -/
def tConverter__convert : Def where
  params := [("trader", none), ("from_token", none), ("to_token", none), ("amount", none), ("min_return", none)]
  answers := "int"
  body := (.expr (.meth (.name "self") "_require_conversions_allowed" ⟪⟫) ;;
    .expr (.fn "require_positive_value" ⟪.name "min_return"⟫) ;;
    .expr (.fn "require" ⟪.cmp .ne (.name "from_token") (.name "to_token"), .str "'from token' and 'to token' must not be same"⟫) ;;
    .assign (.name "flexible_token") (.meth (.attr (.name "self") "_token") "get" ⟪⟫) ;;
    .ite (.cmp .eq (.name "to_token") (.name "flexible_token"))
      (.ret (.meth (.name "self") "_buy" ⟪.name "trader", .name "from_token", .name "amount", .name "min_return"⟫))
      (.ite (.cmp .eq (.name "from_token") (.name "flexible_token"))
        (.ret (.meth (.name "self") "_sell" ⟪.name "trader", .name "to_token", .name "amount", .name "min_return"⟫))
        .pass) ;;
    .ret (.meth (.name "self") "_convert_cross_connector" ⟪.name "trader", .name "from_token", .name "to_token", .name "amount", .name "min_return"⟫))

/-- `_buy`, contracts/converter/converter.py:283-321. -/
def tConverter__buy : Def where
  params := [("trader", none), ("connector_token", none), ("amount", none), ("min_return", none)]
  answers := "int"
  body := (.assign (.name "returns") (.meth (.name "self") "get_purchase_return" ⟪.name "connector_token", .name "amount", .bool true⟫) ;;
    .assign (.name "return_amount") (.index (.name "returns") (.str "amount")) ;;
    .assign (.name "fee_amount") (.index (.name "returns") (.str "fee")) ;;
    .expr (.fn "require" ⟪.cmp .ge (.name "return_amount") (.name "min_return"), .str "returning amount less than minimum requested amount"⟫) ;;
    .assign (.name "connector") (.index (.attr (.name "self") "_connectors") (.name "connector_token")) ;;
    .ite (.meth (.attr (.name "connector") "is_virtual_balance_enabled") "get" ⟪⟫)
      (.expr (.meth (.attr (.name "connector") "virtual_balance") "set" ⟪.op .add (.meth (.attr (.name "connector") "virtual_balance") "get" ⟪⟫) (.name "amount")⟫))
      .pass ;;
    .assign (.name "flexible_token_address") (.meth (.attr (.name "self") "_token") "get" ⟪⟫) ;;
    .assign (.name "flexible_token") (.meth (.name "self") "create_interface_score" ⟪.name "flexible_token_address", .name "FlexibleToken"⟫) ;;
    .expr (.meth (.name "flexible_token") "issue" ⟪.name "trader", .name "return_amount"⟫) ;;
    .expr (.meth (.name "self") "Conversion" ⟪.name "connector_token", .name "flexible_token_address", .name "trader", .name "amount", .name "return_amount", .name "fee_amount"⟫) ;;
    .expr (.meth (.name "self") "PriceDataUpdate" ⟪.name "connector_token", .meth (.name "flexible_token") "totalSupply" ⟪⟫, .meth (.name "self") "getConnectorBalance" ⟪.name "connector_token"⟫, .meth (.attr (.name "connector") "weight") "get" ⟪⟫⟫) ;;
    .ret (.name "return_amount"))

/-- `_sell`, contracts/converter/converter.py:323-376. -/
def tConverter__sell : Def where
  params := [("trader", none), ("connector_token", none), ("amount", none), ("min_return", none)]
  answers := "int"
  body := (.assign (.name "returns") (.meth (.name "self") "get_sale_return" ⟪.name "connector_token", .name "amount"⟫) ;;
    .assign (.name "return_amount") (.index (.name "returns") (.str "amount")) ;;
    .assign (.name "fee_amount") (.index (.name "returns") (.str "fee")) ;;
    .expr (.fn "require" ⟪.cmp .ge (.name "return_amount") (.name "min_return"), .str "returning amount less than minimum requested amount"⟫) ;;
    .assign (.name "flexible_token_address") (.meth (.attr (.name "self") "_token") "get" ⟪⟫) ;;
    .assign (.name "flexible_token") (.meth (.name "self") "create_interface_score" ⟪.name "flexible_token_address", .name "FlexibleToken"⟫) ;;
    .assign (.name "token_supply") (.meth (.name "flexible_token") "totalSupply" ⟪⟫) ;;
    .assign (.name "connector_balance") (.meth (.name "self") "getConnectorBalance" ⟪.name "connector_token"⟫) ;;
    .expr (.fn "require" ⟪.or_ (.cmp .lt (.name "return_amount") (.name "connector_balance")) (.and_ (.cmp .eq (.name "return_amount") (.name "connector_balance")) (.cmp .eq (.name "amount") (.name "token_supply"))), .str "returning amount does not meet connector balance condition"⟫) ;;
    .assign (.name "connector") (.index (.attr (.name "self") "_connectors") (.name "connector_token")) ;;
    .ite (.meth (.attr (.name "connector") "is_virtual_balance_enabled") "get" ⟪⟫)
      (.expr (.meth (.attr (.name "connector") "virtual_balance") "set" ⟪.fn "safe_sub" ⟪.meth (.attr (.name "connector") "virtual_balance") "get" ⟪⟫, .name "return_amount"⟫⟫))
      .pass ;;
    .expr (.meth (.name "flexible_token") "destroy" ⟪.attr (.name "self") "address", .name "amount"⟫) ;;
    .assign (.name "irc_token") (.meth (.name "self") "create_interface_score" ⟪.name "connector_token", .name "IRCToken"⟫) ;;
    .expr (.meth (.name "irc_token") "transfer" ⟪.name "trader", .name "return_amount", .name "TRANSFER_DATA"⟫) ;;
    .expr (.meth (.name "self") "Conversion" ⟪.name "flexible_token_address", .name "connector_token", .name "trader", .name "amount", .name "return_amount", .name "fee_amount"⟫) ;;
    .expr (.meth (.name "self") "PriceDataUpdate" ⟪.name "connector_token", .meth (.name "flexible_token") "totalSupply" ⟪⟫, .meth (.name "self") "getConnectorBalance" ⟪.name "connector_token"⟫, .meth (.attr (.name "connector") "weight") "get" ⟪⟫⟫) ;;
    .ret (.name "return_amount"))

/-- `_convert_cross_connector`, contracts/converter/converter.py:378-429. -/
def tConverter__convert_cross_connector : Def where
  params := [("trader", none), ("from_token", none), ("to_token", none), ("amount", none), ("min_return", none)]
  answers := ""
  body := (.assign (.name "returns") (.meth (.name "self") "get_cross_connector_return" ⟪.name "from_token", .name "to_token", .name "amount", .bool true⟫) ;;
    .assign (.name "return_amount") (.index (.name "returns") (.str "amount")) ;;
    .assign (.name "fee_amount") (.index (.name "returns") (.str "fee")) ;;
    .expr (.fn "require" ⟪.cmp .ge (.name "return_amount") (.name "min_return"), .str "returning amount less than minimum requested amount"⟫) ;;
    .assign (.name "from_connector") (.index (.attr (.name "self") "_connectors") (.name "from_token")) ;;
    .ite (.meth (.attr (.name "from_connector") "is_virtual_balance_enabled") "get" ⟪⟫)
      (.expr (.meth (.attr (.name "from_connector") "virtual_balance") "set" ⟪.op .add (.meth (.attr (.name "from_connector") "virtual_balance") "get" ⟪⟫) (.name "amount")⟫))
      .pass ;;
    .assign (.name "to_connector") (.index (.attr (.name "self") "_connectors") (.name "to_token")) ;;
    .ite (.meth (.attr (.name "to_connector") "is_virtual_balance_enabled") "get" ⟪⟫)
      (.expr (.meth (.attr (.name "to_connector") "virtual_balance") "set" ⟪.fn "safe_sub" ⟪.meth (.attr (.name "to_connector") "virtual_balance") "get" ⟪⟫, .name "return_amount"⟫⟫))
      .pass ;;
    .assign (.name "to_connector_balance") (.meth (.name "self") "getConnectorBalance" ⟪.name "to_token"⟫) ;;
    .expr (.fn "require" ⟪.cmp .lt (.name "return_amount") (.name "to_connector_balance"), .str "returning amount does not meet connector balance condition"⟫) ;;
    .assign (.name "irc_token") (.meth (.name "self") "create_interface_score" ⟪.name "to_token", .name "IRCToken"⟫) ;;
    .expr (.meth (.name "irc_token") "transfer" ⟪.name "trader", .name "return_amount", .name "TRANSFER_DATA"⟫) ;;
    .expr (.meth (.name "self") "Conversion" ⟪.name "from_token", .name "to_token", .name "trader", .name "amount", .name "return_amount", .name "fee_amount"⟫) ;;
    .assign (.name "flexible_token") (.meth (.name "self") "create_interface_score" ⟪.meth (.attr (.name "self") "_token") "get" ⟪⟫, .name "FlexibleToken"⟫) ;;
    .assign (.name "token_supply") (.meth (.name "flexible_token") "totalSupply" ⟪⟫) ;;
    .expr (.meth (.name "self") "PriceDataUpdate" ⟪.name "from_token", .name "token_supply", .meth (.name "self") "getConnectorBalance" ⟪.name "from_token"⟫, .meth (.attr (.name "from_connector") "weight") "get" ⟪⟫⟫) ;;
    .expr (.meth (.name "self") "PriceDataUpdate" ⟪.name "to_token", .name "token_supply", .meth (.name "self") "getConnectorBalance" ⟪.name "to_token"⟫, .meth (.attr (.name "to_connector") "weight") "get" ⟪⟫⟫) ;;
    .ret (.name "return_amount"))

/-- `get_purchase_return`, contracts/converter/converter.py:431-458. -/
def tConverter_get_purchase_return : Def where
  params := [("connector_token", none), ("amount", none), ("from_conversion", some (.bool false))]
  answers := "dict"
  body := (.expr (.meth (.name "self") "_require_active" ⟪⟫) ;;
    .expr (.meth (.name "self") "_require_valid_connector" ⟪.name "connector_token"⟫) ;;
    .assign (.name "connector") (.index (.attr (.name "self") "_connectors") (.name "connector_token")) ;;
    .expr (.fn "require" ⟪.meth (.attr (.name "connector") "is_purchase_enabled") "get" ⟪⟫, .str "required purchase enabled"⟫) ;;
    .assign (.name "flexible_token") (.meth (.name "self") "create_interface_score" ⟪.meth (.attr (.name "self") "_token") "get" ⟪⟫, .name "FlexibleToken"⟫) ;;
    .assign (.name "token_supply") (.meth (.name "flexible_token") "totalSupply" ⟪⟫) ;;
    .assign (.name "connector_balance") (.meth (.name "self") "getConnectorBalance" ⟪.name "connector_token"⟫) ;;
    .ite (.name "from_conversion")
      (.aug (.name "connector_balance") .sub (.name "amount"))
      .pass ;;
    .assign (.name "calculated_amount") (.meth (.name "formula") "calculate_purchase_return" ⟪.name "token_supply", .name "connector_balance", .meth (.attr (.name "connector") "weight") "get" ⟪⟫, .name "amount"⟫) ;;
    .assign (.name "final_amount") (.meth (.name "self") "getFinalAmount" ⟪.name "calculated_amount", .num 1⟫) ;;
    .ret (.dict ⟪.str "amount", .name "final_amount", .str "fee", .fn "safe_sub" ⟪.name "calculated_amount", .name "final_amount"⟫⟫))

/-- `get_sale_return`, contracts/converter/converter.py:460-482. -/
def tConverter_get_sale_return : Def where
  params := [("connector_token", none), ("amount", none)]
  answers := "dict"
  body := (.expr (.meth (.name "self") "_require_active" ⟪⟫) ;;
    .expr (.meth (.name "self") "_require_valid_connector" ⟪.name "connector_token"⟫) ;;
    .assign (.name "connector") (.index (.attr (.name "self") "_connectors") (.name "connector_token")) ;;
    .assign (.name "flexible_token") (.meth (.name "self") "create_interface_score" ⟪.meth (.attr (.name "self") "_token") "get" ⟪⟫, .name "FlexibleToken"⟫) ;;
    .assign (.name "token_supply") (.meth (.name "flexible_token") "totalSupply" ⟪⟫) ;;
    .assign (.name "connector_balance") (.meth (.name "self") "getConnectorBalance" ⟪.name "connector_token"⟫) ;;
    .assign (.name "calculated_amount") (.meth (.name "formula") "calculate_sale_return" ⟪.name "token_supply", .name "connector_balance", .meth (.attr (.name "connector") "weight") "get" ⟪⟫, .name "amount"⟫) ;;
    .assign (.name "final_amount") (.meth (.name "self") "getFinalAmount" ⟪.name "calculated_amount", .num 1⟫) ;;
    .ret (.dict ⟪.str "amount", .name "final_amount", .str "fee", .fn "safe_sub" ⟪.name "calculated_amount", .name "final_amount"⟫⟫))

/-- `get_cross_connector_return`, contracts/converter/converter.py:484-516. -/
def tConverter_get_cross_connector_return : Def where
  params := [("from_token", none), ("to_token", none), ("amount", none), ("from_conversion", some (.bool false))]
  answers := "dict"
  body := (.expr (.meth (.name "self") "_require_active" ⟪⟫) ;;
    .expr (.meth (.name "self") "_require_valid_connector" ⟪.name "from_token"⟫) ;;
    .expr (.meth (.name "self") "_require_valid_connector" ⟪.name "to_token"⟫) ;;
    .assign (.name "from_connector") (.index (.attr (.name "self") "_connectors") (.name "from_token")) ;;
    .assign (.name "to_connector") (.index (.attr (.name "self") "_connectors") (.name "to_token")) ;;
    .expr (.fn "require" ⟪.meth (.attr (.name "to_connector") "is_purchase_enabled") "get" ⟪⟫, .str "required purchase enabled"⟫) ;;
    .assign (.name "from_connector_balance") (.meth (.name "self") "getConnectorBalance" ⟪.name "from_token"⟫) ;;
    .ite (.name "from_conversion")
      (.aug (.name "from_connector_balance") .sub (.name "amount"))
      .pass ;;
    .assign (.name "to_connector_balance") (.meth (.name "self") "getConnectorBalance" ⟪.name "to_token"⟫) ;;
    .assign (.name "calculated_amount") (.meth (.name "formula") "calculate_cross_connector_return" ⟪.name "from_connector_balance", .meth (.attr (.name "from_connector") "weight") "get" ⟪⟫, .name "to_connector_balance", .meth (.attr (.name "to_connector") "weight") "get" ⟪⟫, .name "amount"⟫) ;;
    .assign (.name "final_amount") (.meth (.name "self") "getFinalAmount" ⟪.name "calculated_amount", .num 2⟫) ;;
    .ret (.dict ⟪.str "amount", .name "final_amount", .str "fee", .fn "safe_sub" ⟪.name "calculated_amount", .name "final_amount"⟫⟫))

/-- `addConnector`, contracts/converter/converter.py:519-547. -/
def tConverter_addConnector : Def where
  params := [("_token", none), ("_weight", none), ("_enableVirtualBalance", none)]
  answers := ""
  ext := true
  body := (.expr (.meth (.name "self") "require_owner_only" ⟪⟫) ;;
    .expr (.meth (.name "self") "_require_inactive" ⟪⟫) ;;
    .expr (.fn "require_valid_address" ⟪.name "_token"⟫) ;;
    .expr (.fn "require_not_this" ⟪.attr (.name "self") "address", .name "_token"⟫) ;;
    .expr (.meth (.name "self") "_require_valid_connector_weight" ⟪.name "_weight"⟫) ;;
    .expr (.fn "require" ⟪.cmp .ne (.meth (.attr (.name "self") "_token") "get" ⟪⟫) (.name "_token"), .str "the input token should not be the flexible token"⟫) ;;
    .expr (.fn "require" ⟪.not_ (.meth (.attr (.index (.attr (.name "self") "_connectors") (.name "_token")) "is_set") "get" ⟪⟫), .str "the input token has already been set"⟫) ;;
    .expr (.fn "require" ⟪.cmp .le (.op .add (.meth (.attr (.name "self") "_total_connector_weight") "get" ⟪⟫) (.name "_weight")) (.attr (.name "self") "_MAX_WEIGHT"), .str "total connector weight is overflow"⟫) ;;
    .expr (.meth (.attr (.index (.attr (.name "self") "_connectors") (.name "_token")) "virtual_balance") "set" ⟪.num 0⟫) ;;
    .expr (.meth (.attr (.index (.attr (.name "self") "_connectors") (.name "_token")) "weight") "set" ⟪.name "_weight"⟫) ;;
    .expr (.meth (.attr (.index (.attr (.name "self") "_connectors") (.name "_token")) "is_virtual_balance_enabled") "set" ⟪.name "_enableVirtualBalance"⟫) ;;
    .expr (.meth (.attr (.index (.attr (.name "self") "_connectors") (.name "_token")) "is_purchase_enabled") "set" ⟪.bool true⟫) ;;
    .expr (.meth (.attr (.index (.attr (.name "self") "_connectors") (.name "_token")) "is_set") "set" ⟪.bool true⟫) ;;
    .expr (.meth (.attr (.name "self") "_connector_tokens") "put" ⟪.name "_token"⟫) ;;
    .expr (.meth (.attr (.name "self") "_total_connector_weight") "set" ⟪.op .add (.meth (.attr (.name "self") "_total_connector_weight") "get" ⟪⟫) (.name "_weight")⟫))

/-- `updateConnector`, contracts/converter/converter.py:550-574. -/
def tConverter_updateConnector : Def where
  params := [("_connectorToken", none), ("_weight", none), ("_enableVirtualBalance", none), ("_virtualBalance", none)]
  answers := ""
  ext := true
  body := (.expr (.meth (.name "self") "require_owner_only" ⟪⟫) ;;
    .expr (.meth (.name "self") "_require_valid_connector" ⟪.name "_connectorToken"⟫) ;;
    .expr (.meth (.name "self") "_require_valid_connector_weight" ⟪.name "_weight"⟫) ;;
    .assign (.name "connector") (.index (.attr (.name "self") "_connectors") (.name "_connectorToken")) ;;
    .assign (.name "new_total_weight") (.op .add (.op .sub (.meth (.attr (.name "self") "_total_connector_weight") "get" ⟪⟫) (.meth (.attr (.name "connector") "weight") "get" ⟪⟫)) (.name "_weight")) ;;
    .expr (.fn "require" ⟪.cmp .le (.name "new_total_weight") (.attr (.name "self") "_MAX_WEIGHT"), .str "total connector weight is overflow"⟫) ;;
    .expr (.meth (.attr (.name "self") "_total_connector_weight") "set" ⟪.name "new_total_weight"⟫) ;;
    .expr (.meth (.attr (.name "connector") "weight") "set" ⟪.name "_weight"⟫) ;;
    .expr (.meth (.attr (.name "connector") "is_virtual_balance_enabled") "set" ⟪.name "_enableVirtualBalance"⟫) ;;
    .expr (.meth (.attr (.name "connector") "virtual_balance") "set" ⟪.name "_virtualBalance"⟫))

/-- `disableConnectorPurchases`, contracts/converter/converter.py:577-589. -/
def tConverter_disableConnectorPurchases : Def where
  params := [("_connectorToken", none), ("_disable", none)]
  answers := ""
  ext := true
  body := (.expr (.meth (.name "self") "require_owner_only" ⟪⟫) ;;
    .expr (.meth (.name "self") "_require_valid_connector" ⟪.name "_connectorToken"⟫) ;;
    .expr (.meth (.attr (.index (.attr (.name "self") "_connectors") (.name "_connectorToken")) "is_purchase_enabled") "set" ⟪.not_ (.name "_disable")⟫))

/-- `updateRegistry`, contracts/converter/converter.py:592-612. -/
def tConverter_updateRegistry : Def where
  params := []
  answers := ""
  ext := true
  body := (.expr (.fn "require" ⟪.or_ (.meth (.attr (.name "self") "_allow_registry_update") "get" ⟪⟫) (.cmp .eq (.attr (.attr (.name "self") "msg") "sender") (.meth (.name "self") "getOwner" ⟪⟫)), .str "should be allowed updating or caller is the owner"⟫) ;;
    .assign (.name "registry") (.meth (.name "self") "create_interface_score" ⟪.meth (.attr (.name "self") "_registry") "get" ⟪⟫, .name "ScoreRegistry"⟫) ;;
    .assign (.name "new_registry") (.meth (.name "registry") "getAddress" ⟪.attr (.name "ScoreRegistry") "SCORE_REGISTRY"⟫) ;;
    .expr (.fn "require_valid_address" ⟪.name "new_registry"⟫) ;;
    .expr (.fn "require" ⟪.cmp .ne (.name "new_registry") (.meth (.attr (.name "self") "_registry") "get" ⟪⟫), .str "new registry should not be same with old one"⟫) ;;
    .expr (.meth (.attr (.name "self") "_prev_registry") "set" ⟪.meth (.attr (.name "self") "_registry") "get" ⟪⟫⟫) ;;
    .expr (.meth (.attr (.name "self") "_registry") "set" ⟪.name "new_registry"⟫))

/-- `restoreRegistry`, contracts/converter/converter.py:615-626. -/
def tConverter_restoreRegistry : Def where
  params := []
  answers := ""
  ext := true
  body := (.expr (.meth (.name "self") "require_owner_or_manager_only" ⟪⟫) ;;
    .expr (.meth (.attr (.name "self") "_registry") "set" ⟪.meth (.attr (.name "self") "_prev_registry") "get" ⟪⟫⟫) ;;
    .expr (.meth (.attr (.name "self") "_allow_registry_update") "set" ⟪.bool false⟫))

/-- `disableRegistryUpdate`, contracts/converter/converter.py:629-639. -/
def tConverter_disableRegistryUpdate : Def where
  params := [("_disable", none)]
  answers := ""
  ext := true
  body := (.expr (.meth (.name "self") "require_owner_or_manager_only" ⟪⟫) ;;
    .expr (.meth (.attr (.name "self") "_allow_registry_update") "set" ⟪.not_ (.name "_disable")⟫))

/-- `disableConversions`, contracts/converter/converter.py:642-655. -/
def tConverter_disableConversions : Def where
  params := [("_disable", none)]
  answers := ""
  ext := true
  body := (.expr (.meth (.name "self") "require_owner_or_manager_only" ⟪⟫) ;;
    .ite (.cmp .eq (.meth (.attr (.name "self") "_conversions_enabled") "get" ⟪⟫) (.name "_disable"))
      (.assign (.name "enable") (.not_ (.name "_disable")) ;;
      .expr (.meth (.attr (.name "self") "_conversions_enabled") "set" ⟪.name "enable"⟫) ;;
      .expr (.meth (.name "self") "ConversionsEnable" ⟪.name "enable"⟫))
      .pass)

/-- `setConversionFee`, contracts/converter/converter.py:658-670. -/
def tConverter_setConversionFee : Def where
  params := [("_conversionFee", none)]
  answers := ""
  ext := true
  body := (.expr (.meth (.name "self") "require_owner_or_manager_only" ⟪⟫) ;;
    .expr (.meth (.name "self") "_require_valid_conversion_fee" ⟪.name "_conversionFee"⟫) ;;
    .expr (.meth (.name "self") "ConversionFeeUpdate" ⟪.meth (.attr (.name "self") "_conversion_fee") "get" ⟪⟫, .name "_conversionFee"⟫) ;;
    .expr (.meth (.attr (.name "self") "_conversion_fee") "set" ⟪.name "_conversionFee"⟫))

/-- `withdrawTokens`, contracts/converter/converter.py:673-685. -/
def tConverter_withdrawTokens : Def where
  params := [("_token", none), ("_to", none), ("_amount", none)]
  answers := ""
  ext := true
  body := (.expr (.fn "require" ⟪.or_ (.not_ (.meth (.name "self") "_is_active" ⟪⟫)) (.not_ (.meth (.attr (.index (.attr (.name "self") "_connectors") (.name "_token")) "is_set") "get" ⟪⟫)), .str "withdrawing token should be inactive or not a connector token"⟫) ;;
    .expr (.sup "withdrawTokens" ⟪.name "_token", .name "_to", .name "_amount"⟫))

/-- `isAllowRegistryUpdate`, contracts/converter/converter.py:688-694. -/
def tConverter_isAllowRegistryUpdate : Def where
  params := []
  answers := "bool"
  ext := true
  body := (.ret (.meth (.attr (.name "self") "_allow_registry_update") "get" ⟪⟫))

/-- `isActive`, contracts/converter/converter.py:697-702. -/
def tConverter_isActive : Def where
  params := []
  answers := "bool"
  ext := true
  body := (.ret (.meth (.name "self") "_is_active" ⟪⟫))

/-- `getPreviousRegistry`, contracts/converter/converter.py:705-711. -/
def tConverter_getPreviousRegistry : Def where
  params := []
  answers := "Address"
  ext := true
  body := (.ret (.meth (.attr (.name "self") "_prev_registry") "get" ⟪⟫))

/-- `getRegistry`, contracts/converter/converter.py:714-720. -/
def tConverter_getRegistry : Def where
  params := []
  answers := "Address"
  ext := true
  body := (.ret (.meth (.attr (.name "self") "_registry") "get" ⟪⟫))

/-- `getConnectorTokenCount`, contracts/converter/converter.py:723-729. -/
def tConverter_getConnectorTokenCount : Def where
  params := []
  answers := "int"
  ext := true
  body := (.ret (.fn "len" ⟪.attr (.name "self") "_connector_tokens"⟫))

/-- `getMaxConversionFee`, contracts/converter/converter.py:732-739. -/
def tConverter_getMaxConversionFee : Def where
  params := []
  answers := "int"
  ext := true
  body := (.ret (.meth (.attr (.name "self") "_max_conversion_fee") "get" ⟪⟫))

/-- `getConversionFee`, contracts/converter/converter.py:742-749. -/
def tConverter_getConversionFee : Def where
  params := []
  answers := "int"
  ext := true
  body := (.ret (.meth (.attr (.name "self") "_conversion_fee") "get" ⟪⟫))

/-- `isConversionsEnabled`, contracts/converter/converter.py:752-758. -/
def tConverter_isConversionsEnabled : Def where
  params := []
  answers := "bool"
  ext := true
  body := (.ret (.meth (.attr (.name "self") "_conversions_enabled") "get" ⟪⟫))

/-- `getConnectorAt`, contracts/converter/converter.py:761-768. -/
def tConverter_getConnectorAt : Def where
  params := [("_index", none)]
  answers := "Address"
  ext := true
  body := (.ret (.index (.attr (.name "self") "_connector_tokens") (.name "_index")))

/-- `getConnector`, contracts/converter/converter.py:771-786. -/
def tConverter_getConnector : Def where
  params := [("_address", none)]
  answers := "dict"
  ext := true
  body := (.assign (.name "connector") (.index (.attr (.name "self") "_connectors") (.name "_address")) ;;
    .ret (.cond (.meth (.attr (.name "connector") "is_set") "get" ⟪⟫) (.dict ⟪.str "virtualBalance", .meth (.attr (.name "connector") "virtual_balance") "get" ⟪⟫, .str "weight", .meth (.attr (.name "connector") "weight") "get" ⟪⟫, .str "isVirtualBalanceEnabled", .meth (.attr (.name "connector") "is_virtual_balance_enabled") "get" ⟪⟫, .str "isPurchaseEnabled", .meth (.attr (.name "connector") "is_purchase_enabled") "get" ⟪⟫, .str "isSet", .meth (.attr (.name "connector") "is_set") "get" ⟪⟫⟫) (.dict ⟪⟫)))

/-- `getConnectorBalance`, contracts/converter/converter.py:789-805. -/
def tConverter_getConnectorBalance : Def where
  params := [("_connectorToken", none)]
  answers := "int"
  ext := true
  body := (.expr (.meth (.name "self") "_require_valid_connector" ⟪.name "_connectorToken"⟫) ;;
    .assign (.name "connector") (.index (.attr (.name "self") "_connectors") (.name "_connectorToken")) ;;
    .ite (.meth (.attr (.name "connector") "is_virtual_balance_enabled") "get" ⟪⟫)
      (.ret (.meth (.attr (.name "connector") "virtual_balance") "get" ⟪⟫))
      .pass ;;
    .assign (.name "token") (.meth (.name "self") "create_interface_score" ⟪.name "_connectorToken", .name "IRCToken"⟫) ;;
    .ret (.meth (.name "token") "balanceOf" ⟪.attr (.name "self") "address"⟫))

/-- `getReturn`, contracts/converter/converter.py:808-827. -/
def tConverter_getReturn : Def where
  params := [("_fromToken", none), ("_toToken", none), ("_amount", none)]
  answers := "dict"
  ext := true
  body := (.expr (.fn "require" ⟪.cmp .ne (.name "_fromToken") (.name "_toToken"), .str "'from token' and 'to token' must not be same"⟫) ;;
    .assign (.name "flexible_token") (.meth (.attr (.name "self") "_token") "get" ⟪⟫) ;;
    .ite (.cmp .eq (.name "_toToken") (.name "flexible_token"))
      (.ret (.meth (.name "self") "get_purchase_return" ⟪.name "_fromToken", .name "_amount"⟫))
      (.ite (.cmp .eq (.name "_fromToken") (.name "flexible_token"))
        (.ret (.meth (.name "self") "get_sale_return" ⟪.name "_toToken", .name "_amount"⟫))
        .pass) ;;
    .ret (.meth (.name "self") "get_cross_connector_return" ⟪.name "_fromToken", .name "_toToken", .name "_amount"⟫))

/-- `getFinalAmount`, contracts/converter/converter.py:830-839. -/
def tConverter_getFinalAmount : Def where
  params := [("_amount", none), ("_magnitude", none)]
  answers := "int"
  ext := true
  body := (.assign (.name "final_ratio") (.op .sub (.attr (.name "self") "_MAX_CONVERSION_FEE") (.meth (.attr (.name "self") "_conversion_fee") "get" ⟪⟫)) ;;
    .ret (.op .fdiv (.op .mul (.name "_amount") (.op .pow (.name "final_ratio") (.name "_magnitude"))) (.op .pow (.attr (.name "self") "_MAX_CONVERSION_FEE") (.name "_magnitude"))))

/-- `__init__`, contracts/network/network.py:38-40. -/
def tNetwork___init__ : Def where
  params := [("db", none)]
  answers := "None"
  body := (.expr (.sup "__init__" ⟪.name "db"⟫) ;;
    .assign (.attr (.name "self") "_icx_tokens") (.fn "DictDB" ⟪.str "icx_tokens", .name "db", .name "bool"⟫))

/-- `on_install`, contracts/network/network.py:42-43. -/
def tNetwork_on_install : Def where
  params := []
  answers := "None"
  body := (.expr (.meth (.name "TokenHolder") "on_install" ⟪.name "self"⟫))

/-- `on_update`, contracts/network/network.py:45-46. -/
def tNetwork_on_update : Def where
  params := []
  answers := "None"
  body := (.expr (.meth (.name "TokenHolder") "on_update" ⟪.name "self"⟫))

/-- `getExpectedReturnByPath`, contracts/network/network.py:49-74. -/
def tNetwork_getExpectedReturnByPath : Def where
  params := [("_path", none), ("_amount", none)]
  answers := "int"
  ext := true
  body := (.assign (.name "converted_path") (.meth (.name "self") "_convert_path" ⟪.name "_path"⟫) ;;
    .expr (.meth (.name "self") "_require_valid_path" ⟪.name "converted_path"⟫) ;;
    .expr (.fn "require_positive_value" ⟪.name "_amount"⟫) ;;
    .assign (.name "amount") (.name "_amount") ;;
    .assign (.name "from_token_address") (.index (.name "converted_path") (.num 0)) ;;
    .for_ "i" (.fn "range" ⟪.num 1, .fn "len" ⟪.name "converted_path"⟫, .num 2⟫)
      (.assign (.name "to_token_address") (.index (.name "converted_path") (.op .add (.name "i") (.num 1))) ;;
      .assign (.name "flexible_token") (.meth (.name "self") "create_interface_score" ⟪.index (.name "converted_path") (.name "i"), .name "FlexibleToken"⟫) ;;
      .assign (.name "converter") (.meth (.name "self") "create_interface_score" ⟪.meth (.name "flexible_token") "getOwner" ⟪⟫, .name "Converter"⟫) ;;
      .assign (.name "amount") (.index (.meth (.name "converter") "getReturn" ⟪.name "from_token_address", .name "to_token_address", .name "amount"⟫) (.str "amount")) ;;
      .assign (.name "from_token_address") (.name "to_token_address")) ;;
    .ret (.name "amount"))

/-- `getIcxTokenRegistered`, contracts/network/network.py:77-84. -/
def tNetwork_getIcxTokenRegistered : Def where
  params := [("_icxToken", none)]
  answers := "bool"
  ext := true
  body := (.ret (.index (.attr (.name "self") "_icx_tokens") (.name "_icxToken")))

/-- `_convert_path`, contracts/network/network.py:87-89. -/
def tNetwork__convert_path : Def where
  params := [("path", none)]
  answers := ""
  body := (.assign (.name "converted_path") (.map_ "address" (.meth (.name "address") "strip" ⟪⟫) (.meth (.name "path") "split" ⟪.str ","⟫)) ;;
    .ret (.comp false (.meth (.name "Address") "from_string" ⟪.name "address"⟫) ["address"] (.name "converted_path") (.bool true)))

/-- `_convert_bytes_data`, contracts/network/network.py:91-121. -/
def tNetwork__convert_bytes_data : Def where
  params := [("data", none), ("token_sender_address", none)]
  answers := ""
  body := (.assign (.name "result_dict_data") (.fn "dict" ⟪⟫) ;;
    .assign (.name "dict_data") (.fn "dict" ⟪⟫) ;;
    .try_ (.assign (.name "dict_data") (.fn "json_loads" ⟪.meth (.name "data") "decode" ⟪.str "utf-8"⟫⟫) ;;
      .assign (.index (.name "result_dict_data") (.str "path")) (.meth (.name "self") "_convert_path" ⟪.index (.name "dict_data") (.str "path")⟫) ;;
      .assign (.index (.name "result_dict_data") (.str "minReturn")) (.index (.name "dict_data") (.str "minReturn")))
      (.alt (.expr (.fn "revert" ⟪.str "data's encoding type is invalid. utf-8 is valid encoding type."⟫)) (.alt (.expr (.fn "revert" ⟪.fstr⟫)) (.alt (.expr (.fn "revert" ⟪.fstr⟫)) (.expr (.fn "revert" ⟪.fn "str" ⟪.name "e"⟫⟫))))) ;;
    .expr (.fn "require" ⟪.fn "isinstance" ⟪.index (.name "result_dict_data") (.str "minReturn"), .name "int"⟫, .str "need valid minReturn data"⟫) ;;
    .ite (.or_ (.cmp .notIn (.str "for") (.name "dict_data")) (.cmp .is (.index (.name "dict_data") (.str "for")) .none))
      (.assign (.index (.name "result_dict_data") (.str "for")) (.name "token_sender_address"))
      (.assign (.index (.name "result_dict_data") (.str "for")) (.meth (.name "Address") "from_string" ⟪.index (.name "dict_data") (.str "for")⟫)) ;;
    .ret (.name "result_dict_data"))

/-- `_require_valid_path`, contracts/network/network.py:123-135. -/
def tNetwork__require_valid_path : Def where
  params := [("path", none)]
  answers := ""
  body := (.assign (.name "path_len") (.fn "len" ⟪.name "path"⟫) ;;
    .expr (.fn "require" ⟪.and_ (.chain (.num 2) .lt (.name "path_len") .le (.op .add (.op .mul (.attr (.name "self") "_MAX_CONVERSION_COUNT") (.num 2)) (.num 1))) (.cmp .eq (.op .mod (.name "path_len") (.num 2)) (.num 1)), .str "invalid path"⟫) ;;
    .assign (.name "path_set") (.comp true (.name "address") ["i", "address"] (.fn "enumerate" ⟪.name "path"⟫) (.cmp .eq (.op .mod (.name "i") (.num 2)) (.num 1))) ;;
    .expr (.fn "require" ⟪.cmp .eq (.fn "len" ⟪.name "path_set"⟫) (.op .fdiv (.name "path_len") (.num 2)), .str "do not support circular path"⟫))

/-- `registerIcxToken`, contracts/network/network.py:138-149. -/
def tNetwork_registerIcxToken : Def where
  params := [("_icxToken", none), ("_register", none)]
  answers := ""
  ext := true
  body := (.expr (.meth (.name "self") "require_owner_only" ⟪⟫) ;;
    .expr (.fn "require_valid_address" ⟪.name "_icxToken"⟫) ;;
    .expr (.fn "require_not_this" ⟪.attr (.name "self") "address", .name "_icxToken"⟫) ;;
    .assign (.index (.attr (.name "self") "_icx_tokens") (.name "_icxToken")) (.name "_register"))

/-- `tokenFallback`, contracts/network/network.py:152-183. -/
def tNetwork_tokenFallback : Def where
  params := [("_from", none), ("_value", none), ("_data", none)]
  answers := ""
  ext := true
  body := (.ite (.cmp .eq (.name "_data") (.bytes "conversionResult"))
      (.ret .none)
      .pass ;;
    .assign (.name "dict_data") (.meth (.name "self") "_convert_bytes_data" ⟪.name "_data", .name "_from"⟫) ;;
    .expr (.fn "require" ⟪.cmp .eq (.index (.index (.name "dict_data") (.str "path")) (.num 0)) (.attr (.attr (.name "self") "msg") "sender"), .str "wrong access, only token can call this method"⟫) ;;
    .expr (.fn "require_positive_value" ⟪.index (.name "dict_data") (.str "minReturn")⟫) ;;
    .expr (.fn "require_valid_address" ⟪.index (.name "dict_data") (.str "for")⟫) ;;
    .expr (.meth (.name "self") "_require_valid_path" ⟪.index (.name "dict_data") (.str "path")⟫) ;;
    .expr (.meth (.name "self") "_convert_for_internal" ⟪.index (.name "dict_data") (.str "path"), .name "_value", .index (.name "dict_data") (.str "minReturn"), .index (.name "dict_data") (.str "for")⟫))

/-- `convert`, contracts/network/network.py:187-198. -/
def tNetwork_convert : Def where
  params := [("_path", none), ("_minReturn", none)]
  answers := ""
  ext := true
  payable := true
  body := (.ret (.meth (.name "self") "convertFor" ⟪.name "_path", .name "_minReturn", .attr (.attr (.name "self") "msg") "sender"⟫))

/-- `convertFor`, contracts/network/network.py:202-228. -/
def tNetwork_convertFor : Def where
  params := [("_path", none), ("_minReturn", none), ("_for", none)]
  answers := ""
  ext := true
  payable := true
  body := (.assign (.name "converted_path") (.meth (.name "self") "_convert_path" ⟪.name "_path"⟫) ;;
    .expr (.meth (.name "self") "_require_valid_path" ⟪.name "converted_path"⟫) ;;
    .expr (.fn "require_positive_value" ⟪.name "_minReturn"⟫) ;;
    .expr (.fn "require_valid_address" ⟪.name "_for"⟫) ;;
    .expr (.fn "require_not_this" ⟪.attr (.name "self") "address", .name "_for"⟫) ;;
    .assign (.name "icx_amount") (.attr (.attr (.name "self") "msg") "value") ;;
    .assign (.name "icx_token") (.index (.name "converted_path") (.num 0)) ;;
    .expr (.fn "require" ⟪.index (.attr (.name "self") "_icx_tokens") (.name "icx_token"), .str "wrong path, first address must be icx token"⟫) ;;
    .expr (.meth (.attr (.name "self") "icx") "transfer" ⟪.name "icx_token", .name "icx_amount"⟫) ;;
    .ret (.meth (.name "self") "_convert_for_internal" ⟪.name "converted_path", .name "icx_amount", .name "_minReturn", .name "_for"⟫))

/-- `_convert_for_internal`, contracts/network/network.py:230-252. -/
def tNetwork__convert_for_internal : Def where
  params := [("path", none), ("amount", none), ("min_return", none), ("_for", none)]
  answers := ""
  body := (.assign (.tuple ⟪.name "to_token_address", .name "amount"⟫) (.meth (.name "self") "_convert_by_path" ⟪.name "path", .name "amount", .name "min_return", .name "_for"⟫) ;;
    .ite (.index (.attr (.name "self") "_icx_tokens") (.name "to_token_address"))
      (.assign (.name "icx_token") (.meth (.name "self") "create_interface_score" ⟪.name "to_token_address", .name "IcxToken"⟫) ;;
      .expr (.meth (.name "icx_token") "withdrawTo" ⟪.name "amount", .name "_for"⟫))
      (.assign (.name "token") (.meth (.name "self") "create_interface_score" ⟪.name "to_token_address", .name "IRCToken"⟫) ;;
      .expr (.meth (.name "token") "transfer" ⟪.name "_for", .name "amount", .bytes "None"⟫)) ;;
    .ret (.name "amount"))

/-- `_convert_by_path`, contracts/network/network.py:254-290. -/
def tNetwork__convert_by_path : Def where
  params := [("path", none), ("amount", none), ("min_return", none), ("_for", none)]
  answers := ""
  body := (.assign (.name "to_token_address") (.name "ZERO_SCORE_ADDRESS") ;;
    .assign (.name "from_token_address") (.index (.name "path") (.num 0)) ;;
    .assign (.name "from_token") (.meth (.name "self") "create_interface_score" ⟪.name "from_token_address", .name "IRCToken"⟫) ;;
    .assign (.name "data") (.fn "dict" ⟪⟫) ;;
    .for_ "i" (.fn "range" ⟪.num 1, .fn "len" ⟪.name "path"⟫, .num 2⟫)
      (.assign (.name "flexible_token_address") (.index (.name "path") (.name "i")) ;;
      .assign (.name "to_token_address") (.index (.name "path") (.op .add (.name "i") (.num 1))) ;;
      .assign (.name "to_token") (.meth (.name "self") "create_interface_score" ⟪.name "to_token_address", .name "IRCToken"⟫) ;;
      .assign (.name "flexible_token") (.meth (.name "self") "create_interface_score" ⟪.name "flexible_token_address", .name "FlexibleToken"⟫) ;;
      .assign (.name "converter_address") (.meth (.name "flexible_token") "getOwner" ⟪⟫) ;;
      .assign (.name "amount_before_converting") (.meth (.name "to_token") "balanceOf" ⟪.attr (.name "self") "address"⟫) ;;
      .assign (.index (.name "data") (.str "toToken")) (.fn "str" ⟪.name "to_token_address"⟫) ;;
      .assign (.index (.name "data") (.str "minReturn")) (.cond (.cmp .eq (.name "i") (.op .sub (.fn "len" ⟪.name "path"⟫) (.num 2))) (.name "min_return") (.num 1)) ;;
      .assign (.name "encoded_data") (.meth (.fn "json_dumps" ⟪.name "data"⟫) "encode" ⟪.str "utf-8"⟫) ;;
      .expr (.meth (.name "from_token") "transfer" ⟪.name "converter_address", .name "amount", .name "encoded_data"⟫) ;;
      .assign (.name "amount_after_converting") (.meth (.name "to_token") "balanceOf" ⟪.attr (.name "self") "address"⟫) ;;
      .assign (.name "amount") (.op .sub (.name "amount_after_converting") (.name "amount_before_converting")) ;;
      .assign (.name "from_token") (.name "to_token")) ;;
    .ret (.tuple ⟪.name "to_token_address", .name "amount"⟫))

/-- `calculate_purchase_return`, contracts/formula/fixed_map_formula.py:177-206. -/
def tFixedMapFormula_calculate_purchase_return : Def where
  params := [("supply", none), ("connector_balance", none), ("connector_weight", none), ("deposit_amount", none)]
  answers := "int"
  body := (.expr (.fn "require" ⟪.and_ (.cmp .gt (.name "supply") (.num 0)) (.and_ (.cmp .gt (.name "connector_balance") (.num 0)) (.chain (.attr (.name "self") "_MAX_WEIGHT") .ge (.name "connector_weight") .gt (.num 0))), .str "Invalid input"⟫) ;;
    .ite (.cmp .eq (.name "deposit_amount") (.num 0))
      (.ret (.num 0))
      .pass ;;
    .ite (.cmp .eq (.name "connector_weight") (.attr (.name "self") "_MAX_WEIGHT"))
      (.ret (.op .fdiv (.op .mul (.name "supply") (.name "deposit_amount")) (.name "connector_balance")))
      .pass ;;
    .assign (.name "base_n") (.op .add (.name "deposit_amount") (.name "connector_balance")) ;;
    .assign (.tuple ⟪.name "result", .name "precision"⟫) (.meth (.name "self") "_power" ⟪.name "base_n", .name "connector_balance", .name "connector_weight", .attr (.name "self") "_MAX_WEIGHT"⟫) ;;
    .assign (.name "temp") (.op .shr (.op .mul (.name "supply") (.name "result")) (.name "precision")) ;;
    .ret (.op .sub (.name "temp") (.name "supply")))

/-- `calculate_sale_return`, contracts/formula/fixed_map_formula.py:208-244. -/
def tFixedMapFormula_calculate_sale_return : Def where
  params := [("supply", none), ("connector_balance", none), ("connector_weight", none), ("sell_amount", none)]
  answers := "int"
  body := (.expr (.fn "require" ⟪.and_ (.cmp .gt (.name "supply") (.num 0)) (.and_ (.cmp .gt (.name "connector_balance") (.num 0)) (.and_ (.chain (.attr (.name "self") "_MAX_WEIGHT") .ge (.name "connector_weight") .gt (.num 0)) (.cmp .le (.name "sell_amount") (.name "supply")))), .str "Invalid input"⟫) ;;
    .ite (.cmp .eq (.name "sell_amount") (.num 0))
      (.ret (.num 0))
      .pass ;;
    .ite (.cmp .eq (.name "sell_amount") (.name "supply"))
      (.ret (.name "connector_balance"))
      .pass ;;
    .ite (.cmp .eq (.name "connector_weight") (.attr (.name "self") "_MAX_WEIGHT"))
      (.ret (.op .fdiv (.op .mul (.name "connector_balance") (.name "sell_amount")) (.name "supply")))
      .pass ;;
    .assign (.name "base_d") (.op .sub (.name "supply") (.name "sell_amount")) ;;
    .assign (.tuple ⟪.name "result", .name "precision"⟫) (.meth (.name "self") "_power" ⟪.name "supply", .name "base_d", .attr (.name "self") "_MAX_WEIGHT", .name "connector_weight"⟫) ;;
    .assign (.name "temp_1") (.op .mul (.name "connector_balance") (.name "result")) ;;
    .assign (.name "temp_2") (.op .shl (.name "connector_balance") (.name "precision")) ;;
    .ret (.op .fdiv (.op .sub (.name "temp_1") (.name "temp_2")) (.name "result")))

/-- `calculate_cross_connector_return`, contracts/formula/fixed_map_formula.py:246-278. -/
def tFixedMapFormula_calculate_cross_connector_return : Def where
  params := [("from_connector_balance", none), ("from_connector_weight", none), ("to_connector_balance", none), ("to_connector_weight", none), ("amount", none)]
  answers := "int"
  body := (.expr (.fn "require" ⟪.and_ (.cmp .gt (.name "from_connector_balance") (.num 0)) (.and_ (.chain (.attr (.name "self") "_MAX_WEIGHT") .ge (.name "from_connector_weight") .gt (.num 0)) (.and_ (.cmp .gt (.name "to_connector_balance") (.num 0)) (.chain (.attr (.name "self") "_MAX_WEIGHT") .ge (.name "to_connector_weight") .gt (.num 0)))), .str "Invalid input"⟫) ;;
    .ite (.cmp .eq (.name "from_connector_weight") (.name "to_connector_weight"))
      (.ret (.op .fdiv (.op .mul (.name "to_connector_balance") (.name "amount")) (.op .add (.name "from_connector_balance") (.name "amount"))))
      .pass ;;
    .assign (.name "base_n") (.op .add (.name "from_connector_balance") (.name "amount")) ;;
    .assign (.tuple ⟪.name "result", .name "precision"⟫) (.meth (.name "self") "_power" ⟪.name "base_n", .name "from_connector_balance", .name "from_connector_weight", .name "to_connector_weight"⟫) ;;
    .assign (.name "temp_1") (.op .mul (.name "to_connector_balance") (.name "result")) ;;
    .assign (.name "temp_2") (.op .shl (.name "to_connector_balance") (.name "precision")) ;;
    .ret (.op .fdiv (.op .sub (.name "temp_1") (.name "temp_2")) (.name "result")))

/-- `_power`, contracts/formula/fixed_map_formula.py:280-317. -/
def tFixedMapFormula__power : Def where
  params := [("base_n", none), ("base_d", none), ("exp_n", none), ("exp_d", none)]
  answers := "(int, int)"
  body := (.expr (.fn "require" ⟪.cmp .lt (.name "base_n") (.attr (.name "self") "_MAX_NUM"), .str "Invalid input"⟫) ;;
    .assign (.name "base") (.op .fdiv (.op .mul (.name "base_n") (.attr (.name "self") "_FIXED_1")) (.name "base_d")) ;;
    .ite (.cmp .lt (.name "base") (.attr (.name "self") "_OPT_LOG_MAX_VAL"))
      (.assign (.name "base_log") (.meth (.name "self") "_optimal_log" ⟪.name "base"⟫))
      (.assign (.name "base_log") (.meth (.name "self") "_general_log" ⟪.name "base"⟫)) ;;
    .assign (.name "base_log_times_exp") (.op .fdiv (.op .mul (.name "base_log") (.name "exp_n")) (.name "exp_d")) ;;
    .ite (.cmp .lt (.name "base_log_times_exp") (.attr (.name "self") "_OPT_EXP_MAX_VAL"))
      (.ret (.tuple ⟪.meth (.name "self") "_optimal_exp" ⟪.name "base_log_times_exp"⟫, .attr (.name "self") "_MAX_PRECISION"⟫))
      (.assign (.name "precision") (.meth (.name "self") "_find_position_in_max_exp_array" ⟪.name "base_log_times_exp"⟫) ;;
      .ret (.tuple ⟪.meth (.name "self") "_general_exp" ⟪.op .shr (.name "base_log_times_exp") (.op .sub (.attr (.name "self") "_MAX_PRECISION") (.name "precision")), .name "precision"⟫, .name "precision"⟫)))

/-- `_general_log`, contracts/formula/fixed_map_formula.py:319-345. -/
def tFixedMapFormula__general_log : Def where
  params := [("x", none)]
  answers := "int"
  body := (.assign (.name "res") (.num 0) ;;
    .ite (.cmp .ge (.name "x") (.attr (.name "self") "_FIXED_2"))
      (.assign (.name "count") (.meth (.name "self") "_floor_log2" ⟪.op .fdiv (.name "x") (.attr (.name "self") "_FIXED_1")⟫) ;;
      .aug (.name "x") .shr (.name "count") ;;
      .assign (.name "res") (.op .mul (.name "count") (.attr (.name "self") "_FIXED_1")))
      .pass ;;
    .ite (.cmp .gt (.name "x") (.attr (.name "self") "_FIXED_1"))
      (.for_ "i" (.fn "range" ⟪.attr (.name "self") "_MAX_PRECISION", .num 0, .num (-1)⟫)
        (.assign (.name "x") (.op .fdiv (.op .mul (.name "x") (.name "x")) (.attr (.name "self") "_FIXED_1")) ;;
        .ite (.cmp .ge (.name "x") (.attr (.name "self") "_FIXED_2"))
          (.aug (.name "x") .shr (.num 1) ;;
          .aug (.name "res") .add (.op .shl (.attr (.name "self") "_ONE") (.op .sub (.name "i") (.num 1))))
          .pass))
      .pass ;;
    .ret (.op .fdiv (.op .mul (.name "res") (.attr (.name "self") "_LN2_NUMERATOR")) (.attr (.name "self") "_LN2_DENOMINATOR")))

/-- `_floor_log2`, contracts/formula/fixed_map_formula.py:347-368. -/
def tFixedMapFormula__floor_log2 : Def where
  params := [("n", none)]
  answers := "int"
  body := (.assign (.name "res") (.num 0) ;;
    .ite (.cmp .lt (.name "n") (.num 256))
      (.while_ (.cmp .gt (.name "n") (.num 1))
        (.aug (.name "n") .shr (.num 1) ;;
        .aug (.name "res") .add (.num 1)))
      (.assign (.name "s") (.num 128) ;;
      .while_ (.cmp .gt (.name "s") (.num 0))
        (.ite (.cmp .ge (.name "n") (.op .shl (.attr (.name "self") "_ONE") (.name "s")))
          (.aug (.name "n") .shr (.name "s") ;;
          .aug (.name "res") .bor (.name "s"))
          .pass ;;
        .aug (.name "s") .shr (.num 1))) ;;
    .ret (.name "res"))

/-- `_find_position_in_max_exp_array`, contracts/formula/fixed_map_formula.py:370-394. -/
def tFixedMapFormula__find_position_in_max_exp_array : Def where
  params := [("x", none)]
  answers := "int"
  body := (.assign (.name "lo") (.attr (.name "self") "_MIN_PRECISION") ;;
    .assign (.name "hi") (.attr (.name "self") "_MAX_PRECISION") ;;
    .while_ (.cmp .lt (.op .add (.name "lo") (.num 1)) (.name "hi"))
      (.assign (.name "mid") (.op .fdiv (.op .add (.name "lo") (.name "hi")) (.num 2)) ;;
      .ite (.cmp .ge (.index (.attr (.name "self") "_max_exp_array") (.name "mid")) (.name "x"))
        (.assign (.name "lo") (.name "mid"))
        (.assign (.name "hi") (.name "mid"))) ;;
    .ite (.cmp .ge (.index (.attr (.name "self") "_max_exp_array") (.name "hi")) (.name "x"))
      (.ret (.name "hi"))
      .pass ;;
    .ite (.cmp .ge (.index (.attr (.name "self") "_max_exp_array") (.name "lo")) (.name "x"))
      (.ret (.name "lo"))
      .pass ;;
    .ret (.num 0))

/-- `_general_exp`, contracts/formula/fixed_map_formula.py:396-508. -/
def tFixedMapFormula__general_exp : Def where
  params := [("x", none), ("precision", none)]
  answers := "int"
  body := (.assign (.name "xi") (.name "x") ;;
    .assign (.name "res") (.num 0) ;;
    .assign (.name "xi") (.op .shr (.op .mul (.name "xi") (.name "x")) (.name "precision")) ;;
    .aug (.name "res") .add (.op .mul (.name "xi") (.num 0x3442c4e6074a82f1797f72ac0000000)) ;;
    .assign (.name "xi") (.op .shr (.op .mul (.name "xi") (.name "x")) (.name "precision")) ;;
    .aug (.name "res") .add (.op .mul (.name "xi") (.num 0x116b96f757c380fb287fd0e40000000)) ;;
    .assign (.name "xi") (.op .shr (.op .mul (.name "xi") (.name "x")) (.name "precision")) ;;
    .aug (.name "res") .add (.op .mul (.name "xi") (.num 0x45ae5bdd5f0e03eca1ff4390000000)) ;;
    .assign (.name "xi") (.op .shr (.op .mul (.name "xi") (.name "x")) (.name "precision")) ;;
    .aug (.name "res") .add (.op .mul (.name "xi") (.num 0xdefabf91302cd95b9ffda50000000)) ;;
    .assign (.name "xi") (.op .shr (.op .mul (.name "xi") (.name "x")) (.name "precision")) ;;
    .aug (.name "res") .add (.op .mul (.name "xi") (.num 0x2529ca9832b22439efff9b8000000)) ;;
    .assign (.name "xi") (.op .shr (.op .mul (.name "xi") (.name "x")) (.name "precision")) ;;
    .aug (.name "res") .add (.op .mul (.name "xi") (.num 0x54f1cf12bd04e516b6da88000000)) ;;
    .assign (.name "xi") (.op .shr (.op .mul (.name "xi") (.name "x")) (.name "precision")) ;;
    .aug (.name "res") .add (.op .mul (.name "xi") (.num 0xa9e39e257a09ca2d6db51000000)) ;;
    .assign (.name "xi") (.op .shr (.op .mul (.name "xi") (.name "x")) (.name "precision")) ;;
    .aug (.name "res") .add (.op .mul (.name "xi") (.num 0x12e066e7b839fa050c309000000)) ;;
    .assign (.name "xi") (.op .shr (.op .mul (.name "xi") (.name "x")) (.name "precision")) ;;
    .aug (.name "res") .add (.op .mul (.name "xi") (.num 0x1e33d7d926c329a1ad1a800000)) ;;
    .assign (.name "xi") (.op .shr (.op .mul (.name "xi") (.name "x")) (.name "precision")) ;;
    .aug (.name "res") .add (.op .mul (.name "xi") (.num 0x2bee513bdb4a6b19b5f800000)) ;;
    .assign (.name "xi") (.op .shr (.op .mul (.name "xi") (.name "x")) (.name "precision")) ;;
    .aug (.name "res") .add (.op .mul (.name "xi") (.num 0x3a9316fa79b88eccf2a00000)) ;;
    .assign (.name "xi") (.op .shr (.op .mul (.name "xi") (.name "x")) (.name "precision")) ;;
    .aug (.name "res") .add (.op .mul (.name "xi") (.num 0x48177ebe1fa812375200000)) ;;
    .assign (.name "xi") (.op .shr (.op .mul (.name "xi") (.name "x")) (.name "precision")) ;;
    .aug (.name "res") .add (.op .mul (.name "xi") (.num 0x5263fe90242dcbacf00000)) ;;
    .assign (.name "xi") (.op .shr (.op .mul (.name "xi") (.name "x")) (.name "precision")) ;;
    .aug (.name "res") .add (.op .mul (.name "xi") (.num 0x57e22099c030d94100000)) ;;
    .assign (.name "xi") (.op .shr (.op .mul (.name "xi") (.name "x")) (.name "precision")) ;;
    .aug (.name "res") .add (.op .mul (.name "xi") (.num 0x57e22099c030d9410000)) ;;
    .assign (.name "xi") (.op .shr (.op .mul (.name "xi") (.name "x")) (.name "precision")) ;;
    .aug (.name "res") .add (.op .mul (.name "xi") (.num 0x52b6b54569976310000)) ;;
    .assign (.name "xi") (.op .shr (.op .mul (.name "xi") (.name "x")) (.name "precision")) ;;
    .aug (.name "res") .add (.op .mul (.name "xi") (.num 0x4985f67696bf748000)) ;;
    .assign (.name "xi") (.op .shr (.op .mul (.name "xi") (.name "x")) (.name "precision")) ;;
    .aug (.name "res") .add (.op .mul (.name "xi") (.num 0x3dea12ea99e498000)) ;;
    .assign (.name "xi") (.op .shr (.op .mul (.name "xi") (.name "x")) (.name "precision")) ;;
    .aug (.name "res") .add (.op .mul (.name "xi") (.num 0x31880f2214b6e000)) ;;
    .assign (.name "xi") (.op .shr (.op .mul (.name "xi") (.name "x")) (.name "precision")) ;;
    .aug (.name "res") .add (.op .mul (.name "xi") (.num 0x25bcff56eb36000)) ;;
    .assign (.name "xi") (.op .shr (.op .mul (.name "xi") (.name "x")) (.name "precision")) ;;
    .aug (.name "res") .add (.op .mul (.name "xi") (.num 0x1b722e10ab1000)) ;;
    .assign (.name "xi") (.op .shr (.op .mul (.name "xi") (.name "x")) (.name "precision")) ;;
    .aug (.name "res") .add (.op .mul (.name "xi") (.num 0x1317c70077000)) ;;
    .assign (.name "xi") (.op .shr (.op .mul (.name "xi") (.name "x")) (.name "precision")) ;;
    .aug (.name "res") .add (.op .mul (.name "xi") (.num 0xcba84aafa00)) ;;
    .assign (.name "xi") (.op .shr (.op .mul (.name "xi") (.name "x")) (.name "precision")) ;;
    .aug (.name "res") .add (.op .mul (.name "xi") (.num 0x82573a0a00)) ;;
    .assign (.name "xi") (.op .shr (.op .mul (.name "xi") (.name "x")) (.name "precision")) ;;
    .aug (.name "res") .add (.op .mul (.name "xi") (.num 0x5035ad900)) ;;
    .assign (.name "xi") (.op .shr (.op .mul (.name "xi") (.name "x")) (.name "precision")) ;;
    .aug (.name "res") .add (.op .mul (.name "xi") (.num 0x2f881b00)) ;;
    .assign (.name "xi") (.op .shr (.op .mul (.name "xi") (.name "x")) (.name "precision")) ;;
    .aug (.name "res") .add (.op .mul (.name "xi") (.num 0x1b29340)) ;;
    .assign (.name "xi") (.op .shr (.op .mul (.name "xi") (.name "x")) (.name "precision")) ;;
    .aug (.name "res") .add (.op .mul (.name "xi") (.num 982080)) ;;
    .assign (.name "xi") (.op .shr (.op .mul (.name "xi") (.name "x")) (.name "precision")) ;;
    .aug (.name "res") .add (.op .mul (.name "xi") (.num 32736)) ;;
    .assign (.name "xi") (.op .shr (.op .mul (.name "xi") (.name "x")) (.name "precision")) ;;
    .aug (.name "res") .add (.op .mul (.name "xi") (.num 1056)) ;;
    .assign (.name "xi") (.op .shr (.op .mul (.name "xi") (.name "x")) (.name "precision")) ;;
    .aug (.name "res") .add (.op .mul (.name "xi") (.num 33)) ;;
    .assign (.name "xi") (.op .shr (.op .mul (.name "xi") (.name "x")) (.name "precision")) ;;
    .aug (.name "res") .add (.op .mul (.name "xi") (.num 1)) ;;
    .ret (.op .add (.op .add (.op .fdiv (.name "res") (.num 0x688589cc0e9505e2f2fee5580000000)) (.name "x")) (.op .shl (.attr (.name "self") "_ONE") (.name "precision"))))

/-- `_optimal_log`, contracts/formula/fixed_map_formula.py:510-585. -/
def tFixedMapFormula__optimal_log : Def where
  params := [("x", none)]
  answers := "int"
  body := (.assign (.name "res") (.num 0) ;;
    .ite (.cmp .ge (.name "x") (.num 0xd3094c70f034de4b96ff7d5b6f99fcd8))
      (.aug (.name "res") .add (.num 0x40000000000000000000000000000000) ;;
      .assign (.name "x") (.op .fdiv (.op .mul (.name "x") (.attr (.name "self") "_FIXED_1")) (.num 0xd3094c70f034de4b96ff7d5b6f99fcd8)))
      .pass ;;
    .ite (.cmp .ge (.name "x") (.num 0xa45af1e1f40c333b3de1db4dd55f29a7))
      (.aug (.name "res") .add (.num 0x20000000000000000000000000000000) ;;
      .assign (.name "x") (.op .fdiv (.op .mul (.name "x") (.attr (.name "self") "_FIXED_1")) (.num 0xa45af1e1f40c333b3de1db4dd55f29a7)))
      .pass ;;
    .ite (.cmp .ge (.name "x") (.num 0x910b022db7ae67ce76b441c27035c6a1))
      (.aug (.name "res") .add (.num 0x10000000000000000000000000000000) ;;
      .assign (.name "x") (.op .fdiv (.op .mul (.name "x") (.attr (.name "self") "_FIXED_1")) (.num 0x910b022db7ae67ce76b441c27035c6a1)))
      .pass ;;
    .ite (.cmp .ge (.name "x") (.num 0x88415abbe9a76bead8d00cf112e4d4a8))
      (.aug (.name "res") .add (.num 0x8000000000000000000000000000000) ;;
      .assign (.name "x") (.op .fdiv (.op .mul (.name "x") (.attr (.name "self") "_FIXED_1")) (.num 0x88415abbe9a76bead8d00cf112e4d4a8)))
      .pass ;;
    .ite (.cmp .ge (.name "x") (.num 0x84102b00893f64c705e841d5d4064bd3))
      (.aug (.name "res") .add (.num 0x4000000000000000000000000000000) ;;
      .assign (.name "x") (.op .fdiv (.op .mul (.name "x") (.attr (.name "self") "_FIXED_1")) (.num 0x84102b00893f64c705e841d5d4064bd3)))
      .pass ;;
    .ite (.cmp .ge (.name "x") (.num 0x8204055aaef1c8bd5c3259f4822735a2))
      (.aug (.name "res") .add (.num 0x2000000000000000000000000000000) ;;
      .assign (.name "x") (.op .fdiv (.op .mul (.name "x") (.attr (.name "self") "_FIXED_1")) (.num 0x8204055aaef1c8bd5c3259f4822735a2)))
      .pass ;;
    .ite (.cmp .ge (.name "x") (.num 0x810100ab00222d861931c15e39b44e99))
      (.aug (.name "res") .add (.num 0x1000000000000000000000000000000) ;;
      .assign (.name "x") (.op .fdiv (.op .mul (.name "x") (.attr (.name "self") "_FIXED_1")) (.num 0x810100ab00222d861931c15e39b44e99)))
      .pass ;;
    .ite (.cmp .ge (.name "x") (.num 0x808040155aabbbe9451521693554f733))
      (.aug (.name "res") .add (.num 0x800000000000000000000000000000) ;;
      .assign (.name "x") (.op .fdiv (.op .mul (.name "x") (.attr (.name "self") "_FIXED_1")) (.num 0x808040155aabbbe9451521693554f733)))
      .pass ;;
    .assign2 (.name "z") (.name "y") (.op .sub (.name "x") (.attr (.name "self") "_FIXED_1")) ;;
    .assign (.name "w") (.op .fdiv (.op .mul (.name "y") (.name "y")) (.attr (.name "self") "_FIXED_1")) ;;
    .aug (.name "res") .add (.op .fdiv (.op .mul (.name "z") (.op .sub (.num 0x100000000000000000000000000000000) (.name "y"))) (.num 0x100000000000000000000000000000000)) ;;
    .assign (.name "z") (.op .fdiv (.op .mul (.name "z") (.name "w")) (.attr (.name "self") "_FIXED_1")) ;;
    .aug (.name "res") .add (.op .fdiv (.op .mul (.name "z") (.op .sub (.num 0xaaaaaaaaaaaaaaaaaaaaaaaaaaaaaaaa) (.name "y"))) (.num 0x200000000000000000000000000000000)) ;;
    .assign (.name "z") (.op .fdiv (.op .mul (.name "z") (.name "w")) (.attr (.name "self") "_FIXED_1")) ;;
    .aug (.name "res") .add (.op .fdiv (.op .mul (.name "z") (.op .sub (.num 0x99999999999999999999999999999999) (.name "y"))) (.num 0x300000000000000000000000000000000)) ;;
    .assign (.name "z") (.op .fdiv (.op .mul (.name "z") (.name "w")) (.attr (.name "self") "_FIXED_1")) ;;
    .aug (.name "res") .add (.op .fdiv (.op .mul (.name "z") (.op .sub (.num 0x92492492492492492492492492492492) (.name "y"))) (.num 0x400000000000000000000000000000000)) ;;
    .assign (.name "z") (.op .fdiv (.op .mul (.name "z") (.name "w")) (.attr (.name "self") "_FIXED_1")) ;;
    .aug (.name "res") .add (.op .fdiv (.op .mul (.name "z") (.op .sub (.num 0x8e38e38e38e38e38e38e38e38e38e38e) (.name "y"))) (.num 0x500000000000000000000000000000000)) ;;
    .assign (.name "z") (.op .fdiv (.op .mul (.name "z") (.name "w")) (.attr (.name "self") "_FIXED_1")) ;;
    .aug (.name "res") .add (.op .fdiv (.op .mul (.name "z") (.op .sub (.num 0x8ba2e8ba2e8ba2e8ba2e8ba2e8ba2e8b) (.name "y"))) (.num 0x600000000000000000000000000000000)) ;;
    .assign (.name "z") (.op .fdiv (.op .mul (.name "z") (.name "w")) (.attr (.name "self") "_FIXED_1")) ;;
    .aug (.name "res") .add (.op .fdiv (.op .mul (.name "z") (.op .sub (.num 0x89d89d89d89d89d89d89d89d89d89d89) (.name "y"))) (.num 0x700000000000000000000000000000000)) ;;
    .assign (.name "z") (.op .fdiv (.op .mul (.name "z") (.name "w")) (.attr (.name "self") "_FIXED_1")) ;;
    .aug (.name "res") .add (.op .fdiv (.op .mul (.name "z") (.op .sub (.num 0x88888888888888888888888888888888) (.name "y"))) (.num 0x800000000000000000000000000000000)) ;;
    .ret (.name "res"))

/-- `_optimal_exp`, contracts/formula/fixed_map_formula.py:587-687. -/
def tFixedMapFormula__optimal_exp : Def where
  params := [("x", none)]
  answers := "int"
  body := (.assign (.name "res") (.num 0) ;;
    .assign2 (.name "z") (.name "y") (.op .mod (.name "x") (.num 0x10000000000000000000000000000000)) ;;
    .assign (.name "z") (.op .fdiv (.op .mul (.name "z") (.name "y")) (.attr (.name "self") "_FIXED_1")) ;;
    .aug (.name "res") .add (.op .mul (.name "z") (.num 0x10e1b3be415a0000)) ;;
    .assign (.name "z") (.op .fdiv (.op .mul (.name "z") (.name "y")) (.attr (.name "self") "_FIXED_1")) ;;
    .aug (.name "res") .add (.op .mul (.name "z") (.num 0x5a0913f6b1e0000)) ;;
    .assign (.name "z") (.op .fdiv (.op .mul (.name "z") (.name "y")) (.attr (.name "self") "_FIXED_1")) ;;
    .aug (.name "res") .add (.op .mul (.name "z") (.num 0x168244fdac78000)) ;;
    .assign (.name "z") (.op .fdiv (.op .mul (.name "z") (.name "y")) (.attr (.name "self") "_FIXED_1")) ;;
    .aug (.name "res") .add (.op .mul (.name "z") (.num 0x4807432bc18000)) ;;
    .assign (.name "z") (.op .fdiv (.op .mul (.name "z") (.name "y")) (.attr (.name "self") "_FIXED_1")) ;;
    .aug (.name "res") .add (.op .mul (.name "z") (.num 0xc0135dca04000)) ;;
    .assign (.name "z") (.op .fdiv (.op .mul (.name "z") (.name "y")) (.attr (.name "self") "_FIXED_1")) ;;
    .aug (.name "res") .add (.op .mul (.name "z") (.num 0x1b707b1cdc000)) ;;
    .assign (.name "z") (.op .fdiv (.op .mul (.name "z") (.name "y")) (.attr (.name "self") "_FIXED_1")) ;;
    .aug (.name "res") .add (.op .mul (.name "z") (.num 0x36e0f639b800)) ;;
    .assign (.name "z") (.op .fdiv (.op .mul (.name "z") (.name "y")) (.attr (.name "self") "_FIXED_1")) ;;
    .aug (.name "res") .add (.op .mul (.name "z") (.num 0x618fee9f800)) ;;
    .assign (.name "z") (.op .fdiv (.op .mul (.name "z") (.name "y")) (.attr (.name "self") "_FIXED_1")) ;;
    .aug (.name "res") .add (.op .mul (.name "z") (.num 0x9c197dcc00)) ;;
    .assign (.name "z") (.op .fdiv (.op .mul (.name "z") (.name "y")) (.attr (.name "self") "_FIXED_1")) ;;
    .aug (.name "res") .add (.op .mul (.name "z") (.num 0xe30dce400)) ;;
    .assign (.name "z") (.op .fdiv (.op .mul (.name "z") (.name "y")) (.attr (.name "self") "_FIXED_1")) ;;
    .aug (.name "res") .add (.op .mul (.name "z") (.num 0x12ebd1300)) ;;
    .assign (.name "z") (.op .fdiv (.op .mul (.name "z") (.name "y")) (.attr (.name "self") "_FIXED_1")) ;;
    .aug (.name "res") .add (.op .mul (.name "z") (.num 0x17499f00)) ;;
    .assign (.name "z") (.op .fdiv (.op .mul (.name "z") (.name "y")) (.attr (.name "self") "_FIXED_1")) ;;
    .aug (.name "res") .add (.op .mul (.name "z") (.num 0x1a9d480)) ;;
    .assign (.name "z") (.op .fdiv (.op .mul (.name "z") (.name "y")) (.attr (.name "self") "_FIXED_1")) ;;
    .aug (.name "res") .add (.op .mul (.name "z") (.num 0x1c6380)) ;;
    .assign (.name "z") (.op .fdiv (.op .mul (.name "z") (.name "y")) (.attr (.name "self") "_FIXED_1")) ;;
    .aug (.name "res") .add (.op .mul (.name "z") (.num 116280)) ;;
    .assign (.name "z") (.op .fdiv (.op .mul (.name "z") (.name "y")) (.attr (.name "self") "_FIXED_1")) ;;
    .aug (.name "res") .add (.op .mul (.name "z") (.num 6840)) ;;
    .assign (.name "z") (.op .fdiv (.op .mul (.name "z") (.name "y")) (.attr (.name "self") "_FIXED_1")) ;;
    .aug (.name "res") .add (.op .mul (.name "z") (.num 380)) ;;
    .assign (.name "z") (.op .fdiv (.op .mul (.name "z") (.name "y")) (.attr (.name "self") "_FIXED_1")) ;;
    .aug (.name "res") .add (.op .mul (.name "z") (.num 20)) ;;
    .assign (.name "z") (.op .fdiv (.op .mul (.name "z") (.name "y")) (.attr (.name "self") "_FIXED_1")) ;;
    .aug (.name "res") .add (.op .mul (.name "z") (.num 1)) ;;
    .assign (.name "res") (.op .add (.op .add (.op .fdiv (.name "res") (.num 0x21c3677c82b40000)) (.name "y")) (.attr (.name "self") "_FIXED_1")) ;;
    .ite (.cmp .ne (.op .band (.name "x") (.num 0x10000000000000000000000000000000)) (.num 0))
      (.assign (.name "res") (.op .fdiv (.op .mul (.name "res") (.num 0x1c3d6a24ed82218787d624d3e5eba95f9)) (.num 0x18ebef9eac820ae8682b9793ac6d1e776)))
      .pass ;;
    .ite (.cmp .ne (.op .band (.name "x") (.num 0x20000000000000000000000000000000)) (.num 0))
      (.assign (.name "res") (.op .fdiv (.op .mul (.name "res") (.num 0x18ebef9eac820ae8682b9793ac6d1e778)) (.num 0x1368b2fc6f9609fe7aceb46aa619baed4)))
      .pass ;;
    .ite (.cmp .ne (.op .band (.name "x") (.num 0x40000000000000000000000000000000)) (.num 0))
      (.assign (.name "res") (.op .fdiv (.op .mul (.name "res") (.num 0x1368b2fc6f9609fe7aceb46aa619baed5)) (.num 0xbc5ab1b16779be3575bd8f0520a9f21f)))
      .pass ;;
    .ite (.cmp .ne (.op .band (.name "x") (.num 0x80000000000000000000000000000000)) (.num 0))
      (.assign (.name "res") (.op .fdiv (.op .mul (.name "res") (.num 0xbc5ab1b16779be3575bd8f0520a9f21e)) (.num 0x454aaa8efe072e7f6ddbab84b40a55c9)))
      .pass ;;
    .ite (.cmp .ne (.op .band (.name "x") (.num 0x100000000000000000000000000000000)) (.num 0))
      (.assign (.name "res") (.op .fdiv (.op .mul (.name "res") (.num 0x454aaa8efe072e7f6ddbab84b40a55c5)) (.num 0x960aadc109e7a3bf4578099615711ea)))
      .pass ;;
    .ite (.cmp .ne (.op .band (.name "x") (.num 0x200000000000000000000000000000000)) (.num 0))
      (.assign (.name "res") (.op .fdiv (.op .mul (.name "res") (.num 0x960aadc109e7a3bf4578099615711d7)) (.num 0x2bf84208204f5977f9a8cf01fdce3d)))
      .pass ;;
    .ite (.cmp .ne (.op .band (.name "x") (.num 0x400000000000000000000000000000000)) (.num 0))
      (.assign (.name "res") (.op .fdiv (.op .mul (.name "res") (.num 0x2bf84208204f5977f9a8cf01fdc307)) (.num 0x3c6ab775dd0b95b4cbee7e65d11)))
      .pass ;;
    .ret (.name "res"))

/-- The functions of contracts/utility/utils.py. -/
def functions : List (String × Def) := [
  ("require_positive_value", f_require_positive_value),
  ("require_valid_address", f_require_valid_address),
  ("require_not_this", f_require_not_this),
  ("require", f_require),
  ("is_valid_address", f_is_valid_address),
  ("safe_sub", f_safe_sub)]

/-- The methods in the text of class `Owned`. -/
def mOwned : List (String × Def) := [
  ("OwnerUpdate", tOwned_OwnerUpdate), 
  ("on_install", tOwned_on_install), 
  ("on_update", tOwned_on_update), 
  ("require_owner_only", tOwned_require_owner_only), 
  ("getOwner", tOwned_getOwner), 
  ("getNewOwner", tOwned_getNewOwner), 
  ("transferOwnerShip", tOwned_transferOwnerShip), 
  ("acceptOwnerShip", tOwned_acceptOwnerShip)]

/-- The methods in the text of class `Managed`. -/
def mManaged : List (String × Def) := [
  ("ManagerUpdate", tManaged_ManagerUpdate), 
  ("on_install", tManaged_on_install), 
  ("on_update", tManaged_on_update), 
  ("require_manager_only", tManaged_require_manager_only), 
  ("require_owner_or_manager_only", tManaged_require_owner_or_manager_only), 
  ("getManager", tManaged_getManager), 
  ("getNewManager", tManaged_getNewManager), 
  ("transferManagement", tManaged_transferManagement), 
  ("acceptManagement", tManaged_acceptManagement)]

/-- The methods in the text of class `TokenHolder`. -/
def mTokenHolder : List (String × Def) := [
  ("on_install", tTokenHolder_on_install), 
  ("on_update", tTokenHolder_on_update), 
  ("withdrawTokens", tTokenHolder_withdrawTokens)]

/-- The methods in the text of class `FlexibleTokenController`. -/
def mFlexibleTokenController : List (String × Def) := [
  ("on_install", tFlexibleTokenController_on_install), 
  ("on_update", tFlexibleTokenController_on_update), 
  ("_is_active", tFlexibleTokenController__is_active), 
  ("_require_active", tFlexibleTokenController__require_active), 
  ("_require_inactive", tFlexibleTokenController__require_inactive), 
  ("isActive", tFlexibleTokenController_isActive), 
  ("transferTokenOwnership", tFlexibleTokenController_transferTokenOwnership), 
  ("acceptTokenOwnership", tFlexibleTokenController_acceptTokenOwnership), 
  ("disableTokenTransfers", tFlexibleTokenController_disableTokenTransfers), 
  ("withdrawFromToken", tFlexibleTokenController_withdrawFromToken), 
  ("getToken", tFlexibleTokenController_getToken)]

/-- The methods in the text of class `IRCToken`. -/
def mIRCToken : List (String × Def) := [
  ("Transfer", tIRCToken_Transfer), 
  ("on_install", tIRCToken_on_install), 
  ("on_update", tIRCToken_on_update), 
  ("name", tIRCToken_name), 
  ("symbol", tIRCToken_symbol), 
  ("decimals", tIRCToken_decimals), 
  ("totalSupply", tIRCToken_totalSupply), 
  ("balanceOf", tIRCToken_balanceOf), 
  ("transfer", tIRCToken_transfer), 
  ("_transfer", tIRCToken__transfer)]

/-- The methods in the text of class `FlexibleToken`. -/
def mFlexibleToken : List (String × Def) := [
  ("NewFlexibleToken", tFlexibleToken_NewFlexibleToken), 
  ("Issuance", tFlexibleToken_Issuance), 
  ("Destruction", tFlexibleToken_Destruction), 
  ("on_install", tFlexibleToken_on_install), 
  ("on_update", tFlexibleToken_on_update), 
  ("require_transfer_allowed", tFlexibleToken_require_transfer_allowed), 
  ("disableTransfer", tFlexibleToken_disableTransfer), 
  ("getFlexibleTokenVersion", tFlexibleToken_getFlexibleTokenVersion), 
  ("getTransferPossibility", tFlexibleToken_getTransferPossibility), 
  ("issue", tFlexibleToken_issue), 
  ("destroy", tFlexibleToken_destroy), 
  ("transfer", tFlexibleToken_transfer)]

/-- The methods in the text of class `IcxToken`. -/
def mIcxToken : List (String × Def) := [
  ("Issuance", tIcxToken_Issuance), 
  ("Destruction", tIcxToken_Destruction), 
  ("on_install", tIcxToken_on_install), 
  ("on_update", tIcxToken_on_update), 
  ("fallback", tIcxToken_fallback), 
  ("deposit", tIcxToken_deposit), 
  ("withdraw", tIcxToken_withdraw), 
  ("withdrawTo", tIcxToken_withdrawTo), 
  ("transfer", tIcxToken_transfer)]

/-- The methods in the text of class `ScoreRegistry`. -/
def mScoreRegistry : List (String × Def) := [
  ("AddressUpdate", tScoreRegistry_AddressUpdate), 
  ("on_install", tScoreRegistry_on_install), 
  ("on_update", tScoreRegistry_on_update), 
  ("getAddress", tScoreRegistry_getAddress), 
  ("getScoreIds", tScoreRegistry_getScoreIds), 
  ("registerAddress", tScoreRegistry_registerAddress), 
  ("unregisterAddress", tScoreRegistry_unregisterAddress)]

/-- The methods in the text of class `ABCScoreRegistry`. -/
def mABCScoreRegistry : List (String × Def) := []

/-- The methods in the text of class `Converter`. -/
def mConverter : List (String × Def) := [
  ("Conversion", tConverter_Conversion), 
  ("PriceDataUpdate", tConverter_PriceDataUpdate), 
  ("ConversionFeeUpdate", tConverter_ConversionFeeUpdate), 
  ("ConversionsEnable", tConverter_ConversionsEnable), 
  ("_require_valid_connector", tConverter__require_valid_connector), 
  ("_require_valid_token", tConverter__require_valid_token), 
  ("_require_valid_max_conversion_fee", tConverter__require_valid_max_conversion_fee), 
  ("_require_valid_conversion_fee", tConverter__require_valid_conversion_fee), 
  ("_require_valid_connector_weight", tConverter__require_valid_connector_weight), 
  ("_require_max_total_weight_only", tConverter__require_max_total_weight_only), 
  ("_require_conversions_allowed", tConverter__require_conversions_allowed), 
  ("on_install", tConverter_on_install), 
  ("on_update", tConverter_on_update), 
  ("tokenFallback", tConverter_tokenFallback), 
  ("_convert", tConverter__convert), 
  ("_buy", tConverter__buy), 
  ("_sell", tConverter__sell), 
  ("_convert_cross_connector", tConverter__convert_cross_connector), 
  ("get_purchase_return", tConverter_get_purchase_return), 
  ("get_sale_return", tConverter_get_sale_return), 
  ("get_cross_connector_return", tConverter_get_cross_connector_return), 
  ("addConnector", tConverter_addConnector), 
  ("updateConnector", tConverter_updateConnector), 
  ("disableConnectorPurchases", tConverter_disableConnectorPurchases), 
  ("updateRegistry", tConverter_updateRegistry), 
  ("restoreRegistry", tConverter_restoreRegistry), 
  ("disableRegistryUpdate", tConverter_disableRegistryUpdate), 
  ("disableConversions", tConverter_disableConversions), 
  ("setConversionFee", tConverter_setConversionFee), 
  ("withdrawTokens", tConverter_withdrawTokens), 
  ("isAllowRegistryUpdate", tConverter_isAllowRegistryUpdate), 
  ("isActive", tConverter_isActive), 
  ("getPreviousRegistry", tConverter_getPreviousRegistry), 
  ("getRegistry", tConverter_getRegistry), 
  ("getConnectorTokenCount", tConverter_getConnectorTokenCount), 
  ("getMaxConversionFee", tConverter_getMaxConversionFee), 
  ("getConversionFee", tConverter_getConversionFee), 
  ("isConversionsEnabled", tConverter_isConversionsEnabled), 
  ("getConnectorAt", tConverter_getConnectorAt), 
  ("getConnector", tConverter_getConnector), 
  ("getConnectorBalance", tConverter_getConnectorBalance), 
  ("getReturn", tConverter_getReturn), 
  ("getFinalAmount", tConverter_getFinalAmount)]

/-- The methods in the text of class `Network`. -/
def mNetwork : List (String × Def) := [
  ("on_install", tNetwork_on_install), 
  ("on_update", tNetwork_on_update), 
  ("getExpectedReturnByPath", tNetwork_getExpectedReturnByPath), 
  ("getIcxTokenRegistered", tNetwork_getIcxTokenRegistered), 
  ("_convert_path", tNetwork__convert_path), 
  ("_convert_bytes_data", tNetwork__convert_bytes_data), 
  ("_require_valid_path", tNetwork__require_valid_path), 
  ("registerIcxToken", tNetwork_registerIcxToken), 
  ("tokenFallback", tNetwork_tokenFallback), 
  ("convert", tNetwork_convert), 
  ("convertFor", tNetwork_convertFor), 
  ("_convert_for_internal", tNetwork__convert_for_internal), 
  ("_convert_by_path", tNetwork__convert_by_path)]

/-- The methods in the text of class `FixedMapFormula`. -/
def mFixedMapFormula : List (String × Def) := [
  ("calculate_purchase_return", tFixedMapFormula_calculate_purchase_return), 
  ("calculate_sale_return", tFixedMapFormula_calculate_sale_return), 
  ("calculate_cross_connector_return", tFixedMapFormula_calculate_cross_connector_return), 
  ("_power", tFixedMapFormula__power), 
  ("_general_log", tFixedMapFormula__general_log), 
  ("_floor_log2", tFixedMapFormula__floor_log2), 
  ("_find_position_in_max_exp_array", tFixedMapFormula__find_position_in_max_exp_array), 
  ("_general_exp", tFixedMapFormula__general_exp), 
  ("_optimal_log", tFixedMapFormula__optimal_log), 
  ("_optimal_exp", tFixedMapFormula__optimal_exp)]

/-- The methods in the text of each class. -/
def methods : List (String × List (String × Def)) := [
  ("Owned", mOwned),
  ("Managed", mManaged),
  ("TokenHolder", mTokenHolder),
  ("FlexibleTokenController", mFlexibleTokenController),
  ("IRCToken", mIRCToken),
  ("FlexibleToken", mFlexibleToken),
  ("IcxToken", mIcxToken),
  ("ScoreRegistry", mScoreRegistry),
  ("ABCScoreRegistry", mABCScoreRegistry),
  ("Converter", mConverter),
  ("Network", mNetwork),
  ("FixedMapFormula", mFixedMapFormula)]

/-- The constants in the text of each class. -/
def constants : List (String × List (String × Expr)) := [
  ("Owned", []),
  ("Managed", []),
  ("TokenHolder", []),
  ("FlexibleTokenController", []),
  ("IRCToken", [("_NAME", .str "name"), ("_SYMBOL", .str "symbol"), ("_BALANCES", .str "balances"), ("_TOTAL_SUPPLY", .str "total_supply"), ("_DECIMALS", .str "decimals")]),
  ("FlexibleToken", [("_VERSION", .str "0.1")]),
  ("IcxToken", []),
  ("ScoreRegistry", []),
  ("ABCScoreRegistry", [("SCORE_REGISTRY", .str "ScoreRegistry"), ("NETWORK", .str "Network"), ("SCORE_KEYS", .list ⟪.name "SCORE_REGISTRY", .name "NETWORK"⟫)]),
  ("Converter", [("_REVISION", .num 0), ("_MAX_WEIGHT", .num 1000000), ("_MAX_CONVERSION_FEE", .num 1000000)]),
  ("Network", [("_MAX_CONVERSION_COUNT", .num 10)]),
  ("FixedMapFormula", [("_ONE", .num 1), ("_MAX_WEIGHT", .num 1000000), ("_MIN_PRECISION", .num 32), ("_MAX_PRECISION", .num 127), ("_FIXED_1", .num 0x80000000000000000000000000000000), ("_FIXED_2", .num 0x100000000000000000000000000000000), ("_MAX_NUM", .num 0x200000000000000000000000000000000), ("_LN2_NUMERATOR", .num 0x3f80fe03f80fe03f80fe03f80fe03f8), ("_LN2_DENOMINATOR", .num 0x5b9de1d10bf4103d647b0955897ba80), ("_OPT_LOG_MAX_VAL", .num 0x15bf0a8b1457695355fb8ac404e7a79e3), ("_OPT_EXP_MAX_VAL", .num 0x800000000000000000000000000000000)])]

/-- The constants of the file each class is in. -/
def globals : List (String × List (String × Expr)) := [
  ("Owned", []),
  ("Managed", []),
  ("TokenHolder", []),
  ("FlexibleTokenController", [("FlexibleToken", .fn "ProxyScore" ⟪.name "ABCFlexibleToken"⟫)]),
  ("IRCToken", [("TAG", .str "IRCToken")]),
  ("FlexibleToken", [("TAG", .str "FlexibleToken")]),
  ("IcxToken", [("TAG", .str "IcxToken")]),
  ("ScoreRegistry", [("TAG", .str "ScoreRegistry")]),
  ("ABCScoreRegistry", []),
  ("Converter", [("TAG", .str "Converter"), ("TRANSFER_DATA", .bytes "conversionResult"), ("CONNECTOR_DB_PREFIX", .bytes "\x03"), ("FlexibleToken", .fn "ProxyScore" ⟪.name "ABCFlexibleToken"⟫), ("ScoreRegistry", .fn "ProxyScore" ⟪.name "ABCScoreRegistry"⟫), ("IRCToken", .fn "ProxyScore" ⟪.name "ABCIRCToken"⟫)]),
  ("Network", [("TAG", .str "Network"), ("IRCToken", .fn "ProxyScore" ⟪.name "ABCIRCToken"⟫), ("IcxToken", .fn "ProxyScore" ⟪.name "ABCIcxToken"⟫), ("FlexibleToken", .fn "ProxyScore" ⟪.name "ABCFlexibleToken"⟫), ("Converter", .fn "ProxyScore" ⟪.name "ABCConverter"⟫)]),
  ("FixedMapFormula", [])]

/-- The `__init__` in the text of each class. -/
def inits : List (String × Def) := [
  ("Owned", tOwned___init__),
  ("Managed", tManaged___init__),
  ("TokenHolder", tTokenHolder___init__),
  ("FlexibleTokenController", tFlexibleTokenController___init__),
  ("IRCToken", tIRCToken___init__),
  ("FlexibleToken", tFlexibleToken___init__),
  ("IcxToken", tIcxToken___init__),
  ("ScoreRegistry", tScoreRegistry___init__),
  ("Connector", tConnector___init__),
  ("ConnectorDict", tConnectorDict___init__),
  ("Converter", tConverter___init__),
  ("Network", tNetwork___init__)]

/-- `_max_exp_array[32]` to `_max_exp_array[127]`, contracts/formula/fixed_map_formula.py:80-175. -/
def maxExpArray : List Int := [
  0x1c35fedd14ffffffffffffffffffffffff,
  0x1b0ce43b323fffffffffffffffffffffff,
  0x19f0028ec1ffffffffffffffffffffffff,
  0x18ded91f0e7fffffffffffffffffffffff,
  0x17d8ec7f0417ffffffffffffffffffffff,
  0x16ddc6556cdbffffffffffffffffffffff,
  0x15ecf52776a1ffffffffffffffffffffff,
  0x15060c256cb2ffffffffffffffffffffff,
  0x1428a2f98d72ffffffffffffffffffffff,
  0x13545598e5c23fffffffffffffffffffff,
  0x1288c4161ce1dfffffffffffffffffffff,
  0x11c592761c666fffffffffffffffffffff,
  0x110a688680a757ffffffffffffffffffff,
  0x1056f1b5bedf77ffffffffffffffffffff,
  0xfaadceceeff8bffffffffffffffffffff,
  0xf05dc6b27edadffffffffffffffffffff,
  0xe67a5a25da4107fffffffffffffffffff,
  0xdcff115b14eedffffffffffffffffffff,
  0xd3e7a392431239fffffffffffffffffff,
  0xcb2ff529eb71e4fffffffffffffffffff,
  0xc2d415c3db974afffffffffffffffffff,
  0xbad03e7d883f69bffffffffffffffffff,
  0xb320d03b2c343d5ffffffffffffffffff,
  0xabc25204e02828dffffffffffffffffff,
  0xa4b16f74ee4bb207fffffffffffffffff,
  0x9deaf736ac1f569ffffffffffffffffff,
  0x976bd9952c7aa957fffffffffffffffff,
  0x9131271922eaa606fffffffffffffffff,
  0x8b380f3558668c46fffffffffffffffff,
  0x857ddf0117efa215bffffffffffffffff,
  0x7ffffffffffffffffffffffffffffffff,
  0x7abbf6f6abb9d087fffffffffffffffff,
  0x75af62cbac95f7dfa7fffffffffffffff,
  0x70d7fb7452e187ac13fffffffffffffff,
  0x6c3390ecc8af379295fffffffffffffff,
  0x67c00a3b07ffc01fd6fffffffffffffff,
  0x637b647c39cbb9d3d27ffffffffffffff,
  0x5f63b1fc104dbd39587ffffffffffffff,
  0x5b771955b36e12f7235ffffffffffffff,
  0x57b3d49dda84556d6f6ffffffffffffff,
  0x54183095b2c8ececf30ffffffffffffff,
  0x50a28be635ca2b888f77fffffffffffff,
  0x4d5156639708c9db33c3fffffffffffff,
  0x4a23105873875bd52dfdfffffffffffff,
  0x471649d87199aa990756fffffffffffff,
  0x4429a21a029d4c1457cfbffffffffffff,
  0x415bc6d6fb7dd71af2cb3ffffffffffff,
  0x3eab73b3bbfe282243ce1ffffffffffff,
  0x3c1771ac9fb6b4c18e229ffffffffffff,
  0x399e96897690418f785257fffffffffff,
  0x373fc456c53bb779bf0ea9fffffffffff,
  0x34f9e8e490c48e67e6ab8bfffffffffff,
  0x32cbfd4a7adc790560b3337ffffffffff,
  0x30b50570f6e5d2acca94613ffffffffff,
  0x2eb40f9f620fda6b56c2861ffffffffff,
  0x2cc8340ecb0d0f520a6af58ffffffffff,
  0x2af09481380a0a35cf1ba02ffffffffff,
  0x292c5bdd3b92ec810287b1b3fffffffff,
  0x277abdcdab07d5a77ac6d6b9fffffffff,
  0x25daf6654b1eaa55fd64df5efffffffff,
  0x244c49c648baa98192dce88b7ffffffff,
  0x22ce03cd5619a311b2471268bffffffff,
  0x215f77c045fbe885654a44a0fffffffff,
  0x1ffffffffffffffffffffffffffffffff,
  0x1eaefdbdaaee7421fc4d3ede5ffffffff,
  0x1d6bd8b2eb257df7e8ca57b09bfffffff,
  0x1c35fedd14b861eb0443f7f133fffffff,
  0x1b0ce43b322bcde4a56e8ada5afffffff,
  0x19f0028ec1fff007f5a195a39dfffffff,
  0x18ded91f0e72ee74f49b15ba527ffffff,
  0x17d8ec7f04136f4e5615fd41a63ffffff,
  0x16ddc6556cdb84bdc8d12d22e6fffffff,
  0x15ecf52776a1155b5bd8395814f7fffff,
  0x15060c256cb23b3b3cc3754cf40ffffff,
  0x1428a2f98d728ae223ddab715be3fffff,
  0x13545598e5c23276ccf0ede68034fffff,
  0x1288c4161ce1d6f54b7f61081194fffff,
  0x11c592761c666aa641d5a01a40f17ffff,
  0x110a688680a7530515f3e6e6cfdcdffff,
  0x1056f1b5bedf75c6bcb2ce8aed428ffff,
  0xfaadceceeff8a0890f3875f008277fff,
  0xf05dc6b27edad306388a600f6ba0bfff,
  0xe67a5a25da41063de1495d5b18cdbfff,
  0xdcff115b14eedde6fc3aa5353f2e4fff,
  0xd3e7a3924312399f9aae2e0f868f8fff,
  0xcb2ff529eb71e41582cccd5a1ee26fff,
  0xc2d415c3db974ab32a51840c0b67edff,
  0xbad03e7d883f69ad5b0a186184e06bff,
  0xb320d03b2c343d4829abd6075f0cc5ff,
  0xabc25204e02828d73c6e80bcdb1a95bf,
  0xa4b16f74ee4bb2040a1ec6c15fbbf2df,
  0x9deaf736ac1f569deb1b5ae3f36c130f,
  0x976bd9952c7aa957f5937d790ef65037,
  0x9131271922eaa6064b73a22d0bd4f2bf,
  0x8b380f3558668c46c91c49a2f8e967b9,
  0x857ddf0117efa215952912839f6473e6]

end Verif.Src

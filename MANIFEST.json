{
 "claims": [
  {
   "property": "C01",
   "status": "proved",
   "theorems": [
    "Verif.C01_supply_is_sum",
    "Verif.C01_supply_is_sum_api",
    "Verif.C01_balances_are_history"
   ],
   "note": ""
  },
  {
   "property": "C02",
   "status": "proved",
   "theorems": [
    "Verif.C02_transfer_exact",
    "Verif.C02_transfer_iff",
    "Verif.C02_transfer_balances",
    "Verif.C02_transfer_to_contract"
   ],
   "note": ""
  },
  {
   "property": "C03",
   "status": "proved",
   "theorems": [
    "Verif.C03_no_overdraft",
    "Verif.C03_failed_tx_no_effect",
    "Verif.C03_overdraft_no_effect"
   ],
   "note": ""
  },
  {
   "property": "C04",
   "status": "proved",
   "theorems": [
    "Verif.C04_deployed",
    "Verif.C04_irc_supply_fixed",
    "Verif.C04_metadata_fixed"
   ],
   "note": ""
  },
  {
   "property": "C05",
   "status": "proved",
   "theorems": [
    "Verif.C05_no_theft",
    "Verif.C05_exact_accounting"
   ],
   "note": ""
  },
  {
   "property": "C06",
   "status": "proved",
   "theorems": [
    "Verif.C06_only_owner_mints",
    "Verif.C06_only_holder_or_owner_burns",
    "Verif.C06_exact_supply"
   ],
   "note": ""
  },
  {
   "property": "C07",
   "status": "proved",
   "theorems": [
    "Verif.C07_issue",
    "Verif.C07_destroy"
   ],
   "note": ""
  },
  {
   "property": "C08",
   "status": "proved",
   "theorems": [
    "Verif.C08_disabled_no_transfer",
    "Verif.C08_only_owner_toggles",
    "Verif.C08_disableTransfer"
   ],
   "note": ""
  },
  {
   "property": "C09",
   "status": "proved",
   "theorems": [
    "Verif.C09_backed"
   ],
   "note": ""
  },
  {
   "property": "C10",
   "status": "proved",
   "theorems": [
    "Verif.C10_redeemable"
   ],
   "note": ""
  },
  {
   "property": "C11",
   "status": "proved",
   "theorems": [
    "Verif.C11_deposit_exact"
   ],
   "note": ""
  },
  {
   "property": "C12",
   "status": "proved",
   "theorems": [
    "Verif.C12_history",
    "Verif.C12_two_steps",
    "Verif.C12_only_by_acceptance",
    "Verif.C12_transferOwnerShip",
    "Verif.C12_acceptOwnerShip",
    "Verif.C12_contract_owner"
   ],
   "note": ""
  },
  {
   "property": "C13",
   "status": "proved",
   "theorems": [
    "Verif.C13_history",
    "Verif.C13_two_steps",
    "Verif.C13_only_by_acceptance",
    "Verif.C13_fresh",
    "Verif.C13_transferManagement",
    "Verif.C13_acceptManagement"
   ],
   "note": ""
  },
  {
   "property": "C14",
   "status": "proved",
   "theorems": [
    "Verif.C14_fee",
    "Verif.C14_enabled",
    "Verif.C14_registry_permission",
    "Verif.C14_registry",
    "Verif.C14_connector_list",
    "Verif.C14_weight_and_virtual_flag",
    "Verif.C14_purchase_flag",
    "Verif.C14_fixed",
    "Verif.C14_setConversionFee",
    "Verif.C14_disableRegistryUpdate",
    "Verif.C14_disableConversions",
    "Verif.C14_disableConversions_effect",
    "Verif.C14_updateConnector",
    "Verif.C14_disableConnectorPurchases"
   ],
   "note": ""
  },
  {
   "property": "C15",
   "status": "proved",
   "theorems": [
    "Verif.C15_converter_controls_own_token",
    "Verif.C15_one_token"
   ],
   "note": ""
  },
  {
   "property": "C16",
   "status": "proved",
   "theorems": [
    "Verif.C16_withdrawTokens_guarded",
    "Verif.C16_withdrawTokens",
    "Verif.C16_converter_arguments",
    "Verif.C16_converter_owner_only",
    "Verif.C16_converter_withdrawTokens",
    "Verif.C16_holdings"
   ],
   "note": ""
  },
  {
   "property": "C17",
   "status": "proved",
   "theorems": [
    "Verif.C17_registry_sound",
    "Verif.C17_history"
   ],
   "note": ""
  },
  {
   "property": "C18",
   "status": "proved",
   "theorems": [
    "Verif.C18_registerAddress",
    "Verif.C18_unregisterAddress",
    "Verif.C18_getAddress_after"
   ],
   "note": ""
  },
  {
   "property": "C19",
   "status": "proved",
   "theorems": [
    "Verif.C19_updateRegistry",
    "Verif.C19_updateRegistry_guarded",
    "Verif.C19_restoreRegistry",
    "Verif.C19_update_then_restore"
   ],
   "note": ""
  },
  {
   "property": "C20",
   "status": "proved",
   "theorems": [
    "Verif.C20_weights"
   ],
   "note": ""
  },
  {
   "property": "C21",
   "status": "proved",
   "theorems": [
    "Verif.C21_list_sound",
    "Verif.C21_never_removed",
    "Verif.C21_views",
    "Verif.C21_getConnectorAt"
   ],
   "note": ""
  },
  {
   "property": "C22",
   "status": "proved",
   "theorems": [
    "Verif.C22_owner_only",
    "Verif.C22_inactive_only",
    "Verif.C22_addConnector"
   ],
   "note": ""
  },
  {
   "property": "C23",
   "status": "proved",
   "theorems": [
    "Verif.C23_fee_bounded",
    "Verif.C23_maxFee_fixed"
   ],
   "note": ""
  },
  {
   "property": "C24",
   "status": "proved",
   "theorems": [
    "Verif.C24_getFinalAmount",
    "Verif.C24_range",
    "Verif.C24_extremes",
    "Verif.C24_monotone",
    "Verif.C24_antitone_in_fee",
    "Verif.C24_antitone_in_steps",
    "Verif.C24_twice"
   ],
   "note": ""
  },
  {
   "property": "C25",
   "status": "proved",
   "theorems": [
    "Verif.C25_quote",
    "Verif.C25_when"
   ],
   "note": ""
  },
  {
   "property": "C26",
   "status": "proved",
   "theorems": [
    "Verif.C26_buy",
    "Verif.C26_buy_balances"
   ],
   "note": ""
  },
  {
   "property": "C27",
   "status": "proved",
   "theorems": [
    "Verif.C27_sell",
    "Verif.C27_sell_balances"
   ],
   "note": ""
  },
  {
   "property": "C28",
   "status": "proved",
   "theorems": [
    "Verif.C28_cross",
    "Verif.C28_cross_balances"
   ],
   "note": ""
  },
  {
   "property": "C29",
   "status": "proved",
   "theorems": [
    "Verif.C29_open_only",
    "Verif.C29_closed",
    "Verif.C29_positive",
    "Verif.C29_refused"
   ],
   "note": ""
  },
  {
   "property": "C30",
   "status": "proved",
   "theorems": [
    "Verif.C30_no_purchase",
    "Verif.C30_no_cross_into",
    "Verif.C30_sale_unaffected"
   ],
   "note": ""
  },
  {
   "property": "C31",
   "status": "proved",
   "theorems": [
    "Verif.C31_quote_is_paid",
    "Verif.C31_when",
    "Verif.C31_virtual_quote_is_not_paid"
   ],
   "note": ""
  },
  {
   "property": "C32",
   "status": "proved",
   "theorems": [
    "Verif.C32_increase",
    "Verif.C32_decrease",
    "Verif.C32_never_negative"
   ],
   "note": ""
  },
  {
   "property": "C33",
   "status": "proved",
   "theorems": [
    "Verif.C33_active",
    "Verif.C33_inactive",
    "Verif.C33_deposit",
    "Verif.C33_transfer"
   ],
   "note": ""
  },
  {
   "property": "C34",
   "status": "proved",
   "theorems": [
    "Verif.C34_reserves_locked"
   ],
   "note": ""
  },
  {
   "property": "C35",
   "status": "proved",
   "theorems": [
    "Verif.C35_quote_rejects",
    "Verif.C35_convert_rejects",
    "Verif.C35_tokens_reject",
    "Verif.C35_quote_iff",
    "Verif.C35_convert_iff",
    "Verif.C35_convert_coin_iff"
   ],
   "note": ""
  },
  {
   "property": "C36",
   "status": "proved",
   "theorems": [
    "Verif.C36_unambiguous",
    "Verif.C36_written",
    "Verif.C36_rejects",
    "Verif.C36_requests",
    "Verif.C36_same_quote",
    "Verif.C36_converter_request"
   ],
   "note": ""
  },
  {
   "property": "C37",
   "status": "proved",
   "theorems": [
    "Verif.C37_tokens",
    "Verif.C37_coin",
    "Verif.C37_tokens_ordered",
    "Verif.C37_coin_ordered"
   ],
   "note": ""
  },
  {
   "property": "C38",
   "status": "proved",
   "theorems": [
    "Verif.C38_tokens",
    "Verif.C38_coin"
   ],
   "note": ""
  },
  {
   "property": "C39",
   "status": "proved",
   "theorems": [
    "Verif.C39_held",
    "Verif.C39_flexible",
    "Verif.C39_converted"
   ],
   "note": ""
  },
  {
   "property": "C40",
   "status": "proved",
   "theorems": [
    "Verif.C40_tokens",
    "Verif.C40_coin"
   ],
   "note": ""
  },
  {
   "property": "C41",
   "status": "proved",
   "theorems": [
    "Verif.C41_conditions",
    "Verif.C41_conditions_tokens",
    "Verif.C41_register",
    "Verif.C41_registered",
    "Verif.C41_only_owner"
   ],
   "note": ""
  },
  {
   "property": "C42",
   "status": "proved",
   "theorems": [
    "Verif.Formula.C42_purchase",
    "Verif.Formula.C42_sale",
    "Verif.Formula.C42_sale_total",
    "Verif.Formula.C42_cross",
    "Verif.Formula.C42_cross_total"
   ],
   "note": ""
  },
  {
   "property": "C43",
   "status": "proved",
   "theorems": [
    "Verif.Formula.C43_purchase_zero",
    "Verif.Formula.C43_sale_zero",
    "Verif.Formula.C43_cross_zero",
    "Verif.Formula.C43_sale_all",
    "Verif.Formula.C43_purchase_full",
    "Verif.Formula.C43_sale_full",
    "Verif.Formula.C43_cross_equal"
   ],
   "note": ""
  },
  {
   "property": "C44",
   "status": "proved",
   "theorems": [
    "Verif.Formula.C44_purchase",
    "Verif.Formula.C44_sale",
    "Verif.Formula.C44_cross"
   ],
   "note": ""
  },
  {
   "property": "C45",
   "status": "proved",
   "theorems": [
    "Verif.Formula.C45_purchase",
    "Verif.Formula.C45_sale",
    "Verif.Formula.C45_cross",
    "Verif.Formula.C45_purchase_units",
    "Verif.Formula.C45_sale_units",
    "Verif.Formula.C45_cross_units",
    "Verif.Formula.C45_overpays"
   ],
   "note": ""
  },
  {
   "property": "C46",
   "status": "proved",
   "theorems": [
    "Verif.Formula.C46_buy_sell",
    "Verif.Formula.C46_sell_buy",
    "Verif.Formula.C46_cross_back",
    "Verif.Formula.C46_value",
    "Verif.Formula.C46_no_free_balance",
    "Verif.Formula.C46_no_free_supply"
   ],
   "note": ""
  },
  {
   "property": "C47",
   "status": "proved",
   "theorems": [
    "Verif.Formula.C47_purchase_relative",
    "Verif.Formula.C47_purchase",
    "Verif.Formula.C47_sale",
    "Verif.Formula.C47_cross",
    "Verif.Formula.C47_purchase_large",
    "Verif.Formula.C47_sale_large",
    "Verif.Formula.C47_cross_large"
   ],
   "note": ""
  },
  {
   "property": "C48",
   "status": "proved",
   "theorems": [
    "Verif.Formula.C48_log"
   ],
   "note": ""
  },
  {
   "property": "C49",
   "status": "proved",
   "theorems": [
    "Verif.Formula.C49_search"
   ],
   "note": ""
  },
  {
   "property": "C50",
   "status": "proved",
   "theorems": [
    "Verif.Formula.C50_power",
    "Verif.Formula.C50_general_exp",
    "Verif.Formula.C50_optimal_exp",
    "Verif.Formula.C50_optimal_log",
    "Verif.Formula.C50_general_log"
   ],
   "note": ""
  },
  {
   "property": "C51",
   "status": "proved",
   "theorems": [
    "Verif.Formula.C51_purchase_full",
    "Verif.Formula.C51_sale_full",
    "Verif.Formula.C51_cross_equal",
    "Verif.Formula.C51_purchase",
    "Verif.Formula.C51_sale",
    "Verif.Formula.C51_cross",
    "Verif.Formula.C51_not_monotone"
   ],
   "note": ""
  },
  {
   "property": "C52",
   "status": "proved",
   "theorems": [
    "Verif.Packaging.C52_provided",
    "Verif.Packaging.C52_imports_contained",
    "Verif.Packaging.C52_self_contained",
    "Verif.Packaging.C52_main_file",
    "Verif.Packaging.C52_build_exact",
    "Verif.Packaging.C52_build",
    "Verif.Packaging.C52_unknown",
    "Verif.Packaging.C52_clean",
    "Verif.Packaging.C52_zip",
    "Verif.Packaging.C52_zip_build",
    "Verif.Packaging.C52_compiled",
    "Verif.Packaging.C52_tests"
   ],
   "note": ""
  },
  {
   "property": "C53",
   "status": "proved",
   "theorems": [
    "Verif.C53_hop",
    "Verif.C53_fee",
    "Verif.C53_tokens",
    "Verif.C53_coin"
   ],
   "note": ""
  },
  {
   "property": "C54",
   "status": "proved",
   "theorems": [
    "Verif.C54_append_only",
    "Verif.C54_balances",
    "Verif.C54_icx_balances",
    "Verif.C54_supply",
    "Verif.C54_icx_ambiguous"
   ],
   "note": ""
  },
  {
   "property": "C55",
   "status": "proved",
   "theorems": [
    "Verif.C55_passed_on",
    "Verif.C55_owner_only",
    "Verif.C55_acceptTokenOwnership",
    "Verif.C55_transferTokenOwnership",
    "Verif.C55_disableTokenTransfers",
    "Verif.C55_withdrawFromToken"
   ],
   "note": ""
  },
  {
   "property": "C56",
   "status": "proved",
   "theorems": [
    "Verif.C56_converter",
    "Verif.C56_getConnector",
    "Verif.C56_owned",
    "Verif.C56_token",
    "Verif.C56_flexible",
    "Verif.C56_registry_network",
    "Verif.C56_isActive",
    "Verif.C56_getConnectorBalance",
    "Verif.C56_no_connector"
   ],
   "note": ""
  },
  {
   "property": "C57",
   "status": "proved",
   "theorems": [
    "Verif.C57_irc",
    "Verif.C57_flex",
    "Verif.C57_icx",
    "Verif.C57_net",
    "Verif.C57_reg",
    "Verif.C57_conv_bare",
    "Verif.C57_conv"
   ],
   "note": ""
  },
  {
   "property": "C58",
   "status": "proved",
   "theorems": [
    "Verif.C58_no_coin_stuck",
    "Verif.C58_refused",
    "Verif.C58_purse"
   ],
   "note": ""
  },
  {
   "property": "C59",
   "status": "proved",
   "theorems": [
    "Verif.C59_stays_open",
    "Verif.C59_trades",
    "Verif.C59_never_drained",
    "Verif.C59_value",
    "Verif.C59_no_free_balance",
    "Verif.C59_no_free_supply",
    "Verif.C59_virtual_is_drained",
    "Verif.C59_virtual_gain"
   ],
   "note": ""
  },
  {
   "property": "C60",
   "status": "proved",
   "theorems": [
    "Verif.Generator.C60_binary_search",
    "Verif.Generator.C60_max_exp",
    "Verif.Generator.C60_coefficients",
    "Verif.Generator.C60_table",
    "Verif.Generator.C60_general_exp",
    "Verif.Generator.C60_table_exact",
    "Verif.Generator.C60_log_terms",
    "Verif.Generator.C60_exp_terms",
    "Verif.Generator.C60_series",
    "Verif.Generator.C60_optimal_log",
    "Verif.Generator.C60_optimal_exp",
    "Verif.Generator.C60_ln2",
    "Verif.Generator.C60_scaling",
    "Verif.Generator.C60_growth",
    "Verif.Generator.C60_growth_steps"
   ],
   "note": ""
  },
  {
   "property": "C61",
   "status": "proved",
   "theorems": [
    "Verif.C61_owner",
    "Verif.C61_converter",
    "Verif.C61_registry",
    "Verif.C61_unlogged"
   ],
   "note": ""
  },
  {
   "property": "C62",
   "status": "proved",
   "theorems": [
    "Verif.C62_system",
    "Verif.C62_as_written",
    "Verif.C62_converter_set"
   ],
   "note": ""
  },
  {
   "property": "C63",
   "status": "proved",
   "theorems": [
    "Verif.C63_withdraw",
    "Verif.C63_windup"
   ],
   "note": ""
  },
  {
   "property": "C64",
   "status": "proved",
   "theorems": [
    "Verif.C64_tokens",
    "Verif.C64_coin",
    "Verif.C64_stays_open",
    "Verif.C64_unstoppable"
   ],
   "note": ""
  },
  {
   "property": "C65",
   "status": "proved",
   "theorems": [
    "Verif.C65_coin",
    "Verif.C65_conserved",
    "Verif.C65_nobody_gains",
    "Verif.C65_gain_has_a_price"
   ],
   "note": ""
  },
  {
   "property": "C66",
   "status": "proved",
   "theorems": [
    "Verif.Formula.C66_purchase",
    "Verif.Formula.C66_sale",
    "Verif.Formula.C66_cross",
    "Verif.C66_nothing_beats_buying",
    "Verif.C66_nothing_beats_selling",
    "Verif.C66_nothing_beats_converting"
   ],
   "note": ""
  },
  {
   "property": "C67",
   "status": "proved",
   "theorems": [
    "Verif.C67_exit",
    "Verif.C67_entry",
    "Verif.C67_across"
   ],
   "note": ""
  },
  {
   "property": "C68",
   "status": "proved",
   "theorems": [
    "Verif.Storage.C68_reads_last_write",
    "Verif.Storage.C68_misspelt",
    "Verif.Storage.C68_container_assignment",
    "Verif.Storage.C68_db_breaks",
    "Verif.Storage.C68_underscore_breaks"
   ],
   "note": ""
  },
  {
   "property": "C69",
   "status": "proved",
   "theorems": [
    "Verif.C69_table",
    "Verif.C69_only_offered",
    "Verif.C69_payable",
    "Verif.C69_readonly",
    "Verif.C69_calls",
    "Verif.C69_implemented",
    "Verif.C69_getAddress",
    "Verif.C69_initialised",
    "Scenario.C69_all_work"
   ],
   "note": ""
  },
  {
   "property": "C70",
   "status": "proved",
   "theorems": [
    "Verif.Proxy.C70_works",
    "Verif.Proxy.C70_no_abstract",
    "Verif.Proxy.C70_shared",
    "Verif.Proxy.C70_interface_twice",
    "Verif.Proxy.C70_refused",
    "Verif.Proxy.C70_refuses_itself",
    "Verif.Proxy.C70_project",
    "Verif.Proxy.C70_alias"
   ],
   "note": ""
  },
  {
   "property": "C71",
   "status": "proved",
   "theorems": [
    "Verif.Json.C71_read",
    "Verif.Json.C71_only",
    "Verif.Json.C71_request",
    "Verif.Json.C71_only_requests",
    "Verif.Json.C71_refused",
    "Verif.Json.C71_round_trip",
    "Verif.Json.C71_hop",
    "Verif.Json.C71_distinct",
    "Verif.Json.C71_readme_short",
    "Verif.Json.C71_readme_long",
    "Verif.Json.C71_prose"
   ],
   "note": ""
  },
  {
   "property": "C72",
   "status": "proved",
   "theorems": [
    "Verif.Formula.C72_purchase_spot",
    "Verif.Formula.C72_sale_spot",
    "Verif.Formula.C72_cross_spot",
    "Verif.Formula.C72_purchase_average",
    "Verif.Formula.C72_sale_average",
    "Verif.Formula.C72_cross_average",
    "Verif.Formula.C72_purchase_again",
    "Verif.Formula.C72_sale_again",
    "Verif.Formula.C72_cross_again",
    "Verif.C72_quote_buy",
    "Verif.C72_quote_sell",
    "Verif.C72_quote_cross",
    "Verif.C72_buy",
    "Verif.C72_sell",
    "Verif.C72_cross"
   ],
   "note": ""
  },
  {
   "property": "C73",
   "status": "proved",
   "theorems": [
    "Verif.Layout.C73_distinct",
    "Verif.Layout.C73_write",
    "Verif.Layout.C73_represents",
    "Verif.Layout.C73_connectors",
    "Verif.Layout.C73_limit"
   ],
   "note": ""
  },
  {
   "property": "C74",
   "status": "proved",
   "theorems": [
    "Verif.C74_depth",
    "Verif.C74_seven",
    "Verif.C74_calls",
    "Verif.C74_transactions",
    "Verif.C74_histories",
    "Verif.C74_limit"
   ],
   "note": ""
  },
  {
   "property": "C75",
   "status": "proved",
   "theorems": [
    "Verif.C75_untouched",
    "Verif.C75_local",
    "Verif.C75_cause",
    "Verif.C75_swap",
    "Verif.C75_front",
    "Verif.C75_contention"
   ],
   "note": ""
  },
  {
   "property": "C76",
   "status": "proved",
   "theorems": [
    "Verif.Props.C76_call",
    "Verif.Props.C76_deploy",
    "Verif.Props.C76_tx",
    "Verif.Props.C76_reachable",
    "Verif.Props.C76_budgets",
    "Verif.Props.C76_formula",
    "Verif.Props.C76_supply_is_sum"
   ],
   "note": ""
  },
  {
   "property": "C77",
   "status": "proved",
   "theorems": [
    "Verif.Props.C77_storage",
    "Verif.Props.C77_connectors",
    "Verif.Props.C77_names",
    "Verif.Props.C77_update"
   ],
   "note": ""
  },
  {
   "property": "C78",
   "status": "proved",
   "theorems": [
    "Verif.C78_split",
    "Verif.C78_join",
    "Verif.C78_elsewhere",
    "Verif.C78_quotes",
    "Verif.C78_quote_legs"
   ],
   "note": ""
  },
  {
   "property": "C79",
   "status": "proved",
   "theorems": [
    "Verif.C79_buying",
    "Verif.C79_selling",
    "Verif.C79_converting",
    "Verif.C79_buying_limit",
    "Verif.C79_selling_limit",
    "Verif.C79_converting_limit"
   ],
   "note": ""
  },
  {
   "property": "C80",
   "status": "proved",
   "theorems": [
    "Verif.C80_refused",
    "Verif.C80_plain",
    "Verif.C80_icx",
    "Verif.C80_flexible",
    "Verif.C80_out"
   ],
   "note": ""
  },
  {
   "property": "C81",
   "status": "proved",
   "theorems": [
    "Verif.C81_tokens",
    "Verif.C81_coin",
    "Verif.C81_off",
    "Verif.C81_quote",
    "Verif.C81_retired",
    "Verif.C81_replace",
    "Verif.C81_successor",
    "Verif.C81_service"
   ],
   "note": ""
  },
  {
   "property": "C82",
   "status": "proved",
   "theorems": [
    "Verif.C82_cost",
    "Verif.C82_path",
    "Verif.C82_back"
   ],
   "note": ""
  },
  {
   "property": "C83",
   "status": "proved",
   "theorems": [
    "Verif.C83_rates",
    "Verif.C83_quote",
    "Verif.C83_value",
    "Verif.C83_around"
   ],
   "note": ""
  }
 ]
}
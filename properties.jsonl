{"id": "C01", "title": "Token supply equals the sum of balances", "statement": "In every reachable ledger, for every token SCORE of this code base (plain IRC2 token, ICX token, flexible token), totalSupply() equals the sum of balanceOf over all accounts, and no balance and no supply is negative.", "quantifier": "every finite history of deployments and transactions, by any senders, with arbitrary (re-entrant, adversarial) third-party contracts, for every recursion budget", "why_tests_cant": "Holds over unbounded histories and call nestings; tests check a few transfers between a few accounts.", "anchors": ["contracts/irc_token/irc_token.py:on_install,_transfer", "contracts/flexible_token/flexible_token.py:issue,destroy", "contracts/icx_token/icx_token.py:deposit,withdrawTo"]}
{"id": "C02", "title": "A transfer moves exactly the stated value", "statement": "A successful transfer(to, value) by s lowers s's balance by value and raises to's by value (no net change when s = to), changes no other balance of that token, no supply, and nothing in any other contract, when the recipient is not a contract.", "quantifier": "every ledger, token kind, sender, recipient, value and data", "why_tests_cant": "Ranges over all values and all other accounts, including the self-transfer and zero-value edges.", "anchors": ["contracts/irc_token/irc_token.py:transfer,_transfer", "contracts/flexible_token/flexible_token.py:transfer", "contracts/icx_token/icx_token.py:transfer"]}
{"id": "C03", "title": "Overdrafts and negative transfers are rejected with no effect", "statement": "transfer with a negative value or a value above the sender's balance never succeeds, and a failed transaction leaves the whole ledger as it was.", "quantifier": "every ledger, token, sender, recipient, value and data", "why_tests_cant": "All integers, not a few sampled overdrafts.", "anchors": ["contracts/irc_token/irc_token.py:_transfer"]}
{"id": "C04", "title": "A plain IRC2 token has a fixed supply and fixed metadata", "statement": "After deployment a plain IRC2 token's totalSupply() stays initialSupply * 10^decimals for ever, and name(), symbol() and decimals() of every token SCORE never change.", "quantifier": "every finite history of deployments and transactions, by any senders, with arbitrary (re-entrant, adversarial) third-party contracts, for every recursion budget", "why_tests_cant": "A 'never changes' claim over all later histories.", "anchors": ["contracts/irc_token/irc_token.py:on_install"]}
{"id": "C05", "title": "Nobody's tokens move without the holder's or the flexible token owner's call", "statement": "If during a transaction an account's balance of a token goes down, then within that transaction either that very account called transfer/withdraw/withdrawTo/destroy on that token, or (flexible token only) the token's owner at that moment called destroy on that account.", "quantifier": "every finite history of deployments and transactions, by any senders, with arbitrary (re-entrant, adversarial) third-party contracts, for every recursion budget", "why_tests_cant": "Must exclude theft through every re-entrant call sequence an attacker contract could make.", "anchors": ["contracts/irc_token/irc_token.py:_transfer", "contracts/flexible_token/flexible_token.py:destroy", "contracts/icx_token/icx_token.py:withdrawTo"]}
{"id": "C06", "title": "Only the owner mints flexible tokens", "statement": "If a flexible token's total supply goes up during a transaction, its owner at that moment called issue on it within that transaction; if it goes down, destroy was called by the holder itself or by the owner.", "quantifier": "every finite history of deployments and transactions, by any senders, with arbitrary (re-entrant, adversarial) third-party contracts, for every recursion budget", "why_tests_cant": "All callers and all call nestings.", "anchors": ["contracts/flexible_token/flexible_token.py:issue,destroy", "contracts/utility/owned.py:require_owner_only"]}
{"id": "C07", "title": "issue and destroy have exactly their stated effect", "statement": "issue(to, amount) succeeds exactly when the caller is the owner, amount > 0, to is not the zero address and not the token itself, and then adds amount to to's balance and to the supply and changes nothing else; destroy(from, amount) succeeds exactly when amount > 0, from holds at least amount and the caller is from or the owner, and then subtracts amount from both and changes nothing else.", "quantifier": "every ledger, caller, account and amount", "why_tests_cant": "An iff over all integers and callers.", "anchors": ["contracts/flexible_token/flexible_token.py:issue,destroy"]}
{"id": "C08", "title": "Disabled flexible tokens cannot be transferred", "statement": "While transfers are disabled every transfer call on the flexible token fails, whoever makes it; only the owner can toggle this.", "quantifier": "every ledger with transfers disabled, every caller, value, data; every finite history of deployments and transactions, by any senders, with arbitrary (re-entrant, adversarial) third-party contracts, for every recursion budget", "why_tests_cant": "All callers, nestings and histories.", "anchors": ["contracts/flexible_token/flexible_token.py:transfer,disableTransfer,require_transfer_allowed"]}
{"id": "C09", "title": "ICX token is backed one to one", "statement": "In every reachable ledger the ICX coin balance of an ICX token SCORE equals its totalSupply().", "quantifier": "every finite history of deployments and transactions, by any senders, with arbitrary (re-entrant, adversarial) third-party contracts, for every recursion budget", "why_tests_cant": "Must survive every interleaving of deposits, withdrawals (including to itself) and re-entrant recipients.", "anchors": ["contracts/icx_token/icx_token.py:fallback,deposit,withdrawTo"]}
{"id": "C10", "title": "ICX tokens can always be redeemed", "statement": "In every reachable ledger, an account holding at least amount > 0 of an ICX token can withdraw it: withdrawTo(amount, to) for an ordinary account to succeeds, pays exactly amount ICX to to, and lowers exactly the caller's balance and the supply by amount.", "quantifier": "every reachable ledger, holder, recipient and amount", "why_tests_cant": "Liveness of redemption in every reachable state depends on the backing invariant.", "anchors": ["contracts/icx_token/icx_token.py:withdraw,withdrawTo"]}
{"id": "C11", "title": "Deposits credit exactly the coin sent", "statement": "Sending value ICX to an ICX token SCORE (deposit or plain transfer) credits the sender with exactly value tokens, raises the supply by value, and changes no other balance.", "quantifier": "every ledger, sender and value", "why_tests_cant": "All values and all accounts.", "anchors": ["contracts/icx_token/icx_token.py:fallback,deposit"]}
{"id": "C12", "title": "Ownership changes hands only in two steps", "statement": "If the owner of an owned SCORE changes in a transaction, the new owner itself called acceptOwnerShip while it was the pending nominee (for a SCORE this means the converter code did so on its owner's order); a pending nominee is recorded only by a call of the owner; after acceptance the pending nominee is the zero address.", "quantifier": "every finite history of deployments and transactions, by any senders, with arbitrary (re-entrant, adversarial) third-party contracts, for every recursion budget", "why_tests_cant": "All histories and callers.", "anchors": ["contracts/utility/owned.py:transferOwnerShip,acceptOwnerShip"]}
{"id": "C13", "title": "Converter management changes hands only in two steps", "statement": "A freshly deployed converter has no manager; the manager changes only when the pending nominee itself calls acceptManagement, and a nominee is recorded only by the owner or the current manager.", "quantifier": "every finite history of deployments and transactions, by any senders, with arbitrary (re-entrant, adversarial) third-party contracts, for every recursion budget", "why_tests_cant": "All histories and callers.", "anchors": ["contracts/utility/managed.py:transferManagement,acceptManagement", "contracts/converter/converter.py:on_install"]}
{"id": "C14", "title": "Converter settings change only by authorised calls", "statement": "If a converter's connector list, a connector's weight/virtual-balance flag/purchase flag, its fee, its conversions-enabled flag, its registry addresses or its registry-update flag change in a transaction, then its owner (or, where documented, its manager) made the corresponding call within that transaction - except updateRegistry, which anyone may call while registry updates are allowed.", "quantifier": "every finite history of deployments and transactions, by any senders, with arbitrary (re-entrant, adversarial) third-party contracts, for every recursion budget", "why_tests_cant": "All callers, nestings and histories.", "anchors": ["contracts/converter/converter.py:addConnector,updateConnector,disableConnectorPurchases,updateRegistry,restoreRegistry,disableRegistryUpdate,disableConversions,setConversionFee"]}
{"id": "C15", "title": "A converter controls only its own flexible token", "statement": "In every reachable ledger, if a flexible token is owned by a converter, that converter's getToken() is this token; so two different flexible tokens are never controlled by the same converter.", "quantifier": "every finite history of deployments and transactions, by any senders, with arbitrary (re-entrant, adversarial) third-party contracts, for every recursion budget", "why_tests_cant": "A global invariant over all contracts and histories.", "anchors": ["contracts/utility/flexible_token_controller.py:acceptTokenOwnership,transferTokenOwnership", "contracts/utility/owned.py:acceptOwnerShip"]}
{"id": "C16", "title": "Tokens held by a SCORE leave only on its owner's order", "statement": "withdrawTokens succeeds only for the SCORE's owner, with a positive amount and a recipient that is neither the zero address nor the SCORE itself.", "quantifier": "every ledger, caller, token, recipient and amount", "why_tests_cant": "An only-if over all callers and arguments.", "anchors": ["contracts/utility/token_holder.py:withdrawTokens"]}
{"id": "C17", "title": "The registry only ever lists contract addresses under known names", "statement": "In every reachable ledger every address the registry lists is a non-zero contract address under one of the two known names; getAddress of anything not listed is the zero address.", "quantifier": "every finite history of deployments and transactions, by any senders, with arbitrary (re-entrant, adversarial) third-party contracts, for every recursion budget", "why_tests_cant": "All histories.", "anchors": ["contracts/score_registry/score_registry.py:registerAddress,unregisterAddress,getAddress"]}
{"id": "C18", "title": "Registry updates are exact and owner-only", "statement": "registerAddress/unregisterAddress succeed exactly for the owner with a legal name and contract address (respectively a listed name), change exactly that entry and nothing else, and getAddress then returns it.", "quantifier": "every ledger, caller, name and address", "why_tests_cant": "An iff over all names and addresses.", "anchors": ["contracts/score_registry/score_registry.py"]}
{"id": "C19", "title": "Converter registry update and emergency restore", "statement": "updateRegistry succeeds only if updates are allowed or the caller is the owner, and the current registry points at a different non-zero registry; it then makes that the registry and the old one the previous registry. restoreRegistry (owner/manager) brings the previous registry back and forbids further public updates.", "quantifier": "every ledger whose registry is a registry SCORE, every caller", "why_tests_cant": "All states and callers.", "anchors": ["contracts/converter/converter.py:updateRegistry,restoreRegistry,disableRegistryUpdate"]}
{"id": "C20", "title": "Connector weights stay within 100 percent", "statement": "In every reachable ledger every connector of a converter has a weight in 1..1000000, and the weights of all its connectors add up to its recorded total, which never exceeds 1000000.", "quantifier": "every finite history of deployments and transactions, by any senders, with arbitrary (re-entrant, adversarial) third-party contracts, for every recursion budget", "why_tests_cant": "An invariant of every history of addConnector/updateConnector.", "anchors": ["contracts/converter/converter.py:addConnector,updateConnector,_require_valid_connector_weight"]}
{"id": "C21", "title": "The connector list is sound", "statement": "In every reachable ledger the connector list has no duplicates, contains exactly the addresses for which getConnector is non-empty, never contains the zero address, the converter itself or its flexible token; connectors are never removed.", "quantifier": "every finite history of deployments and transactions, by any senders, with arbitrary (re-entrant, adversarial) third-party contracts, for every recursion budget", "why_tests_cant": "All histories.", "anchors": ["contracts/converter/converter.py:addConnector,getConnector,getConnectorAt,getConnectorTokenCount"]}
{"id": "C22", "title": "Connectors are added only while the converter is inactive, by its owner", "statement": "addConnector fails whenever the converter owns its flexible token or the caller is not the converter's owner.", "quantifier": "every ledger, caller and argument", "why_tests_cant": "All states and arguments.", "anchors": ["contracts/converter/converter.py:addConnector", "contracts/utility/flexible_token_controller.py:_require_inactive"]}
{"id": "C23", "title": "Conversion fee is bounded for the lifetime of the converter", "statement": "In every reachable ledger 0 <= getConversionFee() <= getMaxConversionFee() <= 1000000, and getMaxConversionFee() never changes after deployment.", "quantifier": "every finite history of deployments and transactions, by any senders, with arbitrary (re-entrant, adversarial) third-party contracts, for every recursion budget", "why_tests_cant": "An invariant over all histories.", "anchors": ["contracts/converter/converter.py:on_install,setConversionFee"]}
{"id": "C24", "title": "Fee arithmetic", "statement": "For every amount >= 0 and magnitude: 0 <= getFinalAmount <= amount; it is amount when the fee is 0 and 0 when the fee is 100%; it is monotone in the amount, antitone in the fee; magnitude 2 never yields more than magnitude 1 and never less than charging the single fee twice.", "quantifier": "all amounts, fees 0..1000000 and magnitudes", "why_tests_cant": "All integers.", "anchors": ["contracts/converter/converter.py:getFinalAmount"]}
{"id": "C25", "title": "Quoted amount plus fee is the formula result", "statement": "Whenever getReturn succeeds, amount + fee equals the bonding-curve formula evaluated at the current supply, connector balance(s) and weight(s), and the fee is never negative.", "quantifier": "every ledger, token pair and amount", "why_tests_cant": "All states and amounts.", "anchors": ["contracts/converter/converter.py:getReturn,get_purchase_return,get_sale_return,get_cross_connector_return"]}
{"id": "C26", "title": "Buying: exact effect and minimum return", "statement": "When a conversion connector -> flexible token succeeds, the trader (network) is issued exactly the returned amount, which is at least minReturn and at least 1; the supply grows by exactly that amount; the virtual balance (if enabled) grows by exactly the deposit; no other token balance changes.", "quantifier": "every ledger, connector, amount and minReturn", "why_tests_cant": "All states and amounts.", "anchors": ["contracts/converter/converter.py:_buy"]}
{"id": "C27", "title": "Selling: exact effect, minimum return, no depletion", "statement": "When a conversion flexible token -> connector succeeds, exactly the sold amount is destroyed from the converter's holding, exactly the returned amount (>= minReturn >= 1) of the connector token leaves the converter to the trader, and the connector balance is only emptied if the whole supply was sold.", "quantifier": "every ledger, connector, amount and minReturn", "why_tests_cant": "All states and amounts.", "anchors": ["contracts/converter/converter.py:_sell"]}
{"id": "C28", "title": "Cross conversion: exact effect, minimum return, no depletion", "statement": "When a conversion connector -> connector succeeds, exactly the returned amount (>= minReturn >= 1) of the target token leaves the converter to the trader, strictly less than the target connector balance; the flexible token supply is unchanged.", "quantifier": "every ledger, connector pair, amount and minReturn", "why_tests_cant": "All states and amounts.", "anchors": ["contracts/converter/converter.py:_convert_cross_connector"]}
{"id": "C29", "title": "No conversion unless the converter is open for it", "statement": "No conversion succeeds while conversions are disabled, while the converter does not own its flexible token, for a non-positive amount or minReturn, between identical tokens, between tokens that are not the flexible token or its connectors, or for a trader other than the registered network.", "quantifier": "every ledger, sender and data", "why_tests_cant": "All states and inputs.", "anchors": ["contracts/converter/converter.py:tokenFallback,_convert"]}
{"id": "C30", "title": "Disabling purchases of a connector", "statement": "While purchases with a connector are disabled, buying the flexible token with it and converting another connector into it fail; selling the flexible token for it is unaffected by the flag.", "quantifier": "every ledger, connector and amount", "why_tests_cant": "All states and amounts; flag-independence is a two-run property.", "anchors": ["contracts/converter/converter.py:disableConnectorPurchases,get_purchase_return,get_cross_connector_return"]}
{"id": "C31", "title": "A quote is what the next conversion pays", "statement": "If getReturn(from, to, amount) answers r, then depositing amount next and converting pays exactly r, whenever the token sold is the flexible token or a connector without a virtual balance; and that conversion then does succeed when the minimal return is positive and at most r, conversions are enabled, and the amount and payment are available. (Finding: for a connector with a virtual balance this is false of the code - there is a reachable ledger where the payment differs from the quote.)", "quantifier": "every ledger, pair and amount", "why_tests_cant": "A two-run agreement for all states; in fact false for virtual-balance connectors.", "anchors": ["contracts/converter/converter.py:getReturn,get_purchase_return,_buy,_sell,_convert_cross_connector"]}
{"id": "C32", "title": "Virtual balances follow conversions exactly", "statement": "A connector's virtual balance changes only by a conversion (plus the deposit, minus the payout) or by the owner's updateConnector; conversions never make it negative.", "quantifier": "every finite history of deployments and transactions, by any senders, with arbitrary (re-entrant, adversarial) third-party contracts, for every recursion budget", "why_tests_cant": "All histories.", "anchors": ["contracts/converter/converter.py:_buy,_sell,_convert_cross_connector,updateConnector"]}
{"id": "C33", "title": "An active converter accepts tokens only for conversions by the network", "statement": "Sending any token to an active converter fails unless the sender is the registered network and the data is a valid conversion request; to an inactive one only its owner may deposit connector tokens.", "quantifier": "every ledger, sender, token, value and data", "why_tests_cant": "All senders and data.", "anchors": ["contracts/converter/converter.py:tokenFallback"]}
{"id": "C34", "title": "Reserves cannot be withdrawn while the converter is active", "statement": "While the converter owns its flexible token, withdrawTokens of any connector token fails for everyone.", "quantifier": "every ledger, caller and arguments", "why_tests_cant": "All callers and states.", "anchors": ["contracts/converter/converter.py:withdrawTokens"]}
{"id": "C35", "title": "Path validation", "statement": "A conversion path is accepted exactly when it has an odd length from 3 to 21 and the flexible tokens at its odd positions are pairwise distinct.", "quantifier": "all lists of addresses", "why_tests_cant": "All lists.", "anchors": ["contracts/network/network.py:_require_valid_path"]}
{"id": "C36", "title": "Path strings are read faithfully", "statement": "The comma separated string of any list of addresses, with any amount of blanks around each address, is read back as exactly that list, and the JSON the network sends to a converter is read back as the same target token and minReturn; a string with anything else in it is rejected.", "quantifier": "all address lists and paddings", "why_tests_cant": "All addresses and paddings.", "anchors": ["contracts/network/network.py:_convert_path,_convert_by_path", "contracts/converter/converter.py:tokenFallback"]}
{"id": "C37", "title": "End-to-end minimum return", "statement": "If a conversion through the network over honest converters succeeds, the beneficiary receives at least minReturn of the last token (or ICX) and nothing short of it.", "quantifier": "every ledger, path, amount and minReturn", "why_tests_cant": "All paths up to the maximal length and all states.", "anchors": ["contracts/network/network.py:_convert_by_path,_convert_for_internal", "contracts/converter/converter.py:_convert"]}
{"id": "C38", "title": "The network keeps nothing of a conversion", "statement": "After a successful conversion over honest tokens the network's balance of every token in the path is what it was before.", "quantifier": "every ledger and path", "why_tests_cant": "All paths and states.", "anchors": ["contracts/network/network.py:_convert_by_path,_convert_for_internal"]}
{"id": "C39", "title": "Nobody can drain tokens held by the network", "statement": "If the network's balance of an honest (non-flexible) token goes down in a transaction, the network's owner called withdrawTokens on the network in that transaction.", "quantifier": "every finite history of deployments and transactions, by any senders, with arbitrary (re-entrant, adversarial) third-party contracts, for every recursion budget", "why_tests_cant": "Adversarial tokens, converters and recipients re-entering the network at every point.", "anchors": ["contracts/network/network.py"]}
{"id": "C40", "title": "A path quote is what the conversion pays", "statement": "getExpectedReturnByPath(path, amount) equals the amount a conversion over the same path pays next, when the converters involved use real connector balances.", "quantifier": "every ledger, path and amount", "why_tests_cant": "A two-run agreement over all states and paths.", "anchors": ["contracts/network/network.py:getExpectedReturnByPath,_convert_by_path"]}
{"id": "C41", "title": "ICX conversions start at a registered ICX token", "statement": "convert/convertFor succeed only if the first path element is a registered ICX token, minReturn > 0 and the beneficiary is neither the zero address nor the network; only the network owner can (un)register ICX tokens; a conversion that starts with a token transfer to the network goes through only if its minimum return is positive, its beneficiary is not the zero address, and the caller is the first token of the path.", "quantifier": "every ledger, path, value and beneficiary; every finite history of deployments and transactions, by any senders, with arbitrary (re-entrant, adversarial) third-party contracts, for every recursion budget", "why_tests_cant": "All inputs and histories.", "anchors": ["contracts/network/network.py:convertFor,registerIcxToken"]}
{"id": "C42", "title": "Formula input validation", "statement": "calculate_purchase_return / calculate_sale_return / calculate_cross_connector_return reject exactly the inputs with non-positive supply or balance, a weight outside 1..1000000, or (sale) a sell amount above the supply - plus a base outside the supported range 2^129 where the power function is needed.", "quantifier": "all integers", "why_tests_cant": "An iff over all integer inputs.", "anchors": ["contracts/formula/fixed_map_formula.py:calculate_purchase_return,calculate_sale_return,calculate_cross_connector_return,_power"]}
{"id": "C43", "title": "Formula special cases", "statement": "Zero in gives zero out; selling the whole supply returns the whole balance; at weight 100% the purchase/sale returns are the floored proportional amounts; at equal weights the cross return is the floored constant-product amount.", "quantifier": "all valid inputs", "why_tests_cant": "All integers.", "anchors": ["contracts/formula/fixed_map_formula.py"]}
{"id": "C44", "title": "Formula results stay in range", "statement": "For non-negative amounts the purchase return is >= 0, the sale return lies in 0..balance, and the cross return lies in 0..balance and is below the balance for a positive target balance.", "quantifier": "all valid inputs", "why_tests_cant": "All integers, through four approximation regimes.", "anchors": ["contracts/formula/fixed_map_formula.py:_power,_optimal_log,_optimal_exp,_general_log,_general_exp"]}
{"id": "C45", "title": "The formula never overpays", "statement": "The integer returns never exceed the exact real-valued curve of the documentation evaluated with a balance or supply ratio off by a factor e^(5/2^127); while the new supply is at most 2^124 (purchase) or the paying balance at most 2^104 (sale, cross) the excess is less than one unit. The slack is real: at a supply of 2^140 a purchase can exceed the exact curve.", "quantifier": "all integers for which the formula returns a result, non-negative amounts", "why_tests_cant": "A real-analysis bound over all inputs.", "anchors": ["contracts/formula/fixed_map_formula.py:_power"]}
{"id": "C46", "title": "Buying then selling never makes a profit", "statement": "With connector balances up to 2^104 (supply up to 2^123 for sell-then-buy), depositing and selling everything received returns at most the deposit; likewise selling and buying back, and converting across connectors and back. More generally, after any finite sequence of n trades of any kind on a pool with any number of connectors, with or without fees, the weighted product of the balances divided by the supply has fallen by at most a factor e^(-5n/2^127); so no sequence takes anything out of one connector, or creates smart tokens, unless something else is paid in.", "quantifier": "all supplies, balances, weights and amounts; all finite sequences of trades on any number of connectors", "why_tests_cant": "All inputs through all approximation regimes.", "anchors": ["contracts/formula/fixed_map_formula.py"]}
{"id": "C47", "title": "Formula accuracy", "statement": "While the exact supply grows at most 2^22-fold (or the paying balance keeps at least 2^-22 of itself), the returns are within two units of the exact real curve for supplies up to 2^116 and paying balances up to 2^94; for larger supplies the purchase is within one unit plus a relative 2000/2^127. Beyond that range the result stays large: a growth of 2^22 or more returns at least four million times the supply, and a payout that exactly leaves at most 2^-22 of the balance leaves at most a four-millionth of it and one unit.", "quantifier": "all inputs in that range, any base ratio", "why_tests_cant": "A real-analysis bound.", "anchors": ["contracts/formula/fixed_map_formula.py:_optimal_log,_optimal_exp"]}
{"id": "C48", "title": "Integer binary logarithm", "statement": "The floor-log2 routine returns the exact floor of log2 for every n with 1 <= n < 2^256.", "quantifier": "all n below 2^256", "why_tests_cant": "All 2^256 inputs.", "anchors": ["contracts/formula/fixed_map_formula.py:_floor_log2"]}
{"id": "C49", "title": "Precision search", "statement": "For every exponent the precision search returns the highest precision 32..127 whose table bound admits it, and 0 if none does.", "quantifier": "all integers", "why_tests_cant": "All inputs; relies on the whole table being sorted.", "anchors": ["contracts/formula/fixed_map_formula.py:_find_position_in_max_exp_array"]}
{"id": "C50", "title": "No intermediate of the exponentiation exceeds 256 bits", "statement": "Whenever the power function is applied to a base ratio of at least 1 below 2^129 and either the precision search finds a precision or the exponent is at most 1, every intermediate value of the logarithm and the exponentiation lies between 0 and 2^256 - 1.", "quantifier": "all such inputs", "why_tests_cant": "All inputs.", "anchors": ["contracts/formula/fixed_map_formula.py:_general_exp,_optimal_exp,_optimal_log", "contracts/formula/auto_generate/common/functions.py"]}
{"id": "C51", "title": "Monotone returns", "statement": "A larger amount never returns less: exactly at weight 100% and equal weights, and up to two units in the accuracy range of C47 otherwise. Outside that range it fails: doubling a deposit can return a twelfth less, because the precision search answers 0 instead of refusing.", "quantifier": "all valid inputs", "why_tests_cant": "All pairs of inputs.", "anchors": ["contracts/formula/fixed_map_formula.py"]}
{"id": "C52", "title": "Built packages are self-contained and exactly what was asked for", "statement": "For every SCORE in the build configuration, the built package contains every project file that any file of the package imports, directly or indirectly, its main file and package.json. Building any list of known SCOREs succeeds if the sources are there, gives every file of the packages its source's content, leaves nothing of earlier builds in their directories and changes nothing else; an unknown name changes nothing; cleaning removes exactly the output directory.", "quantifier": "all lists of contract names, all states of the file system with the sources in place, all dependency chains of any length", "why_tests_cant": "Tests deploy some packages but do not chase every import chain.", "anchors": ["build.py:main", "contract_generator/config.py:config", "contract_generator/builder.py:Builder", "contract_generator/writer.py:FileWriter", "contract_generator/writer.py:ZipWriter"]}
{"id": "C53", "title": "Events tell each conversion exactly", "statement": "A successful conversion at a converter adds to the event log exactly: the issuing or destruction of flexible tokens with its transfer, the payout transfer, one Conversion event with the amount sold, the amount paid and the fee (formula return minus amount paid, never negative), one price event per connector involved with the supply, balance and weight afterwards, and the transfer that started it. A conversion through the network adds the events of each hop in path order, then the payout, then (for tokens) the customer's transfer, or starts with the issuing of the ICX token (for coin). Nothing else is logged.", "quantifier": "all reachable ledgers, converters, paths of honest tokens and converters, amounts, requests and ordinary beneficiaries", "why_tests_cant": "The exact event list must hold for every path length, amount, weight and fee; the integration tests look at two event fields.", "anchors": ["contracts/converter/converter.py:_convert,_buy,_sell,_convert_cross_connector", "contracts/network/network.py:_convert_for_internal,_convert_by_path", "contracts/flexible_token/flexible_token.py:issue,destroy"]}
{"id": "C54", "title": "Balances can be read off the event log", "statement": "The event log is append-only. For plain and flexible tokens every account's balance is, at any time, what the creator was granted at deployment plus what the token's logged transfers (and issuances, destructions) say; for every token the total supply is the grant plus logged issuances minus logged destructions. For ICX tokens the balance is that minus the account's withdrawals, whose account is not logged: two histories with equal logs can have different balances.", "quantifier": "all reachable ledgers, tokens, accounts, histories and third-party code (which may log anything in its own name)", "why_tests_cant": "It is a statement about the whole history of nested calls, failures and foreign events.", "anchors": ["contracts/irc_token/irc_token.py:_transfer", "contracts/flexible_token/flexible_token.py:issue,destroy", "contracts/icx_token/icx_token.py:deposit,withdrawTo"]}
{"id": "C55", "title": "A converter passes its owner's orders on to its flexible token", "statement": "transferTokenOwnership, acceptTokenOwnership, disableTokenTransfers and withdrawFromToken fail for everybody but the converter's owner, pass exactly the corresponding order on to the flexible token in the converter's name, and succeed exactly if the token obeys; their effect is exactly the token's.", "quantifier": "all ledgers, converters, callers, arguments and third-party code (including third-party tokens behind the converter)", "why_tests_cant": "All states, callers and arguments.", "anchors": ["contracts/utility/flexible_token_controller.py:transferTokenOwnership,acceptTokenOwnership,disableTokenTransfers,withdrawFromToken"]}
{"id": "C56", "title": "Read-only methods answer the record and change nothing", "statement": "Every read-only method of tokens, owned contracts, converter, registry and network (except quotes, see C24, C25, C36) answers for every caller what the contract's record says - isActive whether the converter owns its flexible token, getConnectorBalance the recorded balance of a virtual connector or the tokens held - and logs and changes nothing.", "quantifier": "all ledgers, callers and third-party code", "why_tests_cant": "All states and callers.", "anchors": ["contracts/converter/converter.py:getConnectorBalance,getConnector,getRegistry", "contracts/utility/flexible_token_controller.py:isActive,getToken", "contracts/utility/owned.py:getOwner,getNewOwner", "contracts/utility/managed.py:getManager,getNewManager", "contracts/irc_token/irc_token.py:name,symbol,decimals,totalSupply,balanceOf"]}
{"id": "C57", "title": "A deployment creates exactly the advertised contract", "statement": "Deploying a contract succeeds exactly at a free contract address with legal arguments (tokens: non-negative supply and decimals; converter: flexible token and registry given and non-zero, maximal fee 0..1000000, and if a first connector is given: not the converter, not the flexible token, weight 1..1000000). The new contract then has exactly the given metadata, the deployer as owner (where it has one) and holder of initialSupply * 10^decimals; a flexible token is transferable, an ICX token is empty, a registry lists itself, a converter is enabled, without fee, manager or further connectors. Nothing else changes.", "quantifier": "all reachable ledgers, deployers, addresses, arguments and third-party code", "why_tests_cant": "All states and arguments; tests deploy a few literals on an empty ledger.", "anchors": ["contracts/irc_token/irc_token.py:on_install", "contracts/flexible_token/flexible_token.py:on_install", "contracts/icx_token/icx_token.py:on_install", "contracts/converter/converter.py:on_install", "contracts/score_registry/score_registry.py:on_install", "contracts/network/network.py:on_install", "contracts/utility/flexible_token_controller.py:on_install", "contracts/utility/owned.py:on_install"]}
{"id": "C58", "title": "No coin gets stuck and no purse is opened by others", "statement": "Plain and flexible tokens, converters, registries and networks never hold any ICX coin between transactions: coin sent along with a call is refused, except by the network's convert and convertFor, which pass all of it on, and by an ICX token's deposit and plain transfer. A transaction costs its signer at most the coin sent along and no other ordinary account anything.", "quantifier": "all reachable ledgers, transactions and third-party code, including re-entrant calls", "why_tests_cant": "It ranges over all histories and all third-party contracts in the middle of a conversion.", "anchors": ["contracts/network/network.py:convert,convertFor,_convert_for_internal", "contracts/icx_token/icx_token.py:deposit,withdrawTo,fallback", "contracts/converter/converter.py:tokenFallback"]}
{"id": "C59", "title": "Nobody gets anything for nothing out of a converter", "statement": "Take a converter that is open for business (it owns its flexible token, is wired to a self-listing registry and a network of this code base, and its connectors are tokens of this code base without virtual balances). Whatever transactions anybody makes from then on, and whatever third-party contracts do in the middle of them: unless somebody in office meddles (the converter's owner redefines a connector or he or the manager restores the previous registry, the registry's owner changes an entry, a nominee takes over the flexible token, the owner of a connector token destroys the converter's tokens), the converter stays open with the same weights, and as long as there is supply left, all that happens to its pool is trading along the curve: the value per flexible token (weighted product of the balances divided by the supply) falls by at most a rounding factor of exp(-5/2^127) per call, no connector is drained, no connector tokens leave without flexible tokens or other connector tokens coming in, and no flexible tokens appear without connector tokens coming in. (Finding: for connectors with a virtual balance this is false of the code - an ordinary account can take reserves out by buying and selling, C59_virtual_is_drained.)", "quantifier": "all reachable ledgers, converters, histories of transactions by anybody, third-party code and its re-entrant calls", "why_tests_cant": "It ranges over all interleavings of all calls by all parties, including hostile contracts called in the middle of conversions, and over all amounts; tests try a few trades.", "anchors": ["contracts/converter/converter.py:_buy,_sell,_convert_cross_connector,tokenFallback,withdrawTokens,updateRegistry", "contracts/formula/fixed_map_formula.py:calculate_purchase_return,calculate_sale_return,calculate_cross_connector_return", "contracts/flexible_token/flexible_token.py:issue,destroy", "contracts/irc_token/irc_token.py:transfer", "contracts/icx_token/icx_token.py:deposit,withdrawTo"]}
{"id": "C60", "title": "The formula's constants are what the generator scripts produce, and the scripts' claims hold", "statement": "Running the scripts in auto_generate yields exactly the constants the contract uses (coefficients, table of largest exponents, terms and series of the optimal logarithm and exponential, scaling factors), whichever way Decimal rounds the last of its 100 digits. The binary search finds the largest acceptable argument of every function that accepts everything below what it accepts; each table entry is exactly the boundary up to which the contract's general exponential needs no number beyond 256 bits; the generated logarithm and exponential agree with the contract's for every argument of their domain without exceeding 256 bits; and the growth factor is the largest with which the table can be approximated from below.", "quantifier": "all arguments, precisions, numbers of coefficients and rounding modes", "why_tests_cant": "Agreement of the functions and maximality of the table entries range over 2^127 arguments and more; the rounding of Decimal is left open.", "anchors": ["contracts/formula/auto_generate/common/functions.py", "contracts/formula/auto_generate/print_function_constructor.py", "contracts/formula/auto_generate/print_function_optimal_log.py", "contracts/formula/auto_generate/print_function_optimal_exp.py", "contracts/formula/auto_generate/print_ln2_scaling_factors.py", "contracts/formula/auto_generate/print_int_scaling_factors.py", "contracts/formula/auto_generate/print_max_exp_per_precision.py", "contracts/formula/fixed_map_formula.py"]}
{"id": "C61", "title": "The current owner, manager and fee and the registry's entries can be read off the event log", "statement": "Of every contract, the owner in the ledger is the one its latest OwnerUpdate names (the deployer if there is none), every such entry names the previous owner correctly, and nothing else is announced as an owner change; the same for a converter's manager (ManagerUpdate), fee (ConversionFeeUpdate) and whether conversions are enabled (ConversionEnable), and for a registry's entries (AddressUpdate). Other settings can change without any event being logged.", "quantifier": "all reachable ledgers, all contracts, all histories including third-party contracts", "why_tests_cant": "A wallet or explorer reconstructs the state from the events of an arbitrary history; tests check single events.", "anchors": ["contracts/utility/owned.py:acceptOwnerShip,OwnerUpdate", "contracts/utility/managed.py:acceptManagement,ManagerUpdate", "contracts/converter/converter.py:setConversionFee,disableConversions", "contracts/score_registry/score_registry.py:registerAddress,unregisterAddress"]}
{"id": "C62", "title": "The deployment guide works, with one missing call added", "statement": "Steps 1 to 3 of the README (deploy network, registry, ICX token; register; deposit coin) succeed for every account at free addresses in every ledger, and lead to the wiring described. Steps 4 to 6 (deploy flexible token and converter, add connectors) succeed for every list of distinct connector tokens whose weights fit, but step 7 (acceptTokenOwnership) then always fails, since nobody has offered the token. With transferOwnerShip before it, and the reserves deposited before that, it succeeds, and the converter is active, wired to the network, without fee, with exactly the planned connectors and reserves.", "quantifier": "all reachable ledgers, deployers, names, numbers, lists of connectors of any length", "why_tests_cant": "Tests deploy one configuration; the guide is for every configuration, in every state of the chain.", "anchors": ["README.md:172-478", "contracts/converter/converter.py:on_install,addConnector,tokenFallback", "contracts/utility/flexible_token_controller.py:acceptTokenOwnership", "contracts/utility/owned.py:transferOwnerShip,acceptOwnerShip", "contracts/score_registry/score_registry.py:registerAddress", "contracts/network/network.py:registerIcxToken"]}
{"id": "C63", "title": "A converter's owner can always wind it up", "statement": "Whatever has happened before, the owner of an active converter (an ordinary account) can have its flexible token handed over to himself and then withdraw everything the converter holds, of any tokens whose transfers are not disabled: all these transactions succeed, he gets everything, and nobody else's balance, no supply and no other contract is affected. (So holders of a flexible token depend on the owner's good will: nobody's consent is needed.) withdrawTokens to an ordinary account succeeds exactly if ordered by the owner for a positive amount that is there, of a transferable token that is no connector, unless the converter is inactive.", "quantifier": "all reachable ledgers, converters, owners, lists of tokens of any length", "why_tests_cant": "It is a liveness claim over every history that may have gone before; tests withdraw in one fresh state.", "anchors": ["contracts/converter/converter.py:withdrawTokens", "contracts/utility/token_holder.py:withdrawTokens", "contracts/utility/flexible_token_controller.py:transferTokenOwnership", "contracts/utility/owned.py:acceptOwnerShip"]}
{"id": "C64", "title": "What is quoted can be had", "statement": "If getExpectedReturnByPath answers q for v of the first token of a path, then in the same ledger everybody who has these v tokens (or v coin, if the path starts at a registered ICX token) gets exactly q for them by a conversion along the path, for every minimal return between 1 and q, provided conversions are enabled and transfers not disabled along the path and no virtual balances are reckoned. No other obstacle is left: the reserves, the network's stock and the coin behind an ICX token always suffice. And this stays so whatever anybody does meanwhile, except the acts of persons in office that are listed (switching off conversions, purchases or transfers, changing registry, connectors or ownership) or an empty pool: a path that is open stays open.", "quantifier": "all reachable ledgers, all legal paths up to 10 hops through contracts of this code base, all amounts, minimal returns, holders", "why_tests_cant": "That a transaction cannot fail in any reachable ledger for any path is a claim over all reserves and amounts; tests see some conversions succeed.", "anchors": ["contracts/network/network.py:getExpectedReturnByPath,convertFor,tokenFallback,_convert_by_path", "contracts/converter/converter.py:getReturn,_convert,_buy,_sell,_convert_cross_connector", "contracts/formula/fixed_map_formula.py:calculatePurchaseReturn,calculateSaleReturn,calculateCrossConnectorReturn", "contracts/icx_token/icx_token.py:withdrawTo"]}
{"id": "C65", "title": "Coin and tokens are conserved; if nobody loses, nobody gains", "statement": "No transaction creates or destroys coin; the holdings of a plain token, and of an ICX token and coin taken together, summed over all accounts and contracts, stay the same. With a converter open for business (as in C59), whatever transactions are made by whomever: if afterwards nobody has less of any connector or of the flexible token than before, then everybody has exactly what he had before; so whoever gains something without loss to others loses something else.", "quantifier": "all reachable ledgers, all later ledgers (any transactions, any third-party contracts, re-entrancy), all accounts", "why_tests_cant": "It is a zero-sum claim over all histories and all accounts.", "anchors": ["contracts/converter/converter.py:_buy,_sell,_convert_cross_connector", "contracts/icx_token/icx_token.py:deposit,withdrawTo,transfer", "contracts/irc_token/irc_token.py:transfer", "contracts/network/network.py:convertFor,tokenFallback"]}
{"id": "C66", "title": "No strategy beats the direct conversion", "statement": "Whatever transactions are made with a converter open for business (as in C59), split or detoured through any connectors, in any order, by whomever: if in the end the converter holds at most d more of one connector and not more of any other, then the supply grew by at most two units more than the formula gives for buying with d at once; if the supply fell by at most d, and no other connector is fuller, the converter paid at most two units more of a connector than the formula gives for selling d at once; likewise for converting between connectors. (For amounts in the accurate range of the formula, C47, and sizes as there, divided by the number of calls.)", "quantifier": "all pools, all sequences of trades of any length; all reachable ledgers and histories without meddling", "why_tests_cant": "It quantifies over all strategies; rounding errors could add up in some sequence no test tries.", "anchors": ["contracts/formula/fixed_map_formula.py:calculate_purchase_return,calculate_sale_return,calculate_cross_connector_return", "contracts/converter/converter.py:_buy,_sell,_convert_cross_connector"]}
{"id": "C67", "title": "There is always a way out, and in", "statement": "Take a converter open for business with something in every connector, conversions enabled, transfers of the tokens not disabled. Whatever anybody does from then on, as long as no person in office obstructs (the acts listed under C64): everybody who holds v flexible tokens is offered by the formula, in each connector, an amount not above the reserve, and by one transaction gets it, less the fee, for himself or anybody else, whenever that is at least 1. Likewise everybody can buy flexible tokens with v of any connector token (or coin, for a registered ICX token) and convert between connectors, while purchases of the connector are enabled and supply is left. (Supply, and connector balance with deposit, below 2^129.)", "quantifier": "all reachable ledgers, all later histories (any transactions, third-party contracts, re-entrancy), all holders, amounts, beneficiaries that are no contracts", "why_tests_cant": "It is a liveness claim over all histories: no test shows that no sequence of other people's transactions can lock a holder in.", "anchors": ["contracts/converter/converter.py:_sell,_buy,_convert_cross_connector,tokenFallback", "contracts/network/network.py:tokenFallback,convertFor,_convert_by_path", "contracts/formula/fixed_map_formula.py:calculate_sale_return,calculate_purchase_return"]}
{"id": "C68", "title": "The storage wrapper keeps what is assigned to its fields", "statement": "An object with declared fields (different names, not beginning with an underscore, none called db) can be created on any database. Reading a single-value field gives the last value assigned to it in this or any earlier session, else what the database had, else the default of its type; reading a container field gives its container. Assignments to other names never disturb a field and are not stored: the name is unknown in the next session. An assignment to a container field is accepted without any effect. The restrictions on names are needed.", "quantifier": "all lists of fields, databases, histories of sessions and assignments", "why_tests_cant": "It must hold for all histories of sessions and all field names; tests use a few fields.", "anchors": ["contracts/utility/storage.py:Storage.__init__,add_fields,__getattribute__,__setattr__"]}
{"id": "C69", "title": "Only the declared methods can be called, and contracts call each other only through declared interfaces", "statement": "A call to one of the contracts succeeds only if it asks for a method that the class of the contract, own or inherited as Python resolves it, marks external, with arguments of the declared types, or is a plain coin transfer to a contract that accepts it. Coin can be sent only to the payable methods: the ICX token's deposit (and plain transfers to it) and the network's convert and convertFor. Read-only methods change nothing in the contract. Contracts call others only by methods that an interface used by their class declares, with the declared types; what an interface declares, the contract implementing it offers with the same types (except getAddress of the registry), and no contract is left with an abstract method. Every inherited initialiser runs exactly once when a contract object is created.", "quantifier": "all calls, callers, ledger states and histories; all classes and methods in the text of the contracts", "why_tests_cant": "Which calls are refused ranges over all methods, contracts, callers and amounts of coin; that read-only methods write nothing and contracts use only declared interfaces must hold in all histories.", "anchors": ["contracts/score_registry/score_registry.py:ScoreRegistry", "contracts/irc_token/irc_token.py:IRCToken", "contracts/flexible_token/flexible_token.py:FlexibleToken", "contracts/icx_token/icx_token.py:IcxToken", "contracts/converter/converter.py:Converter", "contracts/network/network.py:Network", "contracts/interfaces", "contracts/utility/proxy_score.py:ProxyScore"]}
{"id": "C70", "title": "ProxyScore gives a working interface SCORE for every abstract class, whatever was done before", "statement": "ProxyScore(A), for an abstract class A not derived from InterfaceScore whose abstract methods are defined under their own names in top-level classes, always succeeds, however often and for whatever classes ProxyScore was called before, with or without success. Its result is derived from InterfaceScore and A, every abstract method of A, own or inherited, is in it a remote call of the same name, it has no abstract methods left, and A itself is unchanged. Later calls give the same class. A method shared by two abstract classes is one function in both results (the platform would refuse to make a second one). On classes derived from InterfaceScore, also its own results, it always fails.", "quantifier": "all classes, class hierarchies, and histories of calls", "why_tests_cant": "The two caches make each call depend on all earlier ones, including those that failed half way; tests try a few classes in one order.", "anchors": ["contracts/utility/proxy_score.py:ProxyScore._create_proxy_class", "contracts/utility/proxy_score.py:ProxyScore._get_interface_function", "contracts/utility/proxy_score.py:ProxyScore.__new__"]}
{"id": "C71", "title": "Messages, byte for byte", "statement": "The bytes of a message to the network ask for a conversion exactly if they are the UTF-8 encoding of a JSON object (RFC 8259, in any layout, with any escapes, any other keys, in any order) with the text of a path as last value of the key path, an integer (or boolean) as last value of minReturn, and the text of an address, null or nothing under for. With any other bytes (except conversionResult) tokens sent to the network are not accepted: the transfer fails on every ledger. What the network writes for a converter on a hop is read back by the converter as that very token and minimum, and different orders have different bytes. The two example messages of README.md ask for what the README says; its prose, with the keys _path and _minReturn or the number in quotes, describes messages that are never accepted.", "quantifier": "all byte strings, all JSON texts, all nesting limits and all readings of fractional numbers, all ledgers", "why_tests_cant": "Tests send a handful of well-formed messages; that every layout is understood and nothing else is, is a statement about all byte strings.", "anchors": ["contracts/network/network.py:Network.tokenFallback", "contracts/network/network.py:Network._convert_by_path", "contracts/converter/converter.py:Converter.tokenFallback"]}
{"id": "C72", "title": "The price a trader gets", "statement": "No conversion is better than the price of the pool: what the formula returns, what a converter quotes (fee included) and what it pays is less than the amount times the ratio at which an infinitely small amount converts (supply*weight/balance for a purchase, its inverse for a sale, the ratio of the weighted balances between connectors), plus one unit. Returns diminish: per unit, a larger conversion returns no more than a smaller one, up to a unit for the larger and two for the smaller. And a conversion moves the price against those who do it: after it, the next conversion of the same kind returns at most four units more than it would have returned before. The range of sizes is stated with each theorem; a connector with a virtual balance is left out where C31 says its price is wrong.", "quantifier": "all supplies, balances, weights and amounts in the stated range; all reachable ledgers, converters and trades", "why_tests_cant": "Tests compare single results; the relation between the results for all pairs of amounts, and to the exact marginal price, is a statement about a fixed-point computation on unbounded integers.", "anchors": ["contracts/formula/fixed_map_formula.py:FixedMapFormula.calculate_purchase_return", "contracts/formula/fixed_map_formula.py:FixedMapFormula.calculate_sale_return", "contracts/formula/fixed_map_formula.py:FixedMapFormula.calculate_cross_connector_return", "contracts/converter/converter.py:Converter.getReturn", "contracts/converter/converter.py:Converter._convert"]}
{"id": "C73", "title": "No two pieces of state share a place in the database", "statement": "The platform keeps the state of all contracts in one database of bytes. The keys the code makes for its fields - names of variables, names and keys of dictionaries, indices of the list of connectors, and for the fields of a connector its own prefix byte 3 with the bytes of the connector's address, of which there are two lengths and which may contain the separator - are different for different fields of one contract, of whatever class, for different connectors, and for different contracts. So storing one piece of state changes no other, and any combination of values can be stored. The one exception is the platform's: the length of the list of connectors is kept where its element number 1936292453 would be.", "quantifier": "all contracts, all fields, all addresses (account or contract) as keys, all names in a registry, all indices", "why_tests_cant": "A collision needs a particular pair of addresses, names or indices; tests try a few and use a mock database with structured keys.", "anchors": ["contracts/converter/converter.py:ConnectorDict.__getitem__", "contracts/converter/converter.py:CONNECTOR_DB_PREFIX", "contracts/converter/converter.py:Converter.__init__", "contracts/irc_token/irc_token.py:IRCToken.__init__", "contracts/flexible_token/flexible_token.py:FlexibleToken.__init__", "contracts/score_registry/score_registry.py:ScoreRegistry.__init__", "contracts/network/network.py:Network.__init__", "contracts/utility/owned.py:Owned.__init__", "contracts/utility/managed.py:Managed.__init__"]}
{"id": "C74", "title": "Calls among the project's contracts end", "statement": "On a ledger with the project's contracts only (no third-party code), in whatever way they are wired to each other - tokens, converters, networks and registries in rings, converters as connectors, networks as traders of each other - no call nests deeper than seven contracts and no call makes more than 196 calls, so the outcome of a call, a transaction or a whole history of transactions does not depend on the platform's limit of nested calls (64) nor on code that is not there. Each method has its own bound: views and ownership 1, quotes 2, quotes along paths 3, receipts of tokens by what the data asks for. With third-party contracts there is no bound: their calls to each other can make the outcome depend on the limit.", "quantifier": "all ledgers without third-party contracts, reachable or not; all callers, receivers, methods, arguments and values; all budgets of nested calls from seven up; all histories of transactions, deployments of the project's contracts included", "why_tests_cant": "A test tries a few wirings; endless mutual calls need a particular ring of contracts and particular data.", "anchors": ["contracts/network/network.py:Network.tokenFallback", "contracts/network/network.py:Network._convert_by_path", "contracts/converter/converter.py:Converter.tokenFallback", "contracts/converter/converter.py:Converter._sell", "contracts/irc_token/irc_token.py:IRCToken._transfer", "contracts/icx_token/icx_token.py:IcxToken.withdrawTo", "contracts/utility/flexible_token_controller.py:FlexibleTokenController.withdrawFromToken"]}
{"id": "C75", "title": "A transaction depends on and changes only what it touches", "statement": "A successful transaction touches its signer, its target and the receivers of its nested calls. If there is no third-party code at these addresses, it changes nothing at any other address, and on every ledger that has the same at these addresses it succeeds with the same answer, the same nested calls, the same event logs and the same effects there, whatever else differs. Hence two transactions of which neither changes anything the other touches can be made in either order, with the same answers, event logs and final ledger (for instance trades of one trader in two pools that share a network and a registry); and a transaction fails or answers otherwise after others only if one of them changes something at an address it touches.", "quantifier": "all ledgers, reachable or not; all transactions, deployments of the project's contracts included; all pairs of ledgers that agree on the touched addresses; all histories of other transactions in between", "why_tests_cant": "Independence ranges over everything the rest of the ledger may contain and over all other transactions that may come first.", "anchors": ["contracts/converter/converter.py:Converter._convert", "contracts/network/network.py:Network._convert_by_path", "contracts/irc_token/irc_token.py:IRCToken._transfer", "contracts/icx_token/icx_token.py:IcxToken.withdrawTo", "contracts/score_registry/score_registry.py:ScoreRegistry.getAddress", "contracts/utility/proxy_score.py:ProxyScore"]}
{"id": "C76", "title": "Every call does what the text of the contracts says", "statement": "Take the text of all functions and methods in contracts/ as syntax trees and run it statement by statement, with methods looked up in the classes as Python does and calls between contracts going through the platform. For every call of every method of every contract (and every fallback), every deployment and every history of transactions, whatever third-party contracts do in between, this succeeds exactly when the contracts as described by the other properties do, with the same answer, the same storage of all contracts, coin, event logs and nested calls. So the properties hold of the text as it is written. No call needs more than 8 levels of method calls within a contract or 96 rounds of a loop.", "quantifier": "all ledgers, senders, callees, coin amounts, methods, arguments and messages; all deployments with all parameters; all third-party contracts, re-entrant ones included; all nesting budgets; all histories", "why_tests_cant": "A transcription error can hide in any branch of any method, and shows only for the inputs and ledgers that reach it.", "anchors": ["contracts/converter/converter.py:Converter", "contracts/network/network.py:Network", "contracts/irc_token/irc_token.py:IRCToken", "contracts/flexible_token/flexible_token.py:FlexibleToken", "contracts/icx_token/icx_token.py:IcxToken", "contracts/score_registry/score_registry.py:ScoreRegistry", "contracts/utility/owned.py:Owned", "contracts/utility/managed.py:Managed", "contracts/utility/token_holder.py:TokenHolder", "contracts/utility/flexible_token_controller.py:FlexibleTokenController", "contracts/utility/utils.py", "contracts/formula/fixed_map_formula.py:FixedMapFormula"]}
{"id": "C77", "title": "Contracts declare the storage they use, and code updates leave it alone", "statement": "The constructor of every deployed class, with all constructors it calls, creates each storage object once, under the attribute, of the kind (single value, map, list) and with the value type its readers and writers expect, and under the database key of the storage layout; a connector's five values live in a database of their own. Whatever the text of any method asks of its own object, of its ancestors or of the helper functions exists, in every branch: no call can fail because an attribute, storage object, method or function is missing. Updating the code of a contract runs an update hook that always succeeds, calls no other contract and changes nothing.", "quantifier": "all deployed classes with all their ancestors; all storage objects; every use in every branch of every method; all ledgers and senders for updates", "why_tests_cant": "A missing attribute or a wrong key shows only in the branch that uses it, and a test of an update samples a few ledgers.", "anchors": ["contracts/utility/owned.py:Owned.__init__", "contracts/utility/managed.py:Managed.__init__", "contracts/irc_token/irc_token.py:IRCToken.__init__", "contracts/flexible_token/flexible_token.py:FlexibleToken.on_update", "contracts/converter/converter.py:Converter.__init__", "contracts/converter/converter.py:ConnectorDict.__getitem__", "contracts/network/network.py:Network.__init__", "contracts/score_registry/score_registry.py:ScoreRegistry.__init__"]}
{"id": "C78", "title": "Conversions compose, and pools do not disturb each other", "statement": "Converting along a path in one go and converting along its first part and then what was received along the rest come to the same: each is possible exactly if the other is (the joined path being legal), the same amount is paid in the end, and every contract and account is left in exactly the same state - with tokens or coin, with virtual balances or without, wherever the path is cut. Quotes compose likewise. And a conversion leaves every converter whose flexible token is not on its path untouched: its record, all its holdings, the supply of its flexible token, and with them every quote along paths through other flexible tokens.", "quantifier": "all reachable ledgers, ordinary accounts, legal paths through converters of this code base, places where they are cut, amounts, minimal returns, texts of the requests, third-party contracts elsewhere", "why_tests_cant": "Paths, cuts, amounts and the states of the converters are unbounded; a test compares a few.", "anchors": ["contracts/network/network.py:Network._convert_by_path", "contracts/network/network.py:Network._convert_for_internal", "contracts/network/network.py:Network.tokenFallback", "contracts/network/network.py:Network.convertFor", "contracts/network/network.py:Network.getExpectedReturnByPath", "contracts/converter/converter.py:Converter._convert"]}
{"id": "C79", "title": "A minimum return limits what others can make of a trade", "statement": "Consider any stretch of history of a converter open for business (as in C59), in which a trader gives up to d of one of its tokens for at least m of another (buying, selling, or between connectors) and otherwise loses nothing, and nobody else loses anything. Then everybody else together has gained at most d of what the trader pays with, and m, with what they gained of what he wants, is at most what the exact curve of the beginning gives for d less their gain (plus a hundredth of a unit). So if m is more than d - k would bring on the curve, nobody, by whatever transactions before, between and after his (front-running, sandwiching), makes k or more out of the trade.", "quantifier": "all reachable ledgers, converters open for business, sequences of transactions by anybody with any third-party contracts, traders, amounts, sets of other accounts", "why_tests_cant": "It limits all strategies of all others at once; a test tries one sandwich.", "anchors": ["contracts/converter/converter.py:Converter._convert", "contracts/converter/converter.py:Converter._buy", "contracts/converter/converter.py:Converter._sell", "contracts/converter/converter.py:Converter._convert_cross_connector", "contracts/network/network.py:Network._convert_for_internal"]}
{"id": "C80", "title": "Tokens do not get stuck in contracts", "statement": "A transfer of any token to a token contract, a registry or a contract address without contract fails, whoever sends it with whatever data. So no such contract ever holds plain tokens; plain and flexible tokens, registries and empty addresses never hold ICX tokens; flexible tokens are found at such an address only if their owner once issued them there. What an ICX token, a flexible token or a network does hold, its owner can send on to any ordinary account.", "quantifier": "all reachable ledgers (so: all histories of transactions by anybody with any third-party contracts), tokens, senders, amounts, data", "why_tests_cant": "A test shows that one transfer is refused; that no history whatever leaves tokens at such an address is a statement about all of them.", "anchors": ["contracts/irc_token/irc_token.py:IRCToken._transfer", "contracts/icx_token/icx_token.py:IcxToken", "contracts/flexible_token/flexible_token.py:FlexibleToken.issue", "contracts/utility/token_holder.py:TokenHolder.withdrawTokens"]}
{"id": "C81", "title": "The switches work, and the network can be replaced", "statement": "If a network converts along a path of converters of this code base - tokens or coin, for anybody - then every switch along the path was on when it was asked: conversions enabled at each converter, each hop's tokens tradable there, no transfers disabled, and each converter's registry naming this network. So with one switch off nothing is converted, whoever tries with whatever data; a network no longer registered converts nothing. Quotes do not show this: any network goes on quoting. When the registry's owner registers another network (one call), the same paths lead through it, its quotes are those of the old one before, and what was quoted can be had from it.", "quantifier": "all reachable ledgers, paths over converters of this code base, senders, amounts, data, third-party contracts, call budgets", "why_tests_cant": "A test shows that one conversion is refused with one switch off; that no way remains to convert past any of the switches is a statement about all calls in all ledgers.", "anchors": ["contracts/converter/converter.py:Converter.tokenFallback", "contracts/converter/converter.py:Converter.disableConversions", "contracts/network/network.py:Network._convert_for_internal", "contracts/utility/flexible_token_controller.py:FlexibleTokenController", "contracts/score_registry/score_registry.py:ScoreRegistry.registerAddress"]}
{"id": "C82", "title": "What a round trip costs", "statement": "Whoever converts tokens or coin and converts what he got straight back ends up with at most what he put in less the fee of the first converter (charged once for buying or selling the flexible token, twice between connectors) - along any path through any number of converters, between any two tokens, for any amount, as long as the reserves paid into are at most 2^103 (the supply, where flexible tokens are sold, at most 2^119). And it is no trap: buying flexible tokens for v at one converter and selling them straight back returns more than v(1-fee)(1-fee-3/P)-3, where P is what the exact curve gives for v: two fees, and the rounding to whole units.", "quantifier": "all reachable ledgers, paths of converters (connectors with real balances), senders, amounts, ways of ordering (tokens or coin), minimum returns; for the second bound: one converter, reserve after payment and supply up to 2^94 and payments below 2^21 times the reserve", "why_tests_cant": "A test shows one round trip at one pool; that none of any size at any pool is profitable, or costs more than the fees, is a statement about all of them.", "anchors": ["contracts/converter/converter.py:Converter._buy", "contracts/converter/converter.py:Converter._sell", "contracts/converter/converter.py:Converter._convert_cross_connector", "contracts/converter/converter.py:Converter.getFinalAmount", "contracts/formula/fixed_map_formula.py:FixedMapFormula", "contracts/network/network.py:Network._convert_for_internal"]}
{"id": "C83", "title": "Nobody gains by converting around pools that agree", "statement": "What a conversion along a path brings is at most the amount multiplied by the rates of the pools on the path (at each: what an infinitely small conversion would bring, from supply, reserves and weights at the beginning), one unit added for the rounding of each conversion, its fee taken off each time. Nor does a quote along a path promise more. So if tokens can be given values with which no pool on the path gives more than it gets, what comes out is worth at most what was put in less the fees of all the converters, but for a unit of each token received on the way. In particular, converting around from a token back to the same token through other pools gains nothing where the pools' prices agree: at most what was put in less all the fees comes back, but for these units.", "quantifier": "all reachable ledgers, paths of converters of this code base with real balances, senders, amounts, ways of ordering (tokens or coin), assignments of values to tokens; reserves paid out of up to 2^104, and where flexible tokens are bought the supply times the growth of the reserve at most 2^124", "why_tests_cant": "A test shows one path through pools of one state; whether rounding errors of the formula can be added up to a profit along some path is a question about all of them.", "anchors": ["contracts/network/network.py:Network._convert_for_internal", "contracts/converter/converter.py:Converter._convert_cross_connector", "contracts/converter/converter.py:Converter.getFinalAmount", "contracts/formula/fixed_map_formula.py:FixedMapFormula", "contracts/network/network.py:Network.getExpectedReturnByPath"]}

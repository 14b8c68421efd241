#!/usr/bin/env python3
"""Writes /verif/properties.jsonl (one property per line)."""
import json, os
P = []
def p(title, statement, quantifier, why, anchors):
    P.append(dict(id="C%02d" % (len(P) + 1), title=title, statement=statement,
                  quantifier=quantifier, why_tests_cant=why, anchors=anchors))

IRC = "contracts/irc_token/irc_token.py"
FT = "contracts/flexible_token/flexible_token.py"
ICX = "contracts/icx_token/icx_token.py"
OWN = "contracts/utility/owned.py"
MAN = "contracts/utility/managed.py"
HOLD = "contracts/utility/token_holder.py"
CTRL = "contracts/utility/flexible_token_controller.py"
REG = "contracts/score_registry/score_registry.py"
CONV = "contracts/converter/converter.py"
NET = "contracts/network/network.py"
FORM = "contracts/formula/fixed_map_formula.py"
HIST = "every finite history of deployments and transactions, by any senders, with arbitrary (re-entrant, adversarial) third-party contracts, for every recursion budget"

# ---- tokens
p("Token supply equals the sum of balances",
  "In every reachable ledger, for every token SCORE of this code base (plain IRC2 token, ICX token, flexible token), totalSupply() equals the sum of balanceOf over all accounts, and no balance and no supply is negative.",
  HIST, "Holds over unbounded histories and call nestings; tests check a few transfers between a few accounts.",
  [IRC + ":on_install,_transfer", FT + ":issue,destroy", ICX + ":deposit,withdrawTo"])
p("A transfer moves exactly the stated value",
  "A successful transfer(to, value) by s lowers s's balance by value and raises to's by value (no net change when s = to), changes no other balance of that token, no supply, and nothing in any other contract, when the recipient is not a contract.",
  "every ledger, token kind, sender, recipient, value and data", "Ranges over all values and all other accounts, including the self-transfer and zero-value edges.",
  [IRC + ":transfer,_transfer", FT + ":transfer", ICX + ":transfer"])
p("Overdrafts and negative transfers are rejected with no effect",
  "transfer with a negative value or a value above the sender's balance never succeeds, and a failed transaction leaves the whole ledger as it was.",
  "every ledger, token, sender, recipient, value and data", "All integers, not a few sampled overdrafts.",
  [IRC + ":_transfer"])
p("A plain IRC2 token has a fixed supply and fixed metadata",
  "After deployment a plain IRC2 token's totalSupply() stays initialSupply * 10^decimals for ever, and name(), symbol() and decimals() of every token SCORE never change.",
  HIST, "A 'never changes' claim over all later histories.", [IRC + ":on_install"])
p("Nobody's tokens move without the holder's or the flexible token owner's call",
  "If during a transaction an account's balance of a token goes down, then within that transaction either that very account called transfer/withdraw/withdrawTo/destroy on that token, or (flexible token only) the token's owner at that moment called destroy on that account.",
  HIST, "Must exclude theft through every re-entrant call sequence an attacker contract could make.",
  [IRC + ":_transfer", FT + ":destroy", ICX + ":withdrawTo"])
p("Only the owner mints flexible tokens",
  "If a flexible token's total supply goes up during a transaction, its owner at that moment called issue on it within that transaction; if it goes down, destroy was called by the holder itself or by the owner.",
  HIST, "All callers and all call nestings.", [FT + ":issue,destroy", OWN + ":require_owner_only"])
p("issue and destroy have exactly their stated effect",
  "issue(to, amount) succeeds exactly when the caller is the owner, amount > 0, to is not the zero address and not the token itself, and then adds amount to to's balance and to the supply and changes nothing else; destroy(from, amount) succeeds exactly when amount > 0, from holds at least amount and the caller is from or the owner, and then subtracts amount from both and changes nothing else.",
  "every ledger, caller, account and amount", "An iff over all integers and callers.", [FT + ":issue,destroy"])
p("Disabled flexible tokens cannot be transferred",
  "While transfers are disabled every transfer call on the flexible token fails, whoever makes it; only the owner can toggle this.",
  "every ledger with transfers disabled, every caller, value, data; " + HIST, "All callers, nestings and histories.",
  [FT + ":transfer,disableTransfer,require_transfer_allowed"])
p("ICX token is backed one to one",
  "In every reachable ledger the ICX coin balance of an ICX token SCORE equals its totalSupply().",
  HIST, "Must survive every interleaving of deposits, withdrawals (including to itself) and re-entrant recipients.",
  [ICX + ":fallback,deposit,withdrawTo"])
p("ICX tokens can always be redeemed",
  "In every reachable ledger, an account holding at least amount > 0 of an ICX token can withdraw it: withdrawTo(amount, to) for an ordinary account to succeeds, pays exactly amount ICX to to, and lowers exactly the caller's balance and the supply by amount.",
  "every reachable ledger, holder, recipient and amount", "Liveness of redemption in every reachable state depends on the backing invariant.",
  [ICX + ":withdraw,withdrawTo"])
p("Deposits credit exactly the coin sent",
  "Sending value ICX to an ICX token SCORE (deposit or plain transfer) credits the sender with exactly value tokens, raises the supply by value, and changes no other balance.",
  "every ledger, sender and value", "All values and all accounts.", [ICX + ":fallback,deposit"])
# ---- ownership
p("Ownership changes hands only in two steps",
  "If the owner of an owned SCORE changes in a transaction, the new owner itself called acceptOwnerShip while it was the pending nominee (for a SCORE this means the converter code did so on its owner's order); a pending nominee is recorded only by a call of the owner; after acceptance the pending nominee is the zero address.",
  HIST, "All histories and callers.", [OWN + ":transferOwnerShip,acceptOwnerShip"])
p("Converter management changes hands only in two steps",
  "A freshly deployed converter has no manager; the manager changes only when the pending nominee itself calls acceptManagement, and a nominee is recorded only by the owner or the current manager.",
  HIST, "All histories and callers.", [MAN + ":transferManagement,acceptManagement", CONV + ":on_install"])
p("Converter settings change only by authorised calls",
  "If a converter's connector list, a connector's weight/virtual-balance flag/purchase flag, its fee, its conversions-enabled flag, its registry addresses or its registry-update flag change in a transaction, then its owner (or, where documented, its manager) made the corresponding call within that transaction - except updateRegistry, which anyone may call while registry updates are allowed.",
  HIST, "All callers, nestings and histories.", [CONV + ":addConnector,updateConnector,disableConnectorPurchases,updateRegistry,restoreRegistry,disableRegistryUpdate,disableConversions,setConversionFee"])
p("A converter controls only its own flexible token",
  "In every reachable ledger, if a flexible token is owned by a converter, that converter's getToken() is this token; so two different flexible tokens are never controlled by the same converter.",
  HIST, "A global invariant over all contracts and histories.", [CTRL + ":acceptTokenOwnership,transferTokenOwnership", OWN + ":acceptOwnerShip"])
p("Tokens held by a SCORE leave only on its owner's order",
  "withdrawTokens succeeds only for the SCORE's owner, with a positive amount and a recipient that is neither the zero address nor the SCORE itself.",
  "every ledger, caller, token, recipient and amount", "An only-if over all callers and arguments.", [HOLD + ":withdrawTokens"])
# ---- registry
p("The registry only ever lists contract addresses under known names",
  "In every reachable ledger every address the registry lists is a non-zero contract address under one of the two known names; getAddress of anything not listed is the zero address.",
  HIST, "All histories.", [REG + ":registerAddress,unregisterAddress,getAddress"])
p("Registry updates are exact and owner-only",
  "registerAddress/unregisterAddress succeed exactly for the owner with a legal name and contract address (respectively a listed name), change exactly that entry and nothing else, and getAddress then returns it.",
  "every ledger, caller, name and address", "An iff over all names and addresses.", [REG])
p("Converter registry update and emergency restore",
  "updateRegistry succeeds only if updates are allowed or the caller is the owner, and the current registry points at a different non-zero registry; it then makes that the registry and the old one the previous registry. restoreRegistry (owner/manager) brings the previous registry back and forbids further public updates.",
  "every ledger whose registry is a registry SCORE, every caller", "All states and callers.", [CONV + ":updateRegistry,restoreRegistry,disableRegistryUpdate"])
# ---- converter config
p("Connector weights stay within 100 percent",
  "In every reachable ledger every connector of a converter has a weight in 1..1000000, and the weights of all its connectors add up to its recorded total, which never exceeds 1000000.",
  HIST, "An invariant of every history of addConnector/updateConnector.", [CONV + ":addConnector,updateConnector,_require_valid_connector_weight"])
p("The connector list is sound",
  "In every reachable ledger the connector list has no duplicates, contains exactly the addresses for which getConnector is non-empty, never contains the zero address, the converter itself or its flexible token; connectors are never removed.",
  HIST, "All histories.", [CONV + ":addConnector,getConnector,getConnectorAt,getConnectorTokenCount"])
p("Connectors are added only while the converter is inactive, by its owner",
  "addConnector fails whenever the converter owns its flexible token or the caller is not the converter's owner.",
  "every ledger, caller and argument", "All states and arguments.", [CONV + ":addConnector", CTRL + ":_require_inactive"])
p("Conversion fee is bounded for the lifetime of the converter",
  "In every reachable ledger 0 <= getConversionFee() <= getMaxConversionFee() <= 1000000, and getMaxConversionFee() never changes after deployment.",
  HIST, "An invariant over all histories.", [CONV + ":on_install,setConversionFee"])
p("Fee arithmetic",
  "For every amount >= 0 and magnitude: 0 <= getFinalAmount <= amount; it is amount when the fee is 0 and 0 when the fee is 100%; it is monotone in the amount, antitone in the fee; magnitude 2 never yields more than magnitude 1 and never less than charging the single fee twice.",
  "all amounts, fees 0..1000000 and magnitudes", "All integers.", [CONV + ":getFinalAmount"])
# ---- conversions
p("Quoted amount plus fee is the formula result",
  "Whenever getReturn succeeds, amount + fee equals the bonding-curve formula evaluated at the current supply, connector balance(s) and weight(s), and the fee is never negative.",
  "every ledger, token pair and amount", "All states and amounts.", [CONV + ":getReturn,get_purchase_return,get_sale_return,get_cross_connector_return"])
p("Buying: exact effect and minimum return",
  "When a conversion connector -> flexible token succeeds, the trader (network) is issued exactly the returned amount, which is at least minReturn and at least 1; the supply grows by exactly that amount; the virtual balance (if enabled) grows by exactly the deposit; no other token balance changes.",
  "every ledger, connector, amount and minReturn", "All states and amounts.", [CONV + ":_buy"])
p("Selling: exact effect, minimum return, no depletion",
  "When a conversion flexible token -> connector succeeds, exactly the sold amount is destroyed from the converter's holding, exactly the returned amount (>= minReturn >= 1) of the connector token leaves the converter to the trader, and the connector balance is only emptied if the whole supply was sold.",
  "every ledger, connector, amount and minReturn", "All states and amounts.", [CONV + ":_sell"])
p("Cross conversion: exact effect, minimum return, no depletion",
  "When a conversion connector -> connector succeeds, exactly the returned amount (>= minReturn >= 1) of the target token leaves the converter to the trader, strictly less than the target connector balance; the flexible token supply is unchanged.",
  "every ledger, connector pair, amount and minReturn", "All states and amounts.", [CONV + ":_convert_cross_connector"])
p("No conversion unless the converter is open for it",
  "No conversion succeeds while conversions are disabled, while the converter does not own its flexible token, for a non-positive amount or minReturn, between identical tokens, between tokens that are not the flexible token or its connectors, or for a trader other than the registered network.",
  "every ledger, sender and data", "All states and inputs.", [CONV + ":tokenFallback,_convert"])
p("Disabling purchases of a connector",
  "While purchases with a connector are disabled, buying the flexible token with it and converting another connector into it fail; selling the flexible token for it is unaffected by the flag.",
  "every ledger, connector and amount", "All states and amounts; flag-independence is a two-run property.", [CONV + ":disableConnectorPurchases,get_purchase_return,get_cross_connector_return"])
p("A quote is what the next conversion pays",
  "If getReturn(from, to, amount) answers r, then depositing amount next and converting returns exactly r - claimed for every connector.",
  "every ledger, pair and amount", "A two-run agreement for all states; in fact false for virtual-balance connectors.", [CONV + ":getReturn,get_purchase_return,_buy,_sell,_convert_cross_connector"])
p("Virtual balances follow conversions exactly",
  "A connector's virtual balance changes only by a conversion (plus the deposit, minus the payout) or by the owner's updateConnector; conversions never make it negative.",
  HIST, "All histories.", [CONV + ":_buy,_sell,_convert_cross_connector,updateConnector"])
p("An active converter accepts tokens only for conversions by the network",
  "Sending any token to an active converter fails unless the sender is the registered network and the data is a valid conversion request; to an inactive one only its owner may deposit connector tokens.",
  "every ledger, sender, token, value and data", "All senders and data.", [CONV + ":tokenFallback"])
p("Reserves cannot be withdrawn while the converter is active",
  "While the converter owns its flexible token, withdrawTokens of any connector token fails for everyone.",
  "every ledger, caller and arguments", "All callers and states.", [CONV + ":withdrawTokens"])
# ---- network
p("Path validation",
  "A conversion path is accepted exactly when it has an odd length from 3 to 21 and the flexible tokens at its odd positions are pairwise distinct.",
  "all lists of addresses", "All lists.", [NET + ":_require_valid_path"])
p("Path strings are read faithfully",
  "The comma separated string of any list of addresses, with any amount of blanks around each address, is read back as exactly that list, and the JSON the network sends to a converter is read back as the same target token and minReturn; a string with anything else in it is rejected.",
  "all address lists and paddings", "All addresses and paddings.", [NET + ":_convert_path,_convert_by_path", CONV + ":tokenFallback"])
p("End-to-end minimum return",
  "If a conversion through the network over honest converters succeeds, the beneficiary receives at least minReturn of the last token (or ICX) and nothing short of it.",
  "every ledger, path, amount and minReturn", "All paths up to the maximal length and all states.", [NET + ":_convert_by_path,_convert_for_internal", CONV + ":_convert"])
p("The network keeps nothing of a conversion",
  "After a successful conversion over honest tokens the network's balance of every token in the path is what it was before.",
  "every ledger and path", "All paths and states.", [NET + ":_convert_by_path,_convert_for_internal"])
p("Nobody can drain tokens held by the network",
  "If the network's balance of an honest (non-flexible) token goes down in a transaction, the network's owner called withdrawTokens on the network in that transaction.",
  HIST, "Adversarial tokens, converters and recipients re-entering the network at every point.", [NET])
p("A path quote is what the conversion pays",
  "getExpectedReturnByPath(path, amount) equals the amount a conversion over the same path pays next, when the converters involved use real connector balances.",
  "every ledger, path and amount", "A two-run agreement over all states and paths.", [NET + ":getExpectedReturnByPath,_convert_by_path"])
p("ICX conversions start at a registered ICX token",
  "convert/convertFor succeed only if the first path element is a registered ICX token, minReturn > 0 and the beneficiary is neither the zero address nor the network; only the network owner can (un)register ICX tokens.",
  "every ledger, path, value and beneficiary; " + HIST, "All inputs and histories.", [NET + ":convertFor,registerIcxToken"])
# ---- formula
p("Formula input validation",
  "calculate_purchase_return / calculate_sale_return / calculate_cross_connector_return reject exactly the inputs with non-positive supply or balance, a weight outside 1..1000000, or (sale) a sell amount above the supply - plus a base outside the supported range 2^129 where the power function is needed.",
  "all integers", "An iff over all integer inputs.", [FORM + ":calculate_purchase_return,calculate_sale_return,calculate_cross_connector_return,_power"])
p("Formula special cases",
  "Zero in gives zero out; selling the whole supply returns the whole balance; at weight 100% the purchase/sale returns are the floored proportional amounts; at equal weights the cross return is the floored constant-product amount.",
  "all valid inputs", "All integers.", [FORM])
p("Formula results stay in range",
  "For non-negative amounts the purchase return is >= 0, the sale return lies in 0..balance, and the cross return lies in 0..balance and is below the balance for a positive target balance.",
  "all valid inputs", "All integers, through four approximation regimes.", [FORM + ":_power,_optimal_log,_optimal_exp,_general_log,_general_exp"])
p("The formula never overpays",
  "The integer returns never exceed the exact real-valued bonding-curve formula of the documentation by more than a relative 2^-124-scale slack per conversion; in particular power(...) <= exact power times exp(5*exp_n/(exp_d*2^127)).",
  "all valid inputs", "A real-analysis bound over all inputs.", [FORM + ":_power"])
p("Buying then selling never makes a profit",
  "With connector balance below 2^104, depositing d and selling everything received returns at most d; likewise selling and buying back, and converting across connectors and back.",
  "all supplies, balances, weights and amounts", "All inputs through all approximation regimes.", [FORM])
p("Formula accuracy",
  "In the optimal-precision regime (base ratio below e, exponent below 16) the computed power is within a relative error of about 2^-118 of the exact real power.",
  "all inputs in the regime", "A real-analysis bound.", [FORM + ":_optimal_log,_optimal_exp"])
p("Integer binary logarithm",
  "The floor-log2 routine returns the exact floor of log2 for every n with 1 <= n < 2^256.",
  "all n below 2^256", "All 2^256 inputs.", [FORM + ":_floor_log2"])
p("Precision search",
  "For every exponent the precision search returns the highest precision 32..127 whose table bound admits it, and 0 if none does.",
  "all integers", "All inputs; relies on the whole table being sorted.", [FORM + ":_find_position_in_max_exp_array"])
p("No intermediate of the exponentiation exceeds 256 bits",
  "For every exponent admitted by the precision table, every intermediate value of the general exponentiation (and of the optimal exponentiation and logarithm on their domains) is below 2^256.",
  "all admitted inputs and precisions", "All inputs.", [FORM + ":_general_exp,_optimal_exp,_optimal_log", "contracts/formula/auto_generate/common/functions.py"])
p("Monotone returns",
  "A larger deposit never returns less: exactly at weight 100% and equal weights, and up to the approximation slack otherwise.",
  "all valid inputs", "All pairs of inputs.", [FORM])
# ---- packaging
p("Built packages are self-contained",
  "For every SCORE in the build configuration, the built package contains every project file that any file of the package imports, directly or indirectly.",
  "all files of all packages (a finite table) and all dependency chains of any length", "Tests deploy some packages but do not chase every import chain.", ["contract_generator/config.py", "contract_generator/builder.py"])
if __name__ == "__main__":
    out = os.path.join(os.path.dirname(os.path.abspath(__file__)), "..", "properties.jsonl")
    with open(out, "w") as f:
        for x in P:
            f.write(json.dumps(x) + "\n")
    print(len(P))

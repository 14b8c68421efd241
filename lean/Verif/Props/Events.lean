import Verif.Props.Network
import Verif.Proofs.Events
import Verif.Proofs.Tells
import Verif.Proofs.Chronicle
/-!
Properties C53, C54, C61: what the event log says about conversions, balances and settings.
-/
set_option linter.unusedSimpArgs false
set_option autoImplicit false
namespace Verif

open Scenario (ready2 ready2_reachable alice bob owner network)

section
variable {w w' : World} {s N T t R a b f : Addr} {v m : Int} {d : Data} {x : Val} {n : Nat} {orc : Oracle}

/-! ### C53 -/

/-- C53. The events of one conversion for the network are the ones of the specification and nothing else: what was issued,
destroyed and transferred, one `Conversion` whose three amounts are what was sold, what was paid and what the formula gives
beyond that, and the new supply, balance and weight of each connector involved. -/
theorem C53_hop (hw : Wired w T t R N) (hN : N ≠ ZERO) (hact : w.active T) (hka : (w.kind a).isToken) (hkb : (w.kind b).isToken)
    (hd : Asks d b m) (h : exec orc n N a 0 (.transfer T v (some d)) w = .ok (x, w')) :
    ∃ r fee, Converts (w.pay a N T v) T t a b v m r ∧ ((w.pay a N T v).traded T t a b N v r).Alike w' ∧
      (w.pay a N T v).curve T a b v v = .ok (r + fee) ∧ w'.log = (w'.hopEvents T t a b N v r fee d).reverse ++ w.log :=
  (hop_log hw hN ((active_iff hw).mp hact) hka hkb hd h).2.2.2

/-- C53. The fee reported is what the formula gives, less what is left of it after the converter's fee; it is not negative. -/
theorem C53_fee (hr : Reachable w) {r fee : Int} (hc : Converts w T t a b v m r) (hf : w.curve T a b v v = .ok (r + fee)) :
    r = w.afterFee T (r + fee) (w.feeSteps T a b) ∧ 0 ≤ fee ∧ fee ≤ r + fee := by
  obtain ⟨c, h1, h2, h3⟩ := hc.curve
  rw [h1] at hf
  injection hf with hf
  subst hf
  have hpos : 1 ≤ r := by have := hc.min; have := hc.enough; omega
  have hc0 : 0 ≤ r + fee := by
    by_contra hneg
    have h4 : w.afterFee T (r + fee) (w.feeSteps T a b) ≤ w.afterFee T 0 (w.feeSteps T a b) := C24_monotone hr (by omega) _
    have h5 : w.afterFee T 0 (w.feeSteps T a b) = 0 := by simp [World.afterFee]
    omega
  have := (C24_range (T := T) hr hc0 (w.feeSteps T a b)).2
  exact ⟨h2, by omega, by omega⟩

/-- C53. The events of a conversion paid in tokens: those of each hop in turn, the payment, and the customer's transfer (a
token reports a transfer when the recipient has answered). -/
theorem C53_tokens (hr : Reachable w) (hk : w.kind N = .net) {rest : List Addr} (hp : HonestPath w N a rest)
    (hd : Requests d s (a :: rest) m f) (hf : f.isContract = false) (h : exec orc n s a 0 (.transfer N v (some d)) w = .ok (x, w')) :
    ∃ u' r es, Narrated N m (w.pay a s N v) a rest v u' r es ∧ (u'.delivered N (lastOf a rest) f r).Alike w' ∧
      w'.log = (es ++ [payoutEvent w N (lastOf a rest) f r, (a, .Transfer s N v d)]).reverse ++ w.log :=
  sent_log hr.basic hk hp hd hf h

/-- C53. The events of a conversion paid in coin: issuing the ICX token, those of each hop in turn, and the payment. -/
theorem C53_coin (hr : Reachable w) (hk : w.kind N = .net) {rest : List Addr} {p : List Char} {c : Call} (hp : HonestPath w N a rest)
    (ht : PathText p (a :: rest)) (hc : c = .convertFor p m f ∨ (c = .convert p m ∧ f = s)) (hf : f.isContract = false)
    (h : exec orc n s N v c w = .ok (x, w')) :
    ∃ u' r es, x = .int r ∧ Narrated N m (w.staked a N s v) a rest v u' r es ∧ (u'.delivered N (lastOf a rest) f r).Alike w' ∧
      w'.log = ((a, Event.Issuance v) :: (a, Event.Transfer a N v .noneBytes) :: es ++ [payoutEvent w N (lastOf a rest) f r]).reverse ++ w.log :=
  staked_log hr.basic hk hp ht hc hf h

end

set_option maxRecDepth 100000 in
/-- C53: what the log gains when Alice sells 1000 of the second flexible token for coin (newest first). -/
example : (soldDown 1942).log =
    [(Scenario.flex2, .Transfer alice network 1000 (Scenario.request downhill 1942)),
      (Scenario.icxt, .Destruction 1942),
      (Scenario.flex, .Transfer network Scenario.conv 987 (Network.requestData Scenario.icxt 1942)),
      (Scenario.conv, .PriceDataUpdate Scenario.icxt 99013 48058 250000),
      (Scenario.conv, .Conversion Scenario.flex Scenario.icxt network 987 1942 2),
      (Scenario.icxt, .Transfer Scenario.conv network 1942 .conversionResult),
      (Scenario.flex, .Transfer Scenario.conv Scenario.flex 987 .noneBytes),
      (Scenario.flex, .Destruction 987),
      (Scenario.flex2, .Transfer network Scenario.conv2 1000 (Network.requestData Scenario.flex 1)),
      (Scenario.conv2, .PriceDataUpdate Scenario.flex 39000 19013 500000),
      (Scenario.conv2, .Conversion Scenario.flex2 Scenario.flex network 1000 987 0),
      (Scenario.flex, .Transfer Scenario.conv2 network 987 .conversionResult),
      (Scenario.flex2, .Transfer Scenario.conv2 Scenario.flex2 1000 .noneBytes),
      (Scenario.flex2, .Destruction 1000)] ++ ready2.log := by decide +kernel

set_option maxRecDepth 100000 in
/-- C53: what it gains when she pays 300 coin for that token, to be delivered to Bob. -/
example : (boughtUp 147).log =
    [(Scenario.flex2, .Transfer network bob 147 .noneBytes),
      (Scenario.flex, .Transfer network Scenario.conv2 148 (Network.requestData Scenario.flex2 147)),
      (Scenario.conv2, .PriceDataUpdate Scenario.flex 40147 20148 500000),
      (Scenario.conv2, .Conversion Scenario.flex Scenario.flex2 network 148 147 0),
      (Scenario.flex2, .Transfer Scenario.flex2 network 147 .noneBytes),
      (Scenario.flex2, .Issuance 147),
      (Scenario.icxt, .Transfer network Scenario.conv 300 (Network.requestData Scenario.flex 1)),
      (Scenario.conv, .PriceDataUpdate Scenario.icxt 100148 50300 250000),
      (Scenario.conv, .Conversion Scenario.icxt Scenario.flex network 300 148 1),
      (Scenario.flex, .Transfer Scenario.flex network 148 .noneBytes),
      (Scenario.flex, .Issuance 148),
      (Scenario.icxt, .Transfer Scenario.icxt network 300 .noneBytes),
      (Scenario.icxt, .Issuance 300)] ++ ready2.log := by decide +kernel

/-- C53: the hypotheses are met (the hops: `funded_wired` and the examples of C26-C28). -/
example : Reachable ready2 ∧ ready2.kind network = .net ∧ HonestPath ready2 network Scenario.flex2 downhill.tail ∧
    Requests (Scenario.request downhill 1942) alice downhill 1942 alice ∧ alice.isContract = false ∧
    HonestPath ready2 network Scenario.icxt uphill.tail ∧ PathText (Scenario.pathText uphill) uphill ∧ bob.isContract = false :=
  ⟨ready2_reachable, ready2_facts.1, downhill_honest, request_requests (by nofun), rfl, uphill_honest, pathText_text (by nofun), rfl⟩

/-! ### C54 -/

section
variable {w : World} {T : Addr}

/-- C54. The log is append-only: a transaction adds entries and changes none. -/
theorem C54_append_only {orc : Oracle} {fuel : Nat} {tx : Tx} {w : World} : ∃ new, (tx.apply orc fuel w).log = new ++ w.log := by
  have h := tx_steps orc fuel tx w
  generalize tx.apply orc fuel w = u at h
  unfold Steps at h
  induction h with
  | refl => exact ⟨[], rfl⟩
  | @tail b c _ hs ih =>
    obtain ⟨l, hl⟩ := ih
    have h1 : ∃ L, c.log = L ++ b.log := by
      cases hs with
      | enter => exact ⟨[], rfl⟩
      | loc f w' _ h => obtain ⟨L, h, _⟩ := h.said; exact ⟨L, h⟩
      | deploy s a i w' _ _ _ _ _ h => obtain ⟨L, h, _⟩ := h.said; exact ⟨L, h⟩
    obtain ⟨L, h1⟩ := h1
    exact ⟨L ++ l, by rw [h1, hl, List.append_assoc]⟩

/-- C54. Plain and flexible tokens: everybody's balance is what the creator was given at deployment plus what the logged
transfers say, whatever happened in between. -/
theorem C54_balances (h : Reachable w) (hk : w.kind T = .irc ∨ w.kind T = .flex) :
    ∃ f i, f ∈ w.frames ∧ f.to = T ∧ f.call = .onInstall i ∧ i.kind = w.kind T ∧
      ∀ a, (w.tok T).bal a = (if a = f.sender then i.grant else 0) + tally (told (w.kind T) T a) w.log := by
  obtain ⟨f, i, hs⟩ := h.story (T := T) (by rcases hk with hk | hk <;> simp [Kind.isToken, hk])
  refine ⟨f, i, hs.mem, hs.dst, hs.call, hs.made.symm, fun a => ?_⟩
  rw [hs.bal, hs.none (by rcases hk with hk | hk <;> simp [hk])]; omega

/-- C54. ICX tokens: the same, less what the account has withdrawn; the withdrawals are in the log without the account. -/
theorem C54_icx_balances (h : Reachable w) (hk : w.kind T = .icx) (a : Addr) :
    (w.tok T).bal a = tally (told .icx T a) w.log - total (withdrawn T a) w.frames := by
  obtain ⟨f, i, hs⟩ := h.story (T := T) (by simp [Kind.isToken, hk])
  have hi : i.grant = 0 := by
    have := hs.made
    rw [hk] at this
    cases i <;> first | rfl | cases this
  rw [hs.bal, hk, hi]; simp

/-- C54. All tokens: the supply is what was granted plus issued minus destroyed according to the log. -/
theorem C54_supply (h : Reachable w) (hk : (w.kind T).isToken) :
    ∃ f i, f ∈ w.frames ∧ f.to = T ∧ f.call = .onInstall i ∧ i.kind = w.kind T ∧
      (w.tok T).supply = i.grant + tally (toldSupply T) w.log := by
  obtain ⟨f, i, hs⟩ := h.story hk
  exact ⟨f, i, hs.mem, hs.dst, hs.call, hs.made.symm, hs.supply⟩

end

/-- Alice or the owner withdraws 5 ICX tokens. -/
def paidBack (who : Addr) : World := Scenario.run [.call who Scenario.icxt 0 (.withdraw 5)] Scenario.ready

set_option maxRecDepth 100000 in
/-- C54. For ICX tokens the log alone does not determine the balances: `withdraw` and `withdrawTo` do not log whose tokens they
destroy. Two histories with the same log and different balances. -/
theorem C54_icx_ambiguous : ∃ w w' T a, Reachable w ∧ Reachable w' ∧ w.kind T = .icx ∧ w'.kind T = .icx ∧ w.log = w'.log ∧
    (w.tok T).bal a ≠ (w'.tok T).bal a :=
  ⟨paidBack alice, paidBack owner, Scenario.icxt, alice, Scenario.run_reachable _ Scenario.ready_reachable,
    Scenario.run_reachable _ Scenario.ready_reachable, by decide +kernel, by decide +kernel, by decide +kernel, by decide +kernel⟩

set_option maxRecDepth 100000 in
/-- C54: the hypotheses are met; the sums are not trivial. -/
example : Reachable (soldDown 1942) ∧ (soldDown 1942).kind Scenario.flex = .flex ∧ (soldDown 1942).kind Scenario.icxt = .icx ∧
    ((soldDown 1942).tok Scenario.flex).bal alice = 10000 ∧ tally (told .flex Scenario.flex alice) (soldDown 1942).log = 10000 ∧
    tally (toldSupply Scenario.flex) (soldDown 1942).log = -987 ∧
    tally (told .icx Scenario.icxt network) (soldDown 1942).log = 1942 ∧ total (withdrawn Scenario.icxt network) (soldDown 1942).frames = 1942 := by
  refine ⟨Scenario.run_reachable _ ready2_reachable, ?_⟩
  decide +kernel

/-! ### C61 -/

section
variable {w : World} {T : Addr}

/-- C61. The owner of a contract of this code base is the account named last by its `OwnerUpdate` events, or, without any, the
account that deployed it; each such event names the owner so far. -/
theorem C61_owner (h : Reachable w) (hk : (w.kind T).isOwned) :
    ∃ f i, f ∈ w.frames ∧ f.to = T ∧ f.call = .onInstall i ∧ i.kind = w.kind T ∧
      (w.own T).owner = retell (ownerTold T) w.log (some f.sender) ∧ EachEntry (ownerTold T) (OwnerEntry T) w.log (some f.sender) :=
  (ownerChronicle T).reachable h hk

/-- C61. Manager, fee and the switch of a converter are those of its latest events; a converter starts without manager and fee,
and enabled. Each event names the value so far. -/
theorem C61_converter (h : Reachable w) (hk : w.kind T = .conv) :
    let s := retell (convTold T) w.log {}
    (w.conv T).manager = s.manager ∧ (w.conv T).fee = s.fee ∧ (w.conv T).enabled = s.enabled ∧
      EachEntry (convTold T) (ConvEntry T) w.log {} := by
  obtain ⟨_, _, _, _, _, _, h1, h2⟩ := (convChronicle T).reachable h hk
  dsimp only at h1 ⊢
  rw [← h1]
  exact ⟨rfl, rfl, rfl, h2⟩

/-- C61. The table of a registry is what its `AddressUpdate` events tell (removals are reported with the zero address); it starts
empty, and the first event is that of its own entry. -/
theorem C61_registry (h : Reachable w) (hk : w.kind T = .reg) :
    w.reg T = retell (regTold T) w.log (fun _ => none) ∧ EachEntry (regTold T) (RegEntry T) w.log (fun _ => none) := by
  have hc := h.basic.contract T (by rw [hk]; nofun)
  have hz : T ≠ ZERO := by rintro rfl; rw [h.basic.zero] at hk; cases hk
  obtain ⟨_, _, _, _, _, _, h1⟩ := (regChronicle T hz hc).reachable h hk
  exact h1

end

/-- Two histories: the owner of the network removes the ICX token from its list, or does nothing. Likewise for the transfer
switch of the flexible token and the settings of a connector. -/
def quietly (c : Call) (T : Addr) : World := Scenario.run [.call owner T 0 c] Scenario.ready

set_option maxRecDepth 100000 in
/-- C61. Other settings are not in the log: the network's list of ICX tokens, a flexible token's transfer switch, the connectors of a
converter and its registry switch can change without any event. -/
theorem C61_unlogged : ∃ w1 w2 w3 w4, Reachable w1 ∧ Reachable w2 ∧ Reachable w3 ∧ Reachable w4 ∧
    w1.log = Scenario.ready.log ∧ w1.net network Scenario.icxt ≠ Scenario.ready.net network Scenario.icxt ∧
    w2.log = Scenario.ready.log ∧ (w2.flex Scenario.flex).transferable ≠ (Scenario.ready.flex Scenario.flex).transferable ∧
    w3.log = Scenario.ready.log ∧ (w3.conv Scenario.conv).connectors Scenario.irc ≠ (Scenario.ready.conv Scenario.conv).connectors Scenario.irc ∧
    w4.log = Scenario.ready.log ∧ (w4.conv Scenario.conv).allowRegistryUpdate ≠ (Scenario.ready.conv Scenario.conv).allowRegistryUpdate :=
  ⟨quietly (.registerIcxToken Scenario.icxt false) network, quietly (.disableTokenTransfers true) Scenario.conv,
    quietly (.disableConnectorPurchases Scenario.irc true) Scenario.conv, quietly (.disableRegistryUpdate true) Scenario.conv,
    Scenario.run_reachable _ Scenario.ready_reachable, Scenario.run_reachable _ Scenario.ready_reachable,
    Scenario.run_reachable _ Scenario.ready_reachable, Scenario.run_reachable _ Scenario.ready_reachable, by decide +kernel⟩

/-- A manager is appointed, the fee and the switch are changed twice, the registry is edited and the converter handed over. -/
def eventful : World := Scenario.run [.call owner Scenario.conv 0 (.transferManagement bob), .call bob Scenario.conv 0 .acceptManagement,
  .call bob Scenario.conv 0 (.setConversionFee 77), .call bob Scenario.conv 0 (.disableConversions true),
  .call owner Scenario.registry 0 (.unregisterAddress "Network"), .call owner Scenario.conv 0 (.transferOwnerShip alice),
  .call alice Scenario.conv 0 .acceptOwnerShip] Scenario.ready

set_option maxRecDepth 100000 in
/-- C61: the hypotheses are met, and the log tells something. -/
example : Reachable eventful ∧ (eventful.kind Scenario.conv).isOwned ∧ eventful.kind Scenario.conv = .conv ∧ eventful.kind Scenario.registry = .reg ∧
    retell (ownerTold Scenario.conv) eventful.log (some owner) = some alice ∧
    retell (convTold Scenario.conv) eventful.log {} = ⟨some bob, 77, false⟩ ∧
    retell (regTold Scenario.registry) eventful.log (fun _ => none) "Network" = none ∧
    retell (regTold Scenario.registry) Scenario.ready.log (fun _ => none) "Network" = some network ∧
    retell (regTold Scenario.registry) eventful.log (fun _ => none) "ScoreRegistry" = some Scenario.registry := by
  refine ⟨Scenario.run_reachable _ Scenario.ready_reachable, ?_⟩
  unfold Kind.isOwned
  decide +kernel

end Verif

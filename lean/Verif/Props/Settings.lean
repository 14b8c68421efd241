import Verif.Proofs.ConvBlame
import Verif.Props.Control
/-!
Properties C14-C16, C19, C22, C23: settings of converters, and who may change them.
-/
set_option linter.unusedSimpArgs false
set_option autoImplicit false
namespace Verif

open Scenario (ready ready_reachable alice bob owner)

/-! ### C14 -/

section
variable {orc : Oracle} {fuel : Nat} {tx : Tx} {w : World} {T : Addr}

/-- C14. The conversion fee changes only by `setConversionFee` of owner or manager, to the value of that call. -/
theorem C14_fee (hk : w.kind T = .conv) (h : ((tx.apply orc fuel w).conv T).fee ≠ (w.conv T).fee) :
    ∃ f, Called w (tx.apply orc fuel w) f ∧ f.to = T ∧ f.call = .setConversionFee ((tx.apply orc fuel w).conv T).fee ∧
      f.byOwnerOrManager := by
  refine conv_blame (fun c => c.fee) (fun f v => f.call = .setConversionFee v ∧ f.byOwnerOrManager) ?_ (fun _ _ => rfl)
    (fun _ _ _ => rfl) hk h
  intro f c c' _ hc
  cases hc with
  | setFee n h1 h2 => exact .inr ⟨h1, h2⟩
  | _ => exact .inl rfl

/-- C14. Conversions are switched on and off only by `disableConversions` of owner or manager. -/
theorem C14_enabled (hk : w.kind T = .conv) (h : ((tx.apply orc fuel w).conv T).enabled ≠ (w.conv T).enabled) :
    ∃ f, Called w (tx.apply orc fuel w) f ∧ f.to = T ∧ f.call = .disableConversions (!((tx.apply orc fuel w).conv T).enabled) ∧
      f.byOwnerOrManager := by
  refine conv_blame (fun c => c.enabled) (fun f v => f.call = .disableConversions (!v) ∧ f.byOwnerOrManager) ?_ (fun _ _ => rfl)
    (fun _ _ _ => rfl) hk h
  intro f c c' _ hc
  cases hc with
  | disableConversions n h1 h2 => exact .inr ⟨by simpa using h1, h2⟩
  | _ => exact .inl rfl

/-- C14. The permission of public registry updates changes only by `disableRegistryUpdate` or `restoreRegistry` of owner or
manager; the latter only withdraws it. -/
theorem C14_registry_permission (hk : w.kind T = .conv)
    (h : ((tx.apply orc fuel w).conv T).allowRegistryUpdate ≠ (w.conv T).allowRegistryUpdate) :
    ∃ f, Called w (tx.apply orc fuel w) f ∧ f.to = T ∧ f.byOwnerOrManager ∧
      (f.call = .disableRegistryUpdate (!((tx.apply orc fuel w).conv T).allowRegistryUpdate) ∨
       (f.call = .restoreRegistry ∧ ((tx.apply orc fuel w).conv T).allowRegistryUpdate = false)) := by
  refine conv_blame (fun c => c.allowRegistryUpdate)
    (fun f v => f.byOwnerOrManager ∧ (f.call = .disableRegistryUpdate (!v) ∨ (f.call = .restoreRegistry ∧ v = false))) ?_ (fun _ _ => rfl)
    (fun _ _ _ => rfl) hk h
  intro f c c' _ hc
  cases hc with
  | disableRegistryUpdate n h1 h2 => exact .inr ⟨h2, .inl (by simpa using h1)⟩
  | restoreRegistry h1 h2 => exact .inr ⟨h2, .inr ⟨h1, rfl⟩⟩
  | _ => exact .inl rfl

/-- C14. The registry addresses change only by `updateRegistry`, made by the owner or while everybody was allowed to, or by
`restoreRegistry` of owner or manager. -/
theorem C14_registry (hk : w.kind T = .conv)
    (h : ((tx.apply orc fuel w).conv T).registry ≠ (w.conv T).registry ∨
      ((tx.apply orc fuel w).conv T).prevRegistry ≠ (w.conv T).prevRegistry) :
    ∃ f, Called w (tx.apply orc fuel w) f ∧ f.to = T ∧
      ((f.call = .updateRegistry ∧ (f.allow = true ∨ f.owner = some f.sender)) ∨
       (f.call = .restoreRegistry ∧ f.byOwnerOrManager)) := by
  have h : (fun c : ConvSt => (c.registry, c.prevRegistry)) ((tx.apply orc fuel w).conv T) ≠
      (fun c : ConvSt => (c.registry, c.prevRegistry)) (w.conv T) := by
    intro e
    injection e with e1 e2
    rcases h with h | h
    · exact h e1
    · exact h e2
  refine conv_blame (fun c => (c.registry, c.prevRegistry))
    (fun f _ => (f.call = .updateRegistry ∧ (f.allow = true ∨ f.owner = some f.sender)) ∨
       (f.call = .restoreRegistry ∧ f.byOwnerOrManager)) ?_ (fun _ _ => rfl) (fun _ _ _ => rfl) hk h
  intro f c c' _ hc
  cases hc with
  | updateRegistry new h1 h2 => exact .inr (.inl ⟨h1, h2⟩)
  | restoreRegistry h1 h2 => exact .inr (.inr ⟨h1, h2⟩)
  | _ => exact .inl rfl

/-- C14. The connector list changes only by `addConnector` of the owner, of a token then listed. -/
theorem C14_connector_list (hk : w.kind T = .conv)
    (h : ((tx.apply orc fuel w).conv T).connectorTokens ≠ (w.conv T).connectorTokens) :
    ∃ f a wt b, Called w (tx.apply orc fuel w) f ∧ f.to = T ∧ f.call = .addConnector a wt b ∧ f.owner = some f.sender ∧
      ((tx.apply orc fuel w).conv T).connectorTokens.getLast? = some a := by
  obtain ⟨f, h1, h2, a, wt, b, h3⟩ := conv_blame (fun c => c.connectorTokens)
    (fun f l => ∃ a wt b, f.call = .addConnector a wt b ∧ f.owner = some f.sender ∧ l.getLast? = some a) (by
      intro f c c' hi hc
      cases hc with
      | addConnector t wt b h1 =>
        rcases h1 with h1 | ⟨tk, r, mf, h1, _⟩
        · exact .inr ⟨t, wt, b, h1.1, h1.2, by simp⟩
        · exact absurd h1 (hi _)
      | _ => exact .inl rfl) (fun _ _ => rfl) (fun _ _ _ => rfl) hk h
  exact ⟨f, a, wt, b, h1, h2, h3⟩

/-- C14. A connector's weight and virtual-balance flag change only by `addConnector` or `updateConnector` of the owner, to the
values of that call. -/
theorem C14_weight_and_virtual_flag {a : Addr} (hk : w.kind T = .conv)
    (h : (((tx.apply orc fuel w).conv T).connectors a).weight ≠ ((w.conv T).connectors a).weight ∨
      (((tx.apply orc fuel w).conv T).connectors a).isVirtual ≠ ((w.conv T).connectors a).isVirtual) :
    ∃ f, Called w (tx.apply orc fuel w) f ∧ f.to = T ∧ f.owner = some f.sender ∧
      (f.call = .addConnector a (((tx.apply orc fuel w).conv T).connectors a).weight
          (((tx.apply orc fuel w).conv T).connectors a).isVirtual ∨
       ∃ vb, f.call = .updateConnector a (((tx.apply orc fuel w).conv T).connectors a).weight
          (((tx.apply orc fuel w).conv T).connectors a).isVirtual vb) := by
  have h : (fun c : ConvSt => ((c.connectors a).weight, (c.connectors a).isVirtual)) ((tx.apply orc fuel w).conv T) ≠
      (fun c : ConvSt => ((c.connectors a).weight, (c.connectors a).isVirtual)) (w.conv T) := by
    intro e
    injection e with e1 e2
    rcases h with h | h
    · exact h e1
    · exact h e2
  refine conv_blame (fun c : ConvSt => ((c.connectors a).weight, (c.connectors a).isVirtual))
    (fun f v => f.owner = some f.sender ∧ (f.call = .addConnector a v.1 v.2 ∨ ∃ vb, f.call = .updateConnector a v.1 v.2 vb))
    ?_ (fun _ _ => rfl) (fun _ _ _ => rfl) hk h
  intro f c c' hi hc
  cases hc with
  | addConnector t wt b h1 =>
    by_cases e : a = t
    · subst e
      rcases h1 with h1 | ⟨tk, r, mf, h1, _⟩
      · exact .inr ⟨h1.2, .inl (by simpa using h1.1)⟩
      · exact absurd h1 (hi _)
    · left; simp [upd_apply, e]
  | updateConnector t wt b vb h1 h2 =>
    by_cases e : a = t
    · subst e; exact .inr ⟨h2, .inr ⟨vb, by simpa using h1⟩⟩
    · left; simp [upd_apply, e]
  | setPurchase t b => left; simp only [upd_apply]; split <;> simp_all
  | addVirtual => left; simp only [upd_apply]; split <;> simp_all
  | subVirtual => left; simp only [upd_apply]; split <;> simp_all
  | _ => exact .inl rfl

/-- C14. A connector's purchase flag changes only by `disableConnectorPurchases` (or, for a new connector, `addConnector`) of
the owner, to the value of that call. -/
theorem C14_purchase_flag {a : Addr} (hk : w.kind T = .conv)
    (h : (((tx.apply orc fuel w).conv T).connectors a).isPurchaseEnabled ≠ ((w.conv T).connectors a).isPurchaseEnabled) :
    ∃ f, Called w (tx.apply orc fuel w) f ∧ f.to = T ∧ f.owner = some f.sender ∧
      (f.call = .disableConnectorPurchases a (!(((tx.apply orc fuel w).conv T).connectors a).isPurchaseEnabled) ∨
       ((((tx.apply orc fuel w).conv T).connectors a).isPurchaseEnabled = true ∧ ∃ wt b, f.call = .addConnector a wt b)) := by
  refine conv_blame (fun c : ConvSt => (c.connectors a).isPurchaseEnabled)
    (fun f v => f.owner = some f.sender ∧ (f.call = .disableConnectorPurchases a (!v) ∨ (v = true ∧ ∃ wt b, f.call = .addConnector a wt b)))
    ?_ (fun _ _ => rfl) (fun _ _ _ => rfl) hk h
  intro f c c' hi hc
  cases hc with
  | addConnector t wt b h1 =>
    by_cases e : a = t
    · subst e
      rcases h1 with h1 | ⟨tk, r, mf, h1, _⟩
      · exact .inr ⟨h1.2, .inr ⟨by simp, wt, b, h1.1⟩⟩
      · exact absurd h1 (hi _)
    · left; simp [upd_apply, e]
  | updateConnector t wt b vb h1 h2 => left; simp only [upd_apply]; split <;> simp_all
  | setPurchase t b h1 h2 =>
    by_cases e : a = t
    · subst e; exact .inr ⟨h2, .inl (by simpa using h1)⟩
    · left; simp [upd_apply, e]
  | addVirtual => left; simp only [upd_apply]; split <;> simp_all
  | subVirtual => left; simp only [upd_apply]; split <;> simp_all
  | _ => exact .inl rfl

/-- C14. The flexible token a converter controls and its maximal fee never change. -/
theorem C14_fixed {w w' : World} {T : Addr} (hk : w.kind T = .conv) (h : Later w w') :
    (w'.conv T).token = (w.conv T).token ∧ (w'.conv T).maxFee = (w.conv T).maxFee := by
  refine (later_keep (R := fun u u' => (u'.conv T).token = (u.conv T).token ∧ (u'.conv T).maxFee = (u.conv T).maxFee) h (T := T)
    (fun _ => ⟨rfl, rfl⟩) (fun _ _ _ h1 h2 => ⟨h2.1.trans h1.1, h2.2.trans h1.2⟩) (by rw [hk]; rintro ⟨⟩) ?_).1
  intro orc fuel tx u hu
  refine (tx_steps orc fuel tx u).keep (T := T)
    (R := fun u u' => (u'.conv T).token = (u.conv T).token ∧ (u'.conv T).maxFee = (u.conv T).maxFee)
    (by rw [hu, hk]; rintro ⟨⟩) ?_ ?_ ?_
  · intro _ _ hs; rw [hs.conv]; exact ⟨rfl, rfl⟩
  · intro _ _ _ h1 h2; exact ⟨h2.1.trans h1.1, h2.2.trans h1.2⟩
  · intro f v v' _ _ hl
    exact ⟨hl.stable.token T, hl.stable.maxFee T⟩

end

section
variable {orc : Oracle} {n : Nat} {s T : Addr} {w w' : World} {x : Val}

/-- C14. `setConversionFee` succeeds exactly for owner or manager with a fee within the maximum, and changes only the fee. -/
theorem C14_setConversionFee {m : Int} (hk : w.kind T = .conv) (hs : 0 ≤ w.coin s) :
    exec orc (n + 1) s T 0 (.setConversionFee m) w = .ok (x, w') ↔
    (((w.conv T).manager = some s ∨ (w.own T).owner = some s) ∧ 0 ≤ m ∧ m ≤ (w.conv T).maxFee) ∧ x = .unit ∧
    w' = ((w.note s T 0 (.setConversionFee m)).addLog T (.ConversionFeeUpdate (w.conv T).fee m)).setConv T
      { w.conv T with fee := m } := by
  rw [ok_exec_setConversionFee hk]; tauto

/-- C14. `disableRegistryUpdate` succeeds exactly for owner or manager and changes only the permission. -/
theorem C14_disableRegistryUpdate {b : Bool} (hk : w.kind T = .conv) (hs : 0 ≤ w.coin s) :
    exec orc (n + 1) s T 0 (.disableRegistryUpdate b) w = .ok (x, w') ↔
    ((w.conv T).manager = some s ∨ (w.own T).owner = some s) ∧ x = .unit ∧
    w' = (w.note s T 0 (.disableRegistryUpdate b)).setConv T { w.conv T with allowRegistryUpdate := !b } := by
  rw [ok_exec_disableRegistryUpdate hk]; tauto

/-- C14. `disableConversions` succeeds exactly for owner or manager and changes only the flag. -/
theorem C14_disableConversions {b : Bool} (hk : w.kind T = .conv) (hs : 0 ≤ w.coin s) :
    exec orc (n + 1) s T 0 (.disableConversions b) w = .ok (x, w') ↔
    ((w.conv T).manager = some s ∨ (w.own T).owner = some s) ∧ x = .unit ∧
    w' = if (w.conv T).enabled = b
      then ((w.note s T 0 (.disableConversions b)).setConv T { w.conv T with enabled := !b }).addLog T (.ConversionsEnable (!b))
      else w.note s T 0 (.disableConversions b) := by
  rw [ok_exec_disableConversions hk]
  split <;> simp_all <;> tauto

theorem C14_disableConversions_effect {b : Bool} {v : Int} (hk : w.kind T = .conv)
    (h : exec orc (n + 1) s T v (.disableConversions b) w = .ok (x, w')) :
    w'.conv T = { w.conv T with enabled := !b } ∧ (∀ a, a ≠ T → w'.conv a = w.conv a) ∧ w'.own = w.own ∧ w'.tok = w.tok ∧
    w'.reg = w.reg ∧ w'.net = w.net ∧ w'.coin = w.coin ∧ w'.flex = w.flex ∧
    w'.log = (if (w.conv T).enabled = b then [(T, Event.ConversionsEnable (!b))] else []) ++ w.log := by
  rw [ok_exec_disableConversions hk] at h
  obtain ⟨_, _, _, _, ⟨e, rfl⟩ | ⟨e, rfl⟩⟩ := h
  · refine ⟨by simp, fun a ha => by simp [setConv_conv, ha], rfl, rfl, rfl, rfl, rfl, rfl, by simp [e]; rfl⟩
  · refine ⟨?_, fun a ha => rfl, rfl, rfl, rfl, rfl, rfl, rfl, by simp [e]⟩
    have : (w.conv T).enabled = !b := by revert e; cases (w.conv T).enabled <;> cases b <;> simp
    rw [note_conv, ← this]

/-- C14. `updateConnector` succeeds exactly for the owner, on an existing connector, within the weight limits, and changes
only that connector (and the recorded total weight). -/
theorem C14_updateConnector {a : Addr} {wt : Int} {b : Bool} {vb : Int} (hk : w.kind T = .conv) (hs : 0 ≤ w.coin s) :
    exec orc (n + 1) s T 0 (.updateConnector a wt b vb) w = .ok (x, w') ↔
    ((w.own T).owner = some s ∧ ((w.conv T).connectors a).isSet = true ∧ (0 < wt ∧ wt ≤ 1000000) ∧
      (w.conv T).totalWeight - ((w.conv T).connectors a).weight + wt ≤ 1000000) ∧ x = .unit ∧
    w' = (w.note s T 0 (.updateConnector a wt b vb)).setConv T { w.conv T with
      totalWeight := (w.conv T).totalWeight - ((w.conv T).connectors a).weight + wt
      connectors := upd (w.conv T).connectors a
        { (w.conv T).connectors a with weight := wt, isVirtual := b, virtualBalance := vb } } := by
  rw [ok_exec_updateConnector hk]; tauto

/-- C14. `disableConnectorPurchases` succeeds exactly for the owner on an existing connector, and changes only its flag. -/
theorem C14_disableConnectorPurchases {a : Addr} {b : Bool} (hk : w.kind T = .conv) (hs : 0 ≤ w.coin s) :
    exec orc (n + 1) s T 0 (.disableConnectorPurchases a b) w = .ok (x, w') ↔
    ((w.own T).owner = some s ∧ ((w.conv T).connectors a).isSet = true) ∧ x = .unit ∧
    w' = (w.note s T 0 (.disableConnectorPurchases a b)).setConv T { w.conv T with
      connectors := upd (w.conv T).connectors a { (w.conv T).connectors a with isPurchaseEnabled := !b } } := by
  rw [ok_exec_disableConnectorPurchases hk]; tauto

end

set_option maxRecDepth 100000 in
example : let w' := fun c => ((Tx.call owner Scenario.conv 0 c).apply Scenario.orc 20 ready).conv Scenario.conv
    let w := ready.conv Scenario.conv
    ready.kind Scenario.conv = .conv ∧ (w' (.setConversionFee 7)).fee = 7 ∧ w.fee = 1000 ∧
    (w' (.disableConversions true)).enabled ≠ w.enabled ∧
    (w' .restoreRegistry).allowRegistryUpdate ≠ w.allowRegistryUpdate ∧
    ((w' (.updateConnector Scenario.irc 300000 true 9)).connectors Scenario.irc).weight ≠ (w.connectors Scenario.irc).weight ∧
    ((w' (.updateConnector Scenario.irc 300000 true 9)).connectors Scenario.irc).isVirtual ≠ (w.connectors Scenario.irc).isVirtual ∧
    ((w' (.disableConnectorPurchases Scenario.irc true)).connectors Scenario.irc).isPurchaseEnabled ≠
      (w.connectors Scenario.irc).isPurchaseEnabled := by decide +kernel

set_option maxRecDepth 100000 in
example : let w := Scenario.run (Scenario.setup.take 7) Scenario.genesis
    let w' := (Tx.call owner Scenario.conv 0 (.addConnector Scenario.icxt 250000 false)).apply Scenario.orc 20 w
    w.kind Scenario.conv = .conv ∧ (w'.conv Scenario.conv).connectorTokens ≠ (w.conv Scenario.conv).connectorTokens := by
  decide +kernel

/-! ### C15 -/

/-- C15. In every reachable ledger, a contract owned by a converter is that converter's flexible token. -/
theorem C15_converter_controls_own_token {w : World} (h : Reachable w) {T o : Addr} (hk : w.kind o = .conv)
    (ho : (w.own T).owner = some o) : (w.conv o).token = some T ∧ Answers w o .getToken (.addr (some T)) := by
  have ht := (h.ownInv.owner T o ho).2 hk
  refine ⟨ht, fun orc n s hs => ?_⟩
  have hm : Converter.dispatch { fr := mkFrame w s o 0 .getToken, call := exec orc n o } =
      runNonPayable { fr := mkFrame w s o 0 .getToken, call := exec orc n o }
        (some (do return .addr ((← get).conv o).token)) := rfl
  refine ⟨w.note s o 0 .getToken, ?_⟩
  rw [ok_exec_conv hk, hm, ok_runNonPayable]
  refine ⟨⟨Int.le_refl _, hs⟩, rfl, ?_⟩
  rw [enterW_zero]
  simp only [okk]
  simp [ht]

/-- C15. A converter owns at most one contract. -/
theorem C15_one_token {w : World} (h : Reachable w) {T T' o : Addr} (hk : w.kind o = .conv)
    (h1 : (w.own T).owner = some o) (h2 : (w.own T').owner = some o) : T = T' := by
  have e1 := (h.ownInv.owner T o h1).2 hk
  have e2 := (h.ownInv.owner T' o h2).2 hk
  rw [e1] at e2; injection e2

set_option maxRecDepth 100000 in
example : Reachable ready ∧ ready.kind Scenario.conv = .conv ∧ (ready.own Scenario.flex).owner = some Scenario.conv :=
  ⟨ready_reachable, by decide +kernel, by decide +kernel⟩

/-! ### C16 -/

/-- C16. `withdrawTokens` of a token, the network or the ICX token fails for everybody but the owner, for a non-positive
amount, and for an illegal recipient. -/
theorem C16_withdrawTokens_guarded {s T cv tok dst v w} (hk : w.kind T = .icx ∨ w.kind T = .flex ∨ w.kind T = .net)
    (h : (w.own T).owner ≠ some s ∨ v ≤ 0 ∨ dst = ZERO ∨ dst = T) : Fails w s T cv (.withdrawTokens tok dst v) := by
  intro orc n x w' e
  cases n with
  | zero => exact exec_zero e
  | succ n =>
    rw [ok_exec_withdrawTokens hk] at e
    obtain ⟨_, _, _, h1, h2, h3, h4, _⟩ := e
    rcases h with h | h | h | h
    · exact h h1
    · omega
    · exact h4 h
    · exact h3 h

/-- C16, exact: it succeeds precisely when these conditions hold and the token's `transfer` does. -/
theorem C16_withdrawTokens {orc n s T tok dst v w x w'} (hk : w.kind T = .icx ∨ w.kind T = .flex ∨ w.kind T = .net)
    (hs : 0 ≤ w.coin s) :
    exec orc (n + 1) s T 0 (.withdrawTokens tok dst v) w = .ok (x, w') ↔
    ((w.own T).owner = some s ∧ 0 < v ∧ dst ≠ T ∧ dst ≠ ZERO) ∧ x = .unit ∧
    ∃ y, exec orc n T tok 0 (.transfer dst v none) (w.note s T 0 (.withdrawTokens tok dst v)) = .ok (y, w') := by
  rw [ok_exec_withdrawTokens hk]; tauto

/-- C16 for a converter (with any token contract behind it): the amount and the recipient are checked. -/
theorem C16_converter_arguments {s T cv tok dst v w} (hk : w.kind T = .conv) (h : v ≤ 0 ∨ dst = ZERO ∨ dst = T) :
    Fails w s T cv (.withdrawTokens tok dst v) := by
  intro orc n x w' e
  cases n with
  | zero => exact exec_zero e
  | succ n =>
    rw [ok_exec_convWithdraw hk] at e
    obtain ⟨_, _, _, _, _, _, _, _, _, _, h2, h3, h4, _⟩ := e
    rcases h with h | h | h
    · omega
    · exact h4 h
    · exact h3 h

/-- C16 for a converter of a flexible token of this code base: it fails for everybody but the owner. -/
theorem C16_converter_owner_only {s T cv tok dst v w t} (hk : w.kind T = .conv) (ht : (w.conv T).token = some t)
    (hkt : (w.kind t).isOwned) (h : (w.own T).owner ≠ some s) : Fails w s T cv (.withdrawTokens tok dst v) := by
  intro orc n x w' e
  cases n with
  | zero => exact exec_zero e
  | succ n =>
    rw [ok_exec_convWithdraw hk] at e
    obtain ⟨_, _, _, t', z, w1, h1, h2, _, h3, _⟩ := e
    rw [ht] at h1; cases h1
    cases n with
    | zero => exact exec_zero h2
    | succ n =>
      rw [ok_exec_getOwner (by simpa using hkt)] at h2
      obtain ⟨_, _, rfl⟩ := h2
      exact h h3

/-- C16 for a converter of a flexible token of this code base, exactly: the owner, a positive amount, a legal recipient, and the
token is no connector or the converter is not active; then the converter transfers just that, and succeeds exactly if the
transfer does. -/
theorem C16_converter_withdrawTokens {orc n s T tok dst v w x w' t} (hk : w.kind T = .conv) (ht : (w.conv T).token = some t)
    (hkt : (w.kind t).isOwned) (hs : 0 ≤ w.coin s) (hT : 0 ≤ w.coin T) :
    exec orc (n + 2) s T 0 (.withdrawTokens tok dst v) w = .ok (x, w') ↔
    ((w.own T).owner = some s ∧ 0 < v ∧ dst ≠ T ∧ dst ≠ ZERO ∧
      ((w.own t).owner ≠ some T ∨ ((w.conv T).connectors tok).isSet = false)) ∧ x = .unit ∧
    ∃ y, exec orc (n + 1) T tok 0 (.transfer dst v none)
      ((w.note s T 0 (.withdrawTokens tok dst v)).note T t 0 .getOwner) = .ok (y, w') := by
  rw [ok_exec_convWithdraw hk]
  have hno : ∀ b, (Val.addr b).isAddr T = false ↔ b ≠ some T := by
    intro b
    rw [← Bool.not_eq_true, Val.isAddr_addr]
  constructor
  · rintro ⟨_, _, h0, t', z, w1, h1, h2, h3, h4, h5, h6, h7, h8⟩
    rw [ht] at h1; cases h1
    rw [ok_exec_getOwner (by simpa using hkt)] at h2
    obtain ⟨_, rfl, rfl⟩ := h2
    rw [hno] at h3
    exact ⟨⟨h4, h5, h6, h7, h3⟩, h0, h8⟩
  · rintro ⟨⟨h4, h5, h6, h7, h3⟩, h0, h8⟩
    refine ⟨rfl, hs, h0, t, _, _, ht, (ok_exec_getOwner (by simpa using hkt)).mpr ⟨hT, rfl, rfl⟩, ?_, h4, h5, h6, h7, h8⟩
    rw [hno]; exact h3

set_option maxRecDepth 100000 in
example : (Scenario.run (Scenario.setup.take 9) Scenario.genesis).kind Scenario.conv = .conv ∧
    ((Scenario.run (Scenario.setup.take 9) Scenario.genesis).conv Scenario.conv).token = some Scenario.flex ∧
    ((Scenario.run (Scenario.setup.take 9) Scenario.genesis).kind Scenario.flex).isOwned ∧
    Scenario.answer owner Scenario.conv (.withdrawTokens Scenario.irc owner 50000)
      (Scenario.run (Scenario.setup.take 9) Scenario.genesis) = .ok .unit ∧
    Scenario.answer alice Scenario.conv (.withdrawTokens Scenario.irc alice 50000)
      (Scenario.run (Scenario.setup.take 9) Scenario.genesis) ≠ .ok .unit := by decide +kernel

/-- C16, for histories: what an ICX token, flexible token, plain token or registry holds of a token goes down in a transaction only if its
owner called `withdrawTokens` for that token on it - or, if the token is a flexible token, if the owner of this token destroyed some of it. -/
theorem C16_holdings {orc fuel} {tx : Tx} {w : World} {S T : Addr} (hw : Reachable w)
    (hT : (w.kind T).isToken)
    (hS : w.kind S = .irc ∨ w.kind S = .icx ∨ w.kind S = .flex ∨ w.kind S = .reg)
    (h : ((tx.apply orc fuel w).tok T).bal S < (w.tok T).bal S) :
    (∃ f dst v, Called w (tx.apply orc fuel w) f ∧ f.to = S ∧ f.call = .withdrawTokens T dst v ∧ f.owner = some f.sender ∧
      (w.kind S = .icx ∨ w.kind S = .flex)) ∨
    ∃ f v, Called w (tx.apply orc fuel w) f ∧ w.kind T = .flex ∧ f.to = T ∧ f.call = .destroy S v ∧ f.owner = some f.sender := by
  have hSn : w.kind S ≠ .none := by rcases hS with hS | hS | hS | hS <;> rw [hS] <;> rintro ⟨⟩
  obtain ⟨f, h1, h2, h3⟩ := C05_no_theft hT h
  have hSc := hw.basic.contract S hSn
  rcases h3 with ⟨h3, h4⟩ | ⟨h3, h4⟩
  · rcases tx_origin h1 with ho | ⟨f', u, o1, o2, o3, o4⟩
    · rw [h3, hSc] at ho; cases ho
    · have hf' : f'.to = S := o2.trans h3
      have hu : u.kind f'.to ≠ .none := o3.kind_ne
      have hkS : u.kind S = w.kind S := by
        rw [hf'] at hu
        rw [← o4 S hu, (tx_steps orc fuel tx w).kind hSn]
      have hfor : u.kind f'.to ≠ .foreign := by rw [hf', hkS]; rcases hS with e | e | e | e <;> rw [e] <;> rintro ⟨⟩
      have hcon : u.kind f'.to ≠ .conv := by rw [hf', hkS]; rcases hS with e | e | e | e <;> rw [e] <;> rintro ⟨⟩
      have hnet : u.kind f'.to ≠ .net := by rw [hf', hkS]; rcases hS with e | e | e | e <;> rw [e] <;> rintro ⟨⟩
      rw [h2] at o3
      have hnf : f.call ≠ .fallback ∧ ∀ a b c, f.call ≠ .tokenFallback a b c := by
        rcases h4 with ⟨_, _, _, h4, _⟩ | ⟨_, h4⟩ | ⟨_, _, h4⟩ | ⟨_, h4⟩ <;> rw [h4] <;> simp
      generalize hcc : f.call = cc at o3
      generalize f.value = val at o3
      rw [hcc] at hnf
      cases o3 with
      | foreign _ _ _ hk' => exact absurd hk' hfor
      | fallback => exact absurd rfl (hnf.2 _ _ _)
      | withdrawTokens _ dst v hok hcall _ _ _ _ hown =>
        have hwS : w.kind S = .icx ∨ w.kind S = .flex := by
          rw [hf', hkS] at hok
          rcases hS with e | e | e | e
          · rw [e] at hok; simp [Kind.isOwned] at hok
          · exact .inl e
          · exact .inr e
          · exact absurd e hok.2
        exact .inl ⟨f', dst, v, o1, hf', hcall, hown hcon, hwS⟩
      | icxOut => exact absurd rfl hnf.1
      | convView _ _ hk' | convToken _ _ hk' | convIssue _ _ _ _ _ _ hk' | convPay _ _ _ _ _ _ hk' => exact absurd hk' hcon
      | convDestroy _ _ _ hk' => exact absurd hk' hcon
      | net _ _ _ hk' => exact absurd hk' hnet
  · obtain ⟨h4, v, h5⟩ := h4
    exact .inr ⟨f, v, h1, h3, h2, h5, h4⟩

set_option maxRecDepth 100000 in
example : let w := Scenario.run [.deploy owner Scenario.evil .icx, .call alice Scenario.evil 100 .deposit,
      .call alice Scenario.evil 0 (.withdrawTo 50 Scenario.icxt)] ready
    let w' := (Tx.call owner Scenario.evil 0 (.withdrawTokens Scenario.icxt bob 20)).apply Scenario.orc 20 w
    w.kind Scenario.icxt = .icx ∧ w.kind Scenario.evil = .icx ∧ (w.tok Scenario.icxt).bal Scenario.evil = 50 ∧
    (w'.tok Scenario.icxt).bal Scenario.evil = 30 ∧ (w.own Scenario.evil).owner ≠ some alice := by decide +kernel

set_option maxRecDepth 100000 in
example : let w := Scenario.run [.deploy bob Scenario.evil (.flex "X" "X" 100 0), .call bob Scenario.evil 0 (.issue Scenario.icxt 50)] ready
    let w1 := (Tx.call owner Scenario.icxt 0 (.withdrawTokens Scenario.evil alice 20)).apply Scenario.orc 20 w
    let w2 := (Tx.call bob Scenario.evil 0 (.destroy Scenario.icxt 10)).apply Scenario.orc 20 w1
    w.kind Scenario.evil = .flex ∧ (w.tok Scenario.evil).bal Scenario.icxt = 50 ∧ (w1.tok Scenario.evil).bal Scenario.icxt = 30 ∧
    (w2.tok Scenario.evil).bal Scenario.icxt = 20 ∧
    ((Tx.call alice Scenario.icxt 0 (.withdrawTokens Scenario.evil alice 20)).apply Scenario.orc 20 w).frames = w.frames := by decide +kernel

set_option maxRecDepth 100000 in
example : ready.kind Scenario.conv = .conv ∧ (ready.conv Scenario.conv).token = some Scenario.flex ∧
    (ready.kind Scenario.flex).isOwned ∧ (ready.own Scenario.conv).owner ≠ some alice := by decide +kernel

end Verif

import Verif.Proofs.Ledger
/-!
Exact effect of the administrative calls to converters, registries and networks.
-/
set_option linter.unusedSimpArgs false
namespace Verif

variable {cx : Ctx} {w w' : World} {r : Unit × World}
  {orc : Oracle} {n : Nat} {s T : Addr} {x : Val} {v : Int} {c : Call}

/-- Owned contracts accept coin only in the payable methods of ICX tokens and networks. -/
theorem exec_owned_value (hk : (w.kind T).isOwned) (h : exec orc (n + 1) s T v c w = .ok (x, w'))
    (hc : c ≠ .deposit ∧ c ≠ .fallback ∧ (∀ p m, c ≠ .convert p m) ∧ ∀ p m a, c ≠ .convertFor p m a) : v = 0 := by
  rcases hk with hk | hk | hk | hk | hk
  · exact exec_tok_value (.inr (.inl hk)) h fun _ => ⟨hc.1, hc.2.1⟩
  · rw [ok_exec_flex hk] at h; exact runNonPayable_value h.2
  · rw [ok_exec_conv hk] at h; exact runNonPayable_value h.2
  · rw [ok_exec_net hk] at h
    have h := h.2
    unfold Network.dispatch at h
    rw [mkFrame_call] at h
    split at h
    · exact absurd rfl (hc.2.2.1 _ _)
    · exact absurd rfl (hc.2.2.2 _ _ _)
    · exact runNonPayable_value h
  · rw [ok_exec_reg hk] at h; exact runNonPayable_value h.2

theorem exec_conv_value (hk : w.kind T = .conv) (h : exec orc (n + 1) s T v c w = .ok (x, w')) : v = 0 := by
  rw [ok_exec_conv hk] at h; exact runNonPayable_value h.2

theorem exec_owned_noInstall {i} (hk : (w.kind T).isOwned)
    (h : exec orc (n + 1) s T v (.onInstall i) w = .ok (x, w')) : False := by
  rcases hk with hk | hk | hk | hk | hk
  · exact exec_noInstall (.inr (.inl hk)) h
  · exact exec_noInstall (.inr (.inr hk)) h
  · rw [ok_exec_conv hk] at h; cases runNonPayable_none h.2
  · rw [ok_exec_net hk] at h; cases runNonPayable_none h.2
  · rw [ok_exec_reg hk] at h; cases runNonPayable_none h.2

/-! ### Converter -/

theorem ok_requireManager : Managed.requireOwnerOrManagerOnly cx w = .ok r ↔
    ((w.conv cx.self).manager = some cx.sender ∨ (w.own cx.self).owner = some cx.sender) ∧ r = ((), w) := by
  simp only [Managed.requireOwnerOrManagerOnly, okk, eq_comm (b := r), eq_comm (a := some cx.sender)]

theorem ok_transferManagement {a : Addr} : Managed.transferManagement cx a w = .ok r ↔
    ((w.conv cx.self).manager = some cx.sender ∨ (w.own cx.self).owner = some cx.sender) ∧
    (w.conv cx.self).manager ≠ some a ∧
    r = ((), w.setConv cx.self { w.conv cx.self with newManager := some a }) := by
  simp only [Managed.transferManagement, Managed.requireOwnerOrManagerOnly, okk, Except.ok.injEq,
    eq_comm (a := some cx.sender), eq_comm (b := r)]

theorem ok_acceptManagement : Managed.acceptManagement cx w = .ok r ↔
    (w.conv cx.self).newManager = some cx.sender ∧
    r = ((), (w.addLog cx.self (.ManagerUpdate (w.conv cx.self).manager (some cx.sender))).setConv cx.self
      { w.conv cx.self with manager := some cx.sender, newManager := some ZERO }) := by
  simp only [Managed.acceptManagement, okk, Except.ok.injEq, eq_comm (a := some cx.sender), eq_comm (b := r), setConv_setConv,
    setConv_conv_same]
  constructor
  · rintro ⟨h1, h2⟩; exact ⟨h1, by rw [h1] at h2; exact h2⟩
  · rintro ⟨h1, h2⟩; exact ⟨h1, by rw [h1]; exact h2⟩

theorem ok_setConversionFee {m : Int} : Converter.setConversionFee cx m w = .ok r ↔
    ((w.conv cx.self).manager = some cx.sender ∨ (w.own cx.self).owner = some cx.sender) ∧
    (0 ≤ m ∧ m ≤ (w.conv cx.self).maxFee) ∧
    r = ((), (w.addLog cx.self (.ConversionFeeUpdate (w.conv cx.self).fee m)).setConv cx.self
      { w.conv cx.self with fee := m }) := by
  simp only [Converter.setConversionFee, Managed.requireOwnerOrManagerOnly, okk, Except.ok.injEq,
    eq_comm (a := some cx.sender), eq_comm (b := r), addLog_conv]

theorem ok_disableRegistryUpdate {b : Bool} : Converter.disableRegistryUpdate cx b w = .ok r ↔
    ((w.conv cx.self).manager = some cx.sender ∨ (w.own cx.self).owner = some cx.sender) ∧
    r = ((), w.setConv cx.self { w.conv cx.self with allowRegistryUpdate := !b }) := by
  simp only [Converter.disableRegistryUpdate, Managed.requireOwnerOrManagerOnly, okk, Except.ok.injEq,
    eq_comm (a := some cx.sender), eq_comm (b := r)]

theorem ok_restoreRegistry : Converter.restoreRegistry cx w = .ok r ↔
    ((w.conv cx.self).manager = some cx.sender ∨ (w.own cx.self).owner = some cx.sender) ∧
    r = ((), w.setConv cx.self { w.conv cx.self with registry := (w.conv cx.self).prevRegistry, allowRegistryUpdate := false }) := by
  simp only [Converter.restoreRegistry, Managed.requireOwnerOrManagerOnly, okk, Except.ok.injEq,
    eq_comm (a := some cx.sender), eq_comm (b := r), setConv_setConv, setConv_conv_same]

theorem ok_disableConversions {b : Bool} : Converter.disableConversions cx b w = .ok r ↔
    ((w.conv cx.self).manager = some cx.sender ∨ (w.own cx.self).owner = some cx.sender) ∧
    (((w.conv cx.self).enabled = b ∧
        r = ((), (w.setConv cx.self { w.conv cx.self with enabled := !b }).addLog cx.self (.ConversionsEnable (!b)))) ∨
     ((w.conv cx.self).enabled ≠ b ∧ r = ((), w))) := by
  simp only [Converter.disableConversions, Managed.requireOwnerOrManagerOnly, okk, okk_ite, Except.ok.injEq,
    eq_comm (a := some cx.sender), eq_comm (b := r), ne_eq]

theorem ok_requireValidConnector {a : Addr} : Converter.requireValidConnector cx a w = .ok r ↔
    ((w.conv cx.self).connectors a).isSet = true ∧ r = ((), w) := by
  simp only [Converter.requireValidConnector, Converter.connector, okk, eq_comm (b := r)]

theorem ok_updateConnector {a : Addr} {wt : Int} {b : Bool} {vb : Int} : Converter.updateConnector cx a wt b vb w = .ok r ↔
    (w.own cx.self).owner = some cx.sender ∧ ((w.conv cx.self).connectors a).isSet = true ∧ (0 < wt ∧ wt ≤ 1000000) ∧
    (w.conv cx.self).totalWeight - ((w.conv cx.self).connectors a).weight + wt ≤ 1000000 ∧
    r = ((), w.setConv cx.self { w.conv cx.self with
      totalWeight := (w.conv cx.self).totalWeight - ((w.conv cx.self).connectors a).weight + wt
      connectors := upd (w.conv cx.self).connectors a
        { (w.conv cx.self).connectors a with weight := wt, isVirtual := b, virtualBalance := vb } }) := by
  simp only [Converter.updateConnector, Owned.requireOwnerOnly, Converter.requireValidConnector, Converter.connector,
    Converter.requireValidConnectorWeight, Converter.modConnector, okk, Except.ok.injEq,
    eq_comm (a := some cx.sender), eq_comm (b := r), setConv_setConv, setConv_conv_same]
  simp only [Converter.MAX_WEIGHT]

theorem ok_disableConnectorPurchases {a : Addr} {b : Bool} : Converter.disableConnectorPurchases cx a b w = .ok r ↔
    (w.own cx.self).owner = some cx.sender ∧ ((w.conv cx.self).connectors a).isSet = true ∧
    r = ((), w.setConv cx.self { w.conv cx.self with
      connectors := upd (w.conv cx.self).connectors a { (w.conv cx.self).connectors a with isPurchaseEnabled := !b } }) := by
  simp only [Converter.disableConnectorPurchases, Owned.requireOwnerOnly, Converter.requireValidConnector, Converter.connector,
    Converter.modConnector, okk, Except.ok.injEq, eq_comm (a := some cx.sender), eq_comm (b := r)]

/-- A method of the converter's own table. -/
theorem ok_exec_convUnit {m : Ctx → M Unit} (hk : w.kind T = .conv)
    (hm : Converter.dispatch { fr := mkFrame w s T v c, call := exec orc n T } =
      runNonPayable { fr := mkFrame w s T v c, call := exec orc n T }
        (some (do m { fr := mkFrame w s T v c, call := exec orc n T }; return .unit))) :
    exec orc (n + 1) s T v c w = .ok (x, w') ↔ v = 0 ∧ 0 ≤ w.coin s ∧ x = .unit ∧
      m { fr := mkFrame w s T v c, call := exec orc n T } (w.note s T 0 c) = .ok ((), w') := by
  rw [ok_exec_conv hk, hm, ok_runNonPayable, ok_unit]
  simp only [Ctx.value, mkFrame_value]
  constructor
  · rintro ⟨⟨_, h⟩, rfl, h2, h3⟩; rw [enterW_zero] at h2; exact ⟨rfl, h, h3, h2⟩
  · rintro ⟨rfl, h, h3, h2⟩; rw [enterW_zero]; exact ⟨⟨Int.le_refl _, h⟩, rfl, h2, h3⟩

/-- A method of the converter's own table, with its answer. -/
theorem ok_exec_convView {c : Call} {v : Int} {x : Val} {m : Ctx → M Val} (hk : w.kind T = .conv)
    (hm : Converter.dispatch { fr := mkFrame w s T v c, call := exec orc n T } =
      runNonPayable { fr := mkFrame w s T v c, call := exec orc n T } (some (m { fr := mkFrame w s T v c, call := exec orc n T }))) :
    exec orc (n + 1) s T v c w = .ok (x, w') ↔ v = 0 ∧ 0 ≤ w.coin s ∧
      m { fr := mkFrame w s T v c, call := exec orc n T } (w.note s T 0 c) = .ok (x, w') := by
  rw [ok_exec_conv hk, hm, ok_runNonPayable]
  simp only [Ctx.value, mkFrame_value]
  constructor
  · rintro ⟨⟨_, h⟩, rfl, h2⟩; rw [enterW_zero] at h2; exact ⟨rfl, h, h2⟩
  · rintro ⟨rfl, h, h2⟩; rw [enterW_zero]; exact ⟨⟨Int.le_refl _, h⟩, rfl, h2⟩

section
variable (hk : w.kind T = .conv)
include hk

theorem ok_exec_transferManagement {a : Addr} : exec orc (n + 1) s T v (.transferManagement a) w = .ok (x, w') ↔
    v = 0 ∧ 0 ≤ w.coin s ∧ x = .unit ∧ ((w.conv T).manager = some s ∨ (w.own T).owner = some s) ∧ (w.conv T).manager ≠ some a ∧
    w' = (w.note s T 0 (.transferManagement a)).setConv T { w.conv T with newManager := some a } := by
  rw [ok_exec_convUnit (m := fun cx => Managed.transferManagement cx a) hk rfl, ok_transferManagement]
  simp only [Prod.mk.injEq, note_own, note_conv, Ctx.self, Ctx.sender, mkFrame_to, mkFrame_sender, true_and]

theorem ok_exec_acceptManagement : exec orc (n + 1) s T v .acceptManagement w = .ok (x, w') ↔
    v = 0 ∧ 0 ≤ w.coin s ∧ x = .unit ∧ (w.conv T).newManager = some s ∧
    w' = ((w.note s T 0 .acceptManagement).addLog T (.ManagerUpdate (w.conv T).manager (some s))).setConv T
      { w.conv T with manager := some s, newManager := some ZERO } := by
  rw [ok_exec_convUnit (m := fun cx => Managed.acceptManagement cx) hk rfl, ok_acceptManagement]
  simp only [Prod.mk.injEq, note_own, note_conv, Ctx.self, Ctx.sender, mkFrame_to, mkFrame_sender, true_and]

theorem ok_exec_setConversionFee {m : Int} : exec orc (n + 1) s T v (.setConversionFee m) w = .ok (x, w') ↔
    v = 0 ∧ 0 ≤ w.coin s ∧ x = .unit ∧ ((w.conv T).manager = some s ∨ (w.own T).owner = some s) ∧
    (0 ≤ m ∧ m ≤ (w.conv T).maxFee) ∧
    w' = ((w.note s T 0 (.setConversionFee m)).addLog T (.ConversionFeeUpdate (w.conv T).fee m)).setConv T
      { w.conv T with fee := m } := by
  rw [ok_exec_convUnit (m := fun cx => Converter.setConversionFee cx m) hk rfl, ok_setConversionFee]
  simp only [Prod.mk.injEq, note_own, note_conv, Ctx.self, Ctx.sender, mkFrame_to, mkFrame_sender, true_and]

theorem ok_exec_disableRegistryUpdate {b : Bool} : exec orc (n + 1) s T v (.disableRegistryUpdate b) w = .ok (x, w') ↔
    v = 0 ∧ 0 ≤ w.coin s ∧ x = .unit ∧ ((w.conv T).manager = some s ∨ (w.own T).owner = some s) ∧
    w' = (w.note s T 0 (.disableRegistryUpdate b)).setConv T { w.conv T with allowRegistryUpdate := !b } := by
  rw [ok_exec_convUnit (m := fun cx => Converter.disableRegistryUpdate cx b) hk rfl, ok_disableRegistryUpdate]
  simp only [Prod.mk.injEq, note_own, note_conv, Ctx.self, Ctx.sender, mkFrame_to, mkFrame_sender, true_and]

theorem ok_exec_restoreRegistry : exec orc (n + 1) s T v .restoreRegistry w = .ok (x, w') ↔
    v = 0 ∧ 0 ≤ w.coin s ∧ x = .unit ∧ ((w.conv T).manager = some s ∨ (w.own T).owner = some s) ∧
    w' = (w.note s T 0 .restoreRegistry).setConv T
      { w.conv T with registry := (w.conv T).prevRegistry, allowRegistryUpdate := false } := by
  rw [ok_exec_convUnit (m := fun cx => Converter.restoreRegistry cx) hk rfl, ok_restoreRegistry]
  simp only [Prod.mk.injEq, note_own, note_conv, Ctx.self, Ctx.sender, mkFrame_to, mkFrame_sender, true_and]

theorem ok_exec_disableConversions {b : Bool} : exec orc (n + 1) s T v (.disableConversions b) w = .ok (x, w') ↔
    v = 0 ∧ 0 ≤ w.coin s ∧ x = .unit ∧ ((w.conv T).manager = some s ∨ (w.own T).owner = some s) ∧
    (((w.conv T).enabled = b ∧ w' = ((w.note s T 0 (.disableConversions b)).setConv T
        { w.conv T with enabled := !b }).addLog T (.ConversionsEnable (!b))) ∨
     ((w.conv T).enabled ≠ b ∧ w' = w.note s T 0 (.disableConversions b))) := by
  rw [ok_exec_convUnit (m := fun cx => Converter.disableConversions cx b) hk rfl, ok_disableConversions]
  simp only [Prod.mk.injEq, note_own, note_conv, Ctx.self, Ctx.sender, mkFrame_to, mkFrame_sender, true_and]

theorem ok_exec_updateConnector {a : Addr} {wt : Int} {b : Bool} {vb : Int} :
    exec orc (n + 1) s T v (.updateConnector a wt b vb) w = .ok (x, w') ↔
    v = 0 ∧ 0 ≤ w.coin s ∧ x = .unit ∧ (w.own T).owner = some s ∧ ((w.conv T).connectors a).isSet = true ∧
    (0 < wt ∧ wt ≤ 1000000) ∧ (w.conv T).totalWeight - ((w.conv T).connectors a).weight + wt ≤ 1000000 ∧
    w' = (w.note s T 0 (.updateConnector a wt b vb)).setConv T { w.conv T with
      totalWeight := (w.conv T).totalWeight - ((w.conv T).connectors a).weight + wt
      connectors := upd (w.conv T).connectors a
        { (w.conv T).connectors a with weight := wt, isVirtual := b, virtualBalance := vb } } := by
  rw [ok_exec_convUnit (m := fun cx => Converter.updateConnector cx a wt b vb) hk rfl, ok_updateConnector]
  simp only [Prod.mk.injEq, note_own, note_conv, Ctx.self, Ctx.sender, mkFrame_to, mkFrame_sender, true_and]

theorem ok_exec_disableConnectorPurchases {a : Addr} {b : Bool} :
    exec orc (n + 1) s T v (.disableConnectorPurchases a b) w = .ok (x, w') ↔
    v = 0 ∧ 0 ≤ w.coin s ∧ x = .unit ∧ (w.own T).owner = some s ∧ ((w.conv T).connectors a).isSet = true ∧
    w' = (w.note s T 0 (.disableConnectorPurchases a b)).setConv T { w.conv T with
      connectors := upd (w.conv T).connectors a { (w.conv T).connectors a with isPurchaseEnabled := !b } } := by
  rw [ok_exec_convUnit (m := fun cx => Converter.disableConnectorPurchases cx a b) hk rfl, ok_disableConnectorPurchases]
  simp only [Prod.mk.injEq, note_own, note_conv, Ctx.self, Ctx.sender, mkFrame_to, mkFrame_sender, true_and]

end

/-! ### Registry -/

theorem ok_registerAddress {nm : String} {a : Addr} : ScoreRegistry.registerAddress cx nm a w = .ok r ↔
    (w.own cx.self).owner = some cx.sender ∧ a ≠ ZERO ∧ a.isContract = true ∧ nm ∈ ScoreRegistry.SCORE_KEYS ∧
    r = ((), (w.setReg cx.self (upd (w.reg cx.self) nm (some a))).addLog cx.self (.AddressUpdate nm a)) := by
  simp only [ScoreRegistry.registerAddress, ScoreRegistry.setEntry, Owned.requireOwnerOnly, okk, Except.ok.injEq, valid_iff,
    eq_comm (a := some cx.sender), eq_comm (b := r)]

theorem ok_unregisterAddress {nm : String} : ScoreRegistry.unregisterAddress cx nm w = .ok r ↔
    (w.own cx.self).owner = some cx.sender ∧ w.reg cx.self nm ≠ none ∧
    r = ((), (w.setReg cx.self (upd (w.reg cx.self) nm none)).addLog cx.self (.AddressUpdate nm ZERO)) := by
  simp only [ScoreRegistry.unregisterAddress, ScoreRegistry.setEntry, Owned.requireOwnerOnly, okk, Except.ok.injEq, valid_iff,
    eq_comm (a := some cx.sender), eq_comm (b := r)]

theorem ok_exec_regUnit {m : Ctx → M Unit} (hk : w.kind T = .reg)
    (hm : ScoreRegistry.dispatch { fr := mkFrame w s T v c, call := exec orc n T } =
      runNonPayable { fr := mkFrame w s T v c, call := exec orc n T }
        (some (do m { fr := mkFrame w s T v c, call := exec orc n T }; return .unit))) :
    exec orc (n + 1) s T v c w = .ok (x, w') ↔ v = 0 ∧ 0 ≤ w.coin s ∧ x = .unit ∧
      m { fr := mkFrame w s T v c, call := exec orc n T } (w.note s T 0 c) = .ok ((), w') := by
  rw [ok_exec_reg hk, hm, ok_runNonPayable, ok_unit]
  simp only [Ctx.value, mkFrame_value]
  constructor
  · rintro ⟨⟨_, h⟩, rfl, h2, h3⟩; rw [enterW_zero] at h2; exact ⟨rfl, h, h3, h2⟩
  · rintro ⟨rfl, h, h3, h2⟩; rw [enterW_zero]; exact ⟨⟨Int.le_refl _, h⟩, rfl, h2, h3⟩

theorem ok_exec_registerAddress {nm : String} {a : Addr} (hk : w.kind T = .reg) :
    exec orc (n + 1) s T v (.registerAddress nm a) w = .ok (x, w') ↔
    v = 0 ∧ 0 ≤ w.coin s ∧ x = .unit ∧ (w.own T).owner = some s ∧ a ≠ ZERO ∧ a.isContract = true ∧
    nm ∈ ScoreRegistry.SCORE_KEYS ∧
    w' = ((w.note s T 0 (.registerAddress nm a)).setReg T (upd (w.reg T) nm (some a))).addLog T (.AddressUpdate nm a) := by
  rw [ok_exec_regUnit (m := fun cx => ScoreRegistry.registerAddress cx nm a) hk rfl, ok_registerAddress]
  simp only [Prod.mk.injEq, note_own, note_reg, Ctx.self, Ctx.sender, mkFrame_to, mkFrame_sender, true_and]

theorem ok_exec_unregisterAddress {nm : String} (hk : w.kind T = .reg) :
    exec orc (n + 1) s T v (.unregisterAddress nm) w = .ok (x, w') ↔
    v = 0 ∧ 0 ≤ w.coin s ∧ x = .unit ∧ (w.own T).owner = some s ∧ w.reg T nm ≠ none ∧
    w' = ((w.note s T 0 (.unregisterAddress nm)).setReg T (upd (w.reg T) nm none)).addLog T (.AddressUpdate nm ZERO) := by
  rw [ok_exec_regUnit (m := fun cx => ScoreRegistry.unregisterAddress cx nm) hk rfl, ok_unregisterAddress]
  simp only [Prod.mk.injEq, note_own, note_reg, Ctx.self, Ctx.sender, mkFrame_to, mkFrame_sender, true_and]

theorem ok_exec_getAddress {nm : String} (hk : w.kind T = .reg) :
    exec orc (n + 1) s T v (.getAddress nm) w = .ok (x, w') ↔
    v = 0 ∧ 0 ≤ w.coin s ∧ x = .addr (some ((w.reg T nm).getD ZERO)) ∧ w' = w.note s T 0 (.getAddress nm) := by
  rw [ok_exec_reg hk]
  have : ScoreRegistry.dispatch { fr := mkFrame w s T v (.getAddress nm), call := exec orc n T } =
      runNonPayable { fr := mkFrame w s T v (.getAddress nm), call := exec orc n T }
        (some do return .addr (some (← ScoreRegistry.getAddress { fr := mkFrame w s T v (.getAddress nm), call := exec orc n T } nm))) := rfl
  rw [this, ok_runNonPayable]
  simp only [ScoreRegistry.getAddress, okk, Ctx.self, Ctx.value, mkFrame_to, mkFrame_value, enterW_reg, Except.ok.injEq, Prod.mk.injEq]
  cases w.reg T nm <;> simp only [Option.getD] <;> constructor
  · rintro ⟨⟨_, h⟩, rfl, h2, h3⟩; rw [enterW_zero] at h3; exact ⟨rfl, h, h2.symm, h3.symm⟩
  · rintro ⟨rfl, h, h2, h3⟩; rw [enterW_zero]; exact ⟨⟨Int.le_refl _, h⟩, rfl, h2.symm, h3.symm⟩
  · rintro ⟨⟨_, h⟩, rfl, h2, h3⟩; rw [enterW_zero] at h3; exact ⟨rfl, h, h2.symm, h3.symm⟩
  · rintro ⟨rfl, h, h2, h3⟩; rw [enterW_zero]; exact ⟨⟨Int.le_refl _, h⟩, rfl, h2.symm, h3.symm⟩

/-! ### Network -/

theorem ok_registerIcxToken {a : Addr} {b : Bool} : Network.registerIcxToken cx a b w = .ok r ↔
    (w.own cx.self).owner = some cx.sender ∧ a ≠ ZERO ∧ a ≠ cx.self ∧
    r = ((), w.setNet cx.self (upd (w.net cx.self) a b)) := by
  simp only [Network.registerIcxToken, Owned.requireOwnerOnly, okk, Except.ok.injEq, valid_iff,
    eq_comm (a := some cx.sender), eq_comm (b := r), ne_comm (a := cx.self)]

theorem ok_exec_registerIcxToken {a : Addr} {b : Bool} (hk : w.kind T = .net) :
    exec orc (n + 1) s T v (.registerIcxToken a b) w = .ok (x, w') ↔
    v = 0 ∧ 0 ≤ w.coin s ∧ x = .unit ∧ (w.own T).owner = some s ∧ a ≠ ZERO ∧ a ≠ T ∧
    w' = (w.note s T 0 (.registerIcxToken a b)).setNet T (upd (w.net T) a b) := by
  rw [ok_exec_net hk]
  have : Network.dispatch { fr := mkFrame w s T v (.registerIcxToken a b), call := exec orc n T } =
      runNonPayable { fr := mkFrame w s T v (.registerIcxToken a b), call := exec orc n T }
        (some do Network.registerIcxToken { fr := mkFrame w s T v (.registerIcxToken a b), call := exec orc n T } a b; return .unit) := rfl
  rw [this, ok_runNonPayable, ok_unit, ok_registerIcxToken]
  simp only [Ctx.self, Ctx.sender, Ctx.value, mkFrame_to, mkFrame_sender, mkFrame_value, enterW_own, enterW_net, Prod.mk.injEq, true_and]
  constructor
  · rintro ⟨⟨_, h⟩, rfl, ⟨h1, h2, h3, h4⟩, h5⟩; rw [enterW_zero] at h4; exact ⟨rfl, h, h5, h1, h2, h3, h4⟩
  · rintro ⟨rfl, h, h5, h1, h2, h3, h4⟩; rw [enterW_zero]; exact ⟨⟨Int.le_refl _, h⟩, rfl, ⟨h1, h2, h3, h4⟩, h5⟩

end Verif

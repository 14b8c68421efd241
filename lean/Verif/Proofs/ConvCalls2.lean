import Verif.Proofs.ConvCalls
/-!
Exact effect of calls to converters that call other contracts.
-/
set_option linter.unusedSimpArgs false
namespace Verif

variable {cx : Ctx} {w w' : World} {r : Unit × World}
  {orc : Oracle} {n : Nat} {s T : Addr} {x : Val} {v : Int} {c : Call}

theorem ok_token {t : Addr} : Controller.token cx w = .ok (t, w') ↔ (w.conv cx.self).token = some t ∧ w' = w := by
  simp only [Controller.token, okk]
  cases (w.conv cx.self).token with
  | none => simp only [okk_fail]; simp
  | some a => simp [okk, eq_comm]

theorem ok_isActive {b : Bool} : Controller.isActive cx w = .ok (b, w') ↔
    ∃ t y, (w.conv cx.self).token = some t ∧ cx.call t 0 .getOwner w = .ok (y, w') ∧ b = y.isAddr cx.self := by
  unfold Controller.isActive
  simp only [okk_bind, ok_token, okk, Except.ok.injEq, Prod.mk.injEq]
  constructor
  · rintro ⟨t, _, ⟨h, rfl⟩, y, _, h1, rfl, rfl⟩; exact ⟨t, y, h, h1, rfl⟩
  · rintro ⟨t, y, h, h1, rfl⟩; exact ⟨t, _, ⟨h, rfl⟩, y, _, h1, rfl, rfl⟩

theorem ok_requireActive : Controller.requireActive cx w = .ok r ↔ Controller.isActive cx w = .ok (true, r.2) := by
  obtain ⟨_, w'⟩ := r
  unfold Controller.requireActive
  simp only [okk_bind, okk]
  constructor
  · rintro ⟨a, _, h1, rfl, h2⟩; cases h2; exact h1
  · intro h; exact ⟨true, _, h, rfl, rfl⟩

theorem ok_requireInactive : Controller.requireInactive cx w = .ok r ↔ Controller.isActive cx w = .ok (false, r.2) := by
  obtain ⟨_, w'⟩ := r
  unfold Controller.requireInactive
  simp only [okk_bind, okk]
  constructor
  · rintro ⟨a, _, h1, h3, h2⟩; cases h2
    cases a
    · exact h1
    · exact absurd rfl h3
  · intro h; exact ⟨false, _, h, by simp, rfl⟩

theorem ok_addConnector {a : Addr} {wt : Int} {b : Bool} : Converter.addConnector cx a wt b w = .ok r ↔
    (w.own cx.self).owner = some cx.sender ∧ ∃ w1, Controller.isActive cx w = .ok (false, w1) ∧
    a ≠ ZERO ∧ a ≠ cx.self ∧ (0 < wt ∧ wt ≤ 1000000) ∧ (w1.conv cx.self).token ≠ some a ∧
    ((w1.conv cx.self).connectors a).isSet = false ∧ (w1.conv cx.self).totalWeight + wt ≤ 1000000 ∧
    r = ((), w1.setConv cx.self { w1.conv cx.self with
        connectors := upd (w1.conv cx.self).connectors a
          { virtualBalance := 0, weight := wt, isVirtual := b, isPurchaseEnabled := true, isSet := true }
        connectorTokens := (w1.conv cx.self).connectorTokens ++ [a]
        totalWeight := (w1.conv cx.self).totalWeight + wt }) := by
  unfold Converter.addConnector
  simp only [okk_bind (Owned.requireOwnerOnly _), ok_requireOwner, okk_bind (Controller.requireInactive _), ok_requireInactive,
    Converter.requireValidConnectorWeight, Converter.modConnector, okk, Except.ok.injEq, valid_iff, setConv_setConv,
    setConv_conv_same, ne_comm (a := cx.self), eq_comm (b := r)]
  simp only [Converter.MAX_WEIGHT, Bool.not_eq_true]
  constructor
  · rintro ⟨_, _, ⟨h, e⟩, _, _, h1, h2⟩
    cases e
    exact ⟨h, _, h1, h2⟩
  · rintro ⟨h, w1, h1, h2⟩
    exact ⟨(), w, ⟨h, rfl⟩, (), w1, h1, h2⟩

theorem ok_holderWithdraw {tok a : Addr} {m : Int} : TokenHolder.withdrawTokens cx tok a m w = .ok r ↔
    (w.own cx.self).owner = some cx.sender ∧ 0 < m ∧ a ≠ cx.self ∧ a ≠ ZERO ∧
    ∃ y, cx.call tok 0 (.transfer a m none) w = .ok (y, r.2) := by
  unfold TokenHolder.withdrawTokens
  simp only [Owned.requireOwnerOnly, okk, okk_bind (cx.call _ _ _), valid_iff, eq_comm (a := some cx.sender),
    ne_comm (a := cx.self), gt_iff_lt, Except.ok.injEq]
  constructor
  · rintro ⟨h1, h2, h3, h4, y, _, h5, h6⟩; cases h6; exact ⟨h1, h2, h3, h4, y, h5⟩
  · rintro ⟨h1, h2, h3, h4, y, h5⟩; exact ⟨h1, h2, h3, h4, y, _, h5, rfl⟩

theorem ok_convWithdraw {tok a : Addr} {m : Int} : Converter.withdrawTokens cx tok a m w = .ok r ↔
    ∃ b w1, Controller.isActive cx w = .ok (b, w1) ∧ (b = false ∨ ((w1.conv cx.self).connectors tok).isSet = false) ∧
    TokenHolder.withdrawTokens cx tok a m w1 = .ok r := by
  unfold Converter.withdrawTokens
  simp only [okk_bind (Controller.isActive _), Converter.connector, okk, Bool.not_eq_true]

theorem ok_updateRegistry : Converter.updateRegistry cx w = .ok r ↔
    ((w.conv cx.self).allowRegistryUpdate = true ∨ (w.own cx.self).owner = some cx.sender) ∧
    ∃ R new w1, (w.conv cx.self).registry = some R ∧
      cx.call R 0 (.getAddress "ScoreRegistry") w = .ok (.addr (some new), w1) ∧ new ≠ ZERO ∧
      (w1.conv cx.self).registry ≠ some new ∧
      r = ((), w1.setConv cx.self { w1.conv cx.self with prevRegistry := (w1.conv cx.self).registry, registry := some new }) := by
  unfold Converter.updateRegistry
  simp only [okk, eq_comm (a := some cx.sender)]
  refine and_congr Iff.rfl ?_
  cases (w.conv cx.self).registry with
  | none => simp [okk]
  | some R =>
    simp only [okk_bind (cx.call _ _ _), okk_bind (asAddr _), ok_asAddr, okk, valid_iff, setConv_setConv, setConv_conv_same,
      Except.ok.injEq, ScoreRegistry.SCORE_REGISTRY, eq_comm (b := r)]
    constructor
    · rintro ⟨y, w1, h1, new, _, ⟨rfl, rfl⟩, h2, h3, h4⟩
      exact ⟨R, new, w1, rfl, h1, h2, Ne.symm h3, h4⟩
    · rintro ⟨R, new, w1, h, h1, h2, h3, h4⟩
      cases h
      exact ⟨_, w1, h1, new, w1, ⟨rfl, rfl⟩, h2, Ne.symm h3, h4⟩

section
variable (hk : w.kind T = .conv)
include hk

theorem ok_exec_addConnector {a : Addr} {wt : Int} {b : Bool} :
    exec orc (n + 1) s T v (.addConnector a wt b) w = .ok (x, w') ↔
    v = 0 ∧ 0 ≤ w.coin s ∧ x = .unit ∧ (w.own T).owner = some s ∧
    ∃ t y w1, (w.conv T).token = some t ∧
      exec orc n T t 0 .getOwner (w.note s T 0 (.addConnector a wt b)) = .ok (y, w1) ∧ y.isAddr T = false ∧
    a ≠ ZERO ∧ a ≠ T ∧ (0 < wt ∧ wt ≤ 1000000) ∧ (w1.conv T).token ≠ some a ∧
    ((w1.conv T).connectors a).isSet = false ∧ (w1.conv T).totalWeight + wt ≤ 1000000 ∧
    w' = w1.setConv T { w1.conv T with
        connectors := upd (w1.conv T).connectors a
          { virtualBalance := 0, weight := wt, isVirtual := b, isPurchaseEnabled := true, isSet := true }
        connectorTokens := (w1.conv T).connectorTokens ++ [a]
        totalWeight := (w1.conv T).totalWeight + wt } := by
  rw [ok_exec_convUnit (m := fun cx => Converter.addConnector cx a wt b) hk rfl, ok_addConnector]
  simp only [ok_isActive, Prod.mk.injEq, note_own, note_conv, Ctx.self, Ctx.sender, mkFrame_to, mkFrame_sender, true_and]
  constructor
  · rintro ⟨h1, h2, h3, h4, w1, ⟨t, y, h5, h6, h7⟩, h8⟩
    exact ⟨h1, h2, h3, h4, t, y, w1, h5, h6, h7.symm, h8⟩
  · rintro ⟨h1, h2, h3, h4, t, y, w1, h5, h6, h7, h8⟩
    exact ⟨h1, h2, h3, h4, w1, ⟨t, y, h5, h6, h7.symm⟩, h8⟩

theorem ok_exec_updateRegistry : exec orc (n + 1) s T v .updateRegistry w = .ok (x, w') ↔
    v = 0 ∧ 0 ≤ w.coin s ∧ x = .unit ∧ ((w.conv T).allowRegistryUpdate = true ∨ (w.own T).owner = some s) ∧
    ∃ R new w1, (w.conv T).registry = some R ∧
      exec orc n T R 0 (.getAddress "ScoreRegistry") (w.note s T 0 .updateRegistry) = .ok (.addr (some new), w1) ∧ new ≠ ZERO ∧
      (w1.conv T).registry ≠ some new ∧
      w' = w1.setConv T { w1.conv T with prevRegistry := (w1.conv T).registry, registry := some new } := by
  rw [ok_exec_convUnit (m := fun cx => Converter.updateRegistry cx) hk rfl, ok_updateRegistry]
  simp only [Prod.mk.injEq, note_own, note_conv, Ctx.self, Ctx.sender, mkFrame_to, mkFrame_sender, true_and]

theorem ok_exec_convWithdraw {tok a : Addr} {m : Int} : exec orc (n + 1) s T v (.withdrawTokens tok a m) w = .ok (x, w') ↔
    v = 0 ∧ 0 ≤ w.coin s ∧ x = .unit ∧
    ∃ t z w1, (w.conv T).token = some t ∧
      exec orc n T t 0 .getOwner (w.note s T 0 (.withdrawTokens tok a m)) = .ok (z, w1) ∧
      (z.isAddr T = false ∨ ((w1.conv T).connectors tok).isSet = false) ∧
      (w1.own T).owner = some s ∧ 0 < m ∧ a ≠ T ∧ a ≠ ZERO ∧
      ∃ y, exec orc n T tok 0 (.transfer a m none) w1 = .ok (y, w') := by
  rw [ok_exec_convUnit (m := fun cx => Converter.withdrawTokens cx tok a m) hk rfl, ok_convWithdraw]
  simp only [ok_isActive, ok_holderWithdraw, note_own, note_conv, Ctx.self, Ctx.sender, mkFrame_to, mkFrame_sender]
  constructor
  · rintro ⟨h1, h2, h3, b, w1, ⟨t, z, h4, h5, rfl⟩, h6⟩; exact ⟨h1, h2, h3, t, z, w1, h4, h5, h6⟩
  · rintro ⟨h1, h2, h3, t, z, w1, h4, h5, h6⟩; exact ⟨h1, h2, h3, _, w1, ⟨t, z, h4, h5, rfl⟩, h6⟩

end

theorem ok_exec_withdrawTokens {tok a : Addr} {m : Int} (hk : w.kind T = .icx ∨ w.kind T = .flex ∨ w.kind T = .net) :
    exec orc (n + 1) s T v (.withdrawTokens tok a m) w = .ok (x, w') ↔
    v = 0 ∧ 0 ≤ w.coin s ∧ x = .unit ∧ (w.own T).owner = some s ∧ 0 < m ∧ a ≠ T ∧ a ≠ ZERO ∧
      ∃ y, exec orc n T tok 0 (.transfer a m none) (w.note s T 0 (.withdrawTokens tok a m)) = .ok (y, w') := by
  have key : (0 ≤ v ∧ v ≤ w.coin s) ∧ runNonPayable { fr := mkFrame w s T v (.withdrawTokens tok a m), call := exec orc n T }
      (some do TokenHolder.withdrawTokens { fr := mkFrame w s T v (.withdrawTokens tok a m), call := exec orc n T } tok a m; return .unit)
        (enterW w s T v (.withdrawTokens tok a m)) = .ok (x, w') ↔
      v = 0 ∧ 0 ≤ w.coin s ∧ x = .unit ∧ (w.own T).owner = some s ∧ 0 < m ∧ a ≠ T ∧ a ≠ ZERO ∧
      ∃ y, exec orc n T tok 0 (.transfer a m none) (w.note s T 0 (.withdrawTokens tok a m)) = .ok (y, w') := by
    rw [ok_runNonPayable, ok_unit, ok_holderWithdraw]
    simp only [Ctx.self, Ctx.sender, Ctx.value, mkFrame_to, mkFrame_sender, mkFrame_value, enterW_own]
    constructor
    · rintro ⟨⟨_, h⟩, rfl, h2, h3⟩; rw [enterW_zero] at h2; exact ⟨rfl, h, h3, h2⟩
    · rintro ⟨rfl, h, h3, h2⟩; rw [enterW_zero]; exact ⟨⟨Int.le_refl _, h⟩, rfl, h2, h3⟩
  rcases hk with hk | hk | hk
  · rw [ok_exec_icx hk]; exact key
  · rw [ok_exec_flex hk]; exact key
  · rw [ok_exec_net hk]; exact key

theorem Val.isAddr_addr {o : Option Addr} {a : Addr} : (Val.addr o).isAddr a = true ↔ o = some a := by
  cases o <;> simp [Val.isAddr, eq_comm]

end Verif

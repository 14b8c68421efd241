import Verif.Props.Settings
/-!
Properties C17-C23, C32: the registry and the configuration of converters.
-/
set_option linter.unusedSimpArgs false
set_option autoImplicit false
namespace Verif

open Scenario (ready ready_reachable alice bob owner)

/-! ### C17 -/

/-- C17. In every reachable ledger the registry lists only non-zero contract addresses, under the two known names; and
`getAddress` of anything else answers the zero address. -/
theorem C17_registry_sound {w : World} (h : Reachable w) {R : Addr} (hk : w.kind R = .reg) (name : String) :
    (∃ a, w.reg R name = some a ∧ a ≠ ZERO ∧ a.isContract = true ∧ (name = "ScoreRegistry" ∨ name = "Network") ∧
      Answers w R (.getAddress name) (.addr (some a))) ∨
    (w.reg R name = none ∧ Answers w R (.getAddress name) (.addr (some ZERO))) := by
  have hans : ∀ a, (w.reg R name).getD ZERO = a → Answers w R (.getAddress name) (.addr (some a)) := by
    intro a ha orc n s hs
    exact ⟨_, (ok_exec_getAddress hk).mpr ⟨rfl, hs, by rw [ha], rfl⟩⟩
  cases hr : w.reg R name with
  | none => exact .inr ⟨rfl, hans _ (by rw [hr]; rfl)⟩
  | some a =>
    obtain ⟨h1, h2, h3⟩ := h.regInv R name a hr
    exact .inl ⟨a, rfl, h1, h2, h3, hans _ (by rw [hr]; rfl)⟩

/-- C17. The table of the registry is exactly what the sequence of all successful calls makes of it, and every one of these
calls obeyed the rules: only the owner registers (a contract under a known name) and unregisters (something listed). -/
theorem C17_history {w : World} (h : Reachable w) {R : Addr} (hk : w.kind R = .reg) :
    w.reg R = replay (regAfter R) w.frames (fun _ => none) ∧ EachCall (regAfter R) (RegRules R) w.frames (fun _ => none) :=
  (regMachine R).reachable h hk

set_option maxRecDepth 100000 in
example : ready.kind Scenario.registry = .reg ∧ ready.reg Scenario.registry "Network" = some Scenario.network ∧
    ready.reg Scenario.registry "ScoreRegistry" = some Scenario.registry ∧ ready.reg Scenario.registry "Other" = none := by decide +kernel

/-! ### C18 -/

section
variable {orc : Oracle} {n : Nat} {s T : Addr} {w w' : World} {x : Val}

/-- C18. `registerAddress` succeeds exactly for the owner with a known name and a non-zero contract address, and changes
exactly that entry. -/
theorem C18_registerAddress {name : String} {a : Addr} (hk : w.kind T = .reg) (hs : 0 ≤ w.coin s) :
    exec orc (n + 1) s T 0 (.registerAddress name a) w = .ok (x, w') ↔
    ((w.own T).owner = some s ∧ a ≠ ZERO ∧ a.isContract = true ∧ (name = "ScoreRegistry" ∨ name = "Network")) ∧ x = .unit ∧
    w' = ((w.note s T 0 (.registerAddress name a)).setReg T (fun k => if k = name then some a else w.reg T k)).addLog T
      (.AddressUpdate name a) := by
  rw [ok_exec_registerAddress hk]
  have : name ∈ ScoreRegistry.SCORE_KEYS ↔ name = "ScoreRegistry" ∨ name = "Network" := by
    simp [ScoreRegistry.SCORE_KEYS, ScoreRegistry.SCORE_REGISTRY, ScoreRegistry.NETWORK]
  rw [this]
  have e : upd (w.reg T) name (some a) = fun k => if k = name then some a else w.reg T k := rfl
  rw [e]
  tauto

/-- C18. `unregisterAddress` succeeds exactly for the owner with a listed name, and removes exactly that entry. -/
theorem C18_unregisterAddress {name : String} (hk : w.kind T = .reg) (hs : 0 ≤ w.coin s) :
    exec orc (n + 1) s T 0 (.unregisterAddress name) w = .ok (x, w') ↔
    ((w.own T).owner = some s ∧ w.reg T name ≠ none) ∧ x = .unit ∧
    w' = ((w.note s T 0 (.unregisterAddress name)).setReg T (fun k => if k = name then none else w.reg T k)).addLog T
      (.AddressUpdate name ZERO) := by
  rw [ok_exec_unregisterAddress hk]
  have e : upd (w.reg T) name none = fun k => if k = name then none else w.reg T k := rfl
  rw [e]
  tauto

/-- C18. After a registration `getAddress` answers the registered address, after removal the zero address, and for all other
names what it answered before. -/
theorem C18_getAddress_after {name : String} {a : Addr} (hk : w.kind T = .reg)
    (h : exec orc (n + 1) s T 0 (.registerAddress name a) w = .ok (x, w')) :
    Answers w' T (.getAddress name) (.addr (some a)) ∧
    ∀ k v, k ≠ name → Answers w T (.getAddress k) v → Answers w' T (.getAddress k) v := by
  have hs : 0 ≤ w.coin s := ((ok_exec_registerAddress hk).mp h).2.1
  obtain ⟨_, _, rfl⟩ := (C18_registerAddress hk hs).mp h
  constructor
  · intro orc n s hs
    exact ⟨_, (ok_exec_getAddress (by simpa using hk)).mpr ⟨rfl, hs, by simp [setReg_reg], rfl⟩⟩
  · intro k v hkn ha orc n s hs
    obtain ⟨w1, h1⟩ := ha orc n s hs
    rw [ok_exec_getAddress hk] at h1
    exact ⟨_, (ok_exec_getAddress (by simpa using hk)).mpr ⟨rfl, hs, by rw [h1.2.2.1]; simp [setReg_reg, hkn], rfl⟩⟩

set_option maxRecDepth 100000 in
example : ready.kind Scenario.registry = .reg ∧ 0 ≤ ready.coin owner ∧ (ready.own Scenario.registry).owner = some owner ∧
    Scenario.conv ≠ ZERO ∧ Scenario.conv.isContract = true := by decide +kernel

/-! ### C19 -/

/-- C19. `updateRegistry`, with a registry SCORE of this code base behind it, succeeds exactly if updates are allowed or the
caller is the owner, and the current registry points at a different registry; it makes that the registry and the old one the
previous registry. -/
theorem C19_updateRegistry {R : Addr} (hk : w.kind T = .conv) (hR : (w.conv T).registry = some R) (hkR : w.kind R = .reg)
    (hs : 0 ≤ w.coin s) (hT : 0 ≤ w.coin T) :
    exec orc (n + 2) s T 0 .updateRegistry w = .ok (x, w') ↔
    ∃ new, ((w.conv T).allowRegistryUpdate = true ∨ (w.own T).owner = some s) ∧
      (w.reg R "ScoreRegistry").getD ZERO = new ∧ new ≠ ZERO ∧ new ≠ R ∧ x = .unit ∧
      w' = ((w.note s T 0 .updateRegistry).note T R 0 (.getAddress "ScoreRegistry")).setConv T
        { w.conv T with prevRegistry := some R, registry := some new } := by
  rw [ok_exec_updateRegistry hk]
  constructor
  · rintro ⟨_, _, rfl, h1, R', new, w1, h2, h3, h4, h5, rfl⟩
    rw [hR] at h2; cases h2
    rw [ok_exec_getAddress (by simpa using hkR)] at h3
    obtain ⟨_, _, h6, rfl⟩ := h3
    simp only [note_conv, hR, note_reg] at h5 h6 ⊢
    refine ⟨new, h1, ?_, h4, fun e => h5 (by rw [e]), trivial, rfl⟩
    injection h6 with h6; injection h6 with h6; exact h6.symm
  · rintro ⟨new, h1, h2, h3, h4, rfl, rfl⟩
    refine ⟨rfl, hs, rfl, h1, R, new, _, hR, (ok_exec_getAddress (by simpa using hkR)).mpr ⟨rfl, ?_, ?_, rfl⟩, h3, ?_, ?_⟩
    · simpa using hT
    · rw [note_reg, h2]
    · simp only [note_conv, hR]; intro e; injection e with e; exact h4 e.symm
    · simp only [note_conv, hR]

/-- C19, whatever the registry is: `updateRegistry` fails when updates are not allowed and the caller is not the owner. -/
theorem C19_updateRegistry_guarded {cv : Int} (hk : w.kind T = .conv) (h : (w.conv T).allowRegistryUpdate = false)
    (ho : (w.own T).owner ≠ some s) : Fails w s T cv .updateRegistry := by
  intro orc n x w' e
  cases n with
  | zero => exact exec_zero e
  | succ n =>
    rw [ok_exec_updateRegistry hk] at e
    rcases e.2.2.2.1 with h' | h'
    · rw [h] at h'; cases h'
    · exact ho h'

/-- C19. `restoreRegistry` succeeds exactly for owner or manager; it brings the previous registry back and forbids public
updates. -/
theorem C19_restoreRegistry (hk : w.kind T = .conv) (hs : 0 ≤ w.coin s) :
    exec orc (n + 1) s T 0 .restoreRegistry w = .ok (x, w') ↔
    ((w.conv T).manager = some s ∨ (w.own T).owner = some s) ∧ x = .unit ∧
    w' = (w.note s T 0 .restoreRegistry).setConv T
      { w.conv T with registry := (w.conv T).prevRegistry, allowRegistryUpdate := false } := by
  rw [ok_exec_restoreRegistry hk]; tauto

/-- C19. Undoing an update: after a public `updateRegistry`, the owner's `restoreRegistry` brings the original registry back. -/
theorem C19_update_then_restore {R s2 : Addr} {orc2 : Oracle} {n2 : Nat} {x2 : Val} {w2 : World} (hk : w.kind T = .conv)
    (hR : (w.conv T).registry = some R) (hkR : w.kind R = .reg)
    (h : exec orc n s T 0 .updateRegistry w = .ok (x, w'))
    (h2 : exec orc2 n2 s2 T 0 .restoreRegistry w' = .ok (x2, w2)) :
    (w2.conv T).registry = some R ∧ (w2.conv T).allowRegistryUpdate = false ∧
    ∀ s3 cv, (w.own T).owner ≠ some s3 → Fails w2 s3 T cv .updateRegistry := by
  cases n with
  | zero => exact (exec_zero h).elim
  | succ n =>
    cases n2 with
    | zero => exact (exec_zero h2).elim
    | succ n2 =>
      rw [ok_exec_updateRegistry hk] at h
      obtain ⟨_, _, _, h1, R', new, w1, e2, h3, h4, h5, rfl⟩ := h
      rw [hR] at e2; cases e2
      cases n with
      | zero => exact (exec_zero h3).elim
      | succ n =>
        rw [ok_exec_getAddress (by simpa using hkR)] at h3
        obtain ⟨_, _, _, rfl⟩ := h3
        rw [ok_exec_restoreRegistry (by simpa using hk)] at h2
        obtain ⟨_, _, _, _, rfl⟩ := h2
        refine ⟨by simp [hR], by simp, fun s3 cv ho => ?_⟩
        exact C19_updateRegistry_guarded (by simpa using hk) (by simp) (by simpa using ho)

end

set_option maxRecDepth 100000 in
example : let w := Scenario.run [.deploy owner Scenario.evil .reg,
      .call owner Scenario.registry 0 (.registerAddress "ScoreRegistry" Scenario.evil)] ready
    let w' := (Tx.call bob Scenario.conv 0 .updateRegistry).apply Scenario.orc 20 w
    let w2 := (Tx.call owner Scenario.conv 0 .restoreRegistry).apply Scenario.orc 20 w'
    w.kind Scenario.conv = .conv ∧ (w.conv Scenario.conv).registry = some Scenario.registry ∧ w.kind Scenario.registry = .reg ∧
    (w'.conv Scenario.conv).registry = some Scenario.evil ∧ (w2.conv Scenario.conv).registry = some Scenario.registry := by
  decide +kernel

/-! ### C20 -/

/-- C20. In every reachable ledger every connector has a weight in 1..1000000, and the weights of all connectors add up to the
recorded total, at most 1000000. -/
theorem C20_weights {w : World} (h : Reachable w) (T : Addr) :
    (∀ a ∈ (w.conv T).connectorTokens, 1 ≤ ((w.conv T).connectors a).weight ∧ ((w.conv T).connectors a).weight ≤ 1000000) ∧
    (w.conv T).totalWeight = ((w.conv T).connectorTokens.map fun a => ((w.conv T).connectors a).weight).sum ∧
    ((w.conv T).connectorTokens.map fun a => ((w.conv T).connectors a).weight).sum ≤ 1000000 := by
  have hi := h.convInv T
  refine ⟨fun a ha => ?_, hi.total, by rw [← hi.total]; exact hi.bound⟩
  have := hi.weight a ((hi.mem a).mp ha)
  omega

set_option maxRecDepth 100000 in
example : Reachable ready ∧ (ready.conv Scenario.conv).connectorTokens = [Scenario.irc, Scenario.icxt] ∧
    (ready.conv Scenario.conv).totalWeight = 500000 := ⟨ready_reachable, by decide +kernel, by decide +kernel⟩

/-! ### C21 -/

/-- C21. In every reachable ledger the connector list has no duplicates, contains exactly the addresses `getConnector` knows,
and never the zero address, the converter itself or its flexible token. -/
theorem C21_list_sound {w : World} (h : Reachable w) (T : Addr) :
    (w.conv T).connectorTokens.Nodup ∧ (∀ a, a ∈ (w.conv T).connectorTokens ↔ ((w.conv T).connectors a).isSet = true) ∧
    ZERO ∉ (w.conv T).connectorTokens ∧ T ∉ (w.conv T).connectorTokens ∧
    (∀ t, (w.conv T).token = some t → t ∉ (w.conv T).connectorTokens) ∧
    ∀ a, a ∉ (w.conv T).connectorTokens → (w.conv T).connectors a = {} := by
  have hi := h.convInv T
  refine ⟨hi.nodup, hi.mem, ?_, ?_, fun t ht => ?_, fun a ha => ?_⟩
  · rw [hi.mem, hi.zero]; simp
  · rw [hi.mem, hi.self]; simp
  · rw [hi.mem, hi.token t ht]; simp
  · rw [hi.mem] at ha; exact hi.blank a (by simpa using ha)

/-- C21. The list is only ever extended at its end: connectors are never removed or moved. -/
theorem C21_never_removed {w w' : World} {T : Addr} (hk : w.kind T = .conv) (h : Later w w') :
    (w.conv T).connectorTokens <+: (w'.conv T).connectorTokens ∧
    ∀ a, ((w.conv T).connectors a).isSet = true → ((w'.conv T).connectors a).isSet = true := by
  let R : World → World → Prop := fun u u' => (u.conv T).connectorTokens <+: (u'.conv T).connectorTokens ∧
    ∀ a, ((u.conv T).connectors a).isSet = true → ((u'.conv T).connectors a).isSet = true
  have ht : ∀ a b c, R a b → R b c → R a c := fun _ _ _ h1 h2 => ⟨h1.1.trans h2.1, fun a ha => h2.2 a (h1.2 a ha)⟩
  refine (later_keep (R := R) h (T := T) (fun _ => ⟨List.prefix_refl _, fun _ => id⟩) ht (by rw [hk]; rintro ⟨⟩) ?_).1
  intro orc fuel tx u hu
  refine (tx_steps orc fuel tx u).keep (T := T) (R := R) (by rw [hu, hk]; rintro ⟨⟩) ?_ ht ?_
  · intro _ _ hs
    change _ <+: _ ∧ _
    rw [hs.conv]; exact ⟨List.prefix_refl _, fun _ => id⟩
  · intro f v v' _ hf hl
    change (v.conv T).connectorTokens <+: (v'.conv T).connectorTokens ∧ ∀ a, ((v.conv T).connectors a).isSet = true → ((v'.conv T).connectors a).isSet = true
    cases hl with
    | conv c' _ hc =>
      rw [hf] at hc ⊢
      rw [setConv_conv_same]
      cases hc with
      | addConnector t wt b =>
        refine ⟨List.prefix_append _ _, fun a ha => ?_⟩
        simp only [upd_apply]; split <;> simp_all
      | updateConnector | setPurchase | addVirtual | subVirtual =>
        refine ⟨List.prefix_refl _, fun a ha => ?_⟩
        simp only [upd_apply]; split <;> simp_all
      | _ => exact ⟨List.prefix_refl _, fun _ => id⟩
    | nominateManager m => rw [hf]; simp
    | acceptManager => rw [hf]; simp
    | _ => exact ⟨List.prefix_refl _, fun _ => id⟩

/-- A read-only method of a converter that needs no other contract. -/
theorem answers_conv {w : World} {T : Addr} {c : Call} {m : Ctx → M Val} {v : Val} (hk : w.kind T = .conv)
    (hm : ∀ f call, f.call = c → Converter.dispatch { fr := f, call := call } = runNonPayable { fr := f, call := call } (some (m { fr := f, call := call })))
    (hv : ∀ f call u, f.to = T → u.conv T = w.conv T → m { fr := f, call := call } u = .ok (v, u)) : Answers w T c v := by
  intro orc n s hs
  refine ⟨w.note s T 0 c, ?_⟩
  rw [ok_exec_conv hk, hm _ _ rfl, ok_runNonPayable]
  refine ⟨⟨Int.le_refl _, hs⟩, rfl, ?_⟩
  rw [enterW_zero]
  exact hv _ _ _ rfl rfl

/-- C21, at the API: `getConnectorTokenCount()` answers the length of the list, `getConnectorAt(i)` its entries, and
`getConnector` is non-empty exactly for its members. -/
theorem C21_views {w : World} (h : Reachable w) {T : Addr} (hk : w.kind T = .conv) :
    Answers w T .getConnectorTokenCount (.int (w.conv T).connectorTokens.length) ∧
    (∀ (i : Nat) (a : Addr), (w.conv T).connectorTokens[i]? = some a → Answers w T (.getConnectorAt i) (.addr (some a))) ∧
    (∀ a, a ∈ (w.conv T).connectorTokens → Answers w T (.getConnector a) (.conn (some ((w.conv T).connectors a)))) ∧
    (∀ a, a ∉ (w.conv T).connectorTokens → Answers w T (.getConnector a) (.conn none)) := by
  have hi := h.convInv T
  refine ⟨?_, ?_, ?_, ?_⟩
  · refine answers_conv hk (m := fun cx => do return .int ((← get).conv cx.self).connectorTokens.length) ?_ ?_
    · intro f call hf; cases f; cases hf; rfl
    · intro f call u hf hu; subst hf; rw [← hu]; rfl
  · intro i a hia
    refine answers_conv hk (m := fun cx => do return .addr (some (← Converter.getConnectorAt cx i))) ?_ ?_
    · intro f call hf; cases f; cases hf; rfl
    · intro f call u hf hu
      subst hf
      simp only [okk, Converter.getConnectorAt]
      have hn : ¬ ((i : Int) < 0) := by omega
      simp only [Ctx.self, hu, if_neg hn]
      rw [if_pos (by omega : (0 : Int) ≤ (i : Int))]
      simp only [Int.toNat_natCast, hia]
      rfl
  · intro a ha
    have hset := (hi.mem a).mp ha
    refine answers_conv hk (m := fun cx => do
        let c ← Converter.connector cx a
        return .conn (if c.isSet then some c else none)) ?_ ?_
    · intro f call hf; cases f; cases hf; rfl
    · intro f call u hf hu; subst hf
      simp only [okk, Converter.connector, Ctx.self, hu, hset]; simp
  · intro a ha
    have hset : ((w.conv T).connectors a).isSet = false := by rw [hi.mem] at ha; simpa using ha
    refine answers_conv hk (m := fun cx => do
        let c ← Converter.connector cx a
        return .conn (if c.isSet then some c else none)) ?_ ?_
    · intro f call hf; cases f; cases hf; rfl
    · intro f call u hf hu; subst hf
      simp only [okk, Converter.connector, Ctx.self, hu, hset]; simp

set_option maxRecDepth 100000 in
example : let w := Scenario.run (Scenario.setup.take 7) Scenario.genesis
    w.kind Scenario.conv = .conv ∧ (w.conv Scenario.conv).connectorTokens = [Scenario.irc] ∧
    (ready.conv Scenario.conv).connectorTokens = [Scenario.irc, Scenario.icxt] := by decide +kernel

/-! ### C22 -/

/-- C22. `addConnector` fails for everybody but the converter's owner. -/
theorem C22_owner_only {s T cv a wt b w} (hk : w.kind T = .conv) (h : (w.own T).owner ≠ some s) :
    Fails w s T cv (.addConnector a wt b) := by
  intro orc n x w' e
  cases n with
  | zero => exact exec_zero e
  | succ n => rw [ok_exec_addConnector hk] at e; exact h e.2.2.2.1

/-- C22. `addConnector` fails while the converter owns its flexible token. -/
theorem C22_inactive_only {s T cv a wt b w t} (hk : w.kind T = .conv) (ht : (w.conv T).token = some t)
    (hkt : (w.kind t).isOwned) (h : (w.own t).owner = some T) : Fails w s T cv (.addConnector a wt b) := by
  intro orc n x w' e
  cases n with
  | zero => exact exec_zero e
  | succ n =>
    rw [ok_exec_addConnector hk] at e
    obtain ⟨_, _, _, _, t', y, w1, h1, h2, h3, _⟩ := e
    rw [ht] at h1; cases h1
    cases n with
    | zero => exact exec_zero h2
    | succ n =>
      rw [ok_exec_getOwner (by simpa using hkt)] at h2
      obtain ⟨_, rfl, _⟩ := h2
      rw [note_own, h, Val.isAddr_addr.mpr rfl] at h3; cases h3

/-- C22, exact, for a flexible token of this code base: when `addConnector` succeeds, and what it does. -/
theorem C22_addConnector {orc n s T a wt b w x w' t} (hk : w.kind T = .conv) (ht : (w.conv T).token = some t)
    (hkt : (w.kind t).isOwned) (hs : 0 ≤ w.coin s) (hT : 0 ≤ w.coin T) :
    exec orc (n + 2) s T 0 (.addConnector a wt b) w = .ok (x, w') ↔
    ((w.own T).owner = some s ∧ (w.own t).owner ≠ some T ∧ a ≠ ZERO ∧ a ≠ T ∧ a ≠ t ∧ 0 < wt ∧ wt ≤ 1000000 ∧
      ((w.conv T).connectors a).isSet = false ∧ (w.conv T).totalWeight + wt ≤ 1000000) ∧ x = .unit ∧
    w' = ((w.note s T 0 (.addConnector a wt b)).note T t 0 .getOwner).setConv T { w.conv T with
        connectors := upd (w.conv T).connectors a
          { virtualBalance := 0, weight := wt, isVirtual := b, isPurchaseEnabled := true, isSet := true }
        connectorTokens := (w.conv T).connectorTokens ++ [a]
        totalWeight := (w.conv T).totalWeight + wt } := by
  have hactive : ∀ o : Option Addr, (Val.addr o).isAddr T = false ↔ o ≠ some T := by
    intro o
    rw [← Bool.not_eq_true, Val.isAddr_addr]
  rw [ok_exec_addConnector hk]
  constructor
  · rintro ⟨_, _, rfl, h1, t', y, w1, h2, h3, h4, h5, h6, h7, h8, h9, h10, rfl⟩
    rw [ht] at h2; cases h2
    rw [ok_exec_getOwner (by simpa using hkt)] at h3
    obtain ⟨_, rfl, rfl⟩ := h3
    simp only [note_conv, note_own] at *
    rw [ht] at h8
    exact ⟨⟨h1, (hactive _).mp h4, h5, h6, fun e => h8 (by rw [e]), h7.1, h7.2, h9, h10⟩, trivial, trivial⟩
  · rintro ⟨⟨h1, h4, h5, h6, h8, h7, h7', h9, h10⟩, rfl, rfl⟩
    refine ⟨rfl, hs, rfl, h1, t, _, _, ht, (ok_exec_getOwner (by simpa using hkt)).mpr ⟨by simpa using hT, rfl, rfl⟩, ?_, h5, h6, ⟨h7, h7'⟩, ?_, h9, h10, rfl⟩
    · rw [note_own]; exact (hactive _).mpr h4
    · simp only [note_conv, ht]; intro e; injection e with e; exact h8 e.symm

set_option maxRecDepth 100000 in
example : ready.kind Scenario.conv = .conv ∧ (ready.conv Scenario.conv).token = some Scenario.flex ∧
    (ready.kind Scenario.flex).isOwned ∧ (ready.own Scenario.flex).owner = some Scenario.conv ∧
    (ready.own Scenario.conv).owner ≠ some alice := by decide +kernel

set_option maxRecDepth 100000 in
example : let w := Scenario.run (Scenario.setup.take 7) Scenario.genesis
    w.kind Scenario.conv = .conv ∧ (w.conv Scenario.conv).token = some Scenario.flex ∧
    (w.kind Scenario.flex).isOwned ∧ (w.own Scenario.flex).owner ≠ some Scenario.conv ∧
    (w.own Scenario.conv).owner = some owner ∧ ((w.conv Scenario.conv).connectors Scenario.icxt).isSet = false := by decide +kernel

/-! ### C23 -/

/-- C23. In every reachable ledger the fee is between 0 and its maximum, which is at most 100%; the views answer them. -/
theorem C23_fee_bounded {w : World} (h : Reachable w) {T : Addr} (hk : w.kind T = .conv) :
    ∃ fee maxFee, Answers w T .getConversionFee (.int fee) ∧ Answers w T .getMaxConversionFee (.int maxFee) ∧
      0 ≤ fee ∧ fee ≤ maxFee ∧ maxFee ≤ 1000000 ∧ fee = (w.conv T).fee ∧ maxFee = (w.conv T).maxFee := by
  obtain ⟨h1, h2, h3⟩ := (h.convInv T).fee
  refine ⟨(w.conv T).fee, (w.conv T).maxFee, ?_, ?_, h1, h2, h3, rfl, rfl⟩
  · refine answers_conv hk (m := fun cx => do return .int ((← get).conv cx.self).fee) ?_ ?_
    · intro f call hf; cases f; cases hf; rfl
    · intro f call u hf hu; subst hf; rw [← hu]; rfl
  · refine answers_conv hk (m := fun cx => do return .int ((← get).conv cx.self).maxFee) ?_ ?_
    · intro f call hf; cases f; cases hf; rfl
    · intro f call u hf hu; subst hf; rw [← hu]; rfl

/-- C23. The maximal fee is fixed at deployment. -/
theorem C23_maxFee_fixed {w w' : World} {T : Addr} (hk : w.kind T = .conv) (h : Later w w') :
    (w'.conv T).maxFee = (w.conv T).maxFee := (C14_fixed hk h).2

set_option maxRecDepth 100000 in
example : Reachable ready ∧ ready.kind Scenario.conv = .conv ∧ (ready.conv Scenario.conv).fee = 1000 ∧
    (ready.conv Scenario.conv).maxFee = 30000 := ⟨ready_reachable, by decide +kernel, by decide +kernel, by decide +kernel⟩

/-! ### C32 -/

section
variable {orc : Oracle} {fuel : Nat} {tx : Tx} {w : World} {T a : Addr}

/-- C32. If a connector's virtual balance goes up in a transaction, then in it the owner called `updateConnector` (or
`addConnector`) on it, or the connector token reported a positive deposit (`tokenFallback`) while the connector was virtual. -/
theorem C32_increase (hk : w.kind T = .conv)
    (h : ((w.conv T).connectors a).virtualBalance < (((tx.apply orc fuel w).conv T).connectors a).virtualBalance) :
    ∃ f, Called w (tx.apply orc fuel w) f ∧ f.to = T ∧
      ((f.owner = some f.sender ∧ ((∃ wt b vb, f.call = .updateConnector a wt b vb) ∨ ∃ wt b, f.call = .addConnector a wt b)) ∨
       (f.sender = a ∧ ∃ from_ v d, f.call = .tokenFallback from_ v d ∧ 0 < v)) := by
  have key := (tx_steps orc fuel tx w).blame (T := T)
    (R := fun u u' => ((u'.conv T).connectors a).virtualBalance ≤ ((u.conv T).connectors a).virtualBalance)
    (P := fun f => (∃ i, f.call = .onInstall i) ∨ ((f.owner = some f.sender ∧ ((∃ wt b vb, f.call = .updateConnector a wt b vb) ∨ ∃ wt b, f.call = .addConnector a wt b)) ∨
       (f.sender = a ∧ ∃ from_ v d, f.call = .tokenFallback from_ v d ∧ 0 < v))) (by rw [hk]; rintro ⟨⟩) ?_ ?_ ?_
  · rcases key with key | ⟨f, h1, h2, h3⟩
    · omega
    · refine ⟨f, h1, h2, h3.resolve_left ?_⟩
      rintro ⟨i, hi⟩
      exact tx_noInstall (by rw [hk]; simp [Kind.isOwned]) h1 h2 i hi
  · intro _ _ hs; rw [hs.conv]
  · intro _ _ _ h1 h2; exact h2.trans h1
  · intro f u u' hu hf hl
    by_cases hi : ∃ i, f.call = .onInstall i
    · exact .inr (.inl hi)
    cases hl with
    | conv c' _ hc =>
      rw [hf] at hc ⊢
      rw [setConv_conv_same]
      cases hc with
      | addConnector t wt b h1 =>
        by_cases e : a = t
        · subst e
          rcases h1 with h1 | ⟨tk, r, mf, h1, _⟩
          · exact .inr (.inr (.inl ⟨h1.2, .inr ⟨wt, b, h1.1⟩⟩))
          · exact absurd ⟨_, h1⟩ hi
        · left; simp [upd_apply, e]
      | updateConnector t wt b vb h1 h2 =>
        by_cases e : a = t
        · subst e; exact .inr (.inr (.inl ⟨h2, .inl ⟨wt, b, vb, h1⟩⟩))
        · left; simp [upd_apply, e]
      | setPurchase => left; simp only [upd_apply]; split <;> simp_all
      | addVirtual from_ v d h1 h2 =>
        by_cases e : a = f.sender
        · exact .inr (.inr (.inr ⟨e.symm, from_, v, d, h1, h2⟩))
        · left; simp [upd_apply, e]
      | subVirtual from_ v d t m r h1 h2 h3 h4 h5 =>
        left; simp only [upd_apply]; split
        · subst_vars; simp only; omega
        · omega
      | _ => exact .inl (Int.le_refl _)
    | nominateManager m => left; rw [hf]; simp
    | acceptManager => left; rw [hf]; simp
    | _ => exact .inl (Int.le_refl _)

/-- C32. If a connector's virtual balance goes down in a transaction, then in it the owner called `updateConnector` on it, or
a conversion into this connector was requested (`tokenFallback` whose data names the connector as target). -/
theorem C32_decrease (hw : Reachable w) (hk : w.kind T = .conv)
    (h : (((tx.apply orc fuel w).conv T).connectors a).virtualBalance < ((w.conv T).connectors a).virtualBalance) :
    ∃ f, Called w (tx.apply orc fuel w) f ∧ f.to = T ∧
      ((f.owner = some f.sender ∧ ∃ wt b vb, f.call = .updateConnector a wt b vb) ∨
       ∃ from_ v d m, f.call = .tokenFallback from_ v d ∧ 0 < v ∧ Converter.parseRequest d = some (a, m)) := by
  have hb := (hw.convInv T).blank a
  have key := (tx_steps orc fuel tx w).blame (T := T)
    (R := fun u u' => (((u.conv T).connectors a).isSet = false → (u.conv T).connectors a = {}) →
      ((u.conv T).connectors a).virtualBalance ≤ ((u'.conv T).connectors a).virtualBalance ∧
      (((u'.conv T).connectors a).isSet = false → (u'.conv T).connectors a = {}))
    (P := fun f => (∃ i, f.call = .onInstall i) ∨ ((f.owner = some f.sender ∧ ∃ wt b vb, f.call = .updateConnector a wt b vb) ∨
       ∃ from_ v d m, f.call = .tokenFallback from_ v d ∧ 0 < v ∧ Converter.parseRequest d = some (a, m))) (by rw [hk]; rintro ⟨⟩) ?_ ?_ ?_
  · rcases key with key | ⟨f, h1, h2, h3⟩
    · have := (key hb).1; omega
    · refine ⟨f, h1, h2, h3.resolve_left ?_⟩
      rintro ⟨i, hi⟩
      exact tx_noInstall (by rw [hk]; simp [Kind.isOwned]) h1 h2 i hi
  · intro _ _ hs; rw [hs.conv]; exact fun h => ⟨Int.le_refl _, h⟩
  · intro _ _ _ h1 h2 h3
    obtain ⟨h4, h5⟩ := h1 h3
    obtain ⟨h6, h7⟩ := h2 h5
    exact ⟨h4.trans h6, h7⟩
  · intro f u u' hu hf hl
    by_cases hi : ∃ i, f.call = .onInstall i
    · exact .inr (.inl hi)
    cases hl with
    | conv c' _ hc =>
      rw [hf] at hc ⊢
      rw [setConv_conv_same]
      cases hc with
      | addConnector t wt b h1 _ _ _ _ _ hset =>
        left; intro h0
        simp only [upd_apply]
        split
        · subst_vars; rw [h0 hset]; simp
        · exact ⟨Int.le_refl _, h0⟩
      | updateConnector t wt b vb h1 h2 =>
        by_cases e : a = t
        · subst e; exact .inr (.inr (.inl ⟨h2, wt, b, vb, h1⟩))
        · left; simp [upd_apply, e]
      | setPurchase => left; intro h0; simp only [upd_apply]; split <;> simp_all
      | addVirtual from_ v d h1 h2 hv =>
        by_cases e : a = f.sender
        · left; subst e; intro h0
          simp only [upd_apply, if_true]
          refine ⟨by omega, fun hs => ?_⟩
          exact absurd hv (by rw [h0 hs]; decide)
        · left; simp [upd_apply, e]
      | subVirtual from_ v d t m r h1 h2 h3 h4 h5 =>
        by_cases e : a = t
        · subst e; exact .inr (.inr (.inr ⟨from_, v, d, m, h1, h2, h3⟩))
        · left; simp [upd_apply, e]
      | _ => exact .inl fun h => ⟨Int.le_refl _, h⟩
    | nominateManager m => left; rw [hf]; simp
    | acceptManager => left; rw [hf]; simp
    | _ => exact .inl fun h => ⟨Int.le_refl _, h⟩

/-- C32. If a connector's virtual balance becomes negative in a transaction, the owner set it to a negative value with
`updateConnector` in it: conversions never make it negative. -/
theorem C32_never_negative (hk : w.kind T = .conv) (h0 : 0 ≤ ((w.conv T).connectors a).virtualBalance)
    (h : (((tx.apply orc fuel w).conv T).connectors a).virtualBalance < 0) :
    ∃ f wt b vb, Called w (tx.apply orc fuel w) f ∧ f.to = T ∧ f.owner = some f.sender ∧
      f.call = .updateConnector a wt b vb ∧ vb < 0 := by
  have key := (tx_steps orc fuel tx w).blame (T := T)
    (R := fun u u' => 0 ≤ ((u.conv T).connectors a).virtualBalance → 0 ≤ ((u'.conv T).connectors a).virtualBalance)
    (P := fun f => ∃ wt b vb, f.owner = some f.sender ∧ f.call = .updateConnector a wt b vb ∧ vb < 0) (by rw [hk]; rintro ⟨⟩) ?_ ?_ ?_
  · rcases key with key | ⟨f, h1, h2, wt, b, vb, h3⟩
    · have := key h0; omega
    · exact ⟨f, wt, b, vb, h1, h2, h3⟩
  · intro _ _ hs; rw [hs.conv]; exact id
  · intro _ _ _ h1 h2 h3; exact h2 (h1 h3)
  · intro f u u' hu hf hl
    cases hl with
    | conv c' _ hc =>
      rw [hf] at hc ⊢
      rw [setConv_conv_same]
      cases hc with
      | addConnector t wt b h1 => left; intro h0; simp only [upd_apply]; split <;> simp_all
      | updateConnector t wt b vb h1 h2 =>
        by_cases e : a = t
        · subst e
          by_cases hn : vb < 0
          · exact .inr ⟨wt, b, vb, h2, h1, hn⟩
          · left; intro _; simp [upd_apply]; omega
        · left; simp [upd_apply, e]
      | setPurchase => left; intro h0; simp only [upd_apply]; split <;> simp_all
      | addVirtual from_ v d h1 h2 hv =>
        left; intro h0; simp only [upd_apply]; split
        · subst_vars; simp only; omega
        · exact h0
      | subVirtual from_ v d t m r h1 h2 h3 h4 h5 h6 h7 =>
        left; intro h0; simp only [upd_apply]; split
        · subst_vars; simp only; omega
        · exact h0
      | _ => exact .inl id
    | nominateManager m => left; rw [hf]; simp
    | acceptManager => left; rw [hf]; simp
    | _ => exact .inl id

end

/-- The ready ledger after the owner gave the ICX token connector a virtual balance. -/
def virtualLedger : World := Scenario.run [.call Scenario.owner Scenario.conv 0 (.updateConnector Scenario.icxt 250000 true 40000)] ready

set_option maxRecDepth 100000 in
example : virtualLedger.kind Scenario.conv = .conv ∧ ((virtualLedger.conv Scenario.conv).connectors Scenario.icxt).virtualBalance = 40000 := by
  decide +kernel

set_option maxRecDepth 100000 in
/-- A purchase with the virtual connector raises its virtual balance by the deposit (100). -/
example : let w := Scenario.run [Scenario.trade [Scenario.icxt, Scenario.flex, Scenario.flex] 100 1] virtualLedger
    ((w.conv Scenario.conv).connectors Scenario.icxt).virtualBalance = 40100 := by decide +kernel

set_option maxRecDepth 100000 in
/-- A sale for the virtual connector lowers its virtual balance by the payout. -/
example : let w := Scenario.run [Scenario.trade [Scenario.flex, Scenario.flex, Scenario.icxt] 100 1] virtualLedger
    ((w.conv Scenario.conv).connectors Scenario.icxt).virtualBalance = 39842 := by decide +kernel

set_option maxRecDepth 100000 in
/-- The owner may set a negative virtual balance. -/
example : let w := Scenario.run [.call Scenario.owner Scenario.conv 0 (.updateConnector Scenario.icxt 250000 true (-5))] ready
    ((w.conv Scenario.conv).connectors Scenario.icxt).virtualBalance = -5 := by decide +kernel

end Verif

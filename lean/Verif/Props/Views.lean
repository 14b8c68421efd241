import Verif.Props.Events
/-!
Properties C55, C56: the converter's control over its flexible token, and the read-only methods.
-/
set_option linter.unusedSimpArgs false
set_option autoImplicit false
namespace Verif

open Scenario (ready ready_reachable ready2 ready2_reachable alice bob owner network)

section
variable {w w' : World} {s T t a : Addr} {v : Int} {x : Val} {n : Nat} {orc : Oracle} {b : Bool}

/-! ### C55 -/

/-- The four orders a converter passes on to its flexible token. -/
inductive Passes : Call → Call → Prop
  | transferOwnership (a : Addr) : Passes (.transferTokenOwnership a) (.transferOwnerShip a)
  | acceptOwnership : Passes .acceptTokenOwnership .acceptOwnerShip
  | disableTransfers (b : Bool) : Passes (.disableTokenTransfers b) (.disableTransfer b)
  | withdraw (tok dst : Addr) (v : Int) : Passes (.withdrawFromToken tok dst v) (.withdrawTokens tok dst v)

/-- C55. Whatever contract is behind the converter: it takes these orders from its owner only, and passes on exactly the
corresponding order to its token, in its own name, and without coin; it succeeds exactly if the token obeys. -/
theorem C55_passed_on {c c' : Call} (hc : Passes c c') (hk : w.kind T = .conv) :
    exec orc (n + 1) s T v c w = .ok (x, w') ↔
    v = 0 ∧ 0 ≤ w.coin s ∧ x = .unit ∧ (w.own T).owner = some s ∧
      ∃ t y, (w.conv T).token = some t ∧ exec orc n T t 0 c' (w.note s T 0 c) = .ok (y, w') := by
  have key : ∀ {cx : Ctx} {u u' : World} (hcx : cx.call = exec orc n cx.self),
      ((do Owned.requireOwnerOnly cx
           let t ← Controller.token cx
           let _ ← cx.call t 0 c') : M Unit) u = .ok ((), u') ↔
        (u.own cx.self).owner = some cx.sender ∧ ∃ t y, (u.conv cx.self).token = some t ∧ exec orc n cx.self t 0 c' u = .ok (y, u') := by
    intro cx u u' hcx
    simp only [Owned.requireOwnerOnly, Controller.token, okk, hcx]
    cases hT : (u.conv cx.self).token with
    | none => simp [okk]
    | some t =>
      simp only [okk, eq_comm (a := some cx.sender)]
      refine and_congr_right fun _ => ?_
      rw [okk_bind]
      constructor
      · rintro ⟨y, u1, h, h'⟩
        cases h'
        exact ⟨t, y, rfl, h⟩
      · rintro ⟨t', y, h2, h3⟩
        cases h2
        exact ⟨y, u', h3, rfl⟩
  cases hc with
  | transferOwnership a =>
    rw [ok_exec_convUnit (m := fun cx => Controller.transferTokenOwnership cx a) hk rfl]
    have := key (cx := { fr := mkFrame w s T v (.transferTokenOwnership a), call := exec orc n T }) (u := w.note s T 0 (.transferTokenOwnership a)) (u' := w') rfl
    rw [Controller.transferTokenOwnership, this]; rfl
  | acceptOwnership =>
    rw [ok_exec_convUnit (m := fun cx => Controller.acceptTokenOwnership cx) hk rfl]
    have := key (cx := { fr := mkFrame w s T v .acceptTokenOwnership, call := exec orc n T }) (u := w.note s T 0 .acceptTokenOwnership) (u' := w') rfl
    rw [Controller.acceptTokenOwnership, this]; rfl
  | disableTransfers b =>
    rw [ok_exec_convUnit (m := fun cx => Controller.disableTokenTransfers cx b) hk rfl]
    have := key (cx := { fr := mkFrame w s T v (.disableTokenTransfers b), call := exec orc n T }) (u := w.note s T 0 (.disableTokenTransfers b)) (u' := w') rfl
    rw [Controller.disableTokenTransfers, this]; rfl
  | withdraw tok dst m =>
    rw [ok_exec_convUnit (m := fun cx => Controller.withdrawFromToken cx tok dst m) hk rfl]
    have := key (cx := { fr := mkFrame w s T v (.withdrawFromToken tok dst m), call := exec orc n T }) (u := w.note s T 0 (.withdrawFromToken tok dst m)) (u' := w') rfl
    rw [Controller.withdrawFromToken, this]; rfl

/-- C55. Anybody but the owner fails. -/
theorem C55_owner_only {c c' : Call} (hc : Passes c c') (hk : w.kind T = .conv) (h : (w.own T).owner ≠ some s) : Fails w s T v c := by
  intro orc n x w' e
  cases n with
  | zero => exact exec_zero e
  | succ n => rw [C55_passed_on hc hk] at e; exact h e.2.2.2.1

/-- C55. Taking over the flexible token: works exactly if the converter was nominated, which makes the converter its owner. -/
theorem C55_acceptTokenOwnership (hk : w.kind T = .conv) (ht : (w.conv T).token = some t) (hf : (w.kind t).isOwned) (hs : 0 ≤ w.coin s)
    (hT : 0 ≤ w.coin T) :
    exec orc (n + 2) s T 0 .acceptTokenOwnership w = .ok (x, w') ↔
    ((w.own T).owner = some s ∧ (w.own t).newOwner = some T) ∧ x = .unit ∧
      w' = (((w.note s T 0 .acceptTokenOwnership).note T t 0 .acceptOwnerShip).addLog t (.OwnerUpdate (w.own t).owner (some T))).setOwn t
        { owner := some T, newOwner := some ZERO } := by
  rw [C55_passed_on .acceptOwnership hk]
  constructor
  · rintro ⟨_, _, h1, h2, t', y, h3, h4⟩
    rw [ht] at h3; cases h3
    rw [ok_exec_acceptOwnerShip (by exact hf)] at h4
    exact ⟨⟨h2, h4.2.1⟩, h1, h4.2.2.2⟩
  · rintro ⟨⟨h1, h2⟩, h3, h4⟩
    refine ⟨rfl, hs, h3, h1, t, .unit, ht, ?_⟩
    rw [ok_exec_acceptOwnerShip (by exact hf)]
    exact ⟨hT, h2, rfl, h4⟩

/-- C55. Offering the flexible token to somebody else: works exactly if the converter owns it. -/
theorem C55_transferTokenOwnership (hk : w.kind T = .conv) (ht : (w.conv T).token = some t) (hf : (w.kind t).isOwned) (hs : 0 ≤ w.coin s)
    (hT : 0 ≤ w.coin T) :
    exec orc (n + 2) s T 0 (.transferTokenOwnership a) w = .ok (x, w') ↔
    ((w.own T).owner = some s ∧ (w.own t).owner = some T ∧ a ≠ T) ∧ x = .unit ∧
      w' = ((w.note s T 0 (.transferTokenOwnership a)).note T t 0 (.transferOwnerShip a)).setOwn t { w.own t with newOwner := some a } := by
  rw [C55_passed_on (.transferOwnership a) hk]
  constructor
  · rintro ⟨_, _, h1, h2, t', y, h3, h4⟩
    rw [ht] at h3; cases h3
    rw [ok_exec_transferOwnerShip (by exact hf)] at h4
    exact ⟨⟨h2, h4.2.1, h4.2.2.1⟩, h1, h4.2.2.2.2⟩
  · rintro ⟨⟨h1, h2, h5⟩, h3, h4⟩
    refine ⟨rfl, hs, h3, h1, t, .unit, ht, ?_⟩
    rw [ok_exec_transferOwnerShip (by exact hf)]
    exact ⟨hT, h2, h5, rfl, h4⟩

/-- C55. Freezing and unfreezing transfers of the flexible token: works exactly if the converter owns it. -/
theorem C55_disableTokenTransfers (hk : w.kind T = .conv) (ht : (w.conv T).token = some t) (hf : w.kind t = .flex) (hs : 0 ≤ w.coin s)
    (hT : 0 ≤ w.coin T) :
    exec orc (n + 2) s T 0 (.disableTokenTransfers b) w = .ok (x, w') ↔
    ((w.own T).owner = some s ∧ (w.own t).owner = some T) ∧ x = .unit ∧
      w' = ((w.note s T 0 (.disableTokenTransfers b)).note T t 0 (.disableTransfer b)).setFlex t { w.flex t with transferable := !b } := by
  rw [C55_passed_on (.disableTransfers b) hk]
  constructor
  · rintro ⟨_, _, h1, h2, t', y, h3, h4⟩
    rw [ht] at h3; cases h3
    rw [ok_exec_disableTransfer (by exact hf)] at h4
    exact ⟨⟨h2, h4.2.1⟩, h1, h4.2.2.2⟩
  · rintro ⟨⟨h1, h2⟩, h3, h4⟩
    refine ⟨rfl, hs, h3, h1, t, .unit, ht, ?_⟩
    rw [ok_exec_disableTransfer (by exact hf)]
    exact ⟨hT, h2, rfl, h4⟩

/-- C55. Rescuing tokens sent to the flexible token: works exactly if the converter owns it, the amount is positive, the
recipient legal, and the rescued token makes the transfer. -/
theorem C55_withdrawFromToken {tok dst : Addr} {m : Int} (hk : w.kind T = .conv) (ht : (w.conv T).token = some t) (hf : w.kind t = .flex)
    (hs : 0 ≤ w.coin s) (hT : 0 ≤ w.coin T) :
    exec orc (n + 2) s T 0 (.withdrawFromToken tok dst m) w = .ok (x, w') ↔
    ((w.own T).owner = some s ∧ (w.own t).owner = some T ∧ 0 < m ∧ dst ≠ t ∧ dst ≠ ZERO) ∧ x = .unit ∧
      ∃ y, exec orc n t tok 0 (.transfer dst m none)
        ((w.note s T 0 (.withdrawFromToken tok dst m)).note T t 0 (.withdrawTokens tok dst m)) = .ok (y, w') := by
  rw [C55_passed_on (.withdraw tok dst m) hk]
  constructor
  · rintro ⟨_, _, h1, h2, t', y, h3, h4⟩
    rw [ht] at h3; cases h3
    rw [ok_exec_withdrawTokens (.inr (.inl (by exact hf)))] at h4
    obtain ⟨_, _, _, h5, h6, h7, h8, h9⟩ := h4
    exact ⟨⟨h2, h5, h6, h7, h8⟩, h1, h9⟩
  · rintro ⟨⟨h1, h2, h5, h6, h7⟩, h3, h4⟩
    refine ⟨rfl, hs, h3, h1, t, .unit, ht, ?_⟩
    rw [ok_exec_withdrawTokens (.inr (.inl (by exact hf)))]
    exact ⟨rfl, hT, rfl, h2, h5, h6, h7, h4⟩

end

set_option maxRecDepth 100000 in
/-- C55: the owner freezes Alice's flexible tokens through the converter and unfreezes them; Alice cannot. -/
example : let frozen := Scenario.run [.call owner Scenario.conv 0 (.disableTokenTransfers true)] ready
    ready.kind Scenario.conv = .conv ∧ (ready.conv Scenario.conv).token = some Scenario.flex ∧ ready.kind Scenario.flex = .flex ∧
    (ready.own Scenario.conv).owner = some owner ∧ (ready.own Scenario.flex).owner = some Scenario.conv ∧
    (frozen.flex Scenario.flex).transferable = false ∧
    ((Scenario.run [.call owner Scenario.conv 0 (.disableTokenTransfers false)] frozen).flex Scenario.flex).transferable = true ∧
    ((Scenario.run [.call alice Scenario.conv 0 (.disableTokenTransfers true)] ready).flex Scenario.flex).transferable = true := by
  decide +kernel

set_option maxRecDepth 100000 in
/-- C55: the owner takes the flexible token back: offers it to herself through the converter and accepts. -/
example : ((Scenario.run [.call owner Scenario.conv 0 (.transferTokenOwnership owner), .call owner Scenario.flex 0 .acceptOwnerShip] ready).own
    Scenario.flex).owner = some owner := by decide +kernel

/-! ### C56 -/

/-- In ledger `w`, call `c` to `T` returns `v` for every caller, whatever third-party code does, logs nothing and changes
nothing. -/
def Reads (w : World) (T : Addr) (c : Call) (v : Val) : Prop :=
  ∀ orc n s, 0 ≤ w.coin s → ∃ w', exec orc (n + 2) s T 0 c w = .ok (v, w') ∧ w.Alike w' ∧ w'.log = w.log

section
variable {w : World} {T t a : Addr}

theorem reads_conv {c : Call} {m : Ctx → M Val} {v : Val} (hk : w.kind T = .conv)
    (hm : ∀ f call, f.call = c → Converter.dispatch { fr := f, call := call } = runNonPayable { fr := f, call := call } (some (m { fr := f, call := call })))
    (hv : ∀ f call u, f.to = T → u.conv T = w.conv T → m { fr := f, call := call } u = .ok (v, u)) : Reads w T c v := by
  intro orc n s hs
  refine ⟨w.note s T 0 c, ?_, (World.Alike.refl w).note, rfl⟩
  rw [ok_exec_conv hk, hm _ _ rfl, ok_runNonPayable]
  refine ⟨⟨Int.le_refl _, hs⟩, rfl, ?_⟩
  rw [enterW_zero]
  exact hv _ _ _ rfl rfl

theorem reads_store {c : Call} {g : ConvSt → Val} (hk : w.kind T = .conv)
    (hm : ∀ f call, f.call = c → Converter.dispatch { fr := f, call := call } = runNonPayable { fr := f, call := call }
      (some (do return g ((← get).conv f.to)))) : Reads w T c (g (w.conv T)) := by
  refine reads_conv (m := fun cx => do return g ((← get).conv cx.self)) hk hm ?_
  intro f call u hf hu; subst hf; rw [← hu]; rfl

/-- C56. The converter's read-only methods answer what its record says. -/
theorem C56_converter (hk : w.kind T = .conv) :
    Reads w T .getToken (.addr (w.conv T).token) ∧
    Reads w T .getManager (.addr (w.conv T).manager) ∧ Reads w T .getNewManager (.addr (w.conv T).newManager) ∧
    Reads w T .getRegistry (.addr (w.conv T).registry) ∧ Reads w T .getPreviousRegistry (.addr (w.conv T).prevRegistry) ∧
    Reads w T .isAllowRegistryUpdate (.bool (w.conv T).allowRegistryUpdate) ∧
    Reads w T .isConversionsEnabled (.bool (w.conv T).enabled) ∧
    Reads w T .getConversionFee (.int (w.conv T).fee) ∧ Reads w T .getMaxConversionFee (.int (w.conv T).maxFee) ∧
    Reads w T .getConnectorTokenCount (.int (w.conv T).connectorTokens.length) := by
  refine ⟨?_, ?_, ?_, ?_, ?_, ?_, ?_, ?_, ?_, ?_⟩
  · exact reads_store (g := fun c => .addr c.token) hk fun f call hf => by cases f; cases hf; rfl
  · exact reads_store (g := fun c => .addr c.manager) hk fun f call hf => by cases f; cases hf; rfl
  · exact reads_store (g := fun c => .addr c.newManager) hk fun f call hf => by cases f; cases hf; rfl
  · exact reads_store (g := fun c => .addr c.registry) hk fun f call hf => by cases f; cases hf; rfl
  · exact reads_store (g := fun c => .addr c.prevRegistry) hk fun f call hf => by cases f; cases hf; rfl
  · exact reads_store (g := fun c => .bool c.allowRegistryUpdate) hk fun f call hf => by cases f; cases hf; rfl
  · exact reads_store (g := fun c => .bool c.enabled) hk fun f call hf => by cases f; cases hf; rfl
  · exact reads_store (g := fun c => .int c.fee) hk fun f call hf => by cases f; cases hf; rfl
  · exact reads_store (g := fun c => .int c.maxFee) hk fun f call hf => by cases f; cases hf; rfl
  · exact reads_store (g := fun c => .int c.connectorTokens.length) hk fun f call hf => by cases f; cases hf; rfl

theorem getConnectorAt_range {cx : Ctx} {i : Int} {u u' : World} (h : Converter.getConnectorAt cx i u = .ok (a, u')) :
    -(u.conv cx.self).connectorTokens.length ≤ i ∧ i < (u.conv cx.self).connectorTokens.length := by
  revert h
  change (fun (l : List Addr) => (if 0 ≤ (if i < 0 then i + (l.length : Int) else i) then
      match l[(if i < 0 then i + (l.length : Int) else i).toNat]? with
      | some a => pure a
      | none => fail (.python "ArrayDB out of index")
    else fail (.python "ArrayDB out of index") : M Addr) u = .ok (a, u') → -(l.length : Int) ≤ i ∧ i < l.length) (u.conv cx.self).connectorTokens
  generalize (u.conv cx.self).connectorTokens = l
  intro h
  by_cases h1 : i < 0
  · by_cases h2 : 0 ≤ i + (l.length : Int)
    · omega
    · simp only [h1, if_true, h2, if_false] at h; cases h
  · by_cases h3 : i < l.length
    · omega
    · have h4 : l[i.toNat]? = none := List.getElem?_eq_none (by omega)
      have h2 : 0 ≤ i := by omega
      simp only [h1, if_true, h2, if_false, h4] at h; cases h

/-- C21, C56. `getConnectorAt(i)` answers the `i`-th connector; a negative index counts from the end of the list; every other
index is refused. -/
theorem C21_getConnectorAt (hk : w.kind T = .conv) :
    (∀ (i : Nat) (a : Addr), (w.conv T).connectorTokens[i]? = some a → Reads w T (.getConnectorAt i) (.addr (some a))) ∧
    (∀ (i : Nat) (a : Addr), (w.conv T).connectorTokens.reverse[i]? = some a → Reads w T (.getConnectorAt (-(i + 1))) (.addr (some a))) ∧
    (∀ i : Int, (i < -(w.conv T).connectorTokens.length ∨ (w.conv T).connectorTokens.length ≤ i) →
      ∀ s v, Fails w s T v (.getConnectorAt i)) := by
  refine ⟨fun i a hia => ?_, fun i a hia => ?_, fun i hi s v orc n x w' h => ?_⟩
  · refine reads_conv hk (m := fun cx => do return .addr (some (← Converter.getConnectorAt cx i))) ?_ ?_
    · intro f call hf; cases f; cases hf; rfl
    · intro f call u hf hu
      subst hf
      simp only [okk, Converter.getConnectorAt]
      have hn : ¬ ((i : Int) < 0) := by omega
      simp only [Ctx.self, hu, if_neg hn]
      rw [if_pos (by omega : (0 : Int) ≤ (i : Int))]
      simp only [Int.toNat_natCast, hia]
      rfl
  · obtain ⟨hl, _⟩ := List.getElem?_eq_some_iff.mp hia
    rw [List.length_reverse] at hl
    rw [List.getElem?_reverse hl] at hia
    refine reads_conv hk (m := fun cx => do return .addr (some (← Converter.getConnectorAt cx (-(i + 1))))) ?_ ?_
    · intro f call hf; cases f; cases hf; rfl
    · intro f call u hf hu
      subst hf
      simp only [okk, Converter.getConnectorAt]
      have hn : (-((i : Int) + 1) < 0) := by omega
      simp only [Ctx.self, hu, if_pos hn]
      rw [if_pos (by omega)]
      have he : (-((i : Int) + 1) + ((w.conv f.to).connectorTokens.length : Int)).toNat = (w.conv f.to).connectorTokens.length - 1 - i := by omega
      rw [he, hia]
      rfl
  · cases n with
    | zero => cases h
    | succ n =>
      rw [ok_exec_convView (m := fun cx => do return .addr (some (← Converter.getConnectorAt cx i))) hk rfl] at h
      obtain ⟨_, _, h⟩ := h
      rw [okk_bind] at h
      obtain ⟨a, u, h, _⟩ := h
      have := getConnectorAt_range h
      simp only [Ctx.self, note_conv, mkFrame_to] at this
      omega

/-- C56. `getConnector` answers the record of a connector, and nothing for any other address. -/
theorem C56_getConnector (hk : w.kind T = .conv) :
    Reads w T (.getConnector a) (.conn (if ((w.conv T).connectors a).isSet then some ((w.conv T).connectors a) else none)) := by
  refine reads_conv hk (m := fun cx => do
      let c ← Converter.connector cx a
      return .conn (if c.isSet then some c else none)) ?_ ?_
  · intro f call hf; cases f; cases hf; rfl
  · intro f call u hf hu; subst hf
    simp only [okk, Converter.connector, Ctx.self, hu]

/-- C56. `getOwner` and `getNewOwner` of every owned contract answer what its record says. -/
theorem C56_owned (hk : (w.kind T).isOwned) :
    Reads w T .getOwner (.addr (w.own T).owner) ∧ Reads w T .getNewOwner (.addr (w.own T).newOwner) := by
  constructor
  · intro orc n s hs
    exact ⟨_, (ok_exec_getOwner hk).mpr ⟨hs, rfl, rfl⟩, (World.Alike.refl w).note, rfl⟩
  · intro orc n s hs
    refine ⟨w.note s T 0 .getNewOwner, ?_, (World.Alike.refl w).note, rfl⟩
    rw [ok_exec_owned hk rfl]
    exact ⟨hs, rfl⟩

/-- C56. The tokens' read-only methods answer what their record says. -/
theorem C56_token (hk : (w.kind T).isToken) :
    Reads w T .name (.str (w.tok T).name) ∧ Reads w T .symbol (.str (w.tok T).symbol) ∧ Reads w T .decimals (.int (w.tok T).decimals) ∧
    Reads w T .totalSupply (.int (w.tok T).supply) ∧ Reads w T (.balanceOf a) (.int ((w.tok T).bal a)) := by
  have key : ∀ c (y : TokSt → Val), (∀ cx, IRCToken.dispatchViews cx c = some (do return y ((← get).tok cx.self))) → Reads w T c (y (w.tok T)) := by
    intro c y hc orc n s hs
    exact ⟨_, (ok_exec_tokView hk hc).mpr ⟨hs, rfl, rfl⟩, (World.Alike.refl w).note, rfl⟩
  exact ⟨key _ (fun t => .str t.name) fun _ => rfl, key _ (fun t => .str t.symbol) fun _ => rfl, key _ (fun t => .int t.decimals) fun _ => rfl,
    key _ (fun t => .int t.supply) fun _ => rfl, key _ (fun t => .int (t.bal a)) fun _ => rfl⟩

/-- C56. A flexible token says whether it can be transferred. -/
theorem C56_flexible (hk : w.kind T = .flex) :
    Reads w T .getTransferPossibility (.bool (w.flex T).transferable) ∧ Reads w T .getFlexibleTokenVersion (.str (w.flex T).version) := by
  constructor
  · intro orc n s hs
    refine ⟨w.note s T 0 .getTransferPossibility, ?_, (World.Alike.refl w).note, rfl⟩
    rw [ok_exec_flex hk]
    exact ⟨⟨Int.le_refl _, hs⟩, by rw [enterW_zero]; rfl⟩
  · intro orc n s hs
    refine ⟨w.note s T 0 .getFlexibleTokenVersion, ?_, (World.Alike.refl w).note, rfl⟩
    rw [ok_exec_flex hk]
    exact ⟨⟨Int.le_refl _, hs⟩, by rw [enterW_zero]; rfl⟩

/-- C56. The registry and the network. -/
theorem C56_registry_network :
    (w.kind T = .reg → ∀ name, Reads w T (.getAddress name) (.addr (some ((w.reg T name).getD ZERO)))) ∧
    (w.kind T = .reg → Reads w T .getScoreIds (.strs ScoreRegistry.SCORE_KEYS)) ∧
    (w.kind T = .net → Reads w T (.getIcxTokenRegistered a) (.bool (w.net T a))) := by
  refine ⟨fun hk name => ?_, fun hk => ?_, fun hk => ?_⟩
  · intro orc n s hs
    exact ⟨_, (ok_exec_getAddress hk).mpr ⟨rfl, hs, rfl, rfl⟩, (World.Alike.refl w).note, rfl⟩
  · intro orc n s hs
    refine ⟨w.note s T 0 .getScoreIds, ?_, (World.Alike.refl w).note, rfl⟩
    rw [ok_exec_reg hk]
    exact ⟨⟨Int.le_refl _, hs⟩, by rw [enterW_zero]; rfl⟩
  · intro orc n s hs
    refine ⟨w.note s T 0 (.getIcxTokenRegistered a), ?_, (World.Alike.refl w).note, rfl⟩
    rw [ok_exec_net hk]
    exact ⟨⟨Int.le_refl _, hs⟩, by rw [enterW_zero]; rfl⟩

/-- C56. `isActive` says whether the converter owns its flexible token. -/
theorem C56_isActive (hr : Reachable w) (hk : w.kind T = .conv) (ht : (w.conv T).token = some t) (hf : (w.kind t).isOwned) :
    Reads w T .isActive (.bool (decide ((w.own t).owner = some T))) := by
  intro orc n s hs
  have hT := hr.basic.coin_nonneg T
  refine ⟨(w.note s T 0 .isActive).note T t 0 .getOwner, ?_, (World.Alike.refl w).note.note, rfl⟩
  rw [ok_exec_convView (m := fun cx => do return .bool (← Controller.isActive cx)) hk rfl]
  refine ⟨rfl, hs, ?_⟩
  have h1 : exec orc (n + 1) T t 0 .getOwner (w.note s T 0 .isActive) = .ok (.addr (w.own t).owner, (w.note s T 0 .isActive).note T t 0 .getOwner) :=
    (ok_exec_getOwner (by exact hf)).mpr ⟨hT, rfl, rfl⟩
  rw [okk_bind]
  refine ⟨_, _, ok_isActive.mpr ⟨t, _, ht, h1, rfl⟩, ?_⟩
  change Except.ok _ = _
  congr 3
  change Val.isAddr (.addr (w.own t).owner) T = _
  simp only [Val.isAddr]
  by_cases h : (w.own t).owner = some T
  · simp [h]
  · simp [h]

/-- C56. `getConnectorBalance` answers the recorded balance of a virtual connector and the tokens held for any other. -/
theorem C56_getConnectorBalance (hr : Reachable w) (hk : w.kind T = .conv) (hset : ((w.conv T).connectors a).isSet = true) (ha : (w.kind a).isToken) :
    Reads w T (.getConnectorBalance a) (.int (w.reserve T a)) := by
  intro orc n s hs
  have hT := hr.basic.coin_nonneg T
  refine ⟨(w.note s T 0 (.getConnectorBalance a)).readReserve T a, ?_, (World.Alike.refl w).note.readReserve, ?_⟩
  · rw [ok_exec_convView (m := fun cx => do return .int (← Converter.getConnectorBalance cx a)) hk rfl]
    refine ⟨rfl, hs, ?_⟩
    rw [okk_bind]
    exact ⟨_, _, (ok_getConnectorBalance (n := n) (orc := orc) rfl (by exact hT) (by exact ha)).mpr ⟨hset, rfl, rfl⟩, rfl⟩
  · unfold World.readReserve; split <;> rfl

/-- C56. `getConnectorBalance` of anything that is not a connector fails. -/
theorem C56_no_connector {s : Addr} {v : Int} (hk : w.kind T = .conv) (hset : ((w.conv T).connectors a).isSet = false) :
    Fails w s T v (.getConnectorBalance a) := by
  intro orc n x w' e
  cases n with
  | zero => exact exec_zero e
  | succ n =>
    rw [ok_exec_convView (m := fun cx => do return .int (← Converter.getConnectorBalance cx a)) hk rfl] at e
    obtain ⟨_, _, e⟩ := e
    rw [okk_bind] at e
    obtain ⟨y, u, e, _⟩ := e
    unfold Converter.getConnectorBalance at e
    simp only [okk_bind, ok_requireValidConnector] at e
    obtain ⟨_, _, ⟨e, _⟩, _⟩ := e
    exact absurd (hset.symm.trans e) (by decide)

end

set_option maxRecDepth 100000 in
/-- C56: the hypotheses are met. -/
example : Reachable ready ∧ ready.kind Scenario.conv = .conv ∧ ((ready.conv Scenario.conv).connectors Scenario.irc).isSet = true ∧
    (ready.kind Scenario.irc).isToken ∧ ready.reserve Scenario.conv Scenario.irc = 50000 ∧
    (ready.conv Scenario.conv).token = some Scenario.flex ∧ (ready.own Scenario.flex).owner = some Scenario.conv ∧
    ((ready.conv Scenario.conv).connectors alice).isSet = false ∧
    (ready.conv Scenario.conv).connectorTokens[0]? = some Scenario.irc ∧
    (ready.conv Scenario.conv).connectorTokens.reverse[0]? = some Scenario.icxt ∧ ((ready.conv Scenario.conv).connectorTokens.length : Int) ≤ 2 :=
  ⟨ready_reachable, by decide +kernel⟩

end Verif

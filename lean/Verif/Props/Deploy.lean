import Verif.Props.Conversion
/-!
C57: what a deployment creates, exactly.
-/
set_option autoImplicit false
set_option linter.unusedSimpArgs false
namespace Verif

open Scenario (ready ready_reachable alice bob owner)

variable {orc : Oracle} {n : Nat} {s a : Addr} {w w' : World} {x : Val}

/-- The address is free for a new contract. -/
def Free (w : World) (a : Addr) : Prop := a.isContract = true ∧ a ≠ ZERO ∧ w.kind a = .none

/-- The entry of a deployment in the (ghost) list of calls. -/
def deployment (s a : Addr) (i : Install) : Frame := ⟨s, a, 0, .onInstall i, none, none, false⟩

/-- The storage of an owned contract right after its deployment by `s`. -/
def ownedBy (s : Addr) : OwnSt := { owner := some s, newOwner := some ZERO }

/-- The storage of a new token: the whole supply, `i * 10 ^ d`, belongs to the deployer. -/
def newToken (name symbol : String) (i d : Int) (s : Addr) : TokSt where
  name := name
  symbol := symbol
  decimals := d
  supply := i * 10 ^ d.toNat
  bal := fun b => if b = s then i * 10 ^ d.toNat else 0

theorem free_enter (hw : Reachable w) (h : Free w a) {i : Install} :
    enterW (w.setKind a i.kind) s a 0 (.onInstall i) =
      { w with kind := upd w.kind a i.kind, frames := deployment s a i :: w.frames } := by
  have ho := hw.basic.own a (by rw [h.2.2]; decide)
  have hc := hw.basic.conv a (by rw [h.2.2]; decide)
  rw [enterW_zero]
  simp [World.note, World.setKind, mkFrame, deployment, ho, hc]

theorem deploy_iff (hw : Reachable w) {i : Install} : deploy orc n s a i w = .ok (x, w') ↔ Free w a ∧ x = .unit ∧
    install orc ⟨mkFrame (w.setKind a i.kind) s a 0 (.onInstall i), exec orc n a⟩ i
      { w with kind := upd w.kind a i.kind, frames := deployment s a i :: w.frames } = .ok ((), w') := by
  rw [ok_deploy]
  constructor
  · rintro ⟨h1, _, h2, h3⟩
    rw [free_enter hw h1] at h2
    exact ⟨h1, h3, h2⟩
  · rintro ⟨h1, h3, h2⟩
    rw [← free_enter hw h1] at h2
    exact ⟨h1, hw.basic.coin_nonneg s, h2, h3⟩

theorem ok_ircInstall {cx : Ctx} {name symbol : String} {i d : Int} (ht : w.tok cx.self = {}) :
    IRCToken.onInstall cx name symbol i d w = .ok ((), w') ↔ (0 ≤ i ∧ 0 ≤ d) ∧
    w' = w.setTok cx.self (newToken name symbol i d cx.sender) := by
  simp only [IRCToken.onInstall, okk, Except.ok.injEq, Prod.mk.injEq, true_and, Int.not_lt, and_assoc, ht]
  rw [eq_comm (b := w')]
  rfl

/-- C57, plain token: the deployment succeeds exactly for a non-negative supply and non-negative decimals; the whole supply
belongs to the deployer; nothing else changes. -/
theorem C57_irc (hw : Reachable w) {name symbol : String} {i d : Int} :
    deploy orc n s a (.irc name symbol i d) w = .ok (x, w') ↔ Free w a ∧ x = .unit ∧ (0 ≤ i ∧ 0 ≤ d) ∧
    w' = { w with
      kind := upd w.kind a .irc
      tok := upd w.tok a (newToken name symbol i d s)
      frames := deployment s a (.irc name symbol i d) :: w.frames } := by
  rw [deploy_iff hw]
  refine and_congr_right fun h => and_congr_right fun _ => ?_
  exact ok_ircInstall (hw.basic.tok a (by rw [h.2.2]; decide))

/-- C57, flexible token: as a plain token, and it is owned by the deployer, transferable, and announced by an event. -/
theorem C57_flex (hw : Reachable w) {name symbol : String} {i d : Int} :
    deploy orc n s a (.flex name symbol i d) w = .ok (x, w') ↔ Free w a ∧ x = .unit ∧ (0 ≤ i ∧ 0 ≤ d) ∧
    w' = { w with
      kind := upd w.kind a .flex
      tok := upd w.tok a (newToken name symbol i d s)
      own := upd w.own a (ownedBy s)
      flex := upd w.flex a { version := "0.1", transferable := true }
      log := (a, .NewFlexibleToken a) :: w.log
      frames := deployment s a (.flex name symbol i d) :: w.frames } := by
  rw [deploy_iff hw]
  refine and_congr_right fun h => and_congr_right fun _ => ?_
  have ht := hw.basic.tok a (by rw [h.2.2]; decide)
  simp only [install, FlexibleToken.onInstall, Owned.onInstall]
  rw [okk_bind]
  constructor
  · rintro ⟨⟨⟩, w1, h1, h2⟩
    rw [ok_ircInstall (by exact ht)] at h1
    obtain ⟨h1, rfl⟩ := h1
    simp only [okk, Except.ok.injEq, Prod.mk.injEq, true_and] at h2
    exact ⟨h1, h2.symm⟩
  · rintro ⟨h1, rfl⟩
    refine ⟨(), _, (ok_ircInstall (by exact ht)).mpr ⟨h1, rfl⟩, ?_⟩
    simp only [okk]
    rfl

/-- C57, ICX token: name, symbol, decimals are fixed, and it starts empty. -/
theorem C57_icx (hw : Reachable w) :
    deploy orc n s a .icx w = .ok (x, w') ↔ Free w a ∧ x = .unit ∧
    w' = { w with
      kind := upd w.kind a .icx
      tok := upd w.tok a { name := "ICX Token", symbol := "ICXT", decimals := 18, supply := 0, bal := fun _ => 0 }
      own := upd w.own a (ownedBy s)
      frames := deployment s a .icx :: w.frames } := by
  rw [deploy_iff hw]
  refine and_congr_right fun h => and_congr_right fun _ => ?_
  have ht := hw.basic.tok a (by rw [h.2.2]; decide)
  have he : newToken "ICX Token" "ICXT" 0 18 s =
      { name := "ICX Token", symbol := "ICXT", decimals := 18, supply := 0, bal := fun _ => 0 } := by
    simp [newToken]
  rw [← he]
  simp only [install, IcxToken.onInstall, Owned.onInstall]
  rw [okk_bind]
  constructor
  · rintro ⟨⟨⟩, w1, h1, h2⟩
    rw [ok_ircInstall (by exact ht)] at h1
    obtain ⟨h1, rfl⟩ := h1
    simp only [okk, Except.ok.injEq, Prod.mk.injEq, true_and] at h2
    exact h2.symm
  · rintro rfl
    refine ⟨(), _, (ok_ircInstall (by exact ht)).mpr ⟨by decide, rfl⟩, ?_⟩
    simp only [okk]
    rfl

/-- C57, network: it only has an owner; no ICX token is registered. -/
theorem C57_net (hw : Reachable w) :
    deploy orc n s a .net w = .ok (x, w') ↔ Free w a ∧ x = .unit ∧
    w' = { w with
      kind := upd w.kind a .net
      own := upd w.own a (ownedBy s)
      frames := deployment s a .net :: w.frames } := by
  rw [deploy_iff hw]
  refine and_congr_right fun h => and_congr_right fun _ => ?_
  simp only [install, Owned.onInstall, okk, Except.ok.injEq, Prod.mk.injEq, true_and]
  rw [eq_comm]
  rfl

/-- C57, registry: it is registered in itself, and says so. -/
theorem C57_reg (hw : Reachable w) :
    deploy orc n s a .reg w = .ok (x, w') ↔ Free w a ∧ x = .unit ∧
    w' = { w with
      kind := upd w.kind a .reg
      own := upd w.own a (ownedBy s)
      reg := upd w.reg a (fun name => if name = "ScoreRegistry" then some a else none)
      log := (a, .AddressUpdate "ScoreRegistry" a) :: w.log
      frames := deployment s a .reg :: w.frames } := by
  rw [deploy_iff hw]
  refine and_congr_right fun h => and_congr_right fun _ => ?_
  have hr := hw.basic.reg a (by rw [h.2.2]; decide)
  simp only [install, ScoreRegistry.onInstall, Owned.onInstall]
  rw [okk_bind]
  have he : upd (w.reg a) "ScoreRegistry" (some a) = fun name => if name = "ScoreRegistry" then some a else none := by
    rw [hr]; rfl
  rw [← he]
  constructor
  · rintro ⟨_, w1, h1, h2⟩
    simp only [okk, Except.ok.injEq, Prod.mk.injEq, true_and] at h1
    subst h1
    rw [ok_registerAddress] at h2
    exact (Prod.mk.inj h2.2.2.2.2).2
  · rintro rfl
    refine ⟨(), _, by simp only [okk]; rfl, ?_⟩
    rw [ok_registerAddress]
    exact ⟨by simp [Ctx.self, Ctx.sender], h.2.1, h.1, by decide, rfl⟩

/-- The storage of a new converter: everything allowed and enabled, no fee, no manager, no connector. -/
def newConverter (token registry : Addr) (maxFee : Int) : ConvSt where
  token := some token
  registry := some registry
  prevRegistry := some registry
  allowRegistryUpdate := true
  enabled := true
  maxFee := maxFee
  fee := 0
  connectorTokens := []
  totalWeight := 0
  connectors := fun _ => {}
  manager := none
  newManager := none

theorem ok_convInstall {cx : Ctx} {t r ct : Option Addr} {m cw : Int} (hc : w.conv cx.self = {}) :
    Converter.onInstall cx t r m ct cw w = .ok ((), w') ↔ (0 ≤ m ∧ m ≤ 1000000) ∧
    ∃ t' r', (t = some t' ∧ t' ≠ ZERO) ∧ (r = some r' ∧ r' ≠ ZERO) ∧
    ((∀ c, ct = some c → c = ZERO) ∧ w' = (w.setOwn cx.self (ownedBy cx.sender)).setConv cx.self (newConverter t' r' m) ∨
     ∃ c, ct = some c ∧ c ≠ ZERO ∧ Converter.addConnector cx c cw false
       ((w.setOwn cx.self (ownedBy cx.sender)).setConv cx.self (newConverter t' r' m)) = .ok ((), w')) := by
  have hv : ∀ o : Option Addr, isValidAddress o = true ↔ ∃ b, o = some b ∧ b ≠ ZERO := by
    intro o
    cases o with
    | none => simp [isValidAddress]
    | some b => rw [valid_iff]; simp
  simp only [Converter.onInstall, Controller.onInstall, Owned.onInstall, okk]
  simp only [Converter.MAX_CONVERSION_FEE, hv, setConv_setConv, setConv_conv_same]
  have hc' : (w.setOwn cx.self { owner := some cx.sender, newOwner := some ZERO }).conv cx.self = {} := hc
  rw [hc']
  constructor
  · rintro ⟨⟨r', rfl, hr⟩, hm, ⟨t', rfl, ht⟩, h⟩
    refine ⟨hm, t', r', ⟨rfl, ht⟩, ⟨rfl, hr⟩, ?_⟩
    cases ct with
    | none =>
      simp only [okk, Except.ok.injEq, Prod.mk.injEq, true_and] at h
      exact .inl ⟨nofun, h.symm⟩
    | some c =>
      by_cases hz : c = ZERO
      · simp only [hz] at h
        simp [okk, Except.ok.injEq, Prod.mk.injEq, true_and] at h
        exact .inl ⟨by rintro _ ⟨⟩; exact hz, h.symm⟩
      · refine .inr ⟨c, rfl, hz, ?_⟩
        simp only [Option.some.injEq, exists_eq_left', ne_eq, hz, not_false_eq_true, if_true] at h
        exact h
  · rintro ⟨hm, t', r', ⟨rfl, ht⟩, ⟨rfl, hr⟩, h⟩
    refine ⟨⟨r', rfl, hr⟩, hm, ⟨t', rfl, ht⟩, ?_⟩
    obtain ⟨h, rfl⟩ | ⟨c, rfl, hz, h⟩ := h
    · cases ct with
      | none => rfl
      | some c =>
        have hz := h c rfl
        simp only [hz]
        simp [okk]
        rfl
    · simp only [Option.some.injEq, exists_eq_left', ne_eq, hz, not_false_eq_true, if_true]
      exact h

/-- C57, converter without a first connector. -/
theorem C57_conv_bare (hw : Reachable w) {t r ct : Option Addr} {m cw : Int} (hct : ∀ c, ct = some c → c = ZERO) :
    deploy orc n s a (.conv t r m ct cw) w = .ok (x, w') ↔ Free w a ∧ x = .unit ∧ (0 ≤ m ∧ m ≤ 1000000) ∧
    ∃ t' r', (t = some t' ∧ t' ≠ ZERO) ∧ (r = some r' ∧ r' ≠ ZERO) ∧
    w' = { w with
      kind := upd w.kind a .conv
      own := upd w.own a (ownedBy s)
      conv := upd w.conv a (newConverter t' r' m)
      frames := deployment s a (.conv t r m ct cw) :: w.frames } := by
  rw [deploy_iff hw]
  refine and_congr_right fun h => and_congr_right fun _ => ?_
  simp only [install]
  rw [ok_convInstall (hw.basic.conv a (by rw [h.2.2]; decide))]
  refine and_congr_right fun _ => exists_congr fun t' => exists_congr fun r' => and_congr_right fun _ => and_congr_right fun _ => ?_
  constructor
  · rintro (⟨_, rfl⟩ | ⟨c, e, hz, _⟩)
    · rfl
    · exact absurd (hct c e) hz
  · intro e; exact .inl ⟨hct, e⟩

theorem ok_inactive {cx : Ctx} {t : Addr} {b : Bool} (ht : (w.conv cx.self).token = some t)
    (hcall : cx.call = exec orc (n + 1) cx.self) (hk : (w.kind t).isOwned) (hno : (w.own t).owner ≠ some cx.self)
    (hcoin : 0 ≤ w.coin cx.self) :
    Controller.isActive cx w = .ok (b, w') ↔ b = false ∧ w' = w.note cx.self t 0 .getOwner := by
  have hb : (Val.addr (w.own t).owner).isAddr cx.self = false := by
    rw [← Bool.not_eq_true, Val.isAddr_addr]; exact hno
  rw [ok_isActive]
  constructor
  · rintro ⟨t', y, h1, h2, rfl⟩
    rw [ht] at h1; cases h1
    rw [hcall, ok_exec_getOwner (by simpa using hk)] at h2
    obtain ⟨_, rfl, rfl⟩ := h2
    exact ⟨hb, rfl⟩
  · rintro ⟨rfl, rfl⟩
    refine ⟨t, _, ht, ?_, hb.symm⟩
    rw [hcall, ok_exec_getOwner (by simpa using hk)]
    exact ⟨hcoin, rfl, rfl⟩

/-- C57, converter with a first connector, for a flexible (or other owned) token of this code base. -/
theorem C57_conv (hw : Reachable w) {t : Addr} {r : Option Addr} {m cw : Int} {c : Addr} (hct : c ≠ ZERO)
    (hkt : (w.kind t).isOwned) :
    deploy orc (n + 1) s a (.conv (some t) r m (some c) cw) w = .ok (x, w') ↔ Free w a ∧ x = .unit ∧ (0 ≤ m ∧ m ≤ 1000000) ∧
    ∃ r', (r = some r' ∧ r' ≠ ZERO) ∧ c ≠ a ∧ c ≠ t ∧ (0 < cw ∧ cw ≤ 1000000) ∧
    w' = { w with
      kind := upd w.kind a .conv
      own := upd w.own a (ownedBy s)
      conv := upd w.conv a { newConverter t r' m with
        connectorTokens := [c]
        totalWeight := cw
        connectors := fun b => if b = c then
          { virtualBalance := 0, weight := cw, isVirtual := false, isPurchaseEnabled := true, isSet := true } else {} }
      frames := ⟨a, t, 0, .getOwner, (w.own t).owner, (w.conv t).manager, (w.conv t).allowRegistryUpdate⟩ ::
        deployment s a (.conv (some t) r m (some c) cw) :: w.frames } := by
  rw [deploy_iff hw]
  refine and_congr_right fun h => and_congr_right fun _ => ?_
  simp only [install]
  rw [ok_convInstall (hw.basic.conv a (by rw [h.2.2]; decide))]
  refine and_congr_right fun _ => ?_
  have hta : t ≠ a := by rintro rfl; rw [h.2.2] at hkt; exact absurd hkt (by decide)
  have htz : t ≠ ZERO := by rintro rfl; rw [hw.basic.zero] at hkt; exact absurd hkt (by decide)
  have hno : (w.own t).owner ≠ some a := fun e => (hw.ownInv.owner t a e).1 h.1 h.2.2
  have hact : ∀ (r' : Addr) (b : Bool) (w1 : World), Controller.isActive
      ⟨mkFrame (w.setKind a (Install.conv (some t) r m (some c) cw).kind) s a 0
        (.onInstall (.conv (some t) r m (some c) cw)), exec orc (n + 1) a⟩
      ((({ w with kind := upd w.kind a .conv, frames := deployment s a (.conv (some t) r m (some c) cw) :: w.frames } :
        World).setOwn a (ownedBy s)).setConv a (newConverter t r' m)) = .ok (b, w1) ↔ b = false ∧
      w1 = ((({ w with kind := upd w.kind a .conv, frames := deployment s a (.conv (some t) r m (some c) cw) :: w.frames } :
        World).setOwn a (ownedBy s)).setConv a (newConverter t r' m)).note a t 0 .getOwner := by
    intro r' b w1
    refine ok_inactive (orc := orc) (n := n) ?_ rfl ?_ ?_ (hw.basic.coin_nonneg a)
    · show ((World.setConv _ a _).conv a).token = _
      rw [setConv_conv_same]; rfl
    · show (upd w.kind a .conv t).isOwned
      rw [upd_ne _ _ hta]; exact hkt
    · show (upd w.own a (ownedBy s) t).owner ≠ some a
      rw [upd_ne _ _ hta]; exact hno
  have hfin : ∀ r' : Addr, (((((({ w with kind := upd w.kind a .conv, frames := deployment s a (.conv (some t) r m (some c) cw) :: w.frames } :
        World).setOwn a (ownedBy s)).setConv a (newConverter t r' m)).note a t 0 .getOwner)).setConv a
      { newConverter t r' m with
        connectors := upd (newConverter t r' m).connectors c
          { virtualBalance := 0, weight := cw, isVirtual := false, isPurchaseEnabled := true, isSet := true }
        connectorTokens := (newConverter t r' m).connectorTokens ++ [c]
        totalWeight := (newConverter t r' m).totalWeight + cw }) =
    { w with
      kind := upd w.kind a .conv
      own := upd w.own a (ownedBy s)
      conv := upd w.conv a { newConverter t r' m with
        connectorTokens := [c]
        totalWeight := cw
        connectors := fun b => if b = c then
          { virtualBalance := 0, weight := cw, isVirtual := false, isPurchaseEnabled := true, isSet := true } else {} }
      frames := ⟨a, t, 0, .getOwner, (w.own t).owner, (w.conv t).manager, (w.conv t).allowRegistryUpdate⟩ ::
        deployment s a (.conv (some t) r m (some c) cw) :: w.frames } := by
    intro r'
    simp only [World.note, World.setConv, World.setOwn, mkFrame, upd_upd, upd_ne _ _ hta, newConverter, Int.zero_add, List.nil_append]
    rfl
  constructor
  · rintro ⟨t', r', ⟨⟨⟩, _⟩, hr, ⟨h1, _⟩ | ⟨c', ⟨⟩, _, h1⟩⟩
    · exact absurd (h1 c rfl) hct
    · refine ⟨r', hr, ?_⟩
      rw [ok_addConnector] at h1
      obtain ⟨_, w1, h2, h3, h4, h5, h6, h7, h8, h9⟩ := h1
      have h2' := ((hact r' false w1).mp h2).2
      subst h2'
      simp only [note_conv, Ctx.self, mkFrame_to, setConv_conv_same] at h6 h9
      refine ⟨h4, fun e => h6 (by rw [e]; rfl), h5, ?_⟩
      rw [← hfin r']
      exact (Prod.mk.inj h9).2
  · rintro ⟨r', hr, h4, h6, h5, rfl⟩
    refine ⟨t, r', ⟨rfl, htz⟩, hr, .inr ⟨c, rfl, hct, ?_⟩⟩
    rw [ok_addConnector]
    refine ⟨?_, _, (hact r' false _).mpr ⟨rfl, rfl⟩, hct, h4, h5, ?_, ?_, ?_, ?_⟩
    · show (upd w.own a (ownedBy s) a).owner = some s
      rw [upd_same]; rfl
    · simp only [note_conv, Ctx.self, mkFrame_to, setConv_conv_same]
      exact fun e => h6 (Option.some.inj e).symm
    · simp only [note_conv, Ctx.self, mkFrame_to, setConv_conv_same]; rfl
    · simp only [note_conv, Ctx.self, mkFrame_to, setConv_conv_same]
      show 0 + cw ≤ 1000000
      omega
    · simp only [note_conv, Ctx.self, mkFrame_to, setConv_conv_same]
      rw [hfin r']

/-- Whether the deployment at the free address of the scenario works. -/
def installs (i : Install) : Bool := match deploy Scenario.orc 20 owner Scenario.evil i ready with
  | .ok _ => true
  | .error _ => false

set_option maxRecDepth 100000 in
example : Free ready Scenario.evil ∧ ¬ Free ready Scenario.irc ∧ (ready.kind Scenario.flex).isOwned ∧ Scenario.irc ≠ ZERO :=
  ⟨⟨rfl, by decide, by decide +kernel⟩, fun h => absurd h.2.2 (by decide +kernel), by decide +kernel, by decide⟩
set_option maxRecDepth 100000 in
example : installs (.irc "A" "B" 5 2) = true ∧ installs (.irc "A" "B" (-5) 2) = false ∧ installs (.irc "A" "B" 5 (-2)) = false ∧
    installs (.flex "A" "B" 5 2) = true ∧ installs .icx = true ∧ installs .net = true ∧ installs .reg = true := by
  decide +kernel
set_option maxRecDepth 100000 in
example : installs (.conv (some Scenario.flex) (some Scenario.registry) 1000000 none 0) = true ∧
    installs (.conv (some Scenario.flex) (some Scenario.registry) 1000001 none 0) = false ∧
    installs (.conv none (some Scenario.registry) 1000000 none 0) = false ∧
    installs (.conv (some Scenario.flex) none 1000000 none 0) = false ∧
    installs (.conv (some Scenario.flex) (some Scenario.registry) 1000000 (some Scenario.irc) 1000000) = true ∧
    installs (.conv (some Scenario.flex) (some Scenario.registry) 1000000 (some Scenario.irc) 1000001) = false ∧
    installs (.conv (some Scenario.flex) (some Scenario.registry) 1000000 (some Scenario.irc) 0) = false ∧
    installs (.conv (some Scenario.flex) (some Scenario.registry) 1000000 (some Scenario.flex) 5) = false := by
  decide +kernel

end Verif

import Verif.Proofs.Nested
import Verif.Proofs.ConvCalls2
import Verif.Props.Tokens
/-!
Properties C12-C18: who controls what.
-/
set_option linter.unusedSimpArgs false
set_option autoImplicit false
namespace Verif

open Scenario (ready ready_reachable alice bob owner)

/-! ### C12 -/

/-- C12. In every reachable ledger the owner and the pending nominee of an owned contract are exactly what the sequence of
all successful calls makes of them, and every one of these calls obeyed the rules when it was made: only the owner nominates,
only the current nominee accepts. -/
theorem C12_history {w : World} (h : Reachable w) {T : Addr} (hk : (w.kind T).isOwned) :
    w.own T = replay (ownAfter T) w.frames {} ∧ EachCall (ownAfter T) (OwnRules T) w.frames {} :=
  (ownMachine T).reachable h hk

/-- C12. The owner is the deployer, or accepted ownership itself after the owner of that time nominated it; between
nomination and acceptance nobody else was nominated. -/
theorem C12_two_steps {w : World} (h : Reachable w) {T a : Addr} (hk : (w.kind T).isOwned) (ho : (w.own T).owner = some a) :
    ∃ later f earlier, w.frames = later ++ f :: earlier ∧ f.to = T ∧ f.sender = a ∧
      ((∃ i, f.call = .onInstall i) ∨
       (f.call = .acceptOwnerShip ∧ ∃ between g before, earlier = between ++ g :: before ∧
          g.to = T ∧ g.call = .transferOwnerShip a ∧ g.owner = some g.sender ∧
          (replay (ownAfter T) before {}).owner = some g.sender ∧
          ∀ x ∈ between, ¬ (x.to = T ∧ ((∃ b, x.call = .transferOwnerShip b) ∨ x.call = .acceptOwnerShip)))) := by
  obtain ⟨h1, h2⟩ := C12_history h hk
  rw [h1] at ho
  obtain ⟨later, f, earlier, e, ⟨hf, hP⟩, hQ, _⟩ := replay_last (Q := fun o => o.owner = some a)
    (P := fun f => f.to = T ∧ ((∃ i, f.call = .onInstall i) ∨ f.call = .acceptOwnerShip)) (s := {})
    (l := w.frames) (δ := ownAfter T) (by
      intro f s hp hq
      unfold ownAfter at hq
      split at hq
      · rename_i hf
        split at hq
        · rename_i hc; exact absurd ⟨hf, .inl ⟨_, hc⟩⟩ hp
        · exact hq
        · rename_i hc; exact absurd ⟨hf, .inr hc⟩ hp
        · exact hq
      · exact hq) (by simp) ho
  have hL := h2 later f earlier e hf
  refine ⟨later, f, earlier, e, hf, ?_, ?_⟩
  · rcases hP with ⟨i, hP⟩ | hP <;> simpa [ownAfter, hf, hP] using hQ
  · rcases hP with hP | hP
    · exact .inl hP
    · refine .inr ⟨hP, ?_⟩
      have hs : f.sender = a := by simpa [ownAfter, hf, hP] using hQ
      have hz : f.sender ≠ ZERO := h.basic.sender f (by rw [e]; simp)
      have hn : (replay (ownAfter T) earlier {}).newOwner = some a := by
        have := hL.2; rw [hP] at this; rw [← hs]; exact this
      have h2e : EachCall (ownAfter T) (OwnRules T) earlier {} := by
        intro l g er eg; exact h2 (later ++ f :: l) g er (by rw [e, eg, List.append_assoc]; rfl)
      obtain ⟨l3, g, before, e', ⟨hg, hPg⟩, hQg, hlast⟩ := replay_last (Q := fun o => o.newOwner = some a)
        (P := fun f => f.to = T ∧ ((∃ i, f.call = .onInstall i) ∨ (∃ b, f.call = .transferOwnerShip b) ∨ f.call = .acceptOwnerShip))
        (s := {}) (l := earlier) (δ := ownAfter T) (by
          intro f s hp hq
          unfold ownAfter at hq
          split at hq
          · rename_i hf
            split at hq
            · rename_i hc; exact absurd ⟨hf, .inl ⟨_, hc⟩⟩ hp
            · rename_i hc; exact absurd ⟨hf, .inr (.inl ⟨_, hc⟩)⟩ hp
            · rename_i hc; exact absurd ⟨hf, .inr (.inr hc)⟩ hp
            · exact hq
          · exact hq) (by simp) hn
      have hza : a ≠ ZERO := hs ▸ hz
      have hg2 : g.call = .transferOwnerShip a := by
        rcases hPg with ⟨i, hc⟩ | ⟨b, hc⟩ | hc
        · simp [ownAfter, hg, hc] at hQg; exact absurd hQg.symm hza
        · simp [ownAfter, hg, hc] at hQg; rw [hc, hQg]
        · simp [ownAfter, hg, hc] at hQg; exact absurd hQg.symm hza
      have hLg := h2e l3 g before e' hg
      rw [hg2] at hLg
      refine ⟨l3, g, before, e', hg, hg2, hLg.1.trans hLg.2.1, hLg.2.1, ?_⟩
      rintro x hx ⟨hxT, hx2⟩
      exact hlast x hx ⟨hxT, .inr hx2⟩

/-- C12. If the owner of an owned contract changes in a transaction, the new owner itself called `acceptOwnerShip` in that
transaction, and it was the pending nominee when it did. -/
theorem C12_only_by_acceptance {orc fuel} {tx : Tx} {w : World} {T : Addr} (hk : (w.kind T).isOwned)
    (h : ((tx.apply orc fuel w).own T).owner ≠ (w.own T).owner) :
    ∃ new later f earlier, (tx.apply orc fuel w).frames = new ++ w.frames ∧ new = later ++ f :: earlier ∧
      f.to = T ∧ f.call = .acceptOwnerShip ∧ ((tx.apply orc fuel w).own T).owner = some f.sender ∧
      (replay (ownAfter T) earlier (w.own T)).newOwner = some f.sender ∧
      ∀ g ∈ later, ¬ (g.to = T ∧ g.call = .acceptOwnerShip) := by
  obtain ⟨new, e1, e2, e3, e4, hni⟩ := (ownMachine T).tx orc fuel tx w hk
  have e3 : (tx.apply orc fuel w).own T = replay (ownAfter T) new (w.own T) := e3
  have e4 : EachCall (ownAfter T) (OwnRules T) new (w.own T) := e4
  rw [e3] at h
  obtain ⟨later, f, earlier, e, hP, hQ, hlast⟩ := replay_last (Q := fun o : OwnSt => o.owner ≠ (w.own T).owner)
    (P := fun f => f.to = T ∧ ((∃ i, f.call = .onInstall i) ∨ f.call = .acceptOwnerShip)) (s := w.own T)
    (l := new) (δ := ownAfter T) (by
      intro f s hp hq
      unfold ownAfter at hq
      split at hq
      · rename_i hf
        split at hq
        · rename_i hc; exact absurd ⟨hf, .inl ⟨_, hc⟩⟩ hp
        · exact hq
        · rename_i hc; exact absurd ⟨hf, .inr hc⟩ hp
        · exact hq
      · exact hq) (by simp) h
  obtain ⟨hf, hP⟩ := hP
  have hmem : f ∈ new := by rw [e]; simp
  have hcall : f.call = .acceptOwnerShip := by
    rcases hP with ⟨i, hP⟩ | hP
    · exact absurd hP (hni f hmem hf i)
    · exact hP
  have hL := e4 later f earlier e hf
  rw [hcall] at hL
  refine ⟨new, later, f, earlier, e1, e, hf, hcall, ?_, hL.2, ?_⟩
  · rw [e3, e, replay_append]
    have : ∀ l : List Frame, (∀ g ∈ l, ¬ (g.to = T ∧ ((∃ i, g.call = .onInstall i) ∨ g.call = .acceptOwnerShip))) →
        ∀ s, (replay (ownAfter T) l s).owner = s.owner := by
      intro l
      induction l with
      | nil => intro _ s; rfl
      | cons g l ih =>
        intro hl s
        change (ownAfter T g (replay (ownAfter T) l s)).owner = _
        rw [← ih (fun x hx => hl x (List.mem_cons_of_mem _ hx)) s]
        have hg := hl g List.mem_cons_self
        unfold ownAfter
        split
        · rename_i hf
          split
          · rename_i hc; exact absurd ⟨hf, .inl ⟨_, hc⟩⟩ hg
          · rfl
          · rename_i hc; exact absurd ⟨hf, .inr hc⟩ hg
          · rfl
        · rfl
    rw [this later hlast]
    change (ownAfter T f _).owner = _
    simp [ownAfter, hf, hcall]
  · rintro g hg ⟨h1, h2⟩
    exact hlast g hg ⟨h1, .inr h2⟩

/-- C12. `transferOwnerShip` succeeds exactly for the owner naming somebody else, and only records the nominee. -/
theorem C12_transferOwnerShip {orc n s T a w x w'} (hk : (w.kind T).isOwned) (hs : 0 ≤ w.coin s) :
    exec orc (n + 1) s T 0 (.transferOwnerShip a) w = .ok (x, w') ↔
    ((w.own T).owner = some s ∧ a ≠ s) ∧ x = .unit ∧
    w' = (w.note s T 0 (.transferOwnerShip a)).setOwn T { w.own T with newOwner := some a } := by
  rw [ok_exec_transferOwnerShip hk]
  tauto

/-- C12. `acceptOwnerShip` succeeds exactly for the pending nominee, who becomes owner; nobody is nominated then. -/
theorem C12_acceptOwnerShip {orc n s T w x w'} (hk : (w.kind T).isOwned) (hs : 0 ≤ w.coin s) :
    exec orc (n + 1) s T 0 .acceptOwnerShip w = .ok (x, w') ↔
    (w.own T).newOwner = some s ∧ x = .unit ∧
    w' = ((w.note s T 0 .acceptOwnerShip).addLog T (.OwnerUpdate (w.own T).owner (some s))).setOwn T
      { owner := some s, newOwner := some ZERO } := by
  rw [ok_exec_acceptOwnerShip hk]; tauto

/-- C12. If a contract becomes owner in a transaction, it is a third-party contract, or a converter that was ordered to accept
by its own owner, and whose flexible token this is. -/
theorem C12_contract_owner {orc fuel} {tx : Tx} {w : World} {T a : Addr} (hw : Reachable w) (hk : (w.kind T).isOwned)
    (ha : a.isContract = true) (h : (w.own T).owner ≠ some a) (h' : ((tx.apply orc fuel w).own T).owner = some a) :
    (tx.apply orc fuel w).kind a = .foreign ∨
    ((tx.apply orc fuel w).kind a = .conv ∧ ((tx.apply orc fuel w).conv a).token = some T ∧
      ∃ f, Called w (tx.apply orc fuel w) f ∧ f.to = a ∧ f.call = .acceptTokenOwnership ∧ f.owner = some f.sender) := by
  obtain ⟨new, later, f, earlier, e1, e2, e3, e4, e5, _⟩ := C12_only_by_acceptance (orc := orc) (fuel := fuel) (tx := tx) hk
    (by rw [h']; exact fun e => h e.symm)
  have hs : f.sender = a := by rw [h'] at e5; injection e5 with e; exact e.symm
  have hf : Called w (tx.apply orc fuel w) f := ⟨new, e1, by rw [e2]; simp⟩
  rcases tx_origin hf with ho | ⟨f', u, h1, h2, h3, h4⟩
  · rw [hs, ha] at ho; cases ho
  · rw [e4] at h3
    have hku : (tx.apply orc fuel w).kind a = u.kind a := h4 a (by rw [← hs, ← h2]; exact h3.kind_ne)
    have hfa : f'.to = a := h2.trans hs
    generalize f.value = val, f.to = dst at h3
    cases h3 with
    | foreign _ _ _ hk' => left; rw [hku, ← hfa]; exact hk'
    | convToken _ _ hk' ht ho' hcc =>
      right
      have hkc : (tx.apply orc fuel w).kind a = .conv := by rw [hku, ← hfa]; exact hk'
      refine ⟨hkc, ?_, f', h1, hfa, ?_, ho'⟩
      · have := (Reachable.step orc fuel tx hw).ownInv.owner T a h'
        exact this.2 hkc
      · rcases hcc with ⟨_, _, h⟩ | ⟨h, _⟩ | ⟨_, _, h⟩ | ⟨_, _, _, _, h⟩
        · cases h
        · exact h
        · cases h
        · cases h
    | convView _ _ _ hc => rcases hc with hc | hc | hc | ⟨_, hc⟩ <;> cases hc
    | net _ _ _ _ hc =>
      rcases hc with ⟨_, _, _, _, _, hc⟩ | ⟨_, hc | hc | ⟨_, _, _, hc⟩ | ⟨_, _, _, hc⟩ | ⟨_, _, hc⟩⟩ <;> cases hc

set_option maxRecDepth 100000 in
example : let w := (Tx.call owner Scenario.registry 0 (.transferOwnerShip alice)).apply Scenario.orc 20 ready
    let w' := (Tx.call alice Scenario.registry 0 .acceptOwnerShip).apply Scenario.orc 20 w
    (w.kind Scenario.registry).isOwned ∧ (w.own Scenario.registry).owner = some owner ∧
    (w.own Scenario.registry).newOwner = some alice ∧
    (w'.own Scenario.registry).owner = some alice ∧ (w'.own Scenario.registry).newOwner = some ZERO := by decide +kernel

set_option maxRecDepth 100000 in
example : let w := Scenario.run (Scenario.setup.take 12) Scenario.genesis
    let w' := (Tx.call owner Scenario.conv 0 .acceptTokenOwnership).apply Scenario.orc 20 w
    (w.own Scenario.flex).owner = some owner ∧ (w'.own Scenario.flex).owner = some Scenario.conv ∧
    Scenario.conv.isContract = true := by decide +kernel

/-! ### C13 -/

/-- C13. In every reachable ledger the manager, the pending nominee and the other administrative settings of a converter are
exactly what the sequence of all successful calls makes of them, and every call obeyed the rules when it was made: only owner
or manager nominate, only the current nominee accepts. -/
theorem C13_history {w : World} (h : Reachable w) {T : Addr} (hk : w.kind T = .conv) :
    w.admin T = replay (adminAfter T) w.frames {} ∧ EachCall (adminAfter T) (AdminRules T) w.frames {} :=
  (adminMachine T).reachable h hk

/-- C13. The manager accepted management itself, after the owner or the manager of that time nominated it; between nomination
and acceptance nobody else was nominated. In particular a converter has no manager before such calls were made. -/
theorem C13_two_steps {w : World} (h : Reachable w) {T a : Addr} (hk : w.kind T = .conv) (ho : (w.conv T).manager = some a) :
    ∃ later f earlier, w.frames = later ++ f :: earlier ∧ f.to = T ∧ f.sender = a ∧ f.call = .acceptManagement ∧
      ∃ between g before, earlier = between ++ g :: before ∧ g.to = T ∧ g.call = .transferManagement a ∧
        g.byOwnerOrManager ∧ g.manager = (replay (adminAfter T) before {}).manager ∧
        ∀ x ∈ between, ¬ (x.to = T ∧ ((∃ b, x.call = .transferManagement b) ∨ x.call = .acceptManagement)) := by
  obtain ⟨h1, h2⟩ := C13_history h hk
  have ho : (w.admin T).manager = some a := ho
  rw [h1] at ho
  obtain ⟨later, f, earlier, e, ⟨hf, hP⟩, hQ, _⟩ := replay_last (Q := fun o => o.manager = some a)
    (P := fun f => f.to = T ∧ f.call = .acceptManagement) (s := {})
    (l := w.frames) (δ := adminAfter T) (by
      intro f s hp hq
      unfold adminAfter at hq
      split at hq
      · rename_i hf
        split at hq
        · cases hq
        · exact hq
        · rename_i hc; exact absurd ⟨hf, hc⟩ hp
        all_goals exact hq
      · exact hq) (by simp) ho
  have hL := h2 later f earlier e hf
  have hs : f.sender = a := by simpa [adminAfter, hf, hP] using hQ
  refine ⟨later, f, earlier, e, hf, hs, hP, ?_⟩
  have hz : f.sender ≠ ZERO := h.basic.sender f (by rw [e]; simp)
  have hn : (replay (adminAfter T) earlier {}).newManager = some a := by
    have := hL.2.2; rw [hP] at this; rw [← hs]; exact this
  have h2e : EachCall (adminAfter T) (AdminRules T) earlier {} := by
    intro l g er eg; exact h2 (later ++ f :: l) g er (by rw [e, eg, List.append_assoc]; rfl)
  obtain ⟨l3, g, before, e', ⟨hg, hPg⟩, hQg, hlast⟩ := replay_last (Q := fun o => o.newManager = some a)
    (P := fun f => f.to = T ∧ ((∃ b, f.call = .transferManagement b) ∨ f.call = .acceptManagement))
    (s := {}) (l := earlier) (δ := adminAfter T) (by
      intro f s hp hq
      unfold adminAfter at hq
      split at hq
      · rename_i hf
        split at hq
        · cases hq
        · rename_i hc; exact absurd ⟨hf, .inl ⟨_, hc⟩⟩ hp
        · rename_i hc; exact absurd ⟨hf, .inr hc⟩ hp
        all_goals exact hq
      · exact hq) (by simp) hn
  have hza : a ≠ ZERO := hs ▸ hz
  have hg2 : g.call = .transferManagement a := by
    rcases hPg with ⟨b, hc⟩ | hc
    · simp [adminAfter, hg, hc] at hQg; rw [hc, hQg]
    · simp [adminAfter, hg, hc] at hQg; exact absurd hQg.symm hza
  have hLg := h2e l3 g before e' hg
  rw [hg2] at hLg
  exact ⟨l3, g, before, e', hg, hg2, hLg.2.2.1, hLg.1, fun x hx hxx => hlast x hx hxx⟩

/-- C13. If the manager changes in a transaction, the new manager itself called `acceptManagement` in that transaction, and it
was the pending nominee when it did. -/
theorem C13_only_by_acceptance {orc fuel} {tx : Tx} {w : World} {T : Addr} (hk : w.kind T = .conv)
    (h : ((tx.apply orc fuel w).conv T).manager ≠ (w.conv T).manager) :
    ∃ new later f earlier, (tx.apply orc fuel w).frames = new ++ w.frames ∧ new = later ++ f :: earlier ∧
      f.to = T ∧ f.call = .acceptManagement ∧ ((tx.apply orc fuel w).conv T).manager = some f.sender ∧
      (replay (adminAfter T) earlier (w.admin T)).newManager = some f.sender := by
  obtain ⟨new, e1, e2, e3, e4, hni⟩ := (adminMachine T).tx orc fuel tx w hk
  have e3 : (tx.apply orc fuel w).admin T = replay (adminAfter T) new (w.admin T) := e3
  have e4 : EachCall (adminAfter T) (AdminRules T) new (w.admin T) := e4
  have h : ((tx.apply orc fuel w).admin T).manager ≠ (w.admin T).manager := h
  have keep : ∀ l : List Frame, (∀ g ∈ l, ¬ (g.to = T ∧ ((∃ i, g.call = .onInstall i) ∨ g.call = .acceptManagement))) →
      ∀ s, (replay (adminAfter T) l s).manager = s.manager := by
    intro l
    induction l with
    | nil => intro _ s; rfl
    | cons g l ih =>
      intro hl s
      change (adminAfter T g (replay (adminAfter T) l s)).manager = _
      rw [← ih (fun x hx => hl x (List.mem_cons_of_mem _ hx)) s]
      have hg := hl g List.mem_cons_self
      unfold adminAfter
      split
      · rename_i hf
        split
        · rename_i hc; exact absurd ⟨hf, .inl ⟨_, hc⟩⟩ hg
        · rfl
        · rename_i hc; exact absurd ⟨hf, .inr hc⟩ hg
        all_goals rfl
      · rfl
  rw [e3] at h
  obtain ⟨later, f, earlier, e, ⟨hf, hP⟩, hQ, hlast⟩ := replay_last (Q := fun o : Admin => o.manager ≠ (w.admin T).manager)
    (P := fun f => f.to = T ∧ ((∃ i, f.call = .onInstall i) ∨ f.call = .acceptManagement)) (s := w.admin T)
    (l := new) (δ := adminAfter T) (by
      intro f s hp hq
      have := keep [f] (by simpa using fun a b => hp ⟨a, b⟩) s
      rw [← this]; exact hq) (by simp) h
  have hcall : f.call = .acceptManagement := by
    rcases hP with ⟨i, hP⟩ | hP
    · exact absurd hP (hni f (by rw [e]; simp) hf i)
    · exact hP
  have hL := e4 later f earlier e hf
  rw [hcall] at hL
  refine ⟨new, later, f, earlier, e1, e, hf, hcall, ?_, hL.2.2⟩
  change ((tx.apply orc fuel w).admin T).manager = _
  rw [e3, e, replay_append, keep later hlast]
  change (adminAfter T f _).manager = _
  simp [adminAfter, hf, hcall]

/-- C13. A freshly deployed converter belongs to its deployer and has no manager and no nominee, whatever the contracts
involved do during the deployment; its fee is 0, conversions are enabled, and anybody may update its registry. -/
theorem C13_fresh {orc fuel s a tk r m ct cw w x w'} (hw : Reachable w) (hs : s.isContract = false)
    (h : deploy orc fuel s a (.conv tk r m ct cw) w = .ok (x, w')) :
    w'.own a = { owner := some s, newOwner := some ZERO } ∧
    w'.admin a = { manager := none, newManager := none, fee := 0, maxFee := m, enabled := true, allowRegistryUpdate := true } := by
  have hr : Reachable w' := by
    have : w' = (Tx.deploy s a (.conv tk r m ct cw)).apply orc fuel w := by
      simp only [Tx.apply, Tx.run]
      have : (do require (s.isContract = false); deploy orc fuel s a (.conv tk r m ct cw) : M Val) w =
        deploy orc fuel s a (.conv tk r m ct cw) w := by rw [hs]; rfl
      rw [this, h]
    rw [this]; exact .step _ _ _ hw
  obtain ⟨w1, hI, hby⟩ := deploy_byContracts h
  obtain ⟨⟨hac, _, hn⟩, _⟩ := ok_deploy.mp h
  have hk1 : ∀ b, w1.kind b ≠ .none → b.isContract = true := by
    intro b hb
    rw [hI.kind, enterW_kind, setKind_kind] at hb
    split at hb
    · subst_vars; exact hac
    · exact hw.basic.contract b hb
  obtain ⟨hkk, new, e1, hnew⟩ := hby hk1
  have hk' : w'.kind a = .conv := by rw [hkk, hI.kind, enterW_kind, setKind_kind, if_pos rfl]; rfl
  have hfr : w1.frames = mkFrame (w.setKind a .conv) s a 0 (.onInstall (.conv tk r m ct cw)) :: w.frames := by
    rw [hI.frames]; rfl
  obtain ⟨o1, o2⟩ := C12_history hr (T := a) (by rw [hk']; simp [Kind.isOwned])
  obtain ⟨a1, a2⟩ := C13_history hr (T := a) hk'
  rw [e1] at o2 a2
  have hfresh := hw.fresh a hac hn
  have b1 : replay (ownAfter a) w1.frames {} = { owner := some s, newOwner := some ZERO } := by
    rw [hfr]
    change ownAfter a _ _ = _
    simp [ownAfter]
  have b2 : replay (adminAfter a) w1.frames {} =
      { manager := none, newManager := none, fee := 0, maxFee := m, enabled := true, allowRegistryUpdate := true } := by
    rw [hfr]
    change adminAfter a _ _ = _
    simp [adminAfter]
  have tailc : ∀ {σ : Type} {δ : Frame → σ → σ} {L : Frame → σ → Prop} {s0 : σ}, EachCall δ L (new ++ w1.frames) s0 →
      EachCall δ L new (replay δ w1.frames s0) := by
    intro σ δ L s0 he later f earlier e
    have := he later f (earlier ++ w1.frames) (by rw [e]; simp)
    rwa [replay_append] at this
  obtain ⟨r1, r2⟩ := settled (T := a) hs (l := new) (o := { owner := some s, newOwner := some ZERO })
    (a := { manager := none, newManager := none, fee := 0, maxFee := m, enabled := true, allowRegistryUpdate := true })
    ⟨rfl, rfl⟩ ⟨rfl, rfl⟩ (fun f hf => hr.basic.sender f (by rw [e1]; exact List.mem_append_left _ hf)) hnew
    (by
      intro f hf hT i hc
      have hB := deploy_body orc fuel s a (.conv tk r m ct cw) (withStable fun _ _ _ _ => Follows a Kind.isOwned (fun w => w.own a) (ownAfter a) (OwnRules a))
        (fun t v c w x w' e => ⟨(exec_rel orc fuel a t v c w x w' e).1, (ownMachine a).exec orc fuel _ _ _ _ _ _ _ e⟩) h
      obtain ⟨_, w2, hI2, hB⟩ := hB
      have hfo := (ownMachine a).deployBody rfl hB
      have hk2 : w2.kind a = .conv := by rw [hI2.kind, enterW_kind, setKind_kind, if_pos rfl]; rfl
      obtain ⟨new2, e2, _, _, _, hni⟩ := hfo (by rw [hk2]; simp [Kind.isOwned])
      have : new = new2 := by
        have hfr2 : w2.frames = w1.frames := by rw [hI2.frames, hI.frames]
        rw [hfr2, e1] at e2
        exact List.append_cancel_right e2
      exact hni f (this ▸ hf) hT i hc)
    (by have := tailc o2; rwa [b1] at this) (by have := tailc a2; rwa [b2] at this)
  constructor
  · rw [o1, e1, replay_append, b1, r1]
  · rw [a1, e1, replay_append, b2, r2]

/-- C13. `transferManagement` succeeds exactly for owner or manager naming somebody else, and only records the nominee. -/
theorem C13_transferManagement {orc n s T a w x w'} (hk : w.kind T = .conv) (hs : 0 ≤ w.coin s) :
    exec orc (n + 1) s T 0 (.transferManagement a) w = .ok (x, w') ↔
    (((w.conv T).manager = some s ∨ (w.own T).owner = some s) ∧ (w.conv T).manager ≠ some a) ∧ x = .unit ∧
    w' = (w.note s T 0 (.transferManagement a)).setConv T { w.conv T with newManager := some a } := by
  rw [ok_exec_transferManagement hk]; tauto

/-- C13. `acceptManagement` succeeds exactly for the pending nominee. -/
theorem C13_acceptManagement {orc n s T w x w'} (hk : w.kind T = .conv) (hs : 0 ≤ w.coin s) :
    exec orc (n + 1) s T 0 .acceptManagement w = .ok (x, w') ↔ (w.conv T).newManager = some s ∧ x = .unit ∧
    w' = ((w.note s T 0 .acceptManagement).addLog T (.ManagerUpdate (w.conv T).manager (some s))).setConv T
      { w.conv T with manager := some s, newManager := some ZERO } := by
  rw [ok_exec_acceptManagement hk]; tauto

set_option maxRecDepth 100000 in
example : let w := Scenario.run [.call owner Scenario.conv 0 (.transferManagement alice), .call alice Scenario.conv 0 .acceptManagement] ready
    w.kind Scenario.conv = .conv ∧ (ready.conv Scenario.conv).manager = none ∧
    (w.conv Scenario.conv).manager = some alice ∧ (w.conv Scenario.conv).newManager = some ZERO := by decide +kernel

set_option maxRecDepth 100000 in
example : ∃ x w', deploy Scenario.orc 20 owner Scenario.evil (.conv (some Scenario.flex) (some Scenario.registry) 5 (some Scenario.icxt) 7) ready
    = .ok (x, w') := by
  have : (match deploy Scenario.orc 20 owner Scenario.evil (.conv (some Scenario.flex) (some Scenario.registry) 5 (some Scenario.icxt) 7) ready with
    | .ok _ => true | .error _ => false) = true := by decide +kernel
  split at this
  · rename_i p e; exact ⟨p.1, p.2, e⟩
  · cases this

end Verif

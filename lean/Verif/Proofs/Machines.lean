import Verif.Proofs.Replay
import Verif.Proofs.ConvCalls
/-!
The parts of storage that are functions of the calls made: ownership, converter settings, registry, network, transferability.
-/
set_option linter.unusedSimpArgs false
namespace Verif

open Relation

/-! ### Ownership -/

theorem LocalStep.own_quiet {f u u'} (h : LocalStep f u u') (h1 : ∀ a, f.call ≠ .transferOwnerShip a)
    (h2 : f.call ≠ .acceptOwnerShip) : u'.own = u.own := by
  cases h with
  | nominate a _ _ hc => exact absurd hc (h1 a)
  | accept _ _ hc => exact absurd hc h2
  | _ => rfl

theorem ownMachine (T : Addr) : Machine T Kind.isOwned (fun w => w.own T) (ownAfter T) (OwnRules T) {} where
  Kne := by simp [Kind.isOwned]
  same _ _ h := h.own
  other f s h := ⟨by simp [ownAfter, h], fun e => absurd e h⟩
  blank w hi hk := hi.own T (by simp [hk, Kind.isOwned])
  call c hi := by
    by_cases h1 : ∃ a, c = .transferOwnerShip a
    · obtain ⟨a, rfl⟩ := h1
      right
      intro orc n s v w x w' hk h
      have hv := exec_owned_value hk h (by simp)
      subst hv
      rw [ok_exec_transferOwnerShip hk] at h
      obtain ⟨_, h1, h2, _, rfl⟩ := h
      refine ⟨rfl, ?_, fun _ => ⟨rfl, h1, h2⟩⟩
      simp [ownAfter]
    by_cases h2 : c = .acceptOwnerShip
    · subst h2
      right
      intro orc n s v w x w' hk h
      have hv := exec_owned_value hk h (by simp)
      subst hv
      rw [ok_exec_acceptOwnerShip hk] at h
      obtain ⟨_, h1, _, rfl⟩ := h
      refine ⟨rfl, ?_, fun _ => ⟨rfl, h1⟩⟩
      simp [ownAfter]
    left
    constructor
    · intro f u u' _ hc _ hl
      rw [hl.own_quiet (fun a e => h1 ⟨a, hc ▸ e⟩) (fun e => h2 (hc ▸ e))]
    · intro orc n s v w x w' hk h
      constructor
      · simp only [ownAfter, mkFrame_to, mkFrame_call, if_true]
        split
        · exact absurd rfl (hi _)
        · exact absurd ⟨_, rfl⟩ h1
        · exact absurd rfl h2
        · rfl
      · intro _
        refine ⟨rfl, ?_⟩
        rw [mkFrame_call]
        split
        · exact absurd ⟨_, rfl⟩ h1
        · exact absurd rfl h2
        · trivial
  noInstall orc n s v i w x w' hk h := exec_owned_noInstall hk h
  inst f i u u' _ hc _ hl := by rw [hl.own_quiet (by simp [hc]) (by simp [hc])]
  deployed s w i w1 hi hk hK hI := by
    have h0 : w.own T = {} := hi.own T (by simp [hk, Kind.isOwned])
    constructor
    · cases hI <;> simp [ownAfter, Install.kind, Kind.isOwned] at *
    · intro _
      refine ⟨?_, trivial⟩
      change (w.own T).owner = none
      rw [h0]

/-! ### Converter settings -/

theorem LocalStep.admin_quiet {f u u' T} (h : LocalStep f u u') (h1 : ∀ a, f.call ≠ .transferManagement a)
    (h2 : f.call ≠ .acceptManagement) (h3 : ∀ a, f.call ≠ .setConversionFee a) (h4 : ∀ a, f.call ≠ .disableConversions a)
    (h5 : ∀ a, f.call ≠ .disableRegistryUpdate a) (h6 : f.call ≠ .restoreRegistry) : u'.admin T = u.admin T := by
  cases h with
  | nominateManager a _ _ hc => exact absurd hc (h1 a)
  | acceptManager _ _ hc => exact absurd hc h2
  | conv c' _ hc =>
    by_cases e : T = f.to
    · subst e
      cases hc with
      | restoreRegistry hc => exact absurd hc h6
      | disableRegistryUpdate _ hc => exact absurd hc (h5 _)
      | disableConversions _ hc => exact absurd hc (h4 _)
      | setFee _ hc => exact absurd hc (h3 _)
      | _ => simp [World.admin]
    · simp [World.admin, setConv_conv, e]
  | _ => rfl

theorem adminMachine (T : Addr) : Machine T (· = .conv) (fun w => w.admin T) (adminAfter T) (AdminRules T) {} where
  Kne := by simp
  same _ _ h := by simp [World.admin, h.conv]
  other f s h := ⟨by simp [adminAfter, h], fun e => absurd e h⟩
  blank w hi hk := by simp [World.admin, hi.conv T (by simp [hk])]
  call c hi := by
    by_cases h1 : ∃ a, c = .transferManagement a
    · obtain ⟨a, rfl⟩ := h1
      right
      intro orc n s v w x w' hk h
      rw [ok_exec_transferManagement hk] at h
      obtain ⟨rfl, _, _, h1, h2, rfl⟩ := h
      exact ⟨rfl, by simp [adminAfter, World.admin], fun _ => ⟨rfl, rfl, h1, h2⟩⟩
    by_cases h2 : c = .acceptManagement
    · subst h2
      right
      intro orc n s v w x w' hk h
      rw [ok_exec_acceptManagement hk] at h
      obtain ⟨rfl, _, _, h1, rfl⟩ := h
      exact ⟨rfl, by simp [adminAfter, World.admin], fun _ => ⟨rfl, rfl, h1⟩⟩
    by_cases h3 : ∃ a, c = .setConversionFee a
    · obtain ⟨a, rfl⟩ := h3
      right
      intro orc n s v w x w' hk h
      rw [ok_exec_setConversionFee hk] at h
      obtain ⟨rfl, _, _, h1, h2, rfl⟩ := h
      exact ⟨rfl, by simp [adminAfter, World.admin], fun _ => ⟨rfl, rfl, h1, h2⟩⟩
    by_cases h4 : ∃ a, c = .disableConversions a
    · obtain ⟨a, rfl⟩ := h4
      right
      intro orc n s v w x w' hk h
      rw [ok_exec_disableConversions hk] at h
      obtain ⟨rfl, _, _, h1, ⟨h2, rfl⟩ | ⟨h2, rfl⟩⟩ := h
      · exact ⟨rfl, by simp [adminAfter, World.admin], fun _ => ⟨rfl, rfl, h1⟩⟩
      · refine ⟨rfl, ?_, fun _ => ⟨rfl, rfl, h1⟩⟩
        have : (w.conv T).enabled = !a := by revert h2; cases (w.conv T).enabled <;> cases a <;> simp
        simp [adminAfter, World.admin, this]
    by_cases h5 : ∃ a, c = .disableRegistryUpdate a
    · obtain ⟨a, rfl⟩ := h5
      right
      intro orc n s v w x w' hk h
      rw [ok_exec_disableRegistryUpdate hk] at h
      obtain ⟨rfl, _, _, h1, rfl⟩ := h
      exact ⟨rfl, by simp [adminAfter, World.admin], fun _ => ⟨rfl, rfl, h1⟩⟩
    by_cases h6 : c = .restoreRegistry
    · subst h6
      right
      intro orc n s v w x w' hk h
      rw [ok_exec_restoreRegistry hk] at h
      obtain ⟨rfl, _, _, h1, rfl⟩ := h
      exact ⟨rfl, by simp [adminAfter, World.admin], fun _ => ⟨rfl, rfl, h1⟩⟩
    left
    constructor
    · intro f u u' _ hc _ hl
      subst hc
      exact hl.admin_quiet (fun a e => h1 ⟨a, e⟩) h2 (fun a e => h3 ⟨a, e⟩) (fun a e => h4 ⟨a, e⟩) (fun a e => h5 ⟨a, e⟩) h6
    · intro orc n s v w x w' hk h
      constructor
      · simp only [adminAfter, mkFrame_to, mkFrame_call, if_true]
        split
        · exact absurd rfl (hi _)
        · exact absurd ⟨_, rfl⟩ h1
        · exact absurd rfl h2
        · exact absurd ⟨_, rfl⟩ h3
        · exact absurd ⟨_, rfl⟩ h4
        · exact absurd ⟨_, rfl⟩ h5
        · exact absurd rfl h6
        · rfl
      · intro _
        refine ⟨rfl, rfl, ?_⟩
        rw [mkFrame_call]
        split
        · exact absurd rfl (hi _)
        · exact absurd ⟨_, rfl⟩ h1
        · exact absurd rfl h2
        · exact absurd ⟨_, rfl⟩ h3
        · exact absurd ⟨_, rfl⟩ h4
        · exact absurd ⟨_, rfl⟩ h5
        · exact absurd rfl h6
        · trivial
  noInstall orc n s v i w x w' hk h := exec_owned_noInstall (.inr (.inr (.inl hk))) h
  inst f i u u' _ hc _ hl := by
    exact hl.admin_quiet (by simp [hc]) (by simp [hc]) (by simp [hc]) (by simp [hc]) (by simp [hc]) (by simp [hc])
  deployed s w i w1 hi hk hK hI := by
    have h0 : w.conv T = {} := hi.conv T (by simp [hk])
    cases hI with
    | conv t r mf ct cw _ _ h1 h2 =>
      constructor
      · have h0' : (enterW (w.setKind T (Install.conv (some t) (some r) mf ct cw).kind) s T 0
          (.onInstall (.conv (some t) (some r) mf ct cw))).conv T = {} := h0
        simp only [World.admin, setConv_conv_same, h0', adminAfter, mkFrame_to, mkFrame_call, if_true]
      · intro _
        refine ⟨?_, ?_, h1, h2⟩
        · change (w.conv T).manager = none; rw [h0]
        · change (w.conv T).allowRegistryUpdate = false; rw [h0]
    | _ => simp [Install.kind] at hK

/-! ### Registry -/

theorem LocalStep.reg_quiet {f u u'} (h : LocalStep f u u') (h1 : ∀ n a, f.call ≠ .registerAddress n a)
    (h2 : ∀ n, f.call ≠ .unregisterAddress n) : u'.reg = u.reg := by
  cases h with
  | register n a _ hc => exact absurd hc.1 (h1 n a)
  | unregister n _ hc => exact absurd hc (h2 n)
  | _ => rfl

theorem mem_keys {n : String} : n ∈ ScoreRegistry.SCORE_KEYS ↔ n = "ScoreRegistry" ∨ n = "Network" := by
  simp [ScoreRegistry.SCORE_KEYS, ScoreRegistry.SCORE_REGISTRY, ScoreRegistry.NETWORK]

theorem regMachine (T : Addr) : Machine T (· = .reg) (fun w => w.reg T) (regAfter T) (RegRules T) (fun _ => none) where
  Kne := by simp
  same _ _ h := h.reg
  other f s h := ⟨by simp [regAfter, h], fun e => absurd e h⟩
  blank w hi hk := hi.reg T (by simp [hk])
  call c hi := by
    by_cases h1 : ∃ m a, c = .registerAddress m a
    · obtain ⟨m, a, rfl⟩ := h1
      right
      intro orc n s v w x w' hk h
      rw [ok_exec_registerAddress hk] at h
      obtain ⟨rfl, _, _, h1, h2, h3, h4, rfl⟩ := h
      exact ⟨rfl, by simp [regAfter, setReg_reg], fun _ => ⟨h1, h2, h3, mem_keys.mp h4⟩⟩
    by_cases h2 : ∃ m, c = .unregisterAddress m
    · obtain ⟨m, rfl⟩ := h2
      right
      intro orc n s v w x w' hk h
      rw [ok_exec_unregisterAddress hk] at h
      obtain ⟨rfl, _, _, h1, h2, rfl⟩ := h
      exact ⟨rfl, by simp [regAfter, setReg_reg], fun _ => ⟨h1, h2⟩⟩
    left
    constructor
    · intro f u u' _ hc _ hl
      subst hc
      rw [hl.reg_quiet (fun n a e => h1 ⟨n, a, e⟩) (fun a e => h2 ⟨a, e⟩)]
    · intro orc n s v w x w' hk h
      constructor
      · simp only [regAfter, mkFrame_to, mkFrame_call, if_true]
        split
        · exact absurd rfl (hi _)
        · exact absurd ⟨_, _, rfl⟩ h1
        · exact absurd ⟨_, rfl⟩ h2
        · rfl
      · intro _
        rw [mkFrame_call]
        split
        · exact absurd ⟨_, _, rfl⟩ h1
        · exact absurd ⟨_, rfl⟩ h2
        · trivial
  noInstall orc n s v i w x w' hk h := exec_owned_noInstall (.inr (.inr (.inr (.inr hk)))) h
  inst f i u u' _ hc _ hl := by rw [hl.reg_quiet (by simp [hc]) (by simp [hc])]
  deployed s w i w1 hi hk hK hI := by
    have h0 : w.reg T = fun _ => none := hi.reg T (by simp [hk])
    cases hI with
    | reg =>
      constructor
      · have h0' : (enterW (w.setKind T Install.reg.kind) s T 0 (.onInstall .reg)).reg T = fun _ => none := h0
        simp [regAfter, h0', ScoreRegistry.SCORE_REGISTRY]
        rw [setReg_reg, if_pos rfl]
      · intro _
        trivial
    | _ => simp [Install.kind] at hK

/-! ### Network -/

theorem LocalStep.net_quiet {f u u'} (h : LocalStep f u u') (h1 : ∀ a b, f.call ≠ .registerIcxToken a b) : u'.net = u.net := by
  cases h with
  | registerIcx n a _ hc => exact absurd hc (h1 n a)
  | _ => rfl

theorem netMachine (T : Addr) : Machine T (· = .net) (fun w => w.net T) (netAfter T) (NetRules T) (fun _ => false) where
  Kne := by simp
  same _ _ h := h.net
  other f s h := ⟨by simp [netAfter, h], fun e => absurd e h⟩
  blank w hi hk := hi.net T (by simp [hk])
  call c hi := by
    by_cases h1 : ∃ m a, c = .registerIcxToken m a
    · obtain ⟨m, a, rfl⟩ := h1
      right
      intro orc n s v w x w' hk h
      rw [ok_exec_registerIcxToken hk] at h
      obtain ⟨rfl, _, _, h1, h2, h3, rfl⟩ := h
      exact ⟨rfl, by simp [netAfter, setNet_net], fun _ => ⟨h1, h2, h3⟩⟩
    left
    constructor
    · intro f u u' _ hc _ hl
      subst hc
      rw [hl.net_quiet (fun n a e => h1 ⟨n, a, e⟩)]
    · intro orc n s v w x w' hk h
      constructor
      · simp only [netAfter, mkFrame_to, mkFrame_call, if_true]
        split
        · exact absurd ⟨_, _, rfl⟩ h1
        · rfl
      · intro _
        rw [mkFrame_call]
        split
        · exact absurd ⟨_, _, rfl⟩ h1
        · trivial
  noInstall orc n s v i w x w' hk h := exec_owned_noInstall (.inr (.inr (.inr (.inl hk)))) h
  inst f i u u' _ hc _ hl := by rw [hl.net_quiet (by simp [hc])]
  deployed s w i w1 hi hk hK hI := by
    have h0 : w.net T = fun _ => false := hi.net T (by simp [hk])
    cases hI with
    | net =>
      refine ⟨?_, fun _ => trivial⟩
      change w.net T = _
      rw [h0]; simp [netAfter]
    | _ => simp [Install.kind] at hK

/-! ### Transferability -/

theorem LocalStep.flex_quiet {f u u'} (h : LocalStep f u u') (h1 : ∀ b, f.call ≠ .disableTransfer b) : u'.flex = u.flex := by
  cases h with
  | disableTransfer b _ hc => exact absurd hc (h1 b)
  | _ => rfl

theorem flexMachine (T : Addr) : Machine T (· = .flex) (fun w => (w.flex T).transferable) (flexAfter T) (FlexRules T) false where
  Kne := by simp
  same _ _ h := by rw [h.flex]
  other f s h := ⟨by simp [flexAfter, h], fun e => absurd e h⟩
  blank w hi hk := by rw [hi.flex T (by simp [hk])]
  call c hi := by
    by_cases h1 : ∃ b, c = .disableTransfer b
    · obtain ⟨b, rfl⟩ := h1
      right
      intro orc n s v w x w' hk h
      have hv := exec_owned_value (.inr (.inl hk)) h (by simp)
      subst hv
      rw [ok_exec_disableTransfer hk] at h
      obtain ⟨_, h1, h2, rfl⟩ := h
      exact ⟨rfl, by simp [flexAfter], fun _ => h1⟩
    left
    constructor
    · intro f u u' _ hc _ hl
      subst hc
      rw [hl.flex_quiet (fun n e => h1 ⟨n, e⟩)]
    · intro orc n s v w x w' hk h
      constructor
      · simp only [flexAfter, mkFrame_to, mkFrame_call, if_true]
        split
        · exact absurd rfl (hi _)
        · exact absurd ⟨_, rfl⟩ h1
        · rfl
      · intro _
        rw [mkFrame_call]
        split
        · exact absurd ⟨_, rfl⟩ h1
        · have hv := exec_owned_value (.inr (.inl hk)) h (by simp)
          subst hv
          rw [ok_exec_transfer (.inr (.inr hk))] at h
          exact h.2.1 hk
        · trivial
  noInstall orc n s v i w x w' hk h := exec_owned_noInstall (.inr (.inl hk)) h
  inst f i u u' _ hc _ hl := by rw [hl.flex_quiet (by simp [hc])]
  deployed s w i w1 hi hk hK hI := by
    cases hI with
    | flex => exact ⟨by simp [flexAfter], fun _ => trivial⟩
    | _ => simp [Install.kind] at hK

end Verif

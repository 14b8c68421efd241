import Verif.Proofs.Tells
import Verif.Proofs.Machines
/-!
Storage that is a function of the event log.
-/
set_option linter.unusedSimpArgs false
namespace Verif

open Relation

variable {σ : Type}

theorem retell_append (ε : Addr × Event → σ → σ) (a b) (s : σ) : retell ε (a ++ b) s = retell ε a (retell ε b s) := by
  simp [retell, List.foldr_append]

theorem eachEntry_nil (ε : Addr × Event → σ → σ) (G) (s : σ) : EachEntry ε G [] s := by
  intro later e earlier h
  cases later <;> cases h

theorem eachEntry_cons {ε : Addr × Event → σ → σ} {G : Addr × Event → σ → Prop} {l s e} (h : EachEntry ε G l s)
    (hf : G e (retell ε l s)) : EachEntry ε G (e :: l) s := by
  intro later g earlier e
  cases later with
  | nil => cases e; exact hf
  | cons x later =>
    have e' : l = later ++ g :: earlier := by simpa using congrArg List.tail e
    exact h _ _ _ e'

theorem eachEntry_append {ε : Addr × Event → σ → σ} {G : Addr × Event → σ → Prop} {a b s} (h : EachEntry ε G b s)
    (h' : EachEntry ε G a (retell ε b s)) : EachEntry ε G (a ++ b) s := by
  induction a with
  | nil => exact h
  | cons f a ih =>
    refine eachEntry_cons (ih ?_) ?_
    · intro later g earlier e
      exact h' (f :: later) g earlier (by rw [e]; rfl)
    · change G f (retell ε (a ++ b) s)
      rw [retell_append]
      exact h' [] f a rfl

/-- What is needed to know that part `π` of the storage of `T` is a function of the log. -/
structure Chronicle (T : Addr) (K : Kind → Prop) (π : World → σ) (ε : Addr × Event → σ → σ) (G : Addr × Event → σ → Prop)
    (s0 : Addr → σ) : Prop where
  Kne : ¬ K .none
  Kfo : ¬ K .foreign
  same : ∀ u u', SameAt T u u' → π u' = π u
  other : ∀ e s, e.1 ≠ T → ε e s = s ∧ G e s
  /-- Calls that do not concern `π`, or that do and have no nested calls. -/
  call : ∀ (c : Call), (∀ i, c ≠ .onInstall i) →
    ((∀ f u u', f.to = T → f.call = c → K (u.kind T) → LocalStep f u u' → π u' = π u) ∧
      ∀ k e s, Fits k c e → ε (T, e) s = s ∧ G (T, e) s) ∨
    (∀ orc n s v w x w', K (w.kind T) → exec orc (n + 1) s T v c w = .ok (x, w') →
      ∃ L, w'.log = L ++ w.log ∧ π w' = retell ε L (π w) ∧ EachEntry ε G L (π w))
  noInstall : ∀ orc n s v i w x w', K (w.kind T) → exec orc (n + 1) s T v (.onInstall i) w ≠ .ok (x, w')
  inst : ∀ f i u u', f.to = T → f.call = .onInstall i → K (u.kind T) → LocalStep f u u' → π u' = π u
  instLog : ∀ k i e s, Fits k (.onInstall i) e → ε (T, e) s = s ∧ G (T, e) s
  deployed : ∀ s w i w1, Inv w → w.kind T = .none → K i.kind →
    Installed s T (enterW (w.setKind T i.kind) s T 0 (.onInstall i)) i w1 →
    ∃ L, w1.log = L ++ w.log ∧ π w1 = retell ε L (s0 s) ∧ EachEntry ε G L (s0 s)

variable {T : Addr} {K : Kind → Prop} {π : World → σ} {ε : Addr × Event → σ → σ} {G : Addr × Event → σ → Prop} {s0 : Addr → σ}

/-- `π` follows the log from `w` to `w'`. -/
def Relates (T : Addr) (K : Kind → Prop) (π : World → σ) (ε : Addr × Event → σ → σ) (G : Addr × Event → σ → Prop) (w w' : World) : Prop :=
  K (w.kind T) → ∃ L, w'.log = L ++ w.log ∧ w'.kind T = w.kind T ∧ π w' = retell ε L (π w) ∧ EachEntry ε G L (π w)

theorem Relates.refl (w) : Relates T K π ε G w w := fun _ => ⟨[], rfl, rfl, rfl, eachEntry_nil _ _ _⟩

theorem Relates.trans {a b c} (h : Relates T K π ε G a b) (h' : Relates T K π ε G b c) : Relates T K π ε G a c := by
  intro hk
  obtain ⟨l, h1, h2, h3, h4⟩ := h hk
  obtain ⟨l', h1', h2', h3', h4'⟩ := h' (by rw [h2]; exact hk)
  exact ⟨l' ++ l, by rw [h1', h1, List.append_assoc], h2'.trans h2, by rw [h3', h3, retell_append],
    eachEntry_append h4 (by rw [← h3]; exact h4')⟩

theorem retell_still {L : List (Addr × Event)} (h : ∀ e ∈ L, ∀ s, ε e s = s ∧ G e s) (s : σ) :
    retell ε L s = s ∧ EachEntry ε G L s := by
  induction L with
  | nil => exact ⟨rfl, eachEntry_nil _ _ _⟩
  | cons e L ih =>
    obtain ⟨h1, h2⟩ := ih (fun g hg => h g (List.mem_cons_of_mem _ hg))
    refine ⟨?_, eachEntry_cons h2 (h e List.mem_cons_self _).2⟩
    change ε e (retell ε L s) = s
    rw [h1, (h e List.mem_cons_self s).1]

theorem relates_still {w w' : World} {L} (hl : w'.log = L ++ w.log) (hk : w'.kind T = w.kind T) (hp : π w' = π w)
    (h : ∀ e ∈ L, ∀ s, ε e s = s ∧ G e s) : Relates T K π ε G w w' := by
  obtain ⟨h1, h2⟩ := retell_still h (π w)
  exact fun _ => ⟨L, hl, hk, by rw [h1, hp], h2⟩

theorem Chronicle.exec (m : Chronicle T K π ε G s0) (orc : Oracle) (n : Nat) :
    AllCalls orc n (fun _ _ _ _ => Relates T K π ε G) := by
  refine exec_hier orc T (P := Relates T K π ε G) Relates.refl (fun _ _ _ => Relates.trans) ?_ ?_ ?_ ?_ n
  · intro f w w' hf hl
    obtain ⟨L, hL, hm⟩ := hl.said'
    exact relates_still hL (by rw [hl.kind]) (m.same _ _ (hl.sameAt hf)) fun e he s => m.other e s (by rw [(hm e he).1]; exact hf)
  · intro f w t v c w' _ _ _ h; exact h
  · intro s t v c w w' ht _ _ _ h
    have h1 : Relates T K π ε G w (enterW w s t v c) :=
      relates_still (L := []) rfl rfl (m.same _ _ (.enter T w s t v c)) nofun
    exact h1.trans h
  · intro n s v c w x w' ih h hk
    by_cases hi : ∃ i, c = .onInstall i
    · obtain ⟨i, rfl⟩ := hi
      exact absurd h (m.noInstall _ _ _ _ _ _ _ _ hk)
    · rcases m.call c (fun i e => hi ⟨i, e⟩) with ⟨h1, h2⟩ | h1
      · obtain ⟨hv, hb, hB⟩ := exec_body ih h
        have h3 : Relates T K π ε G w (enterW w s T v c) :=
          relates_still (L := []) rfl rfl (m.same _ _ (.enter T w s T v c)) nofun
        refine (h3.trans ?_ : Relates T K π ε G w w') hk
        intro hk'
        refine (?_ : Relates T K π ε G (enterW w s T v c) w' ∧ w'.kind = w.kind).1 hk'
        refine Body.elim (R := fun u u' => u.kind = w.kind → Relates T K π ε G u u' ∧ u'.kind = w.kind) ?_ ?_ ?_ ?_ hB rfl
        · intro u hu; exact ⟨.refl _, hu⟩
        · intro a b c h1 h2 ha
          obtain ⟨h3, h4⟩ := h1 ha
          obtain ⟨h5, h6⟩ := h2 h4
          exact ⟨h3.trans h5, h6⟩
        · intro u u' hls hu
          have hku : K (u.kind T) := by rw [hu]; exact hk
          obtain ⟨L, hL, hm⟩ := hls.said'
          refine ⟨relates_still hL (by rw [hls.kind]) (h1 _ _ _ rfl rfl hku hls) fun e he s => ?_, by rw [hls.kind, hu]⟩
          obtain ⟨e1, e2⟩ := hm e he
          obtain ⟨y, e⟩ := e
          dsimp only at e1; subst e1
          rcases e2 with e2 | e2
          · rw [mkFrame_to] at e2; rw [e2] at hku; exact absurd hku m.Kfo
          · exact h2 _ _ _ e2
        · intro t' v' c' u u' ho hc hu
          exact ⟨hc.2, by rw [hc.1.kind, hu]⟩
      · obtain ⟨L, h2, h3, h4⟩ := h1 _ _ _ _ _ _ _ hk h
        exact ⟨L, h2, by rw [(exec_rel orc _ _ _ _ _ _ _ _ h).1.kind], h3, h4⟩

theorem Chronicle.deployBody (m : Chronicle T K π ε G s0) {f : Frame} {i w w'} (hc : f.call = .onInstall i)
    (hB : Body (WithStable fun _ _ _ _ => Relates T K π ε G) f w w') : Relates T K π ε G w w' := by
  intro hk
  refine (?_ : Relates T K π ε G w w' ∧ w'.kind = w.kind).1 hk
  refine Body.elim (R := fun u u' => u.kind = w.kind → Relates T K π ε G u u' ∧ u'.kind = w.kind) ?_ ?_ ?_ ?_ hB rfl
  · intro u hu; exact ⟨.refl _, hu⟩
  · intro a b c h1 h2 ha
    obtain ⟨h3, h4⟩ := h1 ha
    obtain ⟨h5, h6⟩ := h2 h4
    exact ⟨h3.trans h5, h6⟩
  · intro u u' hls hu
    have hku : K (u.kind T) := by rw [hu]; exact hk
    obtain ⟨L, hL, hm⟩ := hls.said'
    refine ⟨relates_still hL (by rw [hls.kind]) ?_ fun e he s => ?_, by rw [hls.kind, hu]⟩
    · by_cases e : f.to = T
      · exact m.inst f i u u' e hc hku hls
      · exact m.same _ _ (hls.sameAt e)
    · obtain ⟨e1, e2⟩ := hm e he
      obtain ⟨y, e⟩ := e
      dsimp only at e1; subst e1
      by_cases hT : f.to = T
      · rcases e2 with e2 | e2
        · rw [hT] at e2; rw [e2] at hku; exact absurd hku m.Kfo
        · rw [hc] at e2; rw [hT]; exact m.instLog _ _ _ _ e2
      · exact m.other _ s hT
  · intro t' v' c' u u' ho hc hu
    exact ⟨hc.2, by rw [hc.1.kind, hu]⟩

theorem Chronicle.tx (m : Chronicle T K π ε G s0) (orc : Oracle) (fuel : Nat) (tx : Tx) (w : World) :
    Relates T K π ε G w (tx.apply orc fuel w) := by
  rcases apply_cases orc fuel tx w with h | ⟨s, t, v, c, x, _, _, h⟩ | ⟨s, a, i, x, _, _, h⟩
  · rw [h]; exact .refl w
  · exact m.exec orc fuel _ _ _ _ _ _ _ h
  · intro hk
    obtain ⟨⟨_, _, hn, _⟩, w1, hI, hB⟩ := deploy_body orc fuel s a i (withStable fun _ _ _ _ => Relates T K π ε G)
      (fun t v c w x w' e => ⟨(exec_rel orc fuel a t v c w x w' e).1, m.exec orc fuel _ _ _ _ _ _ _ e⟩) h
    have hne : a ≠ T := by rintro rfl; rw [hn] at hk; exact m.Kne hk
    have hs := installed_sameAt hI hne
    obtain ⟨L, hL, hm⟩ := hI.said
    have h1 : Relates T K π ε G w w1 := relates_still hL hs.kind (m.same _ _ hs) fun e he s => m.other e s (by rw [(hm e he).1]; exact hne)
    exact (h1.trans (m.deployBody rfl hB)) hk

/-- In every reachable ledger, `π` is what the log tells, and every entry fits what was told before. -/
theorem Chronicle.reachable (m : Chronicle T K π ε G s0) {w : World} (h : Reachable w) (hk : K (w.kind T)) :
    ∃ f i, f ∈ w.frames ∧ f.to = T ∧ f.call = .onInstall i ∧ i.kind = w.kind T ∧
      π w = retell ε w.log (s0 f.sender) ∧ EachEntry ε G w.log (s0 f.sender) := by
  induction h with
  | genesis hg => rw [hg.kind] at hk; exact absurd hk m.Kne
  | @step w orc fuel tx h ih =>
    have glue : ∀ {w0 w' : World} {f : Frame} {i : Install}, Relates T K π ε G w0 w' → w0.frames <:+ w'.frames → K (w0.kind T) →
        f ∈ w0.frames → f.to = T → f.call = .onInstall i → i.kind = w0.kind T → π w0 = retell ε w0.log (s0 f.sender) →
        EachEntry ε G w0.log (s0 f.sender) →
        ∃ f i, f ∈ w'.frames ∧ f.to = T ∧ f.call = .onInstall i ∧ i.kind = w'.kind T ∧
          π w' = retell ε w'.log (s0 f.sender) ∧ EachEntry ε G w'.log (s0 f.sender) := by
      intro w0 w' f i hf hfr hk0 h1 h2 h3 h4 h5 h6
      obtain ⟨l, e1, e2, e3, e4⟩ := hf hk0
      refine ⟨f, i, hfr.subset h1, h2, h3, by rw [e2]; exact h4, ?_, ?_⟩
      · rw [e1, e3, retell_append, h5]
      · rw [e1]; exact eachEntry_append h6 (by rw [← h5]; exact e4)
    by_cases hk0 : K (w.kind T)
    · obtain ⟨f, i, h1, h2, h3, h4, h5, h6⟩ := ih hk0
      exact glue (m.tx orc fuel tx w) (tx_steps orc fuel tx w).frames hk0 h1 h2 h3 h4 h5 h6
    · rcases apply_cases orc fuel tx w with e | ⟨s, t, v, c, x, _, _, e⟩ | ⟨s, a, i, x, _, _, e⟩
      · rw [e] at hk; exact absurd hk hk0
      · rw [(exec_rel orc fuel _ _ _ _ _ _ _ e).1.kind] at hk; exact absurd hk hk0
      · obtain ⟨⟨hac, _, hn, _⟩, w1, hI, hB⟩ := deploy_body orc fuel s a i (withStable fun _ _ _ _ => Relates T K π ε G)
          (fun t v c w x w' e => ⟨(exec_rel orc fuel a t v c w x w' e).1, m.exec orc fuel _ _ _ _ _ _ _ e⟩) e
        have hst := hB.stable (withStable _)
        rw [hst.kind] at hk
        have hk1 := hk
        rw [hI.kind, enterW_kind, setKind_kind] at hk
        split at hk
        · rename_i haT
          subst haT
          obtain ⟨L, d0, d1, d2⟩ := m.deployed s w i w1 h.basic hn hk hI
          obtain ⟨r1, r2⟩ := retell_still (ε := ε) (G := G) (L := w.log)
            (fun e he s => m.other e s ((h.silent T hac hn).2 e he)) (s0 s)
          have hfr : w1.frames = mkFrame (w.setKind T i.kind) s T 0 (.onInstall i) :: w.frames := by rw [hI.frames]; rfl
          refine glue (f := mkFrame (w.setKind T i.kind) s T 0 (.onInstall i)) (i := i) (m.deployBody rfl hB) hst.frames hk1 ?_ rfl rfl ?_ ?_ ?_
          · rw [hfr]; exact List.mem_cons_self
          · rw [hI.kind, enterW_kind, setKind_kind, if_pos rfl]
          · rw [d0, d1, retell_append, mkFrame_sender, r1]
          · rw [d0, mkFrame_sender]; exact eachEntry_append r2 (by rw [r1]; exact d2)
        · exact absurd hk hk0

/-! ### Owners, converter settings, registry entries -/

theorem ownerChronicle (T : Addr) : Chronicle T Kind.isOwned (fun w => (w.own T).owner) (ownerTold T) (OwnerEntry T) some where
  Kne := by simp [Kind.isOwned]
  Kfo := by simp [Kind.isOwned]
  same _ _ h := by rw [h.own]
  other e s h := ⟨by simp [ownerTold, h], fun h' => absurd h' h⟩
  call c hi := by
    by_cases h2 : c = .acceptOwnerShip
    · subst h2
      right
      intro orc n s v w x w' hk h
      have hv := exec_owned_value hk h (by simp)
      subst hv
      rw [ok_exec_acceptOwnerShip hk] at h
      obtain ⟨_, h1, _, rfl⟩ := h
      refine ⟨[(T, .OwnerUpdate (w.own T).owner (some s))], rfl, ?_, ?_⟩
      · simp [retell, ownerTold]
      · exact eachEntry_cons (eachEntry_nil _ _ _) fun _ => ⟨rfl, by simp⟩
    left
    constructor
    · intro f u u' hT hc _ hl
      by_cases h1 : ∃ a, c = .transferOwnerShip a
      · obtain ⟨a, rfl⟩ := h1
        cases hl with
        | nominate a' _ _ hc' => dsimp only; rw [hT, setOwn_own_same]
        | accept _ _ hc' => rw [hc] at hc'; cases hc'
        | _ => rfl
      · rw [hl.own_quiet (fun a e => h1 ⟨a, hc ▸ e⟩) (fun e => h2 (hc ▸ e))]
    · intro k e s hf
      cases e with
      | OwnerUpdate => exact absurd hf h2
      | _ => exact ⟨if_pos rfl, fun _ => trivial⟩
  noInstall orc n s v i w x w' hk h := exec_owned_noInstall hk h
  inst f i u u' _ hc _ hl := by rw [hl.own_quiet (by simp [hc]) (by simp [hc])]
  instLog k i e s hf := by
    cases e with
    | OwnerUpdate => cases hf
    | _ => exact ⟨if_pos rfl, fun _ => trivial⟩
  deployed s w i w1 hi hk hK hI := by
    cases hI with
    | flex => exact ⟨[(T, .NewFlexibleToken T)], rfl, by simp [retell, ownerTold], eachEntry_cons (eachEntry_nil _ _ _) fun _ => trivial⟩
    | reg => exact ⟨[(T, .AddressUpdate ScoreRegistry.SCORE_REGISTRY T)], rfl, by simp [retell, ownerTold], eachEntry_cons (eachEntry_nil _ _ _) fun _ => trivial⟩
    | icx => exact ⟨[], rfl, by simp [retell], eachEntry_nil _ _ _⟩
    | conv => exact ⟨[], rfl, by simp [retell], eachEntry_nil _ _ _⟩
    | net => exact ⟨[], rfl, by simp [retell], eachEntry_nil _ _ _⟩
    | irc => simp [Install.kind, Kind.isOwned] at hK
    | foreign => simp [Install.kind, Kind.isOwned] at hK

/-- The settings of a converter that its log tells. -/
def World.convTold (w : World) (T : Addr) : ConvTold := ⟨(w.conv T).manager, (w.conv T).fee, (w.conv T).enabled⟩

theorem convChronicle (T : Addr) : Chronicle T (· = .conv) (fun w => w.convTold T) (convTold T) (ConvEntry T) (fun _ => {}) where
  Kne := by simp
  Kfo := by simp
  same _ _ h := by simp [World.convTold, h.conv]
  other e s h := ⟨by simp [Verif.convTold, h], fun h' => absurd h' h⟩
  call c hi := by
    by_cases h2 : c = .acceptManagement
    · subst h2
      right
      intro orc n s v w x w' hk h
      rw [ok_exec_acceptManagement hk] at h
      obtain ⟨rfl, _, _, h1, rfl⟩ := h
      refine ⟨[(T, .ManagerUpdate (w.conv T).manager (some s))], rfl, ?_, ?_⟩
      · simp [retell, Verif.convTold, World.convTold]
      · exact eachEntry_cons (eachEntry_nil _ _ _) fun _ => ⟨rfl, by simp⟩
    by_cases h3 : ∃ a, c = .setConversionFee a
    · obtain ⟨a, rfl⟩ := h3
      right
      intro orc n s v w x w' hk h
      rw [ok_exec_setConversionFee hk] at h
      obtain ⟨rfl, _, _, h1, h2, rfl⟩ := h
      refine ⟨[(T, .ConversionFeeUpdate (w.conv T).fee a)], rfl, ?_, ?_⟩
      · simp [retell, Verif.convTold, World.convTold]
      · exact eachEntry_cons (eachEntry_nil _ _ _) fun _ => ⟨rfl, h2.1⟩
    by_cases h4 : ∃ a, c = .disableConversions a
    · obtain ⟨a, rfl⟩ := h4
      right
      intro orc n s v w x w' hk h
      rw [ok_exec_disableConversions hk] at h
      obtain ⟨rfl, _, _, h1, ⟨h2, rfl⟩ | ⟨h2, rfl⟩⟩ := h
      · refine ⟨[(T, .ConversionsEnable (!a))], rfl, ?_, ?_⟩
        · simp [retell, Verif.convTold, World.convTold]
        · refine eachEntry_cons (eachEntry_nil _ _ _) fun _ => ?_
          change (w.conv T).enabled = !!a
          rw [h2]; simp
      · exact ⟨[], rfl, rfl, eachEntry_nil _ _ _⟩
    left
    constructor
    · intro f u u' hT hc _ hl
      subst hc
      cases hl with
      | nominateManager a _ _ hc => simp [World.convTold, hT]
      | acceptManager _ _ hc => exact absurd hc h2
      | conv c' _ hc =>
        subst hT
        cases hc with
        | disableConversions _ hc => exact absurd ⟨_, hc⟩ h4
        | setFee _ hc => exact absurd ⟨_, hc⟩ h3
        | _ => simp [World.convTold]
      | _ => rfl
    · intro k e s hf
      cases e with
      | ManagerUpdate => exact absurd hf h2
      | ConversionFeeUpdate => exact absurd hf h3
      | ConversionsEnable => exact absurd hf h4
      | _ => exact ⟨if_pos rfl, fun _ => trivial⟩
  noInstall orc n s v i w x w' hk h := exec_owned_noInstall (.inr (.inr (.inl hk))) h
  inst f i u u' hT hc _ hl := by
    cases hl with
    | nominateManager a _ _ hc => simp [World.convTold, hT]
    | acceptManager _ _ hc' => rw [hc] at hc'; cases hc'
    | conv c' _ hc' =>
      subst hT
      cases hc' with
      | disableConversions _ hc' => rw [hc] at hc'; cases hc'
      | setFee _ hc' => rw [hc] at hc'; cases hc'
      | _ => simp [World.convTold]
    | _ => rfl
  instLog k i e s hf := by
    cases e with
    | ManagerUpdate => cases hf
    | ConversionFeeUpdate => obtain ⟨_, hf⟩ := hf; cases hf
    | ConversionsEnable => obtain ⟨_, hf⟩ := hf; cases hf
    | _ => exact ⟨if_pos rfl, fun _ => trivial⟩
  deployed s w i w1 hi hk hK hI := by
    have h0 : w.conv T = {} := hi.conv T (by simp [hk])
    cases hI with
    | conv t r mf ct cw _ _ h1 h2 =>
      refine ⟨[], rfl, ?_, eachEntry_nil _ _ _⟩
      have h0' : (enterW (w.setKind T (Install.conv (some t) (some r) mf ct cw).kind) s T 0
          (.onInstall (.conv (some t) (some r) mf ct cw))).conv T = {} := h0
      simp only [World.convTold, setConv_conv_same, h0']
      rfl
    | _ => simp [Install.kind] at hK

theorem regChronicle (T : Addr) (hT : T ≠ ZERO) (hc : T.isContract = true) :
    Chronicle T (· = .reg) (fun w => w.reg T) (regTold T) (RegEntry T) (fun _ _ => none) where
  Kne := by simp
  Kfo := by simp
  same _ _ h := h.reg
  other e s h := ⟨by simp [regTold, h], fun h' => absurd h' h⟩
  call c hi := by
    by_cases h1 : ∃ m a, c = .registerAddress m a
    · obtain ⟨m, a, rfl⟩ := h1
      right
      intro orc n s v w x w' hk h
      rw [ok_exec_registerAddress hk] at h
      obtain ⟨rfl, _, _, h1, h2, h3, h4, rfl⟩ := h
      refine ⟨[(T, .AddressUpdate m a)], rfl, ?_, ?_⟩
      · funext y
        simp [retell, regTold, setReg_reg, h2, upd_apply]
      · refine eachEntry_cons (eachEntry_nil _ _ _) fun _ => ?_
        dsimp only; rw [if_neg h2]; exact ⟨h3, mem_keys.mp h4⟩
    by_cases h2 : ∃ m, c = .unregisterAddress m
    · obtain ⟨m, rfl⟩ := h2
      right
      intro orc n s v w x w' hk h
      rw [ok_exec_unregisterAddress hk] at h
      obtain ⟨rfl, _, _, h1, h2, rfl⟩ := h
      refine ⟨[(T, .AddressUpdate m ZERO)], rfl, ?_, ?_⟩
      · funext y
        simp [retell, regTold, setReg_reg, upd_apply]
      · refine eachEntry_cons (eachEntry_nil _ _ _) fun _ => ?_
        dsimp only; rw [if_pos rfl]; exact h2
    left
    constructor
    · intro f u u' _ hc _ hl
      subst hc
      rw [hl.reg_quiet (fun n a e => h1 ⟨n, a, e⟩) (fun a e => h2 ⟨a, e⟩)]
    · intro k e s hf
      cases e with
      | AddressUpdate => exact (hf.elim h1 h2).elim
      | _ => exact ⟨if_pos rfl, fun _ => trivial⟩
  noInstall orc n s v i w x w' hk h := exec_owned_noInstall (.inr (.inr (.inr (.inr hk)))) h
  inst f i u u' _ hc _ hl := by rw [hl.reg_quiet (by simp [hc]) (by simp [hc])]
  instLog k i e s hf := by
    cases e with
    | AddressUpdate => rcases hf with ⟨_, _, hf⟩ | ⟨_, hf⟩ <;> cases hf
    | _ => exact ⟨if_pos rfl, fun _ => trivial⟩
  deployed s w i w1 hi hk hK hI := by
    have h0 : w.reg T = fun _ => none := hi.reg T (by simp [hk])
    cases hI with
    | reg =>
      have h0' : (enterW (w.setKind T Install.reg.kind) s T 0 (.onInstall .reg)).reg T = fun _ => none := h0
      refine ⟨[(T, .AddressUpdate ScoreRegistry.SCORE_REGISTRY T)], rfl, ?_, ?_⟩
      · funext y
        simp [retell, regTold, setReg_reg, hT, upd_apply, h0']
      · refine eachEntry_cons (eachEntry_nil _ _ _) fun _ => ?_
        dsimp only; rw [if_neg hT]; exact ⟨hc, .inl rfl⟩
    | _ => simp [Install.kind] at hK

end Verif

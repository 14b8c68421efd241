import Verif.Proofs.LedgerTx
import Verif.Spec.Events
/-!
A token's balances can be read off the event log.
-/
namespace Verif

open Relation

theorem tally_nil (g) : tally g [] = 0 := rfl
theorem tally_append (g) (a b : List (Addr × Event)) : tally g (a ++ b) = tally g a + tally g b := by
  simp [tally, List.sum_append]
theorem tally_cons (g) (e) (b : List (Addr × Event)) : tally g (e :: b) = g e + tally g b := by
  simp [tally]

theorem tally_zero {g} {l : List (Addr × Event)} (h : ∀ e ∈ l, g e = 0) : tally g l = 0 := by
  induction l with
  | nil => rfl
  | cons e l ih =>
    rw [tally_cons, h e List.mem_cons_self, ih fun e he => h e (List.mem_cons_of_mem _ he)]; rfl

/-- The log accounts for token `T` between two ledgers. -/
structure Tells' (T : Addr) (F : List Frame) (L : List (Addr × Event)) (w w' : World) : Prop where
  frames : w'.frames = F ++ w.frames
  log : w'.log = L ++ w.log
  kind : w'.kind T = w.kind T
  bal : ∀ a, (w'.tok T).bal a = (w.tok T).bal a + tally (told (w.kind T) T a) L - total (withdrawn T a) F
  supply : (w'.tok T).supply = (w.tok T).supply + tally (toldSupply T) L
  none : w.kind T ≠ .icx → ∀ a, total (withdrawn T a) F = 0

def Tells (T : Addr) (w w' : World) : Prop := (w.kind T).isToken → ∃ F L, Tells' T F L w w'

theorem Tells'.refl (T w) : Tells' T [] [] w w :=
  ⟨rfl, rfl, rfl, fun a => by rw [total_nil, tally_nil]; omega, by rw [tally_nil]; omega, fun _ _ => rfl⟩

theorem Tells'.trans {T F1 F2 L1 L2 a b c} (h : Tells' T F1 L1 a b) (h' : Tells' T F2 L2 b c) : Tells' T (F2 ++ F1) (L2 ++ L1) a c where
  frames := by rw [h'.frames, h.frames, List.append_assoc]
  log := by rw [h'.log, h.log, List.append_assoc]
  kind := h'.kind.trans h.kind
  bal x := by rw [h'.bal, h.bal, h.kind, total_append, tally_append]; omega
  supply := by rw [h'.supply, h.supply, tally_append]; omega
  none hk x := by rw [total_append, h.none hk, h'.none (by rw [h.kind]; exact hk)]; rfl

theorem Tells.refl (T w) : Tells T w w := fun _ => ⟨[], [], .refl T w⟩
theorem Tells.trans {T a b c} (h : Tells T a b) (h' : Tells T b c) : Tells T a c := by
  intro hk
  obtain ⟨_, _, h⟩ := h hk
  obtain ⟨_, _, h'⟩ := h' (by rw [h.kind]; exact hk)
  exact ⟨_, _, h.trans h'⟩

theorem tells_same {T w w'} {L : List (Addr × Event)} (hf : w'.frames = w.frames) (hk : w'.kind T = w.kind T) (ht : w'.tok T = w.tok T)
    (hl : w'.log = L ++ w.log) (h1 : ∀ e ∈ L, ∀ a, told (w.kind T) T a e = 0) (h2 : ∀ e ∈ L, toldSupply T e = 0) : Tells' T [] L w w' where
  frames := hf
  log := hl
  kind := hk
  bal a := by rw [total_nil, tally_zero fun e he => h1 e he a, ht]; omega
  supply := by rw [tally_zero h2, ht]; omega
  none _ _ := rfl

theorem told_other {k T a} {e : Addr × Event} (h : e.1 ≠ T) : told k T a e = 0 ∧ toldSupply T e = 0 := by
  unfold told toldSupply; rw [if_neg h, if_neg h]; exact ⟨rfl, rfl⟩

theorem told_still {k T a} {e : Addr × Event} (h : e.2.moves = false) : told k T a e = 0 ∧ toldSupply T e = 0 := by
  obtain ⟨x, e⟩ := e
  unfold told toldSupply
  cases e <;> first | (cases h; done) | simp

theorem LocalStep.said' {f w w'} (h : LocalStep f w w') :
    ∃ L, w'.log = L ++ w.log ∧ ∀ e ∈ L, e.1 = f.to ∧ (w.kind f.to = .foreign ∨ Fits (w.kind f.to) f.call e.2) := by
  cases h with
  | log e h => exact ⟨[(f.to, e)], rfl, fun e' he => by rw [List.mem_singleton] at he; subst he; exact ⟨rfl, h⟩⟩
  | _ => exact ⟨[], rfl, nofun⟩

/-- What a step adds to the log. -/
theorem LocalStep.said {f w w'} (h : LocalStep f w w') :
    ∃ L, w'.log = L ++ w.log ∧ ∀ e ∈ L, e.1 = f.to ∧ (e.2.moves = true → w.kind f.to = .foreign ∨ Moving (w.kind f.to) f.call) := by
  obtain ⟨L, h1, h2⟩ := h.said'
  refine ⟨L, h1, fun e he => ⟨(h2 e he).1, fun hm => ?_⟩⟩
  obtain ⟨x, e⟩ := e
  rcases (h2 _ he).2 with h3 | h3
  · exact .inl h3
  · right
    cases e <;> first | exact h3 | cases hm

theorem tells_enter {T w s t v c} (hc : ∀ a, withdrawn T a (mkFrame w s t v c) = 0) : Tells' T [mkFrame w s t v c] [] w (enterW w s t v c) where
  frames := rfl
  log := rfl
  kind := rfl
  bal a := by rw [total_one, hc, tally_nil]; simp
  supply := by rw [tally_nil]; simp
  none _ a := by rw [total_one, hc]

theorem tells_quiet {orc n T s v c w x w'} (ih : AllCalls orc n (fun _ _ _ _ => Tells T)) (hk : (w.kind T).isToken)
    (h : exec orc (n + 1) s T v c w = .ok (x, w')) (hq : Quiet c ∨ (w.kind T ≠ .icx ∧ c = .fallback)) : ∃ F L, Tells' T F L w w' := by
  obtain ⟨hv, hb, hB⟩ := exec_body ih h
  have hv0 : v = 0 := exec_tok_value hk h (by
    intro hk'
    rcases hq with hq | hq
    · constructor <;> rintro rfl <;> exact hq
    · exact absurd hk' hq.1)
  subst hv0
  have hnm : ¬ Moving (w.kind T) c := by
    rcases hq with hq | ⟨h1, rfl⟩
    · intro hm
      cases c <;> first | exact hq.elim | exact hm.elim
    · exact h1
  have key : Tells T (enterW w s T 0 c) w' ∧ (w'.kind = w.kind) := by
    refine Body.elim (R := fun u u' => (u.kind = w.kind → Tells T u u' ∧ u'.kind = w.kind)) ?_ ?_ ?_ ?_ hB rfl
    · intro u hu; exact ⟨.refl _ _, hu⟩
    · intro a b c h1 h2 ha
      obtain ⟨h3, h4⟩ := h1 ha
      obtain ⟨h5, h6⟩ := h2 h4
      exact ⟨h3.trans h5, h6⟩
    · intro u u' hls hu
      refine ⟨fun _ => ?_, by rw [hls.kind, hu]⟩
      obtain ⟨L, hL, hm⟩ := hls.said
      have hst : ∀ e ∈ L, e.2.moves = false := by
        intro e he
        by_contra hne
        rcases (hm e he).2 (by simpa using hne) with h1 | h1
        · rw [mkFrame_to, hu] at h1; rw [h1] at hk; simp [Kind.isToken] at hk
        · rw [mkFrame_to, mkFrame_call, hu] at h1; exact hnm h1
      refine ⟨[], L, tells_same hls.frames (by rw [hls.kind]) ?_ hL (fun e he a => (told_still (a := a) (hst e he)).1)
        fun e he => (told_still (k := w.kind T) (a := T) (hst e he)).2⟩
      rw [hls.quiet]
      rw [mkFrame_call, mkFrame_to, hu]; exact hq
    · intro t' v' c' u u' ho hc hu
      exact ⟨hc.2, by rw [hc.1.kind, hu]⟩
  obtain ⟨F, L, hl⟩ := key.1 hk
  refine ⟨_, _, (tells_enter ?_).trans hl⟩
  intro a
  unfold withdrawn
  rw [mkFrame_to, if_pos rfl, mkFrame_call]
  rcases hq with hq | ⟨_, rfl⟩
  · cases c <;> first | rfl | exact hq.elim
  · rfl

section
variable {k : Kind} {T a s b : Addr} {v : Int}
theorem told_transfer {d} : told k T a (T, .Transfer s b v d) = (if a = b then v else 0) - (if a = s then v else 0) := if_pos rfl
theorem told_issuance : told k T a (T, .Issuance v) = if a = T then v else 0 := if_pos rfl
theorem told_destruction : told k T a (T, .Destruction v) = if a = T ∧ k ≠ .icx then -v else 0 := if_pos rfl
theorem toldSupply_transfer {d} : toldSupply T (T, .Transfer s b v d) = 0 := if_pos rfl
theorem toldSupply_issuance : toldSupply T (T, .Issuance v) = v := if_pos rfl
theorem toldSupply_destruction : toldSupply T (T, .Destruction v) = -v := if_pos rfl
theorem withdrawn_zero {w : World} {x : Int} {c : Call} (h : ∀ v, c ≠ .withdraw v) (h' : ∀ v b, c ≠ .withdrawTo v b) :
    withdrawn T a (mkFrame w s T x c) = 0 := by
  unfold withdrawn
  rw [mkFrame_call]
  split
  · split
    · rename_i v _; exact absurd rfl (h v)
    · rename_i v b _; exact absurd rfl (h' v b)
    · rfl
  · rfl
end

/-- Every call is told. -/
theorem tells_exec (orc : Oracle) (T : Addr) (n : Nat) : AllCalls orc n (fun _ _ _ _ => Tells T) := by
  refine exec_hier orc T (P := Tells T) (Tells.refl T) (fun _ _ _ => Tells.trans) ?_ ?_ ?_ ?_ n
  · intro f w w' hf hl _
    obtain ⟨L, hL, hm⟩ := hl.said
    exact ⟨[], L, tells_same hl.frames (by rw [hl.kind]) (hl.sameAt hf).tok hL
      (fun e he a => (told_other (by rw [(hm e he).1]; exact hf)).1)
      fun e he => (told_other (k := .none) (a := T) (by rw [(hm e he).1]; exact hf)).2⟩
  · intro f w t v c w' _ _ _ h; exact h
  · intro s t v c w w' ht _ _ _ h hk
    obtain ⟨_, _, hl⟩ := h hk
    refine ⟨_, _, (tells_enter ?_).trans hl⟩
    intro a; unfold withdrawn; rw [mkFrame_to, if_neg ht]
  · intro n s v c w x w' ih h hk
    by_cases hq : Quiet c
    · exact tells_quiet ih hk h (.inl hq)
    cases c with
    | transfer b m d =>
      have hv := exec_tok_value hk h (fun _ => ⟨by rintro ⟨⟩, by rintro ⟨⟩⟩)
      subst hv
      rw [ok_exec_transfer hk] at h
      obtain ⟨_, _, _, hm, _, _, h⟩ := h
      have hz : ∀ a, withdrawn T a (mkFrame w s T 0 (.transfer b m d)) = 0 := fun a => withdrawn_zero nofun nofun
      -- the transfer and its event, around the nested call
      have key : ∀ {F L u}, Tells' T F L ((w.note s T 0 (.transfer b m d)).pay T s b m) u →
          ∃ F L, Tells' T F L w (u.addLog T (.Transfer s b m (d.getD .noneBytes))) := by
        intro F L u hu
        refine ⟨F ++ [mkFrame w s T 0 (.transfer b m d)], (T, .Transfer s b m (d.getD .noneBytes)) :: L, ?_, ?_, hu.kind, ?_, ?_, ?_⟩
        · rw [addLog_frames, hu.frames]; simp [World.pay]; rfl
        · change _ :: u.log = _; rw [hu.log]; rfl
        · intro a
          have e1 := hu.bal a
          have e2 : (((w.note s T 0 (.transfer b m d)).pay T s b m).tok T).bal a =
              (w.tok T).bal a - (if a = s then m else 0) + (if a = b then m else 0) := by simp [World.pay, moveBal]
          have e3 : ((w.note s T 0 (.transfer b m d)).pay T s b m).kind T = w.kind T := rfl
          rw [e2, e3] at e1
          rw [addLog_tok, e1, tally_cons, told_transfer, total_append, total_one, hz]
          omega
        · have e1 := hu.supply
          have e2 : (((w.note s T 0 (.transfer b m d)).pay T s b m).tok T).supply = (w.tok T).supply := by simp [World.pay]
          rw [addLog_tok, e1, e2, tally_cons, toldSupply_transfer]; omega
        · intro hk a
          rw [total_append, total_one, hz, hu.none hk]; rfl
      rcases h with ⟨_, rfl⟩ | ⟨_, y, w1, h2, rfl⟩
      · exact key (.refl _ _)
      · obtain ⟨_, _, h2⟩ := ih _ _ _ _ _ _ _ h2 hk
        exact key h2
    | issue b m =>
      have hkf := exec_flexOnly hk h (.inl ⟨_, _, rfl⟩)
      have hv := exec_tok_value hk h (fun _ => ⟨by rintro ⟨⟩, by rintro ⟨⟩⟩)
      subst hv
      rw [ok_exec_issue hkf] at h
      obtain ⟨_, h1, h2, _, _, _, rfl⟩ := h
      have hz : ∀ a, withdrawn T a (mkFrame w s T 0 (.issue b m)) = 0 := fun a => withdrawn_zero nofun nofun
      refine ⟨[mkFrame w s T 0 (.issue b m)], [(T, .Transfer T b m .noneBytes), (T, .Issuance m)], rfl, rfl, rfl, ?_, ?_, ?_⟩
      · intro a
        rw [total_one, hz, tally_cons, tally_cons, tally_nil, told_transfer, told_issuance]
        simp [gain]
      · rw [tally_cons, tally_cons, tally_nil, toldSupply_transfer, toldSupply_issuance]; simp
      · intro _ a; rw [total_one, hz]
    | destroy b m =>
      have hkf := exec_flexOnly hk h (.inr ⟨_, _, rfl⟩)
      have hv := exec_tok_value hk h (fun _ => ⟨by rintro ⟨⟩, by rintro ⟨⟩⟩)
      subst hv
      rw [ok_exec_destroy hkf] at h
      obtain ⟨_, h1, h2, h3, _, rfl⟩ := h
      have hz : ∀ a, withdrawn T a (mkFrame w s T 0 (.destroy b m)) = 0 := fun a => withdrawn_zero nofun nofun
      refine ⟨[mkFrame w s T 0 (.destroy b m)], [(T, .Transfer b T m .noneBytes), (T, .Destruction m)], rfl, rfl, rfl, ?_, ?_, ?_⟩
      · intro a
        rw [total_one, hz, tally_cons, tally_cons, tally_nil, told_transfer, told_destruction]
        simp [gain, hkf]
        split <;> split <;> omega
      · rw [tally_cons, tally_cons, tally_nil, toldSupply_transfer, toldSupply_destruction]; simp [Int.sub_eq_add_neg]
      · intro _ a; rw [total_one, hz]
    | deposit =>
      have hki := exec_icxOnly hk h (.inl rfl)
      rw [ok_exec_deposit hki (.inl rfl)] at h
      obtain ⟨h1, _, _, rfl⟩ := h
      have hz : ∀ a, withdrawn T a (mkFrame w s T v .deposit) = 0 := fun a => withdrawn_zero nofun nofun
      refine ⟨[mkFrame w s T v .deposit], [(T, .Transfer T s v .noneBytes), (T, .Issuance v)], rfl, rfl, rfl, ?_, ?_, ?_⟩
      · intro a
        rw [total_one, hz, tally_cons, tally_cons, tally_nil, told_transfer, told_issuance]
        simp [gain]
      · rw [tally_cons, tally_cons, tally_nil, toldSupply_transfer, toldSupply_issuance]; simp
      · intro _ a; rw [total_one, hz]
    | fallback =>
      by_cases hki : w.kind T = .icx
      · rw [ok_exec_deposit hki (.inr rfl)] at h
        obtain ⟨h1, _, _, rfl⟩ := h
        have hz : ∀ a, withdrawn T a (mkFrame w s T v .fallback) = 0 := fun a => withdrawn_zero nofun nofun
        refine ⟨[mkFrame w s T v .fallback], [(T, .Transfer T s v .noneBytes), (T, .Issuance v)], rfl, rfl, rfl, ?_, ?_, ?_⟩
        · intro a
          rw [total_one, hz, tally_cons, tally_cons, tally_nil, told_transfer, told_issuance]
          simp [gain]
        · rw [tally_cons, tally_cons, tally_nil, toldSupply_transfer, toldSupply_issuance]; simp
        · intro _ a; rw [total_one, hz]
      · exact tells_quiet ih hk h (.inr ⟨hki, rfl⟩)
    | withdraw m =>
      have hki := exec_icxOnly hk h (.inr (.inl ⟨_, rfl⟩))
      have hv := exec_tok_value hk h (fun _ => ⟨by rintro ⟨⟩, by rintro ⟨⟩⟩)
      subst hv
      rw [ok_exec_withdraw hki (.inr ⟨rfl, rfl⟩)] at h
      obtain ⟨_, h1, _, _, y, w1, h2, rfl⟩ := h
      obtain ⟨F, L, h2⟩ := ih _ _ _ _ _ _ _ h2 hk
      refine ⟨F ++ [mkFrame w s T 0 (.withdraw m)], (T, .Destruction m) :: L, ?_, ?_, h2.kind, ?_, ?_, fun h => absurd hki h⟩
      · rw [addLog_frames, h2.frames]; simp; rfl
      · change _ :: w1.log = _; rw [h2.log]; rfl
      · intro a
        rw [addLog_tok, h2.bal, tally_cons, told_destruction, total_append, total_one]
        have e : withdrawn T a (mkFrame w s T 0 (.withdraw m)) = if a = s then m else 0 := if_pos rfl
        rw [e]
        simp [gain, hki]
        split <;> omega
      · rw [addLog_tok, h2.supply, tally_cons, toldSupply_destruction]; simp; omega
    | withdrawTo m b =>
      have hki := exec_icxOnly hk h (.inr (.inr ⟨_, _, rfl⟩))
      have hv := exec_tok_value hk h (fun _ => ⟨by rintro ⟨⟩, by rintro ⟨⟩⟩)
      subst hv
      rw [ok_exec_withdraw hki (.inl rfl)] at h
      obtain ⟨_, h1, _, _, y, w1, h2, rfl⟩ := h
      obtain ⟨F, L, h2⟩ := ih _ _ _ _ _ _ _ h2 hk
      refine ⟨F ++ [mkFrame w s T 0 (.withdrawTo m b)], (T, .Destruction m) :: L, ?_, ?_, h2.kind, ?_, ?_, fun h => absurd hki h⟩
      · rw [addLog_frames, h2.frames]; simp; rfl
      · change _ :: w1.log = _; rw [h2.log]; rfl
      · intro a
        rw [addLog_tok, h2.bal, tally_cons, told_destruction, total_append, total_one]
        have e : withdrawn T a (mkFrame w s T 0 (.withdrawTo m b)) = if a = s then m else 0 := if_pos rfl
        rw [e]
        simp [gain, hki]
        split <;> omega
      · rw [addLog_tok, h2.supply, tally_cons, toldSupply_destruction]; simp; omega
    | onInstall i => exact (exec_noInstall hk h).elim
    | _ => exact absurd trivial hq

/-! ### Transactions and histories -/

theorem tells_deployBody {T : Addr} {f : Frame} {i w w'} (hc : f.call = .onInstall i)
    (hB : Body (WithStable fun _ _ _ _ => Tells T) f w w') : Tells T w w' :=
  Body.elim (R := Tells T) (Tells.refl T) (fun _ _ _ => Tells.trans)
    (fun u u' hl hk => by
      obtain ⟨L, hL, hm⟩ := hl.said
      have hz : ∀ e ∈ L, ∀ k a, told k T a e = 0 ∧ toldSupply T e = 0 := by
        intro e he k a
        obtain ⟨h1, h2⟩ := hm e he
        by_cases ht : f.to = T
        · refine told_still ?_
          by_contra hne
          rcases h2 (by simpa using hne) with h3 | h3
          · rw [ht] at h3; rw [h3] at hk; simp [Kind.isToken] at hk
          · rw [hc] at h3; exact h3
        · exact told_other (by rw [h1]; exact ht)
      exact ⟨[], L, tells_same hl.frames (by rw [hl.kind]) (by rw [hl.tok_onInstall hc]) hL (fun e he a => (hz e he _ a).1)
        fun e he => (hz e he .none T).2⟩)
    (fun _ _ _ _ _ _ h => h.2) hB

/-- What a deployment logs itself. -/
theorem Installed.said {s a w i w'} (h : Installed s a w i w') : ∃ L, w'.log = L ++ w.log ∧ ∀ e ∈ L, e.1 = a ∧ e.2.moves = false := by
  cases h with
  | flex => exact ⟨[(a, .NewFlexibleToken a)], rfl, fun e he => by rw [List.mem_singleton] at he; subst he; exact ⟨rfl, rfl⟩⟩
  | reg => exact ⟨[(a, .AddressUpdate ScoreRegistry.SCORE_REGISTRY a)], rfl,
      fun e he => by rw [List.mem_singleton] at he; subst he; exact ⟨rfl, rfl⟩⟩
  | _ => exact ⟨[], rfl, nofun⟩

theorem tells_tx (orc : Oracle) (fuel : Nat) (tx : Tx) (w : World) (T : Addr) : Tells T w (tx.apply orc fuel w) := by
  rcases apply_cases orc fuel tx w with h | ⟨s, t, v, c, x, _, _, h⟩ | ⟨s, a, i, x, _, _, h⟩
  · rw [h]; exact .refl T w
  · exact tells_exec orc T fuel _ _ _ _ _ _ _ h
  · intro hk
    obtain ⟨⟨_, _, hn, _⟩, w1, hI, hB⟩ := deploy_body orc fuel s a i (withStable fun _ _ _ _ => Tells T)
      (fun t v c w x w' e => ⟨(exec_rel orc fuel a t v c w x w' e).1, tells_exec orc T fuel _ _ _ _ _ _ _ e⟩) h
    have hne : a ≠ T := by rintro rfl; rw [hn] at hk; simp [Kind.isToken] at hk
    have hs := installed_sameAt hI hne
    obtain ⟨L, hL, hm⟩ := hI.said
    have h1 : Tells' T [mkFrame (w.setKind a i.kind) s a 0 (.onInstall i)] L w w1 :=
      { frames := by rw [hI.frames]; rfl
        log := by rw [hL]; rfl
        kind := hs.kind
        bal := fun x => by rw [total_one, hs.tok, tally_zero fun e he => (told_still (hm e he).2).1]; simp [withdrawn, hne]
        supply := by rw [hs.tok, tally_zero fun e he => (told_still (k := .none) (a := T) (hm e he).2).2]; simp
        none := fun _ x => by rw [total_one]; simp [withdrawn, hne] }
    obtain ⟨_, _, h2⟩ := tells_deployBody rfl hB (by rw [hs.kind]; exact hk)
    exact ⟨_, _, h1.trans h2⟩

/-- Nothing is logged in the name of a contract before it is deployed. -/
theorem Reachable.silent {w} (h : Reachable w) : ∀ a, a.isContract = true → w.kind a = .none →
    (∀ f ∈ w.frames, f.to ≠ a) ∧ ∀ e ∈ w.log, e.1 ≠ a := by
  refine h.inv (I := fun w => ∀ a, a.isContract = true → w.kind a = .none → (∀ f ∈ w.frames, f.to ≠ a) ∧ ∀ e ∈ w.log, e.1 ≠ a) ?_ ?_
  · intro w hg a _ _
    refine ⟨fun f hf => ?_, fun e he => ?_⟩
    · rw [hg.frames] at hf; cases hf
    · rw [hg.log] at he; cases he
  · intro w w' hi hs a ha hk
    cases hs with
    | enter s t v c _ _ _ hn =>
      refine ⟨fun f hf => ?_, fun e he => (hi a ha hk).2 e he⟩
      rw [enterW_frames] at hf
      rcases List.mem_cons.mp hf with rfl | hf
      · rintro rfl
        rw [mkFrame_to] at ha hk
        rw [(hn hk).1] at ha; cases ha
      · exact (hi a ha hk).1 f hf
    | loc g w' hg hl =>
      rw [hl.kind] at hk
      obtain ⟨h1, h2⟩ := hi a ha hk
      refine ⟨fun f hf => ?_, fun e he => ?_⟩
      · rw [hl.frames] at hf; exact h1 f hf
      · obtain ⟨L, hL, hm⟩ := hl.said
        rw [hL] at he
        rcases List.mem_append.mp he with he | he
        · rw [(hm e he).1]; exact h1 g hg.mem
        · exact h2 e he
    | deploy s b i w' _ _ _ hn _ hI =>
      rw [hI.kind, enterW_kind, setKind_kind] at hk
      split at hk
      · cases i <;> cases hk
      · rename_i hne
        obtain ⟨h1, h2⟩ := hi a ha hk
        refine ⟨fun f hf => ?_, fun e he => ?_⟩
        · rw [hI.frames, enterW_frames] at hf
          rcases List.mem_cons.mp hf with rfl | hf
          · rintro rfl; exact hne rfl
          · exact h1 f hf
        · obtain ⟨L, hL, hm⟩ := hI.said
          rw [hL] at he
          rcases List.mem_append.mp he with he | he
          · rw [(hm e he).1]; exact fun e => hne e.symm
          · exact h2 e he

/-- The whole history of token `T`, read off the log. -/
structure Story (T : Addr) (w : World) (f : Frame) (i : Install) : Prop where
  mem : f ∈ w.frames
  dst : f.to = T
  call : f.call = .onInstall i
  made : w.kind T = i.kind
  bal : ∀ a, (w.tok T).bal a = (if a = f.sender then i.grant else 0) + tally (told (w.kind T) T a) w.log - total (withdrawn T a) w.frames
  supply : (w.tok T).supply = i.grant + tally (toldSupply T) w.log
  none : w.kind T ≠ .icx → ∀ a, total (withdrawn T a) w.frames = 0

theorem story_tells {T F L w w' f i} (h : Story T w f i) (hb : Tells' T F L w w') : Story T w' f i where
  mem := by rw [hb.frames]; exact List.mem_append_right _ h.mem
  dst := h.dst
  call := h.call
  made := by rw [hb.kind, h.made]
  bal a := by rw [hb.bal, h.bal, hb.frames, hb.log, hb.kind, total_append, tally_append]; omega
  supply := by rw [hb.supply, h.supply, hb.log, tally_append]; omega
  none hk a := by
    rw [hb.kind] at hk
    rw [hb.frames, total_append, hb.none hk, h.none hk]; rfl

theorem withdrawn_other {T : Addr} {l : List Frame} (h : ∀ f ∈ l, f.to ≠ T) (a : Addr) : total (withdrawn T a) l = 0 := by
  induction l with
  | nil => rfl
  | cons g l ih =>
    rw [total_cons, ih fun f hf => h f (List.mem_cons_of_mem _ hf)]
    simp [withdrawn, h g List.mem_cons_self]

theorem Reachable.story {w} (h : Reachable w) {T : Addr} (hk : (w.kind T).isToken) : ∃ f i, Story T w f i := by
  induction h with
  | genesis hg => rw [hg.kind] at hk; simp [Kind.isToken] at hk
  | @step w orc fuel tx h ih =>
    by_cases hk0 : (w.kind T).isToken
    · obtain ⟨_, _, hb⟩ := tells_tx orc fuel tx w T hk0
      obtain ⟨f, i, hs⟩ := ih hk0
      exact ⟨f, i, story_tells hs hb⟩
    · rcases apply_cases orc fuel tx w with e | ⟨s, t, v, c, x, _, _, e⟩ | ⟨s, a, i, x, _, _, e⟩
      · rw [e] at hk; exact absurd hk hk0
      · rw [(exec_rel orc fuel _ _ _ _ _ _ _ e).1.kind] at hk; exact absurd hk hk0
      · obtain ⟨⟨hac, _, hn, _⟩, w1, hI, hB⟩ := deploy_body orc fuel s a i (withStable fun _ _ _ _ => Tells T)
          (fun t v c w x w' e => ⟨(exec_rel orc fuel a t v c w x w' e).1, tells_exec orc T fuel _ _ _ _ _ _ _ e⟩) e
        have hkk : (tx.apply orc fuel w).kind = w1.kind := (hB.stable (withStable _)).kind
        rw [hkk, hI.kind, enterW_kind, setKind_kind] at hk
        split at hk
        · rename_i haT
          subst haT
          obtain ⟨_, _, h2⟩ := tells_deployBody rfl hB (T := T) (by rw [hI.kind, enterW_kind, setKind_kind, if_pos rfl]; exact hk)
          refine ⟨mkFrame (w.setKind T i.kind) s T 0 (.onInstall i), i, story_tells ?_ h2⟩
          obtain ⟨f1, f2⟩ := h.silent T hac hn
          obtain ⟨L, hL, hm⟩ := hI.said
          have ht : w.tok T = {} := h.basic.tok T hk0
          have hw0 : ∀ a, total (withdrawn T a) w1.frames = 0 := by
            intro a
            rw [hI.frames, enterW_frames, total_cons, withdrawn_other (l := (w.setKind T i.kind).frames) f1, withdrawn_zero (by intro _ h; cases h) (by intro _ _ h; cases h)]; rfl
          have hl0 : ∀ k a, tally (told k T a) w1.log = 0 := by
            intro k a
            rw [hL, tally_append, tally_zero fun e he => (told_still (hm e he).2).1,
              tally_zero (l := (enterW (w.setKind T i.kind) s T 0 (.onInstall i)).log) fun e he => (told_other (f2 e he)).1]; rfl
          have hs0 : tally (toldSupply T) w1.log = 0 := by
            rw [hL, tally_append, tally_zero fun e he => (told_still (k := .none) (a := T) (hm e he).2).2,
              tally_zero (l := (enterW (w.setKind T i.kind) s T 0 (.onInstall i)).log)
                fun e he => (told_other (k := .none) (a := T) (f2 e he)).2]; rfl
          have hmem : mkFrame (w.setKind T i.kind) s T 0 (.onInstall i) ∈ w1.frames := by
            rw [hI.frames, enterW_frames]; exact List.mem_cons_self
          refine ⟨hmem, rfl, rfl, by rw [hI.kind, enterW_kind, setKind_kind, if_pos rfl], fun a => ?_, ?_, fun _ => hw0⟩
          · rw [hw0, hl0, mkFrame_sender]
            cases hI with
            | irc n sy i d h1 h2' =>
              rw [setTok_tok_same]
              simp [ht, upd_apply, World.setKind, Install.grant]
            | icx =>
              rw [setOwn_tok, setTok_tok_same]
              simp [ht, upd_apply, World.setKind, Install.grant]
            | flex n sy i d h1 h2' =>
              rw [addLog_tok, setFlex_tok, setOwn_tok, setTok_tok_same]
              simp [ht, upd_apply, World.setKind, Install.grant]
            | conv | net | reg | foreign => simp [Install.kind, Kind.isToken] at hk
          · rw [hs0]
            cases hI with
            | irc n sy i d h1 h2' => rw [setTok_tok_same]; simp [Install.grant]
            | icx => rw [setOwn_tok, setTok_tok_same]; simp [Install.grant]
            | flex n sy i d h1 h2' => rw [addLog_tok, setFlex_tok, setOwn_tok, setTok_tok_same]; simp [Install.grant]
            | conv | net | reg | foreign => simp [Install.kind, Kind.isToken] at hk
        · exact absurd hk hk0

end Verif

import Verif.Proofs.LedgerTx
/-!
Tokens do not get to contracts that have no `tokenFallback`.
-/
set_option autoImplicit false
set_option linter.unusedSimpArgs false
namespace Verif

open Relation

/-- A contract address that cannot be told of tokens of `K` arriving (ICX tokens receive coin, and thereby ICX tokens). -/
def Deaf (w : World) (K a : Addr) : Prop := a.isContract = true ∧
  (w.kind a = .none ∨ w.kind a = .irc ∨ w.kind a = .flex ∨ w.kind a = .reg ∨ (w.kind a = .icx ∧ w.kind K ≠ .icx))

theorem deaf_tokenFallback {orc : Oracle} {n : Nat} {s a : Addr} {v m : Int} {b : Addr} {d : Data} {w : World} {x : Val} {w' : World}
    (hc : a.isContract = true)
    (hk : w.kind a = .none ∨ w.kind a = .irc ∨ w.kind a = .flex ∨ w.kind a = .reg ∨ w.kind a = .icx)
    (h : exec orc n s a v (.tokenFallback b m d) w = .ok (x, w')) : False := by
  cases n with
  | zero => exact exec_zero h
  | succ n =>
    obtain ⟨_, h⟩ := exec_succ h
    rw [ok_body] at h
    have e : (enterW w s a v (.tokenFallback b m d)).kind (mkFrame w s a v (.tokenFallback b m d)).to = w.kind a := rfl
    simp only [Ctx.self, e] at h
    have key : ∀ {cx : Ctx} {u : World} {p}, cx.fr.call = .tokenFallback b m d → runNonPayable cx none u = .ok p → False := by
      intro cx u p hcall h
      have := runNonPayable_none h
      rw [hcall] at this; cases this
    rcases hk with hk | hk | hk | hk | hk <;> rw [hk] at h
    · have : ¬ (a.isContract = false ∧ Call.tokenFallback b m d = .fallback) := fun e => by cases e.2
      rw [okk_ite] at h
      rcases h with ⟨h, _⟩ | ⟨_, h⟩
      · exact this h
      · simp only [okk] at h
    · exact key (cx := { fr := mkFrame w s a v (.tokenFallback b m d), call := exec orc n a }) rfl h
    · exact key (cx := { fr := mkFrame w s a v (.tokenFallback b m d), call := exec orc n a }) rfl h
    · exact key (cx := { fr := mkFrame w s a v (.tokenFallback b m d), call := exec orc n a }) rfl h
    · exact key (cx := { fr := mkFrame w s a v (.tokenFallback b m d), call := exec orc n a }) rfl h

/-- A call by which the owner of `K` creates tokens for `a`. -/
def Made (K a : Addr) (f : Frame) : Prop := f.to = K ∧ f.owner = some f.sender ∧ ∃ m, f.call = .issue a m

/-- Token `K`'s balance of the deaf `a` does not rise. -/
def Flat (K a : Addr) (extra : Int) (w w' : World) : Prop := (w.kind K).isToken → Deaf w K a →
  ∃ new, w'.frames = new ++ w.frames ∧
    ((w.kind K = .flex → ∀ f ∈ new, ¬ Made K a f) →
      (w'.tok K).bal a ≤ (w.tok K).bal a + if w.kind K = .icx then extra else 0)

theorem Flat.refl (K a : Addr) (w : World) : Flat K a 0 w w := fun _ _ => ⟨[], rfl, fun _ => by split <;> omega⟩

theorem Flat.same {K a : Addr} {w w' : World} (hf : w'.frames = w.frames) (ht : w'.tok K = w.tok K) : Flat K a 0 w w' :=
  fun _ _ => ⟨[], hf, fun _ => by rw [ht]; split <;> omega⟩

theorem Flat.trans' {K a : Addr} {x y : Int} {u v w : World} (h : Flat K a x u v) (hk : v.kind = u.kind) (h' : Flat K a y v w) :
    Flat K a (x + y) u w := by
  intro h1 h2
  obtain ⟨l, hl, hb⟩ := h h1 h2
  obtain ⟨l', hl', hb'⟩ := h' (by rw [hk]; exact h1) (by unfold Deaf; rw [hk]; exact h2)
  refine ⟨l' ++ l, by rw [hl', hl, List.append_assoc], fun hn => ?_⟩
  have e1 := hb fun e f hf => hn e f (List.mem_append_right _ hf)
  have e2 := hb' fun e f hf => hn (by rw [← hk]; exact e) f (List.mem_append_left _ hf)
  rw [hk] at e2
  split at e1 <;> split at e2 <;> split <;> simp_all <;> omega

theorem Flat.log {K a : Addr} {x : Int} {u v : World} (h : Flat K a x u v) (A : Addr) (ev : Event) : Flat K a x u (v.addLog A ev) := h

/-- The first step of a call. -/
theorem Flat.enter {K a : Addr} {w : World} {s t : Addr} {v : Int} {c : Call} {u : World} (hf : u.frames = mkFrame w s t v c :: w.frames)
    (x : Int) (h : (w.kind K = .flex → ¬ Made K a (mkFrame w s t v c)) →
      (u.tok K).bal a ≤ (w.tok K).bal a + if w.kind K = .icx then x else 0) : Flat K a x w u :=
  fun _ _ => ⟨[mkFrame w s t v c], hf, fun hn => h fun e => hn e _ (List.mem_singleton.2 rfl)⟩

/-- Between two ledgers `K`'s balance of the deaf `a` does not rise, and nothing changes what is deployed. -/
def Flat0 (K a : Addr) (w w' : World) : Prop := w'.kind = w.kind ∧ Flat K a 0 w w'

theorem OutCall.deaf_value {K : Addr} {f : Frame} {w : World} {t : Addr} {v : Int} {c : Call} (h : OutCall f w t v c)
    (hk : Deaf w K f.to) : v = 0 ∨ w.kind K ≠ .icx := by
  cases h with
  | foreign _ _ _ h => rcases hk.2 with hk | hk | hk | hk | hk <;> (rw [h] at hk; simp at hk)
  | icxOut _ _ h => rcases hk.2 with hk | hk | hk | hk | hk <;> (rw [h] at hk; first | exact .inr hk.2 | cases hk)
  | net _ _ _ h h' => rcases hk.2 with hk | hk | hk | hk | hk <;> (rw [h] at hk; simp at hk)
  | _ => exact .inl rfl

theorem flat_exec (orc : Oracle) (K a : Addr) (n : Nat) : AllCalls orc n (fun s _ v _ w w' =>
    w'.kind = w.kind ∧ Flat K a (if s = a then v else 0) w w') := by
  have hrfl : ∀ w, Flat0 K a w w := fun w => ⟨rfl, .refl K a w⟩
  have htr : ∀ u v w, Flat0 K a u v → Flat0 K a v w → Flat0 K a u w := fun u v w h h' =>
    ⟨h'.1.trans h.1, by simpa using h.2.trans' h.1 h'.2⟩
  refine exec_hier orc K (P := Flat0 K a) hrfl htr ?_ ?_ ?_ ?_ n
  · intro f w w' hf hl
    exact ⟨hl.kind, .same hl.frames (hl.sameAt hf).tok⟩
  · intro f w t v c w' hf ho hs h
    refine ⟨hs.kind, fun h1 h2 => ?_⟩
    obtain ⟨l, hl, hb⟩ := h.2 h1 h2
    refine ⟨l, hl, fun hn => ?_⟩
    have hb := hb hn
    by_cases e : f.to = a
    · rw [if_pos e] at hb
      rcases ho.deaf_value (K := K) (by rw [e]; exact h2) with hv | hv
      · rw [hv] at hb; exact hb
      · rw [if_neg hv] at hb ⊢; exact hb
    · rw [if_neg e] at hb; exact hb
  · intro s t v c w w' ht hv hb hs h
    refine ⟨hs.kind, ?_⟩
    have e : Flat K a (if s = a then v else 0) w (enterW w s t v c) := by
      refine .enter rfl _ fun _ => ?_
      have : ((enterW w s t v c).tok K) = w.tok K := rfl
      rw [this]; repeat' split
      all_goals omega
    simpa using e.trans' rfl h.2
  · intro n s v c w x w' ih h
    refine ⟨(exec_rel orc (n + 1) _ _ _ _ _ _ _ h).1.kind, fun hk hd => ?_⟩
    have ih0 : AllCalls orc n (fun s _ v _ w w' => s = K → Deaf w K a → Flat0 K a w w') := by
      intro s t v c w x w' h hs hd
      obtain ⟨e1, e2⟩ := ih _ _ _ _ _ _ _ h
      refine ⟨e1, fun h1 h2 => ?_⟩
      obtain ⟨l, hl, hb⟩ := e2 h1 h2
      refine ⟨l, hl, fun hn => ?_⟩
      have hb := hb hn
      subst hs
      by_cases e : s = a
      · subst e
        have : w.kind s ≠ .icx := by
          rcases h2.2 with h | h | h | h | h
          · rw [h]; simp
          · rw [h]; simp
          · rw [h]; simp
          · rw [h]; simp
          · exact h.2
        rw [if_neg this] at hb ⊢; exact hb
      · rw [if_neg e] at hb; exact hb
    by_cases hq : Quiet c ∨ (w.kind K ≠ .icx ∧ c = .fallback)
    · obtain ⟨hv, hb, hB⟩ := exec_body ih0 h
      have hv0 : v = 0 := exec_tok_value hk h (by
        intro hk'
        rcases hq with hq | hq
        · constructor <;> rintro rfl <;> exact hq
        · exact absurd hk' hq.1)
      subst hv0
      have key : Flat0 K a (enterW w s K 0 c) w' := by
        have : (enterW w s K 0 c).kind = w.kind → Flat0 K a (enterW w s K 0 c) w' := by
          refine Body.elim (R := fun u u' => (u.kind = w.kind → Flat0 K a u u')) ?_ ?_ ?_ ?_ hB
          · intro u hu; exact hrfl u
          · intro a b c h1 h2 ha
            have h3 := h1 ha
            exact htr _ _ _ h3 (h2 (h3.1.trans ha))
          · intro u u' hls hu
            refine ⟨hls.kind, .same hls.frames ?_⟩
            rw [hls.quiet]
            rw [mkFrame_call, mkFrame_to, hu]; exact hq
          · intro t' v' c' u u' ho hc hu
            exact hc.2 rfl (by unfold Deaf; rw [hu]; exact hd)
        exact this rfl
      have e : Flat K a 0 w (enterW w s K 0 c) := .enter rfl _ fun _ => by
        have : ((enterW w s K 0 c).tok K) = w.tok K := rfl
        rw [this]; split <;> omega
      have := e.trans' rfl key.2
      simpa using this hk hd
    suffices hF : Flat K a (if s = a then v else 0) w w' from hF hk hd
    cases c with
    | transfer b m d =>
      have hv := exec_tok_value hk h (fun _ => ⟨by rintro ⟨⟩, by rintro ⟨⟩⟩)
      subst hv
      rw [ok_exec_transfer hk] at h
      obtain ⟨_, _, _, hm, hms, _, h⟩ := h
      have h1 : b ≠ a → Flat K a 0 w ((w.note s K 0 (.transfer b m d)).pay K s b m) := fun hba => by
        refine .enter (s := s) (t := K) (v := 0) (c := .transfer b m d) rfl _ fun _ => ?_
        have : (((w.note s K 0 (.transfer b m d)).pay K s b m).tok K).bal a =
            (w.tok K).bal a + ((if a = b then m else 0) - (if a = s then m else 0)) := by
          rw [← credit_transfer w s K a m b d, ← moveBal_credit]; simp [World.pay]
        rw [this, if_neg (Ne.symm hba)]
        split <;> split <;> omega
      have hz : (if s = a then (0 : Int) else 0) = 0 := by split <;> rfl
      rw [hz]
      rcases h with ⟨hb, rfl⟩ | ⟨hb, y, w1, h2, rfl⟩
      · have hba : b ≠ a := by rintro rfl; rw [hd.1] at hb; cases hb
        exact (h1 hba).log _ _
      · have hba : b ≠ a := by
          rintro rfl
          refine deaf_tokenFallback hd.1 ?_ h2
          show w.kind b = .none ∨ w.kind b = .irc ∨ w.kind b = .flex ∨ w.kind b = .reg ∨ w.kind b = .icx
          have := hd.2; tauto
        have e2 := ih0 _ _ _ _ _ _ _ h2 rfl hd
        have := (h1 hba).trans' rfl e2.2
        exact Flat.log (by simpa using this) _ _
    | issue b m =>
      have hkf := exec_flexOnly hk h (.inl ⟨_, _, rfl⟩)
      have hv := exec_tok_value hk h (fun _ => ⟨by rintro ⟨⟩, by rintro ⟨⟩⟩)
      subst hv
      rw [ok_exec_issue hkf] at h
      obtain ⟨_, h1, h2, _, _, _, rfl⟩ := h
      refine .enter (s := s) (t := K) (v := 0) (c := .issue b m) rfl _ fun hn => ?_
      have hba : b ≠ a := by
        rintro rfl
        exact hn hkf ⟨rfl, h2, m, rfl⟩
      simp [gain, Ne.symm hba, hkf]
    | destroy b m =>
      have hkf := exec_flexOnly hk h (.inr ⟨_, _, rfl⟩)
      have hv := exec_tok_value hk h (fun _ => ⟨by rintro ⟨⟩, by rintro ⟨⟩⟩)
      subst hv
      rw [ok_exec_destroy hkf] at h
      obtain ⟨_, h1, h2, _, _, rfl⟩ := h
      refine .enter (s := s) (t := K) (v := 0) (c := .destroy b m) rfl _ fun hn => ?_
      simp [gain, hkf]
      split <;> omega
    | deposit =>
      have hki := exec_icxOnly hk h (.inl rfl)
      rw [ok_exec_deposit hki (.inl rfl)] at h
      obtain ⟨h1, _, _, rfl⟩ := h
      refine .enter (s := s) (t := K) (v := v) (c := .deposit) rfl _ fun hn => ?_
      simp [gain, hki, eq_comm]
    | fallback =>
      have hki : w.kind K = .icx := by
        by_contra hn
        exact hq (.inr ⟨hn, rfl⟩)
      rw [ok_exec_deposit hki (.inr rfl)] at h
      obtain ⟨h1, _, _, rfl⟩ := h
      refine .enter (s := s) (t := K) (v := v) (c := .fallback) rfl _ fun hn => ?_
      simp [gain, hki, eq_comm]
    | withdraw m =>
      have hki := exec_icxOnly hk h (.inr (.inl ⟨_, rfl⟩))
      have hv := exec_tok_value hk h (fun _ => ⟨by rintro ⟨⟩, by rintro ⟨⟩⟩)
      subst hv
      rw [ok_exec_withdraw hki (.inr ⟨rfl, rfl⟩)] at h
      obtain ⟨_, h1, _, _, y, w1, h2, rfl⟩ := h
      have e1 : Flat K a 0 w ((w.note s K 0 (.withdraw m)).setTok K { w.tok K with
            bal := gain (w.tok K).bal s (-m), supply := (w.tok K).supply - m }) := by
        refine .enter (s := s) (t := K) (v := 0) (c := .withdraw m) rfl _ fun hn => ?_
        simp [gain, hki]
        split <;> omega
      have e2 := ih0 _ _ _ _ _ _ _ h2 rfl hd
      have := e1.trans' rfl e2.2
      have hz : (if s = a then (0 : Int) else 0) = 0 := by split <;> rfl
      rw [hz]
      exact Flat.log (by simpa using this) _ _
    | withdrawTo m b =>
      have hki := exec_icxOnly hk h (.inr (.inr ⟨_, _, rfl⟩))
      have hv := exec_tok_value hk h (fun _ => ⟨by rintro ⟨⟩, by rintro ⟨⟩⟩)
      subst hv
      rw [ok_exec_withdraw hki (.inl rfl)] at h
      obtain ⟨_, h1, _, _, y, w1, h2, rfl⟩ := h
      have e1 : Flat K a 0 w ((w.note s K 0 (.withdrawTo m b)).setTok K { w.tok K with
            bal := gain (w.tok K).bal s (-m), supply := (w.tok K).supply - m }) := by
        refine .enter (s := s) (t := K) (v := 0) (c := .withdrawTo m b) rfl _ fun hn => ?_
        simp [gain, hki]
        split <;> omega
      have e2 := ih0 _ _ _ _ _ _ _ h2 rfl hd
      have := e1.trans' rfl e2.2
      have hz : (if s = a then (0 : Int) else 0) = 0 := by split <;> rfl
      rw [hz]
      exact Flat.log (by simpa using this) _ _
    | onInstall i => exact (exec_noInstall hk h).elim
    | _ => exact absurd (Or.inl trivial) hq

/-- The books of a reachable ledger: a deaf contract has got tokens of `K` only if their owner made them there. -/
theorem Reachable.flat {w : World} (h : Reachable w) {K a : Addr} (hk : (w.kind K).isToken) (hd : Deaf w K a)
    (hn : w.kind K = .flex → ∀ f ∈ w.frames, ¬ Made K a f) : (w.tok K).bal a = 0 := by
  refine le_antisymm ?_ ((h.books K).2 a)
  induction h with
  | genesis hg => rw [hg.kind] at hk; rcases hk with hk | hk | hk <;> cases hk
  | @step w orc fuel tx h ih =>
    rcases apply_cases orc fuel tx w with e | ⟨s, t, v, c, x, _, hs, e⟩ | ⟨s, b, i, x, _, hs, e⟩
    · rw [e] at hk hd hn ⊢; exact ih hk hd hn
    · obtain ⟨e1, e2⟩ := flat_exec orc K a fuel _ _ _ _ _ _ _ e
      rw [e1] at hk hn
      have hd' : Deaf w K a := by unfold Deaf at hd ⊢; rwa [e1] at hd
      obtain ⟨l, hl, hb⟩ := e2 hk hd'
      have hsa : s ≠ a := by rintro rfl; rw [hd.1] at hs; cases hs
      rw [if_neg hsa] at hb
      have hb := hb fun e f hf => hn e f (by rw [hl]; exact List.mem_append_left _ hf)
      have := ih hk hd' fun e f hf => hn e f (by rw [hl]; exact List.mem_append_right _ hf)
      split at hb <;> omega
    · obtain ⟨⟨hbc, hbz, hbn, hc0⟩, w1, hI, hB⟩ := deploy_body orc fuel s b i
        (withStable (fun s _ v _ w w' => w'.kind = w.kind ∧ Flat K a (if s = a then v else 0) w w'))
        (fun t v c w x w' e => ⟨(exec_rel orc fuel b t v c w x w' e).1, flat_exec orc K a fuel _ _ _ _ _ _ _ e⟩) e
      have hkk : (tx.apply orc fuel w).kind = w1.kind := (hB.stable (withStable _)).kind
      rw [hkk] at hk hn
      have hd1 : Deaf w1 K a := by unfold Deaf at hd ⊢; rwa [hkk] at hd
      have key : w1.kind = w1.kind → Flat0 K a w1 (tx.apply orc fuel w) := by
        refine Body.elim (R := fun u u' => u.kind = w1.kind → Flat0 K a u u') ?_ ?_ ?_ ?_ hB
        · intro u _; exact ⟨rfl, .refl K a u⟩
        · intro u v z h1 h2 hu
          have h3 := h1 hu
          have h4 := h2 (h3.1.trans hu)
          exact ⟨h4.1.trans h3.1, by simpa using h3.2.trans' h3.1 h4.2⟩
        · intro u u' hls _
          exact ⟨hls.kind, .same hls.frames (by rw [hls.tok_onInstall rfl])⟩
        · intro t' v' c' u u' ho hc hu
          refine ⟨hc.2.1, fun h1 h2 => ?_⟩
          obtain ⟨l, hl, hb⟩ := hc.2.2 h1 h2
          refine ⟨l, hl, fun hn => ?_⟩
          have hb := hb hn
          rw [mkFrame_to] at hb
          by_cases e : b = a
          · rw [if_pos e] at hb
            rcases ho.deaf_value (K := K) (by rw [mkFrame_to, e]; exact h2) with hv | hv
            · rw [hv] at hb; exact hb
            · rw [if_neg hv] at hb ⊢; exact hb
          · rw [if_neg e] at hb; exact hb
      obtain ⟨l, hl, hb⟩ := (key rfl).2 hk hd1
      have hb := hb fun e f hf => hn e f (by rw [hl]; exact List.mem_append_left _ hf)
      have hsa : s ≠ a := by rintro rfl; rw [hd.1] at hs; cases hs
      have hw1 : (w1.tok K).bal a ≤ 0 := by
        by_cases hbK : b = K
        · subst hbK
          have ht : w.tok b = {} := h.basic.tok b (by rw [hbn]; simp [Kind.isToken])
          cases hI with
          | irc n sy i d h1 h2' =>
            rw [setTok_tok_same]; simp [ht, upd_apply, World.setKind, Ne.symm hsa]
          | icx =>
            rw [setOwn_tok, setTok_tok_same]; simp [ht, upd_apply, World.setKind, Ne.symm hsa]
          | flex n sy i d h1 h2' =>
            rw [addLog_tok, setFlex_tok, setOwn_tok, setTok_tok_same]; simp [ht, upd_apply, World.setKind, Ne.symm hsa]
          | conv | net | reg | foreign => simp [Installed, Install.kind, Kind.isToken, World.setKind] at hk
        · have hS := installed_sameAt hI hbK
          rw [hS.tok]
          refine ih (by rw [← hS.kind]; exact hk) ?_ ?_
          · by_cases hba : b = a
            · exact ⟨hd.1, .inl (by rw [← hba]; exact hbn)⟩
            · have hSa := installed_sameAt hI hba
              unfold Deaf at hd1 ⊢
              rw [hSa.kind, hS.kind] at hd1
              exact hd1
          · intro e f hf
            refine hn (by rw [hS.kind]; exact e) f ?_
            rw [hl, hI.frames]
            exact List.mem_append_right _ (List.mem_cons_of_mem _ hf)
      split at hb <;> omega

end Verif

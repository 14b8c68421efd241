import Verif.Proofs.PoolCalls
/-!
Calls of the tokens of a pool, transactions and histories.
-/
set_option linter.unusedSimpArgs false
namespace Verif

open Relation

section
variable {T t R N : Addr} {l : List Addr} {wt : {a // a ∈ l} → Int} {orc : Oracle} {n : Nat} {w w' : World} {s a : Addr} {cv : Int} {c : Call} {x : Val}

theorem note_length (w : World) (s t v c) : (w.note s t v c).frames.length = w.frames.length + 1 := by simp [World.note]

/-- The pool gets something for nothing, or nothing. -/
theorem safe_given (hst : Stable w w') (hlen : 1 + w.frames.length ≤ w'.frames.length) (hk : w'.kind = w.kind)
    (hcv : w'.conv = w.conv) (how : w'.own = w.own) (hreg : w'.reg = w.reg) (hcoin : (∀ a, 0 ≤ w.coin a) → ∀ a, 0 ≤ w'.coin a)
    {m : Int} (hm : 0 ≤ m)
    (hs : (w'.tok t).supply = (w.tok t).supply)
    (hb : ∀ b ∈ l, (w'.tok b).bal T = (w.tok b).bal T + if b = a then m else 0) : Safe T t R N l wt w w' := by
  by_cases ha : a ∈ l
  · refine ⟨hst, fun hc => .inr ⟨Cfg.same (w := w) hk (by rw [hcv]) (by rw [how]) (by rw [hreg]) (hcoin hc.tr.wired.coin) hc, rel_one hlen fun hp => ?_⟩⟩
    rw [hs] at hp
    refine ⟨hp, ?_⟩
    have := Curve.Trade.gift (weight := wt) (w.pool T t l) ⟨a, ha⟩ m hm
    convert this using 1
    refine pool_ext hs ?_
    rintro ⟨y, hy⟩
    have := hb y hy
    by_cases e : y = a
    · subst e; simp [World.pool, this]
    · simp [World.pool, this, Function.update, e]
  · refine .same hst hs (fun b hb' => ?_) (fun hc => Cfg.same (w := w) hk (by rw [hcv]) (by rw [how]) (by rw [hreg]) (hcoin hc.tr.wired.coin) hc)
    rw [hb b hb', if_neg (by rintro rfl; exact ha hb')]; omega

/-- Logs and calls noted do not matter. -/
theorem safe_quick (hst : Stable w w') (htok : w'.tok = w.tok) (hcv : w'.conv = w.conv) (how : w'.own = w.own)
    (hreg : w'.reg = w.reg) (hcoin : w'.coin = w.coin) : Safe T t R N l wt w w' :=
  .same hst (by rw [htok]) (fun _ _ => by rw [htok]) fun hc =>
    Cfg.same (w := w) hst.kind (by rw [hcv]) (by rw [how]) (by rw [hreg]) (by rw [hcoin]; exact hc.tr.wired.coin) hc

theorem enter_coin {d : Addr} {v : Int} (hv : 0 ≤ v) (hb : v ≤ w.coin s) (hco : ∀ a, 0 ≤ w.coin a) (b : Addr) : 0 ≤ (enterW w s d v c).coin b := by
  have h2 := hco b
  have h3 := hco s
  clear hco
  rw [enterW_coin']
  split <;> split <;> simp_all <;> omega

/-- The calls of a token of the pool. -/
theorem safe_tok (hX : a ∈ l ∨ a = t) (ih : AllCalls orc n (SafeCall T t R N l wt)) (h : exec orc (n + 1) s a cv c w = .ok (x, w')) :
    SafeCall T t R N l wt s a cv c w w' := by
  have hst := (exec_rel orc _ _ _ _ _ _ _ _ h).1
  by_cases hc : Cfg T t R N l wt w
  swap
  · exact .inr ⟨hst, fun h => absurd h hc⟩
  by_cases hin : Inner T t l s a c
  · exact .inl hin
  right
  by_cases hr : Risky T t R l s a c
  · exact safe_risky h hr
  have hlen := called_length h
  have hw := hc.tr.wired
  have hk : (w.kind a).isToken := by
    rcases hX with hX | rfl
    · exact hc.tr.honest a hX
    · exact hc.flexTok
  obtain ⟨haT, haN, haR⟩ := hc.neT hk
  have htl := hc.tok_notin
  have hit : w.kind a = .icx → a ≠ t := by rintro h rfl; rw [hw.flex] at h; cases h
  -- quiet calls
  have hquiet : (Quiet c ∨ (w.kind a ≠ .icx ∧ c = .fallback)) → Safe T t R N l wt w w' := by
    intro hq
    refine safe_body ih h ?_ ?_
    · intro u u' hu hs
      have htok : u'.tok = u.tok := hs.quiet (by rw [mkFrame_call, mkFrame_to, hu]; exact hq)
      refine .same hs.stable (by rw [htok]) (fun _ _ => by rw [htok]) fun hcu => ?_
      refine Cfg.same (w := u) hs.stable.kind (hs.sameAt haT).conv ?_ (hs.sameAt haR).reg (by rw [hs.coin]; exact hcu.tr.wired.coin) hcu
      by_cases hat : a = t
      · subst hat
        cases hs with
        | accept _ _ hh =>
          simp only [mkFrame_to, mkFrame_sender, mkFrame_call] at hh ⊢
          by_cases hsT : s = T
          · subst hsT; simp; exact hcu.tr.active.symm
          · exact absurd (.inr (.inr (.inl ⟨rfl, hsT, hh⟩))) hr
        | nominate => simp
        | _ => rfl
      · rw [(hs.sameAt hat).own]
    · intro d v c' u hu ho hI
      have hku : (u.kind a).isToken := by rw [hu]; exact hk
      rcases hI with ⟨hI, _⟩ | ⟨hI, _⟩ | ⟨rfl, _, g, v', d', rfl⟩
      · exact haT hI
      · exact haT hI
      · cases ho with
        | foreign _ _ _ h => rw [mkFrame_to] at h; rw [h] at hku; simp [Kind.isToken] at hku
        | fallback _ _ _ _ h =>
          rw [mkFrame_call] at h; subst h
          rcases hq with hq | ⟨_, hq⟩
          · exact hq
          · cases hq
        | convView _ _ _ h => rcases h with h | h | h | ⟨_, h⟩ <;> cases h
        | convToken _ _ _ _ _ h =>
          rcases h with ⟨_, _, h⟩ | ⟨_, h⟩ | ⟨_, _, h⟩ | ⟨_, _, _, _, h⟩ <;> cases h
        | net _ _ _ hk' h => rw [mkFrame_to] at hk'; rw [hk'] at hku; simp [Kind.isToken] at hku
  by_cases hq : Quiet c
  · exact hquiet (.inl hq)
  -- calls made by the token
  have hcall : ∀ {d v c' u y u'}, (d ≠ T ∨ ∀ g m e, c' ≠ .tokenFallback g m e) → exec orc n a d v c' u = .ok (y, u') → Safe T t R N l wt u u' := by
    intro d v c' u y u' hd e
    refine (ih _ _ _ _ _ _ _ e).resolve_left ?_
    rintro (⟨hI, _⟩ | ⟨hI, _⟩ | ⟨rfl, _, g, v', d', rfl⟩)
    · exact haT hI
    · exact haT hI
    · rcases hd with hd | hd
      · exact hd rfl
      · exact hd _ _ _ rfl
  cases c with
  | transfer b m d =>
    by_cases hb : b = T
    · subst hb; exact safe_trade hX h
    have hv := exec_tok_value hk h (fun _ => ⟨by rintro ⟨⟩, by rintro ⟨⟩⟩)
    subst hv
    rw [ok_exec_transfer hk] at h
    obtain ⟨_, _, _, hm, hmb, _, h⟩ := h
    have h1 : Safe T t R N l wt w ((w.note s a 0 (.transfer b m d)).pay a s b m) := by
      refine .same ⟨rfl, fun _ => rfl, fun _ => rfl, List.suffix_cons _ _⟩ ?_ ?_ (fun hc => Cfg.same (w := w) rfl rfl rfl rfl hc.tr.wired.coin hc)
      · by_cases hat : t = a
        · subst hat; simp [World.setTok, World.note, upd, World.pay]
        · simp [World.setTok, World.note, upd, World.pay, hat]
      · intro y hy
        by_cases hya : y = a
        · subst hya
          have hsT : s ≠ T := by rintro rfl; exact hin (.inl ⟨rfl, hy, .inl ⟨_, _, _, rfl⟩⟩)
          simp [World.setTok, World.note, upd, World.pay, moveBal, Ne.symm hsT, Ne.symm hb]
        · simp [World.setTok, World.note, upd, World.pay, hya]
    rcases h with ⟨hbc, rfl⟩ | ⟨_, y, w1, h2, rfl⟩
    · exact h1.trans (safe_quick ⟨rfl, fun _ => rfl, fun _ => rfl, List.suffix_refl _⟩ rfl rfl rfl rfl rfl)
    · exact (h1.trans (hcall (.inl hb) h2)).trans (safe_quick ⟨rfl, fun _ => rfl, fun _ => rfl, List.suffix_refl _⟩ rfl rfl rfl rfl rfl)
  | issue b m =>
    have hkf := exec_flexOnly hk h (.inl ⟨_, _, rfl⟩)
    have hv := exec_tok_value hk h (fun _ => ⟨by rintro ⟨⟩, by rintro ⟨⟩⟩)
    subst hv
    rw [ok_exec_issue hkf] at h
    obtain ⟨_, h1, ho, _, _, _, rfl⟩ := h
    have hat : a ≠ t := by
      rintro rfl
      rw [hc.tr.active] at ho; injection ho with ho
      exact hin (.inr (.inl ⟨ho.symm, rfl, .inl ⟨_, _, rfl⟩⟩))
    refine safe_given (a := a) (m := if T = b then m else 0) hst hlen rfl rfl rfl rfl id (by split <;> omega) (by simp [World.setTok, World.addLog, World.note, enterW, upd, Ne.symm hat]) ?_
    intro y hy
    by_cases hya : y = a
    · subst hya; simp [World.setTok, World.addLog, World.note, enterW, upd, gain]
    · simp [World.setTok, World.addLog, World.note, enterW, upd, hya]
  | destroy b m =>
    have hkf := exec_flexOnly hk h (.inr ⟨_, _, rfl⟩)
    have hv := exec_tok_value hk h (fun _ => ⟨by rintro ⟨⟩, by rintro ⟨⟩⟩)
    subst hv
    rw [ok_exec_destroy hkf] at h
    obtain ⟨_, h1, h2, h3, _, rfl⟩ := h
    by_cases hat : a = t
    · subst hat
      refine ⟨hst, fun _ => .inr ⟨Cfg.same (w := w) rfl rfl rfl rfl hc.tr.wired.coin hc, rel_one hlen fun hp => ?_⟩⟩
      have hp : 0 < (w.tok a).supply - m := by simpa using hp
      refine ⟨by omega, ?_⟩
      have := Curve.Trade.burn (weight := wt) (w.pool T a l) m (by omega) (by show m < (w.tok a).supply; omega)
      convert this using 1
      refine pool_ext (by simp [World.setTok, World.addLog, World.note, upd, World.pool]) ?_
      rintro ⟨y, hy⟩
      have : y ≠ a := by rintro rfl; exact htl hy
      simp [World.setTok, World.addLog, World.note, upd, World.pool, this]
    · have hl := hX.resolve_right hat
      have hsT : s ≠ T := by rintro rfl; exact hin (.inl ⟨rfl, hl, .inr (.inl ⟨_, _, rfl⟩)⟩)
      have hbT : b ≠ T := by rintro rfl; exact hr (.inr (.inr (.inr ⟨hl, hsT, _, rfl⟩)))
      refine safe_given (a := a) (m := 0) hst hlen rfl rfl rfl rfl id (by omega) (by simp [World.setTok, World.addLog, World.note, enterW, upd, Ne.symm hat]) ?_
      intro y hy
      by_cases hya : y = a
      · subst hya; simp [World.setTok, World.addLog, World.note, enterW, upd, gain, Ne.symm hbT]
      · simp [World.setTok, World.addLog, World.note, enterW, upd, hya]
  | deposit =>
    have hki := exec_icxOnly hk h (.inl rfl)
    rw [ok_exec_deposit hki (.inl rfl)] at h
    obtain ⟨h1, hbal, _, rfl⟩ := h
    refine safe_given (a := a) (m := if T = s then cv else 0) hst hlen rfl rfl rfl rfl ?_ (by split <;> omega) (by simp [World.setTok, World.addLog, World.note, enterW, upd, Ne.symm (hit hki)]) ?_
    · exact enter_coin (c := .deposit) h1 hbal
    · intro y hy
      by_cases hya : y = a
      · subst hya; simp [World.setTok, World.addLog, World.note, enterW, upd, gain]
      · simp [World.setTok, World.addLog, World.note, enterW, upd, hya]
  | fallback =>
    by_cases hki : w.kind a = .icx
    · rw [ok_exec_deposit hki (.inr rfl)] at h
      obtain ⟨h1, hbal, _, rfl⟩ := h
      refine safe_given (a := a) (m := if T = s then cv else 0) hst hlen rfl rfl rfl rfl ?_ (by split <;> omega) (by simp [World.setTok, World.addLog, World.note, enterW, upd, Ne.symm (hit hki)]) ?_
      · exact enter_coin (c := .fallback) h1 hbal
      · intro y hy
        by_cases hya : y = a
        · subst hya; simp [World.setTok, World.addLog, World.note, enterW, upd, gain]
        · simp [World.setTok, World.addLog, World.note, enterW, upd, hya]
    · exact hquiet (.inr ⟨hki, rfl⟩)
  | withdraw m =>
    have hki := exec_icxOnly hk h (.inr (.inl ⟨_, rfl⟩))
    have hv := exec_tok_value hk h (fun _ => ⟨by rintro ⟨⟩, by rintro ⟨⟩⟩)
    subst hv
    rw [ok_exec_withdraw hki (.inr ⟨rfl, rfl⟩)] at h
    obtain ⟨_, h1, _, _, y, w1, h2, rfl⟩ := h
    have hl := hX.resolve_right (hit hki)
    have hsT : s ≠ T := by rintro rfl; exact hin (.inl ⟨rfl, hl, .inr (.inr (.inl ⟨_, rfl⟩))⟩)
    have h3 : Safe T t R N l wt w ((w.note s a 0 (.withdraw m)).setTok a { w.tok a with
        bal := gain (w.tok a).bal s (-m), supply := (w.tok a).supply - m }) := by
      refine .same ⟨rfl, fun _ => rfl, fun _ => rfl, List.suffix_cons _ _⟩ (by simp [World.setTok, World.addLog, World.note, enterW, upd, Ne.symm (hit hki)]) ?_ (fun hc => Cfg.same (w := w) rfl rfl rfl rfl hc.tr.wired.coin hc)
      intro y hy
      by_cases hya : y = a
      · subst hya; simp [World.setTok, World.addLog, World.note, enterW, upd, gain, Ne.symm hsT]
      · simp [World.setTok, World.addLog, World.note, enterW, upd, hya]
    exact (h3.trans (hcall (.inr (by intros; simp)) h2)).trans (safe_quick ⟨rfl, fun _ => rfl, fun _ => rfl, List.suffix_refl _⟩ rfl rfl rfl rfl rfl)
  | withdrawTo m b =>
    have hki := exec_icxOnly hk h (.inr (.inr ⟨_, _, rfl⟩))
    have hv := exec_tok_value hk h (fun _ => ⟨by rintro ⟨⟩, by rintro ⟨⟩⟩)
    subst hv
    rw [ok_exec_withdraw hki (.inl rfl)] at h
    obtain ⟨_, h1, _, _, y, w1, h2, rfl⟩ := h
    have hl := hX.resolve_right (hit hki)
    have hsT : s ≠ T := by rintro rfl; exact hin (.inl ⟨rfl, hl, .inr (.inr (.inr ⟨_, _, rfl⟩))⟩)
    have h3 : Safe T t R N l wt w ((w.note s a 0 (.withdrawTo m b)).setTok a { w.tok a with
        bal := gain (w.tok a).bal s (-m), supply := (w.tok a).supply - m }) := by
      refine .same ⟨rfl, fun _ => rfl, fun _ => rfl, List.suffix_cons _ _⟩ (by simp [World.setTok, World.addLog, World.note, enterW, upd, Ne.symm (hit hki)]) ?_ (fun hc => Cfg.same (w := w) rfl rfl rfl rfl hc.tr.wired.coin hc)
      intro y hy
      by_cases hya : y = a
      · subst hya; simp [World.setTok, World.addLog, World.note, enterW, upd, gain, Ne.symm hsT]
      · simp [World.setTok, World.addLog, World.note, enterW, upd, hya]
    exact (h3.trans (hcall (.inr (by intros; simp)) h2)).trans (safe_quick ⟨rfl, fun _ => rfl, fun _ => rfl, List.suffix_refl _⟩ rfl rfl rfl rfl rfl)
  | onInstall i => exact (exec_noInstall hk h).elim
  | _ => exact absurd trivial hq

theorem safe_exec (orc : Oracle) (T t R N : Addr) (l : List Addr) (wt : {a // a ∈ l} → Int) (n : Nat) : AllCalls orc n (SafeCall T t R N l wt) := by
  refine exec_hierS orc (fun a => a = T ∨ a = R ∨ a ∈ l ∨ a = t) (P := Safe T t R N l wt) .refl (fun _ _ _ => .trans) ?_ ?_ ?_ ?_ n
  · intro f w w' hf hs
    exact safe_other hs (fun e => hf (.inl e)) (fun e => hf (.inr (.inr (.inr e)))) (fun e => hf (.inr (.inl e))) (fun e => hf (.inr (.inr (.inl e))))
  · intro f w d v c w' hf _ _ hq
    refine hq.resolve_left ?_
    rintro (⟨hI, _⟩ | ⟨hI, _⟩ | ⟨_, hI, _⟩)
    · exact hf (.inl hI)
    · exact hf (.inl hI)
    · exact hf (.inr (.inr hI))
  · intro s d v c w w' _ hv hb _ hP
    exact .inr ((safe_enter (d := d) (c := c) hv hb).trans hP)
  · intro n s d v c w x w' hd ih h
    rcases hd with rfl | rfl | hd
    · exact safe_conv ih h
    · exact .inr (safe_reg ih h)
    · exact safe_tok hd ih h

theorem apply_frames (orc : Oracle) (fuel : Nat) (tx : Tx) (w : World) : w.frames <:+ (tx.apply orc fuel w).frames := by
  rcases apply_cases orc fuel tx w with h | ⟨s, d, v, c, x, _, hs, h⟩ | ⟨s, a, i, x, _, _, h⟩
  · rw [h]
  · exact (exec_rel orc _ _ _ _ _ _ _ _ h).1.frames
  · obtain ⟨_, w1, hI, hB⟩ := deploy_body orc fuel s a i (withStable (fun _ _ _ _ _ _ => True))
      (fun t' v c w x w' e => ⟨(exec_rel orc fuel a t' v c w x w' e).1, trivial⟩) h
    have hfr : w.frames <:+ w1.frames := by rw [hI.frames]; exact List.suffix_cons _ _
    exact hfr.trans (hB.stable (withStable _)).frames

/-- What a transaction can do to the pool. -/
theorem safe_tx (fuel : Nat) (tx : Tx) (hT : T.isContract = true) (hl : ∀ a ∈ l, a.isContract = true) (ht : t.isContract = true) (hc : Cfg T t R N l wt w) :
    Excuse T t R l w (tx.apply orc fuel w) ∨ (Cfg T t R N l wt (tx.apply orc fuel w) ∧ Rel T t l wt w (tx.apply orc fuel w)) := by
  rcases apply_cases orc fuel tx w with h | ⟨s, d, v, c, x, _, hs, h⟩ | ⟨s, a, i, x, _, _, h⟩
  · rw [h]; exact (Safe.refl w).2 hc
  · have := safe_exec orc T t R N l wt fuel _ _ _ _ _ _ _ h
    refine (this.resolve_left ?_).2 hc
    rintro (⟨rfl, _⟩ | ⟨rfl, _⟩ | ⟨_, hI | rfl, _⟩)
    · rw [hT] at hs; cases hs
    · rw [hT] at hs; cases hs
    · rw [hl _ hI] at hs; cases hs
    · rw [ht] at hs; cases hs
  · obtain ⟨⟨_, _, hn, _⟩, w1, hI, hB⟩ := deploy_body orc fuel s a i (withStable (SafeCall T t R N l wt))
      (fun t' v c w x w' e => ⟨(exec_rel orc fuel a t' v c w x w' e).1, safe_exec orc T t R N l wt fuel _ _ _ _ _ _ _ e⟩) h
    have hw := hc.tr.wired
    have haT : a ≠ T := by rintro rfl; have := hw.conv; rw [hn] at this; cases this
    have hat : a ≠ t := by rintro rfl; have := hw.flex; rw [hn] at this; cases this
    have haR : a ≠ R := by rintro rfl; have := hw.reg; rw [hn] at this; cases this
    have haN : a ≠ N := by rintro rfl; have := hw.net; rw [hn] at this; cases this
    have hal : a ∉ l := by intro hb; have := hc.tr.honest a hb; rw [hn] at this; simp [Kind.isToken] at this
    have sT := installed_sameAt hI haT
    have st := installed_sameAt hI hat
    have sR := installed_sameAt hI haR
    have sN := installed_sameAt hI haN
    have sl : ∀ b ∈ l, SameAt b w w1 := fun b hb => installed_sameAt hI (by rintro rfl; exact hal hb)
    have hcoin : ∀ b, 0 ≤ w1.coin b := by
      intro b; rw [hI.coin, enterW_zero]; exact hw.coin b
    have hc1 : Cfg T t R N l wt w1 := by
      obtain ⟨⟨⟨c1, c2, c3, c4, c5, c6, c7, c8, c9⟩, h2, h3, h4, h5, h6⟩, i, ws, nz⟩ := hc
      refine ⟨⟨⟨by rw [sT.kind]; exact c1, by rw [sT.conv]; exact c2, by rw [st.kind]; exact c3, by rw [sT.conv]; exact c4, by rw [sR.kind]; exact c5, by rw [sR.reg]; exact c6,
        by rw [sN.kind]; exact c7, c8, hcoin⟩, by rw [st.own]; exact h2, by rw [sR.reg]; exact h3, by rw [sT.conv]; exact h4, fun b hb => by rw [(sl b hb).kind]; exact h5 b hb,
        fun b hb => by rw [sT.conv]; exact h6 b hb⟩, by rw [sT.conv]; exact i, ?_, nz⟩
      rw [← ws]; unfold World.weights; rw [sT.conv]
    have hfr : w.frames <:+ w1.frames := by rw [hI.frames]; exact List.suffix_cons _ _
    have hpool : w1.pool T t l = w.pool T t l := by
      unfold World.pool
      rw [st.tok]; congr 1; funext b; rw [(sl b.1 b.2).tok]
    have key : Safe T t R N l wt w1 (tx.apply orc fuel w) := by
      refine Body.elim (R := Safe T t R N l wt) .refl (fun _ _ _ => .trans) ?_ ?_ hB
      · intro u u' hs
        exact safe_other hs haT hat haR hal
      · rintro d v c' u u' ho ⟨hs, hq⟩
        refine hq.resolve_left ?_
        rintro (⟨hI, _⟩ | ⟨hI, _⟩ | ⟨_, hI | hI, _⟩)
        · exact haT hI
        · exact haT hI
        · exact hal hI
        · exact hat hI
    rcases key.2 hc1 with ⟨f, h1, h2⟩ | ⟨h1, h2⟩
    · exact .inl ⟨f, Since.weaken h1 hfr, h2⟩
    · refine .inr ⟨h1, fun hp => ?_⟩
      obtain ⟨h3, n, h4, h5⟩ := h2 hp
      rw [hpool] at h5
      have := hfr.length_le
      exact ⟨by rw [← st.tok]; exact h3, n, by omega, h5⟩

/-- What any history can do to the pool. -/
theorem safe_later (hT : T.isContract = true) (hl : ∀ a ∈ l, a.isContract = true) (ht : t.isContract = true) (hc : Cfg T t R N l wt w)
    (h : Later w w') : w.frames <:+ w'.frames ∧ (Excuse T t R l w w' ∨ (Cfg T t R N l wt w' ∧ Rel T t l wt w w')) := by
  induction h with
  | refl => exact ⟨List.suffix_refl _, (Safe.refl w).2 hc⟩
  | @step u orc fuel tx _ ih =>
    obtain ⟨hf, ih⟩ := ih
    have hf' : u.frames <:+ (tx.apply orc fuel u).frames := apply_frames orc fuel tx u
    refine ⟨hf.trans hf', ?_⟩
    rcases ih with ⟨f, h1, h2⟩ | ⟨h1, h2⟩
    · exact .inl ⟨f, Since.mono h1 hf', h2⟩
    · rcases safe_tx (orc := orc) fuel tx hT hl ht h1 with ⟨f, h3, h4⟩ | ⟨h3, h4⟩
      · exact .inl ⟨f, Since.weaken h3 hf, h4⟩
      · refine .inr ⟨h3, fun hp => ?_⟩
        obtain ⟨s2, n2, l2, t2⟩ := h4 hp
        obtain ⟨s1, n1, l1, t1⟩ := h2 s2
        exact ⟨s1, n1 + n2, by omega, trades_trans t1 t2⟩
end
end Verif

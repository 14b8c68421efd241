import Verif.Proofs.LedgerTx
/-!
The ICX token's coin matches its supply.
-/
namespace Verif

open Relation

/-- Coin in excess of the supply. -/
def excess (T : Addr) (w : World) : Int := w.coin T - (w.tok T).supply

theorem enterW_coin' (w : World) (s t : Addr) (v : Int) (c : Call) (x : Addr) :
    (enterW w s t v c).coin x = w.coin x - (if x = s then v else 0) + (if x = t then v else 0) := moveCoin_coin w s t v x

theorem backing_exec (orc : Oracle) (T : Addr) (n : Nat) : AllCalls orc n (fun s _ v _ w w' =>
    w.kind T = .icx → w'.kind T = .icx ∧ excess T w' = excess T w - (if s = T then v else 0)) := by
  refine exec_hier orc T (P := fun w w' => w.kind T = .icx → w'.kind T = .icx ∧ excess T w' = excess T w)
    ?_ ?_ ?_ ?_ ?_ ?_ n
  · intro w h; exact ⟨h, rfl⟩
  · intro a b c h1 h2 h
    obtain ⟨h3, h4⟩ := h1 h
    obtain ⟨h5, h6⟩ := h2 h3
    exact ⟨h5, h6.trans h4⟩
  · intro f w w' hf hl hk
    refine ⟨by rw [hl.kind]; exact hk, ?_⟩
    unfold excess; rw [hl.coin, (hl.sameAt hf).tok]
  · intro f w t v c w' hf _ _ h hk
    obtain ⟨h1, h2⟩ := h hk
    rw [if_neg hf] at h2
    exact ⟨h1, by omega⟩
  · intro s t v c w w' ht _ _ _ h hk
    obtain ⟨h1, h2⟩ := h hk
    refine ⟨h1, ?_⟩
    rw [h2]
    unfold excess
    rw [enterW_coin', if_neg (Ne.symm ht), enterW_tok]
    simp only [eq_comm (a := T) (b := s)]
    omega
  · intro n s v c w x w' ih h hk
    have hkt : (w.kind T).isToken := .inr (.inl hk)
    have hok : (w'.kind T) = .icx := by rw [(exec_rel orc _ _ _ _ _ _ _ _ h).1.kind]; exact hk
    refine ⟨hok, ?_⟩
    by_cases hq : Quiet c
    · have hv := exec_tok_value hkt h (fun _ => by constructor <;> rintro rfl <;> exact hq)
      subst hv
      obtain ⟨_, _, hB⟩ := exec_body ih h
      have key : excess T w' = excess T (enterW w s T 0 c) ∧ w'.kind = w.kind := by
        refine Body.elim (R := fun u u' => u.kind = w.kind → excess T u' = excess T u ∧ u'.kind = w.kind) ?_ ?_ ?_ ?_ hB rfl
        · intro u hu; exact ⟨rfl, hu⟩
        · intro a b c h1 h2 ha
          obtain ⟨h3, h4⟩ := h1 ha
          obtain ⟨h5, h6⟩ := h2 h4
          exact ⟨h5.trans h3, h6⟩
        · intro u u' hls hu
          refine ⟨?_, by rw [hls.kind, hu]⟩
          unfold excess; rw [hls.coin, hls.quiet (.inl hq)]
        · intro t' v' c' u u' ho hc hu
          refine ⟨?_, by rw [hc.1.kind, hu]⟩
          have hku : u.kind T = .icx := by rw [hu]; exact hk
          have hv' : v' = 0 := by
            cases ho with
            | foreign _ _ _ h | convView _ _ h | convToken _ _ h | convIssue _ _ _ _ _ _ h | convDestroy _ _ _ h
              | convPay _ _ _ _ _ _ h | net _ _ _ h => exact absurd (hku.symm.trans h) (by decide)
            | icxOut _ _ _ h => rcases h with h | ⟨h, _⟩ <;> (rw [mkFrame_call] at h; subst h; exact hq.elim)
            | _ => rfl
          have := (hc.2 hku).2
          rw [hv'] at this
          simpa using this
      rw [key.1]
      unfold excess; rw [enterW_coin']; simp
    have hmk : ∀ u : World, u.kind T = .icx → ∀ {t v c y w1}, exec orc n T t v c u = .ok (y, w1) →
        excess T w1 = excess T u - v := by
      intro u hu t v c y w1 e
      have := (ih _ _ _ _ _ _ _ e hu).2
      rwa [if_pos rfl] at this
    cases c with
    | transfer b m d =>
      have hv := exec_tok_value hkt h (fun _ => ⟨by rintro ⟨⟩, by rintro ⟨⟩⟩)
      subst hv
      rw [ok_exec_transfer hkt] at h
      obtain ⟨_, _, _, hm, _, _, h⟩ := h
      have e1 : excess T ((w.note s T 0 (.transfer b m d)).pay T s b m) = excess T w := by
        simp [excess, World.pay]
      rcases h with ⟨_, rfl⟩ | ⟨_, y, w1, h2, rfl⟩
      · change excess T ((w.note s T 0 (.transfer b m d)).pay T s b m) = _
        rw [e1]; simp
      · have := hmk _ (by exact hk) h2
        change excess T w1 = _
        rw [this, e1]; simp
    | issue b m => have := exec_flexOnly hkt h (.inl ⟨_, _, rfl⟩); rw [hk] at this; cases this
    | destroy b m => have := exec_flexOnly hkt h (.inr ⟨_, _, rfl⟩); rw [hk] at this; cases this
    | deposit =>
      rw [ok_exec_deposit hk (.inl rfl)] at h
      obtain ⟨h1, _, _, rfl⟩ := h
      simp only [excess, addLog_tok, setTok_tok_same, addLog_coin, setTok_coin, enterW_coin', eq_comm (a := T) (b := s)]
      simp; omega
    | fallback =>
      rw [ok_exec_deposit hk (.inr rfl)] at h
      obtain ⟨h1, _, _, rfl⟩ := h
      simp only [excess, addLog_tok, setTok_tok_same, addLog_coin, setTok_coin, enterW_coin', eq_comm (a := T) (b := s)]
      simp; omega
    | withdraw m =>
      have hv := exec_tok_value hkt h (fun _ => ⟨by rintro ⟨⟩, by rintro ⟨⟩⟩)
      subst hv
      rw [ok_exec_withdraw hk (.inr ⟨rfl, rfl⟩)] at h
      obtain ⟨_, h1, _, _, y, w1, h2, rfl⟩ := h
      have := hmk _ (by exact hk) h2
      change excess T w1 = _
      rw [this]
      simp only [excess, setTok_tok_same, setTok_coin, note_coin]
      simp; omega
    | withdrawTo m b =>
      have hv := exec_tok_value hkt h (fun _ => ⟨by rintro ⟨⟩, by rintro ⟨⟩⟩)
      subst hv
      rw [ok_exec_withdraw hk (.inl rfl)] at h
      obtain ⟨_, h1, _, _, y, w1, h2, rfl⟩ := h
      have := hmk _ (by exact hk) h2
      change excess T w1 = _
      rw [this]
      simp only [excess, setTok_tok_same, setTok_coin, note_coin]
      simp; omega
    | onInstall i => exact (exec_noInstall hkt h).elim
    | _ => exact absurd trivial hq

theorem LocalStep.coin_eq {f w w'} (h : LocalStep f w w') : w'.coin = w.coin := by cases h <;> rfl

theorem Reachable.backed {w} (h : Reachable w) {T : Addr} (hk : w.kind T = .icx) : excess T w = 0 := by
  induction h with
  | genesis hg => rw [hg.kind] at hk; cases hk
  | @step w orc fuel tx h ih =>
    rcases apply_cases orc fuel tx w with e | ⟨s, t, v, c, x, _, hs, e⟩ | ⟨s, a, i, x, _, _, e⟩
    · rw [e] at hk ⊢; exact ih hk
    · rw [(exec_rel orc fuel _ _ _ _ _ _ _ e).1.kind] at hk
      have := (backing_exec orc T fuel _ _ _ _ _ _ _ e hk).2
      rw [this, ih hk, if_neg]
      · rfl
      · rintro rfl
        rw [h.basic.contract s (by rw [hk]; rintro ⟨⟩)] at hs; cases hs
    · obtain ⟨⟨hac, _, hn, _⟩, w1, hI, hB⟩ := deploy_body orc fuel s a i
        (withStable (fun s _ v _ w w' => w.kind T = .icx → w'.kind T = .icx ∧ excess T w' = excess T w - (if s = T then v else 0)))
        (fun t v c w x w' e => ⟨(exec_rel orc fuel a t v c w x w' e).1, backing_exec orc T fuel _ _ _ _ _ _ _ e⟩) e
      have hkk : (tx.apply orc fuel w).kind = w1.kind := (hB.stable (withStable _)).kind
      rw [hkk] at hk
      have hcoin : w1.coin T = w.coin T := by
        rw [hI.coin, enterW_coin']; simp [World.setKind]
      have hb : excess T (tx.apply orc fuel w) = excess T w1 := by
        have : w1.kind = w1.kind → excess T (tx.apply orc fuel w) = excess T w1 ∧ (tx.apply orc fuel w).kind = w1.kind := by
          refine Body.elim (R := fun u u' => u.kind = w1.kind → excess T u' = excess T u ∧ u'.kind = w1.kind) ?_ ?_ ?_ ?_ hB
          · intro u hu; exact ⟨rfl, hu⟩
          · intro a b c h1 h2 ha
            obtain ⟨h3, h4⟩ := h1 ha
            obtain ⟨h5, h6⟩ := h2 h4
            exact ⟨h5.trans h3, h6⟩
          · intro u u' hls hu
            refine ⟨?_, by rw [hls.kind, hu]⟩
            unfold excess; rw [hls.coin, hls.tok_onInstall rfl]
          · intro t' v' c' u u' ho hc hu
            refine ⟨?_, by rw [hc.1.kind, hu]⟩
            have hku : u.kind T = .icx := by rw [hu]; exact hk
            have := (hc.2 hku).2
            rw [this]
            split
            · rename_i haT
              change a = T at haT
              subst haT
              have hv' : v' = 0 := by
                cases ho with
                | foreign _ _ _ h | convView _ _ h | convToken _ _ h | convIssue _ _ _ _ _ _ h | convDestroy _ _ _ h
                  | convPay _ _ _ _ _ _ h | net _ _ _ h => exact absurd (hku.symm.trans h) (by decide)
                | icxOut _ _ _ h => rcases h with h | ⟨h, _⟩ <;> (rw [mkFrame_call] at h; cases h)
                | _ => rfl
              rw [hv']; simp
            · simp
        exact (this rfl).1
      rw [hb]
      by_cases haT : a = T
      · subst haT
        have hc0 := h.basic.coin_none a hn hac
        rw [hI.kind, enterW_kind, setKind_kind, if_pos rfl] at hk
        unfold excess
        rw [hcoin, hc0]
        cases hI with
        | icx => rw [setOwn_tok, setTok_tok_same]; simp
        | irc | flex | conv | net | reg | foreign => simp [Install.kind] at hk
      · have hs := installed_sameAt hI haT
        rw [hs.kind] at hk
        have := ih hk
        unfold excess at this ⊢
        rw [hcoin, hs.tok]; exact this

end Verif

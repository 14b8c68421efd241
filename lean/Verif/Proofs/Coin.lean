import Verif.Proofs.Backing
import Verif.Proofs.Entry
/-!
Coin does not stay in contracts other than ICX tokens.
-/
set_option linter.unusedSimpArgs false
namespace Verif

open Relation

/-- Contracts of this code base that never keep coin. -/
def Kind.isDry (k : Kind) : Prop := k = .irc ∨ k = .flex ∨ k = .conv ∨ k = .reg ∨ k = .net

/-- Coin sent along with a call to such a contract is accepted only by the network's `convert` and `convertFor`. -/
theorem exec_dry_value {orc n s T v c w x w'} (hk : (w.kind T).isDry) (h : exec orc (n + 1) s T v c w = .ok (x, w')) :
    v = 0 ∨ w.kind T = .net ∧ ((∃ p m, c = .convert p m) ∨ ∃ p m f, c = .convertFor p m f) := by
  rcases hk with hk | hk | hk | hk | hk
  · exact .inl (exec_tok_value (.inl hk) h (fun e => by rw [hk] at e; cases e))
  · exact .inl (exec_tok_value (.inr (.inr hk)) h (fun e => by rw [hk] at e; cases e))
  · rw [ok_exec_conv hk] at h; exact .inl (runNonPayable_value h.2)
  · rw [ok_exec_reg hk] at h; exact .inl (runNonPayable_value h.2)
  · rw [ok_exec_net hk] at h
    have h := h.2
    unfold Network.dispatch at h
    rw [mkFrame_call] at h
    split at h
    · exact .inr ⟨hk, .inl ⟨_, _, rfl⟩⟩
    · exact .inr ⟨hk, .inr ⟨_, _, _, rfl⟩⟩
    · exact .inl (runNonPayable_value h)

theorem convertLoop_congr {cx cx' : Ctx} (h1 : cx.self = cx'.self) (h2 : cx.call = cx'.call) (m : Int) :
    ∀ (l : List Addr) (a : Addr) (v : Int), Network.convertLoop cx m a l v = Network.convertLoop cx' m a l v
  | [], a, v => by simp [Network.convertLoop]
  | [_], a, v => by simp [Network.convertLoop]
  | b :: c :: l, a, v => by
    unfold Network.convertLoop
    rw [h1, h2]
    simp only [convertLoop_congr h1 h2 m l]

theorem internal_congr {cx cx' : Ctx} (h1 : cx.self = cx'.self) (h2 : cx.call = cx'.call) (p : List Addr) (v m : Int) (f : Addr) :
    Network.convertForInternal cx p v m f = Network.convertForInternal cx' p v m f := by
  unfold Network.convertForInternal
  cases p with
  | nil => rfl
  | cons a l => simp only [convertLoop_congr h1 h2 m l, h1, h2]

/-- A body of a dry contract, apart from the network's payable methods, passes no coin on. -/
theorem OutCall.dry {f w t v c} (hk : (w.kind f.to).isDry) (h : OutCall f w t v c)
    (hf : w.kind f.to ≠ .net ∨ (∀ p m, f.call ≠ .convert p m) ∧ ∀ p m a, f.call ≠ .convertFor p m a) : v = 0 := by
  cases h with
  | foreign _ _ _ h => rcases hk with hk | hk | hk | hk | hk <;> (rw [h] at hk; cases hk)
  | icxOut _ _ h => rcases hk with hk | hk | hk | hk | hk <;> (rw [h] at hk; cases hk)
  | net _ _ _ h h' =>
    rcases hf with hf | hf
    · exact absurd h hf
    rcases h' with ⟨p, m, a, h | ⟨h, _⟩, _⟩ | ⟨h, _⟩
    · exact absurd h (hf.2 _ _ _)
    · exact absurd h (hf.1 _ _)
    · exact h
  | _ => rfl

theorem Body.dry {T : Addr} {f : Frame} {w w' : World} (hT : f.to = T) (hk : (w.kind T).isDry)
    (hf : w.kind T ≠ .net ∨ (∀ p m, f.call ≠ .convert p m) ∧ ∀ p m a, f.call ≠ .convertFor p m a)
    (hB : Body (WithStable (fun s _ v _ w w' => (w.kind T).isDry → w'.coin T = w.coin T - (if s = T then v else 0))) f w w') :
    w'.coin T = w.coin T := by
  have : w.kind = w.kind → w'.coin T = w.coin T ∧ w'.kind = w.kind := by
    refine Body.elim (R := fun u u' => u.kind = w.kind → u'.coin T = u.coin T ∧ u'.kind = w.kind) ?_ ?_ ?_ ?_ hB
    · intro u hu; exact ⟨rfl, hu⟩
    · intro a b c h1 h2 ha
      obtain ⟨h3, h4⟩ := h1 ha
      obtain ⟨h5, h6⟩ := h2 h4
      exact ⟨h5.trans h3, h6⟩
    · intro u u' hls hu
      exact ⟨by rw [hls.coin], by rw [hls.kind, hu]⟩
    · intro t' v' c' u u' ho hc hu
      refine ⟨?_, by rw [hc.1.kind, hu]⟩
      have hku : (u.kind T).isDry := by rw [hu]; exact hk
      have hv := ho.dry (by rw [hT]; exact hku) (by rw [hT, hu]; exact hf)
      have := hc.2 hku
      rw [hv] at this
      simpa using this
  exact (this rfl).1

theorem coin_exec (orc : Oracle) (T : Addr) (n : Nat) : AllCalls orc n (fun s _ v _ w w' =>
    (w.kind T).isDry → w'.coin T = w.coin T - (if s = T then v else 0)) := by
  refine exec_hier orc T (P := fun w w' => (w.kind T).isDry → (w'.kind T).isDry ∧ w'.coin T = w.coin T) ?_ ?_ ?_ ?_ ?_ ?_ n
  · intro w h; exact ⟨h, rfl⟩
  · intro a b c h1 h2 h
    obtain ⟨h3, h4⟩ := h1 h
    obtain ⟨h5, h6⟩ := h2 h3
    exact ⟨h5, h6.trans h4⟩
  · intro f w w' hf hl hk
    exact ⟨by rw [hl.kind]; exact hk, by rw [hl.coin]⟩
  · intro f w t v c w' hf _ hs h hk
    have h2 := h hk
    rw [if_neg hf] at h2
    exact ⟨by rw [hs.kind]; exact hk, by omega⟩
  · intro s t v c w w' ht _ _ _ h hk
    obtain ⟨h1, h2⟩ := h hk
    rw [h2, enterW_coin', if_neg (Ne.symm ht)]
    simp only [eq_comm (a := T) (b := s)]
    omega
  · intro n s v c w x w' ih h hk
    by_cases hc : w.kind T ≠ .net ∨ (∀ p m, c ≠ .convert p m) ∧ ∀ p m a, c ≠ .convertFor p m a
    · have hv : v = 0 := by
        rcases exec_dry_value hk h with hv | ⟨hn, h'⟩
        · exact hv
        rcases hc with hc | hc
        · exact absurd hn hc
        rcases h' with ⟨p, m, e⟩ | ⟨p, m, f, e⟩
        · exact absurd e (hc.1 _ _)
        · exact absurd e (hc.2 _ _ _)
      subst hv
      obtain ⟨_, _, hB⟩ := exec_body ih h
      have := Body.dry (T := T) (w := enterW w s T 0 c) rfl (by exact hk) (by exact hc) hB
      rw [this, enterW_coin']; simp
    · have hnet : w.kind T = .net := by
        by_contra hn
        exact hc (.inl hn)
      have hc' : ∃ p m f, c = .convertFor p m f ∨ (c = .convert p m ∧ f = s) := by
        by_contra hn
        exact hc (.inr ⟨fun p m e => hn ⟨p, m, s, .inr ⟨e, rfl⟩⟩, fun p m f e => hn ⟨p, m, f, .inl e⟩⟩)
      obtain ⟨p, m, f, hc'⟩ := hc'
      obtain ⟨hv, hb, path, r, y, w1, _, _, _, _, _, _, a, rest, _, _, h1, h2⟩ := ok_exec_convertFor hnet hc' h
      have hC : CallOK (WithStable (fun s _ v _ w w' => (w.kind T).isDry → w'.coin T = w.coin T - (if s = T then v else 0)))
          { fr := mkFrame w s T v .getOwner, call := exec orc n T } :=
        fun t' v' c' w1 x1 w1' e => ⟨(exec_rel orc n T t' v' c' w1 x1 w1' e).1, ih _ _ _ _ _ _ _ e⟩
      have e1 := ih _ _ _ _ _ _ _ h1 (by exact hk)
      have hk1 : w1.kind = w.kind := (exec_rel orc n _ _ _ _ _ _ _ h1).1.kind
      rw [internal_congr (cx := { fr := mkFrame w s T v c, call := exec orc n T }) (cx' := { fr := mkFrame w s T v .getOwner, call := exec orc n T }) rfl rfl] at h2
      have hB := body_convertForInternal hC (withStable _) (w := w1) (by rw [hk1]; exact hnet) path v m f _ _ h2
      have e2 := hB.dry (T := T) rfl (by rw [hk1]; exact hk) (.inr ⟨by rintro _ _ ⟨⟩, by rintro _ _ _ ⟨⟩⟩)
      rw [e2, e1, enterW_coin', if_pos rfl]
      simp only [eq_comm (a := T) (b := s)]
      split <;> simp

theorem Reachable.dry {w} (h : Reachable w) {T : Addr} (hk : (w.kind T).isDry) : w.coin T = 0 := by
  induction h with
  | genesis hg => rw [hg.kind] at hk; rcases hk with hk | hk | hk | hk | hk <;> cases hk
  | @step w orc fuel tx h ih =>
    rcases apply_cases orc fuel tx w with e | ⟨s, t, v, c, x, _, hs, e⟩ | ⟨s, a, i, x, _, _, e⟩
    · rw [e] at hk ⊢; exact ih hk
    · rw [(exec_rel orc fuel _ _ _ _ _ _ _ e).1.kind] at hk
      rw [coin_exec orc T fuel _ _ _ _ _ _ _ e hk, ih hk, if_neg]
      · rfl
      · rintro rfl
        rw [h.basic.contract s (by rcases hk with hk | hk | hk | hk | hk <;> rw [hk] <;> rintro ⟨⟩)] at hs; cases hs
    · obtain ⟨⟨hac, _, hn, _⟩, w1, hI, hB⟩ := deploy_body orc fuel s a i
        (withStable (fun s _ v _ w w' => (w.kind T).isDry → w'.coin T = w.coin T - (if s = T then v else 0)))
        (fun t v c w x w' e => ⟨(exec_rel orc fuel a t v c w x w' e).1, coin_exec orc T fuel _ _ _ _ _ _ _ e⟩) e
      have hkk : (tx.apply orc fuel w).kind = w1.kind := (hB.stable (withStable _)).kind
      rw [hkk] at hk
      have hcoin : w1.coin T = w.coin T := by
        rw [hI.coin, enterW_coin']; simp [World.setKind]
      have hc0 : w.coin T = 0 := by
        by_cases haT : a = T
        · subst haT; exact h.basic.coin_none a hn hac
        · have hs := installed_sameAt hI haT
          rw [hs.kind] at hk
          exact ih hk
      by_cases haT : a = T
      · rw [hB.dry (T := T) haT hk (.inr ⟨by rintro _ _ ⟨⟩, by rintro _ _ _ ⟨⟩⟩), hcoin, hc0]
      · have : w1.kind = w1.kind → (tx.apply orc fuel w).coin T = w1.coin T ∧ (tx.apply orc fuel w).kind = w1.kind := by
          refine Body.elim (R := fun u u' => u.kind = w1.kind → u'.coin T = u.coin T ∧ u'.kind = w1.kind) ?_ ?_ ?_ ?_ hB
          · intro u hu; exact ⟨rfl, hu⟩
          · intro a b c h1 h2 ha
            obtain ⟨h3, h4⟩ := h1 ha
            obtain ⟨h5, h6⟩ := h2 h4
            exact ⟨h5.trans h3, h6⟩
          · intro u u' hls hu
            exact ⟨by rw [hls.coin], by rw [hls.kind, hu]⟩
          · intro t' v' c' u u' ho hc hu
            refine ⟨?_, by rw [hc.1.kind, hu]⟩
            rw [hc.2 (by rw [hu]; exact hk), if_neg (by exact haT)]; simp
        rw [(this rfl).1, hcoin, hc0]

/-- An ordinary account's coin goes down only by what it sends along itself. -/
theorem purse_exec (orc : Oracle) (a : Addr) (n : Nat) : AllCalls orc n (fun s _ v _ w w' =>
    w.kind a = .none → w.coin a - (if s = a then v else 0) ≤ w'.coin a) := by
  refine exec_hier orc a (P := fun w w' => w.kind a = .none → w'.kind a = .none ∧ w.coin a ≤ w'.coin a) ?_ ?_ ?_ ?_ ?_ ?_ n
  · intro w h; exact ⟨h, Int.le_refl _⟩
  · intro a b c h1 h2 h
    obtain ⟨h3, h4⟩ := h1 h
    obtain ⟨h5, h6⟩ := h2 h3
    exact ⟨h5, Int.le_trans h4 h6⟩
  · intro f w w' hf hl hk
    exact ⟨by rw [hl.kind]; exact hk, by rw [hl.coin]⟩
  · intro f w t v c w' hf _ hs h hk
    have h2 := h hk
    rw [if_neg hf] at h2
    exact ⟨by rw [hs.kind]; exact hk, by omega⟩
  · intro s t v c w w' ht _ _ _ h hk
    obtain ⟨h1, h2⟩ := h hk
    rw [enterW_coin', if_neg (Ne.symm ht)] at h2
    simp only [eq_comm (a := a) (b := s)] at h2
    omega
  · intro n s v c w x w' _ h hk
    obtain ⟨⟨hv, hb⟩, h⟩ := exec_succ h
    rw [ok_body] at h
    have hk' : (enterW w s a v c).kind (mkFrame w s a v c).to = .none := hk
    simp only [Ctx.self, hk'] at h
    have : w' = enterW w s a v c := by
      rw [okk_ite] at h
      rcases h with ⟨_, h⟩ | ⟨_, h⟩
      · simp only [okk, Except.ok.injEq, Prod.mk.injEq] at h; exact h.2.symm
      · simp only [okk] at h
    subst this
    rw [enterW_coin', if_pos rfl]
    simp only [eq_comm (a := a) (b := s)]
    omega

theorem purse_deploy {orc fuel s b i w x w'} {a : Addr} (ha : a.isContract = false) (hk : w.kind a = .none)
    (e : deploy orc fuel s b i w = .ok (x, w')) : w.coin a ≤ w'.coin a := by
  obtain ⟨⟨hac, _, hn, _⟩, w1, hI, hB⟩ := deploy_body orc fuel s b i
    (withStable (fun s _ v _ w w' => w.kind a = .none → w.coin a - (if s = a then v else 0) ≤ w'.coin a))
    (fun t v c w x w' e => ⟨(exec_rel orc fuel b t v c w x w' e).1, purse_exec orc a fuel _ _ _ _ _ _ _ e⟩) e
  have hba : b ≠ a := by rintro rfl; rw [ha] at hac; cases hac
  have hcoin : w1.coin a = w.coin a := by
    rw [hI.coin, enterW_coin']; simp [World.setKind]
  have hk1 : w1.kind a = .none := by rw [(installed_sameAt hI hba).kind]; exact hk
  have : w1.kind = w1.kind → w1.coin a ≤ w'.coin a ∧ w'.kind = w1.kind := by
    refine Body.elim (R := fun u u' => u.kind = w1.kind → u.coin a ≤ u'.coin a ∧ u'.kind = w1.kind) ?_ ?_ ?_ ?_ hB
    · intro u hu; exact ⟨Int.le_refl _, hu⟩
    · intro a b c h1 h2 ha
      obtain ⟨h3, h4⟩ := h1 ha
      obtain ⟨h5, h6⟩ := h2 h4
      exact ⟨Int.le_trans h3 h5, h6⟩
    · intro u u' hls hu
      exact ⟨by rw [hls.coin], by rw [hls.kind, hu]⟩
    · intro t' v' c' u u' ho hc hu
      refine ⟨?_, by rw [hc.1.kind, hu]⟩
      have := hc.2 (by rw [hu]; exact hk1)
      rw [if_neg (by exact hba)] at this
      omega
  rw [← hcoin]; exact (this rfl).1

end Verif

import Verif.Proofs.Ledger
import Verif.Proofs.Supply
/-!
Exact accounting over transactions and histories.
-/
namespace Verif

open Relation

theorem LocalStep.tok_onInstall {f w w' i} (h : LocalStep f w w') (hc : f.call = .onInstall i) : w'.tok = w.tok := by
  cases h with
  | transfer _ _ _ _ h | issue _ _ _ h | destroy _ _ _ h => rw [hc] at h; cases h
  | deposit _ h => rcases h with h | h <;> (rw [hc] at h; cases h)
  | withdraw _ _ _ h => rcases h with h | ⟨h, _⟩ <;> (rw [hc] at h; cases h)
  | _ => rfl

/-- The part of a deployment that runs after the new contract's storage is set up. -/
theorem acct_deployBody {T : Addr} {f : Frame} {i w w'} (hc : f.call = .onInstall i)
    (hB : Body (WithStable fun _ _ _ _ => Acct T) f w w') : Acct T w w' :=
  Body.elim (R := Acct T) (Acct.refl T) (fun _ _ _ => Acct.trans)
    (fun u u' hl _ => ⟨[], books_same hl.frames (by rw [hl.kind]) (by rw [hl.tok_onInstall hc])⟩)
    (fun _ _ _ _ _ _ h => h.2) hB

theorem apply_cases (orc : Oracle) (fuel : Nat) (tx : Tx) (w : World) :
    tx.apply orc fuel w = w ∨
    (∃ s t v c x, tx = .call s t v c ∧ s.isContract = false ∧ exec orc fuel s t v c w = .ok (x, tx.apply orc fuel w)) ∨
    (∃ s a i x, tx = .deploy s a i ∧ s.isContract = false ∧ deploy orc fuel s a i w = .ok (x, tx.apply orc fuel w)) := by
  unfold Tx.apply
  cases h : tx.run orc fuel w with
  | error e => exact .inl rfl
  | ok p =>
    obtain ⟨x, w'⟩ := p
    right
    cases tx with
    | call s t v c =>
      simp only [Tx.run, okk] at h
      exact .inl ⟨s, t, v, c, x, rfl, h.1, h.2⟩
    | deploy s a i =>
      simp only [Tx.run, okk] at h
      exact .inr ⟨s, a, i, x, rfl, h.1, h.2⟩

/-- Every transaction accounts exactly for every deployed token. -/
theorem acct_tx (orc : Oracle) (fuel : Nat) (tx : Tx) (w : World) (T : Addr) : Acct T w (tx.apply orc fuel w) := by
  rcases apply_cases orc fuel tx w with h | ⟨s, t, v, c, x, _, _, h⟩ | ⟨s, a, i, x, _, _, h⟩
  · rw [h]; exact .refl T w
  · exact acct_exec orc T fuel _ _ _ _ _ _ _ h
  · intro hk
    obtain ⟨⟨_, _, hn, _⟩, w1, hI, hB⟩ := deploy_body orc fuel s a i (withStable fun _ _ _ _ => Acct T)
      (fun t v c w x w' e => ⟨(exec_rel orc fuel a t v c w x w' e).1, acct_exec orc T fuel _ _ _ _ _ _ _ e⟩) h
    have hne : a ≠ T := by rintro rfl; rw [hn] at hk; simp [Kind.isToken] at hk
    have hs := installed_sameAt hI hne
    have h1 : Books' T [mkFrame (w.setKind a i.kind) s a 0 (.onInstall i)] w w1 :=
      { frames := by rw [hI.frames]; rfl
        kind := hs.kind
        bal := fun x => by rw [total_one, hs.tok]; simp [credit, hne]
        supply := by rw [total_one, hs.tok]; simp [minted, hne]
        name := by rw [hs.tok]
        symbol := by rw [hs.tok]
        decimals := by rw [hs.tok]
        lawful := fun f hf => by
          rw [List.mem_singleton] at hf; subst hf
          intro e; exact absurd e hne }
    obtain ⟨l, h2⟩ := acct_deployBody rfl hB (by rw [hs.kind]; exact hk)
    exact ⟨_, h1.trans h2⟩

/-- Nobody called a contract before it was deployed. -/
theorem Reachable.fresh {w} (h : Reachable w) : ∀ a, a.isContract = true → w.kind a = .none → ∀ f ∈ w.frames, f.to ≠ a := by
  refine h.inv (I := fun w => ∀ a, a.isContract = true → w.kind a = .none → ∀ f ∈ w.frames, f.to ≠ a) ?_ ?_
  · intro w hg a _ _ f hf
    rw [hg.frames] at hf; cases hf
  · intro w w' hi hs a ha hk f hf
    cases hs with
    | enter s t v c _ _ _ hn =>
      rw [enterW_frames] at hf
      rcases List.mem_cons.mp hf with rfl | hf
      · rintro rfl
        rw [mkFrame_to] at ha hk
        rw [(hn hk).1] at ha; cases ha
      · exact hi a ha hk f hf
    | loc g w' _ hl =>
      rw [hl.frames] at hf
      rw [hl.kind] at hk
      exact hi a ha hk f hf
    | deploy s b i w' _ _ _ hn _ hI =>
      rw [hI.frames, enterW_frames] at hf
      rw [hI.kind, enterW_kind, setKind_kind] at hk
      split at hk
      · cases i <;> cases hk
      · rename_i hne
        rcases List.mem_cons.mp hf with rfl | hf
        · rintro rfl; exact hne rfl
        · exact hi a ha hk f hf

/-- Exact accounting from the beginning of the history. -/
structure History (T : Addr) (w : World) : Prop where
  bal : ∀ a, (w.tok T).bal a = total (credit T a) w.frames
  supply : (w.tok T).supply = total (minted T) w.frames
  lawful : ∀ f ∈ w.frames, Lawful T f

theorem total_other {T : Addr} {l : List Frame} (h : ∀ f ∈ l, f.to ≠ T) :
    (∀ a, total (credit T a) l = 0) ∧ total (minted T) l = 0 ∧ ∀ f ∈ l, Lawful T f := by
  induction l with
  | nil => exact ⟨fun _ => rfl, rfl, fun f hf => by cases hf⟩
  | cons g l ih =>
    obtain ⟨h1, h2, h3⟩ := ih (fun f hf => h f (List.mem_cons_of_mem _ hf))
    have hg := h g List.mem_cons_self
    refine ⟨fun a => ?_, ?_, fun f hf => ?_⟩
    · change credit T a g + total (credit T a) l = 0
      rw [h1]; simp [credit, hg]
    · change minted T g + total (minted T) l = 0
      rw [h2]; simp [minted, hg]
    · rcases List.mem_cons.mp hf with rfl | hf
      · intro e; exact absurd e hg
      · exact h3 f hf

theorem history_books {T l w w'} (h : History T w) (hb : Books' T l w w') : History T w' where
  bal a := by rw [hb.bal, h.bal, hb.frames, total_append, Int.add_comm]
  supply := by rw [hb.supply, h.supply, hb.frames, total_append, Int.add_comm]
  lawful f hf := by
    rw [hb.frames] at hf
    rcases List.mem_append.mp hf with hf | hf
    · exact hb.lawful f hf
    · exact h.lawful f hf

theorem credit_install (w : World) (s T a : Addr) (i d : Int) (n sy : String) :
    credit T a (mkFrame w s T 0 (.onInstall (.irc n sy i d))) = (if a = s then i * 10 ^ d.toNat else 0) ∧
    credit T a (mkFrame w s T 0 (.onInstall (.flex n sy i d))) = (if a = s then i * 10 ^ d.toNat else 0) :=
  ⟨if_pos rfl, if_pos rfl⟩

theorem total_cons (g) (f : Frame) (l : List Frame) : total g (f :: l) = g f + total g l := by simp [total]

theorem Reachable.history {w} (h : Reachable w) {T : Addr} (hk : (w.kind T).isToken) : History T w := by
  induction h with
  | genesis hg => rw [hg.kind] at hk; simp [Kind.isToken] at hk
  | @step w orc fuel tx h ih =>
    by_cases hk0 : (w.kind T).isToken
    · obtain ⟨l, hb⟩ := acct_tx orc fuel tx w T hk0
      exact history_books (ih hk0) hb
    · rcases apply_cases orc fuel tx w with e | ⟨s, t, v, c, x, _, _, e⟩ | ⟨s, a, i, x, _, _, e⟩
      · rw [e] at hk; exact absurd hk hk0
      · rw [(exec_rel orc fuel _ _ _ _ _ _ _ e).1.kind] at hk; exact absurd hk hk0
      · obtain ⟨⟨hac, _, hn, _⟩, w1, hI, hB⟩ := deploy_body orc fuel s a i (withStable fun _ _ _ _ => Acct T)
          (fun t v c w x w' e => ⟨(exec_rel orc fuel a t v c w x w' e).1, acct_exec orc T fuel _ _ _ _ _ _ _ e⟩) e
        have hkk : (tx.apply orc fuel w).kind = w1.kind := (hB.stable (withStable _)).kind
        rw [hkk, hI.kind, enterW_kind, setKind_kind] at hk
        split at hk
        · rename_i haT
          subst haT
          obtain ⟨l, h2⟩ := acct_deployBody rfl hB (T := T) (by rw [hI.kind, enterW_kind, setKind_kind, if_pos rfl]; exact hk)
          refine history_books ?_ h2
          obtain ⟨f1, f2, f3⟩ := total_other (h.fresh T hac hn)
          have ht : w.tok T = {} := h.basic.tok T hk0
          have hlaw : Lawful T (mkFrame (w.setKind T i.kind) s T 0 (.onInstall i)) → ∀ f ∈ w1.frames, Lawful T f := by
            intro hl f hf
            rw [hI.frames, enterW_frames] at hf
            rcases List.mem_cons.mp hf with rfl | hf
            · exact hl
            · exact f3 f hf
          cases hI with
          | irc n sy i d h1 h2' =>
            refine ⟨fun a => ?_, ?_, hlaw fun _ => ⟨h1, h2', rfl⟩⟩
            · change _ = total _ (mkFrame _ _ _ _ _ :: w.frames)
              rw [total_cons, f1, setTok_tok_same, (credit_install _ _ _ _ _ _ _ _).1]
              simp [ht, credit, upd_apply, World.setKind]
            · change _ = total _ (mkFrame _ _ _ _ _ :: w.frames)
              rw [total_cons, f2, setTok_tok_same]
              simp [minted]
          | icx =>
            refine ⟨fun a => ?_, ?_, hlaw fun _ => rfl⟩
            · change _ = total _ (mkFrame _ _ _ _ _ :: w.frames)
              rw [total_cons, f1, setOwn_tok, setTok_tok_same]
              simp [ht, credit, upd_apply, World.setKind]
            · change _ = total _ (mkFrame _ _ _ _ _ :: w.frames)
              rw [total_cons, f2, setOwn_tok, setTok_tok_same]
              simp [minted]
          | flex n sy i d h1 h2' =>
            refine ⟨fun a => ?_, ?_, hlaw fun _ => ⟨h1, h2', rfl⟩⟩
            · change _ = total _ (mkFrame _ _ _ _ _ :: w.frames)
              rw [total_cons, f1, addLog_tok, setFlex_tok, setOwn_tok, setTok_tok_same, (credit_install _ _ _ _ _ _ _ _).2]
              simp [ht, credit, upd_apply, World.setKind]
            · change _ = total _ (mkFrame _ _ _ _ _ :: w.frames)
              rw [total_cons, f2, addLog_tok, setFlex_tok, setOwn_tok, setTok_tok_same]
              simp [minted]
          | conv | net | reg | foreign => simp [Install.kind, Kind.isToken] at hk
        · exact absurd hk hk0

end Verif

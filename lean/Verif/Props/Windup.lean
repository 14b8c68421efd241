import Verif.Props.Guide
/-!
C63: a converter's owner can always wind it up.
-/
set_option autoImplicit false
set_option linter.unusedSimpArgs false
namespace Verif

open Scenario (ready ready_reachable alice bob owner)

variable {orc : Oracle} {n : Nat} {w w' : World} {s T t a b : Addr} {v : Int} {x : Val}

/-- The transactions that stop converter `T` of flexible token `t`: its owner `s` has the token handed over to himself. -/
def stopping (s T t : Addr) : List Tx := [.call s T 0 (.transferTokenOwnership s), .call s t 0 .acceptOwnerShip]

/-- Withdrawals of all that converter `T` has (in ledger `w`) of the tokens listed. -/
def withdrawals (w : World) (s T : Addr) (l : List Addr) : List Tx :=
  l.map fun a => .call s T 0 (.withdrawTokens a s ((w.tok a).bal T))

/-- C63. Withdrawing from a converter, token by token: succeeds, for an ordinary recipient, exactly if it is ordered by the owner,
the amount is positive and there, the token's transfers are not disabled, and either the converter is not active or the token is
no connector; it moves the tokens and nothing else. -/
theorem C63_withdraw (hr : Reachable w) (hk : w.kind T = .conv) (ht : (w.conv T).token = some t) (hf : (w.kind t).isOwned)
    (ha : (w.kind a).isToken) (hb : b.isContract = false) :
    exec orc (n + 2) s T 0 (.withdrawTokens a b v) w = .ok (x, w') ↔
    ((w.own T).owner = some s ∧ 0 < v ∧ v ≤ (w.tok a).bal T ∧ (w.kind a = .flex → (w.flex a).transferable = true) ∧
      ((w.own t).owner ≠ some T ∨ ((w.conv T).connectors a).isSet = false)) ∧ x = .unit ∧
    w' = ((((w.note s T 0 (.withdrawTokens a b v)).note T t 0 .getOwner).note T a 0 (.transfer b v none)).pay a T b v).addLog a
      (.Transfer T b v .noneBytes) := by
  have hc := hr.basic.coin_nonneg
  have hkc : ∀ a : Addr, w.kind a ≠ .none → a ≠ b := by
    rintro _ h rfl
    rw [hr.basic.contract _ h] at hb; cases hb
  have hbT : b ≠ T := (hkc T (by rw [hk]; decide)).symm
  have hbz : b ≠ ZERO := by rintro rfl; exact absurd hb (by decide)
  have hact : ∀ o : Option Addr, (Val.addr o).isAddr T = false ↔ o ≠ some T := by
    intro o
    rw [← Bool.not_eq_true, Val.isAddr_addr]
  rw [ok_exec_convWithdraw hk]
  constructor
  · rintro ⟨_, _, h1, t', z, w1, h2, h3, h4, h5, h6, _, _, y, h7⟩
    rw [ht] at h2; cases h2
    rw [ok_exec_getOwner (by exact hf)] at h3
    obtain ⟨_, rfl, rfl⟩ := h3
    rw [ok_exec_transfer (by exact ha)] at h7
    simp only [note_conv, note_own, note_tok, note_kind, note_flex, hact] at *
    obtain ⟨_, h8, _, _, h9, _, ⟨_, h10⟩ | ⟨h10, _⟩⟩ := h7
    · exact ⟨⟨h5, h6, h9, h8, h4⟩, h1, h10⟩
    · rw [hb] at h10; cases h10
  · rintro ⟨⟨h5, h6, h9, h8, h4⟩, h1, h10⟩
    refine ⟨rfl, hc s, h1, t, _, _, ht, (ok_exec_getOwner (by exact hf)).mpr ⟨hc T, rfl, rfl⟩, ?_, h5, h6, hbT, hbz, .unit, ?_⟩
    · simpa only [note_conv, note_own, hact] using h4
    · rw [ok_exec_transfer (by exact ha)]
      refine ⟨hc T, h8, fun _ e => ?_, by omega, h9, rfl, .inl ⟨hb, h10⟩⟩
      exact hkc a (by intro h; rw [h] at ha; exact absurd ha (by decide)) e

/-- All the withdrawals together. -/
theorem withdraw_all (hs : s.isContract = false) : ∀ (l : List Addr) (w w0 : World), Reachable w → w.kind T = .conv →
    (w.conv T).token = some t → (w.kind t).isOwned → (w.own T).owner = some s → (w.own t).owner ≠ some T → l.Nodup →
    (∀ a ∈ l, (w.kind a).isToken ∧ 0 < (w.tok a).bal T ∧ (w.kind a = .flex → (w.flex a).transferable = true) ∧ w0.tok a = w.tok a) →
    ∃ u, Works orc (n + 2) w (withdrawals w0 s T l) u ∧ u.kind = w.kind ∧ u.coin = w.coin ∧ u.own = w.own ∧ u.flex = w.flex ∧
      u.conv = w.conv ∧ u.reg = w.reg ∧ u.net = w.net ∧ u.store = w.store ∧
      (∀ a ∈ l, u.tok a = { w.tok a with bal := moveBal (w.tok a).bal T s ((w.tok a).bal T) }) ∧ ∀ a, a ∉ l → u.tok a = w.tok a := by
  intro l
  induction l with
  | nil => intro w w0 _ _ _ _ _ _ _ _; exact ⟨w, .nil, rfl, rfl, rfl, rfl, rfl, rfl, rfl, rfl, by simp, by simp⟩
  | cons a l ih =>
    intro w w0 hr hk ht hf ho hna hnd hl
    obtain ⟨h1, h2, h3, h4⟩ := hl a (by simp)
    obtain ⟨u, W, k1, c1, o1, f1, v1, g1, n1, s1, t1⟩ : ∃ u, Works orc (n + 2) w [.call s T 0 (.withdrawTokens a s ((w0.tok a).bal T))] u ∧
        u.kind = w.kind ∧ u.coin = w.coin ∧ u.own = w.own ∧ u.flex = w.flex ∧ u.conv = w.conv ∧ u.reg = w.reg ∧ u.net = w.net ∧
        u.store = w.store ∧ u.tok = upd w.tok a { w.tok a with bal := moveBal (w.tok a).bal T s ((w.tok a).bal T) } :=
      ⟨_, .one (run_call hs ((C63_withdraw (n := n) (x := .unit) hr hk ht hf h1 hs).mpr
        ⟨⟨ho, by rw [h4]; exact h2, by rw [h4], h3, .inl hna⟩, rfl, rfl⟩)), rfl, rfl, rfl, rfl, rfl, rfl, rfl, rfl, by
          rw [h4]; rfl⟩
    rw [List.nodup_cons] at hnd
    have hne : ∀ b ∈ l, b ≠ a := fun b hb e => hnd.1 (e ▸ hb)
    obtain ⟨u', W', k2, c2, o2, f2, v2, g2, n2, s2, t2, t3⟩ := ih u w0 (W.reachable hr) (by rw [k1, hk]) (by rw [v1, ht]) (by rw [k1]; exact hf)
      (by rw [o1]; exact ho) (by rw [o1]; exact hna) hnd.2 (fun b hb => by
        obtain ⟨b1, b2, b3, b4⟩ := hl b (by simp [hb])
        rw [k1, f1, t1, upd_ne _ _ (hne b hb)]
        exact ⟨b1, b2, b3, b4⟩)
    refine ⟨u', W.append W', k2.trans k1, c2.trans c1, o2.trans o1, f2.trans f1, v2.trans v1, g2.trans g1, n2.trans n1,
      s2.trans s1, ?_, ?_⟩
    · intro b hb
      rcases List.mem_cons.mp hb with rfl | hb
      · rw [t3 _ hnd.1, t1, upd_same]
      · rw [t2 b hb, t1, upd_ne _ _ (hne b hb)]
    · intro b hb
      rw [List.mem_cons, not_or] at hb
      rw [t3 b hb.2, t1, upd_ne _ _ hb.1]

/-- C63. Whatever has happened before, the owner of an active converter (an ordinary account) can stop it and get out everything
it holds, of any tokens of this code base whose transfers are not disabled: he has the flexible token handed over to himself, and
withdraws. All of these transactions succeed; in the end he owns the flexible token, the converter is inactive, it holds nothing of
these tokens and he has got it all. Nobody else's balance, no supply and no other contract is affected, and nobody's consent is
needed. -/
theorem C63_windup (hr : Reachable w) (hk : w.kind T = .conv) (ht : (w.conv T).token = some t) (hf : w.kind t = .flex)
    (hact : w.active T) (ho : (w.own T).owner = some s) (hs : s.isContract = false) {l : List Addr} (hnd : l.Nodup)
    (hl : ∀ a ∈ l, (w.kind a).isToken ∧ 0 < (w.tok a).bal T ∧ (w.kind a = .flex → (w.flex a).transferable = true)) :
    ∃ w', Works orc (n + 2) w (stopping s T t ++ withdrawals w s T l) w' ∧
      (w'.own t).owner = some s ∧ ¬ w'.active T ∧ (w'.own T).owner = some s ∧
      (∀ a ∈ l, (w'.tok a).bal T = 0 ∧ (w'.tok a).bal s = (w.tok a).bal s + (w.tok a).bal T ∧ (w'.tok a).supply = (w.tok a).supply ∧
        ∀ b, b ≠ T → b ≠ s → (w'.tok a).bal b = (w.tok a).bal b) ∧
      (∀ a, a ∉ l → w'.tok a = w.tok a) ∧ w'.conv = w.conv ∧ w'.flex = w.flex ∧ w'.coin = w.coin ∧ w'.kind = w.kind ∧
      w'.reg = w.reg ∧ w'.net = w.net ∧ w'.store = w.store ∧ ∀ a, a ≠ t → w'.own a = w.own a := by
  have hsT : s ≠ T := by rintro rfl; rw [hr.basic.contract _ (by rw [hk]; decide)] at hs; cases hs
  have htT : t ≠ T := by rintro rfl; rw [hk] at hf; cases hf
  have hown : (w.own t).owner = some T := by
    obtain ⟨t', h1, h2⟩ := hact
    rw [ht] at h1; cases h1; exact h2
  have hkt : (w.kind t).isOwned := by rw [hf]; decide
  obtain ⟨w1, W1, k1, c1, t1, f1, v1, g1, n1, s1, o1⟩ : ∃ u, Works orc (n + 2) w [.call s T 0 (.transferTokenOwnership s)] u ∧
      u.kind = w.kind ∧ u.coin = w.coin ∧ u.tok = w.tok ∧ u.flex = w.flex ∧ u.conv = w.conv ∧ u.reg = w.reg ∧ u.net = w.net ∧
      u.store = w.store ∧ u.own = upd w.own t { w.own t with newOwner := some s } :=
    ⟨_, .one (run_call hs ((C55_transferTokenOwnership (n := n) (x := .unit) hk ht hkt (hr.basic.coin_nonneg s) (hr.basic.coin_nonneg T)).mpr
      ⟨⟨ho, hown, hsT⟩, rfl, rfl⟩)), rfl, rfl, rfl, rfl, rfl, rfl, rfl, rfl, rfl⟩
  have r1 := W1.reachable hr
  obtain ⟨w2, W2, k2, c2, t2, f2, v2, g2, n2, s2, o2⟩ : ∃ u, Works orc (n + 2) w1 [.call s t 0 .acceptOwnerShip] u ∧
      u.kind = w1.kind ∧ u.coin = w1.coin ∧ u.tok = w1.tok ∧ u.flex = w1.flex ∧ u.conv = w1.conv ∧ u.reg = w1.reg ∧ u.net = w1.net ∧
      u.store = w1.store ∧ u.own = upd w1.own t { owner := some s, newOwner := some ZERO } :=
    ⟨_, .one (run_call hs ((C12_acceptOwnerShip (n := n + 1) (x := .unit) (by rw [k1]; exact hkt) (r1.basic.coin_nonneg s)).mpr
      ⟨by rw [o1, upd_same], rfl, rfl⟩)), rfl, rfl, rfl, rfl, rfl, rfl, rfl, rfl, rfl⟩
  have r2 := W2.reachable r1
  have hv2 : w2.conv = w.conv := by rw [v2, v1]
  have hk2 : w2.kind = w.kind := by rw [k2, k1]
  have ht2 : w2.tok = w.tok := by rw [t2, t1]
  have hot : (w2.own t).owner = some s := by rw [o2, upd_same]
  have hoo : ∀ a, a ≠ t → w2.own a = w.own a := fun a ha => by rw [o2, upd_ne _ _ ha, o1, upd_ne _ _ ha]
  obtain ⟨w3, W3, k3, c3, o3, f3, v3, g3, n3, s3, t3, t4⟩ := withdraw_all (orc := orc) (n := n) (s := s) (T := T) (t := t) hs l w2 w r2
    (by rw [hk2, hk]) (by rw [hv2, ht]) (by rw [hk2]; exact hkt) (by rw [hoo T htT.symm]; exact ho)
    (by rw [hot]; intro e; injection e with e; exact hsT e) hnd
    (fun a ha => by rw [hk2, ht2, f2, f1]; exact ⟨(hl a ha).1, (hl a ha).2.1, (hl a ha).2.2, rfl⟩)
  refine ⟨w3, (W1.append W2).append W3, by rw [o3, hot], ?_, by rw [o3, hoo T htT.symm, ho], ?_, ?_, by rw [v3, hv2],
    by rw [f3, f2, f1], by rw [c3, c2, c1], by rw [k3, hk2], by rw [g3, g2, g1], by rw [n3, n2, n1], by rw [s3, s2, s1], ?_⟩
  · rintro ⟨t', h1, h2⟩
    rw [v3, hv2, ht] at h1; cases h1
    rw [o3, hot] at h2
    injection h2 with h2; exact hsT h2
  · intro a ha
    rw [t3 a ha, ht2]
    refine ⟨by simp [moveBal, hsT.symm], by simp [moveBal, hsT], rfl, fun b h1 h2 => by simp [moveBal, h1, h2]⟩
  · intro a ha; rw [t4 a ha, ht2]
  · intro a ha; rw [o3, hoo a ha]

set_option maxRecDepth 100000 in
/-- C63: the owner of the example's converter gets out its 50000 of each connector. -/
example : ∃ w', Works orc (n + 2) ready (stopping owner Scenario.conv Scenario.flex ++
      withdrawals ready owner Scenario.conv [Scenario.irc, Scenario.icxt]) w' ∧
    (w'.tok Scenario.irc).bal owner = (ready.tok Scenario.irc).bal owner + 50000 ∧ (w'.tok Scenario.icxt).bal Scenario.conv = 0 := by
  obtain ⟨w', h1, _, _, _, h2, _⟩ := C63_windup (orc := orc) (n := n) (l := [Scenario.irc, Scenario.icxt]) ready_reachable
    ready_wired.conv ready_wired.token ready_wired.flex ((active_iff ready_wired).mpr ready_tokens.2.2.2)
    (show (ready.own Scenario.conv).owner = some owner by decide +kernel) rfl (by decide +kernel) (by decide +kernel)
  refine ⟨w', h1, ?_, (h2 _ (by simp)).1⟩
  rw [(h2 Scenario.irc (by simp)).2.1, show (ready.tok Scenario.irc).bal Scenario.conv = 50000 by decide +kernel]

end Verif

import Verif.Proofs.Backing
import Verif.Props.Scenario
/-!
Properties C01-C11: the tokens. Every theorem is followed by an example on a concrete reachable ledger.
-/
set_option autoImplicit false
namespace Verif

open Scenario (ready ready_reachable alice bob owner)

/-! ### C01 -/

/-- C01. In every reachable ledger a token's total supply is the sum of all balances, none of them negative. -/
theorem C01_supply_is_sum {w : World} (h : Reachable w) (T : Addr) :
    (w.tok T).supply = ∑ᶠ a, (w.tok T).bal a ∧ (∀ a, 0 ≤ (w.tok T).bal a) ∧ 0 ≤ (w.tok T).supply := by
  obtain ⟨h1, h2⟩ := h.books T
  refine ⟨h1.symm, h2, ?_⟩
  rw [← h1]
  exact finsum_nonneg h2

/-- C01, at the API: what `totalSupply()` answers is the sum of what `balanceOf` answers. -/
theorem C01_supply_is_sum_api {w : World} (h : Reachable w) {T : Addr} (hk : (w.kind T).isToken) :
    ∃ b : Addr → Int, (∀ a, Answers w T (.balanceOf a) (.int (b a))) ∧
      Answers w T .totalSupply (.int (∑ᶠ a, b a)) ∧ ∀ a, 0 ≤ b a := by
  refine ⟨(w.tok T).bal, fun a orc n s hs => ⟨_, (ok_exec_balanceOf hk).mpr ⟨hs, rfl, rfl⟩⟩, fun orc n s hs => ?_, (h.books T).2⟩
  rw [(h.books T).1]
  exact ⟨_, (ok_exec_totalSupply hk).mpr ⟨hs, rfl, rfl⟩⟩

/-- C01, with the whole history: every balance, and the supply, is exactly the sum of the effects of the successful calls
made to the token since its deployment. -/
theorem C01_balances_are_history {w : World} (h : Reachable w) {T : Addr} (hk : (w.kind T).isToken) :
    (∀ a, (w.tok T).bal a = total (credit T a) w.frames) ∧ (w.tok T).supply = total (minted T) w.frames ∧
    ∀ f ∈ w.frames, Lawful T f :=
  ⟨(h.history hk).bal, (h.history hk).supply, (h.history hk).lawful⟩

set_option maxRecDepth 100000 in
example : Reachable ready ∧ (ready.kind Scenario.flex).isToken ∧ (ready.tok Scenario.flex).supply = 100000 ∧
    (ready.tok Scenario.flex).bal alice = 10000 := ⟨ready_reachable, by decide +kernel, by decide +kernel, by decide +kernel⟩

/-! ### C02 -/

/-- C02. A successful `transfer` to an ordinary account moves exactly the value, and changes nothing else. -/
theorem C02_transfer_exact {orc n s T cv dst v d w x w'} (hk : (w.kind T).isToken) (hd : dst.isContract = false)
    (h : exec orc n s T cv (.transfer dst v d) w = .ok (x, w')) :
    w'.tok T = { w.tok T with bal := moveBal (w.tok T).bal s dst v } ∧
    (∀ a, a ≠ T → w'.tok a = w.tok a) ∧ w'.own = w.own ∧ w'.flex = w.flex ∧ w'.conv = w.conv ∧ w'.reg = w.reg ∧
    w'.net = w.net ∧ w'.store = w.store ∧ w'.coin = w.coin ∧ w'.kind = w.kind ∧
    w'.log = (T, .Transfer s dst v (d.getD .noneBytes)) :: w.log := by
  cases n with
  | zero => exact (exec_zero h).elim
  | succ n =>
    have hv := exec_tok_value hk h (fun _ => ⟨by rintro ⟨⟩, by rintro ⟨⟩⟩)
    subst hv
    rw [ok_exec_transfer hk] at h
    obtain ⟨_, _, _, _, _, _, ⟨_, rfl⟩ | ⟨h, _⟩⟩ := h
    · refine ⟨by simp [World.pay], fun a ha => ?_, rfl, rfl, rfl, rfl, rfl, rfl, rfl, rfl, rfl⟩
      simp [World.pay, setTok_tok, ha]
    · rw [hd] at h; cases h

/-- C02. A `transfer` to an ordinary account succeeds exactly if it is covered (and no coin is sent along, and the token is
transferable). -/
theorem C02_transfer_iff {orc n s T cv dst v d w} (hk : (w.kind T).isToken) (hd : dst.isContract = false)
    (hT : T.isContract = true) :
    (∃ x w', exec orc (n + 1) s T cv (.transfer dst v d) w = .ok (x, w')) ↔
    cv = 0 ∧ 0 ≤ w.coin s ∧ 0 ≤ v ∧ v ≤ (w.tok T).bal s ∧ (w.kind T = .flex → (w.flex T).transferable = true) := by
  constructor
  · rintro ⟨x, w', h⟩
    have hv := exec_tok_value hk h (fun _ => ⟨by rintro ⟨⟩, by rintro ⟨⟩⟩)
    subst hv
    rw [ok_exec_transfer hk] at h
    exact ⟨rfl, h.1, h.2.2.2.1, h.2.2.2.2.1, h.2.1⟩
  · rintro ⟨rfl, h1, h2, h3, h4⟩
    refine ⟨_, _, (ok_exec_transfer hk).mpr ⟨h1, h4, fun _ e => ?_, h2, h3, rfl, .inl ⟨hd, rfl⟩⟩⟩
    subst e; rw [hd] at hT; cases hT

set_option maxRecDepth 100000 in
example : (ready.kind Scenario.irc).isToken ∧ bob.isContract = false ∧ Scenario.irc.isContract = true ∧
    (ready.tok Scenario.irc).bal alice = 10000 ∧ Scenario.answer alice Scenario.irc (.transfer bob 10000 none) ready = .ok .unit ∧
    Scenario.answer alice Scenario.irc (.transfer bob 10001 none) ready = .error (.revert "Out of balance") := by decide +kernel

/-- C02, at the level of single balances: the sender has `v` less, the recipient `v` more, everybody else the same;
a transfer to oneself changes nothing. -/
theorem C02_transfer_balances {orc n s T cv dst v d w x w'} (hk : (w.kind T).isToken) (hd : dst.isContract = false)
    (h : exec orc n s T cv (.transfer dst v d) w = .ok (x, w')) :
    (s ≠ dst → (w'.tok T).bal s = (w.tok T).bal s - v ∧ (w'.tok T).bal dst = (w.tok T).bal dst + v) ∧
    (s = dst → (w'.tok T).bal s = (w.tok T).bal s) ∧
    ∀ a, a ≠ s → a ≠ dst → (w'.tok T).bal a = (w.tok T).bal a := by
  rw [(C02_transfer_exact hk hd h).1]
  simp only [moveBal]
  refine ⟨fun hne => ?_, fun e => ?_, fun a h1 h2 => ?_⟩
  · simp [hne, Ne.symm hne]
  · subst e; simp
  · simp [h1, h2]

/-- C02, completed for contracts: a `transfer` to a contract is the same move of the balance, followed by the call
`tokenFallback(sender, value, data)` to the recipient by the token; it succeeds exactly when that call does. -/
theorem C02_transfer_to_contract {orc n s T dst v d w x w'} (hk : (w.kind T).isToken) (hd : dst.isContract = true) :
    exec orc (n + 1) s T 0 (.transfer dst v d) w = .ok (x, w') ↔
    0 ≤ w.coin s ∧ 0 ≤ v ∧ v ≤ (w.tok T).bal s ∧ (w.kind T = .flex → (w.flex T).transferable = true) ∧
    (w.kind T = .icx → T ≠ dst) ∧ x = .unit ∧
    ∃ y w1, exec orc n T dst 0 (.tokenFallback s v (d.getD .noneBytes))
        ((w.note s T 0 (.transfer dst v d)).setTok T { w.tok T with bal := moveBal (w.tok T).bal s dst v }) = .ok (y, w1) ∧
      w' = w1.addLog T (.Transfer s dst v (d.getD .noneBytes)) := by
  rw [ok_exec_transfer hk]
  simp only [hd, World.pay, note_tok]
  simp
  tauto

set_option maxRecDepth 100000 in
example : ∃ w', exec Scenario.orc 20 alice Scenario.irc 0 (.transfer bob 300 none) ready = .ok (.unit, w') ∧
    (w'.tok Scenario.irc).bal bob = 300 ∧ (w'.tok Scenario.irc).bal alice = 9700 := by
  have hk : ready.kind Scenario.irc = .irc := by decide +kernel
  have hc : 0 ≤ ready.coin alice := by decide +kernel
  have hb : (300 : Int) ≤ (ready.tok Scenario.irc).bal alice := by decide +kernel
  have hr := (ok_exec_transfer (orc := Scenario.orc) (n := 19) (s := alice) (T := Scenario.irc) (v := 300) (d := none)
    (w := ready) (x := .unit) (.inl hk)).mpr ⟨hc, by simp [hk], by simp [hk], by decide, hb, rfl, .inl ⟨(rfl : bob.isContract = false), rfl⟩⟩
  refine ⟨_, hr, ?_, ?_⟩
  · rw [(C02_transfer_exact (.inl hk) rfl hr).1]; decide +kernel
  · rw [(C02_transfer_exact (.inl hk) rfl hr).1]; decide +kernel

/-! ### C03 -/

/-- C03. `transfer` of a negative value or of more than the sender has always fails. -/
theorem C03_no_overdraft {s T cv dst v d w} (hk : (w.kind T).isToken) (h : v < 0 ∨ (w.tok T).bal s < v) :
    Fails w s T cv (.transfer dst v d) := by
  intro orc n x w' e
  cases n with
  | zero => exact exec_zero e
  | succ n =>
    have hv := exec_tok_value hk e (fun _ => ⟨by rintro ⟨⟩, by rintro ⟨⟩⟩)
    subst hv
    rw [ok_exec_transfer hk] at e
    obtain ⟨_, _, _, h1, h2, _⟩ := e
    omega

/-- C03. A failed transaction leaves the ledger exactly as it was; in particular an overdraft does. -/
theorem C03_failed_tx_no_effect {orc fuel} {tx : Tx} {w : World} {e : Err} (h : Tx.run orc fuel tx w = .error e) : tx.apply orc fuel w = w := by
  unfold Tx.apply; rw [h]

/-- C03. A top-level overdraft leaves the ledger exactly as it was. -/
theorem C03_overdraft_no_effect {orc fuel s T cv dst v d w} (hk : (w.kind T).isToken) (h : v < 0 ∨ (w.tok T).bal s < v) :
    (Tx.call s T cv (.transfer dst v d)).apply orc fuel w = w := by
  rcases apply_cases orc fuel (.call s T cv (.transfer dst v d)) w with e | ⟨s', t, v', c, x, e, _, h'⟩ | ⟨_, _, _, _, e, _⟩
  · exact e
  · cases e; exact absurd h' (C03_no_overdraft hk h _ _ _ _)
  · cases e

set_option maxRecDepth 100000 in
example : (ready.kind Scenario.icxt).isToken ∧ (ready.tok Scenario.icxt).bal alice < 501 ∧
    (ready.tok Scenario.icxt).bal alice = 500 := by decide +kernel

/-! ### C04 -/

/-- C04. Deployment gives the deployer `initialSupply * 10^decimals` tokens, and sets the metadata. -/
theorem C04_deployed {orc fuel s a name symbol i d w x w'} (hw : Reachable w)
    (h : deploy orc fuel s a (.irc name symbol i d) w = .ok (x, w')) :
    w'.tok a = { name := name, symbol := symbol, decimals := d, supply := i * 10 ^ d.toNat
                 bal := fun b => if b = s then i * 10 ^ d.toNat else 0 } ∧ w'.kind a = .irc ∧ 0 ≤ i ∧ 0 ≤ d := by
  obtain ⟨⟨_, _, hn⟩, _, h, _⟩ := ok_deploy.mp h
  have ht : w.tok a = {} := hw.basic.tok a (by rw [hn]; simp [Kind.isToken])
  simp only [okk, install, IRCToken.onInstall] at h
  obtain ⟨hi, hd, h⟩ := h
  cases h
  refine ⟨?_, ?_, by omega, by omega⟩
  · simp only [Ctx.self, Ctx.sender, mkFrame_to, mkFrame_sender]
    rw [setTok_tok_same]
    have : (enterW (w.setKind a .irc) s a 0 (.onInstall (.irc name symbol i d))).tok a = {} := ht
    simp only [mkFrame_to, mkFrame_sender, Install.kind, this]
    rfl
  · exact setKind_setKind_kind w a .irc

theorem later_keep {w w' : World} (h : Later w w') {T : Addr} {R : World → World → Prop} (hr : ∀ w, R w w)
    (ht : ∀ a b c, R a b → R b c → R a c) (hk : w.kind T ≠ .none)
    (hs : ∀ orc fuel tx u, u.kind T = w.kind T → R u (Tx.apply orc fuel tx u)) : R w w' ∧ w'.kind T = w.kind T := by
  induction h with
  | refl => exact ⟨hr _, rfl⟩
  | step orc fuel tx _ ih =>
    refine ⟨ht _ _ _ ih.1 (hs orc fuel tx _ ih.2), ?_⟩
    rw [(tx_steps orc fuel tx _).kind (by rw [ih.2]; exact hk), ih.2]

/-- C04. A plain IRC2 token's supply never changes after deployment. -/
theorem C04_irc_supply_fixed {w w' : World} {T : Addr} (hk : w.kind T = .irc) (h : Later w w') :
    (w'.tok T).supply = (w.tok T).supply := by
  refine (later_keep (R := fun u u' => (u'.tok T).supply = (u.tok T).supply) h (T := T) (fun _ => rfl)
    (fun _ _ _ h1 h2 => h2.trans h1) (by rw [hk]; rintro ⟨⟩) ?_).1
  intro orc fuel tx u hu
  refine (tx_steps orc fuel tx u).keep (T := T) (R := fun u u' => (u'.tok T).supply = (u.tok T).supply)
    (by rw [hu, hk]; rintro ⟨⟩) ?_ ?_ ?_
  · intro _ _ hs; rw [hs.tok]
  · intro _ _ _ h1 h2; exact h2.trans h1
  · intro f v v' hv hf hl
    have hkv : v.kind f.to = .irc := by rw [hf, hv, hu, hk]
    cases hl with
    | transfer => rw [hf]; simp
    | issue _ _ hk' | destroy _ _ hk' | deposit hk' | withdraw _ _ hk' => rw [hkv] at hk'; cases hk'
    | _ => rfl

/-- C04. Name, symbol and decimals of a token never change after deployment. -/
theorem C04_metadata_fixed {w w' : World} {T : Addr} (hk : (w.kind T).isToken) (h : Later w w') :
    (w'.tok T).name = (w.tok T).name ∧ (w'.tok T).symbol = (w.tok T).symbol ∧ (w'.tok T).decimals = (w.tok T).decimals := by
  have hne : w.kind T ≠ .none := by intro e; rw [e] at hk; simp [Kind.isToken] at hk
  refine (later_keep (R := fun u u' => (u'.tok T).name = (u.tok T).name ∧ (u'.tok T).symbol = (u.tok T).symbol ∧
    (u'.tok T).decimals = (u.tok T).decimals) h (T := T) (fun _ => ⟨rfl, rfl, rfl⟩)
    (fun _ _ _ h1 h2 => ⟨h2.1.trans h1.1, h2.2.1.trans h1.2.1, h2.2.2.trans h1.2.2⟩) hne ?_).1
  intro orc fuel tx u hu
  obtain ⟨l, hb⟩ := acct_tx orc fuel tx u T (by rw [hu]; exact hk)
  exact ⟨hb.name, hb.symbol, hb.decimals⟩

set_option maxRecDepth 100000 in
example : ready.kind Scenario.irc = .irc ∧ (ready.tok Scenario.irc).supply = 1000000 ∧
    (ready.tok Scenario.irc).name = "Token" ∧ Later ready ready := ⟨by decide +kernel, by decide +kernel, by decide +kernel, .refl⟩

/-! ### C05 -/

/-- C05. If an account's balance goes down in a transaction, then in that transaction the account itself called
`transfer`, `withdraw`, `withdrawTo` or `destroy` on the token, or the owner of the flexible token called `destroy` on it. -/
theorem C05_no_theft {orc fuel} {tx : Tx} {w : World} {T a : Addr} (hk : (w.kind T).isToken)
    (h : ((tx.apply orc fuel w).tok T).bal a < (w.tok T).bal a) :
    ∃ f, Called w (tx.apply orc fuel w) f ∧ f.to = T ∧
      ((f.sender = a ∧ ((∃ b v d, f.call = .transfer b v d ∧ b ≠ a) ∨ (∃ v, f.call = .withdraw v) ∨
          (∃ v b, f.call = .withdrawTo v b) ∨ ∃ v, f.call = .destroy a v)) ∨
       (w.kind T = .flex ∧ f.owner = some f.sender ∧ ∃ v, f.call = .destroy a v)) := by
  have hne : w.kind T ≠ .none := by intro e; rw [e] at hk; simp [Kind.isToken] at hk
  refine ((tx_steps orc fuel tx w).blame (T := T) (R := fun u u' => (u.tok T).bal a ≤ (u'.tok T).bal a) hne ?_ ?_ ?_).resolve_left ?_
  · intro _ _ hs; rw [hs.tok]
  · intro _ _ _ h1 h2; exact h1.trans h2
  · intro f u u' hu hf hl
    cases hl with
    | transfer b v d _ hc hv =>
      by_cases hs : f.sender = a
      · by_cases hb : b = a
        · left; rw [hf]; simp [moveBal, hs, hb]
        · exact .inr (.inl ⟨hs, .inl ⟨b, v, d, hc, hb⟩⟩)
      · left; rw [hf]; simp only [setTok_tok_same, moveBal, if_neg (Ne.symm hs)]; split <;> omega
    | issue b v _ hc hv => left; rw [hf]; simp only [setTok_tok_same, upd_apply]; split <;> (try subst_vars) <;> omega
    | destroy b v hk' hc hv _ ho =>
      by_cases hb : a = b
      · right; subst hb
        rcases ho with ho | ho
        · exact .inl ⟨ho, .inr (.inr (.inr ⟨v, hc⟩))⟩
        · exact .inr ⟨by rw [← hu, ← hf]; exact hk', ho, v, hc⟩
      · left; rw [hf]; simp [upd_apply, hb]
    | deposit _ _ hv => left; rw [hf]; simp only [setTok_tok_same, upd_apply]; split <;> (try subst_vars) <;> omega
    | withdraw v b _ hc hv =>
      by_cases hs : a = f.sender
      · refine .inr (.inl ⟨hs.symm, ?_⟩)
        rcases hc with hc | ⟨hc, _⟩
        · exact .inr (.inr (.inl ⟨v, b, hc⟩))
        · exact .inr (.inl ⟨v, hc⟩)
      · left; rw [hf]; simp [upd_apply, hs]
    | _ => exact .inl (Int.le_refl _)
  · omega

/-- C05, quantitatively: over a transaction every balance changes by exactly the sum of the effects of the successful calls
made to the token, and each of these calls obeys the token's rules. -/
theorem C05_exact_accounting {orc fuel} {tx : Tx} {w : World} {T : Addr} (hk : (w.kind T).isToken) :
    ∃ new, (tx.apply orc fuel w).frames = new ++ w.frames ∧
      (∀ a, ((tx.apply orc fuel w).tok T).bal a = (w.tok T).bal a + total (credit T a) new) ∧
      ∀ f ∈ new, Lawful T f := by
  obtain ⟨l, hb⟩ := acct_tx orc fuel tx w T hk
  exact ⟨l, hb.frames, hb.bal, hb.lawful⟩

set_option maxRecDepth 100000 in
example : (ready.kind Scenario.irc).isToken ∧
    (((Tx.call alice Scenario.irc 0 (.transfer bob 300 none)).apply Scenario.orc 20 ready).tok Scenario.irc).bal alice <
      (ready.tok Scenario.irc).bal alice := by decide +kernel

/-! ### C06 -/

/-- C06. If a flexible token's supply goes up in a transaction, its owner called `issue` on it in that transaction. -/
theorem C06_only_owner_mints {orc fuel} {tx : Tx} {w : World} {T : Addr} (hk : w.kind T = .flex)
    (h : (w.tok T).supply < ((tx.apply orc fuel w).tok T).supply) :
    ∃ f, Called w (tx.apply orc fuel w) f ∧ f.to = T ∧ f.owner = some f.sender ∧ ∃ b v, f.call = .issue b v ∧ 0 < v := by
  refine ((tx_steps orc fuel tx w).blame (T := T) (R := fun u u' => (u'.tok T).supply ≤ (u.tok T).supply)
    (by rw [hk]; rintro ⟨⟩) ?_ ?_ ?_).resolve_left ?_
  · intro _ _ hs; rw [hs.tok]
  · intro _ _ _ h1 h2; exact h2.trans h1
  · intro f u u' hu hf hl
    have hkv : u.kind f.to = .flex := by rw [hf, hu, hk]
    cases hl with
    | transfer => left; rw [hf]; simp
    | issue b v _ hc hv ho => exact .inr ⟨ho, b, v, hc, hv⟩
    | destroy b v _ _ hv => left; rw [hf]; simp only [setTok_tok_same]; omega
    | deposit hk' | withdraw _ _ hk' => rw [hkv] at hk'; cases hk'
    | _ => exact .inl (Int.le_refl _)
  · omega

/-- C06. If a flexible token's supply goes down in a transaction, the holder or the owner called `destroy` in it. -/
theorem C06_only_holder_or_owner_burns {orc fuel} {tx : Tx} {w : World} {T : Addr} (hk : w.kind T = .flex)
    (h : ((tx.apply orc fuel w).tok T).supply < (w.tok T).supply) :
    ∃ f, Called w (tx.apply orc fuel w) f ∧ f.to = T ∧
      ∃ b v, f.call = .destroy b v ∧ 0 < v ∧ (f.sender = b ∨ f.owner = some f.sender) := by
  refine ((tx_steps orc fuel tx w).blame (T := T) (R := fun u u' => (u.tok T).supply ≤ (u'.tok T).supply)
    (by rw [hk]; rintro ⟨⟩) ?_ ?_ ?_).resolve_left ?_
  · intro _ _ hs; rw [hs.tok]
  · intro _ _ _ h1 h2; exact h1.trans h2
  · intro f u u' hu hf hl
    have hkv : u.kind f.to = .flex := by rw [hf, hu, hk]
    cases hl with
    | transfer => left; rw [hf]; simp
    | issue b v _ hc hv ho => left; rw [hf]; simp only [setTok_tok_same]; omega
    | destroy b v _ hc hv _ ho => exact .inr ⟨b, v, hc, hv, ho⟩
    | deposit hk' | withdraw _ _ hk' => rw [hkv] at hk'; cases hk'
    | _ => exact .inl (Int.le_refl _)
  · omega

/-- C06, quantitatively: over a transaction the supply changes by exactly what successful calls issued and destroyed, each
of them authorised. -/
theorem C06_exact_supply {orc fuel} {tx : Tx} {w : World} {T : Addr} (hk : (w.kind T).isToken) :
    ∃ new, (tx.apply orc fuel w).frames = new ++ w.frames ∧
      ((tx.apply orc fuel w).tok T).supply = (w.tok T).supply + total (minted T) new ∧
      ∀ f ∈ new, Lawful T f := by
  obtain ⟨l, hb⟩ := acct_tx orc fuel tx w T hk
  exact ⟨l, hb.frames, hb.supply, hb.lawful⟩

set_option maxRecDepth 100000 in
example : let w := (Tx.deploy owner Scenario.evil (.flex "Second" "SEC" 5 0)).apply Scenario.orc 20 ready
    w.kind Scenario.evil = .flex ∧
    (w.tok Scenario.evil).supply <
      (((Tx.call owner Scenario.evil 0 (.issue bob 7)).apply Scenario.orc 20 w).tok Scenario.evil).supply := by decide +kernel

/-! ### C07 -/

/-- C07. `issue` succeeds exactly for the owner with a positive amount and a legal recipient, and has exactly its effect. -/
theorem C07_issue {orc n s T dst v w x w'} (hk : w.kind T = .flex) (hs : 0 ≤ w.coin s) :
    exec orc (n + 1) s T 0 (.issue dst v) w = .ok (x, w') ↔
    ((w.own T).owner = some s ∧ 0 < v ∧ dst ≠ ZERO ∧ dst ≠ T) ∧ x = .unit ∧
    w' = (((w.note s T 0 (.issue dst v)).setTok T { w.tok T with
        bal := gain (w.tok T).bal dst v, supply := (w.tok T).supply + v }).addLog T (.Issuance v)).addLog T
          (.Transfer T dst v .noneBytes) := by
  rw [ok_exec_issue hk]; tauto

/-- C07. `destroy` succeeds exactly for the holder or the owner with a positive amount the holder has, and has exactly
its effect. -/
theorem C07_destroy {orc n s T from_ v w x w'} (hk : w.kind T = .flex) (hs : 0 ≤ w.coin s) :
    exec orc (n + 1) s T 0 (.destroy from_ v) w = .ok (x, w') ↔
    (0 < v ∧ v ≤ (w.tok T).bal from_ ∧ (s = from_ ∨ (w.own T).owner = some s)) ∧ x = .unit ∧
    w' = (((w.note s T 0 (.destroy from_ v)).setTok T { w.tok T with
        bal := gain (w.tok T).bal from_ (-v), supply := (w.tok T).supply - v }).addLog T (.Destruction v)).addLog T
          (.Transfer from_ T v .noneBytes) := by
  rw [ok_exec_destroy hk]; tauto

set_option maxRecDepth 100000 in
example : ready.kind Scenario.flex = .flex ∧ 0 ≤ ready.coin alice ∧ (0 : Int) < 500 ∧
    500 ≤ (ready.tok Scenario.flex).bal alice := by decide +kernel

/-! ### C08 -/

/-- C08. While transfers are disabled, every `transfer` of the flexible token fails. -/
theorem C08_disabled_no_transfer {s T cv dst v d w} (hk : w.kind T = .flex) (h : (w.flex T).transferable = false) :
    Fails w s T cv (.transfer dst v d) := by
  intro orc n x w' e
  cases n with
  | zero => exact exec_zero e
  | succ n =>
    have hkt : (w.kind T).isToken := .inr (.inr hk)
    have hv := exec_tok_value hkt e (fun _ => ⟨by rintro ⟨⟩, by rintro ⟨⟩⟩)
    subst hv
    rw [ok_exec_transfer hkt] at e
    have := e.2.1 hk
    rw [h] at this; cases this

/-- C08. Only the owner switches transfers on or off: if the flag differs after a transaction, the owner called
`disableTransfer` with the matching argument in it. -/
theorem C08_only_owner_toggles {orc fuel} {tx : Tx} {w : World} {T : Addr} (hk : w.kind T = .flex)
    (h : ((tx.apply orc fuel w).flex T).transferable ≠ (w.flex T).transferable) :
    ∃ f b, Called w (tx.apply orc fuel w) f ∧ f.to = T ∧ f.call = .disableTransfer b ∧ f.owner = some f.sender ∧
      ((tx.apply orc fuel w).flex T).transferable = !b := by
  have key := (tx_steps orc fuel tx w).blame (T := T)
    (R := fun u u' => ((tx.apply orc fuel w).flex T).transferable ≠ (u.flex T).transferable →
      ((tx.apply orc fuel w).flex T).transferable ≠ (u'.flex T).transferable)
    (P := fun f => ∃ b, f.call = .disableTransfer b ∧ f.owner = some f.sender ∧
      ((tx.apply orc fuel w).flex T).transferable = !b) (by rw [hk]; rintro ⟨⟩) ?_ ?_ ?_
  · rcases key with key | ⟨f, h1, h2, b, h3⟩
    · exact absurd rfl (key h)
    · exact ⟨f, b, h1, h2, h3⟩
  · intro _ _ hs; rw [hs.flex]; exact id
  · intro _ _ _ h1 h2 h3; exact h2 (h1 h3)
  · intro f u u' hu hf hl
    cases hl with
    | disableTransfer b _ hc ho =>
      by_cases e : ((tx.apply orc fuel w).flex T).transferable = !b
      · exact .inr ⟨b, hc, ho, e⟩
      · left; intro _; rw [hf]; simpa using e
    | _ => exact .inl id

/-- C08. `disableTransfer` succeeds exactly for the owner, and changes only the flag. -/
theorem C08_disableTransfer {orc n s T b w x w'} (hk : w.kind T = .flex) (hs : 0 ≤ w.coin s) :
    exec orc (n + 1) s T 0 (.disableTransfer b) w = .ok (x, w') ↔ (w.own T).owner = some s ∧ x = .unit ∧
      w' = (w.note s T 0 (.disableTransfer b)).setFlex T { w.flex T with transferable := !b } := by
  rw [ok_exec_disableTransfer hk]; tauto

set_option maxRecDepth 100000 in
example : let w := (Tx.call owner Scenario.conv 0 (.disableTokenTransfers true)).apply Scenario.orc 20 ready
    w.kind Scenario.flex = .flex ∧ (w.flex Scenario.flex).transferable = false ∧
    (ready.flex Scenario.flex).transferable = true := by decide +kernel

/-! ### C09 -/

/-- C09. In every reachable ledger the ICX coin held by an ICX token equals its total supply. -/
theorem C09_backed {w : World} (h : Reachable w) {T : Addr} (hk : w.kind T = .icx) : w.coin T = (w.tok T).supply := by
  have := h.backed hk
  unfold excess at this
  omega

set_option maxRecDepth 100000 in
example : ready.kind Scenario.icxt = .icx ∧ ready.coin Scenario.icxt = 60500 := by decide +kernel

/-! ### C10 -/

/-- C10. In every reachable ledger every holder of ICX tokens can redeem them for coin, at an ordinary account (`withdrawTo`) or
to himself (`withdraw`), exactly the stated amount changes hands, and exactly one event says so: `Destruction`. -/
theorem C10_redeemable {w : World} (hw : Reachable w) {T s dst : Addr} {v : Int} (hk : w.kind T = .icx) {c : Call}
    (hc : c = .withdrawTo v dst ∨ (c = .withdraw v ∧ dst = s))
    (hd : dst.isContract = false) (hv : 0 < v) (hb : v ≤ (w.tok T).bal s) (orc : Oracle) (n : Nat) :
    ∃ w', exec orc (n + 2) s T 0 c w = .ok (.unit, w') ∧
      w'.tok T = { w.tok T with bal := gain (w.tok T).bal s (-v), supply := (w.tok T).supply - v } ∧
      (∀ a, w'.coin a = w.coin a + (if a = dst then v else 0) - (if a = T then v else 0)) ∧
      (∀ a, a ≠ T → Untouched a w w') ∧ w'.own T = w.own T ∧ w'.kind = w.kind ∧
      w'.log = (T, .Destruction v) :: w.log := by
  have hcoin : v ≤ w.coin T := by
    rw [C09_backed hw hk]
    obtain ⟨h1, h2, _⟩ := C01_supply_is_sum hw T
    rw [h1]
    exact hb.trans (sum_ge _ h2 s)
  have hknd : w.kind dst = .none := by
    by_contra hne
    rw [hw.basic.contract dst hne] at hd; cases hd
  have hfall : ∀ u : World, u.kind = w.kind → u.coin = w.coin →
      exec orc (n + 1) T dst v .fallback u = .ok (.unit, enterW u T dst v .fallback) := by
    intro u hu hc
    rw [ok_exec, ok_body]
    refine ⟨⟨by omega, by rw [hc]; exact hcoin⟩, ?_⟩
    have : (enterW u T dst v .fallback).kind dst = .none := by rw [enterW_kind, hu, hknd]
    simp only [Ctx.self, mkFrame_to, this, mkFrame_call, hd, and_self, if_true]
    rfl
  refine ⟨_, (ok_exec_withdraw hk hc).mpr ⟨hw.basic.coin_nonneg s, hv, hb, rfl, _, _, hfall _ rfl rfl, rfl⟩, ?_, ?_, ?_, ?_, ?_, ?_⟩
  · simp
  · intro a
    rw [addLog_coin, enterW_coin', setTok_coin, note_coin]
    omega
  · intro a ha
    exact ⟨by simp [setTok_tok, ha], rfl, rfl, rfl, rfl, rfl, rfl⟩
  · rfl
  · rfl
  · rfl

set_option maxRecDepth 100000 in
example : Reachable ready ∧ ready.kind Scenario.icxt = .icx ∧ bob.isContract = false ∧
    400 ≤ (ready.tok Scenario.icxt).bal alice := ⟨ready_reachable, by decide +kernel, rfl, by decide +kernel⟩

/-! ### C11 -/

/-- C11. Sending coin to an ICX token, by `deposit` or as a plain transfer, credits the sender with exactly that many
tokens, and changes no other balance and no other contract. -/
theorem C11_deposit_exact {orc n s T v c w x w'} (hk : w.kind T = .icx) (hc : c = .deposit ∨ c = .fallback) :
    exec orc (n + 1) s T v c w = .ok (x, w') ↔ (0 ≤ v ∧ v ≤ w.coin s) ∧ x = .unit ∧
      w' = ((((w.note s T v c).moveCoin s T v).setTok T { w.tok T with
        bal := gain (w.tok T).bal s v, supply := (w.tok T).supply + v }).addLog T (.Issuance v)).addLog T
          (.Transfer T s v .noneBytes) := by
  rw [ok_exec_deposit hk hc]
  constructor
  · rintro ⟨h1, h2, h3, h4⟩; exact ⟨⟨h1, h2⟩, h3, h4⟩
  · rintro ⟨⟨h1, h2⟩, h3, h4⟩; exact ⟨h1, h2, h3, h4⟩

set_option maxRecDepth 100000 in
example : ready.kind Scenario.icxt = .icx ∧ (0 : Int) ≤ 200 ∧ 200 ≤ ready.coin alice := by decide +kernel

end Verif

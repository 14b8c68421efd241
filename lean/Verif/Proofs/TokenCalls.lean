import Verif.Proofs.Ok
import Mathlib.Tactic.Tauto
/-!
Exact effect of every call to a token.
-/
set_option linter.unusedSimpArgs false
namespace Verif

theorem moveCoin_zero (w : World) (a b : Addr) : w.moveCoin a b 0 = w := by
  unfold World.moveCoin; simp

theorem enterW_zero (w : World) (s t : Addr) (c : Call) : enterW w s t 0 c = w.note s t 0 c := by
  unfold enterW World.note; rw [moveCoin_zero]

section
variable (w : World) (s t : Addr) (v : Int) (c : Call)
@[simp] theorem note_kind : (w.note s t v c).kind = w.kind := rfl
@[simp] theorem note_tok : (w.note s t v c).tok = w.tok := rfl
@[simp] theorem note_own : (w.note s t v c).own = w.own := rfl
@[simp] theorem note_flex : (w.note s t v c).flex = w.flex := rfl
@[simp] theorem note_conv : (w.note s t v c).conv = w.conv := rfl
@[simp] theorem note_reg : (w.note s t v c).reg = w.reg := rfl
@[simp] theorem note_net : (w.note s t v c).net = w.net := rfl
@[simp] theorem note_coin : (w.note s t v c).coin = w.coin := rfl
@[simp] theorem note_log : (w.note s t v c).log = w.log := rfl
@[simp] theorem mkFrame_sender : (mkFrame w s t v c).sender = s := rfl
@[simp] theorem mkFrame_to : (mkFrame w s t v c).to = t := rfl
@[simp] theorem mkFrame_value : (mkFrame w s t v c).value = v := rfl
@[simp] theorem mkFrame_call : (mkFrame w s t v c).call = c := rfl
end

variable {cx : Ctx} {v : Int} {w w' : World} {to : Addr} {d : Option Data} {r : Unit × World}

theorem ok_ircTransfer : IRCToken.transfer cx to v d w = .ok r ↔
    0 ≤ v ∧ v ≤ (w.tok cx.self).bal cx.sender ∧
    ((to.isContract = false ∧
        r = ((), (w.pay cx.self cx.sender to v).addLog cx.self (.Transfer cx.sender to v (d.getD .noneBytes)))) ∨
     (to.isContract = true ∧ ∃ y w1, cx.call to 0 (.tokenFallback cx.sender v (d.getD .noneBytes))
          (w.pay cx.self cx.sender to v) = .ok (y, w1) ∧
        r = ((), w1.addLog cx.self (.Transfer cx.sender to v (d.getD .noneBytes))))) := by
  simp only [IRCToken.transfer, IRCToken.transfer', okk, okk_ite, okk_bind (cx.call _ _ _), setTok_setTok,
    setTok_tok_same, World.pay, moveBal_eq, Except.ok.injEq, Int.not_lt, eq_comm (b := r), Bool.not_eq_true]
  constructor
  · rintro ⟨h1, h2, h | h⟩
    · exact ⟨h1, h2, .inr h⟩
    · exact ⟨h1, h2, .inl h⟩
  · rintro ⟨h1, h2, h | h⟩
    · exact ⟨h1, h2, .inr h⟩
    · exact ⟨h1, h2, .inl h⟩

section
variable {orc : Oracle} {n : Nat} {s T : Addr} {x : Val}

/-- A method that returns nothing. -/
theorem ok_unit {m : M Unit} {p : Val × World} :
    ((do m; return Val.unit : M Val) w = .ok p) ↔ m w = .ok ((), p.2) ∧ p.1 = .unit := by
  obtain ⟨x, w'⟩ := p
  simp only [okk, okk_bind m]
  constructor
  · rintro ⟨_, _, h, h'⟩; cases h'; exact ⟨h, rfl⟩
  · rintro ⟨h, rfl⟩; exact ⟨_, _, h, rfl⟩

/-- A read-only method. -/
theorem ok_view {α : Type} {m : M α} {g : α → Val} {p : Val × World} :
    ((do return g (← m) : M Val) w = .ok p) ↔ ∃ a, m w = .ok (a, p.2) ∧ p.1 = g a := by
  obtain ⟨x, w'⟩ := p
  simp only [okk, okk_bind m]
  constructor
  · rintro ⟨_, _, h, h'⟩; cases h'; exact ⟨_, h, rfl⟩
  · rintro ⟨a, h, rfl⟩; exact ⟨_, _, h, rfl⟩

theorem ok_exec_transfer (hk : (w.kind T).isToken) :
    exec orc (n + 1) s T 0 (.transfer to v d) w = .ok (x, w') ↔
    0 ≤ w.coin s ∧ (w.kind T = .flex → (w.flex T).transferable = true) ∧ (w.kind T = .icx → T ≠ to) ∧
    0 ≤ v ∧ v ≤ (w.tok T).bal s ∧ x = .unit ∧
    ((to.isContract = false ∧ w' = ((w.note s T 0 (.transfer to v d)).pay T s to v).addLog T
        (.Transfer s to v (d.getD .noneBytes))) ∨
     (to.isContract = true ∧ ∃ y w1, exec orc n T to 0 (.tokenFallback s v (d.getD .noneBytes))
          ((w.note s T 0 (.transfer to v d)).pay T s to v) = .ok (y, w1) ∧
        w' = w1.addLog T (.Transfer s to v (d.getD .noneBytes)))) := by
  rcases hk with hk | hk | hk
  · rw [ok_exec_irc hk]
    simp only [IRCToken.dispatch, IRCToken.dispatchViews, mkFrame_call, orElse', ok_runNonPayable, ok_unit, ok_ircTransfer,
      enterW_zero, note_tok, hk, Ctx.self, Ctx.sender, Ctx.value]
    simp
    tauto
  · rw [ok_exec_icx hk]
    simp only [IcxToken.dispatch, IRCToken.dispatchViews, Owned.dispatch, mkFrame_call, orElse', ok_runNonPayable, ok_unit,
      IcxToken.transfer, okk, ok_ircTransfer, enterW_zero, note_tok, hk, Ctx.self, Ctx.sender, Ctx.value]
    simp
    tauto
  · rw [ok_exec_flex hk]
    simp only [FlexibleToken.dispatch, IRCToken.dispatchViews, Owned.dispatch, mkFrame_call, orElse', ok_runNonPayable,
      ok_unit, FlexibleToken.transfer, okk, ok_ircTransfer, enterW_zero, note_tok, hk, Ctx.self, Ctx.sender, Ctx.value]
    simp
    tauto

theorem valid_iff {a : Addr} : isValidAddress (some a) = true ↔ a ≠ ZERO := by simp [isValidAddress]

theorem ok_requireOwner {cx : Ctx} {w : World} {r : Unit × World} : Owned.requireOwnerOnly cx w = .ok r ↔
    (w.own cx.self).owner = some cx.sender ∧ r = ((), w) := by
  simp only [Owned.requireOwnerOnly, okk, eq_comm (b := r), eq_comm (a := some cx.sender)]

theorem ok_issue {cx : Ctx} {w : World} {a : Addr} {r : Unit × World} : FlexibleToken.issue cx a v w = .ok r ↔
    0 < v ∧ (w.own cx.self).owner = some cx.sender ∧ a ≠ ZERO ∧ a ≠ cx.self ∧
    r = ((), ((w.setTok cx.self { w.tok cx.self with
        bal := gain (w.tok cx.self).bal a v, supply := (w.tok cx.self).supply + v }).addLog cx.self (.Issuance v)).addLog cx.self
          (.Transfer cx.self a v .noneBytes)) := by
  simp only [FlexibleToken.issue, Owned.requireOwnerOnly, okk, setTok_setTok, setTok_tok_same, gain_eq, valid_iff,
    Except.ok.injEq, eq_comm (a := some cx.sender), ne_comm (a := cx.self), gt_iff_lt, eq_comm (b := r)]

theorem ok_destroy {cx : Ctx} {w : World} {a : Addr} {r : Unit × World} : FlexibleToken.destroy cx a v w = .ok r ↔
    0 < v ∧ v ≤ (w.tok cx.self).bal a ∧ (cx.sender = a ∨ (w.own cx.self).owner = some cx.sender) ∧
    r = ((), ((w.setTok cx.self { w.tok cx.self with
        bal := gain (w.tok cx.self).bal a (-v), supply := (w.tok cx.self).supply - v }).addLog cx.self (.Destruction v)).addLog cx.self
          (.Transfer a cx.self v .noneBytes)) := by
  simp only [FlexibleToken.destroy, okk, setTok_setTok, setTok_tok_same, gain_eq, ← Int.sub_eq_add_neg,
    Except.ok.injEq, eq_comm (a := some cx.sender), gt_iff_lt, ge_iff_le, eq_comm (b := r)]

theorem ok_disableTransfer {cx : Ctx} {w : World} {b : Bool} {r : Unit × World} : FlexibleToken.disableTransfer cx b w = .ok r ↔
    (w.own cx.self).owner = some cx.sender ∧
    r = ((), w.setFlex cx.self { w.flex cx.self with transferable := !b }) := by
  simp only [FlexibleToken.disableTransfer, Owned.requireOwnerOnly, okk,
    Except.ok.injEq, eq_comm (a := some cx.sender), eq_comm (b := r)]

theorem ok_withdrawTo {cx : Ctx} {w : World} {a : Addr} {r : Unit × World} : IcxToken.withdrawTo cx v a w = .ok r ↔
    0 < v ∧ v ≤ (w.tok cx.self).bal cx.sender ∧
    ∃ y w1, cx.call a v .fallback (w.setTok cx.self { w.tok cx.self with
        bal := gain (w.tok cx.self).bal cx.sender (-v), supply := (w.tok cx.self).supply - v }) = .ok (y, w1) ∧
    r = ((), w1.addLog cx.self (.Destruction v)) := by
  simp only [IcxToken.withdrawTo, okk, okk_bind (cx.call _ _ _), setTok_setTok, setTok_tok_same, gain_eq, ← Int.sub_eq_add_neg,
    Except.ok.injEq, gt_iff_lt, Int.not_lt, eq_comm (b := r)]

theorem ok_exec_issue {a : Addr} (hk : w.kind T = .flex) :
    exec orc (n + 1) s T 0 (.issue a v) w = .ok (x, w') ↔
    0 ≤ w.coin s ∧ 0 < v ∧ (w.own T).owner = some s ∧ a ≠ ZERO ∧ a ≠ T ∧ x = .unit ∧
    w' = (((w.note s T 0 (.issue a v)).setTok T { w.tok T with
        bal := gain (w.tok T).bal a v, supply := (w.tok T).supply + v }).addLog T (.Issuance v)).addLog T
          (.Transfer T a v .noneBytes) := by
  rw [ok_exec_flex hk]
  simp only [FlexibleToken.dispatch, IRCToken.dispatchViews, Owned.dispatch, mkFrame_call, orElse', ok_runNonPayable,
    ok_unit, ok_issue, enterW_zero, note_tok, note_own, Ctx.self, Ctx.sender,
    Ctx.value, mkFrame_sender, mkFrame_to, mkFrame_value, Prod.mk.injEq, true_and, Int.le_refl]
  tauto

theorem ok_exec_destroy {a : Addr} (hk : w.kind T = .flex) :
    exec orc (n + 1) s T 0 (.destroy a v) w = .ok (x, w') ↔
    0 ≤ w.coin s ∧ 0 < v ∧ v ≤ (w.tok T).bal a ∧ (s = a ∨ (w.own T).owner = some s) ∧ x = .unit ∧
    w' = (((w.note s T 0 (.destroy a v)).setTok T { w.tok T with
        bal := gain (w.tok T).bal a (-v), supply := (w.tok T).supply - v }).addLog T (.Destruction v)).addLog T
          (.Transfer a T v .noneBytes) := by
  rw [ok_exec_flex hk]
  simp only [FlexibleToken.dispatch, IRCToken.dispatchViews, Owned.dispatch, mkFrame_call, orElse', ok_runNonPayable,
    ok_unit, ok_destroy, enterW_zero, note_tok, note_own, Ctx.self, Ctx.sender,
    Ctx.value, mkFrame_sender, mkFrame_to, mkFrame_value, Prod.mk.injEq, true_and, Int.le_refl]
  tauto

theorem ok_exec_disableTransfer {b : Bool} (hk : w.kind T = .flex) :
    exec orc (n + 1) s T 0 (.disableTransfer b) w = .ok (x, w') ↔
    0 ≤ w.coin s ∧ (w.own T).owner = some s ∧ x = .unit ∧
    w' = (w.note s T 0 (.disableTransfer b)).setFlex T { w.flex T with transferable := !b } := by
  rw [ok_exec_flex hk]
  simp only [FlexibleToken.dispatch, IRCToken.dispatchViews, Owned.dispatch, mkFrame_call, orElse', ok_runNonPayable,
    ok_unit, ok_disableTransfer, enterW_zero, note_flex, note_own, Ctx.self, Ctx.sender,
    Ctx.value, mkFrame_sender, mkFrame_to, mkFrame_value, Prod.mk.injEq, true_and, Int.le_refl]
  tauto

theorem ok_exec_deposit {c : Call} (hk : w.kind T = .icx) (hc : c = .deposit ∨ c = .fallback) :
    exec orc (n + 1) s T v c w = .ok (x, w') ↔
    0 ≤ v ∧ v ≤ w.coin s ∧ x = .unit ∧
    w' = (((enterW w s T v c).setTok T { w.tok T with
        bal := gain (w.tok T).bal s v, supply := (w.tok T).supply + v }).addLog T (.Issuance v)).addLog T
          (.Transfer T s v .noneBytes) := by
  rw [ok_exec_icx hk]
  rcases hc with rfl | rfl <;>
  · simp only [IcxToken.dispatch, mkFrame_call, ok_unit, IcxToken.deposit, okk, enterW_tok, Ctx.self, Ctx.sender,
      Ctx.value, mkFrame_sender, mkFrame_to, mkFrame_value, setTok_setTok, setTok_tok_same, gain_eq]
    simp only [Except.ok.injEq, Prod.mk.injEq, true_and, eq_comm (b := w')]
    tauto

theorem ok_exec_withdraw {c : Call} {a : Addr} (hk : w.kind T = .icx) (hc : c = .withdrawTo v a ∨ (c = .withdraw v ∧ a = s)) :
    exec orc (n + 1) s T 0 c w = .ok (x, w') ↔
    0 ≤ w.coin s ∧ 0 < v ∧ v ≤ (w.tok T).bal s ∧ x = .unit ∧
    ∃ y w1, exec orc n T a v .fallback ((w.note s T 0 c).setTok T { w.tok T with
        bal := gain (w.tok T).bal s (-v), supply := (w.tok T).supply - v }) = .ok (y, w1) ∧
      w' = w1.addLog T (.Destruction v) := by
  rw [ok_exec_icx hk]
  rcases hc with rfl | ⟨rfl, rfl⟩ <;>
  · simp only [IcxToken.dispatch, IRCToken.dispatchViews, Owned.dispatch, orElse', ok_runNonPayable, mkFrame_call, ok_unit,
      ok_withdrawTo, enterW_zero, note_tok, Ctx.self, Ctx.sender,
      Ctx.value, mkFrame_sender, mkFrame_to, mkFrame_value, Prod.mk.injEq, true_and, Int.le_refl]
    tauto

/-! ### Owned -/

theorem owned_table {cx : Ctx} {c : Call} {m : M Val} (hc : cx.fr.call = c) (hv : cx.value = 0)
    (hk : (w.kind cx.self).isOwned) (hm : Owned.dispatch cx c = some m) {orc : Oracle} {p : Val × World} :
    body orc cx w = .ok p ↔ m w = .ok p := by
  obtain ⟨x, w'⟩ := p
  have hne : c = .getOwner ∨ c = .getNewOwner ∨ (∃ a, c = .transferOwnerShip a) ∨ c = .acceptOwnerShip := by
    unfold Owned.dispatch at hm
    split at hm <;> simp_all
  rw [ok_body]
  rcases hk with hk | hk | hk | hk | hk <;> rw [hk] <;>
  · rcases hne with rfl | rfl | ⟨a, rfl⟩ | rfl <;>
    simp only [IcxToken.dispatch, FlexibleToken.dispatch, Converter.dispatch, Network.dispatch, ScoreRegistry.dispatch,
      IRCToken.dispatchViews, orElse', hc, hm, ok_runNonPayable, hv, true_and]

theorem ok_exec_owned {c : Call} {m : M Val} (hk : (w.kind T).isOwned)
    (hm : Owned.dispatch { fr := mkFrame w s T 0 c, call := exec orc n T } c = some m) :
    exec orc (n + 1) s T 0 c w = .ok (x, w') ↔ 0 ≤ w.coin s ∧ m (w.note s T 0 c) = .ok (x, w') := by
  rw [ok_exec, owned_table (cx := { fr := mkFrame w s T 0 c, call := exec orc n T }) (w := enterW w s T 0 c) rfl rfl hk hm,
    enterW_zero]
  simp

theorem ok_exec_getOwner (hk : (w.kind T).isOwned) :
    exec orc (n + 1) s T 0 .getOwner w = .ok (x, w') ↔
    0 ≤ w.coin s ∧ x = .addr (w.own T).owner ∧ w' = w.note s T 0 .getOwner := by
  rw [ok_exec_owned hk rfl]
  simp only [Owned.getOwner, okk, Except.ok.injEq, Prod.mk.injEq, note_own, Ctx.self, mkFrame_to, eq_comm (b := w'),
    eq_comm (b := x)]

theorem ok_transferOwnerShip {cx : Ctx} {w : World} {a : Addr} {r : Unit × World} : Owned.transferOwnerShip cx a w = .ok r ↔
    (w.own cx.self).owner = some cx.sender ∧ a ≠ cx.sender ∧
    r = ((), w.setOwn cx.self { w.own cx.self with newOwner := some a }) := by
  simp only [Owned.transferOwnerShip, Owned.requireOwnerOnly, okk, Except.ok.injEq, eq_comm (a := some cx.sender), eq_comm (b := r)]
  constructor
  · rintro ⟨h1, h2, h3⟩; exact ⟨h1, by rw [h1] at h2; simpa using h2, h3⟩
  · rintro ⟨h1, h2, h3⟩; exact ⟨h1, by rw [h1]; simpa using h2, h3⟩

theorem ok_acceptOwnerShip {cx : Ctx} {w : World} {r : Unit × World} : Owned.acceptOwnerShip cx w = .ok r ↔
    (w.own cx.self).newOwner = some cx.sender ∧
    r = ((), (w.addLog cx.self (.OwnerUpdate (w.own cx.self).owner (some cx.sender))).setOwn cx.self
      { owner := some cx.sender, newOwner := some ZERO }) := by
  simp only [Owned.acceptOwnerShip, okk, Except.ok.injEq, eq_comm (a := some cx.sender), eq_comm (b := r), setOwn_setOwn,
    setOwn_own_same]
  constructor
  · rintro ⟨h1, h2⟩; exact ⟨h1, by rw [h1] at h2; exact h2⟩
  · rintro ⟨h1, h2⟩; exact ⟨h1, by rw [h1]; exact h2⟩

theorem ok_exec_transferOwnerShip {a : Addr} (hk : (w.kind T).isOwned) :
    exec orc (n + 1) s T 0 (.transferOwnerShip a) w = .ok (x, w') ↔
    0 ≤ w.coin s ∧ (w.own T).owner = some s ∧ a ≠ s ∧ x = .unit ∧
    w' = (w.note s T 0 (.transferOwnerShip a)).setOwn T { w.own T with newOwner := some a } := by
  rw [ok_exec_owned hk rfl, ok_unit, ok_transferOwnerShip]
  simp only [Prod.mk.injEq, note_own, Ctx.self, Ctx.sender, mkFrame_to, mkFrame_sender, true_and]
  tauto

theorem ok_exec_acceptOwnerShip (hk : (w.kind T).isOwned) :
    exec orc (n + 1) s T 0 .acceptOwnerShip w = .ok (x, w') ↔
    0 ≤ w.coin s ∧ (w.own T).newOwner = some s ∧ x = .unit ∧
    w' = ((w.note s T 0 .acceptOwnerShip).addLog T (.OwnerUpdate (w.own T).owner (some s))).setOwn T
      { owner := some s, newOwner := some ZERO } := by
  rw [ok_exec_owned hk rfl, ok_unit, ok_acceptOwnerShip]
  simp only [Prod.mk.injEq, note_own, Ctx.self, Ctx.sender, mkFrame_to, mkFrame_sender, true_and]
  tauto

/-! ### Views of tokens -/

theorem ok_exec_tokView {c : Call} {y : TokSt → Val} (hk : (w.kind T).isToken)
    (hc : ∀ cx, IRCToken.dispatchViews cx c = some (do return y ((← get).tok cx.self))) :
    exec orc (n + 1) s T 0 c w = .ok (x, w') ↔
    0 ≤ w.coin s ∧ x = y (w.tok T) ∧ w' = w.note s T 0 c := by
  have hne : c ≠ .fallback ∧ c ≠ .deposit := by
    constructor <;> rintro rfl <;>
    · have := hc { fr := mkFrame w s T 0 .fallback, call := exec orc n T }
      simp [IRCToken.dispatchViews] at this
  have key : ∀ m : Option (M Val), (runNonPayable { fr := mkFrame w s T 0 c, call := exec orc n T }
      (orElse' (IRCToken.dispatchViews { fr := mkFrame w s T 0 c, call := exec orc n T } c) m) (enterW w s T 0 c)
        = .ok (x, w')) ↔ x = y (w.tok T) ∧ w' = w.note s T 0 c := by
    intro m
    rw [hc]
    simp only [orElse', ok_runNonPayable, okk, Except.ok.injEq, Prod.mk.injEq, enterW_zero, note_tok, Ctx.self, Ctx.value,
      mkFrame_to, mkFrame_value, true_and, eq_comm (b := w'), eq_comm (b := x)]
  rcases hk with hk | hk | hk
  · rw [ok_exec_irc hk]
    simp only [IRCToken.dispatch, mkFrame_call, key]; simp
  · rw [ok_exec_icx hk]
    have : ∃ m, IcxToken.dispatch { fr := mkFrame w s T 0 c, call := exec orc n T } =
        runNonPayable { fr := mkFrame w s T 0 c, call := exec orc n T }
          (orElse' (IRCToken.dispatchViews { fr := mkFrame w s T 0 c, call := exec orc n T } c) m) := by
      unfold IcxToken.dispatch
      split
      · simp_all
      · simp_all
      · exact ⟨_, rfl⟩
    obtain ⟨m, this⟩ := this
    rw [this, key]; simp
  · rw [ok_exec_flex hk]
    simp only [FlexibleToken.dispatch, mkFrame_call, key]; simp

theorem ok_exec_balanceOf {a : Addr} (hk : (w.kind T).isToken) :
    exec orc (n + 1) s T 0 (.balanceOf a) w = .ok (x, w') ↔
    0 ≤ w.coin s ∧ x = .int ((w.tok T).bal a) ∧ w' = w.note s T 0 (.balanceOf a) :=
  ok_exec_tokView hk (y := fun t => .int (t.bal a)) (fun _ => rfl)

theorem ok_exec_totalSupply (hk : (w.kind T).isToken) :
    exec orc (n + 1) s T 0 .totalSupply w = .ok (x, w') ↔
    0 ≤ w.coin s ∧ x = .int (w.tok T).supply ∧ w' = w.note s T 0 .totalSupply :=
  ok_exec_tokView hk (y := fun t => .int t.supply) (fun _ => rfl)

end

end Verif

import Verif.Proofs.ConvCalls2
/-!
Exact success conditions of quotes and conversions at a converter whose flexible token, connectors and registry are
contracts of this code base.
-/
set_option linter.unusedSimpArgs false
namespace Verif

variable {cx : Ctx} {w w' : World} {orc : Oracle} {n : Nat} {T t a b : Addr}

/-- Reading the reserve leaves a call on record unless it is virtual. -/
def World.readReserve (w : World) (T a : Addr) : World :=
  if ((w.conv T).connectors a).isVirtual then w else w.note T a 0 (.balanceOf T)

section
variable (w : World) (T a : Addr)
@[simp] theorem readReserve_kind : (w.readReserve T a).kind = w.kind := by unfold World.readReserve; split <;> rfl
@[simp] theorem readReserve_tok : (w.readReserve T a).tok = w.tok := by unfold World.readReserve; split <;> rfl
@[simp] theorem readReserve_own : (w.readReserve T a).own = w.own := by unfold World.readReserve; split <;> rfl
@[simp] theorem readReserve_flex : (w.readReserve T a).flex = w.flex := by unfold World.readReserve; split <;> rfl
@[simp] theorem readReserve_conv : (w.readReserve T a).conv = w.conv := by unfold World.readReserve; split <;> rfl
@[simp] theorem readReserve_reg : (w.readReserve T a).reg = w.reg := by unfold World.readReserve; split <;> rfl
@[simp] theorem readReserve_net : (w.readReserve T a).net = w.net := by unfold World.readReserve; split <;> rfl
@[simp] theorem readReserve_coin : (w.readReserve T a).coin = w.coin := by unfold World.readReserve; split <;> rfl
@[simp] theorem readReserve_log : (w.readReserve T a).log = w.log := by unfold World.readReserve; split <;> rfl
end

/-- The setting: calls of the converter go to the ledger, the reserves are tokens of this code base. -/
structure Honest (orc : Oracle) (n : Nat) (cx : Ctx) (w : World) (t : Addr) : Prop where
  call : cx.call = exec orc (n + 1) cx.self
  coin : ∀ a, 0 ≤ w.coin a
  token : (w.conv cx.self).token = some t
  flex : w.kind t = .flex

theorem Honest.congr {w1 : World} (h : Honest orc n cx w t) (hc : w1.coin = w.coin)
    (ht : (w1.conv cx.self).token = (w.conv cx.self).token)
    (hk : w1.kind t = w.kind t) : Honest orc n cx w1 t :=
  ⟨h.call, by rw [hc]; exact h.coin, by rw [ht]; exact h.token, by rw [hk]; exact h.flex⟩

theorem Honest.note (h : Honest orc n cx w t) {s d v c} : Honest orc n cx (w.note s d v c) t := h.congr rfl rfl rfl
theorem Honest.readReserve (h : Honest orc n cx w t) {T a} : Honest orc n cx (w.readReserve T a) t :=
  h.congr (by simp) (by simp) (by simp)
theorem Honest.addLog (h : Honest orc n cx w t) {a e} : Honest orc n cx (w.addLog a e) t := h.congr rfl rfl rfl
theorem Honest.setTok (h : Honest orc n cx w t) {a e} : Honest orc n cx (w.setTok a e) t := h.congr rfl rfl rfl

theorem ok_getConnectorBalance (h : cx.call = exec orc (n + 1) cx.self) (hc : 0 ≤ w.coin cx.self)
    (hk : (w.kind a).isToken) {x : Int} :
    Converter.getConnectorBalance cx a w = .ok (x, w') ↔
      ((w.conv cx.self).connectors a).isSet = true ∧ x = w.reserve cx.self a ∧ w' = w.readReserve cx.self a := by
  simp only [Converter.getConnectorBalance, Converter.requireValidConnector, Converter.connector, okk, World.reserve,
    World.readReserve]
  refine and_congr_right fun _ => ?_
  split
  · simp only [okk, Except.ok.injEq, Prod.mk.injEq, eq_comm (b := x), eq_comm (b := w')]
  · simp only [okk, okk_bind (cx.call _ _ _), ok_asInt]
    constructor
    · rintro ⟨_, _, h0, h1, rfl⟩
      rw [h, ok_exec_balanceOf hk] at h0
      obtain ⟨_, rfl, rfl⟩ := h0
      rcases h1 with h1 | ⟨_, h1, _⟩
      · cases h1; exact ⟨rfl, rfl⟩
      · cases h1
    · rintro ⟨rfl, rfl⟩
      exact ⟨_, _, by rw [h, ok_exec_balanceOf hk]; exact ⟨hc, rfl, rfl⟩, .inl rfl, rfl⟩

theorem ok_isActive_h (h : Honest orc n cx w t) {r : Bool} : Controller.isActive cx w = .ok (r, w') ↔
    (r = true ↔ (w.own t).owner = some cx.self) ∧ w' = w.note cx.self t 0 .getOwner := by
  rw [ok_isActive]
  have hx : (w.kind t).isOwned := by rw [h.flex]; simp [Kind.isOwned]
  constructor
  · rintro ⟨_, y, h1, h2, rfl⟩
    rw [h.token] at h1; cases h1
    rw [h.call, ok_exec_getOwner hx] at h2
    obtain ⟨_, rfl, rfl⟩ := h2
    exact ⟨Val.isAddr_addr, rfl⟩
  · rintro ⟨h1, rfl⟩
    refine ⟨t, _, h.token, by rw [h.call, ok_exec_getOwner hx]; exact ⟨h.coin _, rfl, rfl⟩, ?_⟩
    rw [Bool.eq_iff_iff, h1, Val.isAddr_addr]

theorem ok_requireActive_h (h : Honest orc n cx w t) : Controller.requireActive cx w = .ok ((), w') ↔
    (w.own t).owner = some cx.self ∧ w' = w.note cx.self t 0 .getOwner := by
  rw [ok_requireActive, ok_isActive_h h]
  simp

theorem bind_of_ok {α β} {m : M α} {k : α → M β} {x : α} {w1 : World} (h : m w = .ok (x, w1)) : (m >>= k) w = k x w1 := by
  change (StateT.bind m k) w = _
  simp only [StateT.bind, h]; rfl

section
variable {β : Type} {r : β × World}

theorem okk_supply (h : Honest orc n cx w t) (k : Int → M β) :
    (cx.call t 0 .totalSupply >>= fun v => asInt v >>= k) w = k (w.tok t).supply (w.note cx.self t 0 .totalSupply) := by
  have : cx.call t 0 .totalSupply w = .ok (.int (w.tok t).supply, w.note cx.self t 0 .totalSupply) := by
    rw [h.call, ok_exec_totalSupply (by rw [h.flex]; simp [Kind.isToken])]
    exact ⟨h.coin _, rfl, rfl⟩
  rw [bind_of_ok this]; rfl

theorem okk_active (h : Honest orc n cx w t) (k : Unit → M β) : ((Controller.requireActive cx >>= k) w = .ok r) =
    ((w.own t).owner = some cx.self ∧ k () (w.note cx.self t 0 .getOwner) = .ok r) := by
  rw [okk_bind]
  simp only [ok_requireActive_h h, eq_iff_iff]
  constructor
  · rintro ⟨_, _, ⟨h1, rfl⟩, h2⟩; exact ⟨h1, h2⟩
  · rintro ⟨h1, h2⟩; exact ⟨(), _, ⟨h1, rfl⟩, h2⟩

theorem okk_balance (h : Honest orc n cx w t) (hk : (w.kind a).isToken) (k : Int → M β) :
    ((Converter.getConnectorBalance cx a >>= k) w = .ok r) =
    (((w.conv cx.self).connectors a).isSet = true ∧ k (w.reserve cx.self a) (w.readReserve cx.self a) = .ok r) := by
  rw [okk_bind]
  simp only [ok_getConnectorBalance h.call (h.coin _) hk, eq_iff_iff]
  constructor
  · rintro ⟨_, _, ⟨h1, rfl, rfl⟩, h2⟩; exact ⟨h1, h2⟩
  · rintro ⟨h1, h2⟩; exact ⟨_, _, ⟨h1, rfl, rfl⟩, h2⟩

theorem okk_token (h : Honest orc n cx w t) (k : Addr → M β) : (Controller.token cx >>= k) w = k t w :=
  bind_of_ok (ok_token.mpr ⟨h.token, rfl⟩)

end

/-- The result of a quote: formula value `c`, amount after fee and fee. -/
def World.settle (w : World) (T : Addr) (c : Int) (k : Nat) : Int × Int := (w.afterFee T c k, c - w.afterFee T c k)

theorem ok_finish {c : Int} {k : Int} (hk : 0 ≤ k) {r : Int × Int} : Converter.finish cx c k w = .ok (r, w') ↔
    r = w.settle cx.self c k.toNat ∧ w.afterFee cx.self c k.toNat ≤ c ∧ w' = w := by
  simp only [Converter.finish, Converter.getFinalAmount, Converter.finalAmount, Converter.safeSub, okk, World.settle, World.afterFee,
    if_neg (Int.not_lt.mpr hk), Except.ok.injEq, Int.not_lt, Prod.mk.injEq]
  constructor
  · rintro ⟨x, rfl, h1, h2, rfl⟩; exact ⟨h2.symm, h1, rfl⟩
  · rintro ⟨rfl, h1, rfl⟩; exact ⟨_, rfl, h1, rfl, rfl⟩

theorem ok_finish1 {c : Int} {r : Int × Int} : Converter.finish cx c 1 w = .ok (r, w') ↔
    r = w.settle cx.self c 1 ∧ w.afterFee cx.self c 1 ≤ c ∧ w' = w := ok_finish (by decide)
theorem ok_finish2 {c : Int} {r : Int × Int} : Converter.finish cx c 2 w = .ok (r, w') ↔
    r = w.settle cx.self c 2 ∧ w.afterFee cx.self c 2 ≤ c ∧ w' = w := ok_finish (by decide)

section
variable (w : World) (T a : Addr)
@[simp] theorem note_afterFee {s d v c} : (w.note s d v c).afterFee = w.afterFee := rfl
@[simp] theorem note_settle {s d v c} : (w.note s d v c).settle = w.settle := rfl
@[simp] theorem note_reserve {s d v c} : (w.note s d v c).reserve = w.reserve := rfl
@[simp] theorem addLog_afterFee {s e} : (w.addLog s e).afterFee = w.afterFee := rfl
@[simp] theorem addLog_settle {s e} : (w.addLog s e).settle = w.settle := rfl
@[simp] theorem addLog_reserve {s e} : (w.addLog s e).reserve = w.reserve := rfl
@[simp] theorem readReserve_afterFee : (w.readReserve T a).afterFee = w.afterFee := by unfold World.afterFee; simp
@[simp] theorem readReserve_settle : (w.readReserve T a).settle = w.settle := by unfold World.settle; simp
@[simp] theorem readReserve_reserve : (w.readReserve T a).reserve = w.reserve := by unfold World.reserve; simp
end

/-- The calls on record after a purchase quote. -/
def World.readBuy (w : World) (T t a : Addr) : World :=
  ((w.note T t 0 .getOwner).note T t 0 .totalSupply).readReserve T a

theorem ok_getPurchaseReturn (h : Honest orc n cx w t) (hk : (w.kind a).isToken) {v : Int} {fc : Bool} {r : Int × Int} :
    Converter.getPurchaseReturn cx a v fc w = .ok (r, w') ↔
    (w.own t).owner = some cx.self ∧ ((w.conv cx.self).connectors a).isSet = true ∧
    ((w.conv cx.self).connectors a).isPurchaseEnabled = true ∧
    ∃ c, Formula.calculatePurchaseReturn (w.tok t).supply (w.reserve cx.self a - if fc then v else 0)
        ((w.conv cx.self).connectors a).weight v = .ok c ∧
      r = w.settle cx.self c 1 ∧ w.afterFee cx.self c 1 ≤ c ∧ w' = w.readBuy cx.self t a := by
  unfold Converter.getPurchaseReturn
  generalize Formula.calculatePurchaseReturn = F
  have e : ∀ x : Int, (if fc = true then x - v else x) = x - (if fc = true then v else 0) := by intro x; split <;> omega
  rw [okk_active h]
  simp only [Converter.requireValidConnector, Converter.connector, okk]
  rw [okk_token h.note, okk_supply h.note, okk_balance h.note.note (by simpa using hk)]
  simp only [okk, e, ok_finish1, readReserve_conv, note_afterFee, note_settle, note_reserve, readReserve_afterFee, readReserve_settle, note_conv, note_tok]
  constructor
  · rintro ⟨h1, h2, h3, _, c, h4, h5, h6, h7⟩; exact ⟨h1, h2, h3, c, h4, h5, h6, h7⟩
  · rintro ⟨h1, h2, h3, c, h4, h5, h6, h7⟩; exact ⟨h1, h2, h3, h2, c, h4, h5, h6, h7⟩

theorem ok_getSaleReturn (h : Honest orc n cx w t) (hk : (w.kind b).isToken) {v : Int} {r : Int × Int} :
    Converter.getSaleReturn cx b v w = .ok (r, w') ↔
    (w.own t).owner = some cx.self ∧ ((w.conv cx.self).connectors b).isSet = true ∧
    ∃ c, Formula.calculateSaleReturn (w.tok t).supply (w.reserve cx.self b) ((w.conv cx.self).connectors b).weight v = .ok c ∧
      r = w.settle cx.self c 1 ∧ w.afterFee cx.self c 1 ≤ c ∧ w' = w.readBuy cx.self t b := by
  unfold Converter.getSaleReturn
  generalize Formula.calculateSaleReturn = F
  rw [okk_active h]
  simp only [Converter.requireValidConnector, Converter.connector, okk]
  rw [okk_token h.note, okk_supply h.note, okk_balance h.note.note (by simpa using hk)]
  simp only [okk, ok_finish1, readReserve_conv, note_afterFee, note_settle, note_reserve, readReserve_afterFee, readReserve_settle, note_conv, note_tok]
  constructor
  · rintro ⟨h1, h2, _, c, h4, h5, h6, h7⟩; exact ⟨h1, h2, c, h4, h5, h6, h7⟩
  · rintro ⟨h1, h2, c, h4, h5, h6, h7⟩; exact ⟨h1, h2, h2, c, h4, h5, h6, h7⟩

/-- The calls on record after a cross quote. -/
def World.readCross (w : World) (T t a b : Addr) : World :=
  ((w.note T t 0 .getOwner).readReserve T a).readReserve T b

theorem ok_getCrossReturn (h : Honest orc n cx w t) (hka : (w.kind a).isToken) (hkb : (w.kind b).isToken) {v : Int} {fc : Bool}
    {r : Int × Int} : Converter.getCrossConnectorReturn cx a b v fc w = .ok (r, w') ↔
    (w.own t).owner = some cx.self ∧ ((w.conv cx.self).connectors a).isSet = true ∧ ((w.conv cx.self).connectors b).isSet = true ∧
    ((w.conv cx.self).connectors b).isPurchaseEnabled = true ∧
    ∃ c, Formula.calculateCrossConnectorReturn (w.reserve cx.self a - if fc then v else 0) ((w.conv cx.self).connectors a).weight
        (w.reserve cx.self b) ((w.conv cx.self).connectors b).weight v = .ok c ∧
      r = w.settle cx.self c 2 ∧ w.afterFee cx.self c 2 ≤ c ∧ w' = w.readCross cx.self t a b := by
  unfold Converter.getCrossConnectorReturn
  generalize Formula.calculateCrossConnectorReturn = F
  have e : ∀ x : Int, (if fc = true then x - v else x) = x - (if fc = true then v else 0) := by intro x; split <;> omega
  rw [okk_active h]
  simp only [Converter.requireValidConnector, Converter.connector, okk]
  rw [okk_balance h.note (by simpa using hka), okk_balance h.note.readReserve (by simpa using hkb)]
  simp only [okk]
  simp only [ok_finish2]
  simp only [readReserve_conv, readReserve_settle, readReserve_afterFee, readReserve_reserve]
  simp only [note_conv, note_settle, note_afterFee, note_reserve, e]
  constructor
  · rintro ⟨h1, h2, h3, h4, _, _, c, h5, h6, h7, h8⟩
    exact ⟨h1, h2, h3, h4, c, h5, h6, h7, h8⟩
  · rintro ⟨h1, h2, h3, h4, c, h5, h6, h7, h8⟩
    exact ⟨h1, h2, h3, h4, h2, h3, c, h5, h6, h7, h8⟩


/-- The calls on record after a quote. -/
def World.readQuote (w : World) (T t a b : Addr) : World :=
  if t = b then w.readBuy T t a else if t = a then w.readBuy T t b else w.readCross T t a b

theorem ok_getReturn (h : Honest orc n cx w t) (hka : (w.kind a).isToken) (hkb : (w.kind b).isToken) {v : Int}
    {r : Int × Int} : Converter.getReturn cx a b v w = .ok (r, w') ↔
    (w.own t).owner = some cx.self ∧ w.tradable cx.self a b ∧
    ∃ c, w.curve cx.self a b v 0 = .ok c ∧
      r = w.settle cx.self c (w.feeSteps cx.self a b) ∧ w.afterFee cx.self c (w.feeSteps cx.self a b) ≤ c ∧
      w' = w.readQuote cx.self t a b := by
  unfold Converter.getReturn World.curve World.tradable World.feeSteps World.readQuote
  simp only [okk, h.token, okk_ite, Option.some.injEq, eq_comm (a := a) (b := t), eq_comm (a := b) (b := t)]
  rw [ok_getPurchaseReturn h hka, ok_getSaleReturn h hkb, ok_getCrossReturn h hka hkb]
  generalize Formula.calculatePurchaseReturn = F1
  generalize Formula.calculateSaleReturn = F2
  generalize Formula.calculateCrossConnectorReturn = F3
  by_cases h1 : t = b
  · subst h1; simp; tauto
  · by_cases h2 : t = a
    · subst h2; simp [h1]
    · simp [h1, h2]; tauto

end Verif

import Verif.Proofs.Quotes
/-!
Exact success conditions and effects of conversions at a converter whose flexible token, connectors, registry and network
are contracts of this code base.
-/
set_option linter.unusedSimpArgs false
namespace Verif

variable {cx : Ctx} {w w' : World} {orc : Oracle} {n : Nat} {T t a b N : Addr}

section
variable (w : World) (T a x : Addr) (v : Int)
@[simp] theorem virt_kind : (w.virt T a v).kind = w.kind := by unfold World.virt; split <;> rfl
@[simp] theorem virt_tok : (w.virt T a v).tok = w.tok := by unfold World.virt; split <;> rfl
@[simp] theorem virt_own : (w.virt T a v).own = w.own := by unfold World.virt; split <;> rfl
@[simp] theorem virt_flex : (w.virt T a v).flex = w.flex := by unfold World.virt; split <;> rfl
@[simp] theorem virt_coin : (w.virt T a v).coin = w.coin := by unfold World.virt; split <;> rfl
@[simp] theorem virt_reg : (w.virt T a v).reg = w.reg := by unfold World.virt; split <;> rfl
@[simp] theorem virt_net : (w.virt T a v).net = w.net := by unfold World.virt; split <;> rfl
@[simp] theorem virt_token : ((w.virt T a v).conv T).token = (w.conv T).token := by unfold World.virt; split <;> simp
@[simp] theorem virt_fee : ((w.virt T a v).conv T).fee = (w.conv T).fee := by unfold World.virt; split <;> simp
@[simp] theorem virt_isSet : (((w.virt T a v).conv T).connectors x).isSet = ((w.conv T).connectors x).isSet := by
  unfold World.virt; split
  · simp only [setConv_conv_same, upd]; split <;> simp_all
  · rfl
@[simp] theorem virt_isVirtual : (((w.virt T a v).conv T).connectors x).isVirtual = ((w.conv T).connectors x).isVirtual := by
  unfold World.virt; split
  · simp only [setConv_conv_same, upd]; split <;> simp_all
  · rfl
@[simp] theorem virt_weight : (((w.virt T a v).conv T).connectors x).weight = ((w.conv T).connectors x).weight := by
  unfold World.virt; split
  · simp only [setConv_conv_same, upd]; split <;> simp_all
  · rfl
@[simp] theorem mint_kind : (w.mint T a v).kind = w.kind := rfl
@[simp] theorem mint_conv : (w.mint T a v).conv = w.conv := rfl
@[simp] theorem mint_own : (w.mint T a v).own = w.own := rfl
@[simp] theorem mint_flex : (w.mint T a v).flex = w.flex := rfl
@[simp] theorem mint_coin : (w.mint T a v).coin = w.coin := rfl
@[simp] theorem mint_reg : (w.mint T a v).reg = w.reg := rfl
@[simp] theorem mint_net : (w.mint T a v).net = w.net := rfl
@[simp] theorem pay_kind : (w.pay T a x v).kind = w.kind := rfl
@[simp] theorem pay_conv : (w.pay T a x v).conv = w.conv := rfl
@[simp] theorem pay_own : (w.pay T a x v).own = w.own := rfl
@[simp] theorem pay_flex : (w.pay T a x v).flex = w.flex := rfl
@[simp] theorem pay_coin : (w.pay T a x v).coin = w.coin := rfl
@[simp] theorem pay_reg : (w.pay T a x v).reg = w.reg := rfl
@[simp] theorem pay_net : (w.pay T a x v).net = w.net := rfl
end

theorem Honest.virt (h : Honest orc n cx w t) {a v} : Honest orc n cx (w.virt cx.self a v) t :=
  h.congr (by simp) (by simp) (by simp)
theorem Honest.mint (h : Honest orc n cx w t) {a b v} : Honest orc n cx (w.mint a b v) t := h.congr rfl rfl rfl
theorem Honest.pay (h : Honest orc n cx w t) {a b d v} : Honest orc n cx (w.pay a b d v) t := h.congr rfl rfl rfl

theorem creditVirtual_eq {v : Int} : Converter.creditVirtual cx a v w = .ok ((), w.virt cx.self a v) := by
  simp only [Converter.creditVirtual, Converter.connector, okk, Converter.modConnector, World.virt]
  split <;> rfl

theorem ok_debitVirtual {v : Int} : Converter.debitVirtual cx a v w = .ok ((), w') ↔
    (((w.conv cx.self).connectors a).isVirtual = true → v ≤ ((w.conv cx.self).connectors a).virtualBalance) ∧
    w' = w.virt cx.self a (-v) := by
  simp only [Converter.debitVirtual, Converter.connector, okk, okk_ite, Converter.modConnector, Converter.safeSub, World.virt, Int.not_lt]
  by_cases hv : ((w.conv cx.self).connectors a).isVirtual = true
  · rw [if_pos hv]
    constructor
    · rintro (⟨_, h1, h2⟩ | ⟨h1, _⟩)
      · cases h2; exact ⟨fun _ => h1, rfl⟩
      · exact absurd hv h1
    · rintro ⟨h1, rfl⟩; exact .inl ⟨hv, h1 hv, rfl⟩
  · rw [if_neg hv]
    constructor
    · rintro (⟨h1, _⟩ | ⟨_, h2⟩)
      · exact absurd h1 hv
      · cases h2; exact ⟨fun h => absurd h hv, rfl⟩
    · rintro ⟨_, rfl⟩; exact .inr ⟨hv, rfl⟩

theorem ok_priceDataUpdate (h : Honest orc n cx w t) (hk : (w.kind a).isToken) :
    Converter.priceDataUpdate cx t a w = .ok ((), w') ↔ ((w.conv cx.self).connectors a).isSet = true ∧
    w' = ((w.note cx.self t 0 .totalSupply).readReserve cx.self a).addLog cx.self
      (.PriceDataUpdate a (w.tok t).supply (w.reserve cx.self a) ((w.conv cx.self).connectors a).weight) := by
  unfold Converter.priceDataUpdate
  rw [okk_supply h, okk_balance h.note (by simpa using hk)]
  simp only [Converter.connector, okk, Except.ok.injEq, Prod.mk.injEq, readReserve_conv, note_conv, note_reserve, eq_comm (b := w')]
  simp

/-- A call to a token by the converter. -/
theorem call_issue (h : Honest orc n cx w t) {x : Addr} {v : Int} {y : Val} : cx.call t 0 (.issue x v) w = .ok (y, w') ↔
    0 < v ∧ (w.own t).owner = some cx.self ∧ x ≠ ZERO ∧ x ≠ t ∧ y = .unit ∧
    w' = (((w.note cx.self t 0 (.issue x v)).mint t x v).addLog t (.Issuance v)).addLog t (.Transfer t x v .noneBytes) := by
  rw [h.call, ok_exec_issue h.flex]
  simp only [h.coin, true_and]; rfl

theorem call_destroy (h : Honest orc n cx w t) {v : Int} {y : Val} : cx.call t 0 (.destroy cx.self v) w = .ok (y, w') ↔
    0 < v ∧ v ≤ (w.tok t).bal cx.self ∧ y = .unit ∧
    w' = (((w.note cx.self t 0 (.destroy cx.self v)).mint t cx.self (-v)).addLog t (.Destruction v)).addLog t
      (.Transfer cx.self t v .noneBytes) := by
  rw [h.call, ok_exec_destroy h.flex]
  simp only [h.coin, true_and, true_or]; rfl

/-- The ledger after a purchase of `r` by `N` with `v` of `a`: calls, virtual balance, issued tokens, events. -/
def World.bought (w : World) (T t a N : Addr) (v r fee : Int) : World :=
  let w1 := (((((w.readBuy T t a).virt T a v).note T t 0 (.issue N r)).mint t N r).addLog t (.Issuance r)).addLog t
    (.Transfer t N r .noneBytes)
  let w2 := w1.addLog T (.Conversion a t N v r fee)
  ((w2.note T t 0 .totalSupply).readReserve T a).addLog T
    (.PriceDataUpdate a (w2.tok t).supply (w2.reserve T a) ((w2.conv T).connectors a).weight)

@[simp] theorem readBuy_kind : (w.readBuy T t a).kind = w.kind := by simp [World.readBuy]
@[simp] theorem readBuy_conv : (w.readBuy T t a).conv = w.conv := by simp [World.readBuy]
@[simp] theorem readBuy_own : (w.readBuy T t a).own = w.own := by simp [World.readBuy]
@[simp] theorem readBuy_tok : (w.readBuy T t a).tok = w.tok := by simp [World.readBuy]
@[simp] theorem readBuy_coin : (w.readBuy T t a).coin = w.coin := by simp [World.readBuy]
@[simp] theorem readBuy_flex : (w.readBuy T t a).flex = w.flex := by simp [World.readBuy]
@[simp] theorem readCross_kind : (w.readCross T t a b).kind = w.kind := by simp [World.readCross]
@[simp] theorem readCross_conv : (w.readCross T t a b).conv = w.conv := by simp [World.readCross]
@[simp] theorem readCross_own : (w.readCross T t a b).own = w.own := by simp [World.readCross]
@[simp] theorem readCross_tok : (w.readCross T t a b).tok = w.tok := by simp [World.readCross]
@[simp] theorem readCross_coin : (w.readCross T t a b).coin = w.coin := by simp [World.readCross]
@[simp] theorem readCross_flex : (w.readCross T t a b).flex = w.flex := by simp [World.readCross]

@[simp] theorem readBuy_reserve : (w.readBuy T t a).reserve = w.reserve := by simp [World.readBuy]
@[simp] theorem readCross_reserve : (w.readCross T t a b).reserve = w.reserve := by simp [World.readCross]

theorem Honest.readBuy (h : Honest orc n cx w t) {a} : Honest orc n cx (w.readBuy cx.self t a) t :=
  h.congr (by simp) (by simp) (by simp)
theorem Honest.readCross (h : Honest orc n cx w t) {a b} : Honest orc n cx (w.readCross cx.self t a b) t :=
  h.congr (by simp) (by simp) (by simp)

theorem ok_buy (h : Honest orc n cx w t) (hk : (w.kind a).isToken) {v m r : Int} :
    Converter.buy cx N a v m w = .ok (r, w') ↔
    (w.own t).owner = some cx.self ∧ ((w.conv cx.self).connectors a).isSet = true ∧
    ((w.conv cx.self).connectors a).isPurchaseEnabled = true ∧
    ∃ c, Formula.calculatePurchaseReturn (w.tok t).supply (w.reserve cx.self a - v)
        ((w.conv cx.self).connectors a).weight v = .ok c ∧
      r = w.afterFee cx.self c 1 ∧ r ≤ c ∧ m ≤ r ∧ 0 < r ∧ N ≠ ZERO ∧ N ≠ t ∧
      w' = w.bought cx.self t a N v r (c - r) := by
  unfold Converter.buy
  simp only [okk_bind (Converter.getPurchaseReturn _ _ _ _), ok_getPurchaseReturn h hk]
  generalize Formula.calculatePurchaseReturn = F
  simp only [okk, if_true]
  constructor
  · rintro ⟨⟨r', fee⟩, _, ⟨h1, h2, h3, c, h4, h5, h6, rfl⟩, h7, h8⟩
    injection h5 with h5 h5'; subst h5; subst h5'
    rw [bind_of_ok creditVirtual_eq, okk_token h.readBuy.virt, okk_bind] at h8
    obtain ⟨y, w2, h8, h9⟩ := h8
    rw [call_issue h.readBuy.virt] at h8
    obtain ⟨h10, _, h12, h13, _, rfl⟩ := h8
    simp only [okk, okk_bind (Converter.priceDataUpdate _ _ _)] at h9
    obtain ⟨_, w3, h9, h11⟩ := h9
    rw [ok_priceDataUpdate (h.readBuy.virt.note.mint.addLog.addLog.addLog) (by simpa using hk)] at h9
    obtain ⟨_, rfl⟩ := h9
    injection h11 with h11; injection h11 with h11 h11'; subst h11; subst h11'
    exact ⟨h1, h2, h3, c, h4, rfl, h6, h7, h10, h12, h13, rfl⟩
  · rintro ⟨h1, h2, h3, c, h4, rfl, h6, h7, h10, h12, h13, rfl⟩
    refine ⟨_, _, ⟨h1, h2, h3, c, h4, rfl, h6, rfl⟩, h7, ?_⟩
    simp only [World.settle]
    rw [bind_of_ok creditVirtual_eq, okk_token h.readBuy.virt,
      bind_of_ok ((call_issue h.readBuy.virt).mpr ⟨h10, by simpa using h1, h12, h13, rfl, rfl⟩)]
    simp only [okk]
    rw [bind_of_ok ((ok_priceDataUpdate (h.readBuy.virt.note.mint.addLog.addLog.addLog) (by simpa using hk)).mpr ⟨by simpa using h2, rfl⟩)]
    rfl


theorem ok_exec_netResult {s f : Addr} {v : Int} {x : Val} (hk : w.kind N = .net) :
    exec orc (n + 1) s N 0 (.tokenFallback f v .conversionResult) w = .ok (x, w') ↔
    0 ≤ w.coin s ∧ x = .unit ∧ w' = w.note s N 0 (.tokenFallback f v .conversionResult) := by
  rw [ok_exec_net hk]
  have : Network.dispatch { fr := mkFrame w s N 0 (.tokenFallback f v .conversionResult), call := exec orc n N } =
      runNonPayable { fr := mkFrame w s N 0 (.tokenFallback f v .conversionResult), call := exec orc n N }
        (some do Network.tokenFallback { fr := mkFrame w s N 0 (.tokenFallback f v .conversionResult), call := exec orc n N } f v .conversionResult; return .unit) := rfl
  rw [this, ok_runNonPayable, ok_unit, enterW_zero]
  simp only [Network.tokenFallback, if_true, okk, Except.ok.injEq, Prod.mk.injEq, true_and, Ctx.value, mkFrame_value, Int.le_refl]
  constructor
  · rintro ⟨h1, rfl, h2⟩; exact ⟨h1, h2, rfl⟩
  · rintro ⟨h1, h2, rfl⟩; exact ⟨h1, rfl, h2⟩

/-- The ledger after converter `T` paid `r` of `b` to the network `N`. -/
def World.paidOut (w : World) (T b N : Addr) (r : Int) : World :=
  (((w.note T b 0 (.transfer N r (some .conversionResult))).pay b T N r).note b N 0 (.tokenFallback T r .conversionResult)).addLog b
    (.Transfer T N r .conversionResult)

theorem call_payout (hcall : cx.call = exec orc (n + 1) cx.self) (hc : ∀ a, 0 ≤ w.coin a) (hk : (w.kind b).isToken)
    (hN : w.kind N = .net) (hNc : N.isContract = true) {r : Int} {y : Val} :
    cx.call b 0 (.transfer N r (some .conversionResult)) w = .ok (y, w') ↔
    n ≠ 0 ∧ (w.kind b = .flex → (w.flex b).transferable = true) ∧ 0 ≤ r ∧ r ≤ (w.tok b).bal cx.self ∧ y = .unit ∧
    w' = w.paidOut cx.self b N r := by
  rw [hcall, ok_exec_transfer hk]
  have hne : w.kind b = .icx → b ≠ N := by rintro h rfl; rw [h] at hN; cases hN
  simp only [hc, true_and, Option.getD_some, hNc, reduceCtorEq, false_and, false_or]
  constructor
  · rintro ⟨h1, _, h2, h3, h4, y, w1, h5, rfl⟩
    cases n with
    | zero => simp [ok_exec_zero] at h5
    | succ n =>
      rw [ok_exec_netResult (by exact hN)] at h5
      obtain ⟨_, _, rfl⟩ := h5
      exact ⟨by simp, h1, h2, h3, h4, rfl⟩
  · rintro ⟨h0, h1, h2, h3, h4, rfl⟩
    cases n with
    | zero => exact absurd rfl h0
    | succ n => exact ⟨h1, hne, h2, h3, h4, _, _, (ok_exec_netResult (by exact hN)).mpr ⟨hc _, rfl, rfl⟩, rfl⟩

@[simp] theorem paidOut_kind {r : Int} : (w.paidOut T b N r).kind = w.kind := rfl
@[simp] theorem paidOut_conv {r : Int} : (w.paidOut T b N r).conv = w.conv := rfl
@[simp] theorem paidOut_own {r : Int} : (w.paidOut T b N r).own = w.own := rfl
theorem Honest.paidOut (h : Honest orc n cx w t) {T b N r} : Honest orc n cx (w.paidOut T b N r) t := h.congr rfl rfl rfl

/-- The ledger after a sale of `v` for `r` of `b`, paid to `N`. -/
def World.soldFor (w : World) (T t b N : Addr) (v r fee : Int) : World :=
  let w1 := ((w.readBuy T t b).note T t 0 .totalSupply).readReserve T b
  let w2 := ((((w1.virt T b (-r)).note T t 0 (.destroy T v)).mint t T (-v)).addLog t (.Destruction v)).addLog t
    (.Transfer T t v .noneBytes)
  let w3 := (w2.paidOut T b N r).addLog T (.Conversion t b N v r fee)
  ((w3.note T t 0 .totalSupply).readReserve T b).addLog T
    (.PriceDataUpdate b (w3.tok t).supply (w3.reserve T b) ((w3.conv T).connectors b).weight)

theorem okk_of {α β : Type} {m : M α} {P : Prop} {x0 : α} {w1 : World} {r : β × World}
    (h : ∀ x w', m w = .ok (x, w') ↔ P ∧ x = x0 ∧ w' = w1) (k : α → M β) :
    ((m >>= k) w = .ok r) = (P ∧ k x0 w1 = .ok r) := by
  rw [okk_bind]
  simp only [h, eq_iff_iff]
  constructor
  · rintro ⟨_, _, ⟨h1, rfl, rfl⟩, h2⟩; exact ⟨h1, h2⟩
  · rintro ⟨h1, h2⟩; exact ⟨_, _, ⟨h1, rfl, rfl⟩, h2⟩

section
variable {β : Type} {r : β × World}

theorem okk_debit {v : Int} (k : Unit → M β) : ((Converter.debitVirtual cx a v >>= k) w = .ok r) =
    ((((w.conv cx.self).connectors a).isVirtual = true → v ≤ ((w.conv cx.self).connectors a).virtualBalance) ∧
      k () (w.virt cx.self a (-v)) = .ok r) :=
  okk_of (fun _ _ => by rw [ok_debitVirtual]; simp) k

theorem okk_credit {v : Int} (k : Unit → M β) : (Converter.creditVirtual cx a v >>= k) w = k () (w.virt cx.self a v) :=
  bind_of_ok creditVirtual_eq

theorem okk_price (h : Honest orc n cx w t) (hk : (w.kind a).isToken) (k : Unit → M β) :
    ((Converter.priceDataUpdate cx t a >>= k) w = .ok r) = (((w.conv cx.self).connectors a).isSet = true ∧
      k () (((w.note cx.self t 0 .totalSupply).readReserve cx.self a).addLog cx.self
        (.PriceDataUpdate a (w.tok t).supply (w.reserve cx.self a) ((w.conv cx.self).connectors a).weight)) = .ok r) :=
  okk_of (fun _ _ => by rw [ok_priceDataUpdate h hk]; simp) k

theorem okk_destroyCall (h : Honest orc n cx w t) {v : Int} (k : Val → M β) :
    ((cx.call t 0 (.destroy cx.self v) >>= k) w = .ok r) = ((0 < v ∧ v ≤ (w.tok t).bal cx.self) ∧
      k .unit ((((w.note cx.self t 0 (.destroy cx.self v)).mint t cx.self (-v)).addLog t (.Destruction v)).addLog t
        (.Transfer cx.self t v .noneBytes)) = .ok r) :=
  okk_of (fun _ _ => by rw [call_destroy h, and_assoc]) k

theorem okk_payout (hcall : cx.call = exec orc (n + 1) cx.self) (hc : ∀ a, 0 ≤ w.coin a) (hk : (w.kind b).isToken)
    (hN : w.kind N = .net) (hNc : N.isContract = true) {v : Int} (k : Val → M β) :
    ((cx.call b 0 (.transfer N v (some .conversionResult)) >>= k) w = .ok r) =
    ((n ≠ 0 ∧ (w.kind b = .flex → (w.flex b).transferable = true) ∧ 0 ≤ v ∧ v ≤ (w.tok b).bal cx.self) ∧
      k .unit (w.paidOut cx.self b N v) = .ok r) :=
  okk_of (fun _ _ => by rw [call_payout hcall hc hk hN hNc, and_assoc, and_assoc, and_assoc]) k

end

theorem ok_sell (h : Honest orc n cx w t) (hk : (w.kind b).isToken) (hbt : b ≠ t) (hN : w.kind N = .net)
    (hNc : N.isContract = true) {v m r : Int} :
    Converter.sell cx N b v m w = .ok (r, w') ↔
    (w.own t).owner = some cx.self ∧ ((w.conv cx.self).connectors b).isSet = true ∧
    ∃ c, Formula.calculateSaleReturn (w.tok t).supply (w.reserve cx.self b) ((w.conv cx.self).connectors b).weight v = .ok c ∧
      r = w.afterFee cx.self c 1 ∧ r ≤ c ∧ m ≤ r ∧
      (r < w.reserve cx.self b ∨ (r = w.reserve cx.self b ∧ v = (w.tok t).supply)) ∧
      (((w.conv cx.self).connectors b).isVirtual = true → r ≤ ((w.conv cx.self).connectors b).virtualBalance) ∧
      0 < v ∧ v ≤ (w.tok t).bal cx.self ∧
      n ≠ 0 ∧ (w.kind b = .flex → (w.flex b).transferable = true) ∧ 0 ≤ r ∧ r ≤ (w.tok b).bal cx.self ∧
      w' = w.soldFor cx.self t b N v r (c - r) := by
  unfold Converter.sell
  simp only [okk_bind (Converter.getSaleReturn _ _ _), ok_getSaleReturn h hk]
  generalize Formula.calculateSaleReturn = F
  simp only [okk]
  have hy := (h.readBuy (a := b)).note (s := cx.self) (d := t) (v := 0) (c := .totalSupply) |>.readReserve (T := cx.self) (a := b)
  have htok : ∀ (u : World), ((u.mint t cx.self (-v)).tok b) = u.tok b := by
    intro u; simp [World.mint, World.setTok, upd, hbt]
  have key : ∀ x fee : Int, ((do
      let t ← Controller.token cx
      let v_1 ← cx.call t 0 Call.totalSupply
      let supply ← asInt v_1
      let bal ← Converter.getConnectorBalance cx b
      require (x < bal ∨ x = bal ∧ v = supply) "returning amount does not meet connector balance condition"
      Converter.debitVirtual cx b x
      let _ ← cx.call t 0 (.destroy cx.self v)
      let _ ← cx.call b 0 (.transfer N x (some .conversionResult))
      emit cx.self (.Conversion t b N v x fee)
      Converter.priceDataUpdate cx t b
      pure x : M Int) (w.readBuy cx.self t b) = .ok (r, w')) ↔
      ((x < w.reserve cx.self b ∨ (x = w.reserve cx.self b ∧ v = (w.tok t).supply)) ∧
      (((w.conv cx.self).connectors b).isVirtual = true → x ≤ ((w.conv cx.self).connectors b).virtualBalance) ∧
      (0 < v ∧ v ≤ (w.tok t).bal cx.self) ∧
      (n ≠ 0 ∧ (w.kind b = .flex → (w.flex b).transferable = true) ∧ 0 ≤ x ∧ x ≤ (w.tok b).bal cx.self) ∧ 
      ((w.conv cx.self).connectors b).isSet = true ∧ r = x ∧ w' = w.soldFor cx.self t b N v x fee) := by
    intro x fee
    have hz := hy.virt (a := b) (v := -x)
    have hz1 := (hz.note (s := cx.self) (d := t) (v := 0) (c := .destroy cx.self v)).mint (a := t) (b := cx.self) (v := -v) |>.addLog (a := t) (e := .Destruction v) |>.addLog (a := t) (e := .Transfer cx.self t v .noneBytes)
    rw [okk_token h.readBuy, okk_supply h.readBuy, okk_balance h.readBuy.note (by simpa using hk)]
    rw [okk_require, okk_debit, okk_destroyCall hz, okk_payout h.call hz1.coin (by simpa using hk) (by simpa using hN) hNc, okk_emit,
      okk_price (hz1.paidOut.addLog) (by simpa using hk)]
    simp only [okk]
    simp only [Except.ok.injEq, Prod.mk.injEq]
    simp only [readReserve_conv, readBuy_tok, readReserve_tok, virt_tok, addLog_tok, note_tok, htok, addLog_kind, note_kind, mint_kind, virt_kind,
      readReserve_kind, readBuy_kind, addLog_flex, note_flex, mint_flex, virt_flex, readReserve_flex, readBuy_flex, addLog_conv, paidOut_conv, mint_conv,
      note_conv, virt_isSet, readBuy_conv, note_reserve, readBuy_reserve]
    constructor
    · rintro ⟨h2, h3, h4, h5, h6, _, rfl, rfl⟩; exact ⟨h3, h4, h5, h6, h2, rfl, rfl⟩
    · rintro ⟨h3, h4, h5, h6, h2, rfl, rfl⟩; exact ⟨h2, h3, h4, h5, h6, h2, rfl, rfl⟩
  constructor
  · rintro ⟨⟨r', fee⟩, _, ⟨h1, h2, c, h4, h5, h6, rfl⟩, h7, h8⟩
    injection h5 with h5 h5'; subst h5; subst h5'
    rw [key] at h8
    obtain ⟨h9, h10, ⟨h12, h13⟩, ⟨h14, h15, h16, h17⟩, _, rfl, rfl⟩ := h8
    exact ⟨h1, h2, c, h4, rfl, h6, h7, h9, h10, h12, h13, h14, h15, h16, h17, rfl⟩
  · rintro ⟨h1, h2, c, h4, rfl, h6, h7, h9, h10, h12, h13, h14, h15, h16, h17, rfl⟩
    refine ⟨_, _, ⟨h1, h2, c, h4, rfl, h6, rfl⟩, h7, ?_⟩
    exact (key _ _).mpr ⟨h9, h10, ⟨h12, h13⟩, ⟨h14, h15, h16, h17⟩, h2, rfl, rfl⟩

/-- The ledger after converting `v` of `a` into `r` of `b`, paid to `N`. -/
def World.crossed (w : World) (T t a b N : Addr) (v r fee : Int) : World :=
  let w1 := (((w.readCross T t a b).virt T a v).virt T b (-r)).readReserve T b
  let w2 := (w1.paidOut T b N r).addLog T (.Conversion a b N v r fee)
  let w3 := w2.note T t 0 .totalSupply
  let w4 := w3.readReserve T a
  let w5 := w4.addLog T (.PriceDataUpdate a (w2.tok t).supply (w3.reserve T a) ((w4.conv T).connectors a).weight)
  let w6 := w5.readReserve T b
  w6.addLog T (.PriceDataUpdate b (w2.tok t).supply (w5.reserve T b) ((w6.conv T).connectors b).weight)

theorem virt_other {T a b : Addr} (hab : a ≠ b) (v : Int) :
    ((w.virt T a v).conv T).connectors b = (w.conv T).connectors b := by
  unfold World.virt; split
  · simp [upd, hab.symm]
  · rfl

theorem ok_cross (h : Honest orc n cx w t) (hka : (w.kind a).isToken) (hkb : (w.kind b).isToken) (hab : a ≠ b)
    (hN : w.kind N = .net) (hNc : N.isContract = true) {v m r : Int} :
    Converter.convertCrossConnector cx N a b v m w = .ok (r, w') ↔
    (w.own t).owner = some cx.self ∧ ((w.conv cx.self).connectors a).isSet = true ∧ ((w.conv cx.self).connectors b).isSet = true ∧
    ((w.conv cx.self).connectors b).isPurchaseEnabled = true ∧
    ∃ c, Formula.calculateCrossConnectorReturn (w.reserve cx.self a - v) ((w.conv cx.self).connectors a).weight
        (w.reserve cx.self b) ((w.conv cx.self).connectors b).weight v = .ok c ∧
      r = w.afterFee cx.self c 2 ∧ r ≤ c ∧ m ≤ r ∧
      (((w.conv cx.self).connectors b).isVirtual = true → r ≤ ((w.conv cx.self).connectors b).virtualBalance) ∧
      r < (if ((w.conv cx.self).connectors b).isVirtual then w.reserve cx.self b - r else w.reserve cx.self b) ∧
      n ≠ 0 ∧ (w.kind b = .flex → (w.flex b).transferable = true) ∧ 0 ≤ r ∧ r ≤ (w.tok b).bal cx.self ∧
      w' = w.crossed cx.self t a b N v r (c - r) := by
  unfold Converter.convertCrossConnector
  simp only [okk_bind (Converter.getCrossConnectorReturn _ _ _ _ _), ok_getCrossReturn h hka hkb]
  generalize Formula.calculateCrossConnectorReturn = F
  simp only [okk, if_true]
  have key : ∀ x fee : Int, ((do
      Converter.creditVirtual cx a v
      Converter.debitVirtual cx b x
      let toBal ← Converter.getConnectorBalance cx b
      require (x < toBal) "returning amount does not meet connector balance condition"
      let _ ← cx.call b 0 (.transfer N x (some .conversionResult))
      emit cx.self (.Conversion a b N v x fee)
      let t ← Controller.token cx
      let v ← cx.call t 0 .totalSupply
      let supply ← asInt v
      let b1 ← Converter.getConnectorBalance cx a
      let w1 ← get
      emit cx.self (.PriceDataUpdate a supply b1 ((w1.conv cx.self).connectors a).weight)
      let b2 ← Converter.getConnectorBalance cx b
      let w2 ← get
      emit cx.self (.PriceDataUpdate b supply b2 ((w2.conv cx.self).connectors b).weight)
      pure x : M Int) (w.readCross cx.self t a b) = .ok (r, w')) ↔
      ((((w.conv cx.self).connectors b).isVirtual = true → x ≤ ((w.conv cx.self).connectors b).virtualBalance) ∧
      x < (if ((w.conv cx.self).connectors b).isVirtual then w.reserve cx.self b - x else w.reserve cx.self b) ∧
      (n ≠ 0 ∧ (w.kind b = .flex → (w.flex b).transferable = true) ∧ 0 ≤ x ∧ x ≤ (w.tok b).bal cx.self) ∧
      ((w.conv cx.self).connectors a).isSet = true ∧ ((w.conv cx.self).connectors b).isSet = true ∧
      r = x ∧ w' = w.crossed cx.self t a b N v x fee) := by
    intro x fee
    have hy := (h.readCross (a := a) (b := b)).virt (a := a) (v := v) |>.virt (a := b) (v := -x)
    have hz := hy.readReserve (T := cx.self) (a := b)
    have hz1 := hz.paidOut (T := cx.self) (b := b) (N := N) (r := x) |>.addLog (a := cx.self) (e := .Conversion a b N v x fee)
    rw [okk_credit, okk_debit, okk_balance hy (by simpa using hkb), okk_require, okk_payout h.call hz.coin (by simpa using hkb) (by simpa using hN) hNc, okk_emit,
      okk_token hz1, okk_supply hz1, okk_balance hz1.note (by simpa using hka), okk_get, okk_emit, 
      okk_balance hz1.note.readReserve.addLog (by simpa using hkb), okk_get, okk_emit, okk_pure]
    have hres : (((w.readCross cx.self t a b).virt cx.self a v).virt cx.self b (-x)).reserve cx.self b =
        if ((w.conv cx.self).connectors b).isVirtual then w.reserve cx.self b - x else w.reserve cx.self b := by
      have e := virt_other (w := w.readCross cx.self t a b) (T := cx.self) hab v
      simp only [readCross_conv] at e
      unfold World.reserve
      simp only [virt_isVirtual, readCross_conv, virt_tok, readCross_tok]
      split
      · rename_i hv
        generalize hu : (w.readCross cx.self t a b).virt cx.self a v = u at e ⊢
        have hv' : ((u.conv cx.self).connectors b).isVirtual = true := by rw [e]; exact hv
        unfold World.virt
        rw [if_pos hv', setConv_conv_same]
        simp only [upd, if_true, e]; omega
      · rfl
    change (_ ∧ _ ∧ _ ∧ _ ∧ _ ∧ _ ∧ Except.ok (x, w.crossed cx.self t a b N v x fee) = _) ↔ _
    rw [hres]
    have e := virt_other (w := w.readCross cx.self t a b) (T := cx.self) hab v
    simp only [readCross_conv] at e
    rw [e]
    simp only [Except.ok.injEq, Prod.mk.injEq]
    simp only [readReserve_tok, virt_tok, addLog_tok, note_tok, addLog_kind, note_kind, virt_kind,
      readReserve_kind, readCross_tok, readCross_kind, addLog_flex, note_flex, virt_flex, readReserve_flex, readCross_flex, addLog_conv, paidOut_conv, 
      note_conv, virt_isSet, readCross_conv, readReserve_conv]
    constructor
    · rintro ⟨h1, h2, h3, h4, h5, h6, rfl, rfl⟩; exact ⟨h1, h3, h4, h5, h2, rfl, rfl⟩
    · rintro ⟨h1, h3, h4, h5, h2, rfl, rfl⟩; exact ⟨h1, h2, h3, h4, h5, h2, rfl, rfl⟩
  constructor
  · rintro ⟨⟨r', fee⟩, _, ⟨h1, h2, h3, h3', c, h4, h5, h6, rfl⟩, h7, h8⟩
    injection h5 with h5 h5'; subst h5; subst h5'
    have h8 := (key _ _).mp h8
    obtain ⟨h9, h10, ⟨h14, h15, h16, h17⟩, _, _, rfl, rfl⟩ := h8
    exact ⟨h1, h2, h3, h3', c, h4, rfl, h6, h7, h9, h10, h14, h15, h16, h17, rfl⟩
  · rintro ⟨h1, h2, h3, h3', c, h4, rfl, h6, h7, h9, h10, h14, h15, h16, h17, rfl⟩
    exact ⟨_, _, ⟨h1, h2, h3, h3', c, h4, rfl, h6, rfl⟩, h7, (key _ _).mpr ⟨h9, h10, ⟨h14, h15, h16, h17⟩, h2, h3, rfl, rfl⟩⟩

end Verif

import Verif.Proofs.Deposit
/-!
What a successful conversion presupposes, without assumptions on the tokens converted; quotes as calls.
-/
set_option linter.unusedSimpArgs false
namespace Verif

variable {cx : Ctx} {w w' : World} {orc : Oracle} {n : Nat} {T t a b N R s : Addr}

/-- A purchase quote presupposes an active converter and a connector with purchases enabled. -/
theorem purchase_open (h : Honest orc n cx w t) {v : Int} {fc : Bool} {r : (Int × Int) × World}
    (e : Converter.getPurchaseReturn cx a v fc w = .ok r) : (w.own t).owner = some cx.self ∧
    ((w.conv cx.self).connectors a).isSet = true ∧ ((w.conv cx.self).connectors a).isPurchaseEnabled = true := by
  unfold Converter.getPurchaseReturn at e
  rw [okk_active h] at e
  simp only [Converter.requireValidConnector, Converter.connector, okk] at e
  exact ⟨e.1, e.2.1, e.2.2.1⟩

theorem sale_open (h : Honest orc n cx w t) {v : Int} {r : (Int × Int) × World}
    (e : Converter.getSaleReturn cx b v w = .ok r) : (w.own t).owner = some cx.self ∧
    ((w.conv cx.self).connectors b).isSet = true := by
  unfold Converter.getSaleReturn at e
  rw [okk_active h] at e
  simp only [Converter.requireValidConnector, Converter.connector, okk] at e
  exact ⟨e.1, e.2.1⟩

theorem cross_open (h : Honest orc n cx w t) {v : Int} {fc : Bool} {r : (Int × Int) × World}
    (e : Converter.getCrossConnectorReturn cx a b v fc w = .ok r) : (w.own t).owner = some cx.self ∧
    ((w.conv cx.self).connectors a).isSet = true ∧ ((w.conv cx.self).connectors b).isSet = true ∧
    ((w.conv cx.self).connectors b).isPurchaseEnabled = true := by
  unfold Converter.getCrossConnectorReturn at e
  rw [okk_active h] at e
  simp only [Converter.requireValidConnector, Converter.connector, okk] at e
  exact ⟨e.1, e.2.1, e.2.2.1, e.2.2.2.1⟩

theorem convert_open (h : Honest orc n cx w t) {f : Addr} {v m : Int} {r : Int × World}
    (e : Converter.convert cx f a b v m w = .ok r) : (w.conv cx.self).enabled = true ∧ 0 < m ∧ w.tradable cx.self a b ∧
    (w.own t).owner = some cx.self := by
  unfold Converter.convert at e
  simp only [okk, h.token, okk_ite, Option.some.injEq] at e
  obtain ⟨h1, h2, h3, h4⟩ := e
  unfold World.tradable
  rw [h.token]
  rcases h4 with ⟨hb, h4⟩ | ⟨hb, ⟨ha, h4⟩ | ⟨ha, h4⟩⟩
  · unfold Converter.buy at h4
    rw [okk_bind] at h4
    obtain ⟨_, _, h4, _⟩ := h4
    obtain ⟨h5, h6, h7⟩ := purchase_open h h4
    refine ⟨h1, h2, ⟨h3, ?_⟩, h5⟩
    rw [if_pos (by rw [hb])]; exact ⟨h6, h7⟩
  · unfold Converter.sell at h4
    rw [okk_bind] at h4
    obtain ⟨_, _, h4, _⟩ := h4
    obtain ⟨h5, h6⟩ := sale_open h h4
    refine ⟨h1, h2, ⟨h3, ?_⟩, h5⟩
    rw [if_neg (by simpa using Ne.symm hb), if_pos (by rw [ha])]; exact h6
  · unfold Converter.convertCrossConnector at h4
    rw [okk_bind] at h4
    obtain ⟨_, _, h4, _⟩ := h4
    obtain ⟨h5, h6, h7, h8⟩ := cross_open h h4
    refine ⟨h1, h2, ⟨h3, ?_⟩, h5⟩
    rw [if_neg (by simpa using Ne.symm hb), if_neg (by simpa using Ne.symm ha)]; exact ⟨h6, h7, h8⟩

/-- What a successful `tokenFallback` of a converter presupposes. -/
theorem fallback_open (hw : Wired w T t R N) {f : Addr} {cv v : Int} {d : Data} {x : Val}
    (h : exec orc n s T cv (.tokenFallback f v d) w = .ok (x, w')) : cv = 0 ∧ 0 < v ∧
    (w.deposits T t s f ∨ (f = N ∧ (w.conv T).enabled = true ∧ (w.own t).owner = some T ∧
      ∃ b m, Asks d b m ∧ 0 < m ∧ w.tradable T s b)) := by
  cases n with
  | zero => simp [ok_exec_zero] at h
  | succ n =>
    have hcv := exec_conv_value hw.conv h
    subst hcv
    refine ⟨rfl, ?_⟩
    cases n with
    | zero =>
      rw [ok_exec_convView (m := fun cx => Converter.tokenFallback cx f v d) hw.conv rfl] at h
      exact absurd h.2.2 (fallback_stuck (by rintro _ _ _ _ ⟨_, _⟩; simp [ok_exec_zero]))
    | succ n =>
      rw [ok_exec_convFallback hw] at h
      obtain ⟨hv, h⟩ := h
      refine ⟨hv, ?_⟩
      rcases h with ⟨h, _⟩ | ⟨_, rfl, b, m, r, h1, _, h2⟩
      · exact .inl h
      · refine .inr ⟨rfl, ?_⟩
        have hal : w.Alike (((w.note s T 0 (.tokenFallback N v d)).checked T t s N).note T R 0 (.getAddress "Network")) :=
          ((World.Alike.refl w).note.trans alike_checked).note
        have hw1 := hal.wired hw
        obtain ⟨h3, h4, h5, h6⟩ := convert_open (n := n) (orc := orc) (t := t) ⟨rfl, hw1.coin, hw1.token, hw1.flex⟩ h2
        rw [hal.conv] at h3; rw [hal.own] at h6; rw [hal.tradable] at h5
        exact ⟨h3, h6, b, m, h1, h4, h5⟩

/-- Tokens of this code base reach a converter only through its `tokenFallback`. -/
theorem transfer_open (hw : Wired w T t R N) (hk : (w.kind a).isToken) {f : Addr} {cv v : Int} {d : Option Data} {x : Val}
    (h : exec orc n f a cv (.transfer T v d) w = .ok (x, w')) : cv = 0 ∧ 0 < v ∧
    (w.deposits T t a f ∨ (f = N ∧ (w.conv T).enabled = true ∧ (w.own t).owner = some T ∧
      ∃ b m, Asks (d.getD .noneBytes) b m ∧ 0 < m ∧ w.tradable T a b)) := by
  cases n with
  | zero => simp [ok_exec_zero] at h
  | succ n =>
    have hcv : cv = 0 := exec_tok_value hk h (fun _ => ⟨by rintro ⟨⟩, by rintro ⟨⟩⟩)
    subst hcv
    rw [ok_exec_transfer hk] at h
    obtain ⟨_, _, _, _, _, _, ⟨h1, _⟩ | ⟨_, y, w1, h1, _⟩⟩ := h
    · rw [hw.contract.1] at h1; cases h1
    · have hw0 : Wired ((w.note f a 0 (.transfer T v d)).pay a f T v) T t R N :=
        ((World.Alike.refl w).note.pay).wired hw.pay
      have := fallback_open hw0 h1
      exact this

theorem ok_exec_getReturn (hw : Wired w T t R N) (hka : (w.kind a).isToken) (hkb : (w.kind b).isToken) {cv v : Int} {x : Val} :
    exec orc (n + 2) s T cv (.getReturn a b v) w = .ok (x, w') ↔ cv = 0 ∧ (w.own t).owner = some T ∧ w.tradable T a b ∧
    ∃ c, w.curve T a b v 0 = .ok c ∧ w.afterFee T c (w.feeSteps T a b) ≤ c ∧
      x = .ret (w.afterFee T c (w.feeSteps T a b)) (c - w.afterFee T c (w.feeSteps T a b)) ∧
      w' = (w.note s T 0 (.getReturn a b v)).readQuote T t a b := by
  rw [ok_exec_convView (m := fun cx => do let r ← Converter.getReturn cx a b v; return .ret r.1 r.2) hw.conv rfl]
  rw [okk_bind]
  have hal : w.Alike (w.note s T 0 (.getReturn a b v)) := (World.Alike.refl w).note
  have hw1 := hal.wired hw
  have key := fun r w2 => ok_getReturn (r := r) (w' := w2) (v := v) (n := n) (orc := orc) (t := t) (w := w.note s T 0 (.getReturn a b v)) (cx := { fr := mkFrame w s T cv (.getReturn a b v), call := exec orc (n + 1) T }) ⟨rfl, hw1.coin, hw1.token, hw1.flex⟩ hka hkb
  simp only [key]
  have hcv : cv ≠ 0 ∨ cv = 0 := by tauto
  constructor
  · rintro ⟨rfl, h1, r, w2, ⟨h2, h3, c, h4, h5, h6, rfl⟩, h7⟩
    cases h7
    subst h5
    exact ⟨rfl, h2, h3, c, h4, h6, rfl, rfl⟩
  · rintro ⟨rfl, h2, h3, c, h4, h6, rfl, rfl⟩
    exact ⟨rfl, hw.coin _, _, _, ⟨h2, h3, c, h4, rfl, h6, rfl⟩, rfl⟩

theorem alike_readQuote : w.Alike (w.readQuote T t a b) := by
  unfold World.readQuote
  split
  · exact (World.Alike.refl w).readBuy
  · split
    · exact (World.Alike.refl w).readBuy
    · exact (World.Alike.refl w).readCross

/-- Forward reading of a quote, for any budget. -/
theorem getReturn_effect (hw : Wired w T t R N) (hka : (w.kind a).isToken) (hkb : (w.kind b).isToken) {cv v : Int} {x : Val}
    (h : exec orc n s T cv (.getReturn a b v) w = .ok (x, w')) : cv = 0 ∧ (w.own t).owner = some T ∧ w.tradable T a b ∧
    ∃ c, w.curve T a b v 0 = .ok c ∧ w.afterFee T c (w.feeSteps T a b) ≤ c ∧
      x = .ret (w.afterFee T c (w.feeSteps T a b)) (c - w.afterFee T c (w.feeSteps T a b)) ∧
      w' = (w.note s T 0 (.getReturn a b v)).readQuote T t a b := by
  have hn : ∃ k, n = k + 2 := by
    cases n with
    | zero => simp [ok_exec_zero] at h
    | succ n =>
      cases n with
      | succ n => exact ⟨n, rfl⟩
      | zero =>
        exfalso
        rw [ok_exec_convView (m := fun cx => do let r ← Converter.getReturn cx a b v; return .ret r.1 r.2) hw.conv rfl, okk_bind] at h
        obtain ⟨_, _, r, w2, h, _⟩ := h
        unfold Converter.getReturn Converter.getPurchaseReturn Converter.getSaleReturn Converter.getCrossConnectorReturn at h
        simp only [okk, okk_ite, okk_bind (Controller.requireActive _), ok_requireActive, ok_isActive, ok_exec_zero, false_and, and_false, exists_false, or_false] at h
  obtain ⟨k, rfl⟩ := hn
  rwa [ok_exec_getReturn hw hka hkb] at h

end Verif

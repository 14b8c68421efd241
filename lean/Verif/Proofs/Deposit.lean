import Verif.Proofs.Convert
/-!
Conversions as a whole: a deposit by the network at a converter.
-/
set_option linter.unusedSimpArgs false
namespace Verif

variable {cx : Ctx} {w w' : World} {orc : Oracle} {n : Nat} {T t a b N R : Addr}

namespace World.Alike
theorem refl (w : World) : w.Alike w := ⟨w.frames, w.log, rfl⟩
theorem note {w w1 : World} (h : w.Alike w1) {s d v c} : w.Alike (w1.note s d v c) := by
  obtain ⟨fs, l, rfl⟩ := h; exact ⟨_, _, rfl⟩
theorem addLog {w w1 : World} (h : w.Alike w1) {a e} : w.Alike (w1.addLog a e) := by
  obtain ⟨fs, l, rfl⟩ := h; exact ⟨_, _, rfl⟩
theorem readReserve {w w1 : World} (h : w.Alike w1) {T a} : w.Alike (w1.readReserve T a) := by
  unfold World.readReserve; split
  · exact h
  · exact h.note
theorem pay {w w1 : World} (h : w.Alike w1) {T a b v} : (w.pay T a b v).Alike (w1.pay T a b v) := by
  obtain ⟨fs, l, rfl⟩ := h; exact ⟨_, _, rfl⟩
theorem mint {w w1 : World} (h : w.Alike w1) {T a v} : (w.mint T a v).Alike (w1.mint T a v) := by
  obtain ⟨fs, l, rfl⟩ := h; exact ⟨_, _, rfl⟩
theorem virt {w w1 : World} (h : w.Alike w1) {T a v} : (w.virt T a v).Alike (w1.virt T a v) := by
  obtain ⟨fs, l, rfl⟩ := h
  unfold World.virt
  split
  · exact ⟨_, _, rfl⟩
  · exact ⟨_, _, rfl⟩
theorem trans {w w1 w2 : World} (h : w.Alike w1) (h' : w1.Alike w2) : w.Alike w2 := by
  obtain ⟨fs, l, rfl⟩ := h; obtain ⟨fs', l', rfl⟩ := h'; exact ⟨_, _, rfl⟩
theorem readBuy {w w1 : World} (h : w.Alike w1) {T t a} : w.Alike (w1.readBuy T t a) := h.note.note.readReserve
theorem readCross {w w1 : World} (h : w.Alike w1) {T t a b} : w.Alike (w1.readCross T t a b) := h.note.readReserve.readReserve
theorem traded {w w1 : World} (h : w.Alike w1) {T t a b N v r} : (w.traded T t a b N v r).Alike (w1.traded T t a b N v r) := by
  unfold World.traded
  split
  · exact h.virt.mint
  · split
    · exact h.virt.mint.pay
    · exact h.virt.virt.pay
theorem paidOut {w w1 : World} (h : w.Alike w1) {T b N r} : (w.pay b T N r).Alike (w1.paidOut T b N r) := h.note.pay.note.addLog

/-! Alike ledgers agree on everything but calls and events. -/
variable {w w1 : World} (h : w.Alike w1)
include h
theorem kind : w1.kind = w.kind := by obtain ⟨_, _, rfl⟩ := h; rfl
theorem tok : w1.tok = w.tok := by obtain ⟨_, _, rfl⟩ := h; rfl
theorem own : w1.own = w.own := by obtain ⟨_, _, rfl⟩ := h; rfl
theorem flex : w1.flex = w.flex := by obtain ⟨_, _, rfl⟩ := h; rfl
theorem conv : w1.conv = w.conv := by obtain ⟨_, _, rfl⟩ := h; rfl
theorem reg : w1.reg = w.reg := by obtain ⟨_, _, rfl⟩ := h; rfl
theorem net : w1.net = w.net := by obtain ⟨_, _, rfl⟩ := h; rfl
theorem coin : w1.coin = w.coin := by obtain ⟨_, _, rfl⟩ := h; rfl
theorem store : w1.store = w.store := by obtain ⟨_, _, rfl⟩ := h; rfl
theorem reserve : w1.reserve = w.reserve := by obtain ⟨_, _, rfl⟩ := h; rfl
theorem curve : w1.curve = w.curve := by obtain ⟨_, _, rfl⟩ := h; rfl
theorem afterFee : w1.afterFee = w.afterFee := by obtain ⟨_, _, rfl⟩ := h; rfl
theorem feeSteps : w1.feeSteps = w.feeSteps := by obtain ⟨_, _, rfl⟩ := h; rfl
theorem tradable : w1.tradable = w.tradable := by obtain ⟨_, _, rfl⟩ := h; rfl
theorem payable : w1.payable = w.payable := by obtain ⟨_, _, rfl⟩ := h; rfl
theorem active : w1.active = w.active := by obtain ⟨_, _, rfl⟩ := h; rfl
theorem wired {T t R N} (hw : Wired w T t R N) : Wired w1 T t R N := by
  obtain ⟨_, _, rfl⟩ := h; exact ⟨hw.conv, hw.token, hw.flex, hw.registry, hw.reg, hw.network, hw.net, hw.contract, hw.coin⟩
end World.Alike

theorem alike_bought {v r fee : Int} : ((w.virt T a v).mint t N r).Alike (w.bought T t a N v r fee) :=
  ((World.Alike.refl w).readBuy.virt.note.mint.addLog.addLog.addLog).note.readReserve.addLog

theorem alike_sold {v r fee : Int} : (((w.virt T b (-r)).mint t T (-v)).pay b T N r).Alike (w.soldFor T t b N v r fee) :=
  ((World.Alike.refl w).readBuy.note.readReserve.virt.note.mint.addLog.addLog.paidOut.addLog).note.readReserve.addLog

theorem alike_crossed {v r fee : Int} : (((w.virt T a v).virt T b (-r)).pay b T N r).Alike (w.crossed T t a b N v r fee) :=
  ((World.Alike.refl w).readCross.virt.virt.readReserve.paidOut.addLog).note.readReserve.addLog.readReserve.addLog

/-- The ledger after a conversion, with calls and events. -/
def World.tradedX (w : World) (T t a b N : Addr) (v r fee : Int) : World :=
  if b = t then w.bought T t a N v r fee
  else if a = t then w.soldFor T t b N v r fee
  else w.crossed T t a b N v r fee

theorem alike_tradedX {v r fee : Int} : (w.traded T t a b N v r).Alike (w.tradedX T t a b N v r fee) := by
  unfold World.traded World.tradedX
  split
  · exact alike_bought
  · split
    · exact alike_sold
    · exact alike_crossed

theorem ok_convert (h : Honest orc n cx w t) (hka : (w.kind a).isToken) (hkb : (w.kind b).isToken)
    (hN : w.kind N = .net) (hNc : N.isContract = true) (hNz : N ≠ ZERO) {v m r : Int} (hv : 0 < v) :
    Converter.convert cx N a b v m w = .ok (r, w') ↔
    Converts w cx.self t a b v m r ∧ (b ≠ t → n ≠ 0) ∧ ∃ fee, w.curve cx.self a b v v = .ok (r + fee) ∧ w' = w.tradedX cx.self t a b N v r fee := by
  have hNt : N ≠ t := by rintro rfl; rw [h.flex] at hN; cases hN
  unfold Converter.convert
  simp only [okk, h.token, okk_ite, Option.some.injEq]
  by_cases hbt : b = t
  · subst hbt
    rw [ok_buy h hka]
    constructor
    · rintro ⟨h1, h2, h3, h4 | h4⟩
      · obtain ⟨_, h4, h5, h6, c, h7, h8, h9, h10, h11, h12, h13, rfl⟩ := h4
        have hc : w.curve cx.self a b v v = .ok c := by unfold World.curve; rw [h.token, if_pos rfl]; exact h7
        have hf : w.feeSteps cx.self a b = 1 := by unfold World.feeSteps; rw [h.token, if_pos (.inl rfl)]
        refine ⟨⟨h1, h4, h2, ⟨h3, ?_⟩, ⟨c, hc, by rw [hf]; exact h8, h9⟩, h10, ?_⟩, ?_, c - r, by rw [hc]; congr 1; omega, ?_⟩
        · rw [h.token, if_pos rfl]; exact ⟨h5, h6⟩
        · unfold World.payable; rw [if_pos rfl]; trivial
        · exact fun hh => absurd rfl hh
        · unfold World.tradedX; rw [if_pos rfl]
      · exact absurd rfl h4.1
    · rintro ⟨⟨h1, h4, h2, ⟨h3, h5⟩, ⟨c, hc, h8, h9⟩, h10, _⟩, _, fee, hfee, rfl⟩
      rw [hc] at hfee; injection hfee with hfee
      have hf : w.feeSteps cx.self a b = 1 := by unfold World.feeSteps; rw [h.token, if_pos (.inl rfl)]
      unfold World.curve at hc; rw [h.token, if_pos rfl] at hc; rw [h.token, if_pos rfl] at h5
      refine ⟨h1, h2, h3, .inl ⟨rfl, h4, h5.1, h5.2, c, hc, by rw [hf] at h8; exact h8, h9, h10, by omega, hNz, hNt, ?_⟩⟩
      unfold World.tradedX; rw [if_pos rfl]; congr 1; omega
  · by_cases hat : a = t
    · subst hat
      rw [ok_sell h hkb hbt hN hNc]
      have hf : w.feeSteps cx.self a b = 1 := by unfold World.feeSteps; rw [h.token, if_pos (.inr rfl)]
      have hct : w.curve cx.self a b v v = Formula.calculateSaleReturn (w.tok a).supply (w.reserve cx.self b) ((w.conv cx.self).connectors b).weight v := by
        unfold World.curve; rw [h.token, if_neg (by simpa using Ne.symm hbt), if_pos rfl]
      constructor
      · rintro ⟨h1, h2, h3, ⟨h4, _⟩ | ⟨_, ⟨_, h4⟩ | ⟨h4, _⟩⟩⟩
        · exact absurd h4 hbt
        · obtain ⟨h4, h5, c, h7, h8, h9, h10, h11, h12, h13, h14, hn, h15, h16, h17, rfl⟩ := h4
          rw [← hct] at h7
          refine ⟨⟨h1, h4, h2, ⟨h3, ?_⟩, ⟨c, h7, by rw [hf]; exact h8, h9⟩, h10, ?_⟩, ?_, c - r, by rw [h7]; congr 1; omega, ?_⟩
          · rw [h.token, if_neg (by simpa using Ne.symm hbt), if_pos rfl]; exact h5
          · unfold World.payable; rw [if_neg hbt, if_pos rfl]; exact ⟨h17, h15, h12, h11, h14⟩
          · exact fun _ => hn
          · unfold World.tradedX; rw [if_neg hbt, if_pos rfl]
        · exact absurd rfl h4
      · rintro ⟨⟨h1, h4, h2, ⟨h3, h5⟩, ⟨c, hc, h8, h9⟩, h10, hp⟩, hn, fee, hfee, rfl⟩
        rw [hc] at hfee; injection hfee with hfee
        rw [h.token, if_neg (by simpa using Ne.symm hbt), if_pos rfl] at h5
        unfold World.payable at hp; rw [if_neg hbt, if_pos rfl] at hp
        refine ⟨h1, h2, h3, .inr ⟨hbt, .inl ⟨rfl, h4, h5, c, by rw [← hct]; exact hc, by rw [hf] at h8; exact h8, h9, h10, hp.2.2.2.1, hp.2.2.1, hv, hp.2.2.2.2, hn hbt, hp.2.1, by omega, hp.1, ?_⟩⟩⟩
        unfold World.tradedX; rw [if_neg hbt, if_pos rfl]; congr 1; omega
    · have hta : t ≠ a := Ne.symm hat
      have htb : t ≠ b := Ne.symm hbt
      have hf : w.feeSteps cx.self a b = 2 := by
        unfold World.feeSteps; rw [h.token, if_neg]; simp [hta, htb]
      have hct : w.curve cx.self a b v v = Formula.calculateCrossConnectorReturn (w.reserve cx.self a - v) ((w.conv cx.self).connectors a).weight
          (w.reserve cx.self b) ((w.conv cx.self).connectors b).weight v := by
        unfold World.curve; rw [h.token, if_neg (by simpa using htb), if_neg (by simpa using hta)]
      constructor
      · rintro ⟨h1, h2, h3, ⟨h4, _⟩ | ⟨_, ⟨h4, _⟩ | ⟨_, h4⟩⟩⟩
        · exact absurd h4 hbt
        · exact absurd h4 hat
        · rw [ok_cross h hka hkb h3 hN hNc] at h4
          obtain ⟨h4, h5, h5', h6, c, h7, h8, h9, h10, h11, h12, hn, h15, h16, h17, rfl⟩ := h4
          rw [← hct] at h7
          refine ⟨⟨h1, h4, h2, ⟨h3, ?_⟩, ⟨c, h7, by rw [hf]; exact h8, h9⟩, h10, ?_⟩, ?_, c - r, by rw [h7]; congr 1; omega, ?_⟩
          · rw [h.token, if_neg (by simpa using htb), if_neg (by simpa using hta)]; exact ⟨h5, h5', h6⟩
          · unfold World.payable; rw [if_neg hbt, if_neg hat]; exact ⟨h17, h15, h11, h12⟩
          · exact fun _ => hn
          · unfold World.tradedX; rw [if_neg hbt, if_neg hat]
      · rintro ⟨⟨h1, h4, h2, ⟨h3, h5⟩, ⟨c, hc, h8, h9⟩, h10, hp⟩, hn, fee, hfee, rfl⟩
        rw [hc] at hfee; injection hfee with hfee
        rw [h.token, if_neg (by simpa using htb), if_neg (by simpa using hta)] at h5
        unfold World.payable at hp; rw [if_neg hbt, if_neg hat] at hp
        refine ⟨h1, h2, h3, .inr ⟨hbt, .inr ⟨hat, ?_⟩⟩⟩
        rw [ok_cross h hka hkb h3 hN hNc]
        refine ⟨h4, h5.1, h5.2.1, h5.2.2, c, by rw [← hct]; exact hc, by rw [hf] at h8; exact h8, h9, h10, hp.2.2.1, hp.2.2.2, hn hbt, hp.2.1, by omega, hp.1, ?_⟩
        unfold World.tradedX; rw [if_neg hbt, if_neg hat]; congr 1; omega

theorem parse_iff {d : Data} {b : Addr} {m : Int} : Converter.parseRequest d = some (b, m) ↔ Asks d b m := by
  unfold Asks
  constructor
  · intro h
    cases d with
    | json fields =>
      simp only [Converter.parseRequest] at h
      generalize h1 : List.lookup "toToken" fields = x1 at h
      generalize h2 : List.lookup "minReturn" fields = x2 at h
      cases x1 with
      | none => cases h
      | some j1 =>
        cases j1 <;> try cases h
        rename_i s
        cases x2 with
        | none => cases h
        | some j =>
          simp only at h
          generalize h3 : Text.toAddr s = x3 at h
          generalize h4 : j.asNumber = x4 at h
          cases x3 <;> cases x4 <;> try cases h
          refine ⟨fields, s, j, rfl, h1, h3, h2, ?_⟩
          cases j <;> simp_all [JVal.asNumber]
          rename_i q; cases q <;> simp_all
    | _ => cases h
  · rintro ⟨fields, s, j, rfl, h1, h2, h3, h4⟩
    simp only [Converter.parseRequest, h1, h2, h3]
    rcases h4 with rfl | rfl | ⟨rfl, rfl⟩ | ⟨rfl, rfl⟩ <;> simp [JVal.asNumber]

/-- The question whether the converter is active is asked only if the sender of the tokens is its owner and the token a connector. -/
def World.checked (w : World) (T t a f : Addr) : World :=
  if (w.own T).owner = some f ∧ ((w.conv T).connectors a).isSet = true then w.note T t 0 .getOwner else w

/-- A plain deposit by the owner: of connector tokens, to an inactive converter. -/
def World.deposits (w : World) (T t a f : Addr) : Prop :=
  (w.own T).owner = some f ∧ ((w.conv T).connectors a).isSet = true ∧ (w.own t).owner ≠ some T

theorem alike_checked {f : Addr} : w.Alike (w.checked T t a f) := by
  unfold World.checked; split
  · exact (World.Alike.refl w).note
  · exact .refl w

theorem Honest.checked {f : Addr} (h : Honest orc n cx w t) : Honest orc n cx (w.checked T t a f) t :=
  h.congr alike_checked.coin (by rw [(alike_checked (w := w)).conv]) (by rw [(alike_checked (w := w)).kind])

theorem ok_acceptsDeposit (h : Honest orc n cx w t) {f : Addr} {r : Bool} : Converter.acceptsDeposit cx f w = .ok (r, w') ↔
    (r = true ↔ w.deposits cx.self t cx.sender f) ∧ w' = w.checked cx.self t cx.sender f := by
  unfold Converter.acceptsDeposit World.deposits World.checked
  simp only [okk, okk_ite]
  by_cases hc : (w.own cx.self).owner = some f ∧ ((w.conv cx.self).connectors cx.sender).isSet = true
  · rw [if_pos hc]
    simp only [eq_comm (a := some f), hc, and_self, not_true, false_and, or_false, true_and, okk_bind (Controller.isActive cx), ok_isActive_h h]
    constructor
    · rintro ⟨x, _, ⟨h1, rfl⟩, h2⟩; cases h2
      refine ⟨?_, rfl⟩
      cases x <;> simp_all
    · rintro ⟨h1, rfl⟩
      refine ⟨!r, _, ⟨?_, rfl⟩, by rw [Bool.not_not]; rfl⟩
      cases r <;> simp_all
  · rw [if_neg hc]
    simp only [eq_comm (a := some f)]
    constructor
    · rintro (⟨h1, _⟩ | ⟨_, h2⟩)
      · exact absurd h1 hc
      · cases h2
        refine ⟨⟨nofun, fun h1 => absurd ⟨h1.1, h1.2.1⟩ hc⟩, rfl⟩
    · rintro ⟨h1, rfl⟩
      refine .inr ⟨hc, ?_⟩
      have : r = false := by
        cases r
        · rfl
        · exact absurd ⟨(h1.mp rfl).1, (h1.mp rfl).2.1⟩ hc
      rw [this]

/-- `tokenFallback` of a converter whose flexible token and registry are honest; the conversion itself is left as is. -/
theorem ok_convFallback (h : Honest orc n cx w t) (hreg : (w.conv cx.self).registry = some R) (hR : w.kind R = .reg) {f : Addr} {v : Int}
    {d : Data} {x : Val} : Converter.tokenFallback cx f v d w = .ok (x, w') ↔
    0 < v ∧ ((w.deposits cx.self t cx.sender f ∧ x = .unit ∧ w' = w.checked cx.self t cx.sender f) ∨
      (¬ w.deposits cx.self t cx.sender f ∧ (w.reg R "Network").getD ZERO = f ∧ ∃ b m r, Asks d b m ∧ x = .int r ∧
        Converter.convert cx f cx.sender b v m ((w.checked cx.self t cx.sender f).note cx.self R 0 (.getAddress "Network")) =
          .ok (r, w'))) := by
  unfold Converter.tokenFallback
  simp only [okk, okk_bind (Converter.acceptsDeposit cx f), ok_acceptsDeposit h, gt_iff_lt]
  refine and_congr_right fun _ => ?_
  have hal := alike_checked (w := w) (T := cx.self) (t := t) (a := cx.sender) (f := f)
  have hcall : ∀ y w1, cx.call R 0 (.getAddress ScoreRegistry.NETWORK) (w.checked cx.self t cx.sender f) = .ok (y, w1) ↔
      True ∧ y = .addr (some ((w.reg R "Network").getD ZERO)) ∧
      w1 = (w.checked cx.self t cx.sender f).note cx.self R 0 (.getAddress "Network") := by
    intro y w1
    rw [h.call, ok_exec_getAddress (by rw [hal.kind]; exact hR), hal.reg, hal.coin]
    simp [h.coin, ScoreRegistry.NETWORK]
  constructor
  · rintro ⟨acc, _, ⟨h1, rfl⟩, h2⟩
    cases acc with
    | true => rw [if_pos rfl] at h2; cases h2; exact .inl ⟨h1.mp rfl, rfl, rfl⟩
    | false =>
      rw [if_neg (by simp)] at h2
      simp only [okk] at h2
      rw [hal.conv, hreg] at h2
      simp only at h2
      rw [okk_of hcall] at h2
      simp only [okk] at h2
      obtain ⟨_, h3, h4⟩ := h2
      refine .inr ⟨by simpa using h1, by simpa [Val.isAddr_addr] using h3, ?_⟩
      cases hp : Converter.parseRequest d with
      | none => rw [hp] at h4; simp only [okk] at h4; 
      | some q =>
        obtain ⟨b, m⟩ := q
        rw [hp] at h4; simp only [okk, okk_bind (Converter.convert _ _ _ _ _ _)] at h4
        obtain ⟨r, w2, h4, h5⟩ := h4
        cases h5
        exact ⟨b, m, r, parse_iff.mp hp, rfl, h4⟩
  · rintro (⟨h1, rfl, rfl⟩ | ⟨h1, h2, b, m, r, h3, rfl, h4⟩)
    · exact ⟨true, _, ⟨by simpa using h1, rfl⟩, by rw [if_pos rfl]; rfl⟩
    · refine ⟨false, _, ⟨by simpa using h1, rfl⟩, ?_⟩
      rw [if_neg (by simp)]
      simp only [okk]
      rw [hal.conv, hreg]
      simp only
      rw [okk_of hcall]
      simp only [okk]
      refine ⟨trivial, by simpa [Val.isAddr_addr] using h2, ?_⟩
      rw [parse_iff.mpr h3]
      simp only [okk, okk_bind (Converter.convert _ _ _ _ _ _)]
      exact ⟨_, _, h4, rfl⟩

/-! ### Calls -/

theorem ok_exec_convFallback (hw : Wired w T t R N) {s f : Addr} {v : Int} {d : Data} {x : Val} :
    exec orc (n + 2) s T 0 (.tokenFallback f v d) w = .ok (x, w') ↔ 0 < v ∧
    ((w.deposits T t s f ∧ x = .unit ∧ w' = (w.note s T 0 (.tokenFallback f v d)).checked T t s f) ∨
      (¬ w.deposits T t s f ∧ N = f ∧ ∃ b m r, Asks d b m ∧ x = .int r ∧
        Converter.convert { fr := mkFrame w s T 0 (.tokenFallback f v d), call := exec orc (n + 1) T } f s b v m
          (((w.note s T 0 (.tokenFallback f v d)).checked T t s f).note T R 0 (.getAddress "Network")) = .ok (r, w'))) := by
  rw [ok_exec_convView (m := fun cx => Converter.tokenFallback cx f v d) hw.conv rfl,
    ok_convFallback (cx := { fr := mkFrame w s T 0 (.tokenFallback f v d), call := exec orc (n + 1) T }) (w := w.note s T 0 (.tokenFallback f v d)) (t := t) (R := R) (n := n) (orc := orc) ⟨rfl, hw.coin, hw.token, hw.flex⟩ hw.registry hw.reg]
  simp only [hw.coin, true_and, note_reg, hw.network, Option.getD_some]
  rfl

/-- A failing call with a smaller budget cannot be reached: budgets are at least this large. -/
theorem exec_transfer_fuel (hk : (w.kind a).isToken) (hT : T.isContract = true) {s : Addr} {v : Int} {d : Option Data} {x : Val}
    (h : exec orc n s a 0 (.transfer T v d) w = .ok (x, w')) : ∃ k, n = k + 2 := by
  cases n with
  | zero => simp [ok_exec_zero] at h
  | succ n =>
    rw [ok_exec_transfer hk] at h
    obtain ⟨_, _, _, _, _, _, ⟨h1, _⟩ | ⟨_, y, w1, h1, _⟩⟩ := h
    · rw [hT] at h1; cases h1
    · cases n with
      | zero => simp [ok_exec_zero] at h1
      | succ n => exact ⟨n, rfl⟩

/-- The ledger when the converter starts a conversion: the deposit has arrived. -/
def World.arrived (w : World) (T t R a N : Addr) (v : Int) (d : Data) : World :=
  (((((w.note N a 0 (.transfer T v (some d))).pay a N T v).note a T 0 (.tokenFallback N v d)).checked T t a N).note T R 0
    (.getAddress "Network"))

theorem alike_arrived {v : Int} {d : Data} : (w.pay a N T v).Alike (w.arrived T t R a N v d) :=
  (((World.Alike.refl w).note.pay.note).trans alike_checked).note

theorem Wired.pay (hw : Wired w T t R N) {a b c v} : Wired (w.pay a b c v) T t R N :=
  ⟨hw.conv, hw.token, hw.flex, hw.registry, hw.reg, hw.network, hw.net, hw.contract, hw.coin⟩

/-- A conversion at an active converter: the network sends `v` of `a`, asking for at least `m` of `b`. -/
theorem ok_exec_hop (hw : Wired w T t R N) (hNz : N ≠ ZERO) (hact : (w.own t).owner = some T) (hka : (w.kind a).isToken)
    (hkb : (w.kind b).isToken) {v m : Int} {d : Data} (hd : Asks d b m) {x : Val} :
    exec orc (n + 3) N a 0 (.transfer T v (some d)) w = .ok (x, w') ↔ x = .unit ∧
    0 < v ∧ v ≤ (w.tok a).bal N ∧ (w.kind a = .flex → (w.flex a).transferable = true) ∧
    ∃ r fee, Converts (w.pay a N T v) T t a b v m r ∧ (b ≠ t → n ≠ 0) ∧
      (w.pay a N T v).curve T a b v v = .ok (r + fee) ∧
      w' = ((w.arrived T t R a N v d).tradedX T t a b N v r fee).addLog a (.Transfer N T v d) := by
  have hTa : w.kind a = .icx → a ≠ T := by
    rintro h1 rfl; rw [hw.conv] at h1; cases h1
  rw [ok_exec_transfer hka]
  have hnd : ¬ ((w.note N a 0 (.transfer T v (some d))).pay a N T v).deposits T t a N := by
    intro hh; exact hh.2.2 hact
  simp only [hw.contract.1, reduceCtorEq, false_and, false_or, true_and, hw.coin, Option.getD_some]
  have hal := alike_arrived (w := w) (T := T) (t := t) (R := R) (a := a) (N := N) (v := v) (d := d)
  have key : ∀ y w1, exec orc (n + 2) a T 0 (.tokenFallback N v d) ((w.note N a 0 (.transfer T v (some d))).pay a N T v) = .ok (y, w1) ↔
      0 < v ∧ ∃ r fee, y = .int r ∧ Converts (w.pay a N T v) T t a b v m r ∧ (b ≠ t → n ≠ 0) ∧
      (w.pay a N T v).curve T a b v v = .ok (r + fee) ∧ w1 = ((w.arrived T t R a N v d).tradedX T t a b N v r fee) := by
    intro y w1
    have hw0 : Wired ((w.note N a 0 (.transfer T v (some d))).pay a N T v) T t R N :=
      ((World.Alike.refl w).note.pay).wired hw.pay
    rw [ok_exec_convFallback hw0]
    refine and_congr_right fun hv => ?_
    have hw1 := hal.wired hw.pay
    have hc : ∀ r, Converts (w.arrived T t R a N v d) T t a b v m r ↔ Converts (w.pay a N T v) T t a b v m r := by
      intro r
      obtain ⟨fs, l, e⟩ := hal
      rw [e]
      exact ⟨fun h => ⟨h.1, h.2, h.3, h.4, h.5, h.6, h.7⟩, fun h => ⟨h.1, h.2, h.3, h.4, h.5, h.6, h.7⟩⟩
    have conv : ∀ r, Converter.convert { fr := mkFrame ((w.note N a 0 (.transfer T v (some d))).pay a N T v) a T 0 (.tokenFallback N v d), call := exec orc (n + 1) T } N a b v m (w.arrived T t R a N v d) = .ok (r, w1) ↔ _ :=
      fun r => ok_convert (n := n) (orc := orc) (t := t) ⟨rfl, hw1.coin, hw1.token, hw1.flex⟩ (by rw [hal.kind]; exact hka)
      (by rw [hal.kind]; exact hkb) hw1.net hw.contract.2 hNz hv
    constructor
    · rintro (⟨h1, _⟩ | ⟨_, _, b', m', r, h2, hy, h3⟩)
      · exact absurd h1 hnd
      · have : (b', m') = (b, m) := by
          have e1 := parse_iff.mpr h2; have e2 := parse_iff.mpr hd; rw [e1] at e2; injection e2
        injection this with e1 e2; subst e1; subst e2
        obtain ⟨h3', h4, fee, h5, rfl⟩ := (conv r).mp h3
        exact ⟨r, fee, hy, (hc r).mp h3', h4, by rw [hal.curve] at h5; exact h5, rfl⟩
    · rintro ⟨r, fee, hy, h3, h4, h5, rfl⟩
      refine .inr ⟨hnd, rfl, b, m, r, hd, hy, ?_⟩
      refine (conv r).mpr ⟨(hc r).mpr h3, h4, fee, by rw [hal.curve]; exact h5, rfl⟩
  constructor
  · rintro ⟨h1, _, _, h4, h5, y, w1, h6, rfl⟩
    obtain ⟨h7, r, fee, _, h8, h9, h10, rfl⟩ := (key _ _).mp h6
    exact ⟨h5, h7, h4, h1, r, fee, h8, h9, h10, rfl⟩
  · rintro ⟨h5, h7, h4, h1, r, fee, h8, h9, h10, rfl⟩
    exact ⟨h1, hTa, by omega, h4, h5, _, _, (key _ _).mpr ⟨h7, r, fee, rfl, h8, h9, h10, rfl⟩, rfl⟩

/-- A converter that cannot call anybody accepts nothing. -/
theorem fallback_stuck (hz : ∀ a v c w1 r, cx.call a v c w1 ≠ .ok r) {f : Addr} {v : Int} {d : Data} {r : Val × World} :
    Converter.tokenFallback cx f v d w ≠ .ok r := by
  intro h
  unfold Converter.tokenFallback Converter.acceptsDeposit at h
  simp only [okk] at h
  obtain ⟨_, h⟩ := h
  have hdep : ∀ acc w2, (if some f = (w.own cx.self).owner ∧ ((w.conv cx.self).connectors cx.sender).isSet = true then
      (do let a ← Controller.isActive cx; pure (!a)) else pure false : M Bool) w = .ok (acc, w2) → acc = false := by
    intro acc w2 h
    split at h
    · simp only [okk_bind (Controller.isActive cx), ok_isActive] at h
      obtain ⟨_, _, ⟨_, _, _, h, _⟩, _⟩ := h
      exact absurd h (hz _ _ _ _ _)
    · cases h; rfl
  rw [okk_bind] at h
  obtain ⟨acc, w2, h1, h2⟩ := h
  have := hdep acc w2 h1
  subst this
  rw [if_neg (by simp)] at h2
  simp only [okk] at h2
  cases hr : (w2.conv cx.self).registry with
  | none => rw [hr] at h2; simp only [okk] at h2
  | some R =>
    rw [hr] at h2
    simp only [okk_bind (cx.call _ _ _)] at h2
    obtain ⟨_, _, h3, _⟩ := h2
    exact absurd h3 (hz _ _ _ _ _)

/-- Effect of a successful conversion at an active converter. -/
theorem hop_effect (hw : Wired w T t R N) (hNz : N ≠ ZERO) (hact : (w.own t).owner = some T) (hka : (w.kind a).isToken)
    (hkb : (w.kind b).isToken) {v m : Int} {d : Data} (hd : Asks d b m) {x : Val}
    (h : exec orc n N a 0 (.transfer T v (some d)) w = .ok (x, w')) :
    0 < v ∧ v ≤ (w.tok a).bal N ∧ (w.kind a = .flex → (w.flex a).transferable = true) ∧
      ∃ r, Converts (w.pay a N T v) T t a b v m r ∧ ((w.pay a N T v).traded T t a b N v r).Alike w' := by
  obtain ⟨k, rfl⟩ := exec_transfer_fuel hka hw.contract.1 h
  cases k with
  | zero =>
    exfalso
    rw [ok_exec_transfer hka] at h
    obtain ⟨_, _, _, _, _, _, ⟨h1, _⟩ | ⟨_, y, w1, h1, _⟩⟩ := h
    · rw [hw.contract.1] at h1; cases h1
    · simp only [Option.getD_some] at h1
      have hw0 : Wired ((w.note N a 0 (.transfer T v (some d))).pay a N T v) T t R N :=
        ((World.Alike.refl w).note.pay).wired hw.pay
      rw [ok_exec_convView (m := fun cx => Converter.tokenFallback cx N v d) hw0.conv rfl] at h1
      obtain ⟨_, _, h1⟩ := h1
      exact fallback_stuck (by rintro _ _ _ _ ⟨_, _⟩; simp [ok_exec_zero]) h1
  | succ k =>
    rw [ok_exec_hop hw hNz hact hka hkb hd] at h
    obtain ⟨_, h1, h2, h0, r, fee, h3, _, _, rfl⟩ := h
    exact ⟨h1, h2, h0, r, h3, (alike_arrived.traded.trans alike_tradedX).addLog⟩

end Verif

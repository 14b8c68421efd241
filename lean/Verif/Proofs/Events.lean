import Verif.Spec.Events
import Verif.Proofs.Settle
/-!
The event log of conversions.
-/
set_option linter.unusedSimpArgs false
namespace Verif

variable {cx : Ctx} {w w' u u' : World} {orc : Oracle} {n : Nat} {T t a b N R s f z : Addr} {v m r fee : Int} {d : Data} {x : Val}

@[simp] theorem virt_log : (w.virt T a v).log = w.log := by unfold World.virt; split <;> rfl
@[simp] theorem mint_log : (w.mint T a v).log = w.log := rfl
@[simp] theorem pay_log : (w.pay T a b v).log = w.log := rfl
@[simp] theorem note_log' {c : Call} : (w.note s T v c).log = w.log := rfl
@[simp] theorem readBuy_log : (w.readBuy T t a).log = w.log := by simp [World.readBuy]
@[simp] theorem readCross_log : (w.readCross T t a b).log = w.log := by simp [World.readCross]
@[simp] theorem paidOut_log : (w.paidOut T b N r).log = (b, .Transfer T N r .conversionResult) :: w.log := rfl
@[simp] theorem checked_log : (w.checked T t a f).log = w.log := by unfold World.checked; split <;> rfl
@[simp] theorem arrived_log : (w.arrived T t R a N v d).log = w.log := by simp [World.arrived]

theorem priceEvent_alike (h : w.Alike w') : w'.priceEvent = w.priceEvent := by
  obtain ⟨_, _, rfl⟩ := h; rfl

theorem hopEvents_alike (h : w.Alike w') : w'.hopEvents = w.hopEvents := by
  obtain ⟨_, _, rfl⟩ := h; rfl

theorem addLog_log {e : Event} : (w.addLog a e).log = (a, e) :: w.log := rfl

theorem price_eq (h : u.Alike w) {u1 : World} (h1 : u.Alike u1) {T t a : Addr} :
    (T, Event.PriceDataUpdate a (w.tok t).supply (w.reserve T a) ((w.conv T).connectors a).weight) = u1.priceEvent T t a := by
  unfold World.priceEvent
  rw [h.tok, h.reserve, h.conv, h1.tok, h1.reserve, h1.conv]

theorem bought_log : (w.bought T t a N v r fee).log =
    (w.bought T t a N v r fee).priceEvent T t a :: (T, .Conversion a t N v r fee) :: (t, .Transfer t N r .noneBytes) ::
      (t, .Issuance r) :: w.log := by
  rw [← price_eq (u := (w.virt T a v).mint t N r) (w := ((((((w.readBuy T t a).virt T a v).note T t 0 (.issue N r)).mint t N r).addLog t (.Issuance r)).addLog t
    (.Transfer t N r .noneBytes)).addLog T (.Conversion a t N v r fee)) ((World.Alike.refl w).readBuy.virt.note.mint.addLog.addLog.addLog) alike_bought]
  simp only [World.bought, addLog_log, readReserve_log, note_log', mint_log, virt_log, readBuy_log]

theorem soldFor_log : (w.soldFor T t b N v r fee).log =
    (w.soldFor T t b N v r fee).priceEvent T t b :: (T, .Conversion t b N v r fee) :: (b, .Transfer T N r .conversionResult) ::
      (t, .Transfer T t v .noneBytes) :: (t, .Destruction v) :: w.log := by
  rw [← price_eq (u := (((w.virt T b (-r)).mint t T (-v)).pay b T N r)) (w := ((((((((w.readBuy T t b).note T t 0 .totalSupply).readReserve T b).virt T b (-r)).note T t 0
    (.destroy T v)).mint t T (-v)).addLog t (.Destruction v)).addLog t (.Transfer T t v .noneBytes)).paidOut T b N r |>.addLog T (.Conversion t b N v r fee))
    ((World.Alike.refl w).readBuy.note.readReserve.virt.note.mint.addLog.addLog.paidOut.addLog) alike_sold]
  simp only [World.soldFor, addLog_log, readReserve_log, note_log', mint_log, virt_log, readBuy_log, paidOut_log]

theorem crossed_log : (w.crossed T t a b N v r fee).log =
    (w.crossed T t a b N v r fee).priceEvent T t b :: (w.crossed T t a b N v r fee).priceEvent T t a ::
      (T, .Conversion a b N v r fee) :: (b, .Transfer T N r .conversionResult) :: w.log := by
  have h2 := ((World.Alike.refl w).readCross (T := T) (t := t) (a := a) (b := b)).virt (T := T) (a := a) (v := v)
    |>.virt (T := T) (a := b) (v := -r) |>.readReserve (T := T) (a := b) |>.paidOut (T := T) (b := b) (N := N) (r := r)
    |>.addLog (a := T) (e := .Conversion a b N v r fee)
  have hx := alike_crossed (w := w) (T := T) (t := t) (a := a) (b := b) (N := N) (v := v) (r := r) (fee := fee)
  simp only [World.crossed, addLog_log, readReserve_log, note_log', mint_log, virt_log, readCross_log, paidOut_log, World.priceEvent,
    addLog_tok, readReserve_tok, note_tok, addLog_conv, readReserve_conv, note_conv, addLog_reserve, readReserve_reserve, note_reserve]

/-- The events of a conversion at a converter. -/
theorem tradedX_log : ((w.tradedX T t a b N v r fee).addLog a (.Transfer N T v d)).log =
    ((w.tradedX T t a b N v r fee).hopEvents T t a b N v r fee d).reverse ++ w.log := by
  unfold World.tradedX World.hopEvents
  by_cases h1 : b = t
  · subst h1; simp only [if_true, addLog_log, bought_log]; simp
  · by_cases h2 : a = t
    · subst h2; simp only [if_true, if_neg h1, addLog_log, soldFor_log]; simp
    · simp only [if_neg h1, if_neg h2, addLog_log, crossed_log]; simp

/-- Effect of a successful conversion at an active converter, with its events. -/
theorem hop_log (hw : Wired w T t R N) (hNz : N ≠ ZERO) (hact : (w.own t).owner = some T) (hka : (w.kind a).isToken)
    (hkb : (w.kind b).isToken) (hd : Asks d b m)
    (h : exec orc n N a 0 (.transfer T v (some d)) w = .ok (x, w')) :
    0 < v ∧ v ≤ (w.tok a).bal N ∧ (w.kind a = .flex → (w.flex a).transferable = true) ∧
      ∃ r fee, Converts (w.pay a N T v) T t a b v m r ∧ ((w.pay a N T v).traded T t a b N v r).Alike w' ∧
        (w.pay a N T v).curve T a b v v = .ok (r + fee) ∧ w'.log = (w'.hopEvents T t a b N v r fee d).reverse ++ w.log := by
  obtain ⟨h1, h2, h0, r', h3, _⟩ := hop_effect hw hNz hact hka hkb hd h
  obtain ⟨k, rfl⟩ := exec_transfer_fuel hka hw.contract.1 h
  cases k with
  | zero =>
    exfalso
    rw [ok_exec_transfer hka] at h
    obtain ⟨_, _, _, _, _, _, ⟨h1, _⟩ | ⟨_, y, w1, h1, _⟩⟩ := h
    · rw [hw.contract.1] at h1; cases h1
    · simp only [Option.getD_some] at h1
      have hw0 : Wired ((w.note N a 0 (.transfer T v (some d))).pay a N T v) T t R N :=
        ((World.Alike.refl w).note.pay).wired hw.pay
      rw [ok_exec_convView (m := fun cx => Converter.tokenFallback cx N v d) hw0.conv rfl] at h1
      obtain ⟨_, _, h1⟩ := h1
      exact fallback_stuck (by rintro _ _ _ _ ⟨_, _⟩; simp [ok_exec_zero]) h1
  | succ k =>
    rw [ok_exec_hop hw hNz hact hka hkb hd] at h
    obtain ⟨_, h1, h2, h0, r, fee, h3, _, h4, rfl⟩ := h
    refine ⟨h1, h2, h0, r, fee, h3, (alike_arrived.traded.trans alike_tradedX).addLog, h4, ?_⟩
    rw [tradedX_log, arrived_log, hopEvents_alike (World.Alike.refl ((w.arrived T t R a N v d).tradedX T t a b N v r fee)).addLog]

theorem Narrated.route {rest : List Addr} {es : List (Addr × Event)} (h : Narrated N m w a rest v w' r es) :
    Route N m w a rest v w' r := by
  induction h with
  | done => exact .done
  | hop own pos bal move conv _ _ ih => exact .hop own pos bal move conv ih

/-- The loop of the network follows the route, and the log tells it. -/
theorem convertLoop_log (hcall : cx.call = exec orc n N) (hself : cx.self = N) (hN : N ≠ ZERO) :
    ∀ (rest : List Addr) {a : Addr} {v : Int} {u w w' : World} {z : Addr} {r : Int}, EvenTail rest → u.Alike w → HonestPath u N a rest →
      (∀ x, 0 ≤ u.coin x) →
      Network.convertLoop cx m a rest v w = .ok ((z, r), w') →
      z = lastOf a rest ∧ ∃ u' es, Narrated N m u a rest v u' r es ∧ u'.Alike w' ∧ w'.log = es.reverse ++ w.log
  | [], a, v, u, w, w', z, r, _, hal, hp, _, h => by
    unfold Network.convertLoop at h; cases h
    exact ⟨rfl, u, [], .done, hal, rfl⟩
  | [_], _, _, _, _, _, _, _, he, _, _, _, _ => he.elim
  | ft :: b :: rest, a, v, u, w, w', z, r, he, hal, hp, hcoin, h => by
    obtain ⟨hka, ⟨T, R, hown, hw⟩, hp'⟩ := hp
    have hkb := hp'.head
    unfold Network.convertLoop at h
    rw [hcall, hself] at h
    rw [okk_bind] at h
    obtain ⟨x1, w1, h1, h⟩ := h
    have hk : ∃ k, n = k + 1 := by
      cases n with
      | zero => simp [ok_exec_zero] at h1
      | succ k => exact ⟨k, rfl⟩
    obtain ⟨k, hk⟩ := hk
    rw [hk, ok_exec_getOwner (by rw [hal.kind, hw.flex]; simp [Kind.isOwned]), hal.own, hown] at h1
    obtain ⟨_, rfl, rfl⟩ := h1
    rw [okk_bind] at h
    obtain ⟨T', w1, h1, h⟩ := h
    cases h1
    rw [okk_bind] at h
    obtain ⟨x2, w2, h2, h⟩ := h
    rw [hk, ok_exec_balanceOf (by rw [note_kind, hal.kind]; exact hkb)] at h2
    obtain ⟨_, rfl, rfl⟩ := h2
    rw [okk_bind] at h
    obtain ⟨before, w2, h2, h⟩ := h
    cases h2
    rw [okk_bind] at h
    obtain ⟨x3, w3, h3, h⟩ := h
    have hal2 : u.Alike ((w.note N ft 0 .getOwner).note N b 0 (.balanceOf N)) := hal.note.note
    obtain ⟨hv, hb, hmv, r1, fee, hc, hal3, hfee, hlog⟩ := hop_log (hal2.wired hw) hN (by rw [hal2.own]; exact hown) (by rw [hal2.kind]; exact hka)
      (by rw [hal2.kind]; exact hkb) asks_request h3
    have hal4 : (u.hopped T ft a b N v r1).Alike w3 := hal2.pay.traded.trans hal3
    rw [okk_bind] at h
    obtain ⟨x4, w4, h4, h⟩ := h
    rw [hk, ok_exec_balanceOf (by rw [hal4.kind, hopped_kind]; exact hkb)] at h4
    obtain ⟨_, rfl, rfl⟩ := h4
    rw [okk_bind] at h
    obtain ⟨after, w4, h4, h⟩ := h
    cases h4
    have hab : a ≠ b := hc.tradable.1
    have hdiff : (w3.tok b).bal N - ((w.note N ft 0 .getOwner).tok b).bal N = r1 := by
      rw [hal4.tok, note_tok, hal.tok, hopped_bal_net _ _ _ _ _ _ hw.ne]
      rw [if_neg hab.symm, if_pos rfl]; omega
    rw [hdiff] at h
    obtain ⟨e, u', es, hr, hal5, hl5⟩ := convertLoop_log hcall hself hN rest he hal4.note hp'.hopped (by rw [hopped_coin]; exact hcoin) h
    refine ⟨e, u', _, .hop (fee := fee) hown hv (by rw [hal2.tok] at hb; exact hb) (by rw [hal2.kind, hal2.flex] at hmv; exact hmv) ?_ ?_ hr, hal5, ?_⟩
    · obtain ⟨fs, l, e⟩ := hal2
      rw [e] at hc
      exact ⟨hc.1, hc.2, hc.3, hc.4, hc.5, hc.6, hc.7⟩
    · rw [hal2.pay.curve] at hfee; exact hfee
    · rw [hl5, note_log', hlog, hopEvents_alike hal4]
      simp

/-- A conversion along an honest path: the route, then the payment, and the log of both. -/
theorem internal_log (hcall : cx.call = exec orc n N) (hself : cx.self = N) (hN : N ≠ ZERO) {rest : List Addr} {f : Addr}
    (he : EvenTail rest) (hal : u.Alike w) (hp : HonestPath u N a rest) (hcoin : ∀ x, 0 ≤ u.coin x) (hf : f.isContract = false)
    (hkf : u.kind f = .none)
    (h : Network.convertForInternal cx (a :: rest) v m f w = .ok (r, w')) :
    ∃ u' es, Narrated N m u a rest v u' r es ∧ (u'.delivered N (lastOf a rest) f r).Alike w' ∧
      w'.log = (es ++ [payoutEvent u' N (lastOf a rest) f r]).reverse ++ w.log := by
  unfold Network.convertForInternal at h
  rw [okk_bind] at h
  obtain ⟨⟨z, r'⟩, w1, h1, h⟩ := h
  obtain ⟨rfl, u', es, hr, hal', hlog⟩ := convertLoop_log hcall hself hN rest he hal hp hcoin h1
  simp only [okk] at h
  simp only [hcall, hself, okk_ite, okk_bind (exec orc n N _ _ _), okk] at h
  have hz : (w1.kind (lastOf a rest)).isToken := by rw [hal'.kind, hr.route.kind]; exact hp.last he
  have hpay : r' = r ∧ ∃ y, exec orc n N (lastOf a rest) 0 (payCall u' N (lastOf a rest) f r) w1 = .ok (y, w') := by
    rcases h with ⟨h2, y, w2, h3, h4⟩ | ⟨h2, y, w2, h3, h4⟩
    · cases h4
      refine ⟨rfl, y, ?_⟩
      unfold payCall; rw [← hal'.net, if_pos h2]; exact h3
    · cases h4
      refine ⟨rfl, y, ?_⟩
      unfold payCall; rw [← hal'.net, if_neg h2]; exact h3
  obtain ⟨rfl, y, hpay⟩ := hpay
  have hd := deliver_plain (by rw [hr.route.kind]; exact hp.last he) hf (by rw [hr.route.kind]; exact hkf) hal' hpay
  refine ⟨u', es, hr, hd.1, ?_⟩
  have hl : w'.log = payoutEvent u' N (lastOf a rest) f r' :: w1.log := by
    cases n with
    | zero => simp [ok_exec_zero] at hpay
    | succ n =>
      unfold payCall at hpay
      unfold payoutEvent
      split at hpay
      · rename_i hn
        rw [if_pos hn]
        have hi : w1.kind (lastOf a rest) = .icx := exec_icxOnly hz hpay (.inr (.inr ⟨_, _, rfl⟩))
        rw [ok_exec_withdraw hi (.inl rfl)] at hpay
        obtain ⟨_, _, _, _, y', w2, h5, rfl⟩ := hpay
        rw [addLog_log]
        congr 1
        cases n with
        | zero => simp [ok_exec_zero] at h5
        | succ n =>
          rw [ok_exec, ok_body] at h5
          obtain ⟨_, h5⟩ := h5
          have hkn : (enterW ((w1.note N (lastOf a rest) 0 (.withdrawTo r' f)).setTok (lastOf a rest) { w1.tok (lastOf a rest) with
            bal := gain (w1.tok (lastOf a rest)).bal N (-r'), supply := (w1.tok (lastOf a rest)).supply - r' }) (lastOf a rest) f r' .fallback).kind f = .none := by
            rw [enterW_kind, setTok_kind, note_kind, hal'.kind, hr.route.kind]; exact hkf
          simp only [Ctx.self, mkFrame_to, hkn, mkFrame_call, hf, and_self, if_true] at h5
          cases h5
          rfl
      · rename_i hn
        rw [if_neg hn]
        rw [ok_exec_transfer hz] at hpay
        simp only [hf, Bool.false_eq_true, false_and, or_false, true_and] at hpay
        obtain ⟨_, _, _, _, _, _, rfl⟩ := hpay
        rfl
  rw [hl, hlog]; simp

/-- Tokens sent to the network with a request for an honest path. -/
theorem sent_log (hI : Inv w) (hk : w.kind N = .net) {rest : List Addr} (hp : HonestPath w N a rest)
    (hd : Requests d s (a :: rest) m f) (hf : f.isContract = false) (h : exec orc n s a 0 (.transfer N v (some d)) w = .ok (x, w')) :
    ∃ u' r es, Narrated N m (w.pay a s N v) a rest v u' r es ∧ (u'.delivered N (lastOf a rest) f r).Alike w' ∧
      w'.log = (es ++ [payoutEvent w N (lastOf a rest) f r, (a, .Transfer s N v d)]).reverse ++ w.log := by
  have hNc := hI.contract N (by rw [hk]; nofun)
  have hNz : N ≠ ZERO := by rintro rfl; rw [hI.zero] at hk; cases hk
  have hka := hp.head
  cases n with
  | zero => simp [ok_exec_zero] at h
  | succ n =>
    rw [ok_exec_transfer hka] at h
    obtain ⟨_, _, _, _, h3, _, ⟨h1, _⟩ | ⟨_, y, w1, h1, rfl⟩⟩ := h
    · rw [hNc] at h1; cases h1
    · cases n with
      | zero => simp [ok_exec_zero] at h1
      | succ n =>
        have hne : d ≠ .conversionResult := by rintro rfl; exact noRequest_result hd
        obtain ⟨_, path, m', g, r, h4, h5, h6, h7, h8, h9⟩ := ok_exec_netFallback (by exact hk) h1 hne
        obtain ⟨rfl, rfl, rfl⟩ := requests_unique h4 hd
        have hal : (w.pay a s N v).Alike (((w.note s a 0 (.transfer N v (some d))).pay a s N v).note a N 0 (.tokenFallback s v d)) :=
          (World.Alike.refl w).note.pay.note
        have hp' : HonestPath (w.pay a s N v) N a rest := HonestPath.of (w := w) (w' := w.pay a s N v) rfl rfl (fun _ => ⟨rfl, rfl⟩) rfl hI.coin_nonneg hp
        obtain ⟨u', es, hr, hal', hl⟩ := internal_log (n := n) (orc := orc) rfl rfl hNz (LegalPath.stops h8).1 hal hp' hI.coin_nonneg hf
          (by exact kind_of_plain (w := w) hI hf) h9
        refine ⟨u', r, es, hr, hal'.addLog, ?_⟩
        rw [addLog_log, hl]
        have : payoutEvent u' N (lastOf a rest) g r = payoutEvent w N (lastOf a rest) g r := by
          unfold payoutEvent; rw [hr.route.net, pay_net]
        change (a, Event.Transfer s N v d) :: ((es ++ [payoutEvent u' N (lastOf a rest) g r]).reverse ++ w.log) = _
        rw [this]
        simp only [List.reverse_append, List.reverse_cons, List.reverse_nil, List.nil_append, List.cons_append, List.append_assoc]

/-- Coin sent to the network for an honest path. -/
theorem staked_log (hI : Inv w) (hk : w.kind N = .net) {rest : List Addr} {p : List Char} {c : Call} (hp : HonestPath w N a rest)
    (ht : PathText p (a :: rest)) (hc : c = .convertFor p m f ∨ (c = .convert p m ∧ f = s)) (hf : f.isContract = false)
    (h : exec orc n s N v c w = .ok (x, w')) :
    ∃ u' r es, x = .int r ∧ Narrated N m (w.staked a N s v) a rest v u' r es ∧ (u'.delivered N (lastOf a rest) f r).Alike w' ∧
      w'.log = ((a, Event.Issuance v) :: (a, Event.Transfer a N v .noneBytes) :: es ++ [payoutEvent w N (lastOf a rest) f r]).reverse ++ w.log := by
  have hicx := (staked_route hI hk hp ht hc h).2.2.2.2.2.2.2.1
  have hNz : N ≠ ZERO := by rintro rfl; rw [hI.zero] at hk; cases hk
  cases n with
  | zero => simp [ok_exec_zero] at h
  | succ n =>
    obtain ⟨hv, hb, path, r, y, w1, hx, h1, h2, h3, h4, h5, a', rest', he, h6, h7, h8⟩ := ok_exec_convertFor hk hc h
    have hpe : path = a :: rest := by
      have e1 := pathText_iff.mpr h1; have e2 := pathText_iff.mpr ht; rw [e1] at e2; injection e2
    rw [hpe] at he
    injection he with e1 e2
    subst e1; subst e2
    subst hpe
    cases n with
    | zero => simp [ok_exec_zero] at h7
    | succ n =>
      rw [ok_exec_deposit (by exact hicx) (.inr rfl)] at h7
      obtain ⟨_, h9, _, rfl⟩ := h7
      have hal : (w.staked a N s v).Alike ((((enterW (enterW w s N v c) N a v .fallback).setTok a { (enterW w s N v c).tok a with
          bal := gain ((enterW w s N v c).tok a).bal N v, supply := ((enterW w s N v c).tok a).supply + v }).addLog a (.Issuance v)).addLog a
          (.Transfer a N v .noneBytes)) := ⟨_, _, rfl⟩
      have hcoin : ∀ y, 0 ≤ (w.staked a N s v).coin y := by
        unfold World.staked
        rw [mint_coin]
        exact moveCoin_nonneg (moveCoin_nonneg hI.coin_nonneg hv hb) hv (by exact h9)
      have hp' : HonestPath (w.staked a N s v) N a rest := HonestPath.of (w := w) (w' := w.staked a N s v) rfl rfl (fun _ => ⟨rfl, rfl⟩) rfl hcoin hp
      obtain ⟨u', es, hr, hal', hl⟩ := internal_log (n := n + 1) (orc := orc) rfl rfl hNz (LegalPath.stops h2).1 hal hp' hcoin hf
        (by exact kind_of_plain (w := w) hI hf) h8
      refine ⟨u', r, es, hx, hr, hal', ?_⟩
      have : payoutEvent u' N (lastOf a rest) f r = payoutEvent w N (lastOf a rest) f r := by
        unfold payoutEvent; rw [hr.route.net]; rfl
      rw [hl]
      change (es ++ [payoutEvent u' N (lastOf a rest) f r]).reverse ++ (a, Event.Transfer a N v .noneBytes) :: (a, Event.Issuance v) :: w.log = _
      rw [this]
      simp only [List.reverse_append, List.reverse_cons, List.reverse_nil, List.nil_append, List.cons_append, List.append_assoc]

end Verif

import Verif.Proofs.Sent
/-!
When quotes and conversions along a path succeed.
-/
set_option linter.unusedSimpArgs false
namespace Verif

variable {cx : Ctx} {w w' u u' : World} {orc : Oracle} {n : Nat} {T t a b N R s f : Addr} {v m r : Int} {d : Data} {x : Val}

theorem expectedLoop_of_quoted (hcall : cx.call = exec orc (n + 2) N) {rest : List Addr} (hq : Quoted u a rest v r) :
    ∀ {w : World}, u.Alike w → HonestPath u N a rest → (∀ x, 0 ≤ u.coin x) → ∃ w', Network.expectedLoop cx a rest v w = .ok (r, w') := by
  induction hq with
  | done => intro w _ _ _; exact ⟨w, rfl⟩
  | @hop a ft b rest v T c r own curve tradable fee next ih =>
    intro w hal hp hcoin
    obtain ⟨hka, ⟨T', R, hown, hw⟩, hp'⟩ := hp
    rw [own] at hown; cases hown
    have hkb := hp'.head
    have hal1 : u.Alike (w.note N ft 0 .getOwner) := hal.note
    have e1 : cx.call ft 0 .getOwner w = .ok (.addr (some T), w.note N ft 0 .getOwner) := by
      rw [hcall, ok_exec_getOwner (by rw [hal.kind, hw.flex]; simp [Kind.isOwned]), hal.own, own]
      exact ⟨by rw [hal.coin]; exact hcoin N, rfl, rfl⟩
    have e2 := (ok_exec_getReturn (orc := orc) (n := n) (s := N) (cv := 0) (v := v) (x := .ret (u.afterFee T c (u.feeSteps T a b)) (c - u.afterFee T c (u.feeSteps T a b)))
      (w' := ((w.note N ft 0 .getOwner).note N T 0 (.getReturn a b v)).readQuote T ft a b) (hal1.wired hw)
      (by rw [hal1.kind]; exact hka) (by rw [hal1.kind]; exact hkb)).mpr
      ⟨rfl, by rw [hal1.own]; exact own, by rw [hal1.tradable]; exact tradable, c, by rw [hal1.curve]; exact curve,
        by rw [hal1.afterFee, hal1.feeSteps]; exact fee, by rw [hal1.afterFee, hal1.feeSteps], rfl⟩
    rw [← hcall] at e2
    obtain ⟨w', e3⟩ := ih (hal1.note.trans alike_readQuote) hp' hcoin
    refine ⟨w', ?_⟩
    unfold Network.expectedLoop
    rw [bind_of_ok e1, bind_of_ok (rfl : asAddr (.addr (some T)) _ = .ok (T, _)), bind_of_ok e2]
    rw [bind_of_ok (rfl : asAmount (.ret _ _) _ = .ok (_, _))]
    exact e3

theorem convertLoop_of_route (hcall : cx.call = exec orc (n + 4) N) (hself : cx.self = N) (hN : N ≠ ZERO) {rest : List Addr}
    (hr : Route N m u a rest v u' r) : ∀ {w : World}, u.Alike w → HonestPath u N a rest → (∀ x, 0 ≤ u.coin x) →
    ∃ w', Network.convertLoop cx m a rest v w = .ok ((lastOf a rest, r), w') ∧ u'.Alike w' := by
  induction hr with
  | done => intro w hal _ _; exact ⟨w, rfl, hal⟩
  | @hop u a ft b rest v T r1 u' r own pos bal move conv next ih =>
    intro w hal hp hcoin
    obtain ⟨hka, ⟨T', R, hown, hw⟩, hp'⟩ := hp
    rw [own] at hown; cases hown
    have hkb := hp'.head
    have hal1 : u.Alike (w.note N ft 0 .getOwner) := hal.note
    have e1 : cx.call ft 0 .getOwner w = .ok (.addr (some T), w.note N ft 0 .getOwner) := by
      rw [hcall, ok_exec_getOwner (by rw [hal.kind, hw.flex]; simp [Kind.isOwned]), hal.own, own]
      exact ⟨by rw [hal.coin]; exact hcoin N, rfl, rfl⟩
    have e2 : cx.call b 0 (.balanceOf N) (w.note N ft 0 .getOwner) = .ok (.int ((u.tok b).bal N), (w.note N ft 0 .getOwner).note N b 0 (.balanceOf N)) := by
      rw [hcall, ok_exec_balanceOf (by rw [hal1.kind]; exact hkb), hal1.tok]
      exact ⟨by rw [hal1.coin]; exact hcoin N, rfl, rfl⟩
    have hal2 : u.Alike ((w.note N ft 0 .getOwner).note N b 0 (.balanceOf N)) := hal1.note
    have hconv : Converts ((((w.note N ft 0 .getOwner).note N b 0 (.balanceOf N))).pay a N T v) T ft a b v (if rest = [] then m else 1) r1 := by
      obtain ⟨fs, l, e⟩ := hal2
      rw [e]
      exact ⟨conv.1, conv.2, conv.3, conv.4, conv.5, conv.6, conv.7⟩
    obtain ⟨c, hc1, hc2, hc3⟩ := hconv.curve
    have e3 := (ok_exec_hop (orc := orc) (n := n + 1) (d := Network.requestData b (if rest = [] then m else 1)) (x := .unit)
      (w' := (((((w.note N ft 0 .getOwner).note N b 0 (.balanceOf N)).arrived T ft R a N v (Network.requestData b (if rest = [] then m else 1))).tradedX
        T ft a b N v r1 (c - r1)).addLog a (.Transfer N T v (Network.requestData b (if rest = [] then m else 1))))) (hal2.wired hw) hN
      (by rw [hal2.own]; exact own) (by rw [hal2.kind]; exact hka) (by rw [hal2.kind]; exact hkb) asks_request).mpr
      ⟨rfl, pos, by rw [hal2.tok]; exact bal, by rw [hal2.kind, hal2.flex]; exact move, r1, c - r1, hconv, by omega,
        by rw [hc1]; congr 1; omega, rfl⟩
    rw [← hcall] at e3
    generalize hw3 : ((((w.note N ft 0 .getOwner).note N b 0 (.balanceOf N)).arrived T ft R a N v (Network.requestData b (if rest = [] then m else 1))).tradedX
        T ft a b N v r1 (c - r1)).addLog a (.Transfer N T v (Network.requestData b (if rest = [] then m else 1))) = w3 at e3
    have hal3 : (u.hopped T ft a b N v r1).Alike w3 := by
      rw [← hw3]; exact hal2.pay.traded.trans (alike_arrived.traded.trans alike_tradedX).addLog
    have hab : a ≠ b := conv.tradable.1
    have hbal : (w3.tok b).bal N - (u.tok b).bal N = r1 := by
      rw [hal3.tok, hopped_bal_net _ _ _ _ _ _ hw.ne, if_neg hab.symm, if_pos rfl]; omega
    have e4 : cx.call b 0 (.balanceOf N) w3 = .ok (.int ((w3.tok b).bal N), w3.note N b 0 (.balanceOf N)) := by
      rw [hcall, ok_exec_balanceOf (by rw [hal3.kind, hopped_kind]; exact hkb)]
      exact ⟨by rw [hal3.coin, hopped_coin]; exact hcoin N, rfl, rfl⟩
    obtain ⟨w', e5, hal5⟩ := ih hal3.note hp'.hopped (by rw [hopped_coin]; exact hcoin)
    refine ⟨w', ?_, hal5⟩
    unfold Network.convertLoop
    rw [hself, bind_of_ok e1, bind_of_ok (rfl : asAddr (.addr (some T)) _ = .ok (T, _)), bind_of_ok e2]
    rw [bind_of_ok (rfl : asInt (.int _) _ = .ok (_, _)), bind_of_ok e3, bind_of_ok e4]
    rw [bind_of_ok (rfl : asInt (.int _) _ = .ok (_, _)), hbal]
    exact e5

/-- The payment succeeds. -/
theorem deliver_ok {z : Addr} {w1 : World} (hz : (u.kind z).isToken) (hf : f.isContract = false) (hkf : u.kind f = .none)
    (hal : u.Alike w1) (hcoin : ∀ x, 0 ≤ u.coin x) (hr : 0 < r) (hb : r ≤ (u.tok z).bal N) (hd : u.deliverable N z r) :
    ∃ w', exec orc (n + 2) N z 0 (payCall u N z f r) w1 = .ok (.unit, w') := by
  unfold payCall
  unfold World.deliverable at hd
  have hc1 : ∀ x, 0 ≤ w1.coin x := by rw [hal.coin]; exact hcoin
  by_cases hnet : u.net N z = true
  · rw [if_pos hnet] at hd ⊢
    rw [← hal.kind] at hkf
    simp only [ok_exec_withdraw (a := f) (v := r) (hal.kind.symm ▸ hd.1 : w1.kind z = .icx) (.inl rfl)]
    have : exec orc (n + 1) z f r .fallback ((w1.note N z 0 (.withdrawTo r f)).setTok z { w1.tok z with
        bal := gain (w1.tok z).bal N (-r), supply := (w1.tok z).supply - r }) = .ok (.unit, enterW ((w1.note N z 0 (.withdrawTo r f)).setTok z { w1.tok z with
        bal := gain (w1.tok z).bal N (-r), supply := (w1.tok z).supply - r }) z f r .fallback) := by
      rw [ok_exec, ok_body]
      refine ⟨⟨by omega, by change r ≤ w1.coin z; rw [hal.coin]; exact hd.2⟩, ?_⟩
      have hkf' : (enterW ((w1.note N z 0 (.withdrawTo r f)).setTok z { w1.tok z with
            bal := gain (w1.tok z).bal N (-r), supply := (w1.tok z).supply - r }) z f r .fallback).kind f = .none := by
        rw [enterW_kind]; exact hkf
      simp only [Ctx.self, mkFrame_to, hkf', mkFrame_call, hf, and_self, if_true]
      rfl
    exact ⟨_, hc1 N, hr, by rw [hal.tok]; exact hb, trivial, _, _, this, rfl⟩
  · rw [if_neg hnet] at hd ⊢
    simp only [ok_exec_transfer (n := n + 1) (hal.kind.symm ▸ hz : (w1.kind z).isToken)]
    refine ⟨_, hc1 N, by rw [hal.kind, hal.flex]; exact hd, ?_, by omega, by rw [hal.tok]; exact hb, trivial, .inl ⟨hf, rfl⟩⟩
    rintro h rfl
    rw [hal.kind, hkf] at h; cases h

theorem deliverable_of_pay {z : Addr} {y : Val} {w1 : World} (hz : (u.kind z).isToken) (hal : u.Alike w1)
    (h : exec orc n N z 0 (payCall u N z f r) w1 = .ok (y, w')) : u.deliverable N z r := by
  cases n with
  | zero => simp [ok_exec_zero] at h
  | succ n =>
    unfold payCall at h
    unfold World.deliverable
    by_cases hnet : u.net N z = true
    · rw [if_pos hnet] at h ⊢
      have hk : w1.kind z = .icx := exec_icxOnly (by rw [hal.kind]; exact hz) h (.inr (.inr ⟨_, _, rfl⟩))
      rw [ok_exec_withdraw hk (.inl rfl)] at h
      obtain ⟨_, h2, h3, _, y', w2, h4, rfl⟩ := h
      rw [hal.kind] at hk
      refine ⟨hk, ?_⟩
      cases n with
      | zero => simp [ok_exec_zero] at h4
      | succ n =>
        rw [ok_exec] at h4
        rw [← hal.coin]; exact h4.1.2
    · rw [if_neg hnet] at h ⊢
      rw [ok_exec_transfer (by rw [hal.kind]; exact hz)] at h
      rw [hal.kind, hal.flex] at h
      exact h.2.1

theorem internal_of_route (hcall : cx.call = exec orc (n + 4) N) (hself : cx.self = N) (hN : N ≠ ZERO) {rest : List Addr}
    (hr : Route N m u a rest v u' r) (hal : u.Alike w) (hp : HonestPath u N a rest) (hcoin : ∀ x, 0 ≤ u.coin x) (he : EvenTail rest)
    (hne : rest ≠ []) (hf : f.isContract = false) (hkf : u.kind f = .none) (hb : r ≤ (u'.tok (lastOf a rest)).bal N)
    (hd : u'.deliverable N (lastOf a rest) r) : ∃ w', Network.convertForInternal cx (a :: rest) v m f w = .ok (r, w') := by
  obtain ⟨w1, h1, hal1⟩ := convertLoop_of_route hcall hself hN hr hal hp hcoin
  obtain ⟨w2, h2⟩ := deliver_ok (orc := orc) (n := n + 2) (f := f) (by rw [hr.kind]; exact hp.last he) hf (by rw [hr.kind]; exact hkf) hal1
    (by rw [hr.coin]; exact hcoin) (hr.min hne).2.1 hb hd
  refine ⟨w2, ?_⟩
  unfold Network.convertForInternal
  simp only
  rw [bind_of_ok h1]
  unfold payCall at h2
  rw [← hcall] at h2
  simp only [bind_of_ok (rfl : (get : M World) w1 = .ok (w1, w1)), hself, hal1.net]
  by_cases hnet : u'.net N (lastOf a rest) = true
  · rw [if_pos hnet] at h2 ⊢
    rw [bind_of_ok h2]; rfl
  · rw [if_neg hnet] at h2 ⊢
    rw [bind_of_ok h2]; rfl

/-- The network holds what it has to pay. -/
theorem Route.funded (hb : ∀ z, 0 ≤ (w.tok z).bal N) {rest : List Addr} (hr : Route N m u a rest v u' r) (hp : HonestPath u N a rest)
    (hu : ∀ z, (u.tok z).bal N = (w.tok z).bal N + (if z = a then v else 0)) : r ≤ (u'.tok (lastOf a rest)).bal N := by
  rw [hr.bal_net hp, hu, if_pos rfl]
  have := hb (lastOf a rest)
  generalize (if lastOf a rest = a then v else 0) = x
  omega

theorem pay_bal_to {z : Addr} (h : s ≠ N) : ((w.pay a s N v).tok z).bal N = (w.tok z).bal N + (if z = a then v else 0) := by
  unfold World.pay; rw [setTok_tok]; split
  · subst z; simp [moveBal, h.symm]
  · simp

theorem staked_bal_net {z : Addr} : ((w.staked a N s v).tok z).bal N = (w.tok z).bal N + (if z = a then v else 0) := by
  unfold World.staked World.mint; rw [setTok_tok]; split
  · subst z; simp [gain]
  · simp

theorem asks_of_requests_ne {p : List Addr} (h : Requests d s p m f) : d ≠ .conversionResult := by
  rintro rfl; exact noRequest_result h

/-- When tokens sent to the network are converted. -/
theorem sent_iff (hI : Inv w) (hbn : ∀ z, 0 ≤ (w.tok z).bal N) (hk : w.kind N = .net) {rest : List Addr} (hp : HonestPath w N a rest)
    (hd : Requests d s (a :: rest) m f) (hf : f.isContract = false) (hs : s ≠ N) :
    (∃ x w', exec orc (n + 6) s a 0 (.transfer N v (some d)) w = .ok (x, w')) ↔
    (w.kind a = .flex → (w.flex a).transferable = true) ∧ v ≤ (w.tok a).bal s ∧ 0 < m ∧ f ≠ ZERO ∧ LegalPath (a :: rest) ∧
    ∃ u' r, Route N m (w.pay a s N v) a rest v u' r ∧ u'.deliverable N (lastOf a rest) r := by
  have hNc := hI.contract N (by rw [hk]; nofun)
  have hNz : N ≠ ZERO := by rintro rfl; rw [hI.zero] at hk; cases hk
  have hka := hp.head
  have hp' : HonestPath (w.pay a s N v) N a rest := HonestPath.of (w := w) (w' := w.pay a s N v) rfl rfl (fun _ => ⟨rfl, rfl⟩) rfl hI.coin_nonneg hp
  constructor
  · rintro ⟨x, w', h⟩
    obtain ⟨h1, h2, h3, h4, u', r, n', w1, y, w2, hr, hal, _, h5, _, _⟩ := sent_route hI hk hp hd h
    rw [ok_exec_transfer hka] at h
    refine ⟨h.2.1, h4, h1, h2, h3, u', r, hr, deliverable_of_pay ?_ hal h5⟩
    rw [hr.kind]; exact hp'.last (LegalPath.stops h3).1
  · rintro ⟨h1, h2, h3, h4, h5, u', r, hr, hdl⟩
    have he := LegalPath.stops h5
    have hal : (w.pay a s N v).Alike (((w.note s a 0 (.transfer N v (some d))).pay a s N v).note a N 0 (.tokenFallback s v d)) :=
      (World.Alike.refl w).note.pay.note
    have hb := hr.funded (w := w) hbn hp' (fun z => pay_bal_to hs)
    obtain ⟨w2, h6⟩ := internal_of_route (orc := orc) (n := n) (f := f)
      (cx := { fr := mkFrame ((w.note s a 0 (.transfer N v (some d))).pay a s N v) a N 0 (.tokenFallback s v d), call := exec orc (n + 4) N }) rfl rfl hNz hr hal hp' hI.coin_nonneg he.1 he.2.1 hf
      (kind_of_plain (w := w) hI hf) hb hdl
    have h7 : exec orc (n + 5) a N 0 (.tokenFallback s v d) ((w.note s a 0 (.transfer N v (some d))).pay a s N v) = .ok (.unit, w2) := by
      rw [ok_exec_net (by exact hk)]
      have e : Network.dispatch { fr := mkFrame ((w.note s a 0 (.transfer N v (some d))).pay a s N v) a N 0 (.tokenFallback s v d), call := exec orc (n + 4) N } =
        runNonPayable { fr := mkFrame ((w.note s a 0 (.transfer N v (some d))).pay a s N v) a N 0 (.tokenFallback s v d), call := exec orc (n + 4) N }
          (some do Network.tokenFallback { fr := mkFrame ((w.note s a 0 (.transfer N v (some d))).pay a s N v) a N 0 (.tokenFallback s v d), call := exec orc (n + 4) N } s v d; return .unit) := rfl
      refine ⟨⟨Int.le_refl 0, hI.coin_nonneg a⟩, ?_⟩
      rw [e, ok_runNonPayable, ok_unit]
      refine ⟨rfl, ?_, rfl⟩
      rw [enterW_zero]
      unfold Network.tokenFallback
      rw [if_neg (asks_of_requests_ne hd), requests_iff.mpr hd]
      simp only [Network.requireValidPath, okk, okk_bind (Network.convertForInternal _ _ _ _ _)]
      exact ⟨rfl, h3, valid_iff.mpr h4, validPath_iff.mpr h5, r, w2, h6, rfl⟩
    refine ⟨.unit, _, (ok_exec_transfer hka).mpr ⟨hI.coin_nonneg s, h1, ?_, ?_, h2, rfl, .inr ⟨hNc, _, _, h7, rfl⟩⟩⟩
    · rintro h rfl; rw [hk] at h; cases h
    · have := (hr.min he.2.1).2.2; omega

/-- When coin sent to the network is converted. -/
theorem staked_iff (hI : Inv w) (hbn : ∀ z, 0 ≤ (w.tok z).bal N) (hk : w.kind N = .net) {rest : List Addr} {p : List Char} {c : Call} (hp : HonestPath w N a rest)
    (ht : PathText p (a :: rest)) (hc : c = .convertFor p m f ∨ (c = .convert p m ∧ f = s)) (hf : f.isContract = false) (hs : s ≠ N) :
    (∃ x w', exec orc (n + 5) s N v c w = .ok (x, w')) ↔
    0 < m ∧ f ≠ ZERO ∧ LegalPath (a :: rest) ∧ w.net N a = true ∧ w.kind a = .icx ∧ v ≤ w.coin s ∧
    ∃ u' r, Route N m (w.staked a N s v) a rest v u' r ∧ u'.deliverable N (lastOf a rest) r := by
  have hNc := hI.contract N (by rw [hk]; nofun)
  have hNz : N ≠ ZERO := by rintro rfl; rw [hI.zero] at hk; cases hk
  constructor
  · rintro ⟨x, w', h⟩
    obtain ⟨h1, h2, h3, h4, h5, h6, h7, h8, u', r, n', w1, y, _, hr, hal, _, h9⟩ := staked_route hI hk hp ht hc h
    refine ⟨h1, h2, h4, h5, h8, h7, u', r, hr, deliverable_of_pay ?_ hal h9⟩
    rw [hr.kind]; exact HonestPath.last (w := w) (LegalPath.stops h4).1 hp
  · rintro ⟨h1, h2, h3, h4, h5, h6, u', r, hr, hdl⟩
    have he := LegalPath.stops h3
    have hv : 0 < v := (hr.min he.2.1).2.2
    have hNv : v ≤ (enterW w s N v c).coin N := by
      rw [enterW_coin, moveCoin_coin, if_neg hs.symm, if_pos rfl]
      have := hI.coin_nonneg N; omega
    have hcoin : ∀ y, 0 ≤ (w.staked a N s v).coin y := by
      unfold World.staked
      rw [mint_coin]
      exact moveCoin_nonneg (moveCoin_nonneg hI.coin_nonneg (by omega) h6) (by omega) hNv
    have hp' : HonestPath (w.staked a N s v) N a rest := HonestPath.of (w := w) (w' := w.staked a N s v) rfl rfl (fun _ => ⟨rfl, rfl⟩) rfl hcoin hp
    have hal : (w.staked a N s v).Alike ((((enterW (enterW w s N v c) N a v .fallback).setTok a { (enterW w s N v c).tok a with
          bal := gain ((enterW w s N v c).tok a).bal N v, supply := ((enterW w s N v c).tok a).supply + v }).addLog a (.Issuance v)).addLog a
          (.Transfer a N v .noneBytes)) := ⟨_, _, rfl⟩
    have hb := hr.funded (w := w) hbn hp' (fun z => staked_bal_net)
    obtain ⟨w2, h7⟩ := internal_of_route (orc := orc) (n := n) (f := f) (cx := { fr := mkFrame w s N v c, call := exec orc (n + 4) N })
      rfl rfl hNz hr hal hp' hcoin he.1 he.2.1 hf (kind_of_plain (w := w) hI hf) hb hdl
    have h8 := (ok_exec_deposit (orc := orc) (n := n + 3) (s := N) (T := a) (v := v) (w := enterW w s N v c) (x := .unit) (by exact h5) (.inr rfl)).mpr ⟨by omega, hNv, rfl, rfl⟩
    refine ⟨.int r, w2, ?_⟩
    rw [ok_exec_net hk]
    refine ⟨⟨by omega, h6⟩, ?_⟩
    have key : Network.convertFor { fr := mkFrame w s N v c, call := exec orc (n + 4) N } p m f (enterW w s N v c) = .ok (r, w2) := by
      unfold Network.convertFor
      rw [bind_of_ok ((readPath_ok (q := (a :: rest, enterW w s N v c))).mpr ⟨ht, rfl⟩)]
      simp only [Network.requireValidPath, okk]
      refine ⟨validPath_iff.mpr h3, h1, valid_iff.mpr h2, ?_, h4, ?_⟩
      · rintro e; have e : N = f := e; rw [← e, hNc] at hf; cases hf
      · rw [okk_bind]; exact ⟨_, _, h8, h7⟩
    rcases hc with rfl | ⟨rfl, rfl⟩
    · exact ok_view.mpr ⟨r, key, rfl⟩
    · exact ok_view.mpr ⟨r, key, rfl⟩

/-- When a path is quoted. -/
theorem quote_iff {p : List Char} {x : Val} {rest : List Addr} (hI : Inv w) (hk : w.kind N = .net)
    (hp : PathText p (a :: rest)) (hh : HonestPath w N a rest) :
    (∃ w', exec orc (n + 3) s N 0 (.getExpectedReturnByPath p v) w = .ok (x, w')) ↔
    LegalPath (a :: rest) ∧ 0 < v ∧ ∃ r, x = .int r ∧ Quoted w a rest v r := by
  constructor
  · rintro ⟨w', h⟩
    obtain ⟨_, h1, h2, a', rest', e, h3⟩ := quote_path hk h hp
    injection e with e1 e2; subst e1; subst e2
    obtain ⟨r, h4, h5, _⟩ := h3 hh
    exact ⟨h2, h1, r, h4, h5⟩
  · rintro ⟨h1, h2, r, rfl, hq⟩
    have he := LegalPath.stops h1
    obtain ⟨w', h3⟩ := expectedLoop_of_quoted (orc := orc) (n := n) (w := w.note s N 0 (.getExpectedReturnByPath p v))
      (cx := { fr := mkFrame w s N 0 (.getExpectedReturnByPath p v), call := exec orc (n + 2) N }) rfl hq
      (World.Alike.refl w).note hh hI.coin_nonneg
    refine ⟨w', ?_⟩
    rw [ok_exec_net hk]
    have e : Network.dispatch { fr := mkFrame w s N 0 (.getExpectedReturnByPath p v), call := exec orc (n + 2) N } =
        runNonPayable { fr := mkFrame w s N 0 (.getExpectedReturnByPath p v), call := exec orc (n + 2) N }
          (some do return .int (← Network.getExpectedReturnByPath { fr := mkFrame w s N 0 (.getExpectedReturnByPath p v), call := exec orc (n + 2) N } p v)) := rfl
    refine ⟨⟨Int.le_refl 0, hI.coin_nonneg s⟩, ?_⟩
    rw [e, ok_runNonPayable, ok_view]
    refine ⟨rfl, r, ?_, rfl⟩
    rw [enterW_zero]
    unfold Network.getExpectedReturnByPath
    rw [bind_of_ok ((readPath_ok (q := (a :: rest, _))).mpr ⟨hp, rfl⟩)]
    simp only [Network.requireValidPath, okk]
    exact ⟨validPath_iff.mpr h1, h2, h3⟩

end Verif

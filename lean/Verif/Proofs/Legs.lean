import Verif.Spec.Legs
import Verif.Proofs.Settle
import Verif.Proofs.LedgerTx
/-!
A conversion along a path in two legs.
-/
set_option autoImplicit false
set_option linter.unusedSimpArgs false
namespace Verif

variable {w w' u u' u1 : World} {orc : Oracle} {n : Nat} {T t a b N R s f z : Addr} {v m r : Int} {x : Val} {p q rest : List Addr}

theorem Route.cast (h : Route N m u a rest v u' r) : ∀ {u1 : World}, u.Alike u1 → ∃ u1', Route N m u1 a rest v u1' r ∧ u'.Alike u1' := by
  induction h with
  | done => intro u1 hal; exact ⟨u1, .done, hal⟩
  | @hop u a ft b rest v T r1 u' r own pos bal move conv next ih =>
    intro u1 hal
    obtain ⟨u1', h1, h2⟩ := ih (hal.pay.traded : (u.hopped T ft a b N v r1).Alike (u1.hopped T ft a b N v r1))
    refine ⟨u1', .hop (T := T) (by rw [hal.own]; exact own) pos (by rw [hal.tok]; exact bal) (by rw [hal.kind, hal.flex]; exact move) ?_ h1, h2⟩
    obtain ⟨fs, l, e⟩ := hal
    rw [e]
    exact ⟨conv.1, conv.2, conv.3, conv.4, conv.5, conv.6, conv.7⟩

theorem Route.unique (h : Route N m u a rest v u' r) : ∀ {m' : Int} {u1 : World} {r1 : Int}, Route N m' u a rest v u1 r1 → u1 = u' ∧ r1 = r := by
  induction h with
  | done => intro m' u1 r1 h; cases h; exact ⟨rfl, rfl⟩
  | @hop u a ft b rest v T r2 u' r own pos bal move conv next ih =>
    intro m' u1 r1 h
    cases h with
    | @hop _ _ _ _ _ _ T' r3 _ _ own' _ _ _ conv' next' =>
      rw [own] at own'; cases own'
      obtain ⟨c, hc, e1, _⟩ := conv.curve
      obtain ⟨c', hc', e2, _⟩ := conv'.curve
      rw [hc] at hc'; injection hc' with hc'; subst hc'
      rw [← e1] at e2; subst e2
      exact ih next'

/-- Another minimal return. -/
theorem Route.ask (h : Route N m u a rest v u' r) {m' : Int} (h0 : 0 < m') (h1 : m' ≤ r) : Route N m' u a rest v u' r := by
  induction h with
  | done => exact .done
  | @hop u a ft b rest v T r2 u' r own pos bal move conv next ih =>
    refine .hop own pos bal move ?_ (ih h1)
    by_cases hr : rest = []
    · subst hr
      cases next
      rw [if_pos rfl] at conv ⊢
      exact { conv with min := h0, enough := h1 }
    · rw [if_neg hr] at conv ⊢; exact conv

/-- A route over the joined path is a route over the first part and then one over the second. -/
theorem Route.append_iff (hq : q ≠ []) : ∀ {p : List Addr} {a : Addr} {v : Int} {u : World}, EvenTail p →
    (Route N m u a (p ++ q) v u' r ↔ ∃ u1 r1, Route N 1 u a p v u1 r1 ∧ Route N m u1 (lastOf a p) q r1 u' r)
  | [], a, v, u, _ => ⟨fun h => ⟨u, v, .done, h⟩, by rintro ⟨u1, r1, h1, h2⟩; cases h1; exact h2⟩
  | [_], _, _, _, he => he.elim
  | ft :: b :: p, a, v, u, he => by
    have he : EvenTail p := he
    constructor
    · intro h
      cases h with
      | @hop _ _ _ _ _ _ T r2 _ _ own pos bal move conv next =>
        obtain ⟨u1, r1, h1, h2⟩ := (Route.append_iff hq (p := p) he).mp next
        have hne : ¬ p.append q = [] := by change ¬ p ++ q = []; simp [hq]
        rw [if_neg hne] at conv
        exact ⟨u1, r1, .hop own pos bal move (by split <;> exact conv) h1, h2⟩
    · rintro ⟨u1, r1, h1, h2⟩
      cases h1 with
      | @hop _ _ _ _ _ _ T r2 _ _ own pos bal move conv next =>
        have h3 := (Route.append_iff hq (p := p) he).mpr ⟨u1, r1, next, h2⟩
        have hne : ¬ p.append q = [] := by change ¬ p ++ q = []; simp [hq]
        refine .hop own pos bal move ?_ h3
        change Converts _ _ _ _ _ _ (if p.append q = [] then m else 1) _
        rw [if_neg hne]
        have e : (if p = [] then (1 : Int) else 1) = 1 := by split <;> rfl
        rw [e] at conv; exact conv

theorem lastOf_append : ∀ {p : List Addr} {a : Addr}, lastOf a (p ++ q) = lastOf (lastOf a p) q
  | [], _ => rfl
  | _ :: p, _ => lastOf_append (p := p)

theorem EvenTail.append : ∀ {p : List Addr}, EvenTail p → (EvenTail (p ++ q) ↔ EvenTail q)
  | [], _ => Iff.rfl
  | [_], h => h.elim
  | _ :: _ :: p, h => EvenTail.append (p := p) h

theorem HonestPath.append_iff : ∀ {p : List Addr} {a : Addr}, EvenTail p →
    (HonestPath w N a (p ++ q) ↔ HonestPath w N a p ∧ HonestPath w N (lastOf a p) q)
  | [], a, _ => ⟨fun h => ⟨h.head, h⟩, fun h => h.2⟩
  | [_], _, h => h.elim
  | ft :: b :: p, a, h => by
    have h : EvenTail p := h
    have ih := HonestPath.append_iff (p := p) (a := b) h
    exact ⟨fun ⟨h1, h2, h3⟩ => ⟨⟨h1, h2, (ih.mp h3).1⟩, (ih.mp h3).2⟩, fun ⟨⟨h1, h2, h3⟩, h4⟩ => ⟨h1, h2, ih.mpr ⟨h3, h4⟩⟩⟩

theorem stops_append : ∀ {p : List Addr}, EvenTail p → stops (p ++ q) = stops p ++ stops q
  | [], _ => rfl
  | [_], h => h.elim
  | _ :: _ :: p, h => by
    have h : EvenTail p := h
    simp only [List.cons_append, stops, stops_append h]

theorem legal_iff_stops : LegalPath (a :: rest) ↔ EvenTail rest ∧ rest ≠ [] ∧ rest.length ≤ 20 ∧ (stops rest).Nodup := by
  constructor
  · intro h
    have := h.2.2.1
    rw [List.length_cons] at this
    exact ⟨h.stops.1, h.stops.2.1, by omega, h.stops.2.2⟩
  · rintro ⟨h1, h2, h3, h4⟩
    rw [← validPath_iff]
    unfold Network.validPath
    simp only [Bool.and_eq_true, decide_eq_true_eq]
    rw [← Network.oddPositions_length, Network.setSize_eq_iff, oddPositions_cons _ a h1]
    rw [evenTail_iff] at h1
    have : rest.length ≠ 0 := by simpa using h2
    refine ⟨⟨⟨?_, ?_⟩, ?_⟩, h4⟩ <;> simp only [List.length_cons, Network.MAX_CONVERSION_COUNT] <;> omega

theorem LegalPath.legs (h : LegalPath (a :: (p ++ q))) (hp : EvenTail p) (hp0 : p ≠ []) (hq0 : q ≠ []) : LegalPath (a :: p) ∧ LegalPath (lastOf a p :: q) := by
  rw [legal_iff_stops] at h
  rw [legal_iff_stops, legal_iff_stops]
  obtain ⟨h1, _, h3, h4⟩ := h
  rw [hp.append] at h1
  rw [stops_append hp, List.nodup_append] at h4
  rw [List.length_append] at h3
  exact ⟨⟨hp, hp0, by omega, h4.1⟩, h1, hq0, by omega, h4.2.1⟩

/-- Paid to somebody and sent back. -/
theorem pay_back : (u.pay b N s r).pay b s N r = u := by
  unfold World.pay
  have e : ({ (u.setTok b { u.tok b with bal := moveBal (u.tok b).bal N s r }).tok b with
      bal := moveBal ((u.setTok b { u.tok b with bal := moveBal (u.tok b).bal N s r }).tok b).bal s N r } : TokSt) = u.tok b := by
    rw [setTok_tok, if_pos rfl]
    have : moveBal (moveBal (u.tok b).bal N s r) s N r = (u.tok b).bal := by
      funext y; unfold moveBal; split <;> split <;> omega
    rw [this]
  rw [e]
  unfold World.setTok
  have : upd (upd u.tok b { u.tok b with bal := moveBal (u.tok b).bal N s r }) b (u.tok b) = u.tok := by
    funext y; unfold upd; split
    · subst y; rfl
    · rfl
  simp only [this]

/-- Paid out in coin and deposited again. -/
theorem stake_back : (((u.mint b N (-r)).moveCoin b s r).staked b N s r) = u := by
  have e1 : ∀ (w : World), (((w.moveCoin b s r).moveCoin s N r).moveCoin N b r) = w := by
    intro w
    have : (((w.moveCoin b s r).moveCoin s N r).moveCoin N b r).coin = w.coin := by
      funext y
      rw [moveCoin_coin, moveCoin_coin, moveCoin_coin]
      split <;> split <;> omega
    unfold World.moveCoin at this ⊢
    simp only at this ⊢
    rw [this]
  unfold World.staked
  rw [e1]
  unfold World.mint
  have e2 : ({ (u.setTok b { u.tok b with bal := gain (u.tok b).bal N (-r), supply := (u.tok b).supply + -r }).tok b with
      bal := gain ((u.setTok b { u.tok b with bal := gain (u.tok b).bal N (-r), supply := (u.tok b).supply + -r }).tok b).bal N r,
      supply := ((u.setTok b { u.tok b with bal := gain (u.tok b).bal N (-r), supply := (u.tok b).supply + -r }).tok b).supply + r } : TokSt) = u.tok b := by
    rw [setTok_tok, if_pos rfl]
    have h1 : gain (gain (u.tok b).bal N (-r)) N r = (u.tok b).bal := by funext y; unfold gain; split <;> omega
    have h2 : (u.tok b).supply + -r + r = (u.tok b).supply := by omega
    simp only [h1, h2]
  rw [e2]
  unfold World.setTok
  have : upd (upd u.tok b { u.tok b with bal := gain (u.tok b).bal N (-r), supply := (u.tok b).supply + -r }) b (u.tok b) = u.tok := by
    funext y; unfold upd; split
    · subst y; rfl
    · rfl
  simp only [this]

/-- The ledger with the price at the network. -/
def World.begun (w : World) (coins : Bool) (a N s : Addr) (v : Int) : World := if coins = true then w.staked a N s v else w.pay a s N v

/-- The trader has the price, and it can be paid. -/
def World.affords (w : World) (coins : Bool) (a N s : Addr) (v : Int) : Prop :=
  if coins = true then w.net N a = true ∧ w.kind a = .icx ∧ v ≤ w.coin s
  else (w.kind a = .flex → (w.flex a).transferable = true) ∧ v ≤ (w.tok a).bal s

theorem World.Alike.begun (h : w.Alike w') {coins : Bool} : (w.begun coins a N s v).Alike (w'.begun coins a N s v) := by
  obtain ⟨fs, l, rfl⟩ := h
  unfold World.begun; split
  · exact ⟨_, _, rfl⟩
  · exact ⟨_, _, rfl⟩

theorem run_plain (hs : s.isContract = false) {cv : Int} {c : Call} : (Tx.call s t cv c).run orc n w = exec orc n s t cv c w := by
  unfold Tx.run
  simp only [require, hs, if_true]
  rfl

/-- When an order is carried out. -/
theorem order_iff (hI : Inv w) (hbn : ∀ z, 0 ≤ (w.tok z).bal N) (hk : w.kind N = .net) (hp : HonestPath w N a rest) {coins : Bool} {tx : Tx}
    (ho : Order N s v m f coins (a :: rest) tx) (hf : f.isContract = false) (hs : s ≠ N) (hsc : s.isContract = false) :
    (∃ x w', tx.run orc (n + 6) w = .ok (x, w')) ↔ w.affords coins a N s v ∧ 0 < m ∧ f ≠ ZERO ∧ LegalPath (a :: rest) ∧
      ∃ u' r, Route N m (w.begun coins a N s v) a rest v u' r ∧ u'.deliverable N (lastOf a rest) r := by
  have run : ∀ {t : Addr} {cv : Int} {c : Call}, (Tx.call s t cv c).run orc (n + 6) w = exec orc (n + 6) s t cv c w := run_plain hsc
  cases ho with
  | tokens hd =>
    rw [run, sent_iff hI hbn hk hp hd hf hs]
    exact and_assoc.symm
  | coins ht =>
    rw [run, staked_iff (n := n + 1) hI hbn hk hp ht (.inl rfl) hf hs]
    constructor
    · rintro ⟨h1, h2, h3, h4, h5, h6, h7⟩; exact ⟨⟨h4, h5, h6⟩, h1, h2, h3, h7⟩
    · rintro ⟨⟨h4, h5, h6⟩, h1, h2, h3, h7⟩; exact ⟨h1, h2, h3, h4, h5, h6, h7⟩
  | ownCoins ht hfs =>
    rw [run, staked_iff (n := n + 1) hI hbn hk hp ht (.inr ⟨rfl, hfs⟩) hf hs]
    constructor
    · rintro ⟨h1, h2, h3, h4, h5, h6, h7⟩; exact ⟨⟨h4, h5, h6⟩, h1, h2, h3, h7⟩
    · rintro ⟨⟨h4, h5, h6⟩, h1, h2, h3, h7⟩; exact ⟨h1, h2, h3, h4, h5, h6, h7⟩

/-- What a carried out order leaves behind. -/
theorem order_exact (hI : Inv w) (hk : w.kind N = .net) (hp : HonestPath w N a rest) {coins : Bool} {tx : Tx}
    (ho : Order N s v m f coins (a :: rest) tx) (hf : f.isContract = false) (hs : s ≠ N) (hsc : s.isContract = false)
    (h : tx.run orc n w = .ok (x, w')) :
    ∃ u' r, Route N m (w.begun coins a N s v) a rest v u' r ∧ HonestPath (w.begun coins a N s v) N a rest ∧ (∀ y, 0 ≤ (w.begun coins a N s v).coin y) ∧
      (u'.delivered N (lastOf a rest) f r).Alike w' ∧ Settled w w' N s a (lastOf a rest) f v r coins ∧
      (w.net N (lastOf a rest) = true → w.kind (lastOf a rest) = .icx) ∧ w.affords coins a N s v ∧ LegalPath (a :: rest) ∧ 0 < m ∧ f ≠ ZERO ∧
      u'.deliverable N (lastOf a rest) r := by
  have run : ∀ {t : Addr} {cv : Int} {c : Call}, (Tx.call s t cv c).run orc n w = exec orc n s t cv c w := run_plain hsc
  have hNc := hI.contract N (by rw [hk]; nofun)
  have hfN : f ≠ N := by rintro rfl; rw [hf] at hNc; cases hNc
  have coin : ∀ {p : List Char} {c : Call}, PathText p (a :: rest) → (c = .convertFor p m f ∨ (c = .convert p m ∧ f = s)) →
      exec orc n s N v c w = .ok (x, w') → ∃ u' r, Route N m (w.begun true a N s v) a rest v u' r ∧ HonestPath (w.begun true a N s v) N a rest ∧
      (∀ y, 0 ≤ (w.begun true a N s v).coin y) ∧
      (u'.delivered N (lastOf a rest) f r).Alike w' ∧ Settled w w' N s a (lastOf a rest) f v r true ∧
      (w.net N (lastOf a rest) = true → w.kind (lastOf a rest) = .icx) ∧ w.affords true a N s v ∧ LegalPath (a :: rest) ∧ 0 < m ∧ f ≠ ZERO ∧
      u'.deliverable N (lastOf a rest) r := by
    intro p c ht hc h
    obtain ⟨h1, h2, h3, h4, h5, h6, h7, h8, u', r, n', w1, y, hx, hr, hal, _, h9⟩ := staked_route hI hk hp ht hc h
    have he := LegalPath.stops h4
    have hv : 0 < v := (hr.min he.2.1).2.2
    have hcoin : ∀ y, 0 ≤ (w.staked a N s v).coin y := by
      unfold World.staked
      rw [mint_coin]
      refine moveCoin_nonneg (moveCoin_nonneg hI.coin_nonneg (by omega) h7) (by omega) ?_
      rw [moveCoin_coin, if_neg hs.symm, if_pos rfl]
      have := hI.coin_nonneg N; omega
    have hp' : HonestPath (w.staked a N s v) N a rest := HonestPath.of (w := w) (w' := w.staked a N s v) rfl rfl (fun _ => ⟨rfl, rfl⟩) rfl hcoin hp
    have := deliver_plain (by rw [hr.kind]; exact hp'.last he.1) hf (by rw [hr.kind]; exact kind_of_plain (w := w) hI hf) hal h9
    exact ⟨u', r, hr, hp', hcoin, this.1, settled_coin hr hp hp' h3 this.1, by have := this.2.2; rw [hr.net, hr.kind] at this; exact this, ⟨h5, h8, h7⟩, h4, h1, h2,
      deliverable_of_pay (by rw [hr.kind]; exact hp'.last he.1) hal h9⟩
  cases ho with
  | tokens hd =>
    rw [run] at h
    have hmv : w.kind a = .flex → (w.flex a).transferable = true := by
      cases n with
      | zero => simp [ok_exec_zero] at h
      | succ n => rw [ok_exec_transfer hp.head] at h; exact h.2.1
    obtain ⟨h1, h2, h3, h4, u', r, n', w1, y, w2, hr, hal, _, h5, hal2, _⟩ := sent_route hI hk hp hd h
    have hp' : HonestPath (w.pay a s N v) N a rest := HonestPath.of (w := w) (w' := w.pay a s N v) rfl rfl (fun _ => ⟨rfl, rfl⟩) rfl hI.coin_nonneg hp
    have he := LegalPath.stops h3
    have := deliver_plain (by rw [hr.kind]; exact hp'.last he.1) hf (by rw [hr.kind]; exact kind_of_plain (w := w) hI hf) hal h5
    exact ⟨u', r, hr, hp', hI.coin_nonneg, this.1.trans hal2, settled_tokens hr hp hp' hs hfN (this.1.trans hal2),
      by have := this.2.2; rw [hr.net, hr.kind] at this; exact this, ⟨hmv, h4⟩, h3, h1, h2,
      deliverable_of_pay (by rw [hr.kind]; exact hp'.last he.1) hal h5⟩
  | coins ht => rw [run] at h; exact coin ht (.inl rfl) h
  | ownCoins ht hfs => rw [run] at h; exact coin ht (.inr ⟨rfl, hfs⟩) h

/-- The last converter has what is paid out. -/
theorem Route.held (h : Route N m u a rest v u' r) : rest ≠ [] → HonestPath u N a rest → (stops rest).Nodup → u.kind (lastOf a rest) ≠ .flex →
    ∃ T ft, ft ∈ stops rest ∧ (u.own ft).owner = some T ∧ r ≤ (u.tok (lastOf a rest)).bal T := by
  induction h with
  | done => intro h; exact absurd rfl h
  | @hop u a ft b rest v T r1 u' r own pos bal move conv next ih =>
    intro _ hp hnd hk
    obtain ⟨hka, ⟨T', R, h2, hw⟩, hp'⟩ := hp
    rw [own] at h2; cases h2
    by_cases hr : rest = []
    · subst hr
      cases next
      have e : lastOf a [ft, b] = b := rfl
      rw [e] at hk ⊢
      have hbt : b ≠ ft := by rintro rfl; exact hk hw.flex
      have h1 := conv.payable
      unfold World.payable at h1
      rw [if_neg hbt, pay_bal] at h1
      have hab : b ≠ a := conv.tradable.1.symm
      simp only [hab, and_false, if_false] at h1
      exact ⟨T, ft, List.mem_cons_self, own, by omega⟩
    · have hnd' := List.nodup_cons.mp hnd
      obtain ⟨T2, ft2, h1, h2, h3⟩ := ih hr hp'.hopped hnd'.2 (by rw [hopped_kind]; exact hk)
      rw [hopped_own] at h2
      obtain ⟨T3, R3, h4, h5⟩ := hp'.stop ft2 h1
      rw [h2] at h4; cases h4
      have hT : T2 ≠ T := by
        rintro rfl
        have h6 := h5.token; rw [hw.token] at h6; cases h6; exact hnd'.1 h1
      rw [hopped_bal _ _ _ _ _ _ h5.ne.symm hT] at h3
      exact ⟨T2, ft2, List.mem_cons_of_mem _ h1, h2, h3⟩

theorem begun_kind {coins : Bool} : (w.begun coins a N s v).kind = w.kind := by unfold World.begun; split <;> rfl
theorem begun_own {coins : Bool} : (w.begun coins a N s v).own = w.own := by unfold World.begun; split <;> rfl
theorem begun_net {coins : Bool} : (w.begun coins a N s v).net = w.net := by unfold World.begun; split <;> rfl
theorem begun_flex {coins : Bool} : (w.begun coins a N s v).flex = w.flex := by unfold World.begun; split <;> rfl
theorem begun_conv {coins : Bool} : (w.begun coins a N s v).conv = w.conv := by unfold World.begun; split <;> rfl
theorem begun_reg {coins : Bool} : (w.begun coins a N s v).reg = w.reg := by unfold World.begun; split <;> rfl
theorem begun_bal {coins : Bool} {y : Addr} (h1 : y ≠ s) (h2 : y ≠ N) : ((w.begun coins a N s v).tok z).bal y = (w.tok z).bal y := by
  unfold World.begun; split
  · unfold World.staked; rw [mint_bal]; simp [h2, World.moveCoin]
  · rw [pay_bal]; simp [h1, h2]
theorem begun_coin {coins : Bool} {y : Addr} (h1 : y ≠ s) (hv : 0 ≤ v) : w.coin y ≤ (w.begun coins a N s v).coin y := by
  unfold World.begun; split
  · unfold World.staked; rw [mint_coin, moveCoin_coin, moveCoin_coin, if_neg h1]; split <;> split <;> omega
  · exact le_refl _

theorem begun_delivered : (u.delivered N b s r).begun (u.net N b) b N s r = u := by
  unfold World.delivered World.begun
  cases hn : u.net N b
  · rw [if_neg (by simp), if_neg (by simp)]; exact pay_back
  · rw [if_pos rfl, if_pos rfl]; exact stake_back

theorem delivered_kind : (u.delivered N z f r).kind = u.kind := by unfold World.delivered; split <;> rfl
theorem delivered_own : (u.delivered N z f r).own = u.own := by unfold World.delivered; split <;> rfl
theorem delivered_net : (u.delivered N z f r).net = u.net := by unfold World.delivered; split <;> rfl
theorem delivered_flex : (u.delivered N z f r).flex = u.flex := by unfold World.delivered; split <;> rfl
theorem delivered_conv : (u.delivered N z f r).conv = u.conv := by unfold World.delivered; split <;> rfl
theorem delivered_reg : (u.delivered N z f r).reg = u.reg := by unfold World.delivered; split <;> rfl

theorem World.Alike.delivered (h : u.Alike w) : (u.delivered N z f r).Alike (w.delivered N z f r) := by
  unfold World.delivered
  rw [h.net]
  split
  · exact h.mint.moveCoin
  · exact h.pay

theorem World.Alike.symm (h : w.Alike w') : w'.Alike w := by
  obtain ⟨fs, l, rfl⟩ := h; exact ⟨_, _, rfl⟩

theorem World.Alike.row (h : w.Alike w') (y : Addr) : w'.row y = w.row y := by
  obtain ⟨fs, l, rfl⟩ := h; rfl

theorem Route.same (h : Route N m u a rest v w r) (T : Addr) : (w.conv T).token = (u.conv T).token ∧ (w.conv T).registry = (u.conv T).registry := by
  induction h with
  | done => exact ⟨rfl, rfl⟩
  | hop _ _ _ _ _ _ ih =>
    rw [ih.1, ih.2]; exact hopped_same ..

/-- Converters off the path keep what they have. -/
theorem Route.elsewhere (h : Route N m u a rest v u' r) : HonestPath u N a rest → T ≠ N → (∀ ft ∈ stops rest, (u.conv T).token ≠ some ft) →
    u'.conv T = u.conv T ∧ ∀ z, (u'.tok z).bal T = (u.tok z).bal T := by
  induction h with
  | done => intros; exact ⟨rfl, fun _ => rfl⟩
  | @hop u a ft b rest v T1 r1 u' r own pos bal move conv next ih =>
    intro hp hN hT
    obtain ⟨hka, ⟨T', R, h2, hw⟩, hp'⟩ := hp
    rw [own] at h2; cases h2
    have hne : T ≠ T1 := by rintro rfl; exact hT ft List.mem_cons_self hw.token
    obtain ⟨h1, h2⟩ := ih hp'.hopped hN (by
      rw [hopped_conv_other _ _ _ _ _ _ _ hne]; exact fun q hq => hT q (List.mem_cons_of_mem _ hq))
    exact ⟨by rw [h1, hopped_conv_other _ _ _ _ _ _ _ hne], fun z => by rw [h2, hopped_bal _ _ _ _ _ _ hN hne]⟩

/-- Tokens that are not the flexible token of a hop keep their supply. -/
theorem Route.supply (h : Route N m u a rest v u' r) : z ∉ stops rest → (u'.tok z).supply = (u.tok z).supply := by
  induction h with
  | done => intro _; rfl
  | @hop u a ft b rest v T1 r1 u' r own pos bal move conv next ih =>
    intro hz
    rw [stops, List.mem_cons, not_or] at hz
    rw [ih hz.2, hopped_supply _ _ _ _ _ _ hz.1]

/-- An honest path is honest after an order was carried out. -/
theorem order_honest {c d : Addr} {rest' : List Addr} {coins : Bool} (hc : ∀ y, 0 ≤ w'.coin y) (hr : Route N m (w.begun coins a N s v) a rest v u' r)
    (hal : (u'.delivered N d f r).Alike w') {N' : Addr} (hp : HonestPath w N' c rest') : HonestPath w' N' c rest' := by
  refine HonestPath.of (w := w) ?_ ?_ ?_ ?_ hc hp
  · rw [hal.kind, delivered_kind, hr.kind, begun_kind]
  · rw [hal.own, delivered_own, hr.own, begun_own]
  · intro T
    have := hr.same T
    rw [begun_conv] at this
    rw [hal.conv, delivered_conv]; exact this
  · rw [hal.reg, delivered_reg, hr.reg, begun_reg]

end Verif

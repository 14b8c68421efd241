import Verif.Proofs.Legs
import Verif.Props.Liveness
/-!
C78: conversions in legs. A conversion along a path is, to the last unit and in all contracts, the conversion along its first part followed by that along the rest;
and converters that are not on the path notice nothing of it.
-/
set_option autoImplicit false
set_option linter.unusedSimpArgs false
namespace Verif

open Scenario (ready2 ready2_reachable alice bob owner network)

variable {orc orc' orc1 orc2 : Oracle} {n k k1 k2 : Nat} {w w' w1 w2 : World} {s T t a b f N : Addr} {v m m1 r r1 : Int} {x x1 x2 : Val} {p q rest : List Addr}
  {coins : Bool} {tx tx1 tx2 : Tx}

theorem flexibles_eq : ∀ {rest : List Addr} {a : Addr}, EvenTail rest → flexibles (a :: rest) = stops rest
  | [], _, _ => rfl
  | [_], _, h => h.elim
  | _ :: _ :: rest, _, h => by rw [flexibles, stops, flexibles_eq (rest := rest) h]

theorem run_reachable (h : Reachable w) (hx : tx.run orc k w = .ok (x, w')) : Reachable w' := by
  have := Reachable.step orc k tx h
  unfold Tx.apply at this; rw [hx] at this; exact this

theorem ne_zero (hs : s.isContract = false) : s ≠ ZERO := by rintro rfl; cases hs

theorem ne_net (h : Reachable w) (hk : w.kind N = .net) (hs : s.isContract = false) : s ≠ N := by
  rintro rfl; have := h.basic.contract s (by rw [hk]; nofun); rw [hs] at this; cases this

/-- What is paid out is determined by what the payee has. -/
theorem Settled.unique {z : Addr} {w0 : World} (h : Settled w w1 N s a z f v r coins) (h' : Settled w w0 N s a z f v r1 coins) (hw : w1.tok = w0.tok) (hc : w1.coin = w0.coin)
    (hf : f ≠ N) (hkf : w.kind f ≠ .conv) (hfz : f ≠ z) : r = r1 := by
  cases hn : w.net N z
  · have e1 := h.tokens f hf hkf z
    have e2 := h'.tokens f hf hkf z
    rw [hw, e2] at e1
    simp only [hn, true_and, and_self, if_true] at e1
    omega
  · have e1 := h.coin f
    have e2 := h'.coin f
    rw [hc, e2] at e1
    simp only [hn, true_and, hfz, if_false, if_true] at e1
    omega

/-- The second leg. -/
theorem second_leg (h : Reachable w) (hk : w.kind N = .net) (hp : HonestPath w N a p) (hq : HonestPath w N b q) (hb : lastOf a p = b) {u1 u' : World}
    (hr1 : Route N m1 (w.begun coins a N s v) a p v u1 r1) (hw1 : Reachable w1) (hal : (u1.delivered N b s r1).Alike w1) (hs : s.isContract = false)
    (hset : Settled w w1 N s a b s v r1 coins) (haff : w.affords coins a N s v) (hr0 : 0 < r1)
    (hreg : w.net N b = true → w.kind b = .icx) (hr2 : Route N m u1 b q r1 u' r) (hq0 : q ≠ []) :
    w1.kind N = .net ∧ HonestPath w1 N b q ∧ w1.affords (w.net N b) b N s r1 ∧ u1.Alike (w1.begun (w.net N b) b N s r1) := by
  have hkind : w1.kind = w.kind := by rw [hal.kind, delivered_kind, hr1.kind, begun_kind]
  have hnet : w1.net = w.net := by rw [hal.net, delivered_net, hr1.net, begun_net]
  have hflex : w1.flex = w.flex := by rw [hal.flex, delivered_flex, hr1.flex, begun_flex]
  have hsN := ne_net h hk hs
  have hks : w.kind s ≠ .conv := by
    intro h1; have := h.basic.contract s (by rw [h1]; nofun); rw [hs] at this; cases this
  have hbc : ∀ {y : Addr}, (w.kind y).isToken → s ≠ y := by
    rintro y hy rfl; have := h.basic.contract s (by intro e; rw [e] at hy; exact absurd hy (by decide)); rw [hs] at this; cases this
  refine ⟨by rw [hkind]; exact hk, order_honest hw1.basic.coin_nonneg hr1 hal hq, ?_, ?_⟩
  · unfold World.affords
    cases hn : w.net N b
    · rw [if_neg (by simp), hkind, hflex]
      constructor
      · cases hr2 with
        | done => exact absurd rfl hq0
        | hop _ _ _ move _ _ => rw [hr1.kind, hr1.flex, begun_kind, begun_flex] at move; exact move
      · rw [hset.tokens s hsN hks]
        simp only [hn, true_and, and_self, if_true]
        have := (C01_supply_is_sum h b).2.1 s
        split
        · rename_i e
          obtain ⟨e1, e2⟩ := e
          subst e1
          unfold World.affords at haff
          rw [if_neg (by simp)] at haff
          have := haff.2; rw [← e2] at this; omega
        · omega
    · rw [if_pos rfl, hnet, hkind]
      refine ⟨hn, hreg hn, ?_⟩
      rw [hset.coin s]
      simp only [hn, true_and, if_true, hbc hq.head, hbc hp.head, if_false, and_false]
      have := h.basic.coin_nonneg s
      split
      · rename_i e
        unfold World.affords at haff
        rw [e.1, if_pos rfl] at haff
        have := haff.2.2; omega
      · omega
  · have e : u1.net N b = w.net N b := by rw [hr1.net, begun_net]
    have := (hal.begun (coins := w.net N b) (a := b) (N := N) (s := s) (v := r1))
    rw [← e, begun_delivered] at this
    rw [← e]; exact this

/-- **C78**, in two legs: if an account `s` can have `v` converted along the path `a, p, q`, it can as well have them converted along `a, p` first, to itself, asking for any
positive amount up to the `r1` it is paid, and then these `r1` along the rest of the path. Afterwards everything in the ledger, at every address, is as after the conversion in one
go. (`r1` is paid in coin, and put in as coin again, if the token between is an ICX token registered at the network; such a token must be one.) -/
theorem C78_split (h : Reachable w) (hk : w.kind N = .net) (hp : HonestPath w N a (p ++ q)) (he : p.length % 2 = 0) (hp0 : p ≠ []) (hq0 : q ≠ [])
    (hs : s.isContract = false) (hf : f.isContract = false) (hreg : w.net N (lastOf a p) = true → w.kind (lastOf a p) = .icx)
    (ho : Order N s v m f coins (a :: (p ++ q)) tx) (hx : tx.run orc k w = .ok (x, w')) :
    ∃ r1, 0 < r1 ∧ ∀ m1 tx1, 0 < m1 → m1 ≤ r1 → Order N s v m1 s coins (a :: p) tx1 →
      ∃ x1 w1, tx1.run orc1 (n + 6) w = .ok (x1, w1) ∧ Settled w w1 N s a (lastOf a p) s v r1 coins ∧
        ∀ tx2, Order N s r1 m f (w.net N (lastOf a p)) (lastOf a p :: q) tx2 →
          ∃ x2 w2, tx2.run orc2 (n + 6) w1 = .ok (x2, w2) ∧ ∀ y, w2.row y = w'.row y := by
  have he := (evenTail_iff p).mpr he
  have hsN := ne_net h hk hs
  obtain ⟨u', r, hr, hpu, hcu, hal, _, _, haff, hleg, hm, hf0, hdel⟩ := order_exact h.basic hk hp ho hf hsN hs hx
  obtain ⟨u1, r1, hr1, hr2⟩ := (Route.append_iff hq0 he).mp hr
  obtain ⟨hp1, hq1⟩ := (HonestPath.append_iff he).mp hp
  obtain ⟨hpu1, hpu2⟩ := (HonestPath.append_iff he).mp hpu
  obtain ⟨hl1, hl2⟩ := hleg.legs he hp0 hq0
  have hmin := hr1.min hp0
  have hbn : ∀ {w : World}, Reachable w → ∀ z, 0 ≤ (w.tok z).bal N := fun h z => (C01_supply_is_sum h z).2.1 N
  have hbs : s ≠ lastOf a p := by
    rintro e
    have hy := hq1.head
    rw [← e] at hy
    have := h.basic.contract s (by intro e; rw [e] at hy; exact absurd hy (by decide)); rw [hs] at this; cases this
  refine ⟨r1, hmin.2.1, fun m1 tx1 hm1 hm1r ho1 => ?_⟩
  have hdel1 : u1.deliverable N (lastOf a p) r1 := by
    unfold World.deliverable
    rw [hr1.net, hr1.kind, hr1.flex, begun_net, begun_kind, begun_flex, hr1.coin]
    split
    · rename_i hn
      have hz := hreg hn
      refine ⟨hz, ?_⟩
      obtain ⟨T, ft, h1, h2, h3⟩ := hr1.held hp0 hpu1 hl1.stops.2.2 (by rw [begun_kind, hz]; decide)
      rw [begun_own] at h2
      obtain ⟨T', R, h4, h5⟩ := hp1.stop ft h1
      rw [h2] at h4; cases h4
      have hTs : T ≠ s := by rintro rfl; have := h5.contract.1; rw [hs] at this; cases this
      rw [begun_bal hTs h5.ne.symm] at h3
      have h6 := C01_supply_is_sum h (lastOf a p)
      refine le_trans h3 (le_trans (le_trans (sum_ge _ h6.2.1 T) ?_) (begun_coin hbs.symm hmin.2.2.le))
      rw [C09_backed h hz, h6.1]
    · cases hr2 with
      | done => exact absurd rfl hq0
      | hop _ _ _ move _ _ => rw [hr1.kind, hr1.flex, begun_kind, begun_flex] at move; exact move
  obtain ⟨x1, w1, hx1⟩ := (order_iff (orc := orc1) (n := n) h.basic (hbn h) hk hp1 ho1 hs hsN hs).mpr
    ⟨haff, hm1, ne_zero hs, hl1, u1, r1, hr1.ask hm1 hm1r, hdel1⟩
  obtain ⟨u1', r1', hr1', _, _, hal1, hset1, _⟩ := order_exact h.basic hk hp1 ho1 hs hsN hs hx1
  obtain ⟨rfl, rfl⟩ := hr1.unique hr1'
  have hw1 := run_reachable h hx1
  refine ⟨x1, w1, hx1, hset1, fun tx2 ho2 => ?_⟩
  obtain ⟨hk1, hq2, haff2, halu⟩ := second_leg h hk hp1 hq1 rfl hr1 hw1 hal1 hs hset1 haff hmin.2.1 hreg hr2 hq0
  obtain ⟨u2, hr3, hal3⟩ := hr2.cast halu
  have hdel2 : u2.deliverable N (lastOf (lastOf a p) q) r := by
    rw [lastOf_append] at hdel
    unfold World.deliverable at hdel ⊢
    rw [hal3.net, hal3.kind, hal3.coin, hal3.flex]; exact hdel
  obtain ⟨x2, w2, hx2⟩ := (order_iff (orc := orc2) (n := n) hw1.basic (hbn hw1) hk1 hq2 ho2 hf hsN hs).mpr ⟨haff2, hm, hf0, hl2, u2, r, hr3, hdel2⟩
  obtain ⟨u2', r', hr4, _, _, hal4, _⟩ := order_exact hw1.basic hk1 hq2 ho2 hf hsN hs hx2
  obtain ⟨rfl, rfl⟩ := hr3.unique hr4
  refine ⟨x2, w2, hx2, fun y => ?_⟩
  rw [hal4.row, hal3.delivered.row, hal.row, lastOf_append]

/-- **C78**, in one go: and conversely, what can be had in two legs can be had in one, with the same outcome, as long as the joined path is legal. -/
theorem C78_join (h : Reachable w) (hk : w.kind N = .net) (hp : HonestPath w N a (p ++ q)) (he : p.length % 2 = 0)
    (hl : LegalPath (a :: (p ++ q))) (hs : s.isContract = false) (hf : f.isContract = false)
    (ho1 : Order N s v m1 s coins (a :: p) tx1) (hx1 : tx1.run orc1 k1 w = .ok (x1, w1)) (hset : Settled w w1 N s a (lastOf a p) s v r1 coins)
    (ho2 : Order N s r1 m f (w.net N (lastOf a p)) (lastOf a p :: q) tx2) (hx2 : tx2.run orc2 k2 w1 = .ok (x2, w2))
    (ho : Order N s v m f coins (a :: (p ++ q)) tx) :
    ∃ x w', tx.run orc (n + 6) w = .ok (x, w') ∧ ∀ y, w'.row y = w2.row y := by
  have he := (evenTail_iff p).mpr he
  have hsN := ne_net h hk hs
  obtain ⟨hp1, hq1⟩ := (HonestPath.append_iff he).mp hp
  obtain ⟨u1, r1', hr1, hpu1, _, hal1, hset1, hreg, haff, hl1, hm1, _, _⟩ := order_exact h.basic hk hp1 ho1 hs hsN hs hx1
  have hks : w.kind s ≠ .conv := by
    intro h1; have := h.basic.contract s (by rw [h1]; nofun); rw [hs] at this; cases this
  have hbs : s ≠ lastOf a p := by
    rintro e
    have hy := hq1.head
    rw [← e] at hy
    have := h.basic.contract s (by intro e; rw [e] at hy; exact absurd hy (by decide)); rw [hs] at this; cases this
  have := hset.unique hset1 rfl rfl hsN hks hbs
  subst this
  have hw1 := run_reachable h hx1
  have hmin := hr1.min (legal_iff_stops.mp hl1).2.1
  have hkind : w1.kind = w.kind := by rw [hal1.kind, delivered_kind, hr1.kind, begun_kind]
  obtain ⟨u2, r, hr2, _, _, hal2, _, _, _, hl2, hm, hf0, hdel⟩ := order_exact hw1.basic (by rw [hkind]; exact hk) (order_honest hw1.basic.coin_nonneg hr1 hal1 hq1) ho2 hf hsN hs hx2
  have hq0 := (legal_iff_stops.mp hl2).2.1
  have e : u1.net N (lastOf a p) = w.net N (lastOf a p) := by rw [hr1.net, begun_net]
  have halu := (hal1.begun (coins := w.net N (lastOf a p)) (a := lastOf a p) (N := N) (s := s) (v := r1))
  rw [← e, begun_delivered, e] at halu
  obtain ⟨u2', hr3, hal3⟩ := hr2.cast halu.symm
  have hr := (Route.append_iff hq0 he).mpr ⟨u1, r1, hr1.ask (m' := 1) (by decide) hmin.2.1, hr3⟩
  have hdel' : u2'.deliverable N (lastOf a (p ++ q)) r := by
    rw [lastOf_append]
    unfold World.deliverable at hdel ⊢
    rw [hal3.net, hal3.kind, hal3.coin, hal3.flex]; exact hdel
  obtain ⟨x, w', hx⟩ := (order_iff (orc := orc) (n := n) h.basic (fun z => (C01_supply_is_sum h z).2.1 N) hk hp ho hf hsN hs).mpr
    ⟨haff, hm, hf0, hl, u2', r, hr, hdel'⟩
  obtain ⟨u3, r', hr4, _, _, hal4, _⟩ := order_exact h.basic hk hp ho hf hsN hs hx
  obtain ⟨rfl, rfl⟩ := hr.unique hr4
  refine ⟨x, w', hx, fun y => ?_⟩
  rw [hal4.row, hal2.row, lastOf_append, hal3.delivered.row]

/-- **C78**, elsewhere: a converter whose flexible token is none of those of the path notices nothing of a conversion along it: its record, all its holdings and the supply of its
flexible token stay as they are. -/
theorem C78_elsewhere (h : Reachable w) (hk : w.kind N = .net) (hp : HonestPath w N a rest) (hs : s.isContract = false) (hf : f.isContract = false)
    (ho : Order N s v m f coins (a :: rest) tx) (hx : tx.run orc k w = .ok (x, w')) (hT : w.kind T = .conv) (ht : (w.conv T).token = some t) (htk : w.kind t = .flex)
    (hno : t ∉ flexibles (a :: rest)) :
    w'.conv T = w.conv T ∧ (∀ z, (w'.tok z).bal T = (w.tok z).bal T) ∧ (w'.tok t).supply = (w.tok t).supply := by
  have hsN := ne_net h hk hs
  obtain ⟨u', r, hr, hpu, _, hal, _, hreg, haff, hl, _⟩ := order_exact h.basic hk hp ho hf hsN hs hx
  rw [flexibles_eq hl.stops.1] at hno
  have hTN : T ≠ N := by rintro rfl; rw [hT] at hk; cases hk
  have hTc := h.basic.contract T (by rw [hT]; nofun)
  have hTs : T ≠ s := by rintro rfl; rw [hs] at hTc; cases hTc
  have hTf : T ≠ f := by rintro rfl; rw [hf] at hTc; cases hTc
  obtain ⟨h1, h2⟩ := hr.elsewhere (T := T) hpu hTN (by rw [begun_conv, ht]; rintro ft hft e; injection e with e; subst e; exact hno hft)
  refine ⟨by rw [hal.conv, delivered_conv, h1, begun_conv], fun z => ?_, ?_⟩
  · rw [hal.tok, delivered_bal, h2, begun_bal hTs hTN]
    simp [hTN, hTf]
  · have e1 : ((u'.delivered N (lastOf a rest) f r).tok t).supply = (u'.tok t).supply := by
      unfold World.delivered
      rw [hr.net, begun_net]
      split
      · rename_i hn
        have hne : t ≠ lastOf a rest := by rintro rfl; rw [hreg hn] at htk; cases htk
        change ((u'.mint (lastOf a rest) N (-r)).tok t).supply = _
        unfold World.mint; rw [setTok_tok, if_neg hne]
      · unfold World.pay; rw [setTok_tok]; split
        · subst t; rfl
        · rfl
    have e2 : ((w.begun coins a N s v).tok t).supply = (w.tok t).supply := by
      unfold World.begun
      split
      · rename_i hc
        subst hc
        unfold World.affords at haff
        rw [if_pos rfl] at haff
        have hne : t ≠ a := by rintro rfl; rw [haff.2.1] at htk; cases htk
        unfold World.staked World.mint; rw [setTok_tok, if_neg hne]; rfl
      · unfold World.pay; rw [setTok_tok]; split
        · subst t; rfl
        · rfl
    rw [hal.tok, e1, hr.supply hno, e2]

theorem quoted_of_agree {u : World} (hq : Quoted w a rest v r) : HonestPath w N a rest → Agree w u (stops rest) → Quoted u a rest v r := by
  induction hq with
  | done => intros; exact .done
  | @hop a ft b rest v T c r own curve tradable fee next ih =>
    intro hp hag
    obtain ⟨hka, ⟨T1, R, h2, hw⟩, hp'⟩ := hp
    rw [own] at h2; cases h2
    obtain ⟨hc1, hc2, hc3⟩ := hag.2 ft List.mem_cons_self T own
    have e : u.afterFee T c (u.feeSteps T a b) = w.afterFee T c (w.feeSteps T a b) := by
      unfold World.afterFee World.feeSteps; rw [hc1]
    refine .hop (T := T) (c := c) (by rw [hag.1]; exact own) (by rw [hag.curve List.mem_cons_self hw own]; exact curve) ?_ (by rw [e]; exact fee) ?_
    · unfold World.tradable at tradable ⊢; rw [hc1]; exact tradable
    · rw [e]; exact ih hp' ⟨hag.1, fun ft2 h2 => hag.2 ft2 (List.mem_cons_of_mem _ h2)⟩

/-- **C78**, quotes elsewhere: a conversion along a path changes no quote for a path through other flexible tokens. -/
theorem C78_quotes (h : Reachable w) (hk : w.kind N = .net) (hp : HonestPath w N a rest) (hs : s.isContract = false) (hf : f.isContract = false)
    (ho : Order N s v m f coins (a :: rest) tx) (hx : tx.run orc k w = .ok (x, w')) (hq : HonestPath w N b q)
    (hdis : ∀ t ∈ flexibles (b :: q), t ∉ flexibles (a :: rest)) {txt : List Char} (ht : PathText txt (b :: q)) {s' : Addr} {v' r' : Int} :
    (∃ w1, exec orc1 (n + 3) s' N 0 (.getExpectedReturnByPath txt v') w = .ok (.int r', w1)) ↔
    ∃ w1, exec orc1 (n + 3) s' N 0 (.getExpectedReturnByPath txt v') w' = .ok (.int r', w1) := by
  have hsN := ne_net h hk hs
  have hw' := run_reachable h hx
  obtain ⟨u', r, hr, _, _, hal, _⟩ := order_exact h.basic hk hp ho hf hsN hs hx
  have hq' : HonestPath w' N b q := order_honest hw'.basic.coin_nonneg hr hal hq
  have hkind : w'.kind = w.kind := by rw [hal.kind, delivered_kind, hr.kind, begun_kind]
  have hown : w'.own = w.own := by rw [hal.own, delivered_own, hr.own, begun_own]
  rw [quote_iff h.basic hk ht hq, quote_iff hw'.basic (by rw [hkind]; exact hk) ht hq']
  by_cases hl : LegalPath (b :: q)
  · have hag : Agree w w' (stops q) := by
      refine ⟨hown, fun ft hft T hT => ?_⟩
      obtain ⟨T', R, h1, h2⟩ := hq.stop ft hft
      rw [hT] at h1; cases h1
      have hfl := flexibles_eq (a := b) hl.stops.1
      have := C78_elsewhere h hk hp hs hf ho hx h2.conv h2.token h2.flex (hdis ft (by rw [hfl]; exact hft))
      exact ⟨this.1, this.2.2, this.2.1⟩
    have hag' : Agree w' w (stops q) := by
      refine ⟨hown.symm, fun ft hft T hT => ?_⟩
      rw [hown] at hT
      obtain ⟨h1, h2, h3⟩ := hag.2 ft hft T hT
      exact ⟨h1.symm, h2.symm, fun z => (h3 z).symm⟩
    exact ⟨fun ⟨h1, h2, r, h3, h4⟩ => ⟨h1, h2, r, h3, quoted_of_agree h4 hq hag⟩, fun ⟨h1, h2, r, h3, h4⟩ => ⟨h1, h2, r, h3, quoted_of_agree h4 hq' hag'⟩⟩
  · exact ⟨fun h => absurd h.1 hl, fun h => absurd h.1 hl⟩

theorem quoted_append : ∀ {p : List Addr} {a : Addr} {v : Int}, EvenTail p →
    (Quoted w a (p ++ q) v r ↔ ∃ r1, Quoted w a p v r1 ∧ Quoted w (lastOf a p) q r1 r)
  | [], a, v, _ => ⟨fun h => ⟨v, .done, h⟩, by rintro ⟨r1, h1, h2⟩; cases h1; exact h2⟩
  | [_], _, _, h => h.elim
  | ft :: b :: p, a, v, he => by
    have he : EvenTail p := he
    constructor
    · intro h
      cases h with
      | hop own curve tradable fee next =>
        obtain ⟨r1, h1, h2⟩ := (quoted_append (p := p) he).mp next
        exact ⟨r1, .hop own curve tradable fee h1, h2⟩
    · rintro ⟨r1, h1, h2⟩
      cases h1 with
      | hop own curve tradable fee next => exact .hop own curve tradable fee ((quoted_append (p := p) he).mpr ⟨r1, next, h2⟩)

/-- **C78**, quotes in legs: `r > 0` is quoted for `v` along the path `a, p, q` if and only if the path is legal and `r` is quoted, along the rest, for what is quoted along `a, p`. -/
theorem C78_quote_legs (h : Reachable w) (hk : w.kind N = .net) (hp : HonestPath w N a (p ++ q)) (he : p.length % 2 = 0) (hp0 : p ≠ []) (hq0 : q ≠ [])
    {txt txt1 txt2 : List Char} (ht : PathText txt (a :: (p ++ q))) (ht1 : PathText txt1 (a :: p)) (ht2 : PathText txt2 (lastOf a p :: q)) (hr : 0 < r) :
    (∃ w1, exec orc (n + 3) s N 0 (.getExpectedReturnByPath txt v) w = .ok (.int r, w1)) ↔ LegalPath (a :: (p ++ q)) ∧
      ∃ r1 w1 w2, exec orc (n + 3) s N 0 (.getExpectedReturnByPath txt1 v) w = .ok (.int r1, w1) ∧
        exec orc (n + 3) s N 0 (.getExpectedReturnByPath txt2 r1) w = .ok (.int r, w2) := by
  have he := (evenTail_iff p).mpr he
  obtain ⟨hp1, hq1⟩ := (HonestPath.append_iff he).mp hp
  rw [quote_iff h.basic hk ht hp]
  have e1 := fun (r1 : Int) => quote_iff (orc := orc) (n := n) (s := s) (v := v) (x := .int r1) h.basic hk ht1 hp1
  have e2 := fun (r1 : Int) => quote_iff (orc := orc) (n := n) (s := s) (v := r1) (x := .int r) h.basic hk ht2 hq1
  constructor
  · rintro ⟨h1, h2, r', h3, h4⟩
    injection h3 with h3; subst h3
    obtain ⟨hl1, hl2⟩ := h1.legs he hp0 hq0
    obtain ⟨r1, h5, h6⟩ := (quoted_append he).mp h4
    obtain ⟨h7, _⟩ := quoted_zero h h5 hp1 h2.le
    have h9 := (quoted_zero h h6 hq1 h7).2
    have h8 : 0 < r1 := by
      rcases lt_or_eq_of_le h7 with h8 | h8
      · exact h8
      · have := h9 h8.symm; omega
    obtain ⟨w1, hw1⟩ := (e1 r1).mpr ⟨hl1, h2, r1, rfl, h5⟩
    obtain ⟨w2, hw2⟩ := (e2 r1).mpr ⟨hl2, h8, r, rfl, h6⟩
    exact ⟨h1, r1, w1, w2, hw1, hw2⟩
  · rintro ⟨h1, r1, w1, w2, hw1, hw2⟩
    obtain ⟨_, h2, r', h3, h4⟩ := (e1 r1).mp ⟨w1, hw1⟩
    injection h3 with h3; subst h3
    obtain ⟨_, _, r', h5, h6⟩ := (e2 r1).mp ⟨w2, hw2⟩
    injection h5 with h5; subst h5
    exact ⟨h1, h2, r, rfl, (quoted_append he).mpr ⟨r1, h4, h6⟩⟩

/-- Alice's order in one go: 300 coin into the second flexible token; and in legs. -/
def inOneGo : Tx := .call alice network 300 (.convert (Scenario.pathText uphill) 147)
def firstLeg : Tx := .call alice network 300 (.convert (Scenario.pathText [Scenario.icxt, Scenario.flex, Scenario.flex]) 148)
def secondLeg : Tx := Scenario.trade [Scenario.flex, Scenario.flex2, Scenario.flex2] 148 147

set_option maxRecDepth 100000 in
/-- C78: the hypotheses are met. The 300 coin become 148 of the first flexible token and these 147 of the second; in one go the same. The conversion through the second converter
alone leaves the first one's reserve of coin as it is. -/
example : Reachable ready2 ∧ ready2.kind network = .net ∧ HonestPath ready2 network Scenario.icxt ([Scenario.flex, Scenario.flex] ++ [Scenario.flex2, Scenario.flex2]) ∧
    Order network alice 300 147 alice true uphill inOneGo ∧ Order network alice 300 148 alice true [Scenario.icxt, Scenario.flex, Scenario.flex] firstLeg ∧
    Order network alice 148 147 alice (ready2.net network Scenario.flex) [Scenario.flex, Scenario.flex2, Scenario.flex2] secondLeg ∧
    (inOneGo.run Scenario.orc 20 ready2).toOption.isSome = true ∧
    (((Scenario.run [inOneGo] ready2).tok Scenario.flex2).bal alice = (ready2.tok Scenario.flex2).bal alice + 147 ∧
    ((Scenario.run [firstLeg] ready2).tok Scenario.flex).bal alice = (ready2.tok Scenario.flex).bal alice + 148 ∧
    ((Scenario.run [firstLeg, secondLeg] ready2).tok Scenario.flex2).bal alice = (ready2.tok Scenario.flex2).bal alice + 147 ∧
    ((Scenario.run [firstLeg, secondLeg] ready2).tok Scenario.flex).bal alice = (ready2.tok Scenario.flex).bal alice ∧
    ((Scenario.run [secondLeg] ready2).tok Scenario.icxt).bal Scenario.conv = (ready2.tok Scenario.icxt).bal Scenario.conv ∧
    ((Scenario.run [firstLeg] ready2).tok Scenario.icxt).bal Scenario.conv = (ready2.tok Scenario.icxt).bal Scenario.conv + 300) ∧
    Scenario.flex ∉ flexibles [Scenario.flex, Scenario.flex2, Scenario.flex2] :=
  ⟨ready2_reachable, ready2_facts.1, uphill_honest, .ownCoins (pathText_text (by decide)) rfl, .ownCoins (pathText_text (by decide)) rfl,
    .tokens (request_requests (by decide)), by decide +kernel, by decide +kernel, by decide⟩

end Verif

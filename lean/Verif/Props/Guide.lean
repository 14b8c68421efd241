import Verif.Props.Deploy
import Verif.Props.Views
import Verif.Props.Network
import Verif.Spec.Guide
/-!
C62: the deployment guide of README.md.
-/
set_option autoImplicit false
set_option linter.unusedSimpArgs false
namespace Verif

open Scenario (ready ready_reachable alice bob owner)

variable {orc : Oracle} {n : Nat} {w w' : World}

theorem Works.append {w1 : World} {a b : List Tx} (h : Works orc n w a w1) (h' : Works orc n w1 b w') : Works orc n w (a ++ b) w' := by
  induction h with
  | nil => exact h'
  | cons e _ ih => exact .cons e (ih h')

theorem Works.reachable {l : List Tx} (h : Works orc n w l w') (hr : Reachable w) : Reachable w' := by
  induction h with
  | nil => exact hr
  | @cons w w1 w' tx txs x e _ ih =>
    refine ih ?_
    have := Reachable.step orc n tx hr
    unfold Tx.apply at this
    rw [e] at this
    exact this

theorem Works.one {tx : Tx} {x : Val} (h : tx.run orc n w = .ok (x, w')) : Works orc n w [tx] w' := .cons h .nil

theorem run_call {s t : Addr} {v : Int} {c : Call} {x : Val} (hs : s.isContract = false) (h : exec orc n s t v c w = .ok (x, w')) :
    (Tx.call s t v c).run orc n w = .ok (x, w') := by
  simp only [Tx.run, okk]; exact ⟨hs, h⟩

theorem run_deploy {s a : Addr} {i : Install} {x : Val} (hs : s.isContract = false) (h : deploy orc n s a i w = .ok (x, w')) :
    (Tx.deploy s a i).run orc n w = .ok (x, w') := by
  simp only [Tx.run, okk]; exact ⟨hs, h⟩

/-- C62. Steps 1 to 3 of the guide work for everybody, in every ledger that can occur, at any three free addresses: afterwards the
network is listed in the registry, the ICX token in the network, the account owns all three, and has as many ICX tokens as it
sent coin. Nothing else changed. -/
theorem C62_system {s N R X : Addr} {v : Int} (hr : Reachable w) (hs : s.isContract = false) (hN : Free w N) (hR : Free w R)
    (hX : Free w X) (hNR : N ≠ R) (hNX : N ≠ X) (hRX : R ≠ X) (hv : 0 ≤ v ∧ v ≤ w.coin s) :
    ∃ w', Works orc (n + 1) w (guideSystem s N R X v) w' ∧
      w'.kind N = .net ∧ w'.kind R = .reg ∧ w'.kind X = .icx ∧
      w'.reg R "Network" = some N ∧ w'.reg R "ScoreRegistry" = some R ∧ w'.net N X = true ∧
      (∀ a, a = N ∨ a = R ∨ a = X → (w'.own a).owner = some s) ∧
      (w'.tok X).supply = v ∧ (w'.tok X).bal s = v ∧ w'.coin X = w.coin X + v ∧
      (∀ a, a ≠ N → a ≠ R → a ≠ X → w'.kind a = w.kind a ∧ Untouched a w w') := by
  have hsX : s ≠ X := by rintro rfl; rw [hX.1] at hs; cases hs
  have htX : w.tok X = {} := hr.basic.tok X (by rw [hX.2.2]; decide)
  -- step 1
  obtain ⟨w1, W1, k1, c1, t1, o1, f1, v1, g1, n1, s1⟩ : ∃ u, Works orc (n + 1) w [.deploy s N .net] u ∧ u.kind = upd w.kind N .net ∧
      u.coin = w.coin ∧ u.tok = w.tok ∧ u.own = upd w.own N (ownedBy s) ∧ u.flex = w.flex ∧ u.conv = w.conv ∧ u.reg = w.reg ∧
      u.net = w.net ∧ u.store = w.store :=
    ⟨_, .one (run_deploy hs ((C57_net (x := .unit) hr).mpr ⟨hN, rfl, rfl⟩)), rfl, rfl, rfl, rfl, rfl, rfl, rfl, rfl, rfl⟩
  have r1 := W1.reachable hr
  have hR1 : Free w1 R := ⟨hR.1, hR.2.1, by rw [k1, upd_ne _ _ hNR.symm, hR.2.2]⟩
  obtain ⟨w2, W2, k2, c2, t2, o2, f2, v2, g2, n2, s2⟩ : ∃ u, Works orc (n + 1) w1 [.deploy s R .reg] u ∧ u.kind = upd w1.kind R .reg ∧
      u.coin = w1.coin ∧ u.tok = w1.tok ∧ u.own = upd w1.own R (ownedBy s) ∧ u.flex = w1.flex ∧ u.conv = w1.conv ∧
      u.reg = upd w1.reg R (fun name => if name = "ScoreRegistry" then some R else none) ∧
      u.net = w1.net ∧ u.store = w1.store :=
    ⟨_, .one (run_deploy hs ((C57_reg (x := .unit) r1).mpr ⟨hR1, rfl, rfl⟩)), rfl, rfl, rfl, rfl, rfl, rfl, rfl, rfl, rfl⟩
  have r2 := W2.reachable r1
  have hX2 : Free w2 X := ⟨hX.1, hX.2.1, by rw [k2, upd_ne _ _ hRX.symm, k1, upd_ne _ _ hNX.symm, hX.2.2]⟩
  obtain ⟨w3, W3, k3, c3, t3, o3, f3, v3, g3, n3, s3⟩ : ∃ u, Works orc (n + 1) w2 [.deploy s X .icx] u ∧ u.kind = upd w2.kind X .icx ∧
      u.coin = w2.coin ∧ u.tok = upd w2.tok X { name := "ICX Token", symbol := "ICXT", decimals := 18, supply := 0, bal := fun _ => 0 } ∧
      u.own = upd w2.own X (ownedBy s) ∧ u.flex = w2.flex ∧ u.conv = w2.conv ∧ u.reg = w2.reg ∧ u.net = w2.net ∧ u.store = w2.store :=
    ⟨_, .one (run_deploy hs ((C57_icx (x := .unit) r2).mpr ⟨hX2, rfl, rfl⟩)), rfl, rfl, rfl, rfl, rfl, rfl, rfl, rfl, rfl⟩
  have r3 := W3.reachable r2
  have hkR : w3.kind R = .reg := by rw [k3, upd_ne _ _ hRX, k2, upd_same]
  have hoR : (w3.own R).owner = some s := by rw [o3, upd_ne _ _ hRX, o2, upd_same]; rfl
  -- step 2
  obtain ⟨w4, W4, k4, c4, t4, o4, f4, v4, g4, n4, s4⟩ : ∃ u, Works orc (n + 1) w3 [.call s R 0 (.registerAddress "Network" N)] u ∧
      u.kind = w3.kind ∧ u.coin = w3.coin ∧ u.tok = w3.tok ∧ u.own = w3.own ∧ u.flex = w3.flex ∧ u.conv = w3.conv ∧
      u.reg = upd w3.reg R (fun k => if k = "Network" then some N else w3.reg R k) ∧ u.net = w3.net ∧ u.store = w3.store :=
    ⟨_, .one (run_call hs ((C18_registerAddress (x := .unit) hkR (r3.basic.coin_nonneg s)).mpr
      ⟨⟨hoR, hN.2.1, hN.1, .inr rfl⟩, rfl, rfl⟩)), rfl, rfl, rfl, rfl, rfl, rfl, rfl, rfl, rfl⟩
  have r4 := W4.reachable r3
  have hkN : w4.kind N = .net := by rw [k4, k3, upd_ne _ _ hNX, k2, upd_ne _ _ hNR, k1, upd_same]
  have hoN : (w4.own N).owner = some s := by rw [o4, o3, upd_ne _ _ hNX, o2, upd_ne _ _ hNR, o1, upd_same]; rfl
  -- step 3
  obtain ⟨w5, W5, k5, c5, t5, o5, f5, v5, g5, n5, s5⟩ : ∃ u, Works orc (n + 1) w4 [.call s N 0 (.registerIcxToken X true)] u ∧
      u.kind = w4.kind ∧ u.coin = w4.coin ∧ u.tok = w4.tok ∧ u.own = w4.own ∧ u.flex = w4.flex ∧ u.conv = w4.conv ∧
      u.reg = w4.reg ∧ u.net = upd w4.net N (upd (w4.net N) X true) ∧ u.store = w4.store :=
    ⟨_, .one (run_call hs ((C41_register (x := .unit) hkN).mpr
      ⟨rfl, r4.basic.coin_nonneg s, rfl, hoN, hX.2.1, hNX.symm, rfl⟩)), rfl, rfl, rfl, rfl, rfl, rfl, rfl, rfl, rfl⟩
  have hkX : w5.kind X = .icx := by rw [k5, k4, k3, upd_same]
  have hc5 : w5.coin = w.coin := by rw [c5, c4, c3, c2, c1]
  have ht5 : w5.tok X = { name := "ICX Token", symbol := "ICXT", decimals := 18, supply := 0, bal := fun _ => 0 } := by
    rw [t5, t4, t3, upd_same]
  obtain ⟨w6, W6, k6, c6, t6, o6, f6, v6, g6, n6, s6⟩ : ∃ u, Works orc (n + 1) w5 [.call s X v .fallback] u ∧
      u.kind = w5.kind ∧ u.coin = (w5.moveCoin s X v).coin ∧
      u.tok = upd w5.tok X { w5.tok X with bal := gain (w5.tok X).bal s v, supply := (w5.tok X).supply + v } ∧ u.own = w5.own ∧
      u.flex = w5.flex ∧ u.conv = w5.conv ∧ u.reg = w5.reg ∧ u.net = w5.net ∧ u.store = w5.store :=
    ⟨_, .one (run_call hs ((ok_exec_deposit (x := .unit) hkX (.inr rfl)).mpr ⟨hv.1, by rw [hc5]; exact hv.2, rfl, rfl⟩)),
      rfl, rfl, rfl, rfl, rfl, rfl, rfl, rfl, rfl⟩
  refine ⟨w6, ((((W1.append W2).append W3).append W4).append W5).append W6, ?_, ?_, ?_, ?_, ?_, ?_, ?_, ?_, ?_, ?_, ?_⟩
  · rw [k6, k5, hkN]
  · rw [k6, k5, k4, hkR]
  · rw [k6, hkX]
  · rw [g6, g5, g4, upd_same]; rfl
  · rw [g6, g5, g4, upd_same, g3, g2, upd_same]; rfl
  · rw [n6, n5, upd_same, upd_same]
  · rintro a (rfl | rfl | rfl)
    · rw [o6, o5, hoN]
    · rw [o6, o5, o4, hoR]
    · rw [o6, o5, o4, o3, upd_same]; rfl
  · rw [t6, upd_same, ht5]; simp
  · rw [t6, upd_same, ht5]; simp [gain]
  · rw [c6]; simp [World.moveCoin, upd_apply, hsX.symm, hc5]
  · intro a h1 h2 h3
    refine ⟨by rw [k6, k5, k4, k3, upd_ne _ _ h3, k2, upd_ne _ _ h2, k1, upd_ne _ _ h1], ?_, ?_, ?_, ?_, ?_, ?_, ?_⟩
    · rw [t6, upd_ne _ _ h3, t5, t4, t3, upd_ne _ _ h3, t2, t1]
    · rw [o6, o5, o4, o3, upd_ne _ _ h3, o2, upd_ne _ _ h2, o1, upd_ne _ _ h1]
    · rw [f6, f5, f4, f3, f2, f1]
    · rw [v6, v5, v4, v3, v2, v1]
    · rw [g6, g5, g4, upd_ne _ _ h2, g3, g2, upd_ne _ _ h2, g1]
    · rw [n6, n5, upd_ne _ _ h1, n4, n3, n2, n1]
    · rw [s6, s5, s4, s3, s2, s1]

/-! ### The converter set -/

/-- Total weight of the plans. -/
def weights (ps : List Plan) : Int := (ps.map (·.weight)).sum

theorem add_all {s C F : Addr} (hs : s.isContract = false) : ∀ (ps : List Plan) (w : World), w.kind C = .conv → (w.conv C).token = some F →
    (w.kind F).isOwned → (∀ a, 0 ≤ w.coin a) → (w.own C).owner = some s → (w.own F).owner ≠ some C → (ps.map (·.token)).Nodup →
    (∀ p ∈ ps, p.token ≠ ZERO ∧ p.token ≠ C ∧ p.token ≠ F ∧ 0 < p.weight ∧ ((w.conv C).connectors p.token).isSet = false) →
    0 ≤ (w.conv C).totalWeight → (w.conv C).totalWeight + weights ps ≤ 1000000 →
    ∃ (u : World) (f : Addr → Connector), Works orc (n + 3) w (ps.map fun p => .call s C 0 (.addConnector p.token p.weight false)) u ∧
      u.kind = w.kind ∧ u.coin = w.coin ∧ u.tok = w.tok ∧ u.own = w.own ∧ u.flex = w.flex ∧ u.reg = w.reg ∧ u.net = w.net ∧
      u.store = w.store ∧
      u.conv = upd w.conv C { w.conv C with connectors := f, connectorTokens := (w.conv C).connectorTokens ++ ps.map (·.token), totalWeight := (w.conv C).totalWeight + weights ps } ∧
      (∀ p ∈ ps, f p.token = p.connector) ∧ ∀ a, (∀ p ∈ ps, p.token ≠ a) → f a = (w.conv C).connectors a := by
  intro ps
  induction ps with
  | nil =>
    intro w _ _ _ _ _ _ _ _ _ _
    refine ⟨w, (w.conv C).connectors, .nil, rfl, rfl, rfl, rfl, rfl, rfl, rfl, rfl, ?_, by simp, by simp⟩
    funext a
    by_cases h : a = C
    · subst h; simp [weights]
    · rw [upd_ne _ _ h]
  | cons p ps ih =>
    intro w hC hF hk hc ho hna hnd hps h0 hsum
    obtain ⟨hp1, hp2, hp3, hp4, hp5⟩ := hps p (by simp)
    have hw : weights (p :: ps) = p.weight + weights ps := by simp [weights]
    have hpos : 0 ≤ weights ps := List.sum_nonneg (by
      intro x hx
      rw [List.mem_map] at hx
      obtain ⟨q, hq, rfl⟩ := hx
      have := (hps q (by simp [hq])).2.2.2.1; omega)
    rw [hw] at hsum
    obtain ⟨u, W, k1, c1, t1, o1, f1, g1, n1, s1, v1⟩ : ∃ u, Works orc (n + 3) w [.call s C 0 (.addConnector p.token p.weight false)] u ∧
        u.kind = w.kind ∧ u.coin = w.coin ∧ u.tok = w.tok ∧ u.own = w.own ∧ u.flex = w.flex ∧ u.reg = w.reg ∧ u.net = w.net ∧
        u.store = w.store ∧ u.conv = upd w.conv C { w.conv C with
          connectors := upd (w.conv C).connectors p.token p.connector
          connectorTokens := (w.conv C).connectorTokens ++ [p.token]
          totalWeight := (w.conv C).totalWeight + p.weight } :=
      ⟨_, .one (run_call hs ((C22_addConnector (n := n + 1) (x := .unit) hC hF hk (hc s) (hc C)).mpr
        ⟨⟨ho, hna, hp1, hp2, hp3, hp4, by omega, hp5, by omega⟩, rfl, rfl⟩)), rfl, rfl, rfl, rfl, rfl, rfl, rfl, rfl, rfl⟩
    have hv : u.conv C = { w.conv C with
          connectors := upd (w.conv C).connectors p.token p.connector
          connectorTokens := (w.conv C).connectorTokens ++ [p.token]
          totalWeight := (w.conv C).totalWeight + p.weight } := by rw [v1, upd_same]
    rw [List.map_cons, List.nodup_cons] at hnd
    have hne : ∀ q ∈ ps, q.token ≠ p.token := fun q hq e => hnd.1 (List.mem_map.mpr ⟨q, hq, e⟩)
    obtain ⟨u', f, W', k2, c2, t2, o2, f2, g2, n2, s2, v2, h1, h2⟩ := ih u (by rw [k1, hC]) (by rw [hv]; exact hF) (by rw [k1]; exact hk)
      (by rw [c1]; exact hc) (by rw [o1]; exact ho) (by rw [o1]; exact hna) hnd.2
      (fun q hq => by
        obtain ⟨a1, a2, a3, a4, a5⟩ := hps q (by simp [hq])
        refine ⟨a1, a2, a3, a4, ?_⟩
        rw [hv]
        show (upd (w.conv C).connectors p.token p.connector q.token).isSet = false
        rw [upd_ne _ _ (hne q hq), a5])
      (by rw [hv]; show 0 ≤ (w.conv C).totalWeight + p.weight; omega)
      (by rw [hv]; show (w.conv C).totalWeight + p.weight + weights ps ≤ 1000000; omega)
    refine ⟨u', f, W.append W', k2.trans k1, c2.trans c1, t2.trans t1, o2.trans o1, f2.trans f1, g2.trans g1, n2.trans n1,
      s2.trans s1, ?_, ?_, ?_⟩
    · rw [v2, hv, v1]
      funext a
      by_cases h : a = C
      · subst h; simp only [upd_same, hw, List.map_cons, List.append_assoc, List.singleton_append, Int.add_assoc]
      · simp only [upd_ne _ _ h]
    · intro q hq
      rcases List.mem_cons.mp hq with rfl | hq
      · rw [h2 _ hne, hv]
        show upd _ _ _ _ = _
        rw [upd_same]
      · exact h1 q hq
    · intro a ha
      rw [h2 a fun q hq => ha q (by simp [hq]), hv]
      show upd _ _ _ _ = _
      rw [upd_ne _ _ (ha p (by simp)).symm]

theorem fund_all {s C F R N : Addr} (hs : s.isContract = false) : ∀ (ps : List Plan) (w : World), Wired w C F R N → ¬ w.active C →
    (w.own C).owner = some s → (ps.map (·.token)).Nodup →
    (∀ p ∈ ps, (w.kind p.token).isToken ∧ p.token ≠ C ∧ ((w.conv C).connectors p.token).isSet = true ∧ 0 < p.reserve ∧
      p.reserve ≤ (w.tok p.token).bal s ∧ (w.kind p.token = .flex → (w.flex p.token).transferable = true)) →
    ∃ u, Works orc (n + 3) w (guideReserves s C ps) u ∧
      u.kind = w.kind ∧ u.coin = w.coin ∧ u.own = w.own ∧ u.flex = w.flex ∧ u.conv = w.conv ∧ u.reg = w.reg ∧ u.net = w.net ∧
      u.store = w.store ∧
      (∀ p ∈ ps, u.tok p.token = { w.tok p.token with bal := moveBal (w.tok p.token).bal s C p.reserve }) ∧
      ∀ a, (∀ p ∈ ps, p.token ≠ a) → u.tok a = w.tok a := by
  intro ps
  induction ps with
  | nil => intro w _ _ _ _ _; exact ⟨w, .nil, rfl, rfl, rfl, rfl, rfl, rfl, rfl, rfl, by simp, by simp⟩
  | cons p ps ih =>
    intro w hw hna ho hnd hps
    obtain ⟨a1, a2, a3, a4, a5, a6⟩ := hps p (by simp)
    obtain ⟨u, W, k1, c1, o1, f1, v1, g1, n1, s1, t1⟩ : ∃ u, Works orc (n + 3) w [.call s p.token 0 (.transfer C p.reserve none)] u ∧
        u.kind = w.kind ∧ u.coin = w.coin ∧ u.own = w.own ∧ u.flex = w.flex ∧ u.conv = w.conv ∧ u.reg = w.reg ∧ u.net = w.net ∧
        u.store = w.store ∧ u.tok = upd w.tok p.token { w.tok p.token with bal := moveBal (w.tok p.token).bal s C p.reserve } :=
      ⟨_, .one (run_call hs ((C33_deposit (n := n) (x := .unit) (d := none) hw hna a1 ho a3 a2).mpr ⟨⟨a4, a5, a6⟩, rfl, rfl⟩)),
        rfl, rfl, rfl, rfl, rfl, rfl, rfl, rfl, rfl⟩
    rw [List.map_cons, List.nodup_cons] at hnd
    have hne : ∀ q ∈ ps, q.token ≠ p.token := fun q hq e => hnd.1 (List.mem_map.mpr ⟨q, hq, e⟩)
    have hw1 : Wired u C F R N :=
      ⟨by rw [k1]; exact hw.conv, by rw [v1]; exact hw.token, by rw [k1]; exact hw.flex, by rw [v1]; exact hw.registry,
        by rw [k1]; exact hw.reg, by rw [g1]; exact hw.network, by rw [k1]; exact hw.net, hw.contract, by rw [c1]; exact hw.coin⟩
    obtain ⟨u', W', k2, c2, o2, f2, v2, g2, n2, s2, t2, t3⟩ := ih u hw1 (by unfold World.active; rw [v1, o1]; exact hna)
      (by rw [o1]; exact ho) hnd.2 (fun q hq => by
        obtain ⟨b1, b2, b3, b4, b5, b6⟩ := hps q (by simp [hq])
        rw [k1, v1, f1, t1, upd_ne _ _ (hne q hq)]
        exact ⟨b1, b2, b3, b4, b5, b6⟩)
    refine ⟨u', W.append W', k2.trans k1, c2.trans c1, o2.trans o1, f2.trans f1, v2.trans v1, g2.trans g1, n2.trans n1,
      s2.trans s1, ?_, ?_⟩
    · intro q hq
      rcases List.mem_cons.mp hq with rfl | hq
      · rw [t3 _ hne, t1, upd_same]
      · rw [t2 q hq, t1, upd_ne _ _ (hne q hq)]
    · intro a ha
      rw [t3 a fun q hq => ha q (by simp [hq]), t1, upd_ne _ _ (ha p (by simp)).symm]

/-- What the guide takes for granted: a registry that names a network, two free addresses, connector tokens (different from each
other, held by the deployer in the amount of the planned reserve) and admissible numbers. -/
structure Prepared (w : World) (s F C R N : Addr) (i d m : Int) (ps : List Plan) : Prop where
  account : s.isContract = false
  registry : w.kind R = .reg
  network : w.reg R "Network" = some N
  net : w.kind N = .net
  flex : Free w F
  conv : Free w C
  apart : F ≠ C
  numbers : 0 ≤ i ∧ 0 ≤ d ∧ 0 ≤ m ∧ m ≤ 1000000
  distinct : (ps.map (·.token)).Nodup
  plans : ∀ p ∈ ps, (w.kind p.token).isToken ∧ 0 < p.weight ∧ 0 < p.reserve ∧ p.reserve ≤ (w.tok p.token).bal s ∧
    (w.kind p.token = .flex → (w.flex p.token).transferable = true)
  total : (ps.map (·.weight)).sum ≤ 1000000

theorem guide_set {s F C R N : Addr} {name symbol : String} {i d m : Int} {first : Plan} {others : List Plan} (hr : Reachable w)
    (h : Prepared w s F C R N i d m (first :: others)) :
    ∃ (u : World) (f : Addr → Connector), Works orc (n + 3) w (guideSet s F C R name symbol i d m first others) u ∧
      u.kind = upd (upd w.kind F .flex) C .conv ∧ u.coin = w.coin ∧ u.tok = upd w.tok F (newToken name symbol i d s) ∧
      u.own = upd (upd w.own F (ownedBy s)) C (ownedBy s) ∧
      u.flex = upd w.flex F { version := "0.1", transferable := true } ∧ u.reg = w.reg ∧ u.net = w.net ∧
      u.store = w.store ∧ u.conv = upd w.conv C { newConverter F R m with
        connectors := f, connectorTokens := (first :: others).map (·.token), totalWeight := weights (first :: others) } ∧
      (∀ p ∈ first :: others, f p.token = p.connector) ∧ ∀ a, (∀ p ∈ first :: others, p.token ≠ a) → f a = {} := by
  have hs := h.account
  have hne : ∀ p ∈ first :: others, p.token ≠ ZERO ∧ p.token ≠ C ∧ p.token ≠ F := by
    intro p hp
    have ht := (h.plans p hp).1
    refine ⟨?_, ?_, ?_⟩ <;> rintro e <;> rw [e] at ht
    · rw [hr.basic.zero] at ht; exact absurd ht (by decide)
    · rw [h.conv.2.2] at ht; exact absurd ht (by decide)
    · rw [h.flex.2.2] at ht; exact absurd ht (by decide)
  have hRz : R ≠ ZERO := by rintro e; have := h.registry; rw [e, hr.basic.zero] at this; cases this
  obtain ⟨w1, W1, k1, c1, t1, o1, f1, v1, g1, n1, s1⟩ : ∃ u, Works orc (n + 3) w [.deploy s F (.flex name symbol i d)] u ∧
      u.kind = upd w.kind F .flex ∧ u.coin = w.coin ∧ u.tok = upd w.tok F (newToken name symbol i d s) ∧ u.own = upd w.own F (ownedBy s) ∧
      u.flex = upd w.flex F { version := "0.1", transferable := true } ∧ u.conv = w.conv ∧ u.reg = w.reg ∧ u.net = w.net ∧ u.store = w.store :=
    ⟨_, .one (run_deploy hs ((C57_flex (x := .unit) hr).mpr ⟨h.flex, rfl, ⟨h.numbers.1, h.numbers.2.1⟩, rfl⟩)),
      rfl, rfl, rfl, rfl, rfl, rfl, rfl, rfl, rfl⟩
  have r1 := W1.reachable hr
  have hC1 : Free w1 C := ⟨h.conv.1, h.conv.2.1, by rw [k1, upd_ne _ _ h.apart.symm, h.conv.2.2]⟩
  obtain ⟨p1, p2, p3⟩ := hne first (by simp)
  have hsum : weights (first :: others) = first.weight + weights others := by simp [weights]
  have htot : weights (first :: others) ≤ 1000000 := h.total
  have hpos : 0 ≤ weights others := List.sum_nonneg (by
      intro x hx
      rw [List.mem_map] at hx
      obtain ⟨q, hq, rfl⟩ := hx
      have := (h.plans q (by simp [hq])).2.1; omega)
  have hfw := (h.plans first (by simp)).2.1
  obtain ⟨w2, W2, k2, c2, t2, o2, f2, v2, g2, n2, s2⟩ : ∃ u, Works orc (n + 3) w1
        [.deploy s C (.conv (some F) (some R) m (some first.token) first.weight)] u ∧
      u.kind = upd w1.kind C .conv ∧ u.coin = w1.coin ∧ u.tok = w1.tok ∧ u.own = upd w1.own C (ownedBy s) ∧
      u.flex = w1.flex ∧ u.conv = upd w1.conv C { newConverter F R m with
        connectorTokens := [first.token]
        totalWeight := first.weight
        connectors := fun b => if b = first.token then first.connector else {} } ∧ u.reg = w1.reg ∧ u.net = w1.net ∧ u.store = w1.store :=
    ⟨_, .one (run_deploy hs ((C57_conv (n := n + 2) (x := .unit) r1 p1 (by rw [k1, upd_same]; decide)).mpr
      ⟨hC1, rfl, h.numbers.2.2, R, ⟨rfl, hRz⟩, p2, p3, ⟨hfw, by omega⟩, rfl⟩)), rfl, rfl, rfl, rfl, rfl, rfl, rfl, rfl, rfl⟩
  have r2 := W2.reachable r1
  have hv2 : w2.conv C = { newConverter F R m with
        connectorTokens := [first.token]
        totalWeight := first.weight
        connectors := fun b => if b = first.token then first.connector else {} } := by rw [v2, upd_same]
  have hnd := h.distinct
  rw [List.map_cons, List.nodup_cons] at hnd
  obtain ⟨w3, f, W3, k3, c3, t3, o3, f3, g3, n3, s3, v3, hf1, hf2⟩ := add_all (orc := orc) (n := n) (s := s) (C := C) (F := F) hs others w2
    (by rw [k2, upd_same]) (by rw [hv2]; rfl) (by rw [k2, upd_ne _ _ h.apart, k1, upd_same]; decide) (r2.basic.coin_nonneg)
    (by rw [o2, upd_same]; rfl) (by
      rw [o2, upd_ne _ _ h.apart, o1, upd_same]
      rintro e
      injection e with e
      rw [e, h.conv.1] at hs; cases hs) hnd.2
    (fun q hq => by
      obtain ⟨q1, q2, q3⟩ := hne q (by simp [hq])
      refine ⟨q1, q2, q3, (h.plans q (by simp [hq])).2.1, ?_⟩
      rw [hv2]
      have : q.token ≠ first.token := fun e => hnd.1 (List.mem_map.mpr ⟨q, hq, e⟩)
      simp [this])
    (by rw [hv2]; show (0 : Int) ≤ first.weight; omega) (by rw [hv2]; show first.weight + weights others ≤ 1000000; omega)
  refine ⟨w3, f, (W1.append W2).append W3, ?_, ?_, ?_, ?_, ?_, ?_, ?_, ?_, ?_, ?_, ?_⟩
  · rw [k3, k2, k1]
  · rw [c3, c2, c1]
  · rw [t3, t2, t1]
  · rw [o3, o2, o1]
  · rw [f3, f2, f1]
  · rw [g3, g2, g1]
  · rw [n3, n2, n1]
  · rw [s3, s2, s1]
  · rw [v3, hv2, v2, v1]
    funext a
    by_cases ha : a = C
    · subst ha; simp only [upd_same, hsum]; rfl
    · simp only [upd_ne _ _ ha]
  · intro p hp
    rcases List.mem_cons.mp hp with rfl | hp
    · rw [hf2 _ fun q hq e => hnd.1 (List.mem_map.mpr ⟨q, hq, e⟩), hv2]; simp
    · exact hf1 p hp
  · intro a ha
    rw [hf2 a fun q hq => ha q (by simp [hq]), hv2]
    simp [(ha first (by simp)).symm]

/-- C62. The guide as it stands fails at its last step: after steps 4 to 6, which work, the converter cannot accept the flexible
token, for no deployer, no connectors and no numbers whatever: nobody has offered it. -/
theorem C62_as_written {s F C R N : Addr} {name symbol : String} {i d m : Int} {first : Plan} {others : List Plan} (hr : Reachable w)
    (h : Prepared w s F C R N i d m (first :: others)) :
    ∃ w', Works orc (n + 3) w (guideSet s F C R name symbol i d m first others) w' ∧
      ∀ s' v, Fails w' s' C v .acceptTokenOwnership := by
  obtain ⟨u, f, W, k, _, _, o, _, _, _, _, v, _⟩ := guide_set (orc := orc) (n := n) (name := name) (symbol := symbol) hr h
  have r := W.reachable hr
  refine ⟨u, W, fun s' v' orc' n' x w' he => ?_⟩
  have hk : u.kind C = .conv := by rw [k, upd_same]
  obtain _ | n' := n'
  · exact exec_zero he
  rw [C55_passed_on .acceptOwnership hk] at he
  obtain ⟨_, _, _, _, t', y, h3, h4⟩ := he
  rw [v, upd_same] at h3
  have h3 : F = t' := by injection h3
  subst h3
  have hkF : (u.kind F).isOwned := by rw [k, upd_ne _ _ h.apart, upd_same]; decide
  obtain _ | n' := n'
  · exact exec_zero h4
  rw [ok_exec_acceptOwnerShip (by exact hkF)] at h4
  have h5 := h4.2.1
  rw [note_own, o, upd_ne _ _ h.apart, upd_same] at h5
  injection h5 with h5
  exact h.conv.2.1 h5.symm

/-- C62. With the missing call (`transferOwnerShip`, by the deployer, on the flexible token), and the reserves deposited before it,
the guide works, in every ledger that can occur, for every list of connectors that fit: afterwards the converter is active, open
for conversions, charges no fee, is wired to the network, has exactly the planned connectors with the planned reserves (and what
had been there before), and the deployer holds the initial supply of the flexible token. Nothing else has changed. -/
theorem C62_converter_set {s F C R N : Addr} {name symbol : String} {i d m : Int} {first : Plan} {others : List Plan} (hr : Reachable w)
    (h : Prepared w s F C R N i d m (first :: others)) :
    ∃ w', Works orc (n + 3) w (guideSet s F C R name symbol i d m first others ++ guideReserves s C (first :: others) ++
        guideActivation s F C) w' ∧
      Wired w' C F R N ∧ w'.active C ∧ (w'.own C).owner = some s ∧
      (w'.conv C).enabled = true ∧ (w'.conv C).fee = 0 ∧ (w'.conv C).maxFee = m ∧
      (w'.conv C).connectorTokens = (first :: others).map (·.token) ∧
      (∀ p ∈ first :: others, (w'.conv C).connectors p.token = p.connector ∧
        w'.tok p.token = { w.tok p.token with bal := moveBal (w.tok p.token).bal s C p.reserve }) ∧
      (∀ a, (∀ p ∈ first :: others, p.token ≠ a) → ((w'.conv C).connectors a).isSet = false) ∧
      w'.tok F = newToken name symbol i d s ∧ w'.coin = w.coin ∧
      ∀ a, a ≠ F → a ≠ C → w'.kind a = w.kind a ∧ ((∀ p ∈ first :: others, p.token ≠ a) → Untouched a w w') := by
  have hs := h.account
  obtain ⟨w1, f, W1, k1, c1, t1, o1, f1, g1, n1, s1, v1, hf1, hf2⟩ := guide_set (orc := orc) (n := n) (name := name) (symbol := symbol) hr h
  have r1 := W1.reachable hr
  have hv1 : w1.conv C = { newConverter F R m with
        connectors := f, connectorTokens := (first :: others).map (·.token), totalWeight := weights (first :: others) } := by rw [v1, upd_same]
  have hRF : R ≠ F := by rintro e; have := h.registry; rw [e, h.flex.2.2] at this; cases this
  have hRC : R ≠ C := by rintro e; have := h.registry; rw [e, h.conv.2.2] at this; cases this
  have hNF : N ≠ F := by rintro e; have := h.net; rw [e, h.flex.2.2] at this; cases this
  have hNC : N ≠ C := by rintro e; have := h.net; rw [e, h.conv.2.2] at this; cases this
  have hsC : s ≠ C := by rintro e; rw [e, h.conv.1] at hs; cases hs
  have hwd : Wired w1 C F R N :=
    ⟨by rw [k1, upd_same], by rw [hv1]; rfl, by rw [k1, upd_ne _ _ h.apart, upd_same], by rw [hv1]; rfl,
      by rw [k1, upd_ne _ _ hRC, upd_ne _ _ hRF, h.registry], by rw [g1, h.network],
      by rw [k1, upd_ne _ _ hNC, upd_ne _ _ hNF, h.net], ⟨h.conv.1, hr.basic.contract N (by rw [h.net]; decide)⟩, r1.basic.coin_nonneg⟩
  have hoF : w1.own F = ownedBy s := by rw [o1, upd_ne _ _ h.apart, upd_same]
  have hna : ¬ w1.active C := by
    rw [active_iff hwd, hoF]
    intro e; injection e with e; exact hsC e
  have hne : ∀ p ∈ first :: others, p.token ≠ C ∧ p.token ≠ F := by
    intro p hp
    have ht := (h.plans p hp).1
    refine ⟨?_, ?_⟩ <;> rintro e <;> rw [e] at ht
    · rw [h.conv.2.2] at ht; exact absurd ht (by decide)
    · rw [h.flex.2.2] at ht; exact absurd ht (by decide)
  obtain ⟨w2, W2, k2, c2, o2, f2, v2, g2, n2, s2, t2, t3⟩ := fund_all (orc := orc) (n := n) hs (first :: others) w1 hwd hna
    (by rw [o1, upd_same]; rfl) h.distinct (fun p hp => by
      obtain ⟨a1, a2⟩ := hne p hp
      obtain ⟨b1, _, b2, b3, b4⟩ := h.plans p hp
      rw [k1, upd_ne _ _ a1, upd_ne _ _ a2, hv1, t1, upd_ne _ _ a2, f1, upd_ne _ _ a2]
      refine ⟨b1, a1, ?_, b2, b3, b4⟩
      show (f p.token).isSet = true
      rw [hf1 p hp]; rfl)
  have r2 := W2.reachable r1
  have hkF : (w2.kind F).isOwned := by rw [k2, hwd.flex]; decide
  obtain ⟨w3, W3, k3, c3, t4, f3, v3, g3, n3, s3, o3⟩ : ∃ u, Works orc (n + 3) w2 [.call s F 0 (.transferOwnerShip C)] u ∧
      u.kind = w2.kind ∧ u.coin = w2.coin ∧ u.tok = w2.tok ∧ u.flex = w2.flex ∧ u.conv = w2.conv ∧ u.reg = w2.reg ∧ u.net = w2.net ∧
      u.store = w2.store ∧ u.own = upd w2.own F { w2.own F with newOwner := some C } :=
    ⟨_, .one (run_call hs ((C12_transferOwnerShip (n := n + 2) (x := .unit) hkF (r2.basic.coin_nonneg s)).mpr
      ⟨⟨by rw [o2, hoF]; rfl, hsC.symm⟩, rfl, rfl⟩)), rfl, rfl, rfl, rfl, rfl, rfl, rfl, rfl, rfl⟩
  have r3 := W3.reachable r2
  obtain ⟨w4, W4, k4, c4, t5, f4, v4, g4, n4, s4, o4⟩ : ∃ u, Works orc (n + 3) w3 [.call s C 0 .acceptTokenOwnership] u ∧
      u.kind = w3.kind ∧ u.coin = w3.coin ∧ u.tok = w3.tok ∧ u.flex = w3.flex ∧ u.conv = w3.conv ∧ u.reg = w3.reg ∧ u.net = w3.net ∧
      u.store = w3.store ∧ u.own = upd w3.own F { owner := some C, newOwner := some ZERO } :=
    ⟨_, .one (run_call hs ((C55_acceptTokenOwnership (n := n + 1) (x := .unit) (t := F) (by rw [k3, k2, hwd.conv])
      (by rw [v3, v2, hwd.token]) (by rw [k3]; exact hkF) (r3.basic.coin_nonneg s) (r3.basic.coin_nonneg C)).mpr
      ⟨⟨by rw [o3, upd_ne _ _ h.apart.symm, o2, o1, upd_same]; rfl, by rw [o3, upd_same]⟩, rfl, rfl⟩)),
      rfl, rfl, rfl, rfl, rfl, rfl, rfl, rfl, rfl⟩
  have hv4 : w4.conv = w1.conv := by rw [v4, v3, v2]
  have hk4 : w4.kind = w1.kind := by rw [k4, k3, k2]
  have ht4 : w4.tok = w2.tok := by rw [t5, t4]
  have hc4 : w4.coin = w.coin := by rw [c4, c3, c2, c1]
  refine ⟨w4, ((W1.append W2).append W3).append W4 |> fun W => by simpa [guideActivation, List.append_assoc] using W, ?_, ?_, ?_, ?_, ?_, ?_, ?_, ?_, ?_, ?_, hc4, ?_⟩
  · exact ⟨by rw [hk4]; exact hwd.conv, by rw [hv4]; exact hwd.token, by rw [hk4]; exact hwd.flex, by rw [hv4]; exact hwd.registry,
        by rw [hk4]; exact hwd.reg, by rw [g4, g3, g2]; exact hwd.network, by rw [hk4]; exact hwd.net, hwd.contract,
        by rw [hc4]; exact hr.basic.coin_nonneg⟩
  · exact ⟨F, by rw [hv4]; exact hwd.token, by rw [o4, upd_same]⟩
  · rw [o4, upd_ne _ _ h.apart.symm, o3, upd_ne _ _ h.apart.symm, o2, o1, upd_same]; rfl
  · rw [hv4, hv1]; rfl
  · rw [hv4, hv1]; rfl
  · rw [hv4, hv1]; rfl
  · rw [hv4, hv1]
  · intro p hp
    rw [hv4, hv1, ht4, t2 p hp, t1, upd_ne _ _ (hne p hp).2]
    exact ⟨hf1 p hp, rfl⟩
  · intro a ha
    rw [hv4, hv1]
    show (f a).isSet = false
    rw [hf2 a ha]
  · rw [ht4, t3 F fun p hp => (hne p hp).2, t1, upd_same]
  · intro a h1 h2
    refine ⟨by rw [hk4, k1, upd_ne _ _ h2, upd_ne _ _ h1], fun ha => ⟨?_, ?_, ?_, ?_, ?_, ?_, ?_⟩⟩
    · rw [ht4, t3 a ha, t1, upd_ne _ _ h1]
    · rw [o4, upd_ne _ _ h1, o3, upd_ne _ _ h1, o2, o1, upd_ne _ _ h2, upd_ne _ _ h1]
    · rw [f4, f3, f2, f1, upd_ne _ _ h1]
    · rw [hv4, v1, upd_ne _ _ h2]
    · rw [g4, g3, g2, g1]
    · rw [n4, n3, n2, n1]
    · rw [s4, s3, s2, s1]

/-! ### Cases -/

/-- C62: bob, who has no coin, can follow steps 1 to 3 in the example ledger. -/
example : ∃ w', Works orc (n + 1) ready (guideSystem bob ⟨true, 21⟩ ⟨true, 22⟩ ⟨true, 23⟩ 0) w' ∧ w'.reg ⟨true, 22⟩ "Network" = some ⟨true, 21⟩ := by
  have hf : ∀ a : Addr, a = ⟨true, 21⟩ ∨ a = ⟨true, 22⟩ ∨ a = ⟨true, 23⟩ → Free ready a := by
    rintro a (rfl | rfl | rfl) <;> exact ⟨rfl, by decide +kernel, by decide +kernel⟩
  obtain ⟨w', h, _, _, _, h', _⟩ := C62_system (orc := orc) (n := n) (v := 0) ready_reachable (s := bob) (by decide)
    (hf ⟨true, 21⟩ (by simp)) (hf ⟨true, 22⟩ (by simp)) (hf ⟨true, 23⟩ (by simp)) (by decide) (by decide) (by decide)
    ⟨le_refl _, ready_reachable.basic.coin_nonneg _⟩
  exact ⟨w', h, h'⟩

/-- Alice's plan: three connectors. -/
def alicesPlan : List Plan := [⟨Scenario.irc, 300000, 7000⟩, ⟨Scenario.icxt, 200000, 400⟩, ⟨Scenario.flex, 500000, 9000⟩]

set_option maxRecDepth 100000 in
/-- C62: alice is prepared for it. -/
theorem alice_prepared : Prepared ready alice Scenario.flex2 Scenario.conv2 Scenario.registry Scenario.network 1000 18 25000 alicesPlan where
  account := rfl
  registry := by decide +kernel
  network := by decide +kernel
  net := by decide +kernel
  flex := ⟨rfl, by decide +kernel, by decide +kernel⟩
  conv := ⟨rfl, by decide +kernel, by decide +kernel⟩
  apart := by decide +kernel
  numbers := by decide
  distinct := by decide +kernel
  plans := by decide +kernel
  total := by decide +kernel

/-- C62: so she can set up her converter, with the call the guide lacks, and cannot without. -/
example : (∃ w', Works orc (n + 3) ready (guideSet alice Scenario.flex2 Scenario.conv2 Scenario.registry "A" "A" 1000 18 25000
      ⟨Scenario.irc, 300000, 7000⟩ [⟨Scenario.icxt, 200000, 400⟩, ⟨Scenario.flex, 500000, 9000⟩]) w' ∧
      ∀ s' v, Fails w' s' Scenario.conv2 v .acceptTokenOwnership) ∧
    ∃ w', Works orc (n + 3) ready (guideSet alice Scenario.flex2 Scenario.conv2 Scenario.registry "A" "A" 1000 18 25000
      ⟨Scenario.irc, 300000, 7000⟩ [⟨Scenario.icxt, 200000, 400⟩, ⟨Scenario.flex, 500000, 9000⟩] ++
      guideReserves alice Scenario.conv2 alicesPlan ++ guideActivation alice Scenario.flex2 Scenario.conv2) w' ∧ w'.active Scenario.conv2 := by
  refine ⟨C62_as_written ready_reachable alice_prepared, ?_⟩
  obtain ⟨w', h, _, h', _⟩ := C62_converter_set (orc := orc) (n := n) (name := "A") (symbol := "A") ready_reachable alice_prepared
  exact ⟨w', h, h'⟩

end Verif

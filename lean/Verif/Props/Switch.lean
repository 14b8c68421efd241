import Verif.Proofs.Switch
import Verif.Props.Liveness
/-!
C81: the switches work, and the network can be replaced.
-/
set_option autoImplicit false
set_option linter.unusedSimpArgs false
namespace Verif

open Scenario (ready2 ready2_reachable alice owner network)

section
variable {w w' : World} {orc : Oracle} {n : Nat} {a N N2 R s f : Addr} {v m : Int} {d : Data} {x : Val} {p : List Char}
  {rest : List Addr}

/-- C81. Whatever else is the case: if the network converts tokens along a path of converters of this code base - for whatever
beneficiary -, then every switch of the path was on for this network when the tokens were sent. -/
theorem C81_tokens (h : Reachable w) (hk : w.kind N = .net) (hp : KnownPath w a rest) (hd : Requests d s (a :: rest) m f)
    {cv : Int} (hx : exec orc n s a cv (.transfer N v (some d)) w = .ok (x, w')) :
    LegalPath (a :: rest) ∧ SwitchedOn w N a rest := by
  have hI := h.basic
  have hNc := hI.contract N (by rw [hk]; nofun)
  have hNz : N ≠ ZERO := by rintro rfl; rw [hI.zero] at hk; cases hk
  have hka := hp.head
  cases n with
  | zero => simp [ok_exec_zero] at hx
  | succ n =>
    have hcv : cv = 0 := exec_tok_value hka hx (fun _ => ⟨by rintro ⟨⟩, by rintro ⟨⟩⟩)
    subst hcv
    have hh : HonestPath w N a rest := by
      rw [ok_exec_transfer hka] at hx
      obtain ⟨_, _, _, _, h3, _, ⟨h1, _⟩ | ⟨_, y, w1, h1, rfl⟩⟩ := hx
      · rw [hNc] at h1; cases h1
      · cases n with
        | zero => simp [ok_exec_zero] at h1
        | succ n =>
          have hne : d ≠ .conversionResult := by rintro rfl; exact noRequest_result hd
          obtain ⟨_, path, m', g, r, h4, h5, h6, h7, h8, h9⟩ := ok_exec_netFallback (by exact hk) h1 hne
          obtain ⟨rfl, rfl, rfl⟩ := requests_unique h4 hd
          have hal : (w.pay a s N v).Alike (((w.note s a 0 (.transfer N v (some d))).pay a s N v).note a N 0 (.tokenFallback s v d)) :=
            (World.Alike.refl w).note.pay.note
          have hp' : KnownPath (w.pay a s N v) a rest := KnownPath.of (w := w) (w' := w.pay a s N v) rfl rfl (fun _ => ⟨rfl, rfl⟩) hp
          have := internal_known (N := N) (n := n) (orc := orc) rfl rfl hNz hNc (LegalPath.stops h8).1 hal hp' hI.coin_nonneg hI.contract hk h9
          exact HonestPath.of (w := w.pay a s N v) (w' := w) rfl rfl (fun _ => ⟨rfl, rfl⟩) rfl hI.coin_nonneg this
    obtain ⟨_, _, hl, _, u', r, n', w1, y, w2, hr, hal, _, hpay, _⟩ := sent_route hI hk hh hd hx
    have he := LegalPath.stops hl
    have hh' : HonestPath (w.pay a s N v) N a rest :=
      HonestPath.of (w := w) (w' := w.pay a s N v) rfl rfl (fun _ => ⟨rfl, rfl⟩) rfl hI.coin_nonneg hh
    have hdl := deliverable_of_pay (by rw [hr.kind]; exact hh'.last he.1) hal hpay
    have hs := hr.switchedOn hh' (by have := deliverable_movable hdl; rw [hr.kind, hr.flex] at this; exact this)
    exact ⟨hl, SwitchedOn.of (w := w) (w' := w.pay a s N v) rfl rfl rfl rfl (fun _ => ⟨rfl, rfl, rfl, fun _ => ⟨rfl, rfl⟩⟩) hs⟩

/-- C81. The same for coin, with `convert` and `convertFor`. -/
theorem C81_coin (h : Reachable w) (hk : w.kind N = .net) (hp : KnownPath w a rest) (ht : PathText p (a :: rest))
    {c : Call} (hc : c = .convertFor p m f ∨ (c = .convert p m ∧ f = s))
    (hx : exec orc n s N v c w = .ok (x, w')) : LegalPath (a :: rest) ∧ SwitchedOn w N a rest := by
  have hI := h.basic
  have hNc := hI.contract N (by rw [hk]; nofun)
  have hNz : N ≠ ZERO := by rintro rfl; rw [hI.zero] at hk; cases hk
  have hh : HonestPath w N a rest := by
    cases n with
    | zero => simp [ok_exec_zero] at hx
    | succ n =>
      obtain ⟨hv, hb, path, r, y, w1, _, h1, h2, h3, h4, h5, a', rest', he, h6, h7, h8⟩ := ok_exec_convertFor hk hc hx
      have hpe : path = a :: rest := by
        have e1 := pathText_iff.mpr h1; have e2 := pathText_iff.mpr ht; rw [e1] at e2; injection e2
      rw [hpe] at he
      injection he with e1 e2
      subst e1; subst e2
      subst hpe
      have hka := hp.head
      cases n with
      | zero => simp [ok_exec_zero] at h7
      | succ n =>
        by_cases hicx : w.kind a = .icx
        · rw [ok_exec_deposit (by exact hicx) (.inr rfl)] at h7
          obtain ⟨_, h9, _, rfl⟩ := h7
          have hal : (w.staked a N s v).Alike ((((enterW (enterW w s N v c) N a v .fallback).setTok a { (enterW w s N v c).tok a with
              bal := gain ((enterW w s N v c).tok a).bal N v, supply := ((enterW w s N v c).tok a).supply + v }).addLog a (.Issuance v)).addLog a
              (.Transfer a N v .noneBytes)) := ⟨_, _, rfl⟩
          have hcoin : ∀ y, 0 ≤ (w.staked a N s v).coin y := by
            unfold World.staked
            rw [mint_coin]
            exact moveCoin_nonneg (moveCoin_nonneg hI.coin_nonneg hv hb) hv (by exact h9)
          have hp' : KnownPath (w.staked a N s v) a rest := KnownPath.of (w := w) (w' := w.staked a N s v) rfl rfl (fun _ => ⟨rfl, rfl⟩) hp
          have := internal_known (N := N) (n := n + 1) (orc := orc) rfl rfl hNz hNc (LegalPath.stops h2).1 hal hp' hcoin hI.contract hk h8
          exact HonestPath.of (w := w.staked a N s v) (w' := w) rfl rfl (fun _ => ⟨rfl, rfl⟩) rfl hI.coin_nonneg this
        · obtain ⟨rfl, rfl⟩ := fallback_plain (T := a) (by exact hka) (by exact hicx) h7
          have hal : w.Alike ((enterW w s N 0 c).note N a 0 .fallback) := by
            rw [enterW_zero]; exact (World.Alike.refl w).note.note
          exact internal_known (N := N) (n := n + 1) (orc := orc) rfl rfl hNz hNc (LegalPath.stops h2).1 hal hp hI.coin_nonneg hI.contract hk h8
  obtain ⟨_, _, _, hl, _, hv, hb, _, u', r, n', w1, y, _, hr, hal, _, hpay⟩ := staked_route hI hk hh ht hc hx
  have he := LegalPath.stops hl
  have hcoin : ∀ y, 0 ≤ (w.staked a N s v).coin y := by
    unfold World.staked
    rw [mint_coin]
    refine moveCoin_nonneg (moveCoin_nonneg hI.coin_nonneg hv hb) hv ?_
    rw [moveCoin_coin, if_pos rfl]
    have := hI.coin_nonneg N
    by_cases e : N = s
    · subst e; rw [if_pos rfl]; omega
    · rw [if_neg e]; omega
  have hh' : HonestPath (w.staked a N s v) N a rest :=
    HonestPath.of (w := w) (w' := w.staked a N s v) rfl rfl (fun _ => ⟨rfl, rfl⟩) rfl hcoin hh
  have hdl := deliverable_of_pay (by rw [hr.kind]; exact hh'.last he.1) hal hpay
  have hs := hr.switchedOn hh' (by have := deliverable_movable hdl; rw [hr.kind, hr.flex] at this; exact this)
  exact ⟨hl, SwitchedOn.of (w := w) (w' := w.staked a N s v) rfl rfl rfl rfl (fun _ => ⟨rfl, rfl, rfl, fun _ => ⟨rfl, rfl⟩⟩) hs⟩

/-- C81. In other words: one switch off - conversions disabled at one converter, purchases with one connector, transfers of one
token, another network (or none) registered with one converter - and nothing is converted along the path by this network, for
anybody, whatever he sends. -/
theorem C81_off (h : Reachable w) (hk : w.kind N = .net) (hp : KnownPath w a rest) (hoff : ¬ SwitchedOn w N a rest) :
    (∀ d m f cv, Requests d s (a :: rest) m f → Fails w s a cv (.transfer N v (some d))) ∧
    (∀ p m f, PathText p (a :: rest) → Fails w s N v (.convert p m) ∧ Fails w s N v (.convertFor p m f)) :=
  ⟨fun _ _ _ _ hd _ _ _ _ hx => hoff (C81_tokens h hk hp hd hx).2,
    fun _ _ f ht => ⟨fun _ _ _ _ hx => hoff (C81_coin h hk hp ht (f := s) (.inr ⟨rfl, rfl⟩) hx).2,
      fun _ _ _ _ hx => hoff (C81_coin h hk hp ht (f := f) (.inl rfl) hx).2⟩⟩

/-- C81. A quote does not tell: any network quotes any path of honest converters, whichever network these are registered with. -/
theorem C81_quote (h : Reachable w) (hk : w.kind N = .net) (hp : HonestPath w N2 a rest) (ht : PathText p (a :: rest)) :
    (∃ w', exec orc (n + 3) s N 0 (.getExpectedReturnByPath p v) w = .ok (x, w')) ↔
    LegalPath (a :: rest) ∧ 0 < v ∧ ∃ r, x = .int r ∧ Quoted w a rest v r := quote_iff_by h.basic hk ht hp

/-! ### Replacing the network -/

theorem registered_honest (hI : Inv w) (hK : (w.setReg R (fun k => if k = "Network" then some N2 else w.reg R k)).Alike w')
    (hNk : w.kind N2 = .net) : ∀ {a : Addr} {rest : List Addr}, HonestPath w N a rest → UsesRegistry w R a rest → HonestPath w' N2 a rest
  | _, [], h, _ => by unfold HonestPath at h ⊢; rw [hK.kind]; exact h
  | _, [_], h, _ => by unfold HonestPath at h ⊢; rw [hK.kind]; exact h
  | _, ft :: b :: rest, h, hu => by
    obtain ⟨h1, ⟨T, R', h2, h3⟩, h4⟩ := h
    obtain ⟨hu1, hu2⟩ := hu
    have e := hu1 T h2
    rw [h3.registry] at e; cases e
    refine ⟨by rw [hK.kind]; exact h1, ⟨T, R, by rw [hK.own]; exact h2, ?_⟩, registered_honest hI hK hNk h4 hu2⟩
    have hk := hK.kind
    have hc := hK.conv
    refine ⟨by rw [hk]; exact h3.conv, by rw [hc]; exact h3.token, by rw [hk]; exact h3.flex, by rw [hc]; exact h3.registry,
      by rw [hk]; exact h3.reg, by rw [hK.reg]; simp [setReg_reg], by rw [hk]; exact hNk,
      ⟨h3.contract.1, hI.contract N2 (by rw [hNk]; nofun)⟩, by rw [hK.coin]; exact h3.coin⟩

theorem Quoted.alike_reg {g : String → Option Addr} (hK : (w.setReg R g).Alike w') : ∀ {a : Addr} {rest : List Addr} {v r : Int},
    Quoted w a rest v r ↔ Quoted w' a rest v r := by
  obtain ⟨fs, l, rfl⟩ := hK
  intro a rest v r
  constructor
  · intro h
    induction h with
    | done => exact .done
    | hop own curve tradable fee _ ih => exact .hop own curve tradable fee ih
  · intro h
    induction h with
    | done => exact .done
    | hop own curve tradable fee _ ih => exact .hop own curve tradable fee ih

theorem registered_alike (hk : w.kind R = .reg) (hx : exec orc n s R 0 (.registerAddress "Network" N2) w = .ok (x, w')) :
    (w.setReg R (fun k => if k = "Network" then some N2 else w.reg R k)).Alike w' := by
  cases n with
  | zero => simp [ok_exec_zero] at hx
  | succ n =>
    have hs : 0 ≤ w.coin s := ((ok_exec_registerAddress hk).mp hx).2.1
    obtain ⟨_, _, rfl⟩ := (C18_registerAddress hk hs).mp hx
    exact ⟨_, _, rfl⟩

theorem unnamed_off (hu : UsesRegistry w R a rest) (hp : KnownPath w a rest) (hl : LegalPath (a :: rest))
    (hr : w.reg R "Network" ≠ some N) : ¬ SwitchedOn w N a rest := by
  intro hs
  match rest, hl, hu, hp, hs with
  | [], hl, _, _, _ => have := hl.2.1; simp at this
  | [_], hl, _, _, _ => have := hl.1; simp at this
  | ft :: b :: _, _, hu, hp, hs =>
    obtain ⟨_, ⟨T, _, h1, _⟩, _⟩ := hp
    exact hr ((hs.2.1 T h1).2.2 R (hu.1 T h1))

/-- C81. A network that is not registered (any more) with the registry that the converters of a path use, because it was removed or
replaced, converts nothing along this path. -/
theorem C81_retired (h : Reachable w) (hk : w.kind N = .net) (hp : KnownPath w a rest) (hu : UsesRegistry w R a rest)
    (hr : w.reg R "Network" ≠ some N) :
    (∀ d m f cv, Requests d s (a :: rest) m f → Fails w s a cv (.transfer N v (some d))) ∧
    (∀ p m f, PathText p (a :: rest) → Fails w s N v (.convert p m) ∧ Fails w s N v (.convertFor p m f)) := by
  have key : ¬ (LegalPath (a :: rest) ∧ SwitchedOn w N a rest) := fun hh => unnamed_off hu hp hh.1 hr hh.2
  exact ⟨fun _ _ _ _ hd _ _ _ _ hx => key (C81_tokens h hk hp hd hx),
    fun _ _ f ht => ⟨fun _ _ _ _ hx => key (C81_coin h hk hp ht (f := s) (.inr ⟨rfl, rfl⟩) hx),
      fun _ _ _ _ hx => key (C81_coin h hk hp ht (f := f) (.inl rfl) hx)⟩⟩

section
variable {o : Addr} {fuel : Nat}

/-- C81. The owner of the registry can replace the network by another one, in a single call. -/
theorem C81_replace (h : Reachable w) (hR : w.kind R = .reg) (ho : (w.own R).owner = some o) (ho' : o.isContract = false)
    (hN2 : w.kind N2 = .net) :
    ∃ w', (Tx.call o R 0 (.registerAddress "Network" N2)).run orc (fuel + 1) w = .ok (.unit, w') ∧ w'.reg R "Network" = some N2 := by
  have hI := h.basic
  have hz : N2 ≠ ZERO := by rintro rfl; rw [hI.zero] at hN2; cases hN2
  have hx := (C18_registerAddress (orc := orc) (n := fuel) (x := .unit) (name := "Network") (a := N2) hR (hI.coin_nonneg o)).mpr
    ⟨⟨ho, hz, hI.contract N2 (by rw [hN2]; nofun), .inr rfl⟩, rfl, rfl⟩
  have hrun : ∀ z, exec orc (fuel + 1) o R 0 (.registerAddress "Network" N2) w = z →
      (Tx.call o R 0 (.registerAddress "Network" N2)).run orc (fuel + 1) w = z := by
    rintro _ rfl
    unfold Tx.run
    have e : Verif.require (o.isContract = false) "" w = Except.ok ((), w) := by simp [okk, ho']
    exact bind_of_ok e
  exact ⟨_, hrun _ hx, by simp [setReg_reg]⟩

theorem replaced (h : Reachable w) (hR : w.kind R = .reg)
    (hx : (Tx.call o R 0 (.registerAddress "Network" N2)).run orc fuel w = .ok (x, w')) :
    Reachable w' ∧ (w.setReg R (fun k => if k = "Network" then some N2 else w.reg R k)).Alike w' := by
  refine ⟨?_, ?_⟩
  · have := Reachable.step orc fuel (Tx.call o R 0 (.registerAddress "Network" N2)) h
    unfold Tx.apply at this
    rw [hx] at this; exact this
  · unfold Tx.run at hx
    simp only [okk] at hx
    exact registered_alike hR hx.2

/-- C81. After that, paths over converters that use the registry lead through the new network, and its quotes are those of the old
one before. -/
theorem C81_successor (h : Reachable w) (hk : w.kind N = .net) (hR : w.kind R = .reg) (hN2 : w.kind N2 = .net) (hp : HonestPath w N a rest)
    (hu : UsesRegistry w R a rest) (hx : (Tx.call o R 0 (.registerAddress "Network" N2)).run orc fuel w = .ok (x, w')) :
    HonestPath w' N2 a rest ∧ ∀ {orc' : Oracle} {n : Nat} {s : Addr} {v : Int} {p : List Char} {y : Val}, PathText p (a :: rest) →
      ((∃ w1, exec orc' (n + 3) s N 0 (.getExpectedReturnByPath p v) w = .ok (y, w1)) ↔
        ∃ w1, exec orc' (n + 3) s N2 0 (.getExpectedReturnByPath p v) w' = .ok (y, w1)) := by
  obtain ⟨h', hal⟩ := replaced h hR hx
  have hp' := registered_honest h.basic hal hN2 hp hu
  refine ⟨hp', fun {orc' n s v p y} ht => ?_⟩
  rw [C81_quote h hk hp ht, C81_quote h' (by rw [hal.kind]; exact hN2) hp' ht]
  simp only [Quoted.alike_reg hal]

theorem Serving.of (hk : w'.kind = w.kind) (hf : w'.flex = w.flex) (ho : w'.own = w.own) (hc : w'.conv = w.conv) :
    ∀ {a : Addr} {rest : List Addr}, Serving w a rest → Serving w' a rest
  | _, [], h => by unfold Serving at h ⊢; rw [hk, hf]; exact h
  | _, [_], h => by unfold Serving at h ⊢; rw [hk, hf]; exact h
  | _, _ :: _ :: _, h => by
    obtain ⟨h1, h2, h3⟩ := h
    exact ⟨by rw [hk, hf]; exact h1, by rw [ho, hc]; exact h2, Serving.of hk hf ho hc h3⟩

/-- C81. Whoever was quoted `q` by the old network before gets `q` from the new one after, under the conditions of C64. -/
theorem C81_service (h : Reachable w) (hk : w.kind N = .net) (hR : w.kind R = .reg) (hN2 : w.kind N2 = .net) (hp : HonestPath w N a rest)
    (hu : UsesRegistry w R a rest) (hser : Serving w a rest) (hreg : w.net N2 (lastOf a rest) = true → w.kind (lastOf a rest) = .icx)
    {orc' : Oracle} {n' : Nat} {s' : Addr} {cv q : Int} {w1 : World} (ht : PathText p (a :: rest))
    (hq : exec orc' n' s' N cv (.getExpectedReturnByPath p v) w = .ok (.int q, w1))
    (hx : (Tx.call o R 0 (.registerAddress "Network" N2)).run orc fuel w = .ok (x, w'))
    (hf : f.isContract = false) (hf0 : f ≠ ZERO) (hs : w.kind s = .none) (hm : 0 < m) (hmq : m ≤ q) :
    (∀ d, Requests d s (a :: rest) m f → v ≤ (w.tok a).bal s →
      ∃ y w2, exec orc (n + 6) s a 0 (.transfer N2 v (some d)) w' = .ok (y, w2) ∧ Settled w' w2 N2 s a (lastOf a rest) f v q false) ∧
    (w.net N2 a = true → w.kind a = .icx → v ≤ w.coin s →
      ∃ w2, exec orc (n + 5) s N2 v (.convertFor p m f) w' = .ok (.int q, w2) ∧ Settled w' w2 N2 s a (lastOf a rest) f v q true) := by
  obtain ⟨h', hal⟩ := replaced h hR hx
  have hp' := (C81_successor h hk hR hN2 hp hu hx).1
  obtain ⟨_, hv, hl, a', rest', e, h4⟩ := quote_path hk hq ht
  injection e with e1 e2; subst e1; subst e2
  obtain ⟨r, h5, h6, _⟩ := h4 hp
  injection h5 with h5; subst h5
  have hk' : w'.kind N2 = .net := by rw [hal.kind]; exact hN2
  obtain ⟨w3, hq'⟩ := (C81_quote (orc := orc') (n := n') (s := s') h' hk' hp' ht).mpr ⟨hl, hv, _, rfl, (Quoted.alike_reg hal).mp h6⟩
  have hser' : Serving w' a rest := Serving.of (w := w) (w' := w') hal.kind hal.flex hal.own hal.conv hser
  have hreg' : w'.net N2 (lastOf a rest) = true → w'.kind (lastOf a rest) = .icx := by rw [hal.net, hal.kind]; exact hreg
  have hs' : w'.kind s = .none := by rw [hal.kind]; exact hs
  refine ⟨fun d hd hb => ?_, fun hn hka hb => ?_⟩
  · exact C64_tokens h' hk' hp' hser' hreg' ht hq' hd hf hf0 hs' hm hmq (by rw [hal.tok]; exact hb)
  · exact C64_coin h' hk' hp' hser' (by rw [hal.net]; exact hn) (by rw [hal.kind]; exact hka) hreg' ht hq' ht (.inl rfl) hf hf0 hs' hm hmq
      (by rw [hal.coin]; exact hb)
end

end

/-! ### Examples -/

theorem uphill_registry : UsesRegistry ready2 Scenario.registry Scenario.icxt uphill.tail := by
  have h : (ready2.conv Scenario.conv).registry = some Scenario.registry ∧ (ready2.conv Scenario.conv2).registry = some Scenario.registry := by
    exact ⟨ready2_wired1.registry, ready2_wired2.registry⟩
  refine ⟨fun T hT => ?_, fun T hT => ?_, trivial⟩
  · rw [ready2_facts.2.2.2.2.1] at hT; cases hT; exact h.1
  · rw [ready2_facts.2.2.2.2.2] at hT; cases hT; exact h.2

theorem ok_of_isOk {α : Type} {e : Except Err α} (h : e.isOk = true) : ∃ q, e = .ok q := by
  cases e with
  | error _ => cases h
  | ok q => exact ⟨q, rfl⟩

theorem known_uphill {w : World} (h : (w.kind Scenario.icxt).isToken ∧ (w.kind Scenario.flex).isToken ∧ (w.kind Scenario.flex2).isToken)
    (h1 : (w.own Scenario.flex).owner = some Scenario.conv ∧ w.kind Scenario.conv = .conv ∧ (w.conv Scenario.conv).token = some Scenario.flex ∧
      w.kind Scenario.flex = .flex ∧ (w.conv Scenario.conv).registry = some Scenario.registry ∧ w.kind Scenario.registry = .reg)
    (h2 : (w.own Scenario.flex2).owner = some Scenario.conv2 ∧ w.kind Scenario.conv2 = .conv ∧ (w.conv Scenario.conv2).token = some Scenario.flex2 ∧
      w.kind Scenario.flex2 = .flex ∧ (w.conv Scenario.conv2).registry = some Scenario.registry ∧ w.kind Scenario.registry = .reg) :
    KnownPath w Scenario.icxt uphill.tail :=
  ⟨h.1, ⟨_, _, h1⟩, h.2.1, ⟨_, _, h2⟩, h.2.2⟩

set_option maxRecDepth 100000 in
/-- C81: the hypotheses are met - alice converts coin along a path of two converters - and so all switches are on. -/
example : SwitchedOn ready2 network Scenario.icxt uphill.tail := by
  obtain ⟨⟨x, w'⟩, hx⟩ := ok_of_isOk (e := exec Scenario.orc 20 alice network 300 (.convert (Scenario.pathText uphill) 100) ready2) (by decide +kernel)
  exact (C81_coin ready2_reachable ready2_facts.1 uphill_honest.known (pathText_text (by nofun)) (f := alice) (.inr ⟨rfl, rfl⟩) hx).2

/-- The second converter's manager has disabled conversions. -/
def Scenario.switched : World := Scenario.run [.call owner Scenario.conv2 0 (.disableConversions true)] ready2

set_option maxRecDepth 100000 in
/-- C81: one switch is off, two hops away; the path is still known, and still quoted, but nothing is converted, whoever asks. -/
example : Scenario.answer alice network (.getExpectedReturnByPath (Scenario.pathText uphill) 300) Scenario.switched = .ok (.int 147) ∧
    Fails Scenario.switched alice network 300 (.convert (Scenario.pathText uphill) 1) := by
  have hr : Reachable Scenario.switched := Scenario.run_reachable _ ready2_reachable
  have hk : KnownPath Scenario.switched Scenario.icxt uphill.tail := known_uphill (by decide +kernel) (by decide +kernel) (by decide +kernel)
  have hc : (Scenario.switched.own Scenario.flex2).owner = some Scenario.conv2 ∧ (Scenario.switched.conv Scenario.conv2).enabled = false := by decide +kernel
  have hoff : ¬ SwitchedOn Scenario.switched network Scenario.icxt uphill.tail := by
    intro hs
    have := (hs.2.2.2.1 _ hc.1).1
    rw [hc.2] at this; cases this
  exact ⟨by decide +kernel, ((C81_off (v := 300) (s := alice) hr (by decide +kernel) hk hoff).2 _ 1 alice (pathText_text (by nofun))).1⟩

/-- A second network, with the ICX token listed. -/
def Scenario.network2 : Addr := ⟨true, 10⟩
def Scenario.twoNetworks : World := Scenario.run [.deploy owner Scenario.network2 .net,
  .call owner Scenario.network2 0 (.registerIcxToken Scenario.icxt true)] ready2

set_option maxRecDepth 100000 in
theorem twoNetworks_facts : Scenario.twoNetworks.kind network = .net ∧ Scenario.twoNetworks.kind Scenario.network2 = .net ∧
    Scenario.twoNetworks.kind Scenario.registry = .reg ∧ (Scenario.twoNetworks.own Scenario.registry).owner = some owner ∧
    Scenario.twoNetworks.net Scenario.network2 Scenario.icxt = true ∧ Scenario.twoNetworks.kind Scenario.icxt = .icx ∧
    (Scenario.twoNetworks.own Scenario.flex).owner = some Scenario.conv ∧ (Scenario.twoNetworks.own Scenario.flex2).owner = some Scenario.conv2 ∧
    (Scenario.twoNetworks.kind Scenario.flex).isToken ∧ (Scenario.twoNetworks.kind Scenario.flex2).isToken := by decide +kernel

set_option maxRecDepth 100000 in
theorem twoNetworks_wired : Wired Scenario.twoNetworks Scenario.conv Scenario.flex Scenario.registry network ∧
    Wired Scenario.twoNetworks Scenario.conv2 Scenario.flex2 Scenario.registry network := by
  have hr : Reachable Scenario.twoNetworks := Scenario.run_reachable _ ready2_reachable
  exact ⟨wired_of_reachable hr (by decide +kernel) (by decide +kernel) (by decide +kernel) (by decide +kernel) (by decide +kernel)
      (by decide +kernel) (by decide +kernel),
    wired_of_reachable hr (by decide +kernel) (by decide +kernel) (by decide +kernel) (by decide +kernel) (by decide +kernel)
      (by decide +kernel) (by decide +kernel)⟩

set_option maxRecDepth 100000 in
/-- C81: the network is replaced. Alice was quoted 147 by the old one; that one now fails, and the new one pays 147. -/
example : ∃ w', (Tx.call owner Scenario.registry 0 (.registerAddress "Network" Scenario.network2)).run Scenario.orc 20 Scenario.twoNetworks =
      .ok (.unit, w') ∧
    Fails w' alice network 300 (.convert (Scenario.pathText uphill) 1) ∧
    ∃ w2, exec Scenario.orc 10 alice Scenario.network2 300 (.convertFor (Scenario.pathText uphill) 147 alice) w' = .ok (.int 147, w2) := by
  have hr : Reachable Scenario.twoNetworks := Scenario.run_reachable _ ready2_reachable
  obtain ⟨k1, k2, k3, k4, k5, k6, k7, k8, k9, k10⟩ := twoNetworks_facts
  have hp : HonestPath Scenario.twoNetworks network Scenario.icxt uphill.tail :=
    ⟨by rw [k6]; decide, ⟨_, _, k7, twoNetworks_wired.1⟩, k9, ⟨_, _, k8, twoNetworks_wired.2⟩, k10⟩
  have hu : UsesRegistry Scenario.twoNetworks Scenario.registry Scenario.icxt uphill.tail := by
    refine ⟨fun T hT => ?_, fun T hT => ?_, trivial⟩
    · rw [k7] at hT; cases hT; exact twoNetworks_wired.1.registry
    · rw [k8] at hT; cases hT; exact twoNetworks_wired.2.registry
  obtain ⟨w', hx, hreg⟩ := C81_replace (orc := Scenario.orc) (fuel := 19) hr k3 k4 (by decide) k2
  obtain ⟨hr', hal⟩ := replaced hr k3 hx
  refine ⟨w', hx, ?_, ?_⟩
  · have hp' := (C81_successor hr k1 k3 k2 hp hu hx).1
    have hu' : UsesRegistry w' Scenario.registry Scenario.icxt uphill.tail := by
      have : ∀ T, w'.conv T = Scenario.twoNetworks.conv T := fun T => by rw [hal.conv]; rfl
      have ho : w'.own = Scenario.twoNetworks.own := by rw [hal.own]; rfl
      unfold UsesRegistry uphill at *
      simp only [List.tail, UsesRegistry, this, ho] at hu ⊢; exact hu
    exact ((C81_retired (v := 300) (s := alice) hr' (by rw [hal.kind]; exact k1) hp'.known hu'
      (by rw [hreg]; decide)).2 _ 1 alice (pathText_text (by nofun))).1
  · obtain ⟨w1, hq⟩ := answered (s := alice) (t := network) (c := .getExpectedReturnByPath (Scenario.pathText uphill) 300)
      (w := Scenario.twoNetworks) (y := .int 147) (by decide +kernel)
    have hser : Serving Scenario.twoNetworks Scenario.icxt uphill.tail := by
      have h3 : (Scenario.twoNetworks.conv Scenario.conv).enabled = true ∧ (Scenario.twoNetworks.conv Scenario.conv2).enabled = true ∧
        ((Scenario.twoNetworks.conv Scenario.conv).connectors Scenario.icxt).isVirtual = false ∧
        ((Scenario.twoNetworks.conv Scenario.conv2).connectors Scenario.flex).isVirtual = false ∧
        (Scenario.twoNetworks.flex Scenario.flex).transferable = true ∧ (Scenario.twoNetworks.flex Scenario.flex2).transferable = true := by decide +kernel
      obtain ⟨g1, g2, g3, g4, g5, g6⟩ := h3
      refine ⟨fun h => (by rw [k6] at h; cases h), fun T hT => ?_, fun _ => g5, fun T hT => ?_, fun _ => g6⟩
      · rw [k7] at hT; cases hT; exact ⟨g1, .inr g3, .inl rfl⟩
      · rw [k8] at hT; cases hT; exact ⟨g2, .inr g4, .inl rfl⟩
    obtain ⟨w2, h2, _⟩ := (C81_service (orc := Scenario.orc) (n := 5) (s := alice) (f := alice) (m := 147) hr k1 k3 k2 hp hu hser
      (fun h => absurd h (by decide +kernel)) (pathText_text (by nofun)) hq hx (by decide) (by decide) (by decide +kernel) (by decide) (by decide)).2
      k5 k6 (by decide +kernel)
    exact ⟨w2, h2⟩

end Verif

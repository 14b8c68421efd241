import Verif.Spec.Switch
import Verif.Proofs.Sent
import Verif.Proofs.Succeeds
/-!
A conversion that succeeds shows that all switches along its path are on.
-/
set_option autoImplicit false
set_option linter.unusedSimpArgs false
namespace Verif

variable {cx : Ctx} {w w' u : World} {orc : Oracle} {n : Nat} {T t a b N N' R s f : Addr} {v m r : Int} {d : Data} {x : Val} {rest : List Addr}

/-! ### One hop -/

/-- Tokens of this code base, sent by a network to an active converter of this code base, are refused unless the converter's
registry names this network. -/
theorem hop_names (hT : w.kind T = .conv) (ht : (w.conv T).token = some t) (hft : w.kind t = .flex)
    (hR : (w.conv T).registry = some R) (hRk : w.kind R = .reg) (hTc : T.isContract = true) (hcoin : ∀ x, 0 ≤ w.coin x)
    (hact : (w.own t).owner = some T) (hN : N ≠ ZERO) (hka : (w.kind a).isToken) {dd : Option Data}
    (h : exec orc n N a 0 (.transfer T v dd) w = .ok (x, w')) : w.reg R "Network" = some N := by
  obtain ⟨k, rfl⟩ := exec_transfer_fuel hka hTc h
  rw [ok_exec_transfer hka] at h
  obtain ⟨_, _, _, _, _, _, ⟨h1, _⟩ | ⟨_, y, w1, h1, _⟩⟩ := h
  · rw [hTc] at h1; cases h1
  · rw [ok_exec_convView (w := (w.note N a 0 (.transfer T v dd)).pay a N T v) (m := fun cx => Converter.tokenFallback cx N v (dd.getD .noneBytes)) hT rfl] at h1
    obtain ⟨_, _, h1⟩ := h1
    cases k with
    | zero => exact absurd h1 (fallback_stuck (by rintro _ _ _ _ ⟨_, _⟩; simp [ok_exec_zero]))
    | succ k =>
      rw [ok_convFallback (cx := { fr := mkFrame ((w.note N a 0 (.transfer T v dd)).pay a N T v) a T 0 (.tokenFallback N v (dd.getD .noneBytes)), call := exec orc (k + 1) T })
        (w := ((w.note N a 0 (.transfer T v dd)).pay a N T v).note a T 0 (.tokenFallback N v (dd.getD .noneBytes)))
        (t := t) (R := R) (n := k) (orc := orc) ⟨rfl, hcoin, ht, hft⟩ hR hRk] at h1
      obtain ⟨_, ⟨⟨_, _, h2⟩, _⟩ | ⟨_, h2, _⟩⟩ := h1
      · exact absurd hact h2
      · have e : (w.reg R "Network").getD ZERO = N := h2
        cases hr : w.reg R "Network" with
        | none => rw [hr] at e; exact absurd e.symm hN
        | some q => rw [hr] at e; exact congrArg some e

/-! ### Known paths -/

theorem KnownPath.head : ∀ {a : Addr} {rest : List Addr}, KnownPath w a rest → (w.kind a).isToken
  | _, [], h => h
  | _, [_], h => h
  | _, _ :: _ :: _, h => h.1

theorem KnownPath.of (hk : w'.kind = w.kind) (ho : w'.own = w.own)
    (hc : ∀ T, (w'.conv T).token = (w.conv T).token ∧ (w'.conv T).registry = (w.conv T).registry) :
    ∀ {a : Addr} {rest : List Addr}, KnownPath w a rest → KnownPath w' a rest
  | _, [], h => by unfold KnownPath at h ⊢; rw [hk]; exact h
  | _, [_], h => by unfold KnownPath at h ⊢; rw [hk]; exact h
  | _, _ :: _ :: _, h => by
    obtain ⟨h1, ⟨T, R, h2, h3, h4, h5, h6, h7⟩, h8⟩ := h
    refine ⟨by rw [hk]; exact h1, ⟨T, R, by rw [ho]; exact h2, by rw [hk]; exact h3, by rw [(hc T).1]; exact h4, by rw [hk]; exact h5,
      by rw [(hc T).2]; exact h6, by rw [hk]; exact h7⟩, KnownPath.of hk ho hc h8⟩

theorem KnownPath.hopped (h : KnownPath w a rest) {T' t' a' b' N' : Addr} {v' r' : Int} :
    KnownPath (w.hopped T' t' a' b' N' v' r') a rest :=
  h.of (hopped_kind ..) (hopped_own ..) (fun _ => hopped_same ..)

/-- The converters of an honest path are known. -/
theorem HonestPath.known : ∀ {a : Addr} {rest : List Addr}, HonestPath w N a rest → KnownPath w a rest
  | _, [], h => h
  | _, [_], h => h
  | _, _ :: _ :: _, h => by
    obtain ⟨h1, ⟨T, R, h2, h3⟩, h4⟩ := h
    exact ⟨h1, ⟨T, R, h2, h3.conv, h3.token, h3.flex, h3.registry, h3.reg⟩, h4.known⟩

/-- A conversion along a known path shows that it is honest. -/
theorem convertLoop_known (hcall : cx.call = exec orc n N) (hself : cx.self = N) (hN : N ≠ ZERO) (hNc : N.isContract = true) :
    ∀ (rest : List Addr) {a : Addr} {v : Int} {u w w' : World} {z : Addr} {r : Int}, EvenTail rest → u.Alike w → KnownPath u a rest →
      (∀ x, 0 ≤ u.coin x) → (∀ y, u.kind y ≠ .none → y.isContract = true) → u.kind N = .net →
      Network.convertLoop cx m a rest v w = .ok ((z, r), w') → HonestPath u N a rest
  | [], a, v, u, w, w', z, r, _, hal, hp, _, _, _, h => hp
  | [_], _, _, _, _, _, _, _, he, _, _, _, _, _, _ => he.elim
  | ft :: b :: rest, a, v, u, w, w', z, r, he, hal, hp, hcoin, hct, hNk, h => by
    obtain ⟨hka, ⟨T, R, hown, g1, g2, g3, g4, g5⟩, hp'⟩ := hp
    have hkb := hp'.head
    unfold Network.convertLoop at h
    rw [hcall, hself] at h
    rw [okk_bind] at h
    obtain ⟨x1, w1, h1, h⟩ := h
    have hk : ∃ k, n = k + 1 := by
      cases n with
      | zero => simp [ok_exec_zero] at h1
      | succ k => exact ⟨k, rfl⟩
    obtain ⟨k, hk⟩ := hk
    rw [hk, ok_exec_getOwner (by rw [hal.kind, g3]; simp [Kind.isOwned]), hal.own, hown] at h1
    obtain ⟨_, rfl, rfl⟩ := h1
    rw [okk_bind] at h
    obtain ⟨T', w1, h1, h⟩ := h
    cases h1
    rw [okk_bind] at h
    obtain ⟨x2, w2, h2, h⟩ := h
    rw [hk, ok_exec_balanceOf (by rw [note_kind, hal.kind]; exact hkb)] at h2
    obtain ⟨_, rfl, rfl⟩ := h2
    rw [okk_bind] at h
    obtain ⟨before, w2, h2, h⟩ := h
    cases h2
    rw [okk_bind] at h
    obtain ⟨x3, w3, h3, h⟩ := h
    have hal2 : u.Alike ((w.note N ft 0 .getOwner).note N b 0 (.balanceOf N)) := hal.note.note
    have hTc : T.isContract = true := hct T (by rw [g1]; decide)
    have hnet : u.reg R "Network" = some N := by
      have := hop_names (by rw [hal2.kind]; exact g1) (by rw [hal2.conv]; exact g2) (by rw [hal2.kind]; exact g3)
        (by rw [hal2.conv]; exact g4) (by rw [hal2.kind]; exact g5) hTc (by rw [hal2.coin]; exact hcoin)
        (by rw [hal2.own]; exact hown) hN (by rw [hal2.kind]; exact hka) h3
      rw [hal2.reg] at this; exact this
    have hw : Wired u T ft R N := ⟨g1, g2, g3, g4, g5, hnet, hNk, ⟨hTc, hNc⟩, hcoin⟩
    obtain ⟨hv, hb, hmv, r1, hc, hal3⟩ := hop_effect (hal2.wired hw) hN (by rw [hal2.own]; exact hown) (by rw [hal2.kind]; exact hka)
      (by rw [hal2.kind]; exact hkb) asks_request h3
    have hal4 : (u.hopped T ft a b N v r1).Alike w3 := hal2.pay.traded.trans hal3
    rw [okk_bind] at h
    obtain ⟨x4, w4, h4, h⟩ := h
    rw [hk, ok_exec_balanceOf (by rw [hal4.kind, hopped_kind]; exact hkb)] at h4
    obtain ⟨_, rfl, rfl⟩ := h4
    rw [okk_bind] at h
    obtain ⟨after, w4, h4, h⟩ := h
    cases h4
    have hh := convertLoop_known hcall hself hN hNc rest he hal4.note hp'.hopped (by rw [hopped_coin]; exact hcoin)
      (by rw [hopped_kind]; exact hct) (by rw [hopped_kind]; exact hNk) h
    refine ⟨hka, ⟨T, R, hown, hw⟩, ?_⟩
    exact hh.mono (by rw [hopped_kind]; exact fun _ h => h) (hopped_own ..).symm (fun T2 t2 R2 hw2 =>
        ⟨by have := hw2.conv; rwa [hopped_kind] at this, by have := hw2.token; rwa [(hopped_same ..).1] at this,
          by have := hw2.flex; rwa [hopped_kind] at this, by have := hw2.registry; rwa [(hopped_same ..).2] at this,
          by have := hw2.reg; rwa [hopped_kind] at this, by have := hw2.network; rwa [hopped_reg] at this,
          by have := hw2.net; rwa [hopped_kind] at this, hw2.contract, hcoin⟩)

theorem internal_known (hcall : cx.call = exec orc n N) (hself : cx.self = N) (hN : N ≠ ZERO) (hNc : N.isContract = true)
    (he : EvenTail rest) (hal : u.Alike w) (hp : KnownPath u a rest) (hcoin : ∀ x, 0 ≤ u.coin x)
    (hct : ∀ y, u.kind y ≠ .none → y.isContract = true) (hNk : u.kind N = .net)
    (h : Network.convertForInternal cx (a :: rest) v m f w = .ok (r, w')) : HonestPath u N a rest := by
  unfold Network.convertForInternal at h
  rw [okk_bind] at h
  obtain ⟨⟨z, r'⟩, w1, h1, h⟩ := h
  exact convertLoop_known hcall hself hN hNc rest he hal hp hcoin hct hNk h1

/-! ### The switches of a route -/

theorem virt_switches : ((w.virt T a v).conv t).enabled = (w.conv t).enabled ∧
    (∀ z, (((w.virt T a v).conv t).connectors z).isSet = ((w.conv t).connectors z).isSet ∧
      (((w.virt T a v).conv t).connectors z).isPurchaseEnabled = ((w.conv t).connectors z).isPurchaseEnabled) := by
  by_cases h : t = T
  · subst h
    unfold World.virt; split
    · refine ⟨by simp, fun z => ?_⟩
      by_cases hz : z = a
      · subst hz; simp [upd_apply]
      · simp [upd_apply, hz]
    · exact ⟨rfl, fun _ => ⟨rfl, rfl⟩⟩
  · rw [virt_conv_other h]; exact ⟨rfl, fun _ => ⟨rfl, rfl⟩⟩

theorem hopped_switches {T' t' a' b' : Addr} : ((w.hopped T' t' a' b' N v r).conv t).enabled = (w.conv t).enabled ∧
    (∀ z, (((w.hopped T' t' a' b' N v r).conv t).connectors z).isSet = ((w.conv t).connectors z).isSet ∧
      (((w.hopped T' t' a' b' N v r).conv t).connectors z).isPurchaseEnabled = ((w.conv t).connectors z).isPurchaseEnabled) := by
  unfold World.hopped World.traded
  split
  · rw [mint_conv]
    have h1 := virt_switches (w := w.pay a' N T' v) (T := T') (a := a') (v := v) (t := t)
    rw [pay_conv] at h1; exact h1
  · split
    · rw [pay_conv, mint_conv]
      have h1 := virt_switches (w := w.pay a' N T' v) (T := T') (a := b') (v := -r) (t := t)
      rw [pay_conv] at h1; exact h1
    · rw [pay_conv]
      have h1 := virt_switches (w := w.pay a' N T' v) (T := T') (a := a') (v := v) (t := t)
      rw [pay_conv] at h1
      have h2 := virt_switches (w := (w.pay a' N T' v).virt T' a' v) (T := T') (a := b') (v := -r) (t := t)
      exact ⟨h2.1.trans h1.1, fun z => ⟨(h2.2 z).1.trans (h1.2 z).1, (h2.2 z).2.trans (h1.2 z).2⟩⟩

theorem tradable_of (ht : (w'.conv T).token = (w.conv T).token)
    (h : ∀ z, ((w'.conv T).connectors z).isSet = ((w.conv T).connectors z).isSet ∧
      ((w'.conv T).connectors z).isPurchaseEnabled = ((w.conv T).connectors z).isPurchaseEnabled) :
    w'.tradable T a b ↔ w.tradable T a b := by
  unfold World.tradable
  rw [ht, (h a).1, (h a).2, (h b).1, (h b).2]

theorem SwitchedOn.of (hk : w'.kind = w.kind) (hf : w'.flex = w.flex) (ho : w'.own = w.own) (hr : w'.reg = w.reg)
    (hc : ∀ T, (w'.conv T).token = (w.conv T).token ∧ (w'.conv T).registry = (w.conv T).registry ∧
      (w'.conv T).enabled = (w.conv T).enabled ∧ (∀ z, ((w'.conv T).connectors z).isSet = ((w.conv T).connectors z).isSet ∧
      ((w'.conv T).connectors z).isPurchaseEnabled = ((w.conv T).connectors z).isPurchaseEnabled)) :
    ∀ {a : Addr} {rest : List Addr}, SwitchedOn w' N a rest → SwitchedOn w N a rest
  | _, [], h => by unfold SwitchedOn at h ⊢; rw [← hk, ← hf]; exact h
  | _, [_], h => by unfold SwitchedOn at h ⊢; rw [← hk, ← hf]; exact h
  | a, ft :: b :: rest, h => by
    obtain ⟨h1, h2, h3⟩ := h
    refine ⟨by rw [← hk, ← hf]; exact h1, fun T hT => ?_, SwitchedOn.of hk hf ho hr hc h3⟩
    obtain ⟨g1, g2, g3⟩ := h2 T (by rw [ho]; exact hT)
    obtain ⟨e1, e2, e3, e4⟩ := hc T
    exact ⟨by rw [← e3]; exact g1, (tradable_of e1 e4).mp g2, fun R hR => by rw [← hr]; exact g3 R (by rw [e2]; exact hR)⟩

theorem SwitchedOn.hopped {T' t' a' b' N' : Addr} {v' r' : Int} (h : SwitchedOn (w.hopped T' t' a' b' N' v' r') N a rest) :
    SwitchedOn w N a rest :=
  h.of (hopped_kind ..) (hopped_flex ..) (hopped_own ..) (hopped_reg ..)
    (fun _ => ⟨(hopped_same ..).1, (hopped_same ..).2, hopped_switches.1, hopped_switches.2⟩)

theorem Route.switchedOn {rest : List Addr} (h : Route N m u a rest v w r) : HonestPath u N a rest →
    (u.kind (lastOf a rest) = .flex → (u.flex (lastOf a rest)).transferable = true) → SwitchedOn u N a rest := by
  induction h with
  | done => exact fun _ hl => hl
  | @hop w a ft b rest v T r1 w' r own pos bal move conv next ih =>
    intro hp hl
    obtain ⟨hka, ⟨T', R, hown, hw⟩, hp'⟩ := hp
    rw [own] at hown; cases hown
    refine ⟨move, fun T' hT' => ?_, ?_⟩
    · rw [own] at hT'; cases hT'
      refine ⟨conv.enabled, conv.tradable, fun R' hR' => ?_⟩
      rw [hw.registry] at hR'; cases hR'; exact hw.network
    · exact (ih hp'.hopped (by rw [hopped_kind, hopped_flex]; exact hl)).hopped

/-- A delivered token is not disabled. -/
theorem deliverable_movable {z : Addr} (h : u.deliverable N z r) : u.kind z = .flex → (u.flex z).transferable = true := by
  unfold World.deliverable at h
  split at h
  · intro hk; rw [h.1] at hk; cases hk
  · exact h

/-! ### Quotes through any network

These are the statements of `PathQuote` and `Succeeds`, for a path that is honest for another network than the one asked. -/

theorem expectedLoop_quoted_by (hcall : cx.call = exec orc n N) :
    ∀ (rest : List Addr) {a : Addr} {v : Int} {u w w' : World} {r : Int}, EvenTail rest → u.Alike w → HonestPath u N' a rest →
      Network.expectedLoop cx a rest v w = .ok (r, w') → Quoted u a rest v r ∧ u.Alike w'
  | [], a, v, u, w, w', r, _, hal, hp, h => by
    unfold Network.expectedLoop at h; cases h
    exact ⟨.done, hal⟩
  | [_], _, _, _, _, _, _, he, _, _, _ => he.elim
  | ft :: b :: rest, a, v, u, w, w', r, he, hal, hp, h => by
    obtain ⟨hka, ⟨T, R, hown, hw⟩, hp'⟩ := hp
    have hkb := hp'.head
    unfold Network.expectedLoop at h
    rw [hcall] at h
    rw [okk_bind] at h
    obtain ⟨x1, w1, h1, h⟩ := h
    have hk : ∃ k, n = k + 1 := by
      cases n with
      | zero => simp [ok_exec_zero] at h1
      | succ k => exact ⟨k, rfl⟩
    obtain ⟨k, hk⟩ := hk
    rw [hk, ok_exec_getOwner (by rw [hal.kind, hw.flex]; simp [Kind.isOwned]), hal.own, hown] at h1
    obtain ⟨_, rfl, rfl⟩ := h1
    rw [okk_bind] at h
    obtain ⟨T', w1, h1, h⟩ := h
    cases h1
    rw [okk_bind] at h
    obtain ⟨x2, w2, h2, h⟩ := h
    have hal1 : u.Alike (w.note N ft 0 .getOwner) := hal.note
    obtain ⟨_, _, h3, c, h4, h5, rfl, rfl⟩ := getReturn_effect (hal1.wired hw) (by rw [hal1.kind]; exact hka) (by rw [hal1.kind]; exact hkb) h2
    rw [okk_bind] at h
    obtain ⟨am, w2, h6, h⟩ := h
    cases h6
    rw [hal1.tradable] at h3
    rw [hal1.curve] at h4
    rw [hal1.afterFee, hal1.feeSteps] at h h5
    obtain ⟨h7, h8⟩ := expectedLoop_quoted_by hcall rest he (hal1.note.trans alike_readQuote) hp' h
    exact ⟨.hop hown h4 h3 h5 h7, h8⟩


theorem quote_path_by {p : List Char} {cv : Int} {x : Val} {path : List Addr} (hk : w.kind N = .net)
    (h : exec orc n s N cv (.getExpectedReturnByPath p v) w = .ok (x, w')) (hp : PathText p path) :
    cv = 0 ∧ 0 < v ∧ LegalPath path ∧ ∃ a rest, path = a :: rest ∧
      (HonestPath w N' a rest → ∃ r, x = .int r ∧ Quoted w a rest v r ∧ w.Alike w') := by
  cases n with
  | zero => simp [ok_exec_zero] at h
  | succ n =>
    rw [ok_exec_net hk] at h
    have e : Network.dispatch { fr := mkFrame w s N cv (.getExpectedReturnByPath p v), call := exec orc n N } =
        runNonPayable { fr := mkFrame w s N cv (.getExpectedReturnByPath p v), call := exec orc n N }
          (some do return .int (← Network.getExpectedReturnByPath { fr := mkFrame w s N cv (.getExpectedReturnByPath p v), call := exec orc n N } p v)) := rfl
    rw [e, ok_runNonPayable, ok_view] at h
    obtain ⟨_, hcv, r, h, hx⟩ := h
    have hcv : cv = 0 := hcv
    subst hcv
    refine ⟨rfl, ?_⟩
    rw [enterW_zero] at h
    unfold Network.getExpectedReturnByPath at h
    rw [okk_bind] at h
    obtain ⟨path', w1, h1, h⟩ := h
    rw [readPath_ok] at h1
    obtain ⟨h1, h1'⟩ := h1
    have h1' : w1 = w.note s N 0 (.getExpectedReturnByPath p v) := h1'
    subst h1'
    have hpe : path' = path := by
      have e1 := pathText_iff.mpr h1; have e2 := pathText_iff.mpr hp; rw [e1] at e2; injection e2
    subst hpe
    simp only [Network.requireValidPath, okk] at h
    obtain ⟨h2, h3, h⟩ := h
    refine ⟨h3, validPath_iff.mp h2, ?_⟩
    cases path' with
    | nil => simp only [okk] at h
    | cons a rest =>
      refine ⟨a, rest, rfl, fun hh => ⟨r, hx, ?_⟩⟩
      exact expectedLoop_quoted_by rfl rest (LegalPath.stops (validPath_iff.mp h2)).1 (World.Alike.refl w).note hh h


theorem expectedLoop_of_quoted_by (hcall : cx.call = exec orc (n + 2) N) {rest : List Addr} (hq : Quoted u a rest v r) :
    ∀ {w : World}, u.Alike w → HonestPath u N' a rest → (∀ x, 0 ≤ u.coin x) → ∃ w', Network.expectedLoop cx a rest v w = .ok (r, w') := by
  induction hq with
  | done => intro w _ _ _; exact ⟨w, rfl⟩
  | @hop a ft b rest v T c r own curve tradable fee next ih =>
    intro w hal hp hcoin
    obtain ⟨hka, ⟨T', R, hown, hw⟩, hp'⟩ := hp
    rw [own] at hown; cases hown
    have hkb := hp'.head
    have hal1 : u.Alike (w.note N ft 0 .getOwner) := hal.note
    have e1 : cx.call ft 0 .getOwner w = .ok (.addr (some T), w.note N ft 0 .getOwner) := by
      rw [hcall, ok_exec_getOwner (by rw [hal.kind, hw.flex]; simp [Kind.isOwned]), hal.own, own]
      exact ⟨by rw [hal.coin]; exact hcoin N, rfl, rfl⟩
    have e2 := (ok_exec_getReturn (orc := orc) (n := n) (s := N) (cv := 0) (v := v) (x := .ret (u.afterFee T c (u.feeSteps T a b)) (c - u.afterFee T c (u.feeSteps T a b)))
      (w' := ((w.note N ft 0 .getOwner).note N T 0 (.getReturn a b v)).readQuote T ft a b) (hal1.wired hw)
      (by rw [hal1.kind]; exact hka) (by rw [hal1.kind]; exact hkb)).mpr
      ⟨rfl, by rw [hal1.own]; exact own, by rw [hal1.tradable]; exact tradable, c, by rw [hal1.curve]; exact curve,
        by rw [hal1.afterFee, hal1.feeSteps]; exact fee, by rw [hal1.afterFee, hal1.feeSteps], rfl⟩
    rw [← hcall] at e2
    obtain ⟨w', e3⟩ := ih (hal1.note.trans alike_readQuote) hp' hcoin
    refine ⟨w', ?_⟩
    unfold Network.expectedLoop
    rw [bind_of_ok e1, bind_of_ok (rfl : asAddr (.addr (some T)) _ = .ok (T, _)), bind_of_ok e2]
    rw [bind_of_ok (rfl : asAmount (.ret _ _) _ = .ok (_, _))]
    exact e3


theorem quote_iff_by {p : List Char} {x : Val} {rest : List Addr} (hI : Inv w) (hk : w.kind N = .net)
    (hp : PathText p (a :: rest)) (hh : HonestPath w N' a rest) :
    (∃ w', exec orc (n + 3) s N 0 (.getExpectedReturnByPath p v) w = .ok (x, w')) ↔
    LegalPath (a :: rest) ∧ 0 < v ∧ ∃ r, x = .int r ∧ Quoted w a rest v r := by
  constructor
  · rintro ⟨w', h⟩
    obtain ⟨_, h1, h2, a', rest', e, h3⟩ := quote_path_by hk h hp
    injection e with e1 e2; subst e1; subst e2
    obtain ⟨r, h4, h5, _⟩ := h3 hh
    exact ⟨h2, h1, r, h4, h5⟩
  · rintro ⟨h1, h2, r, rfl, hq⟩
    have he := LegalPath.stops h1
    obtain ⟨w', h3⟩ := expectedLoop_of_quoted_by (orc := orc) (n := n) (w := w.note s N 0 (.getExpectedReturnByPath p v))
      (cx := { fr := mkFrame w s N 0 (.getExpectedReturnByPath p v), call := exec orc (n + 2) N }) rfl hq
      (World.Alike.refl w).note hh hI.coin_nonneg
    refine ⟨w', ?_⟩
    rw [ok_exec_net hk]
    have e : Network.dispatch { fr := mkFrame w s N 0 (.getExpectedReturnByPath p v), call := exec orc (n + 2) N } =
        runNonPayable { fr := mkFrame w s N 0 (.getExpectedReturnByPath p v), call := exec orc (n + 2) N }
          (some do return .int (← Network.getExpectedReturnByPath { fr := mkFrame w s N 0 (.getExpectedReturnByPath p v), call := exec orc (n + 2) N } p v)) := rfl
    refine ⟨⟨Int.le_refl 0, hI.coin_nonneg s⟩, ?_⟩
    rw [e, ok_runNonPayable, ok_view]
    refine ⟨rfl, r, ?_, rfl⟩
    rw [enterW_zero]
    unfold Network.getExpectedReturnByPath
    rw [bind_of_ok ((readPath_ok (q := (a :: rest, _))).mpr ⟨hp, rfl⟩)]
    simp only [Network.requireValidPath, okk]
    exact ⟨validPath_iff.mpr h1, h2, h3⟩


end Verif

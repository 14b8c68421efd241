import Verif.Proofs.PathQuote
import Verif.Proofs.Trace
import Verif.Proofs.Inv
/-!
Conversions as transactions: tokens or coin sent to the network.
-/
set_option linter.unusedSimpArgs false
namespace Verif

variable {w w' u : World} {orc : Oracle} {n : Nat} {T t a b N R s f : Addr} {v m r : Int} {d : Data} {x : Val}

theorem HonestPath.of (hk : w'.kind = w.kind) (ho : w'.own = w.own) (hc : ∀ T, (w'.conv T).token = (w.conv T).token ∧ (w'.conv T).registry = (w.conv T).registry)
    (hr : w'.reg = w.reg) (hcoin : ∀ x, 0 ≤ w'.coin x) {rest : List Addr} (h : HonestPath w N a rest) : HonestPath w' N a rest :=
  h.mono (by rw [hk]; exact fun _ h => h) ho (fun T t R hw =>
    ⟨by rw [hk]; exact hw.conv, by rw [(hc T).1]; exact hw.token, by rw [hk]; exact hw.flex, by rw [(hc T).2]; exact hw.registry,
      by rw [hk]; exact hw.reg, by rw [hr]; exact hw.network, by rw [hk]; exact hw.net, hw.contract, hcoin⟩)

theorem noRequest_result {p : List Addr} : ¬ Requests .conversionResult s p m f := by
  rintro ⟨_, _, _, h, _⟩; cases h

/-- Tokens sent to the network with a request for an honest path. -/
theorem sent_route (hI : Inv w) (hk : w.kind N = .net) {rest : List Addr} (hp : HonestPath w N a rest)
    (hd : Requests d s (a :: rest) m f) (h : exec orc n s a 0 (.transfer N v (some d)) w = .ok (x, w')) :
    0 < m ∧ f ≠ ZERO ∧ LegalPath (a :: rest) ∧ v ≤ (w.tok a).bal s ∧
    ∃ u' r n' w1 y w2, Route N m (w.pay a s N v) a rest v u' r ∧ u'.Alike w1 ∧ w.frames <:+ w1.frames ∧
      exec orc n' N (lastOf a rest) 0 (payCall u' N (lastOf a rest) f r) w1 = .ok (y, w2) ∧ w2.Alike w' ∧ w2.frames = w'.frames := by
  have hNc := hI.contract N (by rw [hk]; nofun)
  have hNz : N ≠ ZERO := by rintro rfl; rw [hI.zero] at hk; cases hk
  have hka := hp.head
  cases n with
  | zero => simp [ok_exec_zero] at h
  | succ n =>
    rw [ok_exec_transfer hka] at h
    obtain ⟨_, _, _, _, h3, _, ⟨h1, _⟩ | ⟨_, y, w1, h1, rfl⟩⟩ := h
    · rw [hNc] at h1; cases h1
    · cases n with
      | zero => simp [ok_exec_zero] at h1
      | succ n =>
        have hne : d ≠ .conversionResult := by rintro rfl; exact noRequest_result hd
        obtain ⟨_, path, m', g, r, h4, h5, h6, h7, h8, h9⟩ := ok_exec_netFallback (by exact hk) h1 hne
        obtain ⟨rfl, rfl, rfl⟩ := requests_unique h4 hd
        have hal : (w.pay a s N v).Alike (((w.note s a 0 (.transfer N v (some d))).pay a s N v).note a N 0 (.tokenFallback s v d)) :=
          (World.Alike.refl w).note.pay.note
        have hp' : HonestPath (w.pay a s N v) N a rest := HonestPath.of (w := w) (w' := w.pay a s N v) rfl rfl (fun _ => ⟨rfl, rfl⟩) rfl hI.coin_nonneg hp
        obtain ⟨u', w2, y', hr, hal', hfr, h10⟩ := internal_route (n := n) (by exact hk) (orc := orc) rfl rfl hNz (LegalPath.stops h8).1 hal hp' hI.coin_nonneg h9
        exact ⟨h6, h7, h8, h3, u', r, n, w2, y', w1, hr, hal', ((List.suffix_cons _ _).trans (List.suffix_cons _ _)).trans hfr, h10, (World.Alike.refl w1).addLog, rfl⟩

theorem moveCoin_nonneg (h : ∀ y, 0 ≤ w.coin y) (hv : 0 ≤ v) (hb : v ≤ w.coin a) : ∀ y, 0 ≤ (w.moveCoin a b v).coin y := by
  intro y
  unfold World.moveCoin
  simp only [upd_apply]
  have h1 := h y
  have h2 := h b
  have h3 := h a
  split
  · split <;> omega
  · split <;> omega

/-- A token that is not an ICX token takes no coin. -/
theorem fallback_plain {s : Addr} {y : Val} (hk : (w.kind T).isToken) (hni : w.kind T ≠ .icx)
    (h : exec orc (n + 1) s T v .fallback w = .ok (y, w')) : v = 0 ∧ w' = w.note s T 0 .fallback := by
  have key : runNonPayable { fr := mkFrame w s T v .fallback, call := exec orc n T } none (enterW w s T v .fallback) = .ok (y, w') →
      v = 0 ∧ w' = w.note s T 0 .fallback := by
    intro h
    have e : runNonPayable { fr := mkFrame w s T v .fallback, call := exec orc n T } none =
      runNonPayable { fr := mkFrame w s T v .fallback, call := exec orc n T } (some (pure .unit)) := rfl
    rw [e, ok_runNonPayable] at h
    obtain ⟨hv, h⟩ := h
    have hv : v = 0 := hv
    subst hv
    rw [enterW_zero] at h
    cases h; exact ⟨rfl, rfl⟩
  rcases hk with hk | hk | hk
  · rw [ok_exec_irc hk] at h; exact key h.2
  · exact absurd hk hni
  · rw [ok_exec_flex hk] at h; exact key h.2

/-- Coin sent to the network for an honest path. -/
theorem staked_route (hI : Inv w) (hk : w.kind N = .net) {rest : List Addr} {p : List Char} {c : Call} (hp : HonestPath w N a rest)
    (ht : PathText p (a :: rest)) (hc : c = .convertFor p m f ∨ (c = .convert p m ∧ f = s))
    (h : exec orc n s N v c w = .ok (x, w')) :
    0 < m ∧ f ≠ ZERO ∧ f ≠ N ∧ LegalPath (a :: rest) ∧ w.net N a = true ∧ 0 ≤ v ∧ v ≤ w.coin s ∧ w.kind a = .icx ∧
    (∃ u' r n' w1 y, x = .int r ∧ Route N m (w.staked a N s v) a rest v u' r ∧ u'.Alike w1 ∧ w.frames <:+ w1.frames ∧
      exec orc n' N (lastOf a rest) 0 (payCall u' N (lastOf a rest) f r) w1 = .ok (y, w')) := by
  have hNz : N ≠ ZERO := by rintro rfl; rw [hI.zero] at hk; cases hk
  cases n with
  | zero => simp [ok_exec_zero] at h
  | succ n =>
    obtain ⟨hv, hb, path, r, y, w1, hx, h1, h2, h3, h4, h5, a', rest', he, h6, h7, h8⟩ := ok_exec_convertFor hk hc h
    have hpe : path = a :: rest := by
      have e1 := pathText_iff.mpr h1; have e2 := pathText_iff.mpr ht; rw [e1] at e2; injection e2
    rw [hpe] at he
    injection he with e1 e2
    subst e1; subst e2
    subst hpe
    cases n with
    | zero => simp [ok_exec_zero] at h7
    | succ n =>
      have hicx : w.kind a = .icx := by
        by_contra hni
        have hz := fallback_plain (T := a) (by exact hp.head) (by exact hni) h7
        obtain ⟨rfl, rfl⟩ := hz
        have hal : w.Alike ((enterW w s N 0 c).note N a 0 .fallback) := by
          rw [enterW_zero]; exact (World.Alike.refl w).note.note
        obtain ⟨u', w2, y', hr, _⟩ := internal_route (n := n + 1) (by exact hk) (orc := orc) rfl rfl hNz (LegalPath.stops h2).1 hal hp hI.coin_nonneg h8
        have := (hr.min (LegalPath.stops h2).2.1).2.2
        omega
      refine ⟨h3, h4, h5, h2, h6, hv, hb, hicx, ?_⟩
      rw [ok_exec_deposit (by exact hicx) (.inr rfl)] at h7
      obtain ⟨_, h9, _, rfl⟩ := h7
      have hal : (w.staked a N s v).Alike ((((enterW (enterW w s N v c) N a v .fallback).setTok a { (enterW w s N v c).tok a with
          bal := gain ((enterW w s N v c).tok a).bal N v, supply := ((enterW w s N v c).tok a).supply + v }).addLog a (.Issuance v)).addLog a
          (.Transfer a N v .noneBytes)) := ⟨_, _, rfl⟩
      have hcoin : ∀ y, 0 ≤ (w.staked a N s v).coin y := by
        unfold World.staked
        rw [mint_coin]
        exact moveCoin_nonneg (moveCoin_nonneg hI.coin_nonneg hv hb) hv (by exact h9)
      have hp' : HonestPath (w.staked a N s v) N a rest := HonestPath.of (w := w) (w' := w.staked a N s v) rfl rfl (fun _ => ⟨rfl, rfl⟩) rfl hcoin hp
      obtain ⟨u', w2, y', hr, hal', hfr, h10⟩ := internal_route (n := n + 1) (by exact hk) (orc := orc) rfl rfl hNz (LegalPath.stops h2).1 hal hp' hcoin h8
      exact ⟨u', r, n + 1, w2, y', hx, hr, hal', ((List.suffix_cons _ _).trans (List.suffix_cons _ _)).trans hfr, h10⟩

theorem kind_of_plain (hI : Inv w) (hf : f.isContract = false) : w.kind f = .none := by
  by_contra hne
  rw [hI.contract f hne] at hf; cases hf

/-- A payment is a call of the network. -/
theorem exec_head {c : Call} {z : Addr} {y : Val} (h : exec orc n s z v c w = .ok (y, w')) :
    ∃ l, w'.frames = l ++ mkFrame w s z v c :: w.frames := by
  cases n with
  | zero => exact (exec_zero h).elim
  | succ n =>
    obtain ⟨⟨hv, _⟩, h⟩ := exec_succ h
    have hcall : CallOK ExecRel { fr := mkFrame w s z v c, call := exec orc n z } :=
      fun t' v' c' w1 x1 w1' e => exec_rel orc n z t' v' c' w1 x1 w1' e
    obtain ⟨l, hl⟩ := ((body_body orc hcall execRel_stable (start_enter w s z v c hv) _ _ h).stable execRel_stable).frames
    exact ⟨l, by rw [← hl, enterW_frames]⟩

end Verif

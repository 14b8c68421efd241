import Verif.Proofs.Open
import Verif.Proofs.Paths
/-!
Conversions along a path of honest converters.
-/
set_option linter.unusedSimpArgs false
namespace Verif

variable {cx : Ctx} {w w' u : World} {orc : Oracle} {n : Nat} {T t a b N R s : Addr} {v m r : Int}

/-! ### One hop, as a change of the ledger -/

theorem virt_conv_other {T' : Addr} (h : T' ≠ T) : (w.virt T a v).conv T' = w.conv T' := by
  unfold World.virt; split
  · simp [setConv_conv, h]
  · rfl

theorem virt_same {T' : Addr} : ((w.virt T a v).conv T').token = (w.conv T').token ∧
    ((w.virt T a v).conv T').registry = (w.conv T').registry := by
  by_cases h : T' = T
  · subst h; unfold World.virt; split <;> simp
  · rw [virt_conv_other h]; exact ⟨rfl, rfl⟩

section
variable (w T t a b N v r)
theorem traded_kind : (w.traded T t a b N v r).kind = w.kind := by unfold World.traded; split <;> [skip; split] <;> simp
theorem traded_own : (w.traded T t a b N v r).own = w.own := by unfold World.traded; split <;> [skip; split] <;> simp
theorem traded_flex : (w.traded T t a b N v r).flex = w.flex := by unfold World.traded; split <;> [skip; split] <;> simp
theorem traded_reg : (w.traded T t a b N v r).reg = w.reg := by unfold World.traded; split <;> [skip; split] <;> simp
theorem traded_net : (w.traded T t a b N v r).net = w.net := by unfold World.traded; split <;> [skip; split] <;> simp
theorem traded_coin : (w.traded T t a b N v r).coin = w.coin := by unfold World.traded; split <;> [skip; split] <;> simp
theorem traded_same (T') : ((w.traded T t a b N v r).conv T').token = (w.conv T').token ∧
    ((w.traded T t a b N v r).conv T').registry = (w.conv T').registry := by
  unfold World.traded; split
  · rw [mint_conv]; exact virt_same
  · split
    · rw [pay_conv, mint_conv]; exact virt_same
    · rw [pay_conv]
      exact ⟨virt_same.1.trans virt_same.1, virt_same.2.trans virt_same.2⟩
variable {T}
theorem traded_conv_other {T' : Addr} (h : T' ≠ T) : (w.traded T t a b N v r).conv T' = w.conv T' := by
  unfold World.traded; split
  · rw [mint_conv]; exact virt_conv_other h
  · split
    · rw [pay_conv, mint_conv]; exact virt_conv_other h
    · rw [pay_conv, virt_conv_other h, virt_conv_other h]
variable {N}
/-- Only the network and the converter gain or lose tokens. -/
theorem traded_bal {y : Addr} (h1 : y ≠ N) (h2 : y ≠ T) (z : Addr) : ((w.traded T t a b N v r).tok z).bal y = (w.tok z).bal y := by
  have hm : ∀ (w : World) t x (v : Int), y ≠ x → ((w.mint t x v).tok z).bal y = (w.tok z).bal y := by
    intro w t x v hx; unfold World.mint; rw [setTok_tok]; split
    · subst z; simp [gain, hx]
    · rfl
  have hp : ∀ (w : World) b (r : Int), ((w.pay b T N r).tok z).bal y = (w.tok z).bal y := by
    intro w b r; unfold World.pay; rw [setTok_tok]; split
    · subst z; simp [moveBal, h1, h2]
    · rfl
  unfold World.traded; split
  · rw [hm _ _ _ _ h1, virt_tok]
  · split
    · rw [hp, hm _ _ _ _ h2, virt_tok]
    · rw [hp, virt_tok, virt_tok]
/-- Only the supply of the flexible token changes. -/
theorem traded_supply {z : Addr} (h : z ≠ t) : ((w.traded T t a b N v r).tok z).supply = (w.tok z).supply := by
  have hm : ∀ (w : World) x (v : Int), ((w.mint t x v).tok z).supply = (w.tok z).supply := by
    intro w x v; unfold World.mint; rw [setTok_tok, if_neg h]
  have hp : ∀ (w : World) b (r : Int), ((w.pay b T N r).tok z).supply = (w.tok z).supply := by
    intro w b r; unfold World.pay; rw [setTok_tok]; split
    · subst z; rfl
    · rfl
  unfold World.traded; split
  · rw [hm, virt_tok]
  · split
    · rw [hp, hm, virt_tok]
    · rw [hp, virt_tok, virt_tok]
/-- The network gets exactly what is paid. -/
theorem traded_bal_net (hNT : N ≠ T) (z : Addr) :
    ((w.traded T t a b N v r).tok z).bal N = (w.tok z).bal N + (if z = b then r else 0) := by
  have hp : ∀ (w : World) b (r : Int), ((w.pay b T N r).tok z).bal N = (w.tok z).bal N + (if z = b then r else 0) := by
    intro w b r; unfold World.pay; rw [setTok_tok]; split
    · subst z; simp [moveBal, hNT]
    · simp
  unfold World.traded; split
  · subst b
    unfold World.mint; rw [setTok_tok, virt_tok]; split
    · subst z; simp [gain]
    · simp
  · split
    · rw [hp]; unfold World.mint; rw [setTok_tok, virt_tok]; split
      · subst z; simp [gain, hNT]
      · rfl
    · rw [hp, virt_tok, virt_tok]
end

section
variable (w T t a b N v r)
theorem hopped_kind : (w.hopped T t a b N v r).kind = w.kind := traded_kind ..
theorem hopped_own : (w.hopped T t a b N v r).own = w.own := traded_own ..
theorem hopped_flex : (w.hopped T t a b N v r).flex = w.flex := traded_flex ..
theorem hopped_reg : (w.hopped T t a b N v r).reg = w.reg := traded_reg ..
theorem hopped_net : (w.hopped T t a b N v r).net = w.net := traded_net ..
theorem hopped_coin : (w.hopped T t a b N v r).coin = w.coin := traded_coin ..
theorem hopped_same (T') : ((w.hopped T t a b N v r).conv T').token = (w.conv T').token ∧
    ((w.hopped T t a b N v r).conv T').registry = (w.conv T').registry := traded_same ..
variable {T}
theorem hopped_conv_other {T' : Addr} (h : T' ≠ T) : (w.hopped T t a b N v r).conv T' = w.conv T' := traded_conv_other _ _ _ _ _ _ _ h
variable {N}
theorem hopped_bal {y : Addr} (h1 : y ≠ N) (h2 : y ≠ T) (z : Addr) : ((w.hopped T t a b N v r).tok z).bal y = (w.tok z).bal y := by
  unfold World.hopped; rw [traded_bal _ _ _ _ _ _ h1 h2]
  unfold World.pay; rw [setTok_tok]; split
  · subst z; simp [moveBal, h1, h2]
  · rfl
theorem hopped_supply {z : Addr} (h : z ≠ t) : ((w.hopped T t a b N v r).tok z).supply = (w.tok z).supply := by
  unfold World.hopped; rw [traded_supply _ _ _ _ _ _ h]
  unfold World.pay; rw [setTok_tok]; split
  · subst z; rfl
  · rfl
theorem hopped_bal_net (hNT : N ≠ T) (z : Addr) :
    ((w.hopped T t a b N v r).tok z).bal N = (w.tok z).bal N - (if z = a then v else 0) + (if z = b then r else 0) := by
  unfold World.hopped; rw [traded_bal_net _ _ _ _ _ _ hNT]
  congr 1
  unfold World.pay; rw [setTok_tok]; split
  · subst z; simp [moveBal, hNT]
  · simp
end

theorem Wired.hopped (h : Wired w T t R N) {T' t' a' b' N' : Addr} {v' r' : Int} : Wired (w.hopped T' t' a' b' N' v' r') T t R N :=
  ⟨by rw [hopped_kind]; exact h.conv, by rw [(hopped_same ..).1]; exact h.token, by rw [hopped_kind]; exact h.flex,
    by rw [(hopped_same ..).2]; exact h.registry, by rw [hopped_kind]; exact h.reg, by rw [hopped_reg]; exact h.network,
    by rw [hopped_kind]; exact h.net, h.contract, by rw [hopped_coin]; exact h.coin⟩

theorem Wired.ne (h : Wired w T t R N) : N ≠ T := by rintro rfl; have h1 := h.net; rw [h.conv] at h1; cases h1

/-! ### Honest paths -/

theorem HonestPath.head : ∀ {a : Addr} {rest : List Addr}, HonestPath w N a rest → (w.kind a).isToken
  | _, [], h => h
  | _, [_], h => h
  | _, _ :: _ :: _, h => h.1

theorem HonestPath.mono (hk : ∀ x, (w.kind x).isToken → (w'.kind x).isToken) (ho : w'.own = w.own)
    (hw : ∀ T t R, Wired w T t R N → Wired w' T t R N) : ∀ {a : Addr} {rest : List Addr}, HonestPath w N a rest → HonestPath w' N a rest
  | _, [], h => hk _ h
  | _, [_], h => hk _ h
  | _, _ :: _ :: _, h => by
    obtain ⟨h1, ⟨T, R, h2, h3⟩, h4⟩ := h
    exact ⟨hk _ h1, ⟨T, R, by rw [ho]; exact h2, hw _ _ _ h3⟩, h4.mono hk ho hw⟩

theorem HonestPath.hopped {rest : List Addr} (h : HonestPath w N s rest) {T' t' a' b' N' : Addr} {v' r' : Int} :
    HonestPath (w.hopped T' t' a' b' N' v' r') N s rest :=
  h.mono (by rw [hopped_kind]; exact fun _ h => h) (hopped_own ..) (fun _ _ _ h => h.hopped)

theorem World.Alike.honestPath {rest : List Addr} (hal : w.Alike w') (h : HonestPath w N s rest) : HonestPath w' N s rest :=
  h.mono (by rw [hal.kind]; exact fun _ h => h) hal.own (fun _ _ _ h => hal.wired h)

/-- The path has an even number of addresses behind the first. -/
def EvenTail : List Addr → Prop
  | [] => True
  | [_] => False
  | _ :: _ :: rest => EvenTail rest

theorem evenTail_iff : ∀ l : List Addr, EvenTail l ↔ l.length % 2 = 0
  | [] => by simp [EvenTail]
  | [_] => by simp [EvenTail]
  | _ :: _ :: rest => by
    rw [EvenTail, evenTail_iff rest, List.length_cons, List.length_cons]; omega

theorem asks_request {b : Addr} {m : Int} : Asks (Network.requestData b m) b m :=
  ⟨_, Text.ofAddr b, .int m, rfl, rfl, Text.toAddr_ofAddr b, rfl, .inl rfl⟩

/-- The loop of the network follows the route. -/
theorem convertLoop_route (hcall : cx.call = exec orc n N) (hself : cx.self = N) (hN : N ≠ ZERO) :
    ∀ (rest : List Addr) {a : Addr} {v : Int} {u w w' : World} {z : Addr} {r : Int}, EvenTail rest → u.Alike w → HonestPath u N a rest →
      (∀ x, 0 ≤ u.coin x) →
      Network.convertLoop cx m a rest v w = .ok ((z, r), w') →
      z = lastOf a rest ∧ ∃ u', Route N m u a rest v u' r ∧ u'.Alike w'
  | [], a, v, u, w, w', z, r, _, hal, hp, _, h => by
    unfold Network.convertLoop at h; cases h
    exact ⟨rfl, u, .done, hal⟩
  | [_], _, _, _, _, _, _, _, he, _, _, _, _ => he.elim
  | ft :: b :: rest, a, v, u, w, w', z, r, he, hal, hp, hcoin, h => by
    obtain ⟨hka, ⟨T, R, hown, hw⟩, hp'⟩ := hp
    have hkb := hp'.head
    unfold Network.convertLoop at h
    rw [hcall, hself] at h
    rw [okk_bind] at h
    obtain ⟨x1, w1, h1, h⟩ := h
    have hk : ∃ k, n = k + 1 := by
      cases n with
      | zero => simp [ok_exec_zero] at h1
      | succ k => exact ⟨k, rfl⟩
    obtain ⟨k, hk⟩ := hk
    rw [hk, ok_exec_getOwner (by rw [hal.kind, hw.flex]; simp [Kind.isOwned]), hal.own, hown] at h1
    obtain ⟨_, rfl, rfl⟩ := h1
    rw [okk_bind] at h
    obtain ⟨T', w1, h1, h⟩ := h
    cases h1
    rw [okk_bind] at h
    obtain ⟨x2, w2, h2, h⟩ := h
    rw [hk, ok_exec_balanceOf (by rw [note_kind, hal.kind]; exact hkb)] at h2
    obtain ⟨_, rfl, rfl⟩ := h2
    rw [okk_bind] at h
    obtain ⟨before, w2, h2, h⟩ := h
    cases h2
    rw [okk_bind] at h
    obtain ⟨x3, w3, h3, h⟩ := h
    have hal2 : u.Alike ((w.note N ft 0 .getOwner).note N b 0 (.balanceOf N)) := hal.note.note
    obtain ⟨hv, hb, hmv, r1, hc, hal3⟩ := hop_effect (hal2.wired hw) hN (by rw [hal2.own]; exact hown) (by rw [hal2.kind]; exact hka)
      (by rw [hal2.kind]; exact hkb) asks_request h3
    have hal4 : (u.hopped T ft a b N v r1).Alike w3 := hal2.pay.traded.trans hal3
    rw [okk_bind] at h
    obtain ⟨x4, w4, h4, h⟩ := h
    rw [hk, ok_exec_balanceOf (by rw [hal4.kind, hopped_kind]; exact hkb)] at h4
    obtain ⟨_, rfl, rfl⟩ := h4
    rw [okk_bind] at h
    obtain ⟨after, w4, h4, h⟩ := h
    cases h4
    have hab : a ≠ b := hc.tradable.1
    have hdiff : (w3.tok b).bal N - ((w.note N ft 0 .getOwner).tok b).bal N = r1 := by
      rw [hal4.tok, note_tok, hal.tok, hopped_bal_net _ _ _ _ _ _ hw.ne]
      rw [if_neg hab.symm, if_pos rfl]; omega
    rw [hdiff] at h
    obtain ⟨e, u', hr, hal5⟩ := convertLoop_route hcall hself hN rest he hal4.note hp'.hopped (by rw [hopped_coin]; exact hcoin) h
    refine ⟨e, u', .hop hown hv (by rw [hal2.tok] at hb; exact hb) (by rw [hal2.kind, hal2.flex] at hmv; exact hmv) ?_ hr, hal5⟩
    have hh : u.Alike ((w.note N ft 0 .getOwner).note N b 0 (.balanceOf N)) := hal2
    obtain ⟨fs, l, e⟩ := hh
    rw [e] at hc
    exact ⟨hc.1, hc.2, hc.3, hc.4, hc.5, hc.6, hc.7⟩

end Verif

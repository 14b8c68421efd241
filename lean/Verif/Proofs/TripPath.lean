import Verif.Proofs.Trip
/-!
What a conversion along a path does to the pools of its converters (for C82).
-/
set_option autoImplicit false
set_option linter.unusedSimpArgs false
namespace Verif

/-- Every hop is `a → b` at converter `T`, `v` in, `r` out. -/
structure PoolMove (w w' : World) (T t a b : Addr) (v r : Int) : Prop where
  conv : w'.conv T = w.conv T
  supply : (w'.tok t).supply = (w.tok t).supply + (if b = t then r else 0) - (if a = t then v else 0)
  bal : ∀ z, z ≠ t → (w'.tok z).bal T = (w.tok z).bal T + (if z = a then v else 0) - (if z = b then r else 0)

/-- The connectors paid into or out of are real. -/
def RealHops (w : World) : Addr → List Addr → Prop
  | a, t :: b :: rest => (∀ T, (w.own t).owner = some T → ∀ z, z = a ∨ z = b → z ≠ t → ((w.conv T).connectors z).isVirtual = false) ∧ RealHops w b rest
  | _, _ => True

/-- Between `w` and `w'` a conversion went along the path. -/
inductive Passed (N : Addr) (w w' : World) : Addr → List Addr → Int → Int → Prop
  | done {a : Addr} {v : Int} : Passed N w w' a [] v v
  | hop {a t b T R : Addr} {rest : List Addr} {v c r1 r : Int} (own : (w.own t).owner = some T) (wired : Wired w T t R N) (ne : a ≠ b) (pos : 0 < v) (pos1 : 0 < r1)
      (real : ∀ z, z = a ∨ z = b → z ≠ t → ((w.conv T).connectors z).isVirtual = false)
      (curve : w.curve T a b v 0 = .ok c) (fee : r1 = w.afterFee T c (w.feeSteps T a b)) (le : r1 ≤ c) (pool : PoolMove w w' T t a b v r1)
      (next : Passed N w w' b rest r1 r) : Passed N w w' a (t :: b :: rest) v r

section
variable {w w' u u' : World} {T t R a b N s : Addr} {v r m : Int} {rest : List Addr}

theorem hop_pool (hTN : T ≠ N) (hab : a ≠ b) (hreal : ∀ z, z = a ∨ z = b → z ≠ t → ((u.conv T).connectors z).isVirtual = false) :
    PoolMove u (u.hopped T t a b N v r) T t a b v r := by
  have hra : ∀ z, z = a ∨ z = b → z ≠ t → (((u.pay a N T v).conv T).connectors z).isVirtual = false := by rw [pay_conv]; exact hreal
  unfold World.hopped World.traded
  by_cases hbt : b = t
  · have hat : a ≠ t := by rintro rfl; exact hab hbt.symm
    rw [if_pos hbt, virt_real (hra a (.inl rfl) hat)]
    refine ⟨rfl, by rw [mint_supply, pay_supply]; simp [hbt, hat], fun z hz => ?_⟩
    rw [mint_bal, pay_bal]
    have : z ≠ b := by rintro rfl; exact hz hbt
    simp [this, hTN, hz]
  · rw [if_neg hbt]
    by_cases hat : a = t
    · rw [if_pos hat, virt_real (hra b (.inr rfl) hbt)]
      refine ⟨rfl, by rw [pay_supply, mint_supply, pay_supply]; simp [hbt, hat]; ring, fun z hz => ?_⟩
      rw [pay_bal, mint_bal, pay_bal]
      have : z ≠ a := by rintro rfl; exact hz hat
      simp [this, hTN, hz]
    · rw [if_neg hat, virt_real (hra a (.inl rfl) hat), virt_real (hra b (.inr rfl) hbt)]
      refine ⟨rfl, by rw [pay_supply, pay_supply]; simp [hbt, hat], fun z hz => ?_⟩
      rw [pay_bal, pay_bal]
      simp [hTN]

/-- A route moves the pools of its converters. `u` is where the route starts, `w` any ledger with the same pools. -/
theorem Route.passed (h : Route N m u a rest v u' r) : HonestPath w N a rest → HonestPath u N a rest → RealHops w a rest → (stops rest).Nodup → 0 < m →
    Agree w u (stops rest) → (u'.kind = u.kind) → Passed N w u' a rest v r := by
  induction h with
  | done => intros; exact .done
  | @hop u a t b rest v T r1 u' r own' pos bal move conv next ih =>
    intro hp hpu hreal hnd hm hag _
    obtain ⟨hka, ⟨T1, R, own, hw⟩, hp'⟩ := hp
    have hT : T = T1 := by rw [hag.1, own] at own'; cases own'; rfl
    subst hT
    obtain ⟨_, ⟨T2, R2, h2, hwu⟩, hpu'⟩ := hpu
    rw [own'] at h2; cases h2
    obtain ⟨hc1, hc2, hc3⟩ := hag.2 t List.mem_cons_self T own
    obtain ⟨c, hc, hr1, hle⟩ := conv.curve
    have hab : a ≠ b := conv.tradable.1
    have hre := hreal.1 T own
    rw [curve_pay hwu hab (by rw [hc1]; by_cases e : a = t; exacts [.inl e, .inr (hre a (.inl rfl) e)]), hag.curve List.mem_cons_self hw own] at hc
    have hfee : r1 = w.afterFee T c (w.feeSteps T a b) := by
      rw [hr1]; unfold World.afterFee World.feeSteps; rw [pay_conv, hc1]
    have hnd' := List.nodup_cons.mp hnd
    have hr1pos : 0 < r1 := by
      have h1 := conv.min
      have h2 := conv.enough
      omega
    have hpm := hop_pool (u := u) (T := T) (t := t) (a := a) (b := b) (N := N) (v := v) (r := r1) hw.ne.symm hab (by rw [hc1]; exact hre)
    obtain ⟨g1, g2⟩ := next.elsewhere (T := T) hpu'.hopped hw.ne.symm (by
      rw [(hopped_same u T t a b N v r1 T).1, hwu.token]
      rintro ft hft e; injection e with e; subst e; exact hnd'.1 hft)
    have g3 := next.supply hnd'.1
    refine .hop own hw hab pos hr1pos hre hc hfee hle ⟨by rw [g1, hpm.conv, hc1], by rw [g3, hpm.supply, hc2], fun z hz => by rw [g2, hpm.bal z hz, hc3]⟩ ?_
    refine ih hp' hpu'.hopped hreal.2 hnd'.2 hm ⟨by rw [hopped_own]; exact hag.1, ?_⟩ next.kind
    intro ft2 hft2 T2 hown2
    obtain ⟨T3, R3, ho3, hw3⟩ := hp'.stop ft2 hft2
    rw [hown2] at ho3; cases ho3
    have hne : ft2 ≠ t := by rintro rfl; exact hnd'.1 hft2
    have hTne : T2 ≠ T := by
      rintro rfl
      have h1 := hw3.token; rw [hw.token] at h1; cases h1; exact hne rfl
    obtain ⟨g1, g2, g3⟩ := hag.2 ft2 (List.mem_cons_of_mem _ hft2) T2 hown2
    refine ⟨by rw [hopped_conv_other _ _ _ _ _ _ _ hTne]; exact g1, by rw [hopped_supply _ _ _ _ _ _ hne]; exact g2, ?_⟩
    intro z; rw [hopped_bal _ _ _ _ _ _ hw3.ne.symm hTne]; exact g3 z

theorem Passed.mono (h : Passed N w u a rest v r)
    (hs : ∀ T t R, Wired w T t R N → w'.conv T = u.conv T ∧ (w'.tok t).supply = (u.tok t).supply ∧ ∀ z, (w'.tok z).bal T = (u.tok z).bal T) : Passed N w w' a rest v r := by
  induction h with
  | done => exact .done
  | hop own wired ne pos pos1 real curve fee le pool next ih =>
    obtain ⟨h1, h2, h3⟩ := hs _ _ _ wired
    exact .hop own wired ne pos pos1 real curve fee le ⟨by rw [h1, pool.conv], by rw [h2, pool.supply], fun z hz => by rw [h3, pool.bal z hz]⟩ ih

/-- The path back, without its first token. -/
def wayBack : Addr → List Addr → List Addr
  | a, t :: b :: rest => wayBack b rest ++ [t, a]
  | _, _ => []

theorem reverse_path : ∀ {rest : List Addr} {a : Addr}, EvenTail rest → (a :: rest).reverse = lastOf a rest :: wayBack a rest
  | [], _, _ => rfl
  | [_], _, h => h.elim
  | t :: b :: rest, a, h => by
    have ih := reverse_path (rest := rest) (a := b) h
    simp only [List.reverse_cons, List.append_assoc] at ih ⊢
    simp only [wayBack, lastOf]
    rw [← List.append_assoc, ih]
    simp

theorem wayBack_even : ∀ {rest : List Addr} {a : Addr}, EvenTail (wayBack a rest)
  | [], _ => trivial
  | [_], _ => trivial
  | _ :: b :: rest, _ => (EvenTail.append (wayBack_even (rest := rest) (a := b))).mpr trivial

theorem wayBack_last : ∀ {rest : List Addr} {a : Addr}, EvenTail rest → lastOf (lastOf a rest) (wayBack a rest) = a
  | [], _, _ => rfl
  | [_], _, h => h.elim
  | t :: b :: rest, a, h => by
    simp only [wayBack, lastOf]
    rw [lastOf_append]
    rfl

theorem HonestPath.wayBack : ∀ {rest : List Addr} {a : Addr}, EvenTail rest → HonestPath w N a rest → HonestPath w N (lastOf a rest) (wayBack a rest)
  | [], _, _, h => h
  | [_], _, h, _ => h.elim
  | t :: b :: rest, a, he, h => by
    obtain ⟨h1, h2, h3⟩ := h
    have ih := HonestPath.wayBack (rest := rest) (a := b) he h3
    simp only [Verif.wayBack, lastOf]
    refine (HonestPath.append_iff wayBack_even).mpr ⟨ih, ?_⟩
    rw [wayBack_last (rest := rest) (a := b) he]
    exact ⟨h3.head, h2, h1⟩

theorem RealHops.append : ∀ {p q : List Addr} {a : Addr}, EvenTail p → (RealHops w a (p ++ q) ↔ RealHops w a p ∧ RealHops w (lastOf a p) q)
  | [], q, a, _ => ⟨fun h => ⟨trivial, h⟩, fun h => h.2⟩
  | [_], _, _, h => h.elim
  | t :: b :: p, q, a, he => by
    have ih := RealHops.append (p := p) (q := q) (a := b) he
    simp only [List.cons_append, RealHops, lastOf, ih, and_assoc]

theorem Passed.realBack (h : Passed N w w' a rest v r) (ho : w'.own = w.own) (he : EvenTail rest) : RealHops w' (lastOf a rest) (wayBack a rest) := by
  induction h with
  | done => trivial
  | @hop a t b T R rest v c r1 r own wired ne pos pos1 real curve fee le pool next ih =>
    simp only [wayBack, lastOf]
    refine (RealHops.append wayBack_even).mpr ⟨ih he, ?_⟩
    rw [wayBack_last (rest := rest) (a := b) he]
    refine ⟨fun T' h' z hz hzt => ?_, trivial⟩
    rw [ho, own] at h'; cases h'
    rw [pool.conv]; exact real z hz.symm hzt

theorem Passed.append : ∀ {p q : List Addr} {a : Addr} {v : Int}, EvenTail p → Passed N w w' a (p ++ q) v r →
    ∃ r1, Passed N w w' a p v r1 ∧ Passed N w w' (lastOf a p) q r1 r
  | [], _, _, v, _, h => ⟨v, .done, h⟩
  | [_], _, _, _, h, _ => h.elim
  | t :: b :: p, q, a, v, he, h => by
    cases h with
    | hop own wired ne pos pos1 real curve fee le pool next =>
      obtain ⟨r1, h1, h2⟩ := Passed.append (p := p) he next
      exact ⟨r1, .hop own wired ne pos pos1 real curve fee le pool h1, h2⟩

/-- An order that was carried out has passed its path. -/
theorem carried_passed (h : Reachable w) (hk : w.kind N = .net) (hp : HonestPath w N a rest) (hreal : RealHops w a rest) (hs : s.isContract = false)
    (he : Carried w w' N s (a :: rest) a (lastOf a rest) v r) (hsz : w.kind s ≠ .conv ∧ s ≠ lastOf a rest) :
    Passed N w w' a rest v r ∧ Reachable w' ∧ w'.kind N = .net ∧ w'.own = w.own ∧ HonestPath w' N a rest ∧ LegalPath (a :: rest) ∧ w'.kind = w.kind := by
  obtain ⟨orc, k, tx, m, coins, x, ho, hx, hset⟩ := he
  have hsN := ne_net h hk hs
  have hw' := run_reachable h hx
  obtain ⟨u', r', hr, hpu, hcoin, hal, hset', hreg, haff, hl, hm, -⟩ := order_exact h.basic hk hp ho hs hsN hs hx
  have hrr : r' = r := Settled.unique hset' hset rfl rfl hsN hsz.1 hsz.2
  subst hrr
  have hst := legal_iff_stops.mp hl
  have hkind : w'.kind = w.kind := by rw [hal.kind, delivered_kind, hr.kind, begun_kind]
  have hown : w'.own = w.own := by rw [hal.own, delivered_own, hr.own, begun_own]
  have hside : ∀ T t R, Wired w T t R N → T ≠ s ∧ T ≠ N := fun T t R hw => by
    have hTc := h.basic.contract T (by rw [hw.conv]; nofun)
    refine ⟨?_, hw.ne.symm⟩
    rintro rfl; rw [hs] at hTc; cases hTc
  have hag : Agree w (w.begun coins a N s v) (stops rest) := by
    refine ⟨begun_own, fun ft hft T hT => ?_⟩
    obtain ⟨T', R, h1, hw⟩ := hp.stop ft hft
    rw [hT] at h1; cases h1
    obtain ⟨h1, h2⟩ := hside _ _ _ hw
    exact ⟨by rw [begun_conv], begun_supply haff hw.flex, fun z => begun_bal h1 h2⟩
  have hpass := hr.passed (w := w) hp hpu hreal hst.2.2.2 hm hag hr.kind
  refine ⟨hpass.mono fun T t R hw => ?_, hw', by rw [hkind]; exact hk, hown, order_honest hw'.basic.coin_nonneg hr hal hp, hl, hkind⟩
  obtain ⟨h1, h2⟩ := hside _ _ _ hw
  refine ⟨by rw [hal.conv, delivered_conv], ?_, fun z => ?_⟩
  · rw [hal.tok, delivered_supply (by rw [hr.net, hr.kind, begun_net, begun_kind]; exact hreg) (by rw [hr.kind, begun_kind]; exact hw.flex)]
  · rw [hal.tok, delivered_bal]; simp [h1, h2]

end
end Verif

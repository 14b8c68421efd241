import Verif.Proofs.Local
import Verif.Props.Depth
/-!
C75: a transaction depends on and changes only what it touches.
-/
set_option autoImplicit false
namespace Verif

variable {orc orc' : Oracle} {n : Nat} {w w1 w2 : World} {tx tx1 tx2 : Tx} {x x1 x2 : Val}

theorem calls_eq {l : List Frame} (h : w1.frames = l ++ w.frames) : w.calls w1 = l := by
  unfold World.calls
  rw [h, List.length_append, Nat.add_sub_cancel]
  exact List.take_left

theorem events_eq {g : List (Addr × Event)} (h : w1.log = g ++ w.log) : w.events w1 = g := by
  unfold World.events
  rw [h, List.length_append, Nat.add_sub_cancel]
  exact List.take_left

theorem local_run (orc' : Oracle) (h : tx.run orc n w = .ok (x, w1)) (ht : tx.Own)
    (ho : ∀ a, tx.touches w w1 a → w.kind a ≠ .foreign) {w' : World} (hw : ∀ a, tx.touches w w1 a → w'.row a = w.row a) :
    ∃ l g w1', tx.run orc' n w' = .ok (x, w1') ∧ Next (tx.touches w w1) l g w w1 ∧ Next (tx.touches w w1) l g w' w1' ∧
      RowsAt (tx.touches w w1) w1 w1' := by
  obtain ⟨l, hl, h1⟩ := loc_tx (S := tx.touches w w1) orc orc' n tx ht (.inl rfl) (.inr (.inl rfl)) w x w1 h
  obtain ⟨g, w1', e, n1, n2, r, _⟩ := h1 w' ⟨fun ha => (hw _ ha).symm⟩ ho (fun f hf => .inr (.inr ⟨f, by rw [calls_eq hl]; exact hf, rfl⟩))
  exact ⟨l, g, w1', e, n1, n2, r⟩

/-- **C75**, what is not touched stays as it is. -/
theorem C75_untouched (h : tx.run orc n w = .ok (x, w1)) (ht : tx.Own) (ho : ∀ a, tx.touches w w1 a → w.kind a ≠ .foreign) {a : Addr}
    (ha : ¬ tx.touches w w1 a) : w1.row a = w.row a := by
  obtain ⟨l, g, w1', _, n1, _, _⟩ := local_run orc h ht ho (fun _ _ => rfl)
  exact n1.row a ha

/-- **C75**: on every ledger with the same at the addresses a transaction touches, it answers the same, makes the same calls
and writes the same event logs; it leaves the same at these addresses, and everything else as it is on that ledger. -/
theorem C75_local (orc' : Oracle) (h : tx.run orc n w = .ok (x, w1)) (ht : tx.Own) (ho : ∀ a, tx.touches w w1 a → w.kind a ≠ .foreign)
    {w' : World} (hw : ∀ a, tx.touches w w1 a → w'.row a = w.row a) :
    ∃ w1', tx.run orc' n w' = .ok (x, w1') ∧ w'.calls w1' = w.calls w1 ∧ w'.events w1' = w.events w1 ∧
      (∀ a, tx.touches w w1 a → w1'.row a = w1.row a) ∧ (∀ a, ¬ tx.touches w w1 a → w1'.row a = w'.row a) := by
  obtain ⟨l, g, w1', e, n1, n2, r⟩ := local_run orc' h ht ho hw
  exact ⟨w1', e, by rw [calls_eq n1.frames, calls_eq n2.frames], by rw [events_eq n1.log, events_eq n2.log],
    fun a ha => (r.row ha).symm, n2.row⟩

/-- **C75**, causes: where a transaction fails or answers otherwise than on this ledger, something it touches here is not the
same there. -/
theorem C75_cause (h : tx.run orc n w = .ok (x, w1)) (ht : tx.Own) (ho : ∀ a, tx.touches w w1 a → w.kind a ≠ .foreign) {w' : World}
    (hd : (tx.run orc' n w').map (·.1) ≠ .ok x) : ∃ a, tx.touches w w1 a ∧ w'.row a ≠ w.row a := by
  by_cases hw : ∀ a, tx.touches w w1 a → w'.row a = w.row a
  · obtain ⟨w1', e, _⟩ := C75_local orc' h ht ho hw
    rw [e] at hd
    exact absurd rfl hd
  · obtain ⟨a, ha⟩ := Classical.not_forall.1 hw
    exact ⟨a, Classical.not_imp.1 ha⟩

/-- **C75**, order: if neither of two transactions changes anything the other touches, each of them does after the other what
it does alone, and the order does not matter. -/
theorem C75_swap (h1 : tx1.run orc n w = .ok (x1, w1)) (h2 : tx2.run orc n w = .ok (x2, w2)) (ht1 : tx1.Own) (ht2 : tx2.Own)
    (ho1 : ∀ a, tx1.touches w w1 a → w.kind a ≠ .foreign) (ho2 : ∀ a, tx2.touches w w2 a → w.kind a ≠ .foreign)
    (hd1 : ∀ a, tx2.touches w w2 a → w1.row a = w.row a) (hd2 : ∀ a, tx1.touches w w1 a → w2.row a = w.row a) :
    ∃ w12 w21, tx2.run orc n w1 = .ok (x2, w12) ∧ tx1.run orc n w2 = .ok (x1, w21) ∧ (∀ a, w12.row a = w21.row a) ∧
      w1.events w12 = w.events w2 ∧ w2.events w21 = w.events w1 := by
  obtain ⟨w12, e12, _, v12, t12, u12⟩ := C75_local orc h2 ht2 ho2 hd1
  obtain ⟨w21, e21, _, v21, t21, u21⟩ := C75_local orc h1 ht1 ho1 hd2
  refine ⟨w12, w21, e12, e21, fun a => ?_, v12, v21⟩
  by_cases a1 : tx1.touches w w1 a <;> by_cases a2 : tx2.touches w w2 a
  · rw [t12 a a2, t21 a a1, hd1 a a2, hd2 a a1]
  · rw [u12 a a2, t21 a a1]
  · rw [t12 a a2, u21 a a1]
  · rw [u12 a a2, u21 a a1, C75_untouched h1 ht1 ho1 a1, C75_untouched h2 ht2 ho2 a2]

theorem row_changes {l : List (Nat × Tx)} {a : Addr} : ∀ {w : World}, (Tx.history orc l w).row a ≠ w.row a →
    ∃ p q m tx', l = p ++ (m, tx') :: q ∧
      (Tx.apply orc m tx' (Tx.history orc p w)).row a ≠ (Tx.history orc p w).row a := by
  induction l with
  | nil => intro w h; exact absurd rfl h
  | cons e l ih =>
    obtain ⟨m, t⟩ := e
    intro w h
    by_cases h0 : (t.apply orc m w).row a = w.row a
    · obtain ⟨p, q, m', t', e, hc⟩ := ih (w := t.apply orc m w) (by rw [h0]; exact h)
      exact ⟨(m, t) :: p, q, m', t', by rw [e]; rfl, hc⟩
    · exact ⟨[], l, m, t, rfl, h0⟩

/-- **C75**, front-running: if a transaction fails or answers otherwise because others come first, one of them changes something
that the transaction touches. -/
theorem C75_front (h : tx.run orc n w = .ok (x, w1)) (ht : tx.Own) (ho : ∀ a, tx.touches w w1 a → w.kind a ≠ .foreign)
    {l : List (Nat × Tx)} (hd : (tx.run orc' n (Tx.history orc' l w)).map (·.1) ≠ .ok x) :
    ∃ p q m tx' a, l = p ++ (m, tx') :: q ∧ tx.touches w w1 a ∧
      (tx'.apply orc' m (Tx.history orc' p w)).row a ≠ (Tx.history orc' p w).row a := by
  obtain ⟨a, ha, hr⟩ := C75_cause h ht ho hd
  obtain ⟨p, q, m, t, e, hc⟩ := row_changes hr
  exact ⟨p, q, m, t, a, e, ha, hc⟩

theorem Own.history {l : List (Nat × Tx)} (hl : ∀ e ∈ l, e.2.Own) : ∀ {w : World}, w.Own → (Tx.history orc l w).Own := by
  induction l with
  | nil => exact fun h => h
  | cons e l ih => exact fun h => ih (fun q hq => hl q (List.mem_cons_of_mem _ hq)) (Own.apply h (hl e List.mem_cons_self)).1

/-- **C75**, front-running among the project's contracts: one of the earlier transactions succeeds and touches the same address. -/
theorem C75_contention (h : tx.run orc n w = .ok (x, w1)) (ht : tx.Own) (hw : w.Own) {l : List (Nat × Tx)} (hl : ∀ e ∈ l, e.2.Own)
    (hd : (tx.run orc n (Tx.history orc l w)).map (·.1) ≠ .ok x) :
    ∃ p q m tx' x' w' a, l = p ++ (m, tx') :: q ∧ tx'.run orc m (Tx.history orc p w) = .ok (x', w') ∧
      tx'.touches (Tx.history orc p w) w' a ∧ tx.touches w w1 a := by
  obtain ⟨p, q, m, t, a, e, ha, hc⟩ := C75_front h ht (fun a _ => hw a) hd
  have hp : (Tx.history orc p w).Own := Own.history (fun k hk => hl k (by rw [e]; exact List.mem_append_left _ hk)) hw
  have hto : t.Own := hl (m, t) (by rw [e]; exact List.mem_append_right _ List.mem_cons_self)
  unfold Tx.apply at hc
  cases hr : t.run orc m (Tx.history orc p w) with
  | error er => rw [hr] at hc; exact absurd rfl hc
  | ok y =>
    obtain ⟨x', w'⟩ := y
    rw [hr] at hc
    refine ⟨p, q, m, t, x', w', a, e, hr, ?_, ha⟩
    by_cases hq : t.touches (Tx.history orc p w) w' a
    · exact hq
    · exact absurd (C75_untouched hr hto (fun b _ => hp b) hq) hc

end Verif

/-! A case: two pools that share one network and one registry, and one trader. -/
namespace Verif.Scenario

def irc9 : Addr := ⟨true, 20⟩
def flex9 : Addr := ⟨true, 21⟩
def conv9 : Addr := ⟨true, 22⟩

/-- The ledger with a second pool of its own. -/
def pools : World := run [
  .deploy owner irc9 (.irc "Token9" "TK9" 1000000 0),
  .deploy owner flex9 (.flex "Flex9" "FL9" 40000 0),
  .deploy owner conv9 (.conv (some flex9) (some registry) 30000 (some irc9) 500000),
  .call owner irc9 0 (.transfer conv9 20000 none),
  .call owner flex9 0 (.transferOwnerShip conv9),
  .call owner conv9 0 .acceptTokenOwnership,
  .call owner flex9 0 (.transfer alice 3000 none)] ready

theorem pools_own : pools.Own := by
  refine run_own (fun tx ht => ?_) ready_own
  simp only [List.mem_cons, List.not_mem_nil, or_false] at ht
  rcases ht with h | h | h | h | h | h | h <;> subst h <;> first | exact True.intro | exact Install.noConfusion

theorem pools_reachable : Reachable pools := run_reachable _ ready_reachable

/-- Alice sells in the first pool. -/
def here : Tx := trade [flex, flex, irc] 1000 1
/-- Alice sells in the second pool. -/
def there : Tx := trade [flex9, flex9, irc9] 1000 1

open Lean Elab Tactic Meta in
/-- Closes `a = b` by `Eq.refl a` and leaves it to the kernel to check it, like `decide +kernel`. -/
elab "kernel_rfl" : tactic => do
  let g ← getMainGoal
  let some (_, a, _) := (← g.getType').eq? | throwError "not an equation"
  g.assign (← mkEqRefl a)

/-- A transaction of the scenario that succeeds. -/
theorem succeeds {tx : Tx} {w : World} (h : (tx.run orc 20 w).toOption.isSome = true) :
    ∃ x, tx.run orc 20 w = .ok (x, tx.apply orc 20 w) := by
  unfold Tx.apply
  cases e : tx.run orc 20 w with
  | error er => rw [e] at h; cases h
  | ok p => exact ⟨p.1, rfl⟩

theorem touches_of {tx : Tx} {w w1 : World} {L : List Addr} (h : (tx.signer :: tx.target :: (w.calls w1).map (·.to)).all (· ∈ L) = true)
    {a : Addr} (ha : tx.touches w w1 a) : a ∈ L := by
  rw [List.all_eq_true] at h
  refine of_decide_eq_true (h a ?_)
  rcases ha with h | h | ⟨f, hf, h⟩
  · exact h ▸ List.mem_cons_self
  · exact h ▸ List.mem_cons_of_mem _ List.mem_cons_self
  · exact List.mem_cons_of_mem _ (List.mem_cons_of_mem _ (List.mem_map.2 ⟨f, hf, h⟩))

set_option maxRecDepth 100000 in
theorem here_touches {a : Addr} (ha : here.touches pools (here.apply orc 20 pools) a) :
    a ∈ [alice, network, registry, flex, conv, irc] := touches_of (by decide +kernel) ha

set_option maxRecDepth 100000 in
theorem there_touches {a : Addr} (ha : there.touches pools (there.apply orc 20 pools) a) :
    a ∈ [alice, network, registry, flex9, conv9, irc9] := touches_of (by decide +kernel) ha

set_option maxRecDepth 100000 in
/-- The two sales share the trader, the network and the registry, and neither changes what there is at these. -/
example : ∃ x y w12 w21, there.run orc 20 (here.apply orc 20 pools) = .ok (y, w12) ∧ here.run orc 20 (there.apply orc 20 pools) = .ok (x, w21) ∧
    ∀ a, w12.row a = w21.row a := by
  obtain ⟨x, hx⟩ := succeeds (tx := here) (w := pools) (by decide +kernel)
  obtain ⟨y, hy⟩ := succeeds (tx := there) (w := pools) (by decide +kernel)
  obtain ⟨w12, w21, h1, h2, h3, _⟩ := C75_swap hx hy True.intro True.intro (fun a _ => pools_own a) (fun a _ => pools_own a)
    (fun a ha => by
      have := there_touches ha
      simp only [List.mem_cons, List.not_mem_nil, or_false] at this
      rcases this with h | h | h | h | h | h <;> subst h <;> kernel_rfl)
    (fun a ha => by
      have := here_touches ha
      simp only [List.mem_cons, List.not_mem_nil, or_false] at this
      rcases this with h | h | h | h | h | h <;> subst h <;> kernel_rfl)
  exact ⟨x, y, w12, w21, h1, h2, h3⟩

set_option maxRecDepth 100000 in
/-- The sales do something; in one pool the order matters. -/
example : ((here.apply orc 20 pools).tok irc).bal alice = 11968 ∧ ((there.apply orc 20 pools).tok irc9).bal alice = 987 ∧
    ((here.apply orc 20 (here.apply orc 20 pools)).tok irc).bal alice = 13877 ∧ (here.run orc 20 pools).toOption.isSome = true := by
  decide +kernel

end Verif.Scenario

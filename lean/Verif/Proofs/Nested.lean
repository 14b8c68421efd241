import Verif.Proofs.Handover
/-!
Calls made while a contract runs are made by contracts.
-/
namespace Verif

open Relation

/-- Between `w` and `w'` only contracts made calls. -/
def ByContracts (w w' : World) : Prop :=
  (∀ a, w.kind a ≠ .none → a.isContract = true) →
    w'.kind = w.kind ∧ ∃ new, w'.frames = new ++ w.frames ∧ ∀ f ∈ new, f.sender.isContract = true

theorem ByContracts.refl (w) : ByContracts w w := fun _ => ⟨rfl, [], rfl, by simp⟩

theorem ByContracts.trans {a b c} (h : ByContracts a b) (h' : ByContracts b c) : ByContracts a c := by
  intro hk
  obtain ⟨k1, l1, e1, h1⟩ := h hk
  obtain ⟨k2, l2, e2, h2⟩ := h' (by rw [k1]; exact hk)
  refine ⟨k2.trans k1, l2 ++ l1, by rw [e2, e1, List.append_assoc], fun f hf => ?_⟩
  rcases List.mem_append.mp hf with hf | hf
  · exact h2 f hf
  · exact h1 f hf

theorem Body.byContracts {f : Frame} {w w' : World}
    (hB : Body (WithStable fun s _ _ _ w w' => s.isContract = true → ByContracts w w') f w w') : ByContracts w w' := by
  refine Body.elim ByContracts.refl (fun _ _ _ => ByContracts.trans) ?_ ?_ hB
  · intro u u' hl _; exact ⟨hl.kind, [], hl.frames, by simp⟩
  · intro t v c u u' ho hc hk
    exact hc.2 (hk _ ho.kind_ne) hk

theorem exec_byContracts (orc : Oracle) (n : Nat) :
    AllCalls orc n (fun s _ _ _ w w' => s.isContract = true → ByContracts w w') := by
  induction n with
  | zero => intro s t v c w x w' h; exact (exec_zero h).elim
  | succ n ih =>
    intro s t v c w x w' h hs
    obtain ⟨_, _, hB⟩ := exec_body ih h
    have h1 : ByContracts w (enterW w s t v c) := fun _ => ⟨rfl, [mkFrame w s t v c], rfl, by simpa using hs⟩
    exact h1.trans hB.byContracts

/-- After the deployment itself, only contracts make calls in a deployment. -/
theorem deploy_byContracts {orc n s a i w x w'} (h : deploy orc n s a i w = .ok (x, w')) :
    ∃ w1, Installed s a (enterW (w.setKind a i.kind) s a 0 (.onInstall i)) i w1 ∧ ByContracts w1 w' := by
  obtain ⟨_, w1, hI, hB⟩ := deploy_body orc n s a i (withStable fun s _ _ _ w w' => s.isContract = true → ByContracts w w')
    (fun t v c w x w' e => ⟨(exec_rel orc n a t v c w x w' e).1, exec_byContracts orc n _ _ _ _ _ _ _ e⟩) h
  exact ⟨w1, hI, hB.byContracts⟩

/-- If only contracts made calls since an ordinary account deployed `T`, its ownership and settings are as deployed. -/
theorem settled {T s : Addr} (hs : s.isContract = false) {l : List Frame} {o : OwnSt} {a : Admin}
    (ho : o.owner = some s ∧ o.newOwner = some ZERO) (hm : a.manager = none ∧ a.newManager = none)
    (hz : ∀ f ∈ l, f.sender ≠ ZERO)
    (hl : ∀ f ∈ l, f.sender.isContract = true) (hi : ∀ f ∈ l, f.to = T → ∀ i, f.call ≠ .onInstall i)
    (h1 : EachCall (ownAfter T) (OwnRules T) l o) (h2 : EachCall (adminAfter T) (AdminRules T) l a) :
    replay (ownAfter T) l o = o ∧ replay (adminAfter T) l a = a := by
  induction l with
  | nil => exact ⟨rfl, rfl⟩
  | cons f l ih =>
    obtain ⟨e1, e2⟩ := ih (fun g hg => hz g (List.mem_cons_of_mem _ hg)) (fun g hg => hl g (List.mem_cons_of_mem _ hg))
      (fun g hg => hi g (List.mem_cons_of_mem _ hg)) h1.tail h2.tail
    have r1 := h1.head
    have r2 := h2.head
    rw [e1] at r1
    rw [e2] at r2
    change ownAfter T f (replay (ownAfter T) l o) = o ∧ adminAfter T f (replay (adminAfter T) l a) = a
    rw [e1, e2]
    have hc := hl f List.mem_cons_self
    have hzf := hz f List.mem_cons_self
    have hne : f.sender ≠ s := by rintro e; rw [e, hs] at hc; cases hc
    by_cases hT : f.to = T
    · have r1 := r1 hT
      have r2 := r2 hT
      have hnot : ¬ f.byOwnerOrManager := by
        rintro (h | h)
        · rw [r2.1, hm.1] at h; cases h
        · rw [r1.1, ho.1] at h; injection h with h; exact hne h.symm
      have hii := hi f List.mem_cons_self hT
      unfold ownAfter adminAfter
      rw [if_pos hT, if_pos hT]
      cases hcall : f.call <;> rw [hcall] at r1 r2 <;> (try exact ⟨rfl, rfl⟩) <;> exfalso <;> (try exact hii _ hcall)
      case transferOwnerShip => have := r1.2.1; rw [ho.1] at this; injection this with h; exact hne h.symm
      case acceptOwnerShip => have := r1.2; rw [ho.2] at this; injection this with h; exact hzf h.symm
      case transferManagement => exact hnot r2.2.2.1
      case acceptManagement => have := r2.2.2; rw [hm.2] at this; cases this
      case setConversionFee => exact hnot r2.2.2.1
      case disableConversions => exact hnot r2.2.2
      case disableRegistryUpdate => exact hnot r2.2.2
      case restoreRegistry => exact hnot r2.2.2
    · simp [ownAfter, adminAfter, hT]

end Verif

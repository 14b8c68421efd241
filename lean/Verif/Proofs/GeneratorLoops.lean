import Verif.Proofs.GeneratorLn2
import Verif.Proofs.GeneratorExp
/-!
The series that the scripts lengthen until nothing is gained, and the growth factor.
-/
set_option autoImplicit false
namespace Verif.Generator

/-! ### The series -/

theorem logLoLoop_more {mv : Nat} {hi : List (Nat × Nat)} : ∀ (k : Nat) (lo : List (Nat × Nat)) (res : Nat) (r : List (Nat × Nat)),
    logLoLoop mv hi k lo res = some r → ∀ j, k ≤ j → logLoLoop mv hi j lo res = some r := by
  intro k
  induction k with
  | zero => intro lo res r h; cases h
  | succ k ih =>
    intro lo res r h j hj
    obtain ⟨j, rfl⟩ : ∃ i, j = i + 1 := ⟨j - 1, by omega⟩
    unfold logLoLoop at h ⊢
    simp only [Option.bind_eq_bind, Option.bind_eq_some_iff] at h ⊢
    obtain ⟨rn, h1, h2⟩ := h
    refine ⟨rn, h1, ?_⟩
    split at h2 <;> rename_i hc
    · rw [if_pos hc]; exact ih _ _ _ h2 j (by omega)
    · rw [if_neg hc]; exact h2

theorem expLoLoop_more {mv : Nat} {hi : List (Nat × Nat × Nat)} : ∀ (k : Nat) (lo : List Nat) (res : Nat) (r : List Nat),
    expLoLoop mv hi k lo res = some r → ∀ j, k ≤ j → expLoLoop mv hi j lo res = some r := by
  intro k
  induction k with
  | zero => intro lo res r h; cases h
  | succ k ih =>
    intro lo res r h j hj
    obtain ⟨j, rfl⟩ : ∃ i, j = i + 1 := ⟨j - 1, by omega⟩
    unfold expLoLoop at h ⊢
    simp only [Option.bind_eq_bind, Option.bind_eq_some_iff] at h ⊢
    obtain ⟨rn, h1, h2⟩ := h
    refine ⟨rn, h1, ?_⟩
    split at h2 <;> rename_i hc
    · rw [if_pos hc]; exact ih _ _ _ h2 j (by omega)
    · rw [if_neg hc]; exact h2

theorem logLoTerms_more {k j : Nat} {hi r : List (Nat × Nat)} (h : logLoTerms k hi = some r) (hj : k ≤ j) : logLoTerms j hi = some r := by
  unfold logLoTerms at h ⊢
  simp only [Option.bind_eq_bind, Option.bind_eq_some_iff] at h ⊢
  obtain ⟨a, h1, b, h2, h3⟩ := h
  exact ⟨a, h1, b, h2, logLoLoop_more _ _ _ _ h3 j hj⟩

theorem expLoTerms_more {k j : Nat} {hi : List (Nat × Nat × Nat)} {r : List Nat} (h : expLoTerms k hi = some r) (hj : k ≤ j) :
    expLoTerms j hi = some r := by
  unfold expLoTerms at h ⊢
  simp only [Option.bind_eq_bind, Option.bind_eq_some_iff] at h ⊢
  obtain ⟨a, h1, b, h2, h3⟩ := h
  exact ⟨a, h1, b, h2, expLoLoop_more _ _ _ _ h3 j hj⟩

theorem logLo_eq : (logLoTerms 20 logTable).map (List.map same) = some Formula.optLogLo := by decide +kernel
theorem expLo_eq : (expLoTerms 25 expTable).map (List.map Int.ofNat) = some (Formula.optExpDen :: Formula.optExpCoeffs) := by decide +kernel

theorem logHi_eq : logTable.tail.map swap = Formula.optLogHi := by decide +kernel
theorem logMax_eq : logTable.head?.map (fun t => (t.2 : Int)) = some Formula.OPT_LOG_MAX_VAL := by decide +kernel
theorem expHi_eq : expTable.dropLast.map triple = Formula.optExpHi := by decide +kernel
theorem expMax_eq : expTable.getLast?.map (fun t => (t.1 : Int)) = some Formula.OPT_EXP_MAX_VAL := by decide +kernel

/-! ### The growth factor -/

theorem getMaxExpLoop_mono {cs : List Nat} {p f f' : Nat} (hf : f ≤ f') : ∀ (k e e' r : Nat), e ≤ e' →
    getMaxExpLoop cs p f' k e' = some r → ∃ r', getMaxExpLoop cs p f k e = some r' ∧ r' ≤ r := by
  intro k
  induction k with
  | zero => intro e e' r he h; injection h with h; subst h; exact ⟨e, rfl, he⟩
  | succ k ih =>
    intro e e' r he h
    unfold getMaxExpLoop at h ⊢
    simp only [Option.bind_eq_bind, Option.bind_eq_some_iff, safeMul_some] at h ⊢
    obtain ⟨q, ⟨h1, rfl⟩, v, h2, h3⟩ := h
    have hm : e * f ≤ e' * f' := Nat.mul_le_mul he hf
    obtain ⟨v', h2', _⟩ := generalExp_mono (shiftRight_mono hm MAX_PRECISION) h2
    obtain ⟨r', h3', hr⟩ := ih _ _ r (shiftRight_mono hm MAX_PRECISION) h3
    exact ⟨r', ⟨_, ⟨hm.trans_lt h1, rfl⟩, v', h2', h3'⟩, hr⟩

theorem getMaxExpLoop_last {cs : List Nat} {p f : Nat} : ∀ (k e r : Nat), getMaxExpLoop cs p f (k + 1) e = some r →
    ∃ v, generalExp r cs p = some v := by
  intro k
  induction k with
  | zero =>
    intro e r h
    unfold getMaxExpLoop at h
    simp only [Option.bind_eq_bind, Option.bind_eq_some_iff, safeMul_some] at h
    obtain ⟨q, ⟨h1, rfl⟩, v, h2, h3⟩ := h
    injection h3 with h3
    subst h3
    exact ⟨v, h2⟩
  | succ k ih =>
    intro e r h
    unfold getMaxExpLoop at h
    simp only [Option.bind_eq_bind, Option.bind_eq_some_iff, safeMul_some] at h
    obtain ⟨q, ⟨h1, rfl⟩, v, h2, h3⟩ := h
    exact ih _ _ h3

theorem getMaxExpLoop_zero {c p : Nat} {cs : List Nat} (hc : c ≠ 0) (hp : p < 256) : ∀ (k e : Nat), ∃ r, getMaxExpLoop (c :: cs) p 0 k e = some r := by
  intro k
  induction k with
  | zero => intro e; exact ⟨e, rfl⟩
  | succ k ih =>
    intro e
    unfold getMaxExpLoop
    obtain ⟨r, h⟩ := ih 0
    refine ⟨r, ?_⟩
    simp only [Option.bind_eq_bind, Option.bind_eq_some_iff, safeMul_some]
    exact ⟨0, ⟨by rw [Nat.mul_zero]; decide +kernel, (Nat.mul_zero e).symm⟩, _, by rw [Nat.zero_shiftRight]; exact generalExp_zero hc hp,
      by rw [Nat.zero_shiftRight]; exact h⟩

theorem forM_some {α : Type} {f : α → Option Unit} : ∀ (l : List α), (∃ u, l.forM f = some u) ↔ ∀ x ∈ l, ∃ u, f x = some u := by
  intro l
  induction l with
  | nil => exact ⟨fun _ x h => (List.not_mem_nil h).elim, fun _ => ⟨(), rfl⟩⟩
  | cons a l ih =>
    have e : (a :: l).forM f = (f a >>= fun _ => l.forM f) := rfl
    rw [e]
    simp only [Option.bind_eq_bind, Option.bind_eq_some_iff, List.forall_mem_cons]
    constructor
    · rintro ⟨u, v, h1, h2⟩; exact ⟨⟨v, h1⟩, ih.mp ⟨u, h2⟩⟩
    · rintro ⟨⟨v, h1⟩, h2⟩
      obtain ⟨u, h⟩ := ih.mpr h2
      exact ⟨u, v, h1, h⟩

theorem assertFactor_iff {cs A : List Nat} {f : Nat} : (∃ u, assertFactor cs A f = some u) ↔
    ∀ p, 32 ≤ p → p ≤ 127 → ∃ m, getMaxExp cs A p f = some m := by
  unfold assertFactor
  rw [forM_some]
  constructor
  · intro h p h1 h2
    obtain ⟨u, hu⟩ := h (p - 32) (List.mem_range.mpr (by unfold MAX_PRECISION MIN_PRECISION; omega))
    rw [show MIN_PRECISION + (p - 32) = p by unfold MIN_PRECISION; omega] at hu
    simp only [Option.bind_eq_bind, Option.bind_eq_some_iff] at hu
    obtain ⟨m, hm, _⟩ := hu
    exact ⟨m, hm⟩
  · intro h k hk
    have hk := List.mem_range.mp hk
    unfold MAX_PRECISION MIN_PRECISION at hk
    obtain ⟨m, hm⟩ := h (MIN_PRECISION + k) (by unfold MIN_PRECISION; omega) (by unfold MIN_PRECISION; omega)
    exact ⟨(), by rw [hm]; rfl⟩

theorem growth {A : List Nat} {c : Nat} {cs : List Nat} (hc : c ≠ 0) :
    ∃ g, growthFactor (c :: cs) A = some g ∧ (∀ p, 32 ≤ p → p ≤ 127 → ∃ m, getMaxExp (c :: cs) A p g = some m) ∧
      ∀ f, g < f → f < 1 <<< 256 → ∃ p, 32 ≤ p ∧ p ≤ 127 ∧ getMaxExp (c :: cs) A p f = none := by
  have h0 : (assertFactor (c :: cs) A 0).isSome := by
    rw [Option.isSome_iff_exists, assertFactor_iff]
    exact fun p h1 h2 => getMaxExpLoop_zero hc (by omega) _ _
  have hd : ∀ x y, x ≤ y → (assertFactor (c :: cs) A y).isSome → (assertFactor (c :: cs) A x).isSome := by
    intro x y hxy h
    rw [Option.isSome_iff_exists, assertFactor_iff] at h ⊢
    intro p h1 h2
    obtain ⟨m, hm⟩ := h p h1 h2
    obtain ⟨r, hr, _⟩ := getMaxExpLoop_mono hxy _ _ _ _ (Nat.le_refl _) hm
    exact ⟨r, hr⟩
  have hex : ∃ g, growthFactor (c :: cs) A = some g := by
    have h := binaryLoop_spec (ok := fun x => (assertFactor (c :: cs) A x).isSome) 0 ((1 <<< 256) - 1) (by omega) h0
    unfold growthFactor binarySearch
    simp only [] at h ⊢
    split
    · exact ⟨_, rfl⟩
    · rw [if_pos h.1]; exact ⟨_, rfl⟩
  obtain ⟨g, hg⟩ := hex
  obtain ⟨g1, g2, g3⟩ := (binarySearch_eq h0 hd g).mp hg
  refine ⟨g, hg, assertFactor_iff.mp (Option.isSome_iff_exists.mp g2), fun f hf hb => ?_⟩
  by_contra hno
  have : ∀ p, 32 ≤ p → p ≤ 127 → ∃ m, getMaxExp (c :: cs) A p f = some m := by
    intro p h1 h2
    cases hm : getMaxExp (c :: cs) A p f with
    | none => exact absurd ⟨p, h1, h2, hm⟩ hno
    | some m => exact ⟨m, rfl⟩
  have := g3 f hb (Option.isSome_iff_exists.mpr (assertFactor_iff.mpr this))
  omega

end Verif.Generator

import Verif.Proofs.Blame
import Mathlib.Algebra.BigOperators.Finprod
import Mathlib.Data.Fintype.EquivFin
import Mathlib.Tactic.Linarith
import Mathlib.Data.Fintype.Prod
/-!
Sums of balances.
-/
namespace Verif

instance : Finite Addr := by
  have : Finite (Bool × Fin (2 ^ 160)) := inferInstance
  refine Finite.of_injective (fun a : Addr => (a.isContract, a.body.toFin)) ?_
  rintro ⟨a, b⟩ ⟨c, d⟩ h
  simp only [Prod.mk.injEq] at h
  obtain ⟨rfl, h⟩ := h
  congr
  exact BitVec.eq_of_toFin_eq h

theorem sum_upd (f : Addr → Int) (a : Addr) (b : Int) : ∑ᶠ x, upd f a b x = ∑ᶠ x, f x + (b - f a) := by
  have : Fintype Addr := Fintype.ofFinite Addr
  rw [finsum_eq_sum_of_fintype, finsum_eq_sum_of_fintype]
  have h1 : ∀ g : Addr → Int, ∑ x, g x = g a + ∑ x ∈ Finset.univ.erase a, g x :=
    fun g => (Finset.add_sum_erase _ g (Finset.mem_univ a)).symm
  rw [h1 (upd f a b), h1 f, upd_same]
  have : ∑ x ∈ Finset.univ.erase a, upd f a b x = ∑ x ∈ Finset.univ.erase a, f x :=
    Finset.sum_congr rfl (fun x hx => upd_ne f b (Finset.ne_of_mem_erase hx))
  rw [this]; ring

theorem sum_moveBal (f : Addr → Int) (a b : Addr) (v : Int) : ∑ᶠ x, moveBal f a b v x = ∑ᶠ x, f x := by
  rw [moveBal_eq, sum_upd, sum_upd]; ring

theorem sum_ge (f : Addr → Int) (hf : ∀ a, 0 ≤ f a) (a : Addr) : f a ≤ ∑ᶠ x, f x := by
  have : Fintype Addr := Fintype.ofFinite Addr
  rw [finsum_eq_sum_of_fintype]
  exact Finset.single_le_sum (fun i _ => hf i) (Finset.mem_univ a)

theorem moveBal_nonneg {f : Addr → Int} {a b : Addr} {v : Int} (hf : ∀ a, 0 ≤ f a) (hv : 0 ≤ v) (h : v ≤ f a) (x : Addr) :
    0 ≤ moveBal f a b v x := by
  rw [moveBal_eq]
  have h1 := hf x
  have h2 := hf b
  simp only [upd_apply]
  split <;> split <;> subst_vars <;> omega

/-- A token's books are in order. -/
def Books (t : TokSt) : Prop := (∑ᶠ a, t.bal a = t.supply) ∧ ∀ a, 0 ≤ t.bal a

theorem books_default : Books {} := ⟨by simp, fun _ => le_refl _⟩

theorem books_install {t : TokSt} (h : t = {}) {s : Addr} {v : Int} (hv : 0 ≤ v) {n sy : String} {d : Int} :
    Books { t with name := n, symbol := sy, supply := v, decimals := d, bal := upd t.bal s v } := by
  subst h
  constructor
  · rw [sum_upd]; simp
  · intro a; simp only [upd_apply]; split <;> simp [hv]

theorem LocalStep.books {f w w'} (h : LocalStep f w w') {T : Addr} (hb : Books (w.tok T)) : Books (w'.tok T) := by
  cases h with
  | transfer dst v d hk hc hv hle =>
    rw [setTok_tok]
    split
    · subst_vars
      exact ⟨by rw [← hb.1]; exact sum_moveBal _ _ _ _, moveBal_nonneg hb.2 hv hle⟩
    · exact hb
  | issue dst v hk hc hv =>
    rw [setTok_tok]
    split
    · subst_vars
      refine ⟨?_, fun a => ?_⟩
      · simp only [sum_upd, hb.1]; omega
      · have := hb.2 a
        have := hb.2 dst
        simp only [upd_apply]; split <;> omega
    · exact hb
  | destroy from_ v hk hc hv hle =>
    rw [setTok_tok]
    split
    · subst_vars
      refine ⟨?_, fun a => ?_⟩
      · simp only [sum_upd, hb.1]; omega
      · have := hb.2 a
        simp only [upd_apply]; split <;> omega
    · exact hb
  | deposit hk hc hv =>
    rw [setTok_tok]
    split
    · subst_vars
      refine ⟨?_, fun a => ?_⟩
      · simp only [sum_upd, hb.1]; omega
      · have := hb.2 a
        have := hb.2 f.sender
        simp only [upd_apply]; split <;> omega
    · exact hb
  | withdraw v dst hk hc hv hle =>
    rw [setTok_tok]
    split
    · subst_vars
      refine ⟨?_, fun a => ?_⟩
      · simp only [sum_upd, hb.1]; omega
      · have := hb.2 a
        simp only [upd_apply]; split <;> omega
    · exact hb
  | _ => exact hb

theorem books_step {B w w'} (hi : Inv w) (h : Step B w w') (hb : ∀ T, Books (w.tok T)) (T : Addr) : Books (w'.tok T) := by
  cases h with
  | enter => exact hb T
  | loc f w' hf hl => exact hl.books (hb T)
  | deploy s a i w' _ _ _ hn _ hI =>
    by_cases e : a = T
    · subst e
      have h0 : w.tok a = {} := hi.tok a (by simp [hn, Kind.isToken])
      cases hI with
      | irc n sy i d h1 h2 =>
        rw [setTok_tok_same]; exact books_install h0 (Int.mul_nonneg h1 (Int.pow_nonneg (by decide)))
      | icx =>
        simp only [setOwn_tok]; rw [setTok_tok_same]; exact books_install h0 (le_refl 0)
      | flex n sy i d h1 h2 =>
        simp only [addLog_tok, setFlex_tok, setOwn_tok]; rw [setTok_tok_same]
        exact books_install h0 (Int.mul_nonneg h1 (Int.pow_nonneg (by decide)))
      | _ => exact hb a
    · rw [(installed_sameAt hI e).tok]; exact hb T

theorem Reachable.books {w} (h : Reachable w) (T : Addr) : Books (w.tok T) := by
  have : Inv w ∧ ∀ T, Books (w.tok T) :=
    h.inv (I := fun w => Inv w ∧ ∀ T, Books (w.tok T))
      (fun w hg => ⟨Inv.genesis hg, fun T => by rw [hg.tok]; exact books_default⟩)
      (fun w w' hi hs => ⟨hi.1.step hs, books_step hi.1 hs hi.2⟩)
  exact this.2 T

end Verif

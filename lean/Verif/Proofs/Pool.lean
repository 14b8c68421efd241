import Verif.Proofs.FormulaCurve
import Verif.Spec.Curve
import Verif.Props.Formula
/-!
A pool loses at most a tiny factor of its value with every trade.
-/
namespace Verif.Curve
open Real Verif.Formula

variable {ι : Type} [DecidableEq ι] [Fintype ι]

/-- A pool with something in it. -/
def Pool.Positive (P : Pool ι) : Prop := 0 < P.supply ∧ ∀ i, 0 < P.balance i

/-- Logarithm of the value of a pool: the weighted balances against the supply. -/
noncomputable def Pool.logValue (w : ι → Int) (P : Pool ι) : ℝ := ∑ i, (w i : ℝ) * log (P.balance i) - 1000000 * log P.supply

theorem sum_update (g : ι → Int → ℝ) (B : ι → Int) (i : ι) (x : Int) :
    ∑ j, g j (Function.update B i x j) = ∑ j, g j (B j) + (g i x - g i (B i)) := by
  rw [← Finset.add_sum_erase Finset.univ _ (Finset.mem_univ i), ← Finset.add_sum_erase Finset.univ (fun j => g j (B j)) (Finset.mem_univ i)]
  rw [Function.update_self]
  have : ∑ j ∈ Finset.univ.erase i, g j (Function.update B i x j) = ∑ j ∈ Finset.univ.erase i, g j (B j) :=
    Finset.sum_congr rfl fun j hj => by rw [Function.update_of_ne (Finset.ne_of_mem_erase hj)]
  rw [this]; ring

theorem logValue_update (w : ι → Int) (S T : Int) (B : ι → Int) (i : ι) (x : Int) :
    Pool.logValue w ⟨T, Function.update B i x⟩ = Pool.logValue w ⟨S, B⟩ + (w i : ℝ) * (log x - log (B i)) - 1000000 * (log T - log S) := by
  unfold Pool.logValue
  simp only
  rw [sum_update (fun j x => (w j : ℝ) * log (x : ℝ))]
  ring

theorem update_pos {B : ι → Int} {i : ι} {x : Int} (h : ∀ j, 0 < B j) (hx : 0 < x) : ∀ j, 0 < Function.update B i x j := by
  intro j
  by_cases hj : j = i
  · subst hj; rw [Function.update_self]; exact hx
  · rw [Function.update_of_ne hj]; exact h j

theorem log_mono {a b : Int} (ha : 0 < a) (h : a ≤ b) : log (a : ℝ) ≤ log (b : ℝ) :=
  Real.log_le_log (by exact_mod_cast ha) (by exact_mod_cast h)

theorem purchase_log {s b w d r : Int} (hd : 0 ≤ d) (h : calculatePurchaseReturn s b w d = .ok r) :
    1000000 * (log ((s + r : Int) : ℝ) - log s) ≤ w * (log ((b + d : Int) : ℝ) - log b) + 1000000 * eps := by
  have hv : 0 < s ∧ 0 < b ∧ ValidWeight w := by by_contra hn; rw [purchase_invalid hn] at h; cases h
  obtain ⟨hs, hb, hw⟩ := hv
  obtain ⟨hw1, hw2⟩ := weight_real hw
  have hε := eps_pos
  have hs' : (0 : ℝ) < s := by exact_mod_cast hs
  have hb' : (0 : ℝ) < b := by exact_mod_cast hb
  have hr : 0 ≤ r := C44_purchase hd h
  have hsr : (0 : ℝ) < ((s + r : Int) : ℝ) := by exact_mod_cast (by omega : 0 < s + r)
  have hdb : (0 : ℝ) < ((d + b : Int) : ℝ) := by exact_mod_cast (by omega : 0 < d + b)
  have hu := purchase_up hs hb hw hd h
  have h1 : ((s + r : Int) : ℝ) ≤ s * exp ((w : ℝ) / 1000000 * (log ((d + b : Int) / b) + eps)) := by push_cast at hu ⊢; exact hu
  have h2 := Real.log_le_log hsr h1
  rw [Real.log_mul hs'.ne' (Real.exp_pos _).ne', Real.log_exp, Real.log_div hdb.ne' hb'.ne', Int.add_comm d b] at h2
  have h3 : 1000000 * ((w : ℝ) / 1000000 * (log ((b + d : Int) : ℝ) - log b + eps)) = w * (log ((b + d : Int) : ℝ) - log b) + w * eps := by field_simp
  nlinarith

theorem sale_log {s b w d r : Int} (hd : 0 ≤ d) (hds : d < s) (h : calculateSaleReturn s b w d = .ok r) : r < b ∧
    w * (log b - log ((b - r : Int) : ℝ)) ≤ 1000000 * (log s - log ((s - d : Int) : ℝ)) + 1000000 * eps := by
  have hv : 0 < s ∧ 0 < b ∧ ValidWeight w ∧ d ≤ s := by by_contra hn; rw [sale_invalid hn] at h; cases h
  obtain ⟨hs, hb, hw, _⟩ := hv
  obtain ⟨hw1, hw2⟩ := weight_real hw
  have hs' : (0 : ℝ) < s := by exact_mod_cast hs
  have hb' : (0 : ℝ) < b := by exact_mod_cast hb
  have hsd : (0 : ℝ) < ((s - d : Int) : ℝ) := by exact_mod_cast (by omega : 0 < s - d)
  obtain ⟨hr0, hr1, hr2⟩ := C44_sale hd h
  have hrb : r < b := by
    rcases Int.lt_or_eq_of_le hr1 with h | h
    · exact h
    · have := hr2 h; omega
  refine ⟨hrb, ?_⟩
  have hbr : (0 : ℝ) < ((b - r : Int) : ℝ) := by exact_mod_cast (by omega : 0 < b - r)
  have hu := sale_up hs hb hw hd hds h
  have h1 : b * exp (-(1000000 / (w : ℝ) * (log (s / (s - d : Int)) + eps))) ≤ ((b - r : Int) : ℝ) := by push_cast at hu ⊢; exact hu
  have h2 := Real.log_le_log (by positivity) h1
  rw [Real.log_mul hb'.ne' (Real.exp_pos _).ne', Real.log_exp, Real.log_div hs'.ne' hsd.ne'] at h2
  have h3 : (w : ℝ) * (1000000 / w * (log s - log ((s - d : Int) : ℝ) + eps)) = 1000000 * (log s - log ((s - d : Int) : ℝ)) + 1000000 * eps := by field_simp
  nlinarith

theorem cross_log {fb fw tb tw a r : Int} (ha : 0 ≤ a) (h : calculateCrossConnectorReturn fb fw tb tw a = .ok r) :
    tw * (log tb - log ((tb - r : Int) : ℝ)) ≤ fw * (log ((fb + a : Int) : ℝ) - log fb) + 1000000 * eps := by
  have hv : 0 < fb ∧ ValidWeight fw ∧ 0 < tb ∧ ValidWeight tw := by by_contra hn; rw [cross_invalid hn] at h; cases h
  obtain ⟨hf, hfw, ht, htw⟩ := hv
  obtain ⟨hw1, hw2⟩ := weight_real hfw
  obtain ⟨hw3, hw4⟩ := weight_real htw
  have hε := eps_pos
  have hf' : (0 : ℝ) < fb := by exact_mod_cast hf
  have ht' : (0 : ℝ) < tb := by exact_mod_cast ht
  have hfa : (0 : ℝ) < ((fb + a : Int) : ℝ) := by exact_mod_cast (by omega : 0 < fb + a)
  obtain ⟨hr0, hr1⟩ := C44_cross ha h
  have htr : (0 : ℝ) < ((tb - r : Int) : ℝ) := by exact_mod_cast (by omega : 0 < tb - r)
  have hu := cross_up hf hfw ht htw ha h
  have h1 : tb * exp (-((fw : ℝ) / tw * (log ((fb + a : Int) / fb) + eps))) ≤ ((tb - r : Int) : ℝ) := by push_cast at hu ⊢; exact hu
  have h2 := Real.log_le_log (by positivity) h1
  rw [Real.log_mul ht'.ne' (Real.exp_pos _).ne', Real.log_exp, Real.log_div hfa.ne' hf'.ne'] at h2
  have h3 : (tw : ℝ) * ((fw : ℝ) / tw * (log ((fb + a : Int) : ℝ) - log fb + eps)) = fw * (log ((fb + a : Int) : ℝ) - log fb) + fw * eps := by field_simp
  nlinarith

theorem Trade.value {w : ι → Int} (hw : ∀ i, 1 ≤ w i) {P Q : Pool ι} (h : Trade w P Q) (hP : P.Positive) :
    Q.Positive ∧ P.logValue w ≤ Q.logValue w + 1000000 * eps := by
  have hε := eps_pos
  obtain ⟨hS, hB⟩ := hP
  cases h with
  | buy i d r g hd hr hg0 hg =>
    refine ⟨⟨by simp only; omega, update_pos hB (by have := hB i; omega)⟩, ?_⟩
    rw [logValue_update w P.supply]
    have h1 := purchase_log hd hr
    have h2 := log_mono (show 0 < P.supply + g by omega) (show P.supply + g ≤ P.supply + r by omega)
    have e : P.logValue w = Pool.logValue w ⟨P.supply, P.balance⟩ := rfl
    rw [e]
    linarith
  | sell i d r g hd hds hr hg0 hg =>
    obtain ⟨hrb, h1⟩ := sale_log hd hds hr
    refine ⟨⟨by simp only; omega, update_pos hB (by omega)⟩, ?_⟩
    rw [logValue_update w P.supply]
    have h2 := log_mono (show 0 < P.balance i - r by omega) (show P.balance i - r ≤ P.balance i - g by omega)
    have hwi : (0 : ℝ) ≤ w i := by have := hw i; exact_mod_cast (by omega : 0 ≤ w i)
    have h3 := mul_le_mul_of_nonneg_left h2 hwi
    have e : P.logValue w = Pool.logValue w ⟨P.supply, P.balance⟩ := rfl
    rw [e]
    nlinarith
  | cross i j a r g hij ha hr hg0 hg =>
    obtain ⟨hr0, hr1⟩ := C44_cross ha hr
    have h1 := cross_log ha hr
    refine ⟨⟨hS, update_pos (update_pos hB (by have := hB i; omega)) (by omega)⟩, ?_⟩
    rw [logValue_update w P.supply, logValue_update w P.supply, Function.update_of_ne (Ne.symm hij)]
    have h2 := log_mono (show 0 < P.balance j - r by omega) (show P.balance j - r ≤ P.balance j - g by omega)
    have hwi : (0 : ℝ) ≤ w j := by have := hw j; exact_mod_cast (by omega : 0 ≤ w j)
    have h3 := mul_le_mul_of_nonneg_left h2 hwi
    have e : P.logValue w = Pool.logValue w ⟨P.supply, P.balance⟩ := rfl
    rw [e]
    nlinarith
  | gift i a ha =>
    refine ⟨⟨hS, update_pos hB (by have := hB i; omega)⟩, ?_⟩
    rw [logValue_update w P.supply]
    have h2 := log_mono (hB i) (show P.balance i ≤ P.balance i + a by omega)
    have hwi : (0 : ℝ) ≤ w i := by have := hw i; exact_mod_cast (by omega : 0 ≤ w i)
    have h3 := mul_le_mul_of_nonneg_left h2 hwi
    have e : P.logValue w = Pool.logValue w ⟨P.supply, P.balance⟩ := rfl
    rw [e]
    nlinarith
  | burn a ha has =>
    refine ⟨⟨by simp only; omega, hB⟩, ?_⟩
    have h2 := log_mono (show 0 < P.supply - a by omega) (show P.supply - a ≤ P.supply by omega)
    unfold Pool.logValue
    linarith

theorem Trades.value {w : ι → Int} (hw : ∀ i, 1 ≤ w i) {n : Nat} {P Q : Pool ι} (h : Trades w n P Q) (hP : P.Positive) :
    Q.Positive ∧ P.logValue w ≤ Q.logValue w + n * (1000000 * eps) := by
  induction h with
  | none P => exact ⟨hP, by simp⟩
  | more _ ht ih =>
    obtain ⟨h1, h2⟩ := ih hP
    obtain ⟨h3, h4⟩ := ht.value hw h1
    refine ⟨h3, ?_⟩
    push_cast
    linarith

end Verif.Curve

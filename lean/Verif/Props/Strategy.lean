import Verif.Props.Curve
import Verif.Props.Pool
/-!
C66: no strategy beats the direct conversion.
-/
set_option autoImplicit false
namespace Verif.Formula
open Real

section
variable {ι : Type} [DecidableEq ι] [Fintype ι] {weight : ι → Int} {n : Nat} {P Q : Curve.Pool ι} {i j : ι} {d r a : Int}

/-- The exact curve bounds what any trades, paid for by at most `d` of connector `i`, add to the supply. -/
theorem strategy_purchase (hw : ∀ i, 1 ≤ weight i) (hS : 0 < P.supply) (hB : ∀ i, 0 < P.balance i) (h : Curve.Trades weight n P Q)
    (hd : 0 ≤ d) (hpaid : Q.balance i ≤ P.balance i + d) (hothers : ∀ j, j ≠ i → Q.balance j ≤ P.balance j) :
    (Q.supply : ℝ) ≤ (P.supply + Curve.purchase P.supply (P.balance i) (weight i) d) * exp (n * eps) := by
  obtain ⟨⟨hS', hB'⟩, hv⟩ := h.value hw ⟨hS, hB⟩
  unfold Curve.Pool.logValue at hv
  rw [← Finset.add_sum_erase Finset.univ (fun i => (weight i : ℝ) * log (P.balance i)) (Finset.mem_univ i),
    ← Finset.add_sum_erase Finset.univ (fun i => (weight i : ℝ) * log (Q.balance i)) (Finset.mem_univ i)] at hv
  have h1 : ∑ j ∈ Finset.univ.erase i, (weight j : ℝ) * log (Q.balance j) ≤ ∑ j ∈ Finset.univ.erase i, (weight j : ℝ) * log (P.balance j) := by
    refine Finset.sum_le_sum fun j hj => mul_le_mul_of_nonneg_left (Curve.log_mono (hB' j) (hothers j (Finset.ne_of_mem_erase hj))) ?_
    have := hw j; exact_mod_cast (by omega : 0 ≤ weight j)
  have hwi : (0 : ℝ) ≤ weight i := by have := hw i; exact_mod_cast (by omega : 0 ≤ weight i)
  have h2 := mul_le_mul_of_nonneg_left (Curve.log_mono (hB' i) hpaid) hwi
  have hPi : (0 : ℝ) < P.balance i := by exact_mod_cast hB i
  have hP : (0 : ℝ) < P.supply := by exact_mod_cast hS
  have hQ : (0 : ℝ) < Q.supply := by exact_mod_cast hS'
  have hPd : (0 : ℝ) < ((d + P.balance i : Int) : ℝ) := by have := hB i; exact_mod_cast (by omega : 0 < d + P.balance i)
  unfold Curve.purchase
  rw [ratio_eq (hB i), rpow_exp (ratio_pos (hB i) hd), mul_sub, mul_one, add_sub_cancel]
  rw [← Real.log_le_log_iff hQ (by positivity), Real.log_mul (by positivity) (Real.exp_pos _).ne', Real.log_exp,
    Real.log_mul hP.ne' (Real.exp_pos _).ne', Real.log_exp, Real.log_div hPd.ne' hPi.ne']
  rw [show P.balance i + d = d + P.balance i by omega] at h2
  have h3 : (weight i : ℝ) / 1000000 * (log ((d + P.balance i : Int) : ℝ) - log (P.balance i)) * 1000000 =
      weight i * log ((d + P.balance i : Int) : ℝ) - weight i * log (P.balance i) := by ring
  nlinarith

/-- The exact curve bounds what any trades, paid for by at most `d` of the supply, take out of connector `i`. -/
theorem strategy_sale (hw : ∀ i, 1 ≤ weight i) (hS : 0 < P.supply) (hB : ∀ i, 0 < P.balance i) (h : Curve.Trades weight n P Q)
    (hd : d < P.supply) (hpaid : P.supply - d ≤ Q.supply) (hothers : ∀ j, j ≠ i → Q.balance j ≤ P.balance j) :
    (P.balance i - Curve.sale P.supply (P.balance i) (weight i) d) * exp (-(n * (1000000 * eps))) ≤ Q.balance i := by
  obtain ⟨⟨hS', hB'⟩, hv⟩ := h.value hw ⟨hS, hB⟩
  have hε := eps_pos
  unfold Curve.Pool.logValue at hv
  rw [← Finset.add_sum_erase Finset.univ (fun i => (weight i : ℝ) * log (P.balance i)) (Finset.mem_univ i),
    ← Finset.add_sum_erase Finset.univ (fun i => (weight i : ℝ) * log (Q.balance i)) (Finset.mem_univ i)] at hv
  have h1 : ∑ j ∈ Finset.univ.erase i, (weight j : ℝ) * log (Q.balance j) ≤ ∑ j ∈ Finset.univ.erase i, (weight j : ℝ) * log (P.balance j) := by
    refine Finset.sum_le_sum fun j hj => mul_le_mul_of_nonneg_left (Curve.log_mono (hB' j) (hothers j (Finset.ne_of_mem_erase hj))) ?_
    have := hw j; exact_mod_cast (by omega : 0 ≤ weight j)
  have hwi : (1 : ℝ) ≤ weight i := by exact_mod_cast hw i
  have h2 := Curve.log_mono (show 0 < P.supply - d by omega) hpaid
  have hPi : (0 : ℝ) < P.balance i := by exact_mod_cast hB i
  have hQi : (0 : ℝ) < Q.balance i := by exact_mod_cast hB' i
  have hP : (0 : ℝ) < P.supply := by exact_mod_cast hS
  have hPd : (0 : ℝ) < ((P.supply - d : Int) : ℝ) := by exact_mod_cast (by omega : 0 < P.supply - d)
  have e1 : (1 : ℝ) / ((weight i : ℝ) / 1000000) = 1000000 / weight i := by rw [one_div, inv_div]
  unfold Curve.sale
  rw [rest_eq hS, e1, rpow_exp (inv_pos.mpr (rest_pos hS hd)), Real.log_inv, Real.log_div hP.ne' hPd.ne', mul_sub, mul_one, sub_sub_cancel]
  rw [← Real.log_le_log_iff (by positivity) hQi, Real.log_mul (by positivity) (Real.exp_pos _).ne', Real.log_exp,
    Real.log_mul hPi.ne' (Real.exp_pos _).ne', Real.log_exp]
  have h3 : (weight i : ℝ) * log (P.balance i) + 1000000 * (log ((P.supply - d : Int) : ℝ) - log P.supply) - n * (1000000 * eps) ≤
      weight i * log (Q.balance i) := by linarith
  have h4 : (0 : ℝ) ≤ n * (1000000 * eps) := by positivity
  have h5 : (n : ℝ) * (1000000 * eps) / weight i ≤ n * (1000000 * eps) := div_le_self h4 hwi
  have h6 : ((weight i : ℝ) * log (P.balance i) + 1000000 * (log ((P.supply - d : Int) : ℝ) - log P.supply) - n * (1000000 * eps)) / weight i ≤
      log (Q.balance i) := by rw [div_le_iff₀ (by linarith)]; linarith
  have h7 : ((weight i : ℝ) * log (P.balance i) + 1000000 * (log ((P.supply - d : Int) : ℝ) - log P.supply) - n * (1000000 * eps)) / weight i =
      log (P.balance i) + 1000000 / weight i * (log ((P.supply - d : Int) : ℝ) - log P.supply) - n * (1000000 * eps) / weight i := by
    field_simp
  rw [h7] at h6
  have h8 : (1000000 : ℝ) / weight i * -(log P.supply - log ((P.supply - d : Int) : ℝ)) =
      1000000 / weight i * (log ((P.supply - d : Int) : ℝ) - log P.supply) := by ring
  linarith

/-- The exact curve bounds what any trades, paid for by at most `a` of connector `i`, take out of connector `j`. -/
theorem strategy_cross (hw : ∀ i, 1 ≤ weight i) (hS : 0 < P.supply) (hB : ∀ i, 0 < P.balance i) (h : Curve.Trades weight n P Q)
    (hij : i ≠ j) (ha : 0 ≤ a) (hpaid : Q.balance i ≤ P.balance i + a) (hsupply : P.supply ≤ Q.supply)
    (hothers : ∀ k, k ≠ i → k ≠ j → Q.balance k ≤ P.balance k) :
    (P.balance j - Curve.cross (P.balance i) (weight i) (P.balance j) (weight j) a) * exp (-(n * (1000000 * eps))) ≤ Q.balance j := by
  obtain ⟨⟨hS', hB'⟩, hv⟩ := h.value hw ⟨hS, hB⟩
  have hε := eps_pos
  unfold Curve.Pool.logValue at hv
  have hj : j ∈ Finset.univ.erase i := Finset.mem_erase.mpr ⟨hij.symm, Finset.mem_univ j⟩
  rw [← Finset.add_sum_erase Finset.univ (fun i => (weight i : ℝ) * log (P.balance i)) (Finset.mem_univ i),
    ← Finset.add_sum_erase Finset.univ (fun i => (weight i : ℝ) * log (Q.balance i)) (Finset.mem_univ i),
    ← Finset.add_sum_erase _ (fun i => (weight i : ℝ) * log (P.balance i)) hj,
    ← Finset.add_sum_erase _ (fun i => (weight i : ℝ) * log (Q.balance i)) hj] at hv
  have h1 : ∑ k ∈ (Finset.univ.erase i).erase j, (weight k : ℝ) * log (Q.balance k) ≤
      ∑ k ∈ (Finset.univ.erase i).erase j, (weight k : ℝ) * log (P.balance k) := by
    refine Finset.sum_le_sum fun k hk => mul_le_mul_of_nonneg_left (Curve.log_mono (hB' k) (hothers k ?_ (Finset.ne_of_mem_erase hk))) ?_
    · exact Finset.ne_of_mem_erase (Finset.mem_of_mem_erase hk)
    · have := hw k; exact_mod_cast (by omega : 0 ≤ weight k)
  have hwi : (1 : ℝ) ≤ weight i := by exact_mod_cast hw i
  have hwj : (1 : ℝ) ≤ weight j := by exact_mod_cast hw j
  have h2 := mul_le_mul_of_nonneg_left (Curve.log_mono (hB' i) hpaid) (show (0 : ℝ) ≤ weight i by linarith)
  have h2' := Curve.log_mono hS hsupply
  have hPi : (0 : ℝ) < P.balance i := by exact_mod_cast hB i
  have hPj : (0 : ℝ) < P.balance j := by exact_mod_cast hB j
  have hQj : (0 : ℝ) < Q.balance j := by exact_mod_cast hB' j
  have hPa : (0 : ℝ) < ((P.balance i + a : Int) : ℝ) := by have := hB i; exact_mod_cast (by omega : 0 < P.balance i + a)
  have hPa' : (0 : ℝ) < (P.balance i : ℝ) + a := by exact_mod_cast hPa
  unfold Curve.cross
  rw [rpow_exp (by positivity), Real.log_div hPi.ne' hPa'.ne', mul_sub, mul_one, sub_sub_cancel]
  rw [← Real.log_le_log_iff (by positivity) hQj, Real.log_mul (by positivity) (Real.exp_pos _).ne', Real.log_exp,
    Real.log_mul hPj.ne' (Real.exp_pos _).ne', Real.log_exp]
  push_cast at h2
  have h3 : (weight j : ℝ) * log (P.balance j) + weight i * (log (P.balance i) - log ((P.balance i : ℝ) + a)) - n * (1000000 * eps) ≤
      weight j * log (Q.balance j) := by linarith
  have h4 : (0 : ℝ) ≤ n * (1000000 * eps) := by positivity
  have h5 : (n : ℝ) * (1000000 * eps) / weight j ≤ n * (1000000 * eps) := div_le_self h4 hwj
  have h6 : ((weight j : ℝ) * log (P.balance j) + weight i * (log (P.balance i) - log ((P.balance i : ℝ) + a)) - n * (1000000 * eps)) / weight j ≤
      log (Q.balance j) := by rw [div_le_iff₀ (by linarith)]; linarith
  have h7 : ((weight j : ℝ) * log (P.balance j) + weight i * (log (P.balance i) - log ((P.balance i : ℝ) + a)) - n * (1000000 * eps)) / weight j =
      log (P.balance j) + weight i / weight j * (log (P.balance i) - log ((P.balance i : ℝ) + a)) - n * (1000000 * eps) / weight j := by
    field_simp
  rw [h7] at h6
  linarith

theorem _root_.Verif.Curve.purchase_nonneg {s b w d : Int} (hs : 0 < s) (hb : 0 < b) (hw : 0 ≤ w) (hd : 0 ≤ d) : 0 ≤ Curve.purchase s b w d := by
  unfold Curve.purchase
  have hs' : (0 : ℝ) < s := by exact_mod_cast hs
  have hPi : (0 : ℝ) < b := by exact_mod_cast hb
  have hd' : (0 : ℝ) ≤ d := by exact_mod_cast hd
  have hwi : (0 : ℝ) ≤ w := by exact_mod_cast hw
  have := Real.one_le_rpow (x := 1 + (d : ℝ) / b) (z := (w : ℝ) / 1000000) (by have := div_nonneg hd' hPi.le; linarith) (by positivity)
  nlinarith

theorem slack_small {X : ℝ} (hX : 0 ≤ X) (hsize : X * n ≤ 2 ^ 94) : X * (n * (1000000 * eps)) ≤ 1 / 100 := by
  have hε := eps_pos
  have h1 := mul_le_mul_of_nonneg_right hsize (show 0 ≤ 1000000 * eps by positivity)
  have h2 : (2 : ℝ) ^ 94 * (1000000 * eps) ≤ 1 / 100 := by rw [← eps_eq]; norm_num
  rw [← mul_assoc]; linarith

/-- C66. No strategy beats buying directly: whatever trades are made in whatever order, through whatever connectors, if in the end
they cost at most `d` of connector `i`, they bring at most two units more than the formula returns for buying with `d` at once (while
the exact supply afterwards is at most `2^22` times the supply before, and at most `2^116` divided by the number of trades). -/
theorem C66_purchase (hw : ∀ i, 1 ≤ weight i) (hS : 0 < P.supply) (hB : ∀ i, 0 < P.balance i) (h : Curve.Trades weight n P Q)
    (hd : 0 ≤ d) (hq : calculatePurchaseReturn P.supply (P.balance i) (weight i) d = .ok r)
    (hpaid : Q.balance i ≤ P.balance i + d) (hothers : ∀ j, j ≠ i → Q.balance j ≤ P.balance j)
    (hgrowth : (P.supply : ℝ) + Curve.purchase P.supply (P.balance i) (weight i) d ≤ 2 ^ 22 * P.supply)
    (hsize : ((P.supply : ℝ) + Curve.purchase P.supply (P.balance i) (weight i) d) * (n + 1) ≤ 2 ^ 116) :
    Q.supply - P.supply ≤ r + 2 := by
  have hε := eps_pos
  have hup := strategy_purchase hw hS hB h hd hpaid hothers
  set X := (P.supply : ℝ) + Curve.purchase P.supply (P.balance i) (weight i) d with hX
  have hP1 : (1 : ℝ) ≤ P.supply := by exact_mod_cast hS
  have hp0 : 0 ≤ Curve.purchase P.supply (P.balance i) (weight i) d := by
    unfold Curve.purchase
    have hPi : (0 : ℝ) < P.balance i := by exact_mod_cast hB i
    have hd' : (0 : ℝ) ≤ d := by exact_mod_cast hd
    have hwi : (0 : ℝ) ≤ weight i := by have := hw i; exact_mod_cast (by omega : 0 ≤ weight i)
    have := Real.one_le_rpow (x := 1 + (d : ℝ) / P.balance i) (z := (weight i : ℝ) / 1000000) (by have := div_nonneg hd' hPi.le; linarith)
      (by positivity)
    nlinarith
  have hX1 : 1 ≤ X := by rw [hX]; linarith
  have hn0 : (0 : ℝ) ≤ n := by positivity
  have hXn : X * n ≤ 2 ^ 116 := by nlinarith
  have hn : (n : ℝ) ≤ 2 ^ 116 := by nlinarith
  have hne : (n : ℝ) * eps ≤ 1 / 10 := by
    have h1 := mul_le_mul_of_nonneg_right hn hε.le
    have h2 : (2 : ℝ) ^ 116 * eps ≤ 1 / 10 := by rw [← eps_eq]; norm_num
    linarith
  have h3 := mul_le_mul_of_nonneg_left (exp_small (by positivity) hne) (show 0 ≤ X by linarith)
  have h4 : X * (n * eps) ≤ 1 / 100 := by
    have h1 := mul_le_mul_of_nonneg_right hXn hε.le
    have h2 : (2 : ℝ) ^ 116 * eps ≤ 1 / 100 := by rw [← eps_eq]; norm_num
    rw [← mul_assoc]; linarith
  have h5 := (abs_lt.mp (C47_purchase hd hq hgrowth (by rw [← hX]; nlinarith))).1
  have h6 : ((Q.supply - P.supply : Int) : ℝ) < ((r + 3 : Int) : ℝ) := by push_cast; nlinarith
  have : Q.supply - P.supply < r + 3 := by exact_mod_cast h6
  omega

/-- C66. No strategy beats selling directly: whatever trades are made, if in the end they cost at most `d` flexible tokens, they bring at
most two units more of connector `i` than the formula returns for selling `d` at once (while at least `2^-22` of the connector balance
is left, and it is at most `2^94`, also when multiplied by the number of trades). -/
theorem C66_sale (hw : ∀ i, 1 ≤ weight i) (hS : 0 < P.supply) (hB : ∀ i, 0 < P.balance i) (h : Curve.Trades weight n P Q)
    (hd : 0 ≤ d) (hds : d < P.supply) (hq : calculateSaleReturn P.supply (P.balance i) (weight i) d = .ok r)
    (hpaid : P.supply - d ≤ Q.supply) (hothers : ∀ j, j ≠ i → Q.balance j ≤ P.balance j)
    (hrest : (P.balance i : ℝ) / 2 ^ 22 ≤ P.balance i - Curve.sale P.supply (P.balance i) (weight i) d)
    (hsize : P.balance i * (n + 1) ≤ 2 ^ 94) :
    P.balance i - Q.balance i ≤ r + 2 := by
  have hup := strategy_sale hw hS hB h hds hpaid hothers
  have hPi : (0 : ℝ) < P.balance i := by exact_mod_cast hB i
  have hb := hB i
  have hs1 : P.balance i ≤ 2 ^ 94 := by have : 0 ≤ P.balance i * n := by positivity
                                        linarith
  have hs2 : (P.balance i : ℝ) * n ≤ 2 ^ 94 := by
    have : P.balance i * n ≤ 2 ^ 94 := by linarith
    exact_mod_cast this
  set X := (P.balance i : ℝ) - Curve.sale P.supply (P.balance i) (weight i) d with hX
  have hX0 : 0 ≤ X := le_trans (by positivity) hrest
  have hC : 0 ≤ Curve.sale P.supply (P.balance i) (weight i) d := by
    unfold Curve.sale
    have hP : (0 : ℝ) < P.supply := by exact_mod_cast hS
    have hd' : (0 : ℝ) ≤ d := by exact_mod_cast hd
    have hds' : (d : ℝ) ≤ P.supply := by exact_mod_cast hds.le
    have hwi : (0 : ℝ) ≤ weight i := by have := hw i; exact_mod_cast (by omega : 0 ≤ weight i)
    have := Real.rpow_le_one (x := 1 - (d : ℝ) / P.supply) (z := 1 / ((weight i : ℝ) / 1000000))
      (by rw [sub_nonneg]; exact div_le_one_of_le₀ hds' hP.le) (by have := div_nonneg hd' hP.le; linarith) (by positivity)
    nlinarith
  have hXb : X ≤ P.balance i := by rw [hX]; linarith
  have h1 := slack_small (n := n) hPi.le hs2
  have h2 := mul_le_mul_of_nonneg_left (Real.add_one_le_exp (-((n : ℝ) * (1000000 * eps)))) hX0
  have h3 : X * (n * (1000000 * eps)) ≤ P.balance i * (n * (1000000 * eps)) :=
    mul_le_mul_of_nonneg_right hXb (by have := eps_pos; positivity)
  have h4 := (abs_lt.mp (C47_sale hd hq hrest hs1)).1
  have h6 : ((P.balance i - Q.balance i : Int) : ℝ) < ((r + 3 : Int) : ℝ) := by push_cast; nlinarith
  have : P.balance i - Q.balance i < r + 3 := by exact_mod_cast h6
  omega

/-- C66. No strategy beats converting directly: whatever trades are made, if in the end they cost at most `a` of connector `i`, they bring
at most two units more of connector `j` than the formula returns for converting `a` at once. -/
theorem C66_cross (hw : ∀ i, 1 ≤ weight i) (hS : 0 < P.supply) (hB : ∀ i, 0 < P.balance i) (h : Curve.Trades weight n P Q)
    (hij : i ≠ j) (ha : 0 ≤ a) (hq : calculateCrossConnectorReturn (P.balance i) (weight i) (P.balance j) (weight j) a = .ok r)
    (hpaid : Q.balance i ≤ P.balance i + a) (hsupply : P.supply ≤ Q.supply) (hothers : ∀ k, k ≠ i → k ≠ j → Q.balance k ≤ P.balance k)
    (hrest : (P.balance j : ℝ) / 2 ^ 22 ≤ P.balance j - Curve.cross (P.balance i) (weight i) (P.balance j) (weight j) a)
    (hsize : P.balance j * (n + 1) ≤ 2 ^ 94) :
    P.balance j - Q.balance j ≤ r + 2 := by
  have hup := strategy_cross hw hS hB h hij ha hpaid hsupply hothers
  have hPj : (0 : ℝ) < P.balance j := by exact_mod_cast hB j
  have hb := hB j
  have hs1 : P.balance j ≤ 2 ^ 94 := by have : 0 ≤ P.balance j * n := by positivity
                                        linarith
  have hs2 : (P.balance j : ℝ) * n ≤ 2 ^ 94 := by
    have : P.balance j * n ≤ 2 ^ 94 := by linarith
    exact_mod_cast this
  set X := (P.balance j : ℝ) - Curve.cross (P.balance i) (weight i) (P.balance j) (weight j) a with hX
  have hX0 : 0 ≤ X := le_trans (by positivity) hrest
  have hC : 0 ≤ Curve.cross (P.balance i) (weight i) (P.balance j) (weight j) a := by
    unfold Curve.cross
    have hPi : (0 : ℝ) < P.balance i := by exact_mod_cast hB i
    have ha' : (0 : ℝ) ≤ a := by exact_mod_cast ha
    have hwi : (0 : ℝ) ≤ weight i := by have := hw i; exact_mod_cast (by omega : 0 ≤ weight i)
    have hwj : (0 : ℝ) ≤ weight j := by have := hw j; exact_mod_cast (by omega : 0 ≤ weight j)
    have := Real.rpow_le_one (x := (P.balance i : ℝ) / (P.balance i + a)) (z := (weight i : ℝ) / weight j)
      (by positivity) (div_le_one_of_le₀ (by linarith) (by positivity)) (by positivity)
    nlinarith
  have hXb : X ≤ P.balance j := by rw [hX]; linarith
  have h1 := slack_small (n := n) hPj.le hs2
  have h2 := mul_le_mul_of_nonneg_left (Real.add_one_le_exp (-((n : ℝ) * (1000000 * eps)))) hX0
  have h3 : X * (n * (1000000 * eps)) ≤ P.balance j * (n * (1000000 * eps)) :=
    mul_le_mul_of_nonneg_right hXb (by have := eps_pos; positivity)
  have h4 := (abs_lt.mp (C47_cross ha hq hrest hs1)).1
  have h6 : ((P.balance j - Q.balance j : Int) : ℝ) < ((r + 3 : Int) : ℝ) := by push_cast; nlinarith
  have : P.balance j - Q.balance j < r + 3 := by exact_mod_cast h6
  omega

/-- Connectors of 50% each, with 50000 in each. -/
def evenPool : Curve.Pool (Fin 2) := ⟨100000, ![50000, 50000]⟩

set_option maxRecDepth 100000 in
theorem evenTrades : ∃ Q, Curve.Trades (fun _ => 500000) 2 evenPool Q ∧ Q.supply = 100000 ∧ Q.balance 0 = 55000 ∧ Q.balance 1 = 45456 := by
  refine ⟨_, .more (.more (.none _) (.buy _ 0 5000 4880 4880 ?_ ?_ ?_ ?_)) (.sell _ 1 4880 4544 4544 ?_ ?_ ?_ ?_ ?_), ?_, ?_, ?_⟩ <;> decide +kernel

set_option maxRecDepth 100000 in
/-- Buying with 5000 of the one and selling what one gets for the other costs 5000 and brings 4544; directly, the formula gives 4545. -/
example : ∃ Q, Curve.Trades (fun _ => 500000) 2 evenPool Q ∧ evenPool.balance 1 - Q.balance 1 = 4544 ∧
    calculateCrossConnectorReturn 50000 500000 50000 500000 5000 = .ok 4545 ∧ evenPool.balance 1 - Q.balance 1 ≤ 4545 + 2 := by
  have hq : calculateCrossConnectorReturn 50000 500000 50000 500000 5000 = .ok 4545 := by decide +kernel
  obtain ⟨Q, h, h1, h2, h3⟩ := evenTrades
  refine ⟨Q, h, by rw [h3]; decide, hq, C66_cross (i := 0) (by decide) (by decide) (by decide) h (by decide) (by decide) hq (by rw [h2]; decide)
    (by rw [h1]; decide) ?_ ?_ (by decide)⟩
  · intro k h0 h1; exfalso; revert k; decide
  · have e0 : evenPool.balance 0 = 50000 := rfl
    have e1 : evenPool.balance 1 = 50000 := rfl
    simp only [Curve.cross, e0, e1]
    norm_num

set_option maxRecDepth 100000 in
/-- One connector of 100%: after selling 1000 flexible tokens in two halves one has 500, as after selling them at once. -/
example : ∃ Q, Curve.Trades (fun _ : Fin 1 => 1000000) 2 ⟨100000, ![50000]⟩ Q ∧ Q.balance 0 = 49500 ∧
    calculateSaleReturn 100000 50000 1000000 1000 = .ok 500 ∧ 50000 - Q.balance 0 ≤ 500 + 2 := by
  have hq : calculateSaleReturn 100000 50000 1000000 1000 = .ok 500 := by decide +kernel
  have ht : ∃ Q, Curve.Trades (fun _ : Fin 1 => 1000000) 2 ⟨100000, ![50000]⟩ Q ∧ Q.supply = 99000 ∧ Q.balance 0 = 49500 := by
    refine ⟨_, .more (.more (.none _) (.sell _ 0 500 250 250 ?_ ?_ ?_ ?_ ?_)) (.sell _ 0 500 250 250 ?_ ?_ ?_ ?_ ?_), ?_, ?_⟩ <;> decide +kernel
  obtain ⟨Q, h, h1, h2⟩ := ht
  refine ⟨Q, h, h2, hq, C66_sale (i := 0) (d := 1000) (by decide) (by decide) (by decide) h (by decide) (by decide) hq (by rw [h1]; decide) ?_ ?_ (by decide)⟩
  · intro k hk; exact absurd (Subsingleton.elim k 0) hk
  · simp only [Curve.sale]
    norm_num

set_option maxRecDepth 100000 in
/-- One connector of 100%: buying with 500 in two halves issues 1000 flexible tokens, as buying at once. -/
example : ∃ Q, Curve.Trades (fun _ : Fin 1 => 1000000) 2 ⟨100000, ![50000]⟩ Q ∧ Q.supply = 101000 ∧
    calculatePurchaseReturn 100000 50000 1000000 500 = .ok 1000 ∧ Q.supply - 100000 ≤ 1000 + 2 := by
  have hq : calculatePurchaseReturn 100000 50000 1000000 500 = .ok 1000 := by decide +kernel
  have ht : ∃ Q, Curve.Trades (fun _ : Fin 1 => 1000000) 2 ⟨100000, ![50000]⟩ Q ∧ Q.supply = 101000 ∧ Q.balance 0 = 50500 := by
    refine ⟨_, .more (.more (.none _) (.buy _ 0 250 500 500 ?_ ?_ ?_ ?_)) (.buy _ 0 250 500 500 ?_ ?_ ?_ ?_), ?_, ?_⟩ <;> decide +kernel
  obtain ⟨Q, h, h1, h2⟩ := ht
  refine ⟨Q, h, h1, hq, C66_purchase (i := 0) (d := 500) (by decide) (by decide) (by decide) h (by decide) hq (by rw [h2]; decide) ?_ ?_ ?_⟩
  · intro k hk; exact absurd (Subsingleton.elim k 0) hk
  · simp only [Curve.purchase]
    norm_num
  · simp only [Curve.purchase]
    norm_num

end
end Verif.Formula

namespace Verif
open Real

/-- C59 does not hold of connectors with a virtual balance, and this is why: a purchase for `v` at a virtual balance `B` is paid as if the
balance were `B - v` (converter.py:450-452), and then recorded as `B + v` (converter.py:303). Selling what one got then brings
`v²/B` more than one paid, exactly, whatever the weight. -/
theorem C59_virtual_gain {S B wt v : ℝ} (hS : 0 < S) (hw : 0 < wt) (hv : 0 < v) (hB : v < B) :
    Curve.sale (S + Curve.purchase S (B - v) wt v) (B + v) wt (Curve.purchase S (B - v) wt v) = v + v ^ 2 / B := by
  have h1 : 0 < B - v := by linarith
  have h0 : 0 < B := by linarith
  have h2 : 1 + v / (B - v) = B / (B - v) := by field_simp; ring
  have hq : 0 < B / (B - v) := by positivity
  unfold Curve.sale Curve.purchase
  rw [h2]
  set X := (B / (B - v)) ^ (wt / 1000000) with hX
  have hXp : 0 < X := Real.rpow_pos_of_pos hq _
  have h3 : 1 - S * (X - 1) / (S + S * (X - 1)) = X⁻¹ := by
    have : S + S * (X - 1) = S * X := by ring
    rw [this]; field_simp; ring
  rw [h3, hX, ← Real.inv_rpow hq.le, ← Real.rpow_mul (inv_nonneg.mpr hq.le), mul_one_div_cancel (by positivity), Real.rpow_one]
  field_simp
  ring

/-- 50 at a virtual balance of 100 become 75. -/
example : Curve.sale (1000 + Curve.purchase 1000 (100 - 50) 500000 50) (100 + 50) 500000 (Curve.purchase 1000 (100 - 50) 500000 50) = 75 := by
  rw [C59_virtual_gain] <;> norm_num


section
variable {w w' : World} {T t R N a b : Addr} {l : List Addr} {d r : Int}

theorem curve_buy (hw : Wired w T t R N) : w.curve T a t d 0 =
    Formula.calculatePurchaseReturn (w.tok t).supply (w.reserve T a) ((w.conv T).connectors a).weight d := by
  unfold World.curve
  rw [if_pos hw.token, sub_zero]

theorem curve_sell (hw : Wired w T t R N) (hb : b ≠ t) : w.curve T t b d 0 =
    Formula.calculateSaleReturn (w.tok t).supply (w.reserve T b) ((w.conv T).connectors b).weight d := by
  unfold World.curve
  rw [if_neg (by rw [hw.token]; simpa using Ne.symm hb), if_pos hw.token]

theorem curve_across (hw : Wired w T t R N) (ha : a ≠ t) (hb : b ≠ t) : w.curve T a b d 0 =
    Formula.calculateCrossConnectorReturn (w.reserve T a) ((w.conv T).connectors a).weight (w.reserve T b) ((w.conv T).connectors b).weight d := by
  unfold World.curve
  rw [if_neg (by rw [hw.token]; simpa using Ne.symm hb), if_neg (by rw [hw.token]; simpa using Ne.symm ha), sub_zero]

theorem Trading.ne (ht : Trading w T t R N l) (hw : Reachable w) (ha : a ∈ l) : a ≠ t := by
  rintro rfl; exact (ht.cfg hw).tok_notin ha

/-- C66. Whatever transactions are made, by whomever, with whatever third-party contracts, no matter in how many steps or through
which connectors: if in the end the converter holds at most `d` more of connector `a`, and no more of any other, then at most two
flexible tokens more were issued than the formula gives for buying with `d` of `a` at once. -/
theorem C66_nothing_beats_buying (hw : Reachable w) (ht : Trading w T t R N l) (h : Later w w')
    (hno : ∀ f, Called w w' f → ¬ Meddles T t R l f) (hb : ∀ a ∈ l, 0 < (w.tok a).bal T) (hs : 0 < (w'.tok t).supply) (ha : a ∈ l)
    (hd : 0 ≤ d) (hq : w.curve T a t d 0 = .ok r)
    (hpaid : (w'.tok a).bal T ≤ (w.tok a).bal T + d) (hothers : ∀ b ∈ l, b ≠ a → (w'.tok b).bal T ≤ (w.tok b).bal T)
    (hgrowth : ((w.tok t).supply : ℝ) + Curve.purchase (w.tok t).supply ((w.tok a).bal T) ((w.conv T).connectors a).weight d ≤ 2 ^ 22 * (w.tok t).supply)
    (hsize : (((w.tok t).supply : ℝ) + Curve.purchase (w.tok t).supply ((w.tok a).bal T) ((w.conv T).connectors a).weight d) *
      ((w'.frames.length - w.frames.length : Nat) + 1) ≤ 2 ^ 116) :
    (w'.tok t).supply - (w.tok t).supply ≤ r + 2 := by
  obtain ⟨n, hn, h1⟩ := C59_trades hw ht h hno hs
  have hS := ht.supply hw h hno hs
  have hre : w.reserve T a = (w.tok a).bal T := by unfold World.reserve; rw [ht.real a ha]; rfl
  rw [curve_buy ht.wired, hre] at hq
  have hn' : (n : ℝ) ≤ ((w'.frames.length - w.frames.length : Nat) : ℝ) := by exact_mod_cast hn
  refine Formula.C66_purchase (i := (⟨a, ha⟩ : {a // a ∈ l})) (ht.weight_pos hw) hS (fun i => hb i.1 i.2) h1 hd hq hpaid
    (fun j hj => hothers j.1 j.2 (by rintro rfl; exact hj rfl)) hgrowth ?_
  refine le_trans (mul_le_mul_of_nonneg_left (by linarith) ?_) hsize
  have hS1 : (0 : ℝ) < (w.tok t).supply := by exact_mod_cast hS
  have hw1 : 0 ≤ ((w.conv T).connectors a).weight := le_trans (by decide) (ht.weight_pos hw ⟨a, ha⟩)
  have hp := Curve.purchase_nonneg hS (hb a ha) hw1 hd
  exact add_nonneg hS1.le hp

/-- C66. Nothing beats selling directly: if in the end the supply is smaller by at most `d`, and the converter does not hold more of any
other connector, then it holds at most two tokens less of connector `b` than after paying what the formula gives for selling `d`. -/
theorem C66_nothing_beats_selling (hw : Reachable w) (ht : Trading w T t R N l) (h : Later w w')
    (hno : ∀ f, Called w w' f → ¬ Meddles T t R l f) (hb : ∀ a ∈ l, 0 < (w.tok a).bal T) (hs : 0 < (w'.tok t).supply) (hbl : b ∈ l)
    (hd : 0 ≤ d) (hds : d < (w.tok t).supply) (hq : w.curve T t b d 0 = .ok r)
    (hpaid : (w.tok t).supply - d ≤ (w'.tok t).supply) (hothers : ∀ a ∈ l, a ≠ b → (w'.tok a).bal T ≤ (w.tok a).bal T)
    (hrest : ((w.tok b).bal T : ℝ) / 2 ^ 22 ≤ (w.tok b).bal T - Curve.sale (w.tok t).supply ((w.tok b).bal T) ((w.conv T).connectors b).weight d)
    (hsize : (w.tok b).bal T * ((w'.frames.length - w.frames.length : Nat) + 1) ≤ 2 ^ 94) :
    (w.tok b).bal T - (w'.tok b).bal T ≤ r + 2 := by
  obtain ⟨n, hn, h1⟩ := C59_trades hw ht h hno hs
  have hS := ht.supply hw h hno hs
  have hre : w.reserve T b = (w.tok b).bal T := by unfold World.reserve; rw [ht.real b hbl]; rfl
  have hbt : b ≠ t := ht.ne hw hbl
  rw [curve_sell ht.wired hbt, hre] at hq
  refine Formula.C66_sale (i := (⟨b, hbl⟩ : {a // a ∈ l})) (ht.weight_pos hw) hS (fun i => hb i.1 i.2) h1 hd hds hq hpaid
    (fun j hj => hothers j.1 j.2 (by rintro rfl; exact hj rfl)) hrest (le_trans ?_ hsize)
  exact mul_le_mul_of_nonneg_left (by exact_mod_cast Nat.succ_le_succ hn) (le_of_lt (hb b hbl))

/-- C66. Nothing beats converting directly: if in the end the converter holds at most `d` more of connector `a`, no more of any connector
but `b`, and the supply is not smaller, then it holds at most two tokens less of connector `b` than after paying what the formula
gives for converting `d`. -/
theorem C66_nothing_beats_converting (hw : Reachable w) (ht : Trading w T t R N l) (h : Later w w')
    (hno : ∀ f, Called w w' f → ¬ Meddles T t R l f) (hb : ∀ a ∈ l, 0 < (w.tok a).bal T) (hs : 0 < (w'.tok t).supply)
    (hal : a ∈ l) (hbl : b ∈ l) (hab : a ≠ b) (hd : 0 ≤ d) (hq : w.curve T a b d 0 = .ok r)
    (hpaid : (w'.tok a).bal T ≤ (w.tok a).bal T + d) (hsupply : (w.tok t).supply ≤ (w'.tok t).supply)
    (hothers : ∀ c ∈ l, c ≠ a → c ≠ b → (w'.tok c).bal T ≤ (w.tok c).bal T)
    (hrest : ((w.tok b).bal T : ℝ) / 2 ^ 22 ≤ (w.tok b).bal T -
      Curve.cross ((w.tok a).bal T) ((w.conv T).connectors a).weight ((w.tok b).bal T) ((w.conv T).connectors b).weight d)
    (hsize : (w.tok b).bal T * ((w'.frames.length - w.frames.length : Nat) + 1) ≤ 2 ^ 94) :
    (w.tok b).bal T - (w'.tok b).bal T ≤ r + 2 := by
  obtain ⟨n, hn, h1⟩ := C59_trades hw ht h hno hs
  have hS := ht.supply hw h hno hs
  have hra : w.reserve T a = (w.tok a).bal T := by unfold World.reserve; rw [ht.real a hal]; rfl
  have hrb : w.reserve T b = (w.tok b).bal T := by unfold World.reserve; rw [ht.real b hbl]; rfl
  rw [curve_across ht.wired (ht.ne hw hal) (ht.ne hw hbl), hra, hrb] at hq
  refine Formula.C66_cross (i := (⟨a, hal⟩ : {a // a ∈ l})) (j := (⟨b, hbl⟩ : {a // a ∈ l})) (ht.weight_pos hw) hS (fun i => hb i.1 i.2) h1 (by simpa using hab) hd hq hpaid hsupply
    (fun k h1 h2 => hothers k.1 k.2 (by rintro rfl; exact h1 rfl) (by rintro rfl; exact h2 rfl)) hrest (le_trans ?_ hsize)
  exact mul_le_mul_of_nonneg_left (by exact_mod_cast Nat.succ_le_succ hn) (le_of_lt (hb b hbl))

/-- Alice buys with 5000 of the IRC token and sells what she got for the ICX token. -/
def Scenario.detour : World := Scenario.run [
  Scenario.trade [Scenario.irc, Scenario.flex, Scenario.flex] 5000 1,
  Scenario.trade [Scenario.flex, Scenario.flex, Scenario.icxt] 2408 1] Scenario.ready

end

open Scenario in
set_option maxRecDepth 100000 in
/-- The converter has paid 4534, and would have paid 4545, but for its fee, for converting directly. -/
theorem detour_pool : (detour.tok flex).supply = 100000 ∧ (detour.tok irc).bal conv = 55000 ∧ (detour.tok icxt).bal conv = 45466 ∧
    detour.frames.length = 60 ∧ ready.curve conv irc icxt 5000 0 = .ok 4545 ∧
    ((ready.conv conv).connectors irc).weight = 250000 ∧ ((ready.conv conv).connectors icxt).weight = 250000 := by decide +kernel

open Scenario in
set_option maxRecDepth 100000 in
theorem detour_plain : ∀ f, Called ready detour f → ¬ Meddles conv flex registry [irc, icxt] f := plain_of (by decide +kernel)

open Scenario in
example : (ready.tok icxt).bal conv - (detour.tok icxt).bal conv ≤ 4545 + 2 := by
  obtain ⟨h1, h2, h3, h4, h5, h6, h7⟩ := detour_pool
  obtain ⟨b1, _, b2, _, b3, _, b4, _⟩ := busy_pool
  refine C66_nothing_beats_converting ready_reachable ready_trading (run_later _ .refl) detour_plain ?_ (by rw [h1]; decide) (a := irc) (d := 5000)
    (by decide) (by decide) (by decide) (by omega) h5 (by rw [h2, b2]; decide) (by rw [h1, b1]) ?_ ?_ ?_
  · intro a ha
    simp only [List.mem_cons, List.not_mem_nil, or_false] at ha
    rcases ha with rfl | rfl
    · rw [b2]; decide
    · rw [b3]; decide
  · intro c hc n1 n2
    simp only [List.mem_cons, List.not_mem_nil, or_false] at hc
    rcases hc with rfl | rfl
    · exact absurd rfl n1
    · exact absurd rfl n2
  · rw [b2, b3, h6, h7]; simp only [Curve.cross]; norm_num
  · rw [b3, b4, h4]; norm_num

end Verif

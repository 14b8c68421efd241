import Mathlib.Analysis.Convex.SpecificFunctions.Basic
import Mathlib.Analysis.Convex.SpecificFunctions.Pow
import Verif.Props.Strategy
/-!
C72: the price a trader gets. No conversion is better than the price of the pool, a larger one is no better per unit than a smaller
one, and after a conversion the same conversion is no better than before.
-/
set_option autoImplicit false
namespace Verif.Curve
open Real

/-- Bernoulli's inequality between two points: the power function with an exponent of at most 1 is above its chords from 1. -/
theorem chord_rpow {x y e : ℝ} (hx : 0 ≤ x) (hxy : x ≤ y) (he : 0 ≤ e) (he1 : e ≤ 1) : x * ((1 + y) ^ e - 1) ≤ y * ((1 + x) ^ e - 1) := by
  rcases eq_or_lt_of_le (hx.trans hxy) with h | hy
  · have : x = 0 := by linarith
    subst this; rw [← h]
  have hc := (Real.concaveOn_rpow he he1).2 (show (1 + y) ∈ Set.Ici 0 by simp; linarith) (show (1 : ℝ) ∈ Set.Ici 0 by simp)
    (show 0 ≤ x / y by positivity) (show 0 ≤ 1 - x / y by rw [sub_nonneg, div_le_one hy]; exact hxy) (by ring)
  simp only [smul_eq_mul, one_rpow] at hc
  have e1 : x / y * (1 + y) + (1 - x / y) * 1 = 1 + x := by field_simp; ring
  rw [e1] at hc
  have h2 := mul_le_mul_of_nonneg_left hc hy.le
  have e2 : y * (x / y * (1 + y) ^ e + (1 - x / y) * 1) = x * (1 + y) ^ e + (y - x) := by field_simp
  rw [e2] at h2
  linarith

/-- The same for sales: exponents of at least 1, below 1. -/
theorem chord_rpow_one_sub {x y e : ℝ} (hx : 0 ≤ x) (hxy : x ≤ y) (hy1 : y ≤ 1) (he1 : 1 ≤ e) :
    x * (1 - (1 - y) ^ e) ≤ y * (1 - (1 - x) ^ e) := by
  rcases eq_or_lt_of_le (hx.trans hxy) with h | hy
  · have : x = 0 := by linarith
    subst this; rw [← h]
  have hc := (convexOn_rpow he1).2 (show (1 - y) ∈ Set.Ici 0 by simp; linarith) (show (1 : ℝ) ∈ Set.Ici 0 by simp)
    (show 0 ≤ x / y by positivity) (show 0 ≤ 1 - x / y by rw [sub_nonneg, div_le_one hy]; exact hxy) (by ring)
  simp only [smul_eq_mul, one_rpow] at hc
  have e1 : x / y * (1 - y) + (1 - x / y) * 1 = 1 - x := by field_simp; ring
  rw [e1] at hc
  have h2 := mul_le_mul_of_nonneg_left hc hy.le
  have e2 : y * (x / y * (1 - y) ^ e + (1 - x / y) * 1) = x * (1 - y) ^ e + (y - x) := by field_simp
  rw [e2] at h2
  linarith

/-- The same for conversions between connectors: powers of `1 / (1 + x)` with any exponent. -/
theorem chord_rpow_inv {x y e : ℝ} (hx : 0 ≤ x) (hxy : x ≤ y) (he : 0 ≤ e) :
    x * (1 - (1 / (1 + y)) ^ e) ≤ y * (1 - (1 / (1 + x)) ^ e) := by
  rcases eq_or_lt_of_le (hx.trans hxy) with h | hy
  · have : x = 0 := by linarith
    subst this; rw [← h]
  have hl0 : 0 ≤ x / y := by positivity
  have hl1 : x / y ≤ 1 := by rw [div_le_one hy]; exact hxy
  have h1 := rpow_one_add_le_one_add_mul_self (s := y) (by linarith) hl0 hl1
  rw [div_mul_cancel₀ _ hy.ne'] at h1
  have hb : 0 < 1 / (1 + y) := by positivity
  have h2 := rpow_one_add_le_one_add_mul_self (s := (1 / (1 + y)) ^ e - 1) (by have := rpow_nonneg hb.le e; linarith) hl0 hl1
  rw [add_sub_cancel] at h2
  have h3 : (1 / (1 + x)) ^ e ≤ ((1 / (1 + y)) ^ e) ^ (x / y) := by
    rw [← rpow_mul hb.le, mul_comm, rpow_mul hb.le]
    refine rpow_le_rpow (by positivity) ?_ he
    rw [one_div, one_div, inv_rpow (by linarith)]
    exact inv_anti₀ (by positivity) h1
  have h4 := mul_le_mul_of_nonneg_left (h3.trans h2) hy.le
  have e2 : y * (1 + x / y * ((1 / (1 + y)) ^ e - 1)) = y + x * ((1 / (1 + y)) ^ e - 1) := by field_simp
  rw [e2] at h4
  linarith

/-- The tangent of such a power lies below it. -/
theorem tangent_rpow_inv {x e : ℝ} (hx : 0 ≤ x) (he : 0 ≤ e) : 1 - (1 / (1 + x)) ^ e ≤ e * x := by
  rw [rpow_def_of_pos (by positivity), one_div, log_inv]
  have h1 := add_one_le_exp (-log (1 + x) * e)
  have h2 := log_le_sub_one_of_pos (show 0 < 1 + x by linarith)
  nlinarith

section
variable {s b w d d' : ℝ}

/-- A larger deposit buys no less on the exact curve. -/
theorem purchase_mono (hs : 0 < s) (hb : 0 < b) (hw : 0 ≤ w) (hd : 0 ≤ d) (hdd : d ≤ d') : purchase s b w d ≤ purchase s b w d' := by
  unfold purchase
  have h3 : 1 + d / b ≤ 1 + d' / b := by
    have := div_le_div_of_nonneg_right hdd hb.le; linarith
  have h4 := Real.rpow_le_rpow (by positivity) h3 (show 0 ≤ w / 1000000 by positivity)
  nlinarith

theorem sale_mono (hs : 0 < s) (hb : 0 < b) (hw : 0 < w) (hdd : d ≤ d') (hds : d' ≤ s) : sale s b w d ≤ sale s b w d' := by
  unfold sale
  have h3 : 1 - d' / s ≤ 1 - d / s := by
    have := div_le_div_of_nonneg_right hdd hs.le; linarith
  have h4 : 0 ≤ 1 - d' / s := by
    have : d' / s ≤ 1 := by rw [div_le_one hs]; exact hds
    linarith
  have h4 := Real.rpow_le_rpow h4 h3 (show 0 ≤ 1 / (w / 1000000) by positivity)
  nlinarith

theorem cross_mono {fb fw tb tw a a' : ℝ} (hf : 0 < fb) (ht : 0 < tb) (hfw : 0 ≤ fw) (htw : 0 < tw) (ha : 0 ≤ a) (haa : a ≤ a') :
    cross fb fw tb tw a ≤ cross fb fw tb tw a' := by
  unfold cross
  have h3 : fb / (fb + a') ≤ fb / (fb + a) := div_le_div_of_nonneg_left hf.le (by positivity) (by linarith)
  have h5 : 0 ≤ a' := ha.trans haa
  have h4 := Real.rpow_le_rpow (by positivity) h3 (show 0 ≤ fw / tw by positivity)
  nlinarith

theorem purchase_chord (hs : 0 < s) (hb : 0 < b) (hw : 0 ≤ w) (hw1 : w ≤ 1000000) (hd : 0 ≤ d) (hdd : d ≤ d') :
    d * purchase s b w d' ≤ d' * purchase s b w d := by
  unfold purchase
  have h := chord_rpow (x := d / b) (y := d' / b) (e := w / 1000000) (by positivity) (div_le_div_of_nonneg_right hdd hb.le) (by positivity)
    (by rw [div_le_one (by norm_num)]; exact hw1)
  have h2 := mul_le_mul_of_nonneg_left h (mul_pos hs hb).le
  have e1 : ∀ x y : ℝ, s * b * (x / b * y) = x * (s * y) := fun x y => by field_simp
  rw [e1, e1] at h2
  exact h2

theorem sale_chord (hs : 0 < s) (hb : 0 < b) (hw : 0 < w) (hw1 : w ≤ 1000000) (hd : 0 ≤ d) (hdd : d ≤ d') (hds : d' ≤ s) :
    d * sale s b w d' ≤ d' * sale s b w d := by
  unfold sale
  have h := chord_rpow_one_sub (x := d / s) (y := d' / s) (e := 1 / (w / 1000000)) (by positivity) (div_le_div_of_nonneg_right hdd hs.le)
    (by rw [div_le_one hs]; exact hds) (by rw [le_div_iff₀ (by positivity)]; linarith)
  have h2 := mul_le_mul_of_nonneg_left h (mul_pos hs hb).le
  have e1 : ∀ x y : ℝ, s * b * (x / s * y) = x * (b * y) := fun x y => by field_simp
  rw [e1, e1] at h2
  exact h2

theorem cross_ratio {fb a : ℝ} (hf : 0 < fb) : fb / (fb + a) = 1 / (1 + a / fb) := by
  rw [one_add_div hf.ne', one_div_div]

theorem cross_chord {fb fw tb tw a a' : ℝ} (hf : 0 < fb) (ht : 0 < tb) (hfw : 0 ≤ fw) (htw : 0 < tw) (ha : 0 ≤ a) (haa : a ≤ a') :
    a * cross fb fw tb tw a' ≤ a' * cross fb fw tb tw a := by
  unfold cross
  rw [cross_ratio hf, cross_ratio hf]
  have h := chord_rpow_inv (x := a / fb) (y := a' / fb) (e := fw / tw) (by positivity) (div_le_div_of_nonneg_right haa hf.le) (by positivity)
  have h2 := mul_le_mul_of_nonneg_left h (mul_pos ht hf).le
  have e1 : ∀ x y : ℝ, tb * fb * (x / fb * y) = x * (tb * y) := fun x y => by field_simp
  rw [e1, e1] at h2
  exact h2

/-- What is above its chords is subadditive. -/
theorem subadd {f : ℝ → ℝ} {x y : ℝ} (hx : 0 ≤ x) (hy : 0 ≤ y) (h1 : x * f (x + y) ≤ (x + y) * f x) (h2 : y * f (x + y) ≤ (x + y) * f y)
    (h0 : 0 ≤ f 0) : f (x + y) ≤ f x + f y := by
  rcases eq_or_lt_of_le hx with h | hx
  · subst h; rw [zero_add]; linarith
  have : (x + y) * f (x + y) ≤ (x + y) * (f x + f y) := by linarith
  exact le_of_mul_le_mul_left this (by linarith)

end

end Verif.Curve

namespace Verif.Formula
open Real

section
variable {s b w d r fb fw tb tw a : Int}

/-- C72. No purchase is better than the price of the pool: a deposit of `d` buys less than `d` times `s w / (1000000 b)`, the price at
which an infinitely small deposit buys, plus one unit (while the exact supply afterwards is at most `2^124`). -/
theorem C72_purchase_spot (hd : 0 ≤ d) (h : calculatePurchaseReturn s b w d = .ok r) (hsize : (s : ℝ) + Curve.purchase s b w d ≤ 2 ^ 124) :
    (r - 1) * (1000000 * b) < d * (s * w) := by
  obtain ⟨hs, hb, hw⟩ := purchase_input h
  obtain ⟨hw1, hw2⟩ := weight_real hw
  have hs' : (0 : ℝ) < s := by exact_mod_cast hs
  have hb' : (0 : ℝ) < b := by exact_mod_cast hb
  have h0' : (0 : ℝ) ≤ d := by exact_mod_cast hd
  have h1 := C45_purchase_units hd h hsize
  have h2 : Curve.purchase s b w d ≤ s * (w / 1000000 * (d / b)) := by
    unfold Curve.purchase
    have hdb : (0 : ℝ) ≤ d / b := by positivity
    have h3 := rpow_one_add_le_one_add_mul_self (s := (d : ℝ) / b) (p := (w : ℝ) / 1000000) (by linarith) (by positivity)
      (by rw [div_le_one (by norm_num)]; exact hw2)
    exact mul_le_mul_of_nonneg_left (by linarith) hs'.le
  have h4 : ((r : ℝ) - 1) * (1000000 * b) < d * (s * w) := by
    have h5 : ((r : ℝ) - 1) < s * (w / 1000000 * (d / b)) := by linarith
    have h6 := mul_lt_mul_of_pos_right h5 (show (0 : ℝ) < 1000000 * b by positivity)
    have e : (s : ℝ) * (w / 1000000 * (d / b)) * (1000000 * b) = d * (s * w) := by field_simp
    rwa [e] at h6
  exact_mod_cast h4

/-- C72. No sale is better than the price of the pool, plus one unit (while the balance is at most `2^104`). -/
theorem C72_sale_spot (hd : 0 ≤ d) (h : calculateSaleReturn s b w d = .ok r) (hsize : b ≤ 2 ^ 104) :
    (r - 1) * (s * w) < d * (1000000 * b) := by
  obtain ⟨hs, hb, hw, hds⟩ := sale_input h
  obtain ⟨hw1, hw2⟩ := weight_real hw
  have hs' : (0 : ℝ) < s := by exact_mod_cast hs
  have hb' : (0 : ℝ) < b := by exact_mod_cast hb
  have h0' : (0 : ℝ) ≤ d := by exact_mod_cast hd
  have hds' : (d : ℝ) ≤ s := by exact_mod_cast hds
  have h1 := C45_sale_units hd hsize h
  have h2 : Curve.sale s b w d ≤ b * (1 / (w / 1000000) * (d / s)) := by
    unfold Curve.sale
    have hdb : (d : ℝ) / s ≤ 1 := by rw [div_le_one hs']; exact hds'
    have h3 := one_add_mul_self_le_rpow_one_add (s := -((d : ℝ) / s)) (p := 1 / ((w : ℝ) / 1000000)) (by linarith) (by rw [le_div_iff₀ (by positivity)]; linarith)
    rw [← sub_eq_add_neg 1] at h3
    exact mul_le_mul_of_nonneg_left (by linarith) hb'.le
  have h4 : ((r : ℝ) - 1) * (s * w) < d * (1000000 * b) := by
    have h5 : ((r : ℝ) - 1) < b * (1 / (w / 1000000) * (d / s)) := by linarith
    have h6 := mul_lt_mul_of_pos_right h5 (show (0 : ℝ) < s * w by positivity)
    have e : (b : ℝ) * (1 / (w / 1000000) * (d / s)) * (s * w) = d * (1000000 * b) := by field_simp
    rwa [e] at h6
  exact_mod_cast h4

/-- C72. No conversion between connectors is better than the price of the pool, plus one unit (while the target balance is at most
`2^104`). -/
theorem C72_cross_spot (ha : 0 ≤ a) (h : calculateCrossConnectorReturn fb fw tb tw a = .ok r) (hsize : tb ≤ 2 ^ 104) :
    (r - 1) * (fb * tw) < a * (tb * fw) := by
  obtain ⟨hf, hfw, ht, htw⟩ := cross_input h
  obtain ⟨hw1, hw2⟩ := weight_real hfw
  obtain ⟨hw3, hw4⟩ := weight_real htw
  have hf' : (0 : ℝ) < fb := by exact_mod_cast hf
  have ht' : (0 : ℝ) < tb := by exact_mod_cast ht
  have h0' : (0 : ℝ) ≤ a := by exact_mod_cast ha
  have h1 := C45_cross_units ha hsize h
  have h2 : Curve.cross fb fw tb tw a ≤ tb * (fw / tw * (a / fb)) := by
    unfold Curve.cross
    rw [Curve.cross_ratio hf']
    exact mul_le_mul_of_nonneg_left (Curve.tangent_rpow_inv (by positivity) (by positivity)) ht'.le
  have h4 : ((r : ℝ) - 1) * (fb * tw) < a * (tb * fw) := by
    have h5 : ((r : ℝ) - 1) < tb * (fw / tw * (a / fb)) := by linarith
    have h6 := mul_lt_mul_of_pos_right h5 (show (0 : ℝ) < fb * tw by positivity)
    have e : (tb : ℝ) * (fw / tw * (a / fb)) * (fb * tw) = a * (tb * fw) := by field_simp
    rwa [e] at h6
  exact_mod_cast h4

/-- C72. Diminishing returns: per unit deposited, a larger deposit buys no more than a smaller one, up to a unit for the larger and two
for the smaller purchase (while the exact supply after the larger purchase is at most `2^22` times the supply before, and at most `2^116`). -/
theorem C72_purchase_average {d₁ d₂ r₁ r₂ : Int} (h0 : 0 ≤ d₁) (hd : d₁ ≤ d₂) (h1 : calculatePurchaseReturn s b w d₁ = .ok r₁)
    (h2 : calculatePurchaseReturn s b w d₂ = .ok r₂) (hgrowth : (s : ℝ) + Curve.purchase s b w d₂ ≤ 2 ^ 22 * s)
    (hsize : (s : ℝ) + Curve.purchase s b w d₂ ≤ 2 ^ 116) : d₁ * (r₂ - 1) ≤ d₂ * (r₁ + 2) := by
  obtain ⟨hs, hb, hw⟩ := purchase_input h1
  obtain ⟨hw1, hw2⟩ := weight_real hw
  have hs' : (0 : ℝ) < s := by exact_mod_cast hs
  have hb' : (0 : ℝ) < b := by exact_mod_cast hb
  have hd' : (d₁ : ℝ) ≤ d₂ := by exact_mod_cast hd
  have h0' : (0 : ℝ) ≤ d₁ := by exact_mod_cast h0
  have hmono := Curve.purchase_mono hs' hb' (show (0 : ℝ) ≤ w by linarith) h0' hd'
  have u2 := C45_purchase_units (by omega) h2 (by linarith [show (2 : ℝ) ^ 116 ≤ 2 ^ 124 by norm_num])
  have u1 := (abs_lt.mp (C47_purchase h0 h1 (by linarith) (by linarith))).1
  have hc := Curve.purchase_chord hs' hb' (show (0 : ℝ) ≤ w by linarith) hw2 h0' hd'
  have h3 : (d₁ : ℝ) * (r₂ - 1) ≤ d₂ * (r₁ + 2) := by nlinarith
  exact_mod_cast h3

/-- C72. Diminishing returns of sales. -/
theorem C72_sale_average {d₁ d₂ r₁ r₂ : Int} (h0 : 0 ≤ d₁) (hd : d₁ ≤ d₂) (h1 : calculateSaleReturn s b w d₁ = .ok r₁)
    (h2 : calculateSaleReturn s b w d₂ = .ok r₂) (hrest : (b : ℝ) / 2 ^ 22 ≤ b - Curve.sale s b w d₂) (hsize : b ≤ 2 ^ 94) :
    d₁ * (r₂ - 1) ≤ d₂ * (r₁ + 2) := by
  obtain ⟨hs, hb, hw, hds⟩ := sale_input h2
  obtain ⟨hw1, hw2⟩ := weight_real hw
  have hs' : (0 : ℝ) < s := by exact_mod_cast hs
  have hb' : (0 : ℝ) < b := by exact_mod_cast hb
  have hd' : (d₁ : ℝ) ≤ d₂ := by exact_mod_cast hd
  have h0' : (0 : ℝ) ≤ d₁ := by exact_mod_cast h0
  have hds' : (d₂ : ℝ) ≤ s := by exact_mod_cast hds
  have hmono := Curve.sale_mono hs' hb' (show (0 : ℝ) < w by linarith) hd' hds'
  have u2 := C45_sale_units (by omega) (show b ≤ 2 ^ 104 by omega) h2
  have u1 := (abs_lt.mp (C47_sale h0 h1 (by linarith) hsize)).1
  have hc := Curve.sale_chord hs' hb' (show (0 : ℝ) < w by linarith) hw2 h0' hd' hds'
  have h3 : (d₁ : ℝ) * (r₂ - 1) ≤ d₂ * (r₁ + 2) := by nlinarith
  exact_mod_cast h3

/-- C72. Diminishing returns of conversions between connectors. -/
theorem C72_cross_average {a₁ a₂ r₁ r₂ : Int} (h0 : 0 ≤ a₁) (ha : a₁ ≤ a₂) (h1 : calculateCrossConnectorReturn fb fw tb tw a₁ = .ok r₁)
    (h2 : calculateCrossConnectorReturn fb fw tb tw a₂ = .ok r₂) (hrest : (tb : ℝ) / 2 ^ 22 ≤ tb - Curve.cross fb fw tb tw a₂)
    (hsize : tb ≤ 2 ^ 94) : a₁ * (r₂ - 1) ≤ a₂ * (r₁ + 2) := by
  obtain ⟨hf, hfw, ht, htw⟩ := cross_input h1
  obtain ⟨hw1, hw2⟩ := weight_real hfw
  obtain ⟨hw3, hw4⟩ := weight_real htw
  have hf' : (0 : ℝ) < fb := by exact_mod_cast hf
  have ht' : (0 : ℝ) < tb := by exact_mod_cast ht
  have hd' : (a₁ : ℝ) ≤ a₂ := by exact_mod_cast ha
  have h0' : (0 : ℝ) ≤ a₁ := by exact_mod_cast h0
  have hmono := Curve.cross_mono hf' ht' (show (0 : ℝ) ≤ fw by linarith) (show (0 : ℝ) < tw by linarith) h0' hd'
  have u2 := C45_cross_units (by omega) (show tb ≤ 2 ^ 104 by omega) h2
  have u1 := (abs_lt.mp (C47_cross h0 h1 (by linarith) hsize)).1
  have hc := Curve.cross_chord hf' ht' (show (0 : ℝ) ≤ fw by linarith) (show (0 : ℝ) < tw by linarith) h0' hd'
  have h3 : (a₁ : ℝ) * (r₂ - 1) ≤ a₂ * (r₁ + 2) := by nlinarith
  exact_mod_cast h3

/-- C72. Buying makes buying dearer: after a purchase, a second one returns at most four units more than it would have returned before the
first (while the exact supply after both is at most `2^22` times the supply before, and at most `2^116`). -/
theorem C72_purchase_again {d d' r r' r₀ : Int} (hd : 0 ≤ d) (hd' : 0 ≤ d') (h : calculatePurchaseReturn s b w d = .ok r)
    (h0 : calculatePurchaseReturn s b w d' = .ok r₀) (h' : calculatePurchaseReturn (s + r) (b + d) w d' = .ok r')
    (hgrowth : (s : ℝ) + Curve.purchase s b w (d + d') ≤ 2 ^ 22 * s) (hsize : (s : ℝ) + Curve.purchase s b w (d + d') ≤ 2 ^ 116) :
    r' ≤ r₀ + 4 := by
  obtain ⟨hs, hb, hw⟩ := purchase_input h
  obtain ⟨hw1, hw2⟩ := weight_real hw
  have hε := eps_pos
  have hs' : (0 : ℝ) < s := by exact_mod_cast hs
  have hb' : (0 : ℝ) < b := by exact_mod_cast hb
  have hw0 : (0 : ℝ) ≤ w := by linarith
  have hdr : (0 : ℝ) ≤ d := by exact_mod_cast hd
  have hdr' : (0 : ℝ) ≤ d' := by exact_mod_cast hd'
  have hr := (C44_purchase hd h)
  have hr' := (C44_purchase hd' h')
  have ht : Curve.Trades (fun _ : Unit => w) 2 ⟨s, fun _ => b⟩ ⟨s + r + r', fun _ => b + d + d'⟩ := by
    have t1 := Curve.Trade.buy (weight := fun _ : Unit => w) ⟨s, fun _ => b⟩ () d r r hd h hr le_rfl
    have t2 := Curve.Trade.buy (weight := fun _ : Unit => w) ⟨s + r, fun _ => b + d⟩ () d' r' r' hd' h' hr' le_rfl
    have e1 : ∀ x y : Int, Function.update (fun _ : Unit => x) () y = fun _ => y := fun x y => by funext i; cases i; simp
    rw [e1] at t1 t2
    exact ((Curve.Trades.none _).more t1).more t2
  have hup := strategy_purchase (d := d + d') (i := ()) (fun _ => hw.1) hs (fun _ => hb) ht (by omega) (by simp; omega) (fun j hj => absurd rfl hj)
  simp only [Int.cast_add] at hup
  have hX0 := Curve.purchase_mono hs' hb' hw0 le_rfl (show (0 : ℝ) ≤ d + d' by linarith)
  have hz : Curve.purchase s b w 0 = 0 := by simp [Curve.purchase]
  rw [hz] at hX0
  set X := (s : ℝ) + Curve.purchase s b w (d + d') with hX
  have hX1 : 0 ≤ X := by linarith
  have h2e : ((2 : ℕ) : ℝ) * eps ≤ 1 / 10 := by rw [← eps_eq]; norm_num
  have h3 := mul_le_mul_of_nonneg_left (exp_small (by positivity) h2e) hX1
  have h4 : X * (((2 : ℕ) : ℝ) * eps) ≤ 1 / 10 := by
    have h1 := mul_le_mul_of_nonneg_right hsize (show 0 ≤ ((2 : ℕ) : ℝ) * eps by positivity)
    have h2 : (2 : ℝ) ^ 116 * (((2 : ℕ) : ℝ) * eps) ≤ 1 / 10 := by rw [← eps_eq]; norm_num
    exact h1.trans h2
  have hsub := Curve.subadd (f := fun x => Curve.purchase s b w x) hdr hdr'
    (Curve.purchase_chord hs' hb' hw0 hw2 hdr (by linarith)) (Curve.purchase_chord hs' hb' hw0 hw2 hdr' (by linarith)) (by rw [hz])
  have m1 := Curve.purchase_mono hs' hb' hw0 hdr (show (d : ℝ) ≤ d + d' by linarith)
  have m2 := Curve.purchase_mono hs' hb' hw0 hdr' (show (d' : ℝ) ≤ d + d' by linarith)
  have u1 := (abs_lt.mp (C47_purchase hd h (by linarith) (by linarith))).1
  have u2 := (abs_lt.mp (C47_purchase hd' h0 (by linarith) (by linarith))).1
  generalize ((2 : ℕ) : ℝ) * eps = E at hup h3 h4
  have h6 : (r' : ℝ) < ((r₀ + 5 : Int) : ℝ) := by push_cast; nlinarith
  have : r' < r₀ + 5 := by exact_mod_cast h6
  omega

/-- C72. Selling makes selling cheaper. -/
theorem C72_sale_again {d d' r r' r₀ : Int} (hd : 0 ≤ d) (hd' : 0 ≤ d') (hds : d + d' < s) (h : calculateSaleReturn s b w d = .ok r)
    (h0 : calculateSaleReturn s b w d' = .ok r₀) (h' : calculateSaleReturn (s - d) (b - r) w d' = .ok r')
    (hrest : (b : ℝ) / 2 ^ 22 ≤ b - Curve.sale s b w (d + d')) (hsize : b ≤ 2 ^ 94) : r' ≤ r₀ + 4 := by
  obtain ⟨hs, hb, hw, -⟩ := sale_input h
  obtain ⟨hw1, hw2⟩ := weight_real hw
  have hε := eps_pos
  have hs' : (0 : ℝ) < s := by exact_mod_cast hs
  have hb' : (0 : ℝ) < b := by exact_mod_cast hb
  have hw0 : (0 : ℝ) < w := by linarith
  have hdr : (0 : ℝ) ≤ d := by exact_mod_cast hd
  have hdr' : (0 : ℝ) ≤ d' := by exact_mod_cast hd'
  have hdsr : (d + d' : ℝ) ≤ s := by exact_mod_cast hds.le
  have hr := (C44_sale hd h).1
  have hr' := (C44_sale hd' h').1
  have ht : Curve.Trades (fun _ : Unit => w) 2 ⟨s, fun _ => b⟩ ⟨s - d - d', fun _ => b - r - r'⟩ := by
    have t1 := Curve.Trade.sell (weight := fun _ : Unit => w) ⟨s, fun _ => b⟩ () d r r hd (by simp; omega) h hr le_rfl
    have t2 := Curve.Trade.sell (weight := fun _ : Unit => w) ⟨s - d, fun _ => b - r⟩ () d' r' r' hd' (by simp; omega) h' hr' le_rfl
    have e1 : ∀ x y : Int, Function.update (fun _ : Unit => x) () y = fun _ => y := fun x y => by funext i; cases i; simp
    rw [e1] at t1 t2
    exact ((Curve.Trades.none _).more t1).more t2
  have hup := strategy_sale (d := d + d') (i := ()) (fun _ => hw.1) hs (fun _ => hb) ht hds (by dsimp; omega) (fun j hj => absurd rfl hj)
  simp only [Int.cast_add, Int.cast_sub] at hup
  have hX0 := Curve.sale_mono hs' hb' hw0 (show (0 : ℝ) ≤ d + d' by linarith) hdsr
  have hz : Curve.sale s b w 0 = 0 := by simp [Curve.sale]
  rw [hz] at hX0
  have h4 : (b : ℝ) * (((2 : ℕ) : ℝ) * (1000000 * eps)) ≤ 1 / 10 := by
    have h1 := mul_le_mul_of_nonneg_right (show (b : ℝ) ≤ 2 ^ 94 by exact_mod_cast hsize) (show 0 ≤ ((2 : ℕ) : ℝ) * (1000000 * eps) by positivity)
    have h2 : (2 : ℝ) ^ 94 * (((2 : ℕ) : ℝ) * (1000000 * eps)) ≤ 1 / 10 := by rw [← eps_eq]; norm_num
    exact h1.trans h2
  have hR : 0 ≤ b - Curve.sale s b w (d + d') := le_trans (by positivity) hrest
  have h3 := mul_le_mul_of_nonneg_left (one_sub_le_exp_neg (((2 : ℕ) : ℝ) * (1000000 * eps))) hR
  have h5 : (b - Curve.sale s b w (d + d')) * (((2 : ℕ) : ℝ) * (1000000 * eps)) ≤ 1 / 10 :=
    (mul_le_mul_of_nonneg_right (by linarith) (by positivity)).trans h4
  have hsub := Curve.subadd (f := fun x => Curve.sale s b w x) hdr hdr'
    (Curve.sale_chord hs' hb' hw0 hw2 hdr (by linarith) hdsr) (Curve.sale_chord hs' hb' hw0 hw2 hdr' (by linarith) hdsr) (by rw [hz])
  have m1 := Curve.sale_mono hs' hb' hw0 (show (d : ℝ) ≤ d + d' by linarith) hdsr
  have m2 := Curve.sale_mono hs' hb' hw0 (show (d' : ℝ) ≤ d + d' by linarith) hdsr
  have u1 := (abs_lt.mp (C47_sale hd h (by linarith) hsize)).1
  have u2 := (abs_lt.mp (C47_sale hd' h0 (by linarith) hsize)).1
  generalize ((2 : ℕ) : ℝ) * (1000000 * eps) = E at hup h3 h5
  have h6 : (r' : ℝ) < ((r₀ + 5 : Int) : ℝ) := by push_cast; nlinarith
  have : r' < r₀ + 5 := by exact_mod_cast h6
  omega

/-- C72. Converting one connector into another makes converting it dearer. -/
theorem C72_cross_again {a a' r r' r₀ : Int} (ha : 0 ≤ a) (ha' : 0 ≤ a') (h : calculateCrossConnectorReturn fb fw tb tw a = .ok r)
    (h0 : calculateCrossConnectorReturn fb fw tb tw a' = .ok r₀) (h' : calculateCrossConnectorReturn (fb + a) fw (tb - r) tw a' = .ok r')
    (hrest : (tb : ℝ) / 2 ^ 22 ≤ tb - Curve.cross fb fw tb tw (a + a')) (hsize : tb ≤ 2 ^ 94) : r' ≤ r₀ + 4 := by
  obtain ⟨hf, hfw, ht, htw⟩ := cross_input h
  obtain ⟨hw1, hw2⟩ := weight_real hfw
  obtain ⟨hw3, hw4⟩ := weight_real htw
  have hε := eps_pos
  have hf' : (0 : ℝ) < fb := by exact_mod_cast hf
  have ht' : (0 : ℝ) < tb := by exact_mod_cast ht
  have hw0 : (0 : ℝ) ≤ fw := by linarith
  have hw0' : (0 : ℝ) < tw := by linarith
  have hdr : (0 : ℝ) ≤ a := by exact_mod_cast ha
  have hdr' : (0 : ℝ) ≤ a' := by exact_mod_cast ha'
  have hr := (C44_cross ha h).1
  have hr' := (C44_cross ha' h').1
  have htr : Curve.Trades (fun i : Bool => if i then fw else tw) 2 ⟨1, fun i => if i then fb else tb⟩
      ⟨1, fun i => if i then fb + a + a' else tb - r - r'⟩ := by
    have t1 := Curve.Trade.cross (weight := fun i : Bool => if i then fw else tw) ⟨1, fun i => if i then fb else tb⟩ true false a r r
      (by simp) ha (by simpa using h) hr le_rfl
    have t2 := Curve.Trade.cross (weight := fun i : Bool => if i then fw else tw) ⟨1, fun i => if i then fb + a else tb - r⟩ true false a' r' r'
      (by simp) ha' (by simpa using h') hr' le_rfl
    have e1 : ∀ x y x' y' : Int, Function.update (Function.update (fun i : Bool => if i then x else y) true x') false y' =
        fun i => if i then x' else y' := fun x y x' y' => by funext i; cases i <;> simp
    simp only [e1] at t1 t2
    exact ((Curve.Trades.none _).more t1).more t2
  have hup := strategy_cross (a := a + a') (i := true) (j := false) (by intro i; cases i <;> simp [hfw.1, htw.1]) (by simp)
    (by intro i; cases i <;> simp [hf, ht]) htr (by simp) (by omega) (by simp; omega) (by simp) (by intro k; cases k <;> simp)
  simp only [Int.cast_add, Int.cast_sub, if_true, Bool.false_eq_true, if_false] at hup
  have hX0 := Curve.cross_mono hf' ht' hw0 hw0' le_rfl (show (0 : ℝ) ≤ a + a' by linarith)
  have hz : Curve.cross fb fw tb tw 0 = 0 := by simp [Curve.cross, hf'.ne']
  rw [hz] at hX0
  have h4 : (tb : ℝ) * (((2 : ℕ) : ℝ) * (1000000 * eps)) ≤ 1 / 10 := by
    have h1 := mul_le_mul_of_nonneg_right (show (tb : ℝ) ≤ 2 ^ 94 by exact_mod_cast hsize) (show 0 ≤ ((2 : ℕ) : ℝ) * (1000000 * eps) by positivity)
    have h2 : (2 : ℝ) ^ 94 * (((2 : ℕ) : ℝ) * (1000000 * eps)) ≤ 1 / 10 := by rw [← eps_eq]; norm_num
    exact h1.trans h2
  have hR : 0 ≤ tb - Curve.cross fb fw tb tw (a + a') := le_trans (by positivity) hrest
  have h3 := mul_le_mul_of_nonneg_left (one_sub_le_exp_neg (((2 : ℕ) : ℝ) * (1000000 * eps))) hR
  have h5 : (tb - Curve.cross fb fw tb tw (a + a')) * (((2 : ℕ) : ℝ) * (1000000 * eps)) ≤ 1 / 10 :=
    (mul_le_mul_of_nonneg_right (by linarith) (by positivity)).trans h4
  have hsub := Curve.subadd (f := fun x => Curve.cross fb fw tb tw x) hdr hdr'
    (Curve.cross_chord hf' ht' hw0 hw0' hdr (by linarith)) (Curve.cross_chord hf' ht' hw0 hw0' hdr' (by linarith)) (by rw [hz])
  have m1 := Curve.cross_mono hf' ht' hw0 hw0' hdr (show (a : ℝ) ≤ a + a' by linarith)
  have m2 := Curve.cross_mono hf' ht' hw0 hw0' hdr' (show (a' : ℝ) ≤ a + a' by linarith)
  have u1 := (abs_lt.mp (C47_cross ha h (by linarith) hsize)).1
  have u2 := (abs_lt.mp (C47_cross ha' h0 (by linarith) hsize)).1
  generalize ((2 : ℕ) : ℝ) * (1000000 * eps) = E at hup h3 h5
  have h6 : (r' : ℝ) < ((r₀ + 5 : Int) : ℝ) := by push_cast; nlinarith
  have : r' < r₀ + 5 := by exact_mod_cast h6
  omega

/-! Examples: a pool of 100000 tokens over 50000 (25%), and a conversion from 50% to 25%. -/

example : calculatePurchaseReturn 100000 50000 250000 2000 = .ok 985 ∧ calculatePurchaseReturn (100000 + 985) (50000 + 2000) 250000 3000 = .ok 1426 ∧
    calculatePurchaseReturn 100000 50000 250000 3000 = .ok 1467 ∧ calculateSaleReturn 100000 50000 250000 2000 = .ok 3881 ∧
    calculateSaleReturn 100000 50000 250000 3000 = .ok 5735 ∧ calculateSaleReturn (100000 - 2000) (50000 - 3881) 250000 3000 = .ok 5393 ∧
    calculateCrossConnectorReturn 50000 500000 121000 250000 2000 = .ok 9128 ∧
    calculateCrossConnectorReturn 50000 500000 121000 250000 3000 = .ok 13310 ∧
    calculateCrossConnectorReturn (50000 + 2000) 500000 (121000 - 9128) 250000 3000 = .ok 11871 := by decide +kernel

example : ((2411 : Int) - 1) * (1000000 * 50000) < 5000 * (100000 * 250000) :=
  C72_purchase_spot (by decide) (by decide +kernel)
    ((purchase_bound (by norm_num) (by norm_num) (by norm_num) (by norm_num)).trans (by norm_num))
example : ((9274 : Int) - 1) * (100000 * 250000) < 5000 * (1000000 * 50000) := C72_sale_spot (by decide) (by decide +kernel) (by decide)
example : ((20999 : Int) - 1) * (50000 * 250000) < 5000 * (121000 * 500000) := C72_cross_spot (by decide) (by decide +kernel) (by decide)

example : (2000 : Int) * (2411 - 1) ≤ 5000 * (985 + 2) :=
  C72_purchase_average (s := 100000) (b := 50000) (w := 250000) (by decide) (by decide) (by decide +kernel) (by decide +kernel)
    ((purchase_bound (by norm_num) (by norm_num) (by norm_num) (by norm_num)).trans (by norm_num))
    ((purchase_bound (by norm_num) (by norm_num) (by norm_num) (by norm_num)).trans (by norm_num))
example : (2000 : Int) * (9274 - 1) ≤ 5000 * (3881 + 2) :=
  C72_sale_average (s := 100000) (b := 50000) (w := 250000) (by decide) (by decide) (by decide +kernel) (by decide +kernel)
    (by rw [example_sale]; norm_num) (by decide)
example : (2000 : Int) * (20999 - 1) ≤ 5000 * (9128 + 2) :=
  C72_cross_average (fb := 50000) (fw := 500000) (tb := 121000) (tw := 250000) (by decide) (by decide) (by decide +kernel) (by decide +kernel)
    (by rw [example_cross]; norm_num) (by decide)

example : (1426 : Int) ≤ 1467 + 4 :=
  C72_purchase_again (s := 100000) (b := 50000) (w := 250000) (d := 2000) (d' := 3000) (r := 985) (by decide) (by decide) (by decide +kernel)
    (by decide +kernel) (by decide +kernel)
    ((purchase_bound (by norm_num) (by norm_num) (by norm_num) (by norm_num)).trans (by norm_num))
    ((purchase_bound (by norm_num) (by norm_num) (by norm_num) (by norm_num)).trans (by norm_num))
example : (5393 : Int) ≤ 5735 + 4 :=
  C72_sale_again (s := 100000) (b := 50000) (w := 250000) (d := 2000) (d' := 3000) (r := 3881) (by decide) (by decide) (by decide) (by decide +kernel)
    (by decide +kernel) (by decide +kernel)
    (by have e : ((2000 : Int) : ℝ) + ((3000 : Int) : ℝ) = ((5000 : Int) : ℝ) := by norm_num
        rw [e, example_sale]; norm_num) (by decide)
example : (11871 : Int) ≤ 13310 + 4 :=
  C72_cross_again (fb := 50000) (fw := 500000) (tb := 121000) (tw := 250000) (a := 2000) (a' := 3000) (r := 9128) (by decide) (by decide)
    (by decide +kernel) (by decide +kernel) (by decide +kernel)
    (by have e : ((2000 : Int) : ℝ) + ((3000 : Int) : ℝ) = ((5000 : Int) : ℝ) := by norm_num
        rw [e, example_cross]; norm_num) (by decide)

end
end Verif.Formula

namespace Verif
open Scenario (ready ready_reachable)

section
variable {w w' : World} {T t R N a b s : Addr} {v m cv : Int} {amount fee : Int} {x : Val} {d : Data} {orc : Oracle} {n : Nat}

/-- C72. A converter quotes no purchase above the price of its pool: for `v` of connector `a` it promises, fee included, less than
`v · supply · weight / (1000000 · balance)` flexible tokens, plus one. -/
theorem C72_quote_buy (hw : Wired w T t R N) (hka : (w.kind a).isToken) (hv : 0 ≤ v)
    (h : exec orc n s T cv (.getReturn a t v) w = .ok (.ret amount fee, w'))
    (hsize : ((w.tok t).supply : ℝ) + Curve.purchase (w.tok t).supply (w.reserve T a) ((w.conv T).connectors a).weight v ≤ 2 ^ 124) :
    (amount + fee - 1) * (1000000 * w.reserve T a) < v * ((w.tok t).supply * ((w.conv T).connectors a).weight) := by
  obtain ⟨_, _, he, hc, -, -⟩ := C25_quote hw hka (by rw [hw.flex]; simp [Kind.isToken]) h
  cases he
  unfold World.curve at hc; rw [if_pos (by exact hw.token), Int.sub_zero] at hc
  exact Formula.C72_purchase_spot hv hc hsize

/-- C72. A converter quotes no sale above the price of its pool. -/
theorem C72_quote_sell (hw : Wired w T t R N) (hkb : (w.kind b).isToken) (hbt : b ≠ t) (hv : 0 ≤ v)
    (h : exec orc n s T cv (.getReturn t b v) w = .ok (.ret amount fee, w')) (hsize : w.reserve T b ≤ 2 ^ 104) :
    (amount + fee - 1) * ((w.tok t).supply * ((w.conv T).connectors b).weight) < v * (1000000 * w.reserve T b) := by
  obtain ⟨_, _, he, hc, -, -⟩ := C25_quote hw (by rw [hw.flex]; simp [Kind.isToken]) hkb h
  cases he
  unfold World.curve at hc
  rw [if_neg (by rw [hw.token]; intro e; exact hbt (Option.some.inj e).symm), if_pos (by exact hw.token)] at hc
  exact Formula.C72_sale_spot hv hc hsize

/-- C72. A converter quotes no conversion between connectors above the price of its pool. -/
theorem C72_quote_cross (hw : Wired w T t R N) (hka : (w.kind a).isToken) (hkb : (w.kind b).isToken) (hat : a ≠ t) (hbt : b ≠ t) (hv : 0 ≤ v)
    (h : exec orc n s T cv (.getReturn a b v) w = .ok (.ret amount fee, w')) (hsize : w.reserve T b ≤ 2 ^ 104) :
    (amount + fee - 1) * (w.reserve T a * ((w.conv T).connectors b).weight) < v * (w.reserve T b * ((w.conv T).connectors a).weight) := by
  obtain ⟨_, _, he, hc, -, -⟩ := C25_quote hw hka hkb h
  cases he
  unfold World.curve at hc
  rw [if_neg (by rw [hw.token]; intro e; exact hbt (Option.some.inj e).symm),
    if_neg (by rw [hw.token]; intro e; exact hat (Option.some.inj e).symm), Int.sub_zero] at hc
  exact Formula.C72_cross_spot hv hc hsize

/-- C72. Nobody buys below the price of the pool: the supply grows by less than `v · supply · weight / (1000000 · balance)`, plus one, when
the network buys with `v` of connector `a` (unless `a` has a virtual balance, see C31). -/
theorem C72_buy (hr : Reachable w) (hw : Wired w T t R N) (hN : N ≠ ZERO) (hact : w.active T) (hka : (w.kind a).isToken)
    (hvirt : ((w.conv T).connectors a).isVirtual = false)
    (hd : Asks d t m) (h : exec orc n N a 0 (.transfer T v (some d)) w = .ok (x, w'))
    (hsize : ((w.tok t).supply : ℝ) + Curve.purchase (w.tok t).supply ((w.tok a).bal T) ((w.conv T).connectors a).weight v ≤ 2 ^ 124) :
    ((w'.tok t).supply - (w.tok t).supply - 1) * (1000000 * (w.tok a).bal T) < v * ((w.tok t).supply * ((w.conv T).connectors a).weight) := by
  obtain ⟨hat, -⟩ := C26_buy_balances hw hN hact hka hd h
  obtain ⟨r, c, -, -, hv, -, hc, hrc, hal⟩ := C26_buy hw hN hact hka hd h
  have hNT : N ≠ T := by rintro rfl; have h1 := hw.net; rw [hw.conv] at h1; cases h1
  have hs : (w'.tok t).supply = (w.tok t).supply + r := by
    rw [hal.tok]
    have e1 : ((w.pay a N T v).virt T a v).tok = (w.pay a N T v).tok := virt_tok ..
    simp [World.mint, World.pay, hat.symm, setTok_tok]
  unfold World.curve at hc
  rw [if_pos (by exact hw.token)] at hc
  have e1 : ((w.pay a N T v).tok t).supply = (w.tok t).supply := by simp [World.pay, setTok_tok, hat.symm]
  have e2 : (w.pay a N T v).reserve T a - v = (w.tok a).bal T := by
    unfold World.reserve; simp [World.pay, setTok_tok, hvirt, moveBal, hNT.symm]
  have e3 : (w.pay a N T v).conv = w.conv := rfl
  rw [e1, e2, e3] at hc
  have h1 := Formula.C72_purchase_spot hv.le hc hsize
  have h2 := (C24_range (T := T) hr (Formula.C44_purchase hv.le hc) 1).2
  obtain ⟨-, hb, -⟩ := Formula.purchase_input hc
  rw [hs, show (w.tok t).supply + r - (w.tok t).supply = r by omega]
  rw [← hrc] at h2
  nlinarith

/-- C72. Nobody sells above the price of the pool: the network gets less than `v · 1000000 · balance / (supply · weight)`, plus one, for `v`
flexible tokens. -/
theorem C72_sell (hr : Reachable w) (hw : Wired w T t R N) (hN : N ≠ ZERO) (hact : w.active T) (hkb : (w.kind b).isToken)
    (hd : Asks d b m) (h : exec orc n N t 0 (.transfer T v (some d)) w = .ok (x, w')) (hsize : w.reserve T b ≤ 2 ^ 104) :
    ((w'.tok b).bal N - (w.tok b).bal N - 1) * ((w.tok t).supply * ((w.conv T).connectors b).weight) < v * (1000000 * w.reserve T b) := by
  obtain ⟨hbt, -⟩ := C27_sell_balances hw hN hact hkb hd h
  obtain ⟨r, c, -, -, hv, -, hc, hrc, -, hal⟩ := C27_sell hw hN hact hkb hd h
  have hNT : N ≠ T := by rintro rfl; have h1 := hw.net; rw [hw.conv] at h1; cases h1
  have hs : (w'.tok b).bal N = (w.tok b).bal N + r := by
    rw [hal.tok]
    have e1 : ((w.pay t N T v).virt T b (-r)).tok = (w.pay t N T v).tok := virt_tok ..
    simp [World.mint, e1, World.pay, hbt, setTok_tok, moveBal, hNT]
  unfold World.curve at hc
  rw [if_neg (by rw [hw.token]; intro e; exact hbt (Option.some.inj e).symm), if_pos (by exact hw.token)] at hc
  have h1 := Formula.C72_sale_spot hv.le hc hsize
  have h2 := (C24_range (T := T) hr (Formula.C44_sale hv.le hc).1 1).2
  obtain ⟨hs0, -, hw0, -⟩ := Formula.sale_input hc
  rw [hs, show (w.tok b).bal N + r - (w.tok b).bal N = r by omega]
  rw [← hrc] at h2
  have h3 := Int.mul_pos hs0 (show 0 < ((w.conv T).connectors b).weight by have := hw0.1; omega)
  nlinarith

/-- C72. Nobody converts between connectors above the price of the pool (unless the source has a virtual balance). -/
theorem C72_cross (hr : Reachable w) (hw : Wired w T t R N) (hN : N ≠ ZERO) (hact : w.active T) (hka : (w.kind a).isToken) (hkb : (w.kind b).isToken)
    (hat : a ≠ t) (hbt : b ≠ t) (hvirt : ((w.conv T).connectors a).isVirtual = false)
    (hd : Asks d b m) (h : exec orc n N a 0 (.transfer T v (some d)) w = .ok (x, w')) (hsize : w.reserve T b ≤ 2 ^ 104) :
    ((w'.tok b).bal N - (w.tok b).bal N - 1) * ((w.tok a).bal T * ((w.conv T).connectors b).weight) <
      v * (w.reserve T b * ((w.conv T).connectors a).weight) := by
  obtain ⟨hab, -⟩ := C28_cross_balances hw hN hact hka hkb hat hbt hd h
  obtain ⟨r, c, -, -, hv, -, hc, hrc, -, hal⟩ := C28_cross hw hN hact hka hkb hat hbt hd h
  have hNT : N ≠ T := by rintro rfl; have h1 := hw.net; rw [hw.conv] at h1; cases h1
  have hs : (w'.tok b).bal N = (w.tok b).bal N + r := by
    rw [hal.tok]
    have e1 : (((w.pay a N T v).virt T a v).virt T b (-r)).tok = (w.pay a N T v).tok := (virt_tok ..).trans (virt_tok ..)
    simp [e1, World.pay, hab.symm, setTok_tok, moveBal, hNT]
  unfold World.curve at hc
  have e3 : (w.pay a N T v).conv = w.conv := rfl
  rw [e3, if_neg (by rw [hw.token]; intro e; exact hbt (Option.some.inj e).symm),
    if_neg (by rw [hw.token]; intro e; exact hat (Option.some.inj e).symm)] at hc
  have e2 : (w.pay a N T v).reserve T a - v = (w.tok a).bal T := by
    unfold World.reserve; simp [World.pay, setTok_tok, hvirt, moveBal, hNT.symm]
  have er : (w.pay a N T v).reserve T b = w.reserve T b := by
    unfold World.reserve World.pay; simp [setTok_tok, hab.symm]
  rw [e2, er] at hc
  have h1 := Formula.C72_cross_spot hv.le hc hsize
  have h2 := (C24_range (T := T) hr (Formula.C44_cross hv.le hc).1 2).2
  obtain ⟨hs0, -, -, hw0⟩ := Formula.cross_input hc
  rw [hs, show (w.tok b).bal N + r - (w.tok b).bal N = r by omega]
  rw [← hrc] at h2
  have h3 := Int.mul_pos hs0 (show 0 < ((w.conv T).connectors b).weight by have := hw0.1; omega)
  nlinarith

/-! The network of the scenario buys, sells and converts: the hypotheses of the last three theorems are met. -/

set_option maxRecDepth 100000 in
theorem funded_prices : ((funded.conv Scenario.conv).connectors Scenario.irc).isVirtual = false ∧ (funded.tok Scenario.flex).supply = 100000 ∧
    (funded.tok Scenario.irc).bal Scenario.conv = 50000 ∧ ((funded.conv Scenario.conv).connectors Scenario.irc).weight = 250000 ∧
    ((funded.conv Scenario.conv).connectors Scenario.icxt).weight = 250000 ∧
    funded.reserve Scenario.conv Scenario.irc = 50000 ∧ funded.reserve Scenario.conv Scenario.icxt = 50000 := by decide +kernel

set_option maxRecDepth 100000 in
example : ∃ x w', exec Scenario.orc 20 Scenario.network Scenario.irc 0 (.transfer Scenario.conv 5000 (some (Network.requestData Scenario.flex 1))) funded = .ok (x, w') ∧
    ((w'.tok Scenario.flex).supply - 100000 - 1) * (1000000 * 50000) < 5000 * (100000 * 250000) := by
  obtain ⟨h1, h2, h3, h4, -⟩ := funded_prices
  have hok : (exec Scenario.orc 20 Scenario.network Scenario.irc 0 (.transfer Scenario.conv 5000 (some (Network.requestData Scenario.flex 1))) funded).toOption.isSome = true := by
    decide +kernel
  match he : exec Scenario.orc 20 Scenario.network Scenario.irc 0 (.transfer Scenario.conv 5000 (some (Network.requestData Scenario.flex 1))) funded, hok with
  | .ok (x, w'), _ =>
    refine ⟨x, w', rfl, ?_⟩
    have h := C72_buy funded_reachable funded_wired funded_tokens.2.2.2.2 ((active_iff funded_wired).mpr funded_tokens.2.2.2.1) funded_tokens.1 h1 asks_request he
      (by rw [h2, h3, h4]; exact (Formula.purchase_bound (by norm_num) (by norm_num) (by norm_num) (by norm_num)).trans (by norm_num))
    rwa [h2, h3, h4] at h
  | .error e, hk => exact absurd hk (by simp [Except.toOption])

set_option maxRecDepth 100000 in
example : ∃ x w', exec Scenario.orc 20 Scenario.network Scenario.irc 0 (.transfer Scenario.conv 5000 (some (Network.requestData Scenario.icxt 1))) funded = .ok (x, w') ∧
    ((w'.tok Scenario.icxt).bal Scenario.network - (funded.tok Scenario.icxt).bal Scenario.network - 1) * (50000 * 250000) < 5000 * (50000 * 250000) := by
  obtain ⟨h1, h2, h3, h4, h5, -, h6⟩ := funded_prices
  have hok : (exec Scenario.orc 20 Scenario.network Scenario.irc 0 (.transfer Scenario.conv 5000 (some (Network.requestData Scenario.icxt 1))) funded).toOption.isSome = true := by
    decide +kernel
  match he : exec Scenario.orc 20 Scenario.network Scenario.irc 0 (.transfer Scenario.conv 5000 (some (Network.requestData Scenario.icxt 1))) funded, hok with
  | .ok (x, w'), _ =>
    refine ⟨x, w', rfl, ?_⟩
    have h := C72_cross funded_reachable funded_wired funded_tokens.2.2.2.2 ((active_iff funded_wired).mpr funded_tokens.2.2.2.1) funded_tokens.1 funded_tokens.2.1
      (by decide) (by decide) h1 asks_request he (by rw [h6]; decide)
    rwa [h3, h4, h5, h6] at h
  | .error e, hk => exact absurd hk (by simp [Except.toOption])

set_option maxRecDepth 100000 in
example : ∃ x w', exec Scenario.orc 20 Scenario.network Scenario.flex 0 (.transfer Scenario.conv 5000 (some (Network.requestData Scenario.irc 1))) funded = .ok (x, w') ∧
    ((w'.tok Scenario.irc).bal Scenario.network - (funded.tok Scenario.irc).bal Scenario.network - 1) * (100000 * 250000) < 5000 * (1000000 * 50000) := by
  obtain ⟨-, h2, -, h4, -, h5, -⟩ := funded_prices
  have hok : (exec Scenario.orc 20 Scenario.network Scenario.flex 0 (.transfer Scenario.conv 5000 (some (Network.requestData Scenario.irc 1))) funded).toOption.isSome = true := by
    decide +kernel
  match he : exec Scenario.orc 20 Scenario.network Scenario.flex 0 (.transfer Scenario.conv 5000 (some (Network.requestData Scenario.irc 1))) funded, hok with
  | .ok (x, w'), _ =>
    refine ⟨x, w', rfl, ?_⟩
    have h := C72_sell funded_reachable funded_wired funded_tokens.2.2.2.2 ((active_iff funded_wired).mpr funded_tokens.2.2.2.1) funded_tokens.1 asks_request he
      (by rw [h5]; decide)
    rwa [h2, h4, h5] at h
  | .error e, hk => exact absurd hk (by simp [Except.toOption])

/-- The quotes: what alice is told for 5000 of each. -/
def quoted (a b : Addr) : Option (Int × Int) :=
  match exec Scenario.orc 20 Scenario.alice Scenario.conv 0 (.getReturn a b 5000) ready with
  | .ok (.ret r f, _) => some (r, f)
  | _ => none

set_option maxRecDepth 100000 in
example : quoted Scenario.irc Scenario.flex = some (2408, 3) ∧ quoted Scenario.flex Scenario.irc = some (9264, 10) ∧
    quoted Scenario.irc Scenario.icxt = some (4535, 10) := by decide +kernel

end
end Verif

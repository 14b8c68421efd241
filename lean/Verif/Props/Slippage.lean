import Verif.Spec.Slippage
import Verif.Props.Strategy
import Verif.Props.Price
import Verif.Props.Liveness
/-!
C79: what others can make out of a trader's order is bounded by his minimum return.
-/
set_option autoImplicit false
set_option linter.unusedSimpArgs false
namespace Verif
open Real

section
variable {w w' : World} {T t R N a b A : Addr} {l : List Addr} {F : Finset Addr} {d m : Int}

theorem taken_le {G : Addr → Int} (hAT : A ≠ T) (hA : A ∉ F) (hT : T ∉ F) (h : ∀ y, y ≠ T → y ≠ A → 0 ≤ G y) :
    G A + G T + ∑ y ∈ F, G y ≤ ∑ᶠ y, G y := by
  have : Fintype Addr := Fintype.ofFinite Addr
  rw [finsum_eq_sum_of_fintype]
  have h1 : ∑ y ∈ insert A (insert T F), G y = G A + G T + ∑ y ∈ F, G y := by
    rw [Finset.sum_insert (by simp [hAT, hA]), Finset.sum_insert hT]; ring
  rw [← h1]
  refine Finset.sum_le_sum_of_subset_of_nonneg (Finset.subset_univ _) fun y _ hy => h y ?_ ?_
  · rintro rfl; exact hy (by simp)
  · rintro rfl; exact hy (by simp)

theorem gained_sum (a : Addr) : ∑ᶠ y, w.gained w' a y = ∑ᶠ y, w'.wealth a y - ∑ᶠ y, w.wealth a y := by
  unfold World.gained
  have : Fintype Addr := Fintype.ofFinite Addr
  simp only [finsum_eq_sum_of_fintype, Finset.sum_sub_distrib]

section
variable (h : Stretch w w' T t R N l)
include h

theorem Stretch.final : Reachable w' := h.start.later h.later

theorem Stretch.own_coin : w.coin T = 0 ∧ w'.coin T = 0 := by
  have hkT : w.kind T = .conv := h.trading.wired.conv
  have hkT' : w'.kind T = .conv := by rw [h.later.kind (by rw [hkT]; decide), hkT]
  exact ⟨C58_no_coin_stuck h.start (.inr (.inr (.inl hkT))), C58_no_coin_stuck h.final (.inr (.inr (.inl hkT')))⟩

theorem Stretch.gained_T (a : Addr) : w.gained w' a T = (w'.tok a).bal T - (w.tok a).bal T := by
  unfold World.gained World.wealth
  rw [h.own_coin.1, h.own_coin.2]; simp

theorem Stretch.sum_connector (ha : a ∈ l) : ∑ᶠ y, w.gained w' a y ≤ 0 := by
  rw [gained_sum]
  have hk : w.kind a = .irc ∨ w.kind a = .icx ∨ w.kind a = .flex := h.trading.honest a ha
  rcases hk with hk | hk | hk
  · rw [C65_conserved h.start h.later (.inl hk)]; omega
  · rw [C65_conserved h.start h.later (.inr hk)]; omega
  · rw [wealth_sum h.start, wealth_sum h.final, h.later.kind (by rw [hk]; decide), hk]
    have := h.unissued a ha hk
    simp; omega

theorem Stretch.sum_flexible : ∑ᶠ y, w.gained w' t y = (w'.tok t).supply - (w.tok t).supply := by
  have hkt : w.kind t = .flex := h.trading.wired.flex
  rw [gained_sum, wealth_sum h.start, wealth_sum h.final, h.later.kind (by rw [hkt]; decide), hkt]
  simp

/-- What the converter has lost of a connector is at least what the trader and the others have gained. -/
theorem Stretch.reserve_le (ha : a ∈ l) (hAT : A ≠ T) (hA : A ∉ F) (hF : T ∉ F) (hun : w.unharmed w' T A (t :: l)) :
    w.gained w' a A + ((w'.tok a).bal T - (w.tok a).bal T) + w.taken w' F a ≤ 0 := by
  rw [← h.gained_T]
  exact le_trans (taken_le hAT hA hF fun y h1 h2 => hun y h1 h2 a (List.mem_cons_of_mem _ ha)) (h.sum_connector ha)

theorem Stretch.supply_le (hAT : A ≠ T) (hA : A ∉ F) (hF : T ∉ F) (hun : w.unharmed w' T A (t :: l)) :
    w.gained w' t A + w.taken w' F t ≤ (w'.tok t).supply - (w.tok t).supply := by
  have h1 := taken_le (G := w.gained w' t) hAT hA hF fun y h1 h2 => hun y h1 h2 t List.mem_cons_self
  rw [h.sum_flexible, h.gained_T] at h1
  have := h.kept
  have e : w.taken w' F t = ∑ y ∈ F, w.gained w' t y := rfl
  omega

theorem Stretch.taken_nonneg (hA : A ∉ F) (hF : T ∉ F) (hun : w.unharmed w' T A (t :: l)) (ha : a ∈ t :: l) : 0 ≤ w.taken w' F a :=
  Finset.sum_nonneg fun y hy => hun y (by rintro rfl; exact hF hy) (by rintro rfl; exact hA hy) a ha

theorem Stretch.others_down (hAT : A ≠ T) (hun : w.unharmed w' T A (t :: l)) (hb : b ∈ l) (hAb : 0 ≤ w.gained w' b A) :
    (w'.tok b).bal T ≤ (w.tok b).bal T := by
  have := h.reserve_le (F := ∅) hb hAT (by simp) (by simp) hun
  have e : w.taken w' ∅ b = 0 := rfl
  omega

end

/-- C79. What others can make out of a purchase. A trader pays at most `d` of connector `a` and gets at least `m` flexible tokens; he
loses nothing else, and nobody else loses anything. Then what any others have gained of `a` meanwhile (before, in between and after,
by whatever transactions) is at most what he paid, and what he asked for, with what they gained of the flexible token, is not more
than the exact curve gives for what is left of his payment. -/
theorem C79_buying (h : Stretch w w' T t R N l) (ha : a ∈ l) (hAT : A ≠ T) (hA : A ∉ F) (hF : T ∉ F) (hm : 0 ≤ m)
    (hpaid : -d ≤ w.gained w' a A) (hgot : m ≤ w.gained w' t A) (hrest : ∀ b ∈ l, b ≠ a → 0 ≤ w.gained w' b A)
    (hun : w.unharmed w' T A (t :: l)) (hsize : (w.tok a).bal T * w.length w' ≤ 2 ^ 104)
    (hsize' : ((w.tok t).supply + Curve.purchase (w.tok t).supply ((w.tok a).bal T) ((w.conv T).connectors a).weight d) * (w.length w' + 1)
      ≤ 2 ^ 116) :
    w.taken w' F a ≤ d ∧
      (m + w.taken w' F t : ℝ) ≤
        Curve.purchase (w.tok t).supply ((w.tok a).bal T) ((w.conv T).connectors a).weight (d - w.taken w' F a) + 1 / 100 := by
  have hε := Formula.eps_pos
  have hothers : ∀ b ∈ l, b ≠ a → (w'.tok b).bal T ≤ (w.tok b).bal T := fun b hb hba => h.others_down hAT hun hb (hrest b hb hba)
  have hsup := h.supply_le hAT hA hF hun
  have hres := h.reserve_le ha hAT hA hF hun
  have hqt := h.taken_nonneg hA hF hun (List.mem_cons_self (a := t) (l := l))
  have hpa := h.taken_nonneg hA hF hun (List.mem_cons_of_mem t ha)
  have hnf := C59_no_free_balance h.start h.trading h.later h.plain h.reserves h.supply ha (by omega) hothers hsize
  have hpd : w.taken w' F a ≤ d := by omega
  refine ⟨hpd, ?_⟩
  obtain ⟨n, hn, h1⟩ := C59_trades h.start h.trading h.later h.plain h.supply
  have hS := h.trading.supply h.start h.later h.plain h.supply
  have hn' : (n : ℝ) ≤ (w.length w' : ℝ) := by exact_mod_cast hn
  have hup := Formula.strategy_purchase (i := (⟨a, ha⟩ : {a // a ∈ l})) (d := d - w.taken w' F a) (h.trading.weight_pos h.start) hS
    (fun i => h.reserves i.1 i.2) h1 (by omega) (by show (w'.tok a).bal T ≤ (w.tok a).bal T + _; omega)
    (fun j hj => hothers j.1 j.2 (by rintro rfl; exact hj rfl))
  change ((w'.tok t).supply : ℝ) ≤ ((w.tok t).supply + Curve.purchase (w.tok t).supply ((w.tok a).bal T) ((w.conv T).connectors a).weight _) * _ at hup
  have hS1 : (1 : ℝ) ≤ (w.tok t).supply := by exact_mod_cast hS
  have hb0 : (0 : ℝ) < (w.tok a).bal T := by exact_mod_cast h.reserves a ha
  have hw1 : 0 ≤ ((w.conv T).connectors a).weight := le_trans (by decide) (h.trading.weight_pos h.start ⟨a, ha⟩)
  have hw0 : (0 : ℝ) ≤ ((w.conv T).connectors a).weight := by exact_mod_cast hw1
  have hp := Curve.purchase_nonneg hS (h.reserves a ha) hw1 (show 0 ≤ d - w.taken w' F a by omega)
  have hmono := Curve.purchase_mono (s := (w.tok t).supply) (b := (w.tok a).bal T) (w := ((w.conv T).connectors a).weight)
    (by linarith) hb0 hw0 (show (0 : ℝ) ≤ ((d - w.taken w' F a : Int) : ℝ) by exact_mod_cast (by omega : 0 ≤ d - w.taken w' F a))
    (show ((d - w.taken w' F a : Int) : ℝ) ≤ (d : ℝ) by exact_mod_cast (by omega : d - w.taken w' F a ≤ d))
  set P := Curve.purchase (w.tok t).supply ((w.tok a).bal T) ((w.conv T).connectors a).weight ((d - w.taken w' F a : Int) : ℝ) with hP
  have hX1 : 1 ≤ ((w.tok t).supply : ℝ) + P := by linarith
  have hn0 : (0 : ℝ) ≤ n := by positivity
  have hXn : (((w.tok t).supply : ℝ) + P) * n ≤ 2 ^ 116 := by
    have := mul_le_mul (add_le_add_right hmono ((w.tok t).supply : ℝ)) (show (n : ℝ) ≤ w.length w' + 1 by linarith) hn0
      (by linarith)
    linarith
  have hnn : (n : ℝ) ≤ 2 ^ 116 := by nlinarith
  have hne : (n : ℝ) * Formula.eps ≤ 1 / 10 := by
    have h1 := mul_le_mul_of_nonneg_right hnn hε.le
    have h2 : (2 : ℝ) ^ 116 * Formula.eps ≤ 1 / 10 := by rw [← Formula.eps_eq]; norm_num
    linarith
  have h3 := mul_le_mul_of_nonneg_left (Formula.exp_small (by positivity) hne) (show 0 ≤ ((w.tok t).supply : ℝ) + P by linarith)
  have h4 : (((w.tok t).supply : ℝ) + P) * (n * Formula.eps) ≤ 1 / 400 := by
    have h1 := mul_le_mul_of_nonneg_right hXn hε.le
    have h2 : (2 : ℝ) ^ 116 * Formula.eps ≤ 1 / 400 := by rw [← Formula.eps_eq]; norm_num
    rw [← mul_assoc]; linarith
  have h5 : (m : ℝ) + w.taken w' F t ≤ (w'.tok t).supply - (w.tok t).supply := by
    exact_mod_cast (by omega : m + w.taken w' F t ≤ (w'.tok t).supply - (w.tok t).supply)
  have h6 : Curve.purchase (w.tok t).supply ((w.tok a).bal T) ((w.conv T).connectors a).weight (d - w.taken w' F a) = P := by
    rw [hP, Int.cast_sub]
  rw [h6]
  nlinarith

/-- What a strategy takes out of a balance, from the two bounds of C66. -/
theorem out_le {b b' n X C : ℝ} (hX : X = b - C) (hX0 : 0 ≤ X) (hXb : X ≤ b) (hn : 0 ≤ n) (hsize : b * n ≤ 2 ^ 94)
    (hup : X * exp (-(n * (1000000 * Formula.eps))) ≤ b') : b - b' ≤ C + 1 / 100 := by
  have hε := Formula.eps_pos
  have h1 := mul_le_mul_of_nonneg_right hsize (show 0 ≤ 1000000 * Formula.eps by positivity)
  have h2 : (2 : ℝ) ^ 94 * (1000000 * Formula.eps) ≤ 1 / 100 := by rw [← Formula.eps_eq]; norm_num
  have h3 := mul_le_mul_of_nonneg_left (Real.add_one_le_exp (-(n * (1000000 * Formula.eps)))) hX0
  have h4 : X * (n * (1000000 * Formula.eps)) ≤ b * (n * (1000000 * Formula.eps)) := mul_le_mul_of_nonneg_right hXb (by positivity)
  have h5 : b * (n * (1000000 * Formula.eps)) = b * n * (1000000 * Formula.eps) := by ring
  nlinarith

/-- C79. What others can make out of a sale: of the flexible tokens they cannot gain more than the trader gave, and what he asked for, with
what they gained of the connector he wants, is not more than the exact curve gives for the rest. -/
theorem C79_selling (h : Stretch w w' T t R N l) (hb : b ∈ l) (hAT : A ≠ T) (hA : A ∉ F) (hF : T ∉ F) (hm : 0 ≤ m) (hd : d < (w.tok t).supply)
    (hpaid : -d ≤ w.gained w' t A) (hgot : m ≤ w.gained w' b A) (hrest : ∀ c ∈ l, c ≠ b → 0 ≤ w.gained w' c A)
    (hun : w.unharmed w' T A (t :: l)) (hsize : (w.tok t).supply * w.length w' ≤ 2 ^ 120)
    (hsize' : (w.tok b).bal T * w.length w' ≤ 2 ^ 94) :
    w.taken w' F t ≤ d ∧
      (m + w.taken w' F b : ℝ) ≤
        Curve.sale (w.tok t).supply ((w.tok b).bal T) ((w.conv T).connectors b).weight (d - w.taken w' F t) + 1 / 100 := by
  have hothers : ∀ c ∈ l, c ≠ b → (w'.tok c).bal T ≤ (w.tok c).bal T := fun c hc hcb => h.others_down hAT hun hc (hrest c hc hcb)
  have hsup := h.supply_le hAT hA hF hun
  have hres := h.reserve_le hb hAT hA hF hun
  have hqt := h.taken_nonneg hA hF hun (List.mem_cons_self (a := t) (l := l))
  have hpa := h.taken_nonneg hA hF hun (List.mem_cons_of_mem t hb)
  have hnf := C59_no_free_supply h.start h.trading h.later h.plain h.reserves h.supply (fun c hc => by
    by_cases e : c = b
    · subst e; omega
    · exact hothers c hc e) hsize
  have hpd : w.taken w' F t ≤ d := by omega
  refine ⟨hpd, ?_⟩
  obtain ⟨n, hn, h1⟩ := C59_trades h.start h.trading h.later h.plain h.supply
  have hS := h.trading.supply h.start h.later h.plain h.supply
  have hn' : (n : ℝ) ≤ (w.length w' : ℝ) := by exact_mod_cast hn
  have hup := Formula.strategy_sale (i := (⟨b, hb⟩ : {a // a ∈ l})) (d := d - w.taken w' F t) (h.trading.weight_pos h.start) hS
    (fun i => h.reserves i.1 i.2) h1 (by show d - _ < (w.tok t).supply; omega) (by show (w.tok t).supply - _ ≤ (w'.tok t).supply; omega)
    (fun j hj => hothers j.1 j.2 (by rintro rfl; exact hj rfl))
  change (((w.tok b).bal T : ℝ) - Curve.sale (w.tok t).supply ((w.tok b).bal T) ((w.conv T).connectors b).weight _) * _ ≤ ((w'.tok b).bal T : ℝ) at hup
  have hb0 : (0 : ℝ) < (w.tok b).bal T := by exact_mod_cast h.reserves b hb
  have hS0 : (0 : ℝ) < (w.tok t).supply := by exact_mod_cast hS
  have hw1 : (0 : ℝ) ≤ ((w.conv T).connectors b).weight := by
    exact_mod_cast le_trans (by decide) (h.trading.weight_pos h.start ⟨b, hb⟩)
  have hd0 : (0 : ℝ) ≤ ((d - w.taken w' F t : Int) : ℝ) := by exact_mod_cast (by omega : 0 ≤ d - w.taken w' F t)
  have hdS : ((d - w.taken w' F t : Int) : ℝ) ≤ (w.tok t).supply := by exact_mod_cast (by omega : d - w.taken w' F t ≤ (w.tok t).supply)
  have hq0 : 0 ≤ 1 - ((d - w.taken w' F t : Int) : ℝ) / (w.tok t).supply := by rw [sub_nonneg]; exact div_le_one_of_le₀ hdS hS0.le
  have hq := Real.rpow_le_one (x := 1 - ((d - w.taken w' F t : Int) : ℝ) / (w.tok t).supply)
    (z := 1 / ((((w.conv T).connectors b).weight : ℝ) / 1000000)) hq0 (by have := div_nonneg hd0 hS0.le; linarith) (by positivity)
  have hq' := Real.rpow_nonneg hq0 (1 / ((((w.conv T).connectors b).weight : ℝ) / 1000000))
  have hX : ((w.tok b).bal T : ℝ) - Curve.sale (w.tok t).supply ((w.tok b).bal T) ((w.conv T).connectors b).weight ((d - w.taken w' F t : Int) : ℝ) =
      (w.tok b).bal T * (1 - ((d - w.taken w' F t : Int) : ℝ) / (w.tok t).supply) ^ (1 / ((((w.conv T).connectors b).weight : ℝ) / 1000000)) := by
    unfold Curve.sale; ring
  have hsz : ((w.tok b).bal T : ℝ) * n ≤ 2 ^ 94 :=
    le_trans (mul_le_mul_of_nonneg_left hn' hb0.le) (by exact_mod_cast hsize')
  have hout := out_le rfl (by rw [hX]; positivity) (by rw [hX]; nlinarith) (by positivity) hsz hup
  have h5 : (m : ℝ) + w.taken w' F b ≤ (w.tok b).bal T - (w'.tok b).bal T := by
    exact_mod_cast (by omega : m + w.taken w' F b ≤ (w.tok b).bal T - (w'.tok b).bal T)
  rw [Int.cast_sub] at hout
  linarith

/-- C79. What others can make out of a conversion between connectors. -/
theorem C79_converting (h : Stretch w w' T t R N l) (ha : a ∈ l) (hb : b ∈ l) (hab : a ≠ b) (hAT : A ≠ T) (hA : A ∉ F) (hF : T ∉ F) (hm : 0 ≤ m)
    (hpaid : -d ≤ w.gained w' a A) (hgot : m ≤ w.gained w' b A) (hflex : 0 ≤ w.gained w' t A)
    (hrest : ∀ c ∈ l, c ≠ a → c ≠ b → 0 ≤ w.gained w' c A)
    (hun : w.unharmed w' T A (t :: l)) (hsize : (w.tok a).bal T * w.length w' ≤ 2 ^ 104)
    (hsize' : (w.tok b).bal T * w.length w' ≤ 2 ^ 94) :
    w.taken w' F a ≤ d ∧
      (m + w.taken w' F b : ℝ) ≤ Curve.cross ((w.tok a).bal T) ((w.conv T).connectors a).weight
        ((w.tok b).bal T) ((w.conv T).connectors b).weight (d - w.taken w' F a) + 1 / 100 := by
  have hothers : ∀ c ∈ l, c ≠ a → c ≠ b → (w'.tok c).bal T ≤ (w.tok c).bal T :=
    fun c hc h1 h2 => h.others_down hAT hun hc (hrest c hc h1 h2)
  have hsup := h.supply_le hAT hA hF hun
  have hresa := h.reserve_le ha hAT hA hF hun
  have hresb := h.reserve_le hb hAT hA hF hun
  have hqt := h.taken_nonneg hA hF hun (List.mem_cons_self (a := t) (l := l))
  have hpa := h.taken_nonneg hA hF hun (List.mem_cons_of_mem t ha)
  have hpb := h.taken_nonneg hA hF hun (List.mem_cons_of_mem t hb)
  have hnf := C59_no_free_balance h.start h.trading h.later h.plain h.reserves h.supply ha (by omega) (fun c hc hca => by
    by_cases e : c = b
    · subst e; omega
    · exact hothers c hc hca e) hsize
  have hpd : w.taken w' F a ≤ d := by omega
  refine ⟨hpd, ?_⟩
  obtain ⟨n, hn, h1⟩ := C59_trades h.start h.trading h.later h.plain h.supply
  have hS := h.trading.supply h.start h.later h.plain h.supply
  have hn' : (n : ℝ) ≤ (w.length w' : ℝ) := by exact_mod_cast hn
  have hup := Formula.strategy_cross (i := (⟨a, ha⟩ : {a // a ∈ l})) (j := (⟨b, hb⟩ : {a // a ∈ l})) (a := d - w.taken w' F a)
    (h.trading.weight_pos h.start) hS (fun i => h.reserves i.1 i.2) h1 (by simpa using hab) (by omega)
    (by show (w'.tok a).bal T ≤ (w.tok a).bal T + _; omega) (by show (w.tok t).supply ≤ (w'.tok t).supply; omega)
    (fun k h1 h2 => hothers k.1 k.2 (by rintro rfl; exact h1 rfl) (by rintro rfl; exact h2 rfl))
  change (((w.tok b).bal T : ℝ) - Curve.cross ((w.tok a).bal T) ((w.conv T).connectors a).weight ((w.tok b).bal T) ((w.conv T).connectors b).weight _) * _ ≤
    ((w'.tok b).bal T : ℝ) at hup
  have ha0 : (0 : ℝ) < (w.tok a).bal T := by exact_mod_cast h.reserves a ha
  have hb0 : (0 : ℝ) < (w.tok b).bal T := by exact_mod_cast h.reserves b hb
  have hwa : (0 : ℝ) ≤ ((w.conv T).connectors a).weight := by
    exact_mod_cast le_trans (by decide) (h.trading.weight_pos h.start ⟨a, ha⟩)
  have hwb : (0 : ℝ) ≤ ((w.conv T).connectors b).weight := by
    exact_mod_cast le_trans (by decide) (h.trading.weight_pos h.start ⟨b, hb⟩)
  have hd0 : (0 : ℝ) ≤ ((d - w.taken w' F a : Int) : ℝ) := by exact_mod_cast (by omega : 0 ≤ d - w.taken w' F a)
  have hq0 : 0 ≤ ((w.tok a).bal T : ℝ) / ((w.tok a).bal T + ((d - w.taken w' F a : Int) : ℝ)) := by positivity
  have hq := Real.rpow_le_one (x := ((w.tok a).bal T : ℝ) / ((w.tok a).bal T + ((d - w.taken w' F a : Int) : ℝ)))
    (z := (((w.conv T).connectors a).weight : ℝ) / ((w.conv T).connectors b).weight) hq0
    (div_le_one_of_le₀ (by linarith) (by linarith)) (by positivity)
  have hq' := Real.rpow_nonneg hq0 ((((w.conv T).connectors a).weight : ℝ) / ((w.conv T).connectors b).weight)
  have hX : ((w.tok b).bal T : ℝ) - Curve.cross ((w.tok a).bal T) ((w.conv T).connectors a).weight ((w.tok b).bal T) ((w.conv T).connectors b).weight
      ((d - w.taken w' F a : Int) : ℝ) = (w.tok b).bal T *
      (((w.tok a).bal T : ℝ) / ((w.tok a).bal T + ((d - w.taken w' F a : Int) : ℝ))) ^ ((((w.conv T).connectors a).weight : ℝ) / ((w.conv T).connectors b).weight) := by
    unfold Curve.cross; ring
  have hsz : ((w.tok b).bal T : ℝ) * n ≤ 2 ^ 94 :=
    le_trans (mul_le_mul_of_nonneg_left hn' hb0.le) (by exact_mod_cast hsize')
  have hout := out_le rfl (by rw [hX]; positivity) (by rw [hX]; nlinarith) (by positivity) hsz hup
  have h5 : (m : ℝ) + w.taken w' F b ≤ (w.tok b).bal T - (w'.tok b).bal T := by
    exact_mod_cast (by omega : m + w.taken w' F b ≤ (w.tok b).bal T - (w'.tok b).bal T)
  rw [Int.cast_sub] at hout
  linarith

/-- C79. So a minimum return is a limit to what others can make of a purchase: if he asks for more than `d - k` buys on the exact curve,
whatever is done before, in between and afterwards, no others gain `k` of what he pays with. -/
theorem C79_buying_limit {k : Int} (h : Stretch w w' T t R N l) (ha : a ∈ l) (hAT : A ≠ T) (hA : A ∉ F) (hF : T ∉ F) (hm : 0 ≤ m)
    (hpaid : -d ≤ w.gained w' a A) (hgot : m ≤ w.gained w' t A) (hrest : ∀ b ∈ l, b ≠ a → 0 ≤ w.gained w' b A)
    (hun : w.unharmed w' T A (t :: l)) (hsize : (w.tok a).bal T * w.length w' ≤ 2 ^ 104)
    (hsize' : ((w.tok t).supply + Curve.purchase (w.tok t).supply ((w.tok a).bal T) ((w.conv T).connectors a).weight d) * (w.length w' + 1)
      ≤ 2 ^ 116)
    (hasked : Curve.purchase (w.tok t).supply ((w.tok a).bal T) ((w.conv T).connectors a).weight (d - k) + 1 / 100 < m) :
    w.taken w' F a < k := by
  obtain ⟨h1, h2⟩ := C79_buying h ha hAT hA hF hm hpaid hgot hrest hun hsize hsize'
  by_contra hc
  have hc' : k ≤ w.taken w' F a := by omega
  have hS := h.trading.supply h.start h.later h.plain h.supply
  have hq := h.taken_nonneg hA hF hun (List.mem_cons_self (a := t) (l := l))
  have hw1 : 0 ≤ ((w.conv T).connectors a).weight := le_trans (by decide) (h.trading.weight_pos h.start ⟨a, ha⟩)
  have hmono := Curve.purchase_mono (s := (w.tok t).supply) (b := (w.tok a).bal T) (w := ((w.conv T).connectors a).weight)
    (by exact_mod_cast hS) (by exact_mod_cast h.reserves a ha) (by exact_mod_cast hw1)
    (show (0 : ℝ) ≤ (d : ℝ) - w.taken w' F a by rw [sub_nonneg]; exact_mod_cast h1)
    (show (d : ℝ) - w.taken w' F a ≤ (d : ℝ) - k by have : (k : ℝ) ≤ w.taken w' F a := by exact_mod_cast hc'
                                                    linarith)
  have hq' : (0 : ℝ) ≤ w.taken w' F t := by exact_mod_cast hq
  linarith

/-- C79. A limit to what others can make of a sale. -/
theorem C79_selling_limit {k : Int} (h : Stretch w w' T t R N l) (hb : b ∈ l) (hAT : A ≠ T) (hA : A ∉ F) (hF : T ∉ F) (hm : 0 ≤ m)
    (hd : d < (w.tok t).supply) (hpaid : -d ≤ w.gained w' t A) (hgot : m ≤ w.gained w' b A) (hrest : ∀ c ∈ l, c ≠ b → 0 ≤ w.gained w' c A)
    (hun : w.unharmed w' T A (t :: l)) (hsize : (w.tok t).supply * w.length w' ≤ 2 ^ 120)
    (hsize' : (w.tok b).bal T * w.length w' ≤ 2 ^ 94) (hk : 0 ≤ k)
    (hasked : Curve.sale (w.tok t).supply ((w.tok b).bal T) ((w.conv T).connectors b).weight (d - k) + 1 / 100 < m) :
    w.taken w' F t < k := by
  obtain ⟨h1, h2⟩ := C79_selling h hb hAT hA hF hm hd hpaid hgot hrest hun hsize hsize'
  by_contra hc
  have hc' : k ≤ w.taken w' F t := by omega
  have hS := h.trading.supply h.start h.later h.plain h.supply
  have hq := h.taken_nonneg hA hF hun (List.mem_cons_of_mem t hb)
  have hw1 : 0 < ((w.conv T).connectors b).weight := lt_of_lt_of_le (by decide) (h.trading.weight_pos h.start ⟨b, hb⟩)
  have hmono := Curve.sale_mono (s := (w.tok t).supply) (b := (w.tok b).bal T) (w := ((w.conv T).connectors b).weight)
    (by exact_mod_cast hS) (by exact_mod_cast h.reserves b hb) (by exact_mod_cast hw1)
    (show (d : ℝ) - w.taken w' F t ≤ (d : ℝ) - k by have : (k : ℝ) ≤ w.taken w' F t := by exact_mod_cast hc'
                                                    linarith)
    (by exact_mod_cast (by omega : d - k ≤ (w.tok t).supply))
  have hq' : (0 : ℝ) ≤ w.taken w' F b := by exact_mod_cast hq
  linarith

/-- C79. A limit to what others can make of a conversion between connectors. -/
theorem C79_converting_limit {k : Int} (h : Stretch w w' T t R N l) (ha : a ∈ l) (hb : b ∈ l) (hab : a ≠ b) (hAT : A ≠ T) (hA : A ∉ F) (hF : T ∉ F)
    (hm : 0 ≤ m) (hpaid : -d ≤ w.gained w' a A) (hgot : m ≤ w.gained w' b A) (hflex : 0 ≤ w.gained w' t A)
    (hrest : ∀ c ∈ l, c ≠ a → c ≠ b → 0 ≤ w.gained w' c A)
    (hun : w.unharmed w' T A (t :: l)) (hsize : (w.tok a).bal T * w.length w' ≤ 2 ^ 104)
    (hsize' : (w.tok b).bal T * w.length w' ≤ 2 ^ 94)
    (hasked : Curve.cross ((w.tok a).bal T) ((w.conv T).connectors a).weight ((w.tok b).bal T) ((w.conv T).connectors b).weight (d - k) + 1 / 100 < m) :
    w.taken w' F a < k := by
  obtain ⟨h1, h2⟩ := C79_converting h ha hb hab hAT hA hF hm hpaid hgot hflex hrest hun hsize hsize'
  by_contra hc
  have hc' : k ≤ w.taken w' F a := by omega
  have hq := h.taken_nonneg hA hF hun (List.mem_cons_of_mem t hb)
  have hw1 : 0 ≤ ((w.conv T).connectors a).weight := le_trans (by decide) (h.trading.weight_pos h.start ⟨a, ha⟩)
  have hw2 : 0 < ((w.conv T).connectors b).weight := lt_of_lt_of_le (by decide) (h.trading.weight_pos h.start ⟨b, hb⟩)
  have hmono := Curve.cross_mono (fb := (w.tok a).bal T) (fw := ((w.conv T).connectors a).weight) (tb := (w.tok b).bal T)
    (tw := ((w.conv T).connectors b).weight)
    (by exact_mod_cast h.reserves a ha) (by exact_mod_cast h.reserves b hb) (by exact_mod_cast hw1) (by exact_mod_cast hw2)
    (show (0 : ℝ) ≤ (d : ℝ) - w.taken w' F a by rw [sub_nonneg]; exact_mod_cast h1)
    (show (d : ℝ) - w.taken w' F a ≤ (d : ℝ) - k by have : (k : ℝ) ≤ w.taken w' F a := by exact_mod_cast hc'
                                                    linarith)
  have hq' : (0 : ℝ) ≤ w.taken w' F b := by exact_mod_cast hq
  linarith

end

section
variable {w w' : World} {T a : Addr}

/-- C05 over a history: who has not called a token, and of whom nothing was destroyed, has not lost any of it. -/
theorem later_blame (hk : (w.kind T).isToken) (h : Later w w') (hlt : (w'.tok T).bal a < (w.tok T).bal a) :
    ∃ f, Called w w' f ∧ f.to = T ∧ (f.sender = a ∨ ∃ v, f.call = .destroy a v) := by
  induction h with
  | refl => exact absurd hlt (lt_irrefl _)
  | @step w' orc fuel tx h ih =>
    by_cases h1 : (w'.tok T).bal a < (w.tok T).bal a
    · obtain ⟨f, h2, h3⟩ := ih h1
      exact ⟨f, called_earlier h2, h3⟩
    · have hk' : (w'.kind T).isToken := by
        rw [h.kind (by intro e; rw [e] at hk; rcases hk with h | h | h <;> cases h)]; exact hk
      obtain ⟨f, h2, h3, h4⟩ := C05_no_theft (orc := orc) (fuel := fuel) (tx := tx) hk' (a := a) (by omega)
      refine ⟨f, called_step h h2, h3, ?_⟩
      rcases h4 with ⟨h4, _⟩ | ⟨_, _, h4⟩
      · exact .inl h4
      · exact .inr h4

/-- Who has sent no coin has lost none. -/
theorem coin_blame {y : Addr} (h : Later w w') (hf : ∀ f, Called w w' f → f.sender = y → f.value = 0) : w.coin y ≤ w'.coin y := by
  induction h with
  | refl => exact le_refl _
  | @step w' orc fuel tx h ih =>
    refine le_trans (ih fun f hc => hf f (called_earlier hc)) ?_
    have hf' : ∀ f, Called w' (tx.apply orc fuel w') f → f.sender = y → f.value = 0 := fun f hc => hf f (called_step h hc)
    have hs := tx_steps orc fuel tx w'
    generalize tx.apply orc fuel w' = u at hs hf'
    clear ih hf
    induction hs with
    | refl => exact le_refl _
    | @tail u u' hpre hs ih =>
      have hsuf := (Steps.one hs).frames
      refine le_trans (ih fun f ⟨new, h1, h2⟩ => by
        obtain ⟨more, h3⟩ := hsuf
        exact hf' f ⟨more ++ new, by rw [← h3, h1, List.append_assoc], List.mem_append_right _ h2⟩) ?_
      cases hs with
      | enter s t v c hv =>
        obtain ⟨old, h3⟩ := Steps.frames hpre
        have hv' : s = y → v = 0 := hf' (mkFrame u s t v c) ⟨mkFrame u s t v c :: old, by
          show mkFrame u s t v c :: u.frames = _
          rw [← h3]; rfl, List.mem_cons_self⟩
        rw [enterW_coin']
        split
        · rename_i e; have := hv' e.symm; split <;> omega
        · split <;> omega
      | loc f u' _ hl => rw [hl.coin]
      | deploy s a i u' _ _ _ _ _ hI =>
        rw [hI.coin, enterW_coin']; simp [World.setKind]

end

namespace Scenario

/-- Somebody's order to convert `v` along a path. -/
def order (s : Addr) (path : List Addr) (v minReturn : Int) : Tx :=
  .call s (path.headD ZERO) 0 (.transfer network v (some (request path minReturn)))

/-- Bob has got 20000 of the IRC token and 9000 flexible tokens. -/
def calm : World := run [.call owner irc 0 (.transfer bob 20000 none), .call owner flex 0 (.transfer bob 9000 none)] ready

/-- Alice is about to buy with 5000 of the IRC token, and would be content with 1890 flexible tokens (the quote is 2408). Bob buys before
her, and sells after her. -/
def sandwich : World := run [
  order bob [irc, flex, flex] 20000 1,
  order alice [irc, flex, flex] 5000 1890,
  order bob [flex, flex, irc] 8766 1] calm

/-- Alice is about to sell 5000 flexible tokens, and would be content with 6900 of the IRC token (the quote is 9264). Bob sells before her,
and buys after her. -/
def sandwich2 : World := run [
  order bob [flex, flex, irc] 9000 1,
  order alice [flex, flex, irc] 5000 6900,
  order bob [irc, flex, flex] 15696 1] calm

/-- Alice is about to convert 5000 of the IRC token into the ICX token, and would be content with 2300 (the quote is 4535). Bob converts
before her, and back after her. -/
def sandwich3 : World := run [
  order bob [irc, flex, icxt] 20000 1,
  order alice [irc, flex, icxt] 5000 2300,
  .call bob network 14256 (.convert (pathText [icxt, flex, irc]) 1)] calm

end Scenario
open Scenario

theorem calm_reachable : Reachable calm := run_reachable _ ready_reachable
theorem calm_trading : Trading calm conv flex registry network [irc, icxt] :=
  (C59_stays_open ready_reachable ready_trading (run_later _ .refl) (plain_of (by decide +kernel))).1

set_option maxRecDepth 100000 in
theorem calm_facts : calm.kind irc = .irc ∧ calm.kind icxt = .icx ∧ calm.kind flex = .flex ∧ (calm.tok flex).supply = 100000 ∧
    (calm.tok irc).bal conv = 50000 ∧ (calm.tok icxt).bal conv = 50000 ∧ ((calm.conv conv).connectors irc).weight = 250000 ∧
    ((calm.conv conv).connectors icxt).weight = 250000 ∧ calm.frames.length = 27 := by decide +kernel

/-- A call by which only Alice, Bob, the network or the converter lose tokens, and only Bob, the network or the ICX token lose coin. -/
def Frame.mild (f : Frame) : Bool :=
  (f.value = 0 || f.sender = icxt || f.sender = bob || f.sender = network) &&
    (f.to ∉ [flex, irc, icxt] || ((f.sender = alice || f.sender = conv || f.sender = bob || f.sender = network) &&
      match f.call with | .destroy y _ => y = conv | _ => true))

theorem since_all {p : Frame → Bool} {w0 w : World} (key : (w.frames.take (w.frames.length - w0.frames.length)).all p = true) :
    ∀ f, Called w0 w f → p f = true := by
  rintro f ⟨new, h1, h2⟩
  refine List.all_eq_true.1 key f ?_
  rw [h1, List.length_append, Nat.add_sub_cancel, List.take_left]; exact h2

/-- Nobody but Alice is harmed in a mild history in which Bob and the network do not lose. -/
theorem mild_unharmed {w : World} (h : Later calm w)
    (key : (w.frames.take (w.frames.length - calm.frames.length)).all Frame.mild = true)
    (hcallers : ∀ y ∈ [bob, network], ∀ a ∈ [flex, irc, icxt], 0 ≤ calm.gained w a y) : calm.unharmed w conv alice [flex, irc, icxt] := by
  intro y h1 h2 a ha
  by_cases hy : y ∈ [bob, network]
  · exact hcallers y hy a ha
  obtain ⟨k1, k2, k3, _⟩ := calm_facts
  have hk : (calm.kind a).isToken := by
    simp only [List.mem_cons, List.not_mem_nil, or_false] at ha
    rcases ha with rfl | rfl | rfl
    · rw [k3]; exact .inr (.inr rfl)
    · rw [k1]; exact .inl rfl
    · rw [k2]; exact .inr (.inl rfl)
  have hk' : w.kind a = calm.kind a := h.kind (by intro e; rw [e] at hk; rcases hk with h | h | h <;> cases h)
  have hmild := since_all key
  have hbal : (calm.tok a).bal y ≤ (w.tok a).bal y := by
    by_contra hc
    obtain ⟨f, hf, hto, hwho⟩ := later_blame hk h (a := y) (by omega)
    have hh := hmild f hf
    unfold Frame.mild at hh
    rw [hto] at hh
    simp only [ha, not_true_eq_false, decide_false, Bool.false_or, Bool.and_eq_true, Bool.or_eq_true, decide_eq_true_eq] at hh
    obtain ⟨_, hwh, hd⟩ := hh
    rcases hwho with e | ⟨v, e⟩
    · rw [e] at hwh
      rcases hwh with ((e | e) | e) | e
      · exact h2 e
      · exact h1 e
      · exact hy (by simp [e])
      · exact hy (by simp [e])
    · rw [e] at hd
      exact h1 (by simpa using hd)
  have hcoin : y ≠ icxt → calm.coin y ≤ w.coin y := fun hne => coin_blame h fun f hf e => by
    have hh := hmild f hf
    unfold Frame.mild at hh
    rw [e] at hh
    simp only [Bool.and_eq_true, Bool.or_eq_true, decide_eq_true_eq] at hh
    rcases hh.1 with ((h' | h') | h') | h'
    · exact h'
    · exact absurd h' hne
    · exact absurd (by simp [h']) hy
    · exact absurd (by simp [h']) hy
  unfold World.gained World.wealth
  rw [hk']
  split
  · rename_i hc
    have : a = icxt := by
      simp only [List.mem_cons, List.not_mem_nil, or_false] at ha
      rcases ha with rfl | rfl | rfl
      · rw [k3] at hc; cases hc.1
      · rw [k1] at hc; cases hc.1
      · rfl
    have := hcoin (by rw [← this]; exact hc.2)
    omega
  · omega

set_option maxRecDepth 100000 in
theorem sandwich_stretch : Stretch calm sandwich conv flex registry network [irc, icxt] where
  start := calm_reachable
  trading := calm_trading
  later := run_later _ .refl
  plain := plain_since (by decide +kernel)
  reserves := by decide +kernel
  supply := by decide +kernel
  unissued := by decide +kernel
  kept := by decide +kernel

set_option maxRecDepth 100000 in
theorem sandwich_unharmed : calm.unharmed sandwich conv alice [flex, irc, icxt] :=
  mild_unharmed (run_later _ .refl) (by decide +kernel) (by decide +kernel)

set_option maxRecDepth 100000 in
/-- Alice pays 5000 and gets 1890; Bob makes 1065 of Alice's 5000. -/
theorem sandwich_result : calm.gained sandwich irc alice = -5000 ∧ calm.gained sandwich flex alice = 1890 ∧ calm.gained sandwich icxt alice = 0 ∧
    calm.gained sandwich irc bob = 1065 ∧ sandwich.frames.length = 76 := by decide +kernel

/-- C79: a sandwich. Having asked for 1890 at least, when 2408 were quoted, Alice can know that others cannot make 1200 out of her 5000,
whatever they do (here Bob makes 1065). -/
example : calm.taken sandwich {bob} irc = 1065 ∧ calm.taken sandwich {bob} irc < 1200 := by
  obtain ⟨r1, r2, r3, r4, r5⟩ := sandwich_result
  obtain ⟨_, _, _, k1, k2, _, k3, _, k4⟩ := calm_facts
  refine ⟨by simp [World.taken, r4], ?_⟩
  refine C79_buying_limit (d := 5000) (m := 1890) sandwich_stretch (by simp) (by decide) (F := {bob}) (by decide) (by decide) (by decide)
    (by rw [r1]) (by rw [r2]) ?_ sandwich_unharmed ?_ ?_ ?_
  · intro b hb hne
    simp only [List.mem_cons, List.not_mem_nil, or_false] at hb
    rcases hb with rfl | rfl
    · exact absurd rfl hne
    · rw [r3]
  · unfold World.length; rw [k2, k4, r5]; norm_num
  · unfold World.length
    rw [k1, k2, k3, k4, r5]
    have := Formula.purchase_bound (s := (100000 : Int)) (b := (50000 : Int)) (w := (250000 : Int)) (d := (5000 : Int)) (by norm_num) (by norm_num) (by norm_num) (by norm_num)
    norm_num at this ⊢
    nlinarith
  · rw [k1, k2, k3]
    unfold Curve.purchase
    have : (1 + ((5000 : Int) - (1200 : Int) : ℝ) / (50000 : Int)) ^ (((250000 : Int) : ℝ) / 1000000) ≤ 10185 / 10000 := by
      rw [show (((250000 : Int) : ℝ) / 1000000) = (4 : ℝ)⁻¹ by norm_num, Real.rpow_inv_le_iff_of_pos (by norm_num) (by norm_num) (by norm_num)]
      norm_num
    rw [show ((1890 : Int) : ℝ) = 1890 by norm_num, show ((100000 : Int) : ℝ) = 100000 by norm_num]
    linarith

set_option maxRecDepth 100000 in
theorem sandwich2_stretch : Stretch calm sandwich2 conv flex registry network [irc, icxt] where
  start := calm_reachable
  trading := calm_trading
  later := run_later _ .refl
  plain := plain_since (by decide +kernel)
  reserves := by decide +kernel
  supply := by decide +kernel
  unissued := by decide +kernel
  kept := by decide +kernel

set_option maxRecDepth 100000 in
theorem sandwich2_unharmed : calm.unharmed sandwich2 conv alice [flex, irc, icxt] :=
  mild_unharmed (run_later _ .refl) (by decide +kernel) (by decide +kernel)

set_option maxRecDepth 100000 in
theorem sandwich2_result : calm.gained sandwich2 flex alice = -5000 ∧ calm.gained sandwich2 irc alice = 6933 ∧ calm.gained sandwich2 icxt alice = 0 ∧
    calm.gained sandwich2 flex bob = 1307 ∧ sandwich2.frames.length = 80 := by decide +kernel

/-- C79: the same with a sale. -/
example : calm.taken sandwich2 {bob} flex = 1307 ∧ calm.taken sandwich2 {bob} flex < 1400 := by
  obtain ⟨r1, r2, r3, r4, r5⟩ := sandwich2_result
  obtain ⟨_, _, _, k1, k2, _, k3, _, k4⟩ := calm_facts
  refine ⟨by simp [World.taken, r4], ?_⟩
  refine C79_selling_limit (d := 5000) (m := 6900) sandwich2_stretch (b := irc) (by simp) (by decide) (F := {bob}) (by decide) (by decide) (by decide)
    (by rw [k1]; decide) (by rw [r1]) (by rw [r2]; decide) ?_ sandwich2_unharmed ?_ ?_ (by decide) ?_
  · intro b hb hne
    simp only [List.mem_cons, List.not_mem_nil, or_false] at hb
    rcases hb with rfl | rfl
    · exact absurd rfl hne
    · rw [r3]
  · unfold World.length; rw [k1, k4, r5]; norm_num
  · unfold World.length; rw [k2, k4, r5]; norm_num
  · rw [k1, k2, k3]
    unfold Curve.sale
    rw [show (1 : ℝ) / (((250000 : Int) : ℝ) / 1000000) = ((4 : Nat) : ℝ) by norm_num, Real.rpow_natCast]
    norm_num

set_option maxRecDepth 100000 in
theorem sandwich3_stretch : Stretch calm sandwich3 conv flex registry network [irc, icxt] where
  start := calm_reachable
  trading := calm_trading
  later := run_later _ .refl
  plain := plain_since (by decide +kernel)
  reserves := by decide +kernel
  supply := by decide +kernel
  unissued := by decide +kernel
  kept := by decide +kernel

set_option maxRecDepth 100000 in
theorem sandwich3_unharmed : calm.unharmed sandwich3 conv alice [flex, irc, icxt] :=
  mild_unharmed (run_later _ .refl) (by decide +kernel) (by decide +kernel)

set_option maxRecDepth 100000 in
theorem sandwich3_result : calm.gained sandwich3 irc alice = -5000 ∧ calm.gained sandwich3 icxt alice = 2377 ∧ calm.gained sandwich3 flex alice = 0 ∧
    calm.gained sandwich3 irc bob = 2406 ∧ sandwich3.frames.length = 83 := by decide +kernel

/-- C79: the same with a conversion between connectors, paid in coin. -/
example : calm.taken sandwich3 {bob} irc = 2406 ∧ calm.taken sandwich3 {bob} irc < 2600 := by
  obtain ⟨r1, r2, r3, r4, r5⟩ := sandwich3_result
  obtain ⟨_, _, _, k1, k2, k2', k3, k3', k4⟩ := calm_facts
  refine ⟨by simp [World.taken, r4], ?_⟩
  refine C79_converting_limit (d := 5000) (m := 2300) sandwich3_stretch (a := irc) (b := icxt) (by simp) (by simp) (by decide) (by decide) (F := {bob})
    (by decide) (by decide) (by decide) (by rw [r1]) (by rw [r2]; decide) (by rw [r3]) ?_ sandwich3_unharmed ?_ ?_ ?_
  · intro b hb h1 h2
    simp only [List.mem_cons, List.not_mem_nil, or_false] at hb
    rcases hb with rfl | rfl
    · exact absurd rfl h1
    · exact absurd rfl h2
  · unfold World.length; rw [k2, k4, r5]; norm_num
  · unfold World.length; rw [k2', k4, r5]; norm_num
  · rw [k2, k2', k3, k3']
    unfold Curve.cross
    norm_num

end Verif

import Verif.Proofs.GeneratorLog
/-!
The terms of the exponential and the factors of the logarithm to base 2, as the scripts compute them with `Decimal`.
-/
set_option autoImplicit false
namespace Verif.Generator
open Real

/-- All terms of the exponential, last the one that bounds the domain. -/
def expTable : List (Nat × Nat × Nat) := [
  (21267647932558653966460912964485513216, 600596269623765960634066700837880239609, 530024347646835984032474664511850276726),
  (42535295865117307932921825928971026432, 530024347646835984032474664511850276728, 412783376994266390547521411024565284564),
  (85070591730234615865843651857942052864, 412783376994266390547521411024565284565, 250365773966741064234501452596301656607),
  (170141183460469231731687303715884105728, 250365773966741064234501452596301656606, 92104421015340344839251721785254237641),
  (340282366920938463463374607431768211456, 92104421015340344839251721785254237637, 12464977905455307901915658421775307242),
  (680564733841876926926749214863536422912, 12464977905455307901915658421775307223, 228304034072369565894155946646425149),
  (1361129467683753853853498429727072845824, 228304034072369565894155946646422279, 76587471230661696290698490699025),
  (2722258935367507707706996859454145691648, 76587471230661696290698488162639, 8618784456248744867423872)]

/-- The largest number of 256 bits, as a real number. -/
theorem Q_real : ((1 <<< 256 - 1 : Nat) : ℝ) = 2 ^ 256 - 1 := by
  have : (1 <<< 256 - 1 : Nat) = 115792089237316195423570985008687907853269984665640564039457584007913129639935 := by decide +kernel
  rw [this]; norm_num

/-- Bounds of `exp` are enough to know the term. -/
theorem expRound {E a b : ℝ} {top num den : Nat} (ha0 : 0 < a) (ha : a ≤ E) (hb : E ≤ b) (ht : 0 < top)
    (c1 : (den : ℝ) * (b * top * (1 + 1 / 10 ^ 99) ^ 2) ≤ (2 ^ 256 - 1) * (1 - 1 / 10 ^ 99))
    (c2 : (2 ^ 256 - 1) * (1 + 1 / 10 ^ 99) < (den + 1 : ℝ) * (a * top * (1 - 1 / 10 ^ 99) ^ 2))
    (d1 : (num : ℝ) ≤ den * a * (1 - 1 / 10 ^ 99) ^ 2) (d2 : (den : ℝ) * b * (1 + 1 / 10 ^ 99) ^ 2 < num + 1)
    {cur p q r : ℝ} (hc : Rounded E cur) (hp : Rounded (cur * top) p) (hq : Rounded ((2 ^ 256 - 1) / p) q)
    (hr : Rounded (den * cur) r) : ⌊q⌋₊ = den ∧ ⌊r⌋₊ = num := by
  have hE : 0 < E := ha0.trans_le ha
  have ht' : (0 : ℝ) < top := by exact_mod_cast ht
  have hc0 := hc.pos hE
  have hp0 := hp.pos (mul_pos hc0 ht')
  have hQ : (0 : ℝ) < 2 ^ 256 - 1 := by norm_num
  have s1 : (0 : ℝ) < 1 - 1 / 10 ^ 99 := by norm_num
  have s2 : (0 : ℝ) < 1 + 1 / 10 ^ 99 := by norm_num
  have cl : a * (1 - 1 / 10 ^ 99) ≤ cur := (mul_le_mul_of_nonneg_right ha s1.le).trans (hc.lower hE.le)
  have cu : cur ≤ b * (1 + 1 / 10 ^ 99) := (hc.upper hE.le).trans (mul_le_mul_of_nonneg_right hb s2.le)
  have pl : a * top * (1 - 1 / 10 ^ 99) ^ 2 ≤ p := by
    refine le_trans ?_ (hp.lower (mul_pos hc0 ht').le)
    calc a * top * (1 - 1 / 10 ^ 99) ^ 2 = a * (1 - 1 / 10 ^ 99) * top * (1 - 1 / 10 ^ 99) := by ring
      _ ≤ _ := mul_le_mul_of_nonneg_right (mul_le_mul_of_nonneg_right cl ht'.le) s1.le
  have pu : p ≤ b * top * (1 + 1 / 10 ^ 99) ^ 2 := by
    refine (hp.upper (mul_pos hc0 ht').le).trans ?_
    calc cur * top * (1 + 1 / 10 ^ 99) ≤ b * (1 + 1 / 10 ^ 99) * top * (1 + 1 / 10 ^ 99) :=
          mul_le_mul_of_nonneg_right (mul_le_mul_of_nonneg_right cu ht'.le) s2.le
      _ = _ := by ring
  have hd0 : (0 : ℝ) ≤ den := Nat.cast_nonneg _
  constructor
  · apply floor_of
    · refine le_trans ?_ (hq.lower (div_pos hQ hp0).le)
      rw [div_mul_eq_mul_div, le_div_iff₀ hp0]
      exact (mul_le_mul_of_nonneg_left pu hd0).trans c1
    · refine lt_of_le_of_lt (hq.upper (div_pos hQ hp0).le) ?_
      rw [div_mul_eq_mul_div, div_lt_iff₀ hp0]
      exact c2.trans_le (mul_le_mul_of_nonneg_left pl (by linarith))
  · apply floor_of
    · refine le_trans d1 (le_trans ?_ (hr.lower (mul_nonneg hd0 hc0.le)))
      calc den * a * (1 - 1 / 10 ^ 99) ^ 2 = den * (a * (1 - 1 / 10 ^ 99)) * (1 - 1 / 10 ^ 99) := by ring
        _ ≤ _ := mul_le_mul_of_nonneg_right (mul_le_mul_of_nonneg_left cl hd0) s1.le
    · refine lt_of_le_of_lt ((hr.upper (mul_nonneg hd0 hc0.le)).trans ?_) d2
      calc den * cur * (1 + 1 / 10 ^ 99) ≤ den * (b * (1 + 1 / 10 ^ 99)) * (1 + 1 / 10 ^ 99) :=
            mul_le_mul_of_nonneg_right (mul_le_mul_of_nonneg_left cu hd0) s2.le
        _ = _ := by ring

/-- One round of the loop. -/
theorem expHiRounds_iff {n top : Nat} (a b : ℝ) (num den : Nat) (ha0 : 0 < a)
    (ha : a ≤ Real.exp (2 ^ ((n : ℤ) + EXP_MAX_HI_TERM_VAL - EXP_NUM_OF_HI_TERMS)))
    (hb : Real.exp (2 ^ ((n : ℤ) + EXP_MAX_HI_TERM_VAL - EXP_NUM_OF_HI_TERMS)) ≤ b) (ht : 0 < top) (hn : n < 8)
    (c1 : (den : ℝ) * (b * top * (1 + 1 / 10 ^ 99) ^ 2) ≤ (2 ^ 256 - 1) * (1 - 1 / 10 ^ 99))
    (c2 : (2 ^ 256 - 1) * (1 + 1 / 10 ^ 99) < (den + 1 : ℝ) * (a * top * (1 - 1 / 10 ^ 99) ^ 2))
    (d1 : (num : ℝ) ≤ den * a * (1 - 1 / 10 ^ 99) ^ 2) (d2 : (den : ℝ) * b * (1 + 1 / 10 ^ 99) ^ 2 < num + 1)
    (ts : List (Nat × Nat × Nat)) :
    ExpHiRounds n top ts ↔ ∃ rest, ts = ((FIXED_1 <<< (n + EXP_MAX_HI_TERM_VAL)) >>> EXP_NUM_OF_HI_TERMS, num, den) :: rest ∧
      ExpHiRounds (n + 1) (top * num / den) rest := by
  constructor
  · intro h
    cases h with
    | done => exact absurd hn (by decide)
    | @round _ _ num' den' rest cur p q r _ h1 h2 h3 h4 h5 h6 h7 =>
      rw [Q_real] at h3
      have e1 : ∀ r', Rounded (den * cur) r' → ⌊q⌋₊ = den ∧ ⌊r'⌋₊ = num := fun r' hr' => expRound ha0 ha hb ht c1 c2 d1 d2 h1 h2 h3 hr'
      obtain rfl : den' = den := h4.trans (e1 _ (.self _)).1
      obtain rfl : num' = num := h6.trans (e1 _ h5).2
      exact ⟨rest, rfl, h7⟩
  · rintro ⟨rest, rfl, h⟩
    have e := expRound ha0 ha hb ht c1 c2 d1 d2 (.self _) (.self _) (.self _) (.self _)
    refine .round hn (.self _) (.self _) (.self _) ?_ (.self _) e.2.symm h
    rw [Q_real]; exact e.1.symm

/-! ### Bounds of the exponential -/

theorem square_bounds {x : ℝ} {a b a' b' : Nat} (h : (a : ℝ) / 2 ^ 220 ≤ exp x ∧ exp x ≤ (b : ℝ) / 2 ^ 220)
    (h1 : a' * 2 ^ 220 ≤ a * a) (h2 : b * b ≤ b' * 2 ^ 220) :
    (a' : ℝ) / 2 ^ 220 ≤ exp (2 * x) ∧ exp (2 * x) ≤ (b' : ℝ) / 2 ^ 220 := by
  have e : exp (2 * x) = exp x * exp x := by rw [two_mul, exp_add]
  rw [e]
  have k1 : (a' : ℝ) * 2 ^ 220 ≤ a * a := by exact_mod_cast h1
  have k2 : (b : ℝ) * b ≤ b' * 2 ^ 220 := by exact_mod_cast h2
  have hc : (0 : ℝ) < 2 ^ 220 := by positivity
  generalize (2 : ℝ) ^ 220 = c at *
  constructor
  · refine le_trans ?_ (mul_le_mul h.1 h.1 (by positivity) (exp_pos x).le)
    rw [div_mul_div_comm, div_le_div_iff₀ hc (by positivity)]
    nlinarith
  · refine (mul_le_mul h.2 h.2 (exp_pos x).le (by positivity)).trans ?_
    rw [div_mul_div_comm, div_le_div_iff₀ (by positivity) hc]
    nlinarith

theorem bounds_0 : ((1909351366290367958684956994937056958748976146696455256949564814878 : Nat) : ℝ) / 2 ^ 220 ≤ exp (1 / 8) ∧ exp (1 / 8) ≤ ((1909351366290367958684956994937056958748976146696455256949564814880 : Nat) : ℝ) / 2 ^ 220 :=
  ⟨Formula.expEighth_le, Formula.expEighth_ge⟩
theorem bounds_1 : ((2163578547072961720526244893234849763737520328110111766988239136974 : Nat) : ℝ) / 2 ^ 220 ≤ exp (1 / 4) ∧ exp (1 / 4) ≤ ((2163578547072961720526244893234849763737520328110111766988239136979 : Nat) : ℝ) / 2 ^ 220 := by
  have := square_bounds (a' := 2163578547072961720526244893234849763737520328110111766988239136974) (b' := 2163578547072961720526244893234849763737520328110111766988239136979) bounds_0 (by decide +kernel) (by decide +kernel)
  rwa [show (2 : ℝ) * (1 / 8) = 1 / 4 by norm_num] at this
theorem bounds_2 : ((2778089845442017976424161053877464246176214613421687313684966457286 : Nat) : ℝ) / 2 ^ 220 ≤ exp (1 / 2) ∧ exp (1 / 2) ≤ ((2778089845442017976424161053877464246176214613421687313684966457300 : Nat) : ℝ) / 2 ^ 220 := by
  have := square_bounds (a' := 2778089845442017976424161053877464246176214613421687313684966457286) (b' := 2778089845442017976424161053877464246176214613421687313684966457300) bounds_1 (by decide +kernel) (by decide +kernel)
  rwa [show (2 : ℝ) * (1 / 4) = 1 / 2 by norm_num] at this
theorem bounds_3 : ((4580295820096286484721247603718807334092548254984892556814453329286 : Nat) : ℝ) / 2 ^ 220 ≤ exp (1) ∧ exp (1) ≤ ((4580295820096286484721247603718807334092548254984892556814453329333 : Nat) : ℝ) / 2 ^ 220 := by
  have := square_bounds (a' := 4580295820096286484721247603718807334092548254984892556814453329286) (b' := 4580295820096286484721247603718807334092548254984892556814453329333) bounds_2 (by decide +kernel) (by decide +kernel)
  rwa [show (2 : ℝ) * (1 / 2) = 1 by norm_num] at this
theorem bounds_4 : ((12450534896734655734455607757753228812293118887628573831706692122463 : Nat) : ℝ) / 2 ^ 220 ≤ exp (2) ∧ exp (2) ≤ ((12450534896734655734455607757753228812293118887628573831706692122720 : Nat) : ℝ) / 2 ^ 220 := by
  have := square_bounds (a' := 12450534896734655734455607757753228812293118887628573831706692122463) (b' := 12450534896734655734455607757753228812293118887628573831706692122720) bounds_3 (by decide +kernel) (by decide +kernel)
  rwa [show (2 : ℝ) * (1) = 2 by norm_num] at this
theorem bounds_5 : ((91997700813666101373396351269815649074601411601347416251640672608890 : Nat) : ℝ) / 2 ^ 220 ≤ exp (4) ∧ exp (4) ≤ ((91997700813666101373396351269815649074601411601347416251640672612689 : Nat) : ℝ) / 2 ^ 220 := by
  have := square_bounds (a' := 91997700813666101373396351269815649074601411601347416251640672608890) (b' := 91997700813666101373396351269815649074601411601347416251640672612689) bounds_4 (by decide +kernel) (by decide +kernel)
  rwa [show (2 : ℝ) * (2) = 4 by norm_num] at this
theorem bounds_6 : ((5022904271728857643104508166818268131963061313862470068108653398404029 : Nat) : ℝ) / 2 ^ 220 ≤ exp (8) ∧ exp (8) ≤ ((5022904271728857643104508166818268131963061313862470068108653398818866 : Nat) : ℝ) / 2 ^ 220 := by
  have := square_bounds (a' := 5022904271728857643104508166818268131963061313862470068108653398404029) (b' := 5022904271728857643104508166818268131963061313862470068108653398818866) bounds_5 (by decide +kernel) (by decide +kernel)
  rwa [show (2 : ℝ) * (4) = 8 by norm_num] at this
theorem bounds_7 : ((14973066606956153619059843253787847960637830462023994700585405288696085966 : Nat) : ℝ) / 2 ^ 220 ≤ exp (16) ∧ exp (16) ≤ ((14973066606956153619059843253787847960637830462023994700585405291169309303 : Nat) : ℝ) / 2 ^ 220 := by
  have := square_bounds (a' := 14973066606956153619059843253787847960637830462023994700585405288696085966) (b' := 14973066606956153619059843253787847960637830462023994700585405291169309303) bounds_6 (by decide +kernel) (by decide +kernel)
  rwa [show (2 : ℝ) * (8) = 16 by norm_num] at this

theorem exponent_eq (n : Nat) : (2 : ℝ) ^ ((n : ℤ) + EXP_MAX_HI_TERM_VAL - EXP_NUM_OF_HI_TERMS) = 2 ^ n / 8 := by
  rw [show ((n : ℤ) + EXP_MAX_HI_TERM_VAL - EXP_NUM_OF_HI_TERMS) = (n : ℤ) - (3 : ℕ) by
    unfold EXP_MAX_HI_TERM_VAL EXP_NUM_OF_HI_TERMS; push_cast; ring, zpow_sub₀ (by norm_num), zpow_natCast, zpow_natCast]
  norm_num

theorem round_0 (ts : List (Nat × Nat × Nat)) : ExpHiRounds 0 192795218841189805222451540510555621024 ts ↔
    ∃ rest, ts = (21267647932558653966460912964485513216, 600596269623765960634066700837880239609, 530024347646835984032474664511850276726) :: rest ∧ ExpHiRounds 1 218465603988574474844591417643679820197 rest := by
  have hx : exp (2 ^ (((0 : Nat) : ℤ) + EXP_MAX_HI_TERM_VAL - EXP_NUM_OF_HI_TERMS)) = exp (1 / 8) := by
    rw [exponent_eq]; norm_num
  rw [expHiRounds_iff (n := 0) (top := 192795218841189805222451540510555621024) ((1909351366290367958684956994937056958748976146696455256949564814878 : Nat) / 2 ^ 220) ((1909351366290367958684956994937056958748976146696455256949564814880 : Nat) / 2 ^ 220) 600596269623765960634066700837880239609 530024347646835984032474664511850276726 (by norm_num)
    (hx ▸ bounds_0.1) (hx ▸ bounds_0.2) (by norm_num) (by norm_num) (by norm_num) (by norm_num) (by norm_num) (by norm_num) ts]
  rw [show (FIXED_1 <<< (0 + EXP_MAX_HI_TERM_VAL)) >>> EXP_NUM_OF_HI_TERMS = 21267647932558653966460912964485513216 by decide +kernel,
    show 192795218841189805222451540510555621024 * 600596269623765960634066700837880239609 / 530024347646835984032474664511850276726 = 218465603988574474844591417643679820197 by decide +kernel]

theorem round_1 (ts : List (Nat × Nat × Nat)) : ExpHiRounds 1 218465603988574474844591417643679820197 ts ↔
    ∃ rest, ts = (42535295865117307932921825928971026432, 530024347646835984032474664511850276728, 412783376994266390547521411024565284564) :: rest ∧ ExpHiRounds 2 280515388193368458015406427511040113877 rest := by
  have hx : exp (2 ^ (((1 : Nat) : ℤ) + EXP_MAX_HI_TERM_VAL - EXP_NUM_OF_HI_TERMS)) = exp (1 / 4) := by
    rw [exponent_eq]; norm_num
  rw [expHiRounds_iff (n := 1) (top := 218465603988574474844591417643679820197) ((2163578547072961720526244893234849763737520328110111766988239136974 : Nat) / 2 ^ 220) ((2163578547072961720526244893234849763737520328110111766988239136979 : Nat) / 2 ^ 220) 530024347646835984032474664511850276728 412783376994266390547521411024565284564 (by norm_num)
    (hx ▸ bounds_1.1) (hx ▸ bounds_1.2) (by norm_num) (by norm_num) (by norm_num) (by norm_num) (by norm_num) (by norm_num) ts]
  rw [show (FIXED_1 <<< (1 + EXP_MAX_HI_TERM_VAL)) >>> EXP_NUM_OF_HI_TERMS = 42535295865117307932921825928971026432 by decide +kernel,
    show 218465603988574474844591417643679820197 * 530024347646835984032474664511850276728 / 412783376994266390547521411024565284564 = 280515388193368458015406427511040113877 by decide +kernel]

theorem round_2 (ts : List (Nat × Nat × Nat)) : ExpHiRounds 2 280515388193368458015406427511040113877 ts ↔
    ∃ rest, ts = (85070591730234615865843651857942052864, 412783376994266390547521411024565284565, 250365773966741064234501452596301656607) :: rest ∧ ExpHiRounds 3 462491687273110168575455517921668397532 rest := by
  have hx : exp (2 ^ (((2 : Nat) : ℤ) + EXP_MAX_HI_TERM_VAL - EXP_NUM_OF_HI_TERMS)) = exp (1 / 2) := by
    rw [exponent_eq]; norm_num
  rw [expHiRounds_iff (n := 2) (top := 280515388193368458015406427511040113877) ((2778089845442017976424161053877464246176214613421687313684966457286 : Nat) / 2 ^ 220) ((2778089845442017976424161053877464246176214613421687313684966457300 : Nat) / 2 ^ 220) 412783376994266390547521411024565284565 250365773966741064234501452596301656607 (by norm_num)
    (hx ▸ bounds_2.1) (hx ▸ bounds_2.2) (by norm_num) (by norm_num) (by norm_num) (by norm_num) (by norm_num) (by norm_num) ts]
  rw [show (FIXED_1 <<< (2 + EXP_MAX_HI_TERM_VAL)) >>> EXP_NUM_OF_HI_TERMS = 85070591730234615865843651857942052864 by decide +kernel,
    show 280515388193368458015406427511040113877 * 412783376994266390547521411024565284565 / 250365773966741064234501452596301656607 = 462491687273110168575455517921668397532 by decide +kernel]

theorem round_3 (ts : List (Nat × Nat × Nat)) : ExpHiRounds 3 462491687273110168575455517921668397532 ts ↔
    ∃ rest, ts = (170141183460469231731687303715884105728, 250365773966741064234501452596301656606, 92104421015340344839251721785254237641) :: rest ∧ ExpHiRounds 4 1257182749327858849717138708232664348471 rest := by
  have hx : exp (2 ^ (((3 : Nat) : ℤ) + EXP_MAX_HI_TERM_VAL - EXP_NUM_OF_HI_TERMS)) = exp (1) := by
    rw [exponent_eq]; norm_num
  rw [expHiRounds_iff (n := 3) (top := 462491687273110168575455517921668397532) ((4580295820096286484721247603718807334092548254984892556814453329286 : Nat) / 2 ^ 220) ((4580295820096286484721247603718807334092548254984892556814453329333 : Nat) / 2 ^ 220) 250365773966741064234501452596301656606 92104421015340344839251721785254237641 (by norm_num)
    (hx ▸ bounds_3.1) (hx ▸ bounds_3.2) (by norm_num) (by norm_num) (by norm_num) (by norm_num) (by norm_num) (by norm_num) ts]
  rw [show (FIXED_1 <<< (3 + EXP_MAX_HI_TERM_VAL)) >>> EXP_NUM_OF_HI_TERMS = 170141183460469231731687303715884105728 by decide +kernel,
    show 462491687273110168575455517921668397532 * 250365773966741064234501452596301656606 / 92104421015340344839251721785254237641 = 1257182749327858849717138708232664348471 by decide +kernel]

theorem round_4 (ts : List (Nat × Nat × Nat)) : ExpHiRounds 4 1257182749327858849717138708232664348471 ts ↔
    ∃ rest, ts = (340282366920938463463374607431768211456, 92104421015340344839251721785254237637, 12464977905455307901915658421775307242) :: rest ∧ ExpHiRounds 5 9289393861391418246117834711497950456849 rest := by
  have hx : exp (2 ^ (((4 : Nat) : ℤ) + EXP_MAX_HI_TERM_VAL - EXP_NUM_OF_HI_TERMS)) = exp (2) := by
    rw [exponent_eq]; norm_num
  rw [expHiRounds_iff (n := 4) (top := 1257182749327858849717138708232664348471) ((12450534896734655734455607757753228812293118887628573831706692122463 : Nat) / 2 ^ 220) ((12450534896734655734455607757753228812293118887628573831706692122720 : Nat) / 2 ^ 220) 92104421015340344839251721785254237637 12464977905455307901915658421775307242 (by norm_num)
    (hx ▸ bounds_4.1) (hx ▸ bounds_4.2) (by norm_num) (by norm_num) (by norm_num) (by norm_num) (by norm_num) (by norm_num) ts]
  rw [show (FIXED_1 <<< (4 + EXP_MAX_HI_TERM_VAL)) >>> EXP_NUM_OF_HI_TERMS = 340282366920938463463374607431768211456 by decide +kernel,
    show 1257182749327858849717138708232664348471 * 92104421015340344839251721785254237637 / 12464977905455307901915658421775307242 = 9289393861391418246117834711497950456849 by decide +kernel]

theorem round_5 (ts : List (Nat × Nat × Nat)) : ExpHiRounds 5 9289393861391418246117834711497950456849 ts ↔
    ∃ rest, ts = (680564733841876926926749214863536422912, 12464977905455307901915658421775307223, 228304034072369565894155946646425149) :: rest ∧ ExpHiRounds 6 507183719761217753146965477081398260489111 rest := by
  have hx : exp (2 ^ (((5 : Nat) : ℤ) + EXP_MAX_HI_TERM_VAL - EXP_NUM_OF_HI_TERMS)) = exp (4) := by
    rw [exponent_eq]; norm_num
  rw [expHiRounds_iff (n := 5) (top := 9289393861391418246117834711497950456849) ((91997700813666101373396351269815649074601411601347416251640672608890 : Nat) / 2 ^ 220) ((91997700813666101373396351269815649074601411601347416251640672612689 : Nat) / 2 ^ 220) 12464977905455307901915658421775307223 228304034072369565894155946646425149 (by norm_num)
    (hx ▸ bounds_5.1) (hx ▸ bounds_5.2) (by norm_num) (by norm_num) (by norm_num) (by norm_num) (by norm_num) (by norm_num) ts]
  rw [show (FIXED_1 <<< (5 + EXP_MAX_HI_TERM_VAL)) >>> EXP_NUM_OF_HI_TERMS = 680564733841876926926749214863536422912 by decide +kernel,
    show 9289393861391418246117834711497950456849 * 12464977905455307901915658421775307223 / 228304034072369565894155946646425149 = 507183719761217753146965477081398260489111 by decide +kernel]

theorem round_6 (ts : List (Nat × Nat × Nat)) : ExpHiRounds 6 507183719761217753146965477081398260489111 ts ↔
    ∃ rest, ts = (1361129467683753853853498429727072845824, 228304034072369565894155946646422279, 76587471230661696290698490699025) :: rest ∧ ExpHiRounds 7 1511893360319735695693314239681609979430556858 rest := by
  have hx : exp (2 ^ (((6 : Nat) : ℤ) + EXP_MAX_HI_TERM_VAL - EXP_NUM_OF_HI_TERMS)) = exp (8) := by
    rw [exponent_eq]; norm_num
  rw [expHiRounds_iff (n := 6) (top := 507183719761217753146965477081398260489111) ((5022904271728857643104508166818268131963061313862470068108653398404029 : Nat) / 2 ^ 220) ((5022904271728857643104508166818268131963061313862470068108653398818866 : Nat) / 2 ^ 220) 228304034072369565894155946646422279 76587471230661696290698490699025 (by norm_num)
    (hx ▸ bounds_6.1) (hx ▸ bounds_6.2) (by norm_num) (by norm_num) (by norm_num) (by norm_num) (by norm_num) (by norm_num) ts]
  rw [show (FIXED_1 <<< (6 + EXP_MAX_HI_TERM_VAL)) >>> EXP_NUM_OF_HI_TERMS = 1361129467683753853853498429727072845824 by decide +kernel,
    show 507183719761217753146965477081398260489111 * 228304034072369565894155946646422279 / 76587471230661696290698490699025 = 1511893360319735695693314239681609979430556858 by decide +kernel]

theorem round_7 (ts : List (Nat × Nat × Nat)) : ExpHiRounds 7 1511893360319735695693314239681609979430556858 ts ↔
    ∃ rest, ts = (2722258935367507707706996859454145691648, 76587471230661696290698488162639, 8618784456248744867423872) :: rest ∧ ExpHiRounds 8 13434851495023203196529970856949343553455931842259717 rest := by
  have hx : exp (2 ^ (((7 : Nat) : ℤ) + EXP_MAX_HI_TERM_VAL - EXP_NUM_OF_HI_TERMS)) = exp (16) := by
    rw [exponent_eq]; norm_num
  rw [expHiRounds_iff (n := 7) (top := 1511893360319735695693314239681609979430556858) ((14973066606956153619059843253787847960637830462023994700585405288696085966 : Nat) / 2 ^ 220) ((14973066606956153619059843253787847960637830462023994700585405291169309303 : Nat) / 2 ^ 220) 76587471230661696290698488162639 8618784456248744867423872 (by norm_num)
    (hx ▸ bounds_7.1) (hx ▸ bounds_7.2) (by norm_num) (by norm_num) (by norm_num) (by norm_num) (by norm_num) (by norm_num) ts]
  rw [show (FIXED_1 <<< (7 + EXP_MAX_HI_TERM_VAL)) >>> EXP_NUM_OF_HI_TERMS = 2722258935367507707706996859454145691648 by decide +kernel,
    show 1511893360319735695693314239681609979430556858 * 76587471230661696290698488162639 / 8618784456248744867423872 = 13434851495023203196529970856949343553455931842259717 by decide +kernel]

theorem rounds_done (top : Nat) (ts : List (Nat × Nat × Nat)) : ExpHiRounds 8 top ts ↔ ts = [] := by
  constructor
  · intro h
    cases h with
    | done => rfl
    | round h => exact absurd h (by decide)
  · rintro rfl; exact .done top

/-- The first `top`. -/
theorem first_top {cur p : ℝ} (h1 : Rounded (exp (1 / 8)) cur) (h2 : Rounded (cur * FIXED_1) p) : ⌊p⌋₊ - 1 = 192795218841189805222451540510555621024 := by
  have := floor_of (y := p) (n := 192795218841189805222451540510555621025) ?_ ?_
  · rw [this]
  all_goals
    rw [F_real] at h2
    have c0 := h1.pos (exp_pos _)
    have l1 := h1.lower (exp_pos _).le
    have u1 := h1.upper (exp_pos _).le
    have l2 := h2.lower (by positivity)
    have u2 := h2.upper (by positivity)
    have b := bounds_0
    norm_num at *
    linarith

theorem expHiTerms_iff (ts : List (Nat × Nat × Nat)) : ExpHiTerms ts ↔ ts = expTable := by
  have hx : exp (2 ^ ((0 : ℤ) + EXP_MAX_HI_TERM_VAL - EXP_NUM_OF_HI_TERMS)) = exp (1 / 8) := by
    have := exponent_eq 0
    rw [Nat.cast_zero] at this
    rw [this]; norm_num
  unfold ExpHiTerms
  rw [hx]
  have key : ExpHiRounds 0 192795218841189805222451540510555621024 ts ↔ ts = expTable := by
    simp only [round_0, round_1, round_2, round_3, round_4, round_5, round_6, round_7, rounds_done, expTable]
    constructor
    · rintro ⟨_, rfl, _, rfl, _, rfl, _, rfl, _, rfl, _, rfl, _, rfl, _, rfl, rfl⟩; rfl
    · rintro rfl; exact ⟨_, rfl, _, rfl, _, rfl, _, rfl, _, rfl, _, rfl, _, rfl, _, rfl, rfl⟩
  constructor
  · rintro ⟨cur, p, h1, h2, h3⟩
    rw [first_top h1 h2] at h3
    exact key.mp h3
  · intro h
    refine ⟨_, _, .self _, .self _, ?_⟩
    rw [first_top (.self _) (.self _)]
    exact key.mpr h

end Verif.Generator

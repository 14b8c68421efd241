import Verif.Proofs.Source.Utils
/-!
The methods of contracts/formula/fixed_map_formula.py.
-/
set_option autoImplicit false
namespace Verif.Src
open Formula
attribute [local irreducible] glob find findNext function const mroOf ifaceHas fields cfields Verif.ZERO
attribute [local irreducible] Formula.ONE Formula.MAX_WEIGHT Formula.MIN_PRECISION Formula.MAX_PRECISION Formula.FIXED_1 Formula.FIXED_2
  Formula.MAX_NUM Formula.LN2_NUMERATOR Formula.LN2_DENOMINATOR Formula.OPT_LOG_MAX_VAL Formula.OPT_EXP_MAX_VAL
  generalExpDen optExpDen optExpMod

variable (cx : Cx) (k : Invoke) {n : Nat} (w : World)

theorem fixed1_pos : 0 < FIXED_1 := by unfold FIXED_1; decide

/-! ### `_general_exp` -/

/-- One step of `_general_exp`. -/
def gStep (c : Int) (t : Stmt) : Stmt :=
  .assign (.name "xi") (.op .shr (.op .mul (.name "xi") (.name "x")) (.name "precision")) ;;
  .aug (.name "res") .add (.op .mul (.name "xi") (.num c)) ;; t

theorem gStep_exec (c : Int) (t : Stmt) (x : Int) (p : Nat) (st : Int × Int) :
    execS cx k "FixedMapFormula" (gStep c t)
      [("self", .obj "FixedMapFormula"), ("x", .int x), ("precision", .int p), ("xi", .int st.1), ("res", .int st.2)] w =
    execS cx k "FixedMapFormula" t
      [("self", .obj "FixedMapFormula"), ("x", .int x), ("precision", .int p), ("xi", .int (generalExpStep x p st c).1),
       ("res", .int (generalExpStep x p st c).2)] w := by
  unfold gStep
  py_simp [generalExpStep]

theorem gSteps_exec (cs : List Int) (t : Stmt) (x : Int) (p : Nat) : ∀ st : Int × Int,
    execS cx k "FixedMapFormula" (cs.foldr gStep t)
      [("self", .obj "FixedMapFormula"), ("x", .int x), ("precision", .int p), ("xi", .int st.1), ("res", .int st.2)] w =
    execS cx k "FixedMapFormula" t
      [("self", .obj "FixedMapFormula"), ("x", .int x), ("precision", .int p), ("xi", .int (cs.foldl (generalExpStep x p) st).1),
       ("res", .int (cs.foldl (generalExpStep x p) st).2)] w := by
  induction cs with
  | nil => intro st; rfl
  | cons c cs ih => intro st; rw [List.foldr_cons, gStep_exec, ih]; rfl

theorem general_exp_body : tFixedMapFormula__general_exp.body =
    (.assign (.name "xi") (.name "x") ;; .assign (.name "res") (.num 0) ;; generalExpCoeffs.foldr gStep
    (.ret (.op .add (.op .add (.op .fdiv (.name "res") (.num generalExpDen)) (.name "x")) (.op .shl (.attr (.name "self") "_ONE") (.name "precision"))))) := by
  krefl
theorem general_exp_params : tFixedMapFormula__general_exp.params = [("x", none), ("precision", none)] := rfl

@[py] theorem inv_generalExp (h : 1 ≤ n) (x : Int) (p : Nat) :
    invoke cx n "FixedMapFormula" (some "FixedMapFormula") tFixedMapFormula__general_exp [.int x, .int p] w =
      some (.int (generalExp x p), w) := by
  rw [invoke_pos _ h, general_exp_body, general_exp_params]
  py_simp
  rw [gSteps_exec cx _ w _ _ _ _ (x, 0)]
  have : 0 < generalExpDen := by unfold generalExpDen; decide
  py_simp [fdiv_pos _ this]
  rfl

/-! ### `_optimal_log` -/

/-- One step of the first part. -/
def lhStep (e : Int × Int) (t : Stmt) : Stmt :=
  .ite (.cmp .ge (.name "x") (.num e.1))
      (.aug (.name "res") .add (.num e.2) ;;
      .assign (.name "x") (.op .fdiv (.op .mul (.name "x") (.attr (.name "self") "_FIXED_1")) (.num e.1)))
      .pass ;; t

theorem lhSteps_exec (es : List (Int × Int)) (t : Stmt) : (∀ e ∈ es, 0 < e.1) → ∀ st : Int × Int,
    execS cx k "FixedMapFormula" (es.foldr lhStep t) [("self", .obj "FixedMapFormula"), ("x", .int st.1), ("res", .int st.2)] w =
    execS cx k "FixedMapFormula" t
      [("self", .obj "FixedMapFormula"), ("x", .int (es.foldl optLogHiStep st).1), ("res", .int (es.foldl optLogHiStep st).2)] w := by
  induction es with
  | nil => intro _ st; rfl
  | cons e es ih =>
    intro hp st
    have he := hp e (.head _)
    rw [List.foldr_cons, List.foldl_cons, ← ih (fun e h => hp e (.tail _ h))]
    unfold lhStep
    py_simp [fdiv_pos _ he, optLogHiStep]
    split <;> rfl

/-- One step of the second part. -/
def llStep (e : Int × Int) (t : Stmt) : Stmt :=
  .aug (.name "res") .add (.op .fdiv (.op .mul (.name "z") (.op .sub (.num e.1) (.name "y"))) (.num e.2)) ;;
  .assign (.name "z") (.op .fdiv (.op .mul (.name "z") (.name "w")) (.attr (.name "self") "_FIXED_1")) ;; t

theorem llSteps_exec (es : List (Int × Int)) (t : Stmt) (x y u : Int) : (∀ e ∈ es, 0 < e.2) → ∀ st : Int × Int,
    execS cx k "FixedMapFormula" (es.foldr llStep t) [("self", .obj "FixedMapFormula"), ("x", .int x), ("res", .int st.2), ("z", .int st.1),
      ("y", .int y), ("w", .int u)] w =
    execS cx k "FixedMapFormula" t [("self", .obj "FixedMapFormula"), ("x", .int x), ("res", .int (es.foldl (optLogLoStep y u) st).2),
      ("z", .int (es.foldl (optLogLoStep y u) st).1), ("y", .int y), ("w", .int u)] w := by
  induction es with
  | nil => intro _ st; rfl
  | cons e es ih =>
    intro hp st
    have he := hp e (.head _)
    rw [List.foldr_cons, List.foldl_cons, ← ih (fun e h => hp e (.tail _ h))]
    unfold llStep
    py_simp [fdiv_pos _ he, fdiv_pos _ fixed1_pos, optLogLoStep]

theorem optimal_log_body : tFixedMapFormula__optimal_log.body =
    (.assign (.name "res") (.num 0) ;; optLogHi.foldr lhStep (
    .assign2 (.name "z") (.name "y") (.op .sub (.name "x") (.attr (.name "self") "_FIXED_1")) ;;
    .assign (.name "w") (.op .fdiv (.op .mul (.name "y") (.name "y")) (.attr (.name "self") "_FIXED_1")) ;;
    optLogLo.dropLast.foldr llStep (
    .aug (.name "res") .add (.op .fdiv (.op .mul (.name "z") (.op .sub (.num 0x88888888888888888888888888888888) (.name "y"))) (.num 0x800000000000000000000000000000000)) ;;
    .ret (.name "res")))) := by
  krefl
theorem optimal_log_params : tFixedMapFormula__optimal_log.params = [("x", none)] := rfl
theorem optLogLo_split : optLogLo = optLogLo.dropLast ++ [(0x88888888888888888888888888888888, 0x800000000000000000000000000000000)] := by
  krefl

@[py] theorem inv_optimalLog (h : 1 ≤ n) (x : Int) :
    invoke cx n "FixedMapFormula" (some "FixedMapFormula") tFixedMapFormula__optimal_log [.int x] w =
      some (.int (optimalLog x), w) := by
  rw [invoke_pos _ h, optimal_log_body, optimal_log_params]
  py_simp
  rw [lhSteps_exec cx _ w _ _ (by decide +kernel) (x, 0)]
  py_simp [fdiv_pos _ fixed1_pos]
  rw [llSteps_exec cx _ w _ _ _ _ _ (by decide +kernel) ((List.foldl optLogHiStep (x, 0) optLogHi).1 - FIXED_1, (List.foldl optLogHiStep (x, 0) optLogHi).2)]
  py_simp [fdiv_pos _ (show (0:Int) < 0x800000000000000000000000000000000 by decide)]
  unfold optimalLog
  have split : ∀ (g : Int × Int → Int × Int → Int × Int) (st : Int × Int), optLogLo.foldl g st =
      g (optLogLo.dropLast.foldl g st) (0x88888888888888888888888888888888, 0x800000000000000000000000000000000) := by
    intro g st
    conv => lhs; rw [optLogLo_split]
    rw [List.foldl_append]
    rfl
  simp only [split]
  rfl

/-! ### `_optimal_exp` -/

/-- One step of the first part. -/
def elStep (c : Int) (t : Stmt) : Stmt :=
  .assign (.name "z") (.op .fdiv (.op .mul (.name "z") (.name "y")) (.attr (.name "self") "_FIXED_1")) ;;
  .aug (.name "res") .add (.op .mul (.name "z") (.num c)) ;; t

theorem elSteps_exec (es : List Int) (t : Stmt) (x y : Int) : ∀ st : Int × Int,
    execS cx k "FixedMapFormula" (es.foldr elStep t) [("self", .obj "FixedMapFormula"), ("x", .int x), ("res", .int st.2), ("z", .int st.1),
      ("y", .int y)] w =
    execS cx k "FixedMapFormula" t [("self", .obj "FixedMapFormula"), ("x", .int x), ("res", .int (es.foldl (optExpLoStep y) st).2),
      ("z", .int (es.foldl (optExpLoStep y) st).1), ("y", .int y)] w := by
  induction es with
  | nil => intro st; rfl
  | cons e es ih =>
    intro st
    rw [List.foldr_cons, List.foldl_cons, ← ih]
    unfold elStep
    py_simp [fdiv_pos _ fixed1_pos, optExpLoStep]

theorem and_pow (m j : Nat) : m &&& 2 ^ j = (m.testBit j).toNat * 2 ^ j := by
  apply Nat.eq_of_testBit_eq
  intro i
  rw [Nat.testBit_and, Nat.testBit_two_pow]
  by_cases h : j = i
  · subst h; cases m.testBit j <;> simp
  · cases m.testBit j <;> simp [h, Nat.testBit_two_pow]

/-- A bit of a number. -/
theorem band_pow (x : Int) (j : Nat) : arith .band x (2 ^ j) = some (if x / 2 ^ j % 2 = 1 then 2 ^ j else 0) := by
  have e : ((2:Int) ^ j).toNat = 2 ^ j := by
    rw [show (2:Int) ^ j = ((2 ^ j : Nat) : Int) by simp, Int.toNat_natCast]
  have hq : (0:Int) < 2 ^ j := Int.pow_pos (by decide)
  simp only [arith, band]
  rw [if_pos (by omega), e, Nat.log2_two_pow, and_pow, Nat.testBit_eq_decide_div_mod_eq]
  have h2 : (2:Int) ^ (j + 1) = 2 ^ j * 2 := Int.pow_succ ..
  have h0 : 0 ≤ x % 2 ^ (j + 1) := Int.emod_nonneg _ (by omega)
  have key : (((x % 2 ^ (j + 1)).toNat / 2 ^ j % 2 : Nat) : Int) = x / 2 ^ j % 2 := by
    rw [Int.natCast_emod, Int.natCast_ediv, Int.toNat_of_nonneg h0]
    simp only [Int.natCast_pow, Int.cast_ofNat_Int]
    conv => rhs; rw [← Int.mul_ediv_add_emod x (2 ^ (j + 1)), h2, Int.mul_assoc, Int.add_comm, Int.add_mul_ediv_left _ _ (by omega),
      Int.add_mul_emod_self_left]
    rw [h2]
  by_cases hb : x / 2 ^ j % 2 = 1
  · rw [if_pos hb, decide_eq_true (by omega)]; simp
  · rw [if_neg hb, decide_eq_false (by omega)]; simp

/-- One step of the second part. -/
def ehStep (e : Int × Int × Int) (t : Stmt) : Stmt :=
  .ite (.cmp .ne (.op .band (.name "x") (.num e.1)) (.num 0))
    (.assign (.name "res") (.op .fdiv (.op .mul (.name "res") (.num e.2.1)) (.num e.2.2)))
    .pass ;; t

theorem ehSteps_exec (es : List (Int × Int × Int)) (t : Stmt) (x y z : Int) :
    (∀ e ∈ es, e.1 = 2 ^ e.1.toNat.log2 ∧ 0 < e.2.2) → ∀ r : Int,
    execS cx k "FixedMapFormula" (es.foldr ehStep t) [("self", .obj "FixedMapFormula"), ("x", .int x), ("res", .int r), ("z", .int z),
      ("y", .int y)] w =
    execS cx k "FixedMapFormula" t [("self", .obj "FixedMapFormula"), ("x", .int x), ("res", .int (es.foldl (optExpHiStep x) r)),
      ("z", .int z), ("y", .int y)] w := by
  induction es with
  | nil => intro _ r; rfl
  | cons e es ih =>
    intro hp r
    obtain ⟨h1, h2⟩ := hp e (.head _)
    rw [List.foldr_cons, List.foldl_cons, ← ih (fun e h => hp e (.tail _ h))]
    have hb : arith .band x e.1 = some (if x / e.1 % 2 = 1 then e.1 else 0) := by
      rw [h1]; exact band_pow x _
    have hpos : 0 < e.1 := by rw [h1]; exact Int.pow_pos (by decide)
    unfold ehStep optExpHiStep
    py_simp [fdiv_pos _ h2, hb]
    by_cases hc : x / e.1 % 2 = 1
    · simp only [if_pos hc]; rw [if_neg (by omega)]
    · simp only [if_neg hc]; rw [if_pos trivial]

theorem optimal_exp_body : tFixedMapFormula__optimal_exp.body =
    (.assign (.name "res") (.num 0) ;;
    .assign2 (.name "z") (.name "y") (.op .mod (.name "x") (.num optExpMod)) ;; optExpCoeffs.foldr elStep (
    .assign (.name "res") (.op .add (.op .add (.op .fdiv (.name "res") (.num optExpDen)) (.name "y")) (.attr (.name "self") "_FIXED_1")) ;;
    optExpHi.foldr ehStep (.ret (.name "res")))) := by
  krefl
theorem optimal_exp_params : tFixedMapFormula__optimal_exp.params = [("x", none)] := rfl

@[py] theorem inv_optimalExp (h : 1 ≤ n) (x : Int) :
    invoke cx n "FixedMapFormula" (some "FixedMapFormula") tFixedMapFormula__optimal_exp [.int x] w =
      some (.int (optimalExp x), w) := by
  rw [invoke_pos _ h, optimal_exp_body, optimal_exp_params]
  have h1 : 0 < optExpMod := by unfold optExpMod; decide
  have h2 : 0 < optExpDen := by unfold optExpDen; decide
  py_simp [mod_pos _ h1]
  rw [elSteps_exec cx _ w _ _ _ _ (x % optExpMod, 0)]
  py_simp [fdiv_pos _ h2]
  rw [ehSteps_exec cx _ w _ _ _ _ _ (by decide +kernel)]
  py_simp
  rfl

/-! ### `_floor_log2` -/

theorem shr_one (m : Nat) : arith .shr (m : Int) 1 = some (((m >>> 1 : Nat) : Nat) : Int) := by
  rw [show (1 : Int) = ((1 : Nat) : Int) from rfl, shr_nat]; rfl

/-- The body of the first loop. -/
def smallBody : Stmt := .aug (.name "n") .shr (.num 1) ;; .aug (.name "res") .add (.num 1)
/-- The condition of the first loop. -/
def smallCond : Expr := .cmp .gt (.name "n") (.num 1)

theorem smallLoop (here : String) : ∀ (j m r l : Nat), m < 2 ^ (j + 1) →
    ∃ m' : Nat, wloop cx k here smallCond smallBody (j + 1 + l)
      [("self", .obj "FixedMapFormula"), ("n", .int m), ("res", .int r)] w =
    some (.next [("self", .obj "FixedMapFormula"), ("n", .int m'), ("res", .int (smallLog2 j m r))], w) := by
  have stop : ∀ (m r l : Nat), m ≤ 1 → wloop cx k here smallCond smallBody (l + 1)
      [("self", .obj "FixedMapFormula"), ("n", .int m), ("res", .int r)] w =
      some (.next [("self", .obj "FixedMapFormula"), ("n", .int m), ("res", .int r)], w) := by
    intro m r l h
    rw [wloop_succ, smallCond]
    py_simp
    rw [if_neg (by omega)]
  have go : ∀ (m r l : Nat), 1 < m → wloop cx k here smallCond smallBody (l + 1)
      [("self", .obj "FixedMapFormula"), ("n", .int m), ("res", .int r)] w =
      wloop cx k here smallCond smallBody l
      [("self", .obj "FixedMapFormula"), ("n", .int (m >>> 1 : Nat)), ("res", .int (r + 1 : Nat))] w := by
    intro m r l h
    have e2 : (r : Int) + 1 = ((r + 1 : Nat) : Int) := by omega
    rw [wloop_succ, smallCond, smallBody]
    py_simp [shr_one, e2]
    rw [if_pos (by omega)]
  intro j
  induction j with
  | zero =>
    intro m r l h
    exact ⟨m, by rw [show 0 + 1 + l = l + 1 by omega, stop _ _ _ (by omega)]; rfl⟩
  | succ j ih =>
    intro m r l h
    by_cases hm : 1 < m
    · obtain ⟨m', h'⟩ := ih (m >>> 1) (r + 1) l (by rw [Nat.shiftRight_eq_div_pow]; omega)
      refine ⟨m', ?_⟩
      rw [show j + 1 + 1 + l = (j + 1 + l) + 1 by omega, go _ _ _ hm, h', smallLog2, if_pos hm]
    · refine ⟨m, ?_⟩
      rw [show j + 1 + 1 + l = (j + 1 + l) + 1 by omega, stop _ _ _ (by omega), smallLog2, if_neg hm]

/-- The variables of the second loop. -/
def bigEnv (st : Nat × Nat) (s : Nat) : Env :=
  [("self", .obj "FixedMapFormula"), ("n", .int st.1), ("res", .int st.2), ("s", .int s)]

/-- The body of the second loop. -/
def bigBody : Stmt :=
  .ite (.cmp .ge (.name "n") (.op .shl (.attr (.name "self") "_ONE") (.name "s")))
    (.aug (.name "n") .shr (.name "s") ;; .aug (.name "res") .bor (.name "s")) .pass ;; .aug (.name "s") .shr (.num 1)
/-- The condition of the second loop. -/
def bigCond : Expr := .cmp .gt (.name "s") (.num 0)

theorem bor_nat (a b : Nat) : arith .bor (a : Int) (b : Int) = some ((a ||| b : Nat) : Int) := by
  simp only [arith]
  rw [if_pos ⟨by omega, by omega⟩, Int.toNat_natCast, Int.toNat_natCast]

theorem shr_cast (a b : Nat) : ((a : Int) >>> b) = ((a >>> b : Nat) : Int) := rfl

theorem bigLoop_step (here : String) (st : Nat × Nat) (s l : Nat) (hs : 0 < s) :
    wloop cx k here bigCond bigBody (l + 1) (bigEnv st s) w = wloop cx k here bigCond bigBody l (bigEnv (bigLog2Step st s) (s >>> 1)) w := by
  have hone : ONE * 2 ^ s = ((2 ^ s : Nat) : Int) := by unfold ONE; simp
  unfold bigLog2Step
  rw [wloop_succ, bigCond, Nat.shiftLeft_eq, Nat.one_mul]
  rw [bigEnv, bigBody]
  py_simp [shr_one, bor_nat, shr_cast, hone]
  rw [if_pos (by omega)]
  by_cases hc : 2 ^ s ≤ st.1
  · rw [if_pos (by rw [ge_iff_le, Int.ofNat_le]; exact hc), if_pos hc]; rfl
  · rw [if_neg (by rw [ge_iff_le, Int.ofNat_le]; exact hc), if_neg hc]; rfl

theorem bigLoop_end (here : String) (st : Nat × Nat) (l : Nat) :
    wloop cx k here bigCond bigBody (l + 1) (bigEnv st 0) w = some (.next (bigEnv st 0), w) := by
  rw [wloop_succ, bigCond]
  unfold bigEnv
  py_simp
  rfl

theorem bigLoop (here : String) (m l : Nat) :
    wloop cx k here bigCond bigBody (l + 9) (bigEnv (m, 0) 128) w =
        some (.next (bigEnv ([128, 64, 32, 16, 8, 4, 2, 1].foldl bigLog2Step (m, 0)) 0), w) := by
  have s := bigLoop_step cx k w here
  simp only [List.foldl_cons, List.foldl_nil]
  rw [s _ 128 (l + 8) (by decide), show 128 >>> 1 = 64 from rfl, s _ 64 (l + 7) (by decide), show 64 >>> 1 = 32 from rfl,
    s _ 32 (l + 6) (by decide), show 32 >>> 1 = 16 from rfl, s _ 16 (l + 5) (by decide), show 16 >>> 1 = 8 from rfl,
    s _ 8 (l + 4) (by decide), show 8 >>> 1 = 4 from rfl, s _ 4 (l + 3) (by decide), show 4 >>> 1 = 2 from rfl,
    s _ 2 (l + 2) (by decide), show 2 >>> 1 = 1 from rfl, s _ 1 (l + 1) (by decide), show 1 >>> 1 = 0 from rfl,
    bigLoop_end]

theorem floor_log2_body : tFixedMapFormula__floor_log2.body =
    (.assign (.name "res") (.num 0) ;;
    .ite (.cmp .lt (.name "n") (.num 256))
      (.while_ smallCond smallBody)
      (.assign (.name "s") (.num 128) ;; .while_ bigCond bigBody) ;;
    .ret (.name "res")) := by krefl
theorem floor_log2_params : tFixedMapFormula__floor_log2.params = [("n", none)] := rfl

@[py] theorem inv_floorLog2 (h : 1 ≤ n) (hL : 9 ≤ cx.loops) (m : Nat) :
    invoke cx n "FixedMapFormula" (some "FixedMapFormula") tFixedMapFormula__floor_log2 [.int m] w =
      some (.int (floorLog2 m), w) := by
  rw [invoke_pos _ h, floor_log2_body, floor_log2_params]
  obtain ⟨l, hl⟩ : ∃ l, cx.loops = l + 9 := ⟨cx.loops - 9, by omega⟩
  py_simp [hl]
  unfold floorLog2
  by_cases hm : m < 256
  · rw [if_pos (by omega), if_pos hm]
    obtain ⟨m', h'⟩ := smallLoop cx (invoke cx (n - 1)) w "FixedMapFormula" 8 m 0 l (by omega)
    rw [show l + 9 = 8 + 1 + l by omega]
    rw [show (0 : Int) = ((0 : Nat) : Int) from rfl, h']
    py_simp
  · rw [if_neg (by omega), if_neg hm]
    have key := bigLoop cx (invoke cx (n - 1)) w "FixedMapFormula" m l
    rw [bigEnv] at key
    simp only [show ((0:Nat):Int) = 0 from rfl, show ((128:Nat):Int) = 128 from rfl] at key
    rw [key]
    unfold bigEnv
    py_simp

/-! ### `_find_position_in_max_exp_array` -/

theorem maxExpArray_eq : maxExpArray = maxExpTable := by krefl

/-- What the search reads. -/
theorem expArray_get {i : Nat} (h : 32 ≤ i) (h' : i ≤ 127) : pyIndex expArray (i : Int) = some (.int (maxExp i)) := by
  have hl : maxExpArray.length = 96 := by decide +kernel
  unfold pyIndex expArray
  simp only
  rw [if_neg (show ¬ (i : Int) < 0 by omega), if_pos (show 0 ≤ (i : Int) by omega), Int.toNat_natCast,
    List.getElem?_append_right (by simpa using h), List.length_replicate, List.getElem?_map, List.getElem?_eq_getElem (by omega)]
  unfold maxExp
  rw [← maxExpArray_eq, List.getD_eq_getElem?_getD, List.getElem?_eq_getElem (by omega)]
  rfl

/-- The body of the search. -/
def findBody : Stmt :=
  .assign (.name "mid") (.op .fdiv (.op .add (.name "lo") (.name "hi")) (.num 2)) ;;
  .ite (.cmp .ge (.index (.attr (.name "self") "_max_exp_array") (.name "mid")) (.name "x"))
    (.assign (.name "lo") (.name "mid"))
    (.assign (.name "hi") (.name "mid"))
/-- The condition of the search. -/
def findCond : Expr := .cmp .lt (.op .add (.name "lo") (.num 1)) (.name "hi")

/-- The variables of the search. -/
def findEnv (x : Int) (lo hi : Nat) (t : Env) : Env :=
  ("self", .obj "FixedMapFormula") :: ("x", .int x) :: ("lo", .int lo) :: ("hi", .int hi) :: t

theorem findLoop_exec (here : String) (x : Int) : ∀ (j lo hi : Nat) (l : Nat) (t : Env), 32 ≤ lo → lo ≤ hi → hi ≤ 127 → hi ≤ lo + j → 
    ∃ t', wloop cx k here findCond findBody (l + j + 1) (findEnv x lo hi t) w =
      some (.next (findEnv x (findLoop x j lo hi).1 (findLoop x j lo hi).2 t'), w) ∧
      32 ≤ (findLoop x j lo hi).1 ∧ (findLoop x j lo hi).1 ≤ 127 ∧ 32 ≤ (findLoop x j lo hi).2 ∧ (findLoop x j lo hi).2 ≤ 127 := by
  have stop : ∀ (lo hi l : Nat) (t : Env), ¬ lo + 1 < hi → wloop cx k here findCond findBody (l + 1) (findEnv x lo hi t) w =
      some (.next (findEnv x lo hi t), w) := by
    intro lo hi l t h
    rw [wloop_succ, findCond]
    unfold findEnv
    py_simp
    rw [if_neg (by omega)]
  have go : ∀ (lo hi l : Nat) (t : Env), lo + 1 < hi → 32 ≤ lo → hi ≤ 127 → wloop cx k here findCond findBody (l + 1) (findEnv x lo hi t) w =
      if maxExp ((lo + hi) / 2) ≥ x then wloop cx k here findCond findBody l (findEnv x ((lo + hi) / 2) hi (Env.set t "mid" (.int ((lo + hi) / 2 : Nat)))) w
      else wloop cx k here findCond findBody l (findEnv x lo ((lo + hi) / 2) (Env.set t "mid" (.int ((lo + hi) / 2 : Nat)))) w := by
    intro lo hi l t h h32 h127
    have e : ((lo : Int) + hi) / 2 = (((lo + hi) / 2 : Nat) : Int) := by omega
    have hg : Env.get (Env.set t "mid" (.int ((lo + hi) / 2 : Nat))) "mid" = some (.int ((lo + hi) / 2 : Nat)) := by
      induction t with
      | nil => rfl
      | cons a t ih =>
        obtain ⟨y, v⟩ := a
        by_cases hy : y = "mid"
        · subst hy; rw [set_hit, get_hit]
        · rw [set_miss _ _ _ hy, get_miss _ _ hy, ih]
    rw [wloop_succ, findCond, findBody]
    unfold findEnv
    py_simp [fdiv_pos _ (show (0:Int) < 2 by decide), e, hg, expArray_get (i := (lo + hi) / 2) (by omega) (by omega)]
    rw [if_pos (by omega)]
  intro j
  induction j with
  | zero =>
    intro lo hi l t h1 h2 h3 h4
    exact ⟨t, stop _ _ _ _ (by omega), by simp only [findLoop]; omega⟩
  | succ j ih =>
    intro lo hi l t h1 h2 h3 h4
    by_cases hc : lo + 1 < hi
    · rw [findLoop, if_pos hc, show l + (j + 1) + 1 = (l + j + 1) + 1 by omega, go _ _ _ _ hc h1 h3]
      simp only
      split
      · exact ih _ _ _ _ (by omega) (by omega) h3 (by omega)
      · exact ih _ _ _ _ h1 (by omega) (by omega) (by omega)
    · rw [findLoop, if_neg hc]
      exact ⟨t, stop _ _ _ _ hc, by simp only; omega⟩

theorem find_body : tFixedMapFormula__find_position_in_max_exp_array.body =
    (.assign (.name "lo") (.attr (.name "self") "_MIN_PRECISION") ;;
    .assign (.name "hi") (.attr (.name "self") "_MAX_PRECISION") ;;
    .while_ findCond findBody ;;
    .ite (.cmp .ge (.index (.attr (.name "self") "_max_exp_array") (.name "hi")) (.name "x"))
      (.ret (.name "hi"))
      .pass ;;
    .ite (.cmp .ge (.index (.attr (.name "self") "_max_exp_array") (.name "lo")) (.name "x"))
      (.ret (.name "lo"))
      .pass ;;
    .ret (.num 0)) := by krefl
theorem find_params : tFixedMapFormula__find_position_in_max_exp_array.params = [("x", none)] := rfl

@[py] theorem inv_findPosition (h : 1 ≤ n) (hL : 96 ≤ cx.loops) (x : Int) :
    invoke cx n "FixedMapFormula" (some "FixedMapFormula") tFixedMapFormula__find_position_in_max_exp_array [.int x] w =
      some (.int (findPosition x), w) := by
  rw [invoke_pos _ h, find_body, find_params]
  obtain ⟨l, hl⟩ : ∃ l, cx.loops = l + 95 + 1 := ⟨cx.loops - 96, by omega⟩
  have h0 : MIN_PRECISION = 32 := by unfold MIN_PRECISION; rfl
  have h1 : MAX_PRECISION = 127 := by unfold MAX_PRECISION; rfl
  py_simp [hl]
  obtain ⟨t, ht, b1, b2, b3, b4⟩ := findLoop_exec cx (invoke cx (n - 1)) w "FixedMapFormula" x 95 32 127 l [] (by omega) (by omega) (by omega) (by omega)
  rw [h0, h1]
  rw [findEnv] at ht
  rw [ht]
  unfold findPosition
  rw [h0, h1]
  simp only [show 127 - 32 = 95 from rfl]
  generalize findLoop x 95 32 127 = r at *
  unfold findEnv
  py_simp [expArray_get b1 b2, expArray_get b3 b4]
  by_cases c1 : maxExp r.2 ≥ x
  · simp only [if_pos c1]
  · simp only [if_neg c1]
    by_cases c2 : maxExp r.1 ≥ x
    · simp only [if_pos c2]
    · simp only [if_neg c2]; rfl

/-! ### `_general_log` -/

/-- The body of the loop. -/
def logBody : Stmt :=
  .assign (.name "x") (.op .fdiv (.op .mul (.name "x") (.name "x")) (.attr (.name "self") "_FIXED_1")) ;;
  .ite (.cmp .ge (.name "x") (.attr (.name "self") "_FIXED_2"))
    (.aug (.name "x") .shr (.num 1) ;;
    .aug (.name "res") .add (.op .shl (.attr (.name "self") "_ONE") (.op .sub (.name "i") (.num 1))))
    .pass

/-- `i`, `i - 1`, …, 1 -/
def down : Nat → List PV
  | 0 => []
  | i + 1 => .int ((i + 1 : Nat) : Int) :: down i

/-- The variables of the loop. -/
def logEnv (x res : Int) (t : Env) : Env := ("self", .obj "FixedMapFormula") :: ("x", .int x) :: ("res", .int res) :: t

theorem get_set (x : String) (v : PV) (t : Env) : Env.get (Env.set t x v) x = some v := by
  induction t with
  | nil => exact get_hit ..
  | cons a t ih =>
    obtain ⟨y, u⟩ := a
    by_cases hy : y = x
    · subst hy; rw [set_hit, get_hit]
    · rw [set_miss _ _ _ hy, get_miss _ _ hy, ih]

theorem logLoop_exec (here : String) : ∀ (i : Nat) (x res : Int) (t : Env), ∃ x' t',
    floop cx k here "i" logBody (down i) (logEnv x res t) w = some (.next (logEnv x' (generalLogLoop i x res) t'), w) := by
  intro i
  induction i with
  | zero => intro x res t; exact ⟨x, t, rfl⟩
  | succ i ih =>
    intro x res t
    have e : (((i + 1 : Nat) : Int) - 1) = (i : Int) := by omega
    have go : floop cx k here "i" logBody (down (i + 1)) (logEnv x res t) w =
      if x * x / FIXED_1 ≥ FIXED_2 then
        floop cx k here "i" logBody (down i) (logEnv ((x * x / FIXED_1) >>> 1) (res + ONE * 2 ^ i) (Env.set t "i" (.int (i + 1 : Nat)))) w
      else floop cx k here "i" logBody (down i) (logEnv (x * x / FIXED_1) res (Env.set t "i" (.int (i + 1 : Nat)))) w := by
      rw [down, floop_cons, logBody]
      unfold logEnv
      have h1 : ∀ a : Int, arith .shr a 1 = some (a >>> 1) := fun a => shr_nat a 1
      py_simp [fdiv_pos _ fixed1_pos, get_set, e, h1]
    rw [go, generalLogLoop]
    split
    · exact ih _ _ _
    · exact ih _ _ _

theorem range_down : range 127 0 (-1) = some (down 127) := by
  show some ((List.range 127).map fun (k : Nat) => PV.int (127 - k)) = _
  have : ∀ i : Nat, (List.range i).map (fun (k : Nat) => PV.int (i - k)) = down i := by
    intro i
    induction i with
    | zero => rfl
    | succ i ih =>
      rw [down, List.range_succ_eq_map, List.map_cons, List.map_map, ← ih]
      congr 1
      apply List.map_congr_left
      intro k _
      simp only [Function.comp]
      congr 1
      omega
  exact congrArg some (this 127)

theorem general_log_body : tFixedMapFormula__general_log.body =
   (.assign (.name "res") (.num 0) ;;
    .ite (.cmp .ge (.name "x") (.attr (.name "self") "_FIXED_2"))
      (.assign (.name "count") (.meth (.name "self") "_floor_log2" (.cons (.op .fdiv (.name "x") (.attr (.name "self") "_FIXED_1")) .nil)) ;;
      .aug (.name "x") .shr (.name "count") ;;
      .assign (.name "res") (.op .mul (.name "count") (.attr (.name "self") "_FIXED_1")))
      .pass ;;
    .ite (.cmp .gt (.name "x") (.attr (.name "self") "_FIXED_1"))
      (.for_ "i" (.fn "range" (.cons (.attr (.name "self") "_MAX_PRECISION") (.cons (.num 0) (.cons (.num (-1)) .nil)))) logBody)
      .pass ;;
    .ret (.op .fdiv (.op .mul (.name "res") (.attr (.name "self") "_LN2_NUMERATOR")) (.attr (.name "self") "_LN2_DENOMINATOR"))) := by krefl
theorem general_log_params : tFixedMapFormula__general_log.params = [("x", none)] := rfl

@[py] theorem inv_generalLog (h : 2 ≤ n) (hL : 9 ≤ cx.loops) (x : Int) :
    invoke cx n "FixedMapFormula" (some "FixedMapFormula") tFixedMapFormula__general_log [.int x] w =
      some (.int (generalLog x), w) := by
  rw [invoke_pos _ (by omega), general_log_body, general_log_params]
  have h1 : MAX_PRECISION = 127 := by unfold MAX_PRECISION; rfl
  have hd : 0 < LN2_DENOMINATOR := by unfold LN2_DENOMINATOR; decide
  have h2 : FIXED_2 = 2 * FIXED_1 := by unfold FIXED_2 FIXED_1; decide
  have hp := fixed1_pos
  have range' : range ((MAX_PRECISION : Nat) : Int) 0 (-1) = some (down 127) := by rw [h1]; exact range_down
  unfold generalLog
  rw [h1]
  by_cases hx : x ≥ FIXED_2
  · have ht : x / FIXED_1 = (((x / FIXED_1).toNat : Nat) : Int) := (Int.toNat_of_nonneg (Int.ediv_nonneg (by omega) (by omega))).symm
    generalize (x / FIXED_1).toNat = q at ht
    py_simp [fdiv_pos _ hp, ht, if_pos hx]
    generalize floorLog2 q = c
    by_cases hx' : x >>> c > FIXED_1
    · py_simp [hx', range']
      obtain ⟨x', t', e⟩ := logLoop_exec cx (invoke cx (n - 1)) w "FixedMapFormula" 127 (x >>> c) (c * FIXED_1) [("count", .int c)]
      rw [logEnv] at e
      rw [e]
      unfold logEnv
      py_simp [fdiv_pos _ hd]
    · py_simp [hx', fdiv_pos _ hd]
  · py_simp [fdiv_pos _ hp, range', if_neg hx]
    by_cases hx' : x > FIXED_1
    · py_simp [hx', range']
      obtain ⟨x', t', e⟩ := logLoop_exec cx (invoke cx (n - 1)) w "FixedMapFormula" 127 x 0 []
      rw [logEnv] at e
      rw [e]
      unfold logEnv
      py_simp [fdiv_pos _ hd]
    · py_simp [hx', fdiv_pos _ hd]

/-! ### `_power` and the functions of the interface -/

theorem findLoop_hi (x : Int) : ∀ j lo hi : Nat, (findLoop x j lo hi).2 ≤ max lo hi ∧ (findLoop x j lo hi).1 ≤ max lo hi := by
  intro j
  induction j with
  | zero => intro lo hi; simp only [findLoop]; omega
  | succ j ih =>
    intro lo hi
    rw [findLoop]
    split
    · simp only
      split
      · have := ih ((lo + hi) / 2) hi; omega
      · have := ih lo ((lo + hi) / 2); omega
    · simp only; omega

theorem findPosition_le (x : Int) : findPosition x ≤ MAX_PRECISION := by
  have h0 : MIN_PRECISION ≤ MAX_PRECISION := by unfold MIN_PRECISION MAX_PRECISION; decide
  unfold findPosition
  have := findLoop_hi x (MAX_PRECISION - MIN_PRECISION) MIN_PRECISION MAX_PRECISION
  simp only
  split
  · omega
  · split <;> omega

theorem shr_find (a x : Int) : arith .shr a (((MAX_PRECISION : Nat) : Int) - ((findPosition x : Nat) : Int)) =
    some (a >>> (MAX_PRECISION - findPosition x)) := by
  have := findPosition_le x
  rw [show ((MAX_PRECISION : Nat) : Int) - ((findPosition x : Nat) : Int) = ((MAX_PRECISION - findPosition x : Nat) : Int) by omega, shr_nat]

@[py] theorem inv_power (h : 3 ≤ n) (hL : 96 ≤ cx.loops) (bn bd en ed : Int) :
    invoke cx n "FixedMapFormula" (some "FixedMapFormula") tFixedMapFormula__power [.int bn, .int bd, .int en, .int ed] w =
      optE (power bn bd en ed) >>- fun r => some (.tuple [.int r.1, .int r.2], w) := by
  unfold power
  by_cases hb : bn < MAX_NUM
  · by_cases h1 : bd = 0
    · py_start tFixedMapFormula__power [fdiv_any, hb, h1, true_or]; rfl
    by_cases h2 : ed = 0
    · py_start tFixedMapFormula__power [fdiv_any, hb, h1, h2, or_true]
      split <;> rfl
    py_start tFixedMapFormula__power [fdiv_any, hb, h1, h2, or_self, shr_find]
    split
    · split <;> rfl
    · split <;> rfl
  · py_start tFixedMapFormula__power [hb]
    rfl

theorem shr_prec (a : Int) (p : Nat) : arith .shr a (p : Int) = some (a >>> p) := shr_nat a p

@[py] theorem inv_purchase (h : 4 ≤ n) (hL : 96 ≤ cx.loops) (a b c d : Int) :
    invoke cx n "FixedMapFormula" (some "FixedMapFormula") tFixedMapFormula_calculate_purchase_return [.int a, .int b, .int c, .int d] w =
      optE (calculatePurchaseReturn a b c d) >>- fun r => some (.int r, w) := by
  unfold calculatePurchaseReturn
  by_cases hv : a > 0 ∧ b > 0 ∧ MAX_WEIGHT ≥ c ∧ c > 0
  · have hb : ¬ b = 0 := by omega
    py_start tFixedMapFormula_calculate_purchase_return [fdiv_any, hv, hb]
    split
    · rfl
    split
    · rfl
    generalize power _ _ _ _ = r
    cases r <;> rfl
  · py_start tFixedMapFormula_calculate_purchase_return [hv]
    rfl

@[py] theorem inv_sale (h : 4 ≤ n) (hL : 96 ≤ cx.loops) (a b c d : Int) :
    invoke cx n "FixedMapFormula" (some "FixedMapFormula") tFixedMapFormula_calculate_sale_return [.int a, .int b, .int c, .int d] w =
      optE (calculateSaleReturn a b c d) >>- fun r => some (.int r, w) := by
  unfold calculateSaleReturn
  by_cases hv : a > 0 ∧ b > 0 ∧ (MAX_WEIGHT ≥ c ∧ c > 0) ∧ d ≤ a
  · have hb : ¬ a = 0 := by omega
    py_start tFixedMapFormula_calculate_sale_return [fdiv_any, hv, hb]
    split
    · rfl
    split
    · rfl
    split
    · rfl
    generalize power _ _ _ _ = r
    cases r with
    | error => rfl
    | ok r =>
      rw [show optE (.ok r : Except Err (Int × Nat)) = some r from rfl]
      py_simp [fdiv_any]
      split <;> rfl
  · py_start tFixedMapFormula_calculate_sale_return [hv]
    rfl

@[py] theorem inv_cross (h : 4 ≤ n) (hL : 96 ≤ cx.loops) (a b c d e : Int) :
    invoke cx n "FixedMapFormula" (some "FixedMapFormula") tFixedMapFormula_calculate_cross_connector_return [.int a, .int b, .int c, .int d, .int e] w =
      optE (calculateCrossConnectorReturn a b c d e) >>- fun r => some (.int r, w) := by
  unfold calculateCrossConnectorReturn
  by_cases hv : a > 0 ∧ (MAX_WEIGHT ≥ b ∧ b > 0) ∧ c > 0 ∧ MAX_WEIGHT ≥ d ∧ d > 0
  · py_start tFixedMapFormula_calculate_cross_connector_return [fdiv_any, hv]
    split
    · split <;> rfl
    generalize power _ _ _ _ = r
    cases r with
    | error => rfl
    | ok r =>
      rw [show optE (.ok r : Except Err (Int × Nat)) = some r from rfl]
      py_simp [fdiv_any]
      split <;> rfl
  · py_start tFixedMapFormula_calculate_cross_connector_return [hv]
    rfl

end Verif.Src

import Verif.Model.Generator
import Verif.Spec.FormulaWidth
import Mathlib.Tactic.Linarith
import Mathlib.Data.Nat.Bitwise
/-!
The generator scripts: the search, the table of exponents, and that their versions of the functions agree with the formula.
-/
set_option autoImplicit false
namespace Verif.Generator

/-! ### The search -/

theorem binaryLoop_spec {ok : Nat → Bool} : ∀ (lo hi : Nat), lo ≤ hi → ok lo = true →
    let r := binaryLoop ok lo hi
    ok r.1 = true ∧ r.1 ≤ r.2 ∧ r.2 ≤ r.1 + 1 ∧ r.2 ≤ hi ∧ (r.2 = hi ∨ ok r.2 = false) := by
  intro lo hi
  induction lo, hi using binaryLoop.induct (ok := ok) with
  | case1 lo hi h hm ih =>
    intro hle hlo
    rw [binaryLoop, if_pos h, if_pos hm]
    exact ih (by omega) hm
  | case2 lo hi h hm ih =>
    intro hle hlo
    rw [binaryLoop, if_pos h, if_neg hm]
    obtain ⟨h1, h2, h3, h4, h5⟩ := ih (by omega) hlo
    refine ⟨h1, h2, h3, by omega, ?_⟩
    rcases h5 with h5 | h5
    · right; rw [h5]; simpa using hm
    · exact .inr h5
  | case3 lo hi h =>
    intro hle hlo
    rw [binaryLoop, if_neg h]
    exact ⟨hlo, hle, by simp only []; omega, by simp, .inl rfl⟩

/-- For a function that works on an initial segment the search finds its last element. -/
theorem binarySearch_eq {α : Type} {f : Nat → Option α} (h0 : (f 0).isSome) (hd : ∀ x y, x ≤ y → (f y).isSome → (f x).isSome) (m : Nat) :
    binarySearch f = some m ↔ m < 1 <<< 256 ∧ (f m).isSome ∧ ∀ x, x < 1 <<< 256 → (f x).isSome → x ≤ m := by
  have key : ∃ m, binarySearch f = some m ∧ m < 1 <<< 256 ∧ (f m).isSome ∧ ∀ x, x < 1 <<< 256 → (f x).isSome → x ≤ m := by
    obtain ⟨h1, h2, h3, h4, h5⟩ := binaryLoop_spec (ok := fun x => (f x).isSome) 0 ((1 <<< 256) - 1) (by omega) h0
    unfold binarySearch
    simp only [] at h1 h2 h3 h4 h5 ⊢
    generalize binaryLoop (fun x => (f x).isSome) 0 ((1 <<< 256) - 1) = r at *
    have hp : 0 < 1 <<< 256 := by decide
    by_cases h6 : (f r.2).isSome
    · rw [if_pos h6]
      refine ⟨_, rfl, by omega, h6, fun x hx hfx => ?_⟩
      rcases h5 with h5 | h5
      · omega
      · rw [h6] at h5; cases h5
    · rw [if_neg h6, if_pos h1]
      refine ⟨_, rfl, by omega, h1, fun x hx hfx => ?_⟩
      by_contra hc
      exact h6 (hd r.2 x (by omega) hfx)
  obtain ⟨m', e, h1, h2, h3⟩ := key
  rw [e]
  constructor
  · rintro h; cases h; exact ⟨h1, h2, h3⟩
  · rintro ⟨g1, g2, g3⟩
    rw [Nat.le_antisymm (g3 m' h1 h2) (h3 m g1 g2)]

/-! ### `general_exp` is monotone -/

theorem safeMul_some {x y r : Nat} : safeMul x y = some r ↔ x * y < 1 <<< 256 ∧ r = x * y := by
  unfold safeMul; split <;> simp_all [eq_comm]
theorem safeAdd_some {x y r : Nat} : safeAdd x y = some r ↔ x + y < 1 <<< 256 ∧ r = x + y := by
  unfold safeAdd; split <;> simp_all [eq_comm]
theorem safeSub_some {x y r : Nat} : safeSub x y = some r ↔ y ≤ x ∧ r = x - y := by
  unfold safeSub; split <;> simp_all [eq_comm]
theorem quot_some {x y r : Nat} : quot x y = some r ↔ y ≠ 0 ∧ r = x / y := by
  unfold quot; split <;> simp_all [eq_comm]

theorem shiftRight_mono {a b : Nat} (h : a ≤ b) (p : Nat) : a >>> p ≤ b >>> p := by
  simp only [Nat.shiftRight_eq_div_pow]; exact Nat.div_le_div_right h

theorem generalExpLoop_mono {p : Nat} {x y : Nat} (hxy : x ≤ y) : ∀ (cs : List Nat) {xi yi rx ry r : Nat}, xi ≤ yi → rx ≤ ry →
    generalExpLoop y p cs yi ry = some r → ∃ r', generalExpLoop x p cs xi rx = some r' ∧ r' ≤ r := by
  intro cs
  induction cs with
  | nil => intro xi yi rx ry r _ h2 h; simp only [generalExpLoop, Option.some.injEq] at h ⊢; exact ⟨rx, rfl, h ▸ h2⟩
  | cons c cs ih =>
    intro xi yi rx ry r h1 h2 h
    simp only [generalExpLoop, Option.bind_eq_bind, Option.bind_eq_some_iff, safeMul_some, safeAdd_some] at h ⊢
    obtain ⟨m, ⟨a1, rfl⟩, t, ⟨a2, rfl⟩, s, ⟨a3, rfl⟩, h⟩ := h
    have b1 : xi * x ≤ yi * y := Nat.mul_le_mul h1 hxy
    have b2 := shiftRight_mono b1 p
    have b3 : (xi * x) >>> p * c ≤ (yi * y) >>> p * c := Nat.mul_le_mul_right _ b2
    obtain ⟨r', e, hr⟩ := ih b2 (Nat.add_le_add h2 b3) h
    exact ⟨r', ⟨_, ⟨by omega, rfl⟩, _, ⟨by omega, rfl⟩, _, ⟨by omega, rfl⟩, e⟩, hr⟩

theorem generalExp_mono {p : Nat} {x y : Nat} (hxy : x ≤ y) {cs : List Nat} {r : Nat} (h : generalExp y cs p = some r) :
    ∃ r', generalExp x cs p = some r' ∧ r' ≤ r := by
  unfold generalExp at h ⊢
  cases cs with
  | nil => cases h
  | cons c cs =>
    simp only [Option.bind_eq_bind, Option.bind_eq_some_iff, quot_some, safeAdd_some] at h ⊢
    obtain ⟨m, h, q, ⟨hc, rfl⟩, s, ⟨a1, rfl⟩, a2, rfl⟩ := h
    obtain ⟨m', e, hm⟩ := generalExpLoop_mono hxy cs hxy (Nat.le_refl 0) h
    have hq : m' / c ≤ m / c := Nat.div_le_div_right hm
    exact ⟨_, ⟨m', e, _, ⟨hc, rfl⟩, _, ⟨by omega, rfl⟩, by omega, rfl⟩, by omega⟩

theorem generalExpLoop_zero {p : Nat} : ∀ (cs : List Nat), generalExpLoop 0 p cs 0 0 = some 0 := by
  intro cs
  induction cs with
  | nil => rfl
  | cons c cs ih => simp [generalExpLoop, safeMul, safeAdd, ih]

theorem generalExp_zero {p c : Nat} {cs : List Nat} (hc : c ≠ 0) (hp : p < 256) : generalExp 0 (c :: cs) p = some (1 <<< p) := by
  have : 1 <<< p < 1 <<< 256 := by
    simp only [Nat.one_shiftLeft]; exact Nat.pow_lt_pow_right (by norm_num) hp
  have h0 : (0 : Nat) < 1 <<< 256 := by decide
  simp only [generalExp, generalExpLoop_zero, quot, hc, safeAdd, Option.bind_eq_bind, Option.bind_some, if_false, Nat.zero_div,
    Nat.zero_add, if_pos h0, if_pos this]

theorem generalExp_lt {p x r : Nat} {cs : List Nat} (h : generalExp x cs p = some r) : x < 1 <<< 256 ∧ r < 1 <<< 256 := by
  unfold generalExp at h
  cases cs with
  | nil => cases h
  | cons c cs =>
    simp only [Option.bind_eq_bind, Option.bind_eq_some_iff, quot_some, safeAdd_some] at h
    obtain ⟨m, h, q, ⟨hc, rfl⟩, s, ⟨a1, rfl⟩, a2, rfl⟩ := h
    exact ⟨Nat.lt_of_le_of_lt (Nat.le_add_left _ _) a1, a2⟩

/-- The largest argument that `general_exp` admits, for any list of coefficients and precision. -/
theorem maxExp_eq {p c : Nat} {cs : List Nat} (hc : c ≠ 0) (hp : p < 256) (m : Nat) :
    (binarySearch fun x => generalExp x (c :: cs) p) = some m ↔
    (∃ r, generalExp m (c :: cs) p = some r) ∧ ∀ x r, generalExp x (c :: cs) p = some r → x ≤ m := by
  rw [binarySearch_eq (by rw [generalExp_zero hc hp]; rfl)
    (fun x y h hy => by
      obtain ⟨r, hr⟩ := Option.isSome_iff_exists.mp hy
      obtain ⟨r', h', _⟩ := generalExp_mono h hr
      rw [h']; rfl)]
  constructor
  · rintro ⟨_, h2, h3⟩
    exact ⟨Option.isSome_iff_exists.mp h2, fun x r h => h3 x (generalExp_lt h).1 (by rw [h]; rfl)⟩
  · rintro ⟨⟨r, h2⟩, h3⟩
    refine ⟨(generalExp_lt h2).1, by rw [h2]; rfl, fun x _ h => ?_⟩
    obtain ⟨r', h'⟩ := Option.isSome_iff_exists.mp h
    exact h3 x r' h'

theorem maxExp_exists {p c : Nat} {cs : List Nat} (hc : c ≠ 0) (hp : p < 256) :
    ∃ m, (binarySearch fun x => generalExp x (c :: cs) p) = some m := by
  have h := binaryLoop_spec (ok := fun x => (generalExp x (c :: cs) p).isSome) 0 ((1 <<< 256) - 1) (by omega)
    (by rw [generalExp_zero hc hp]; rfl)
  unfold binarySearch
  simp only [] at h ⊢
  split
  · exact ⟨_, rfl⟩
  · rw [if_pos h.1]; exact ⟨_, rfl⟩

/-! ### The table of exponents -/

theorem mapM_some {α β : Type} {f : α → Option β} {g : α → β} : ∀ (l : List α), (∀ x ∈ l, f x = some (g x)) → l.mapM f = some (l.map g) := by
  intro l
  induction l with
  | nil => intro _; rfl
  | cons a l ih =>
    intro h
    rw [List.mapM_cons, h a (by simp), ih (fun x hx => h x (by simp [hx]))]
    rfl

/-- The coefficients of the contract are those of the script. -/
theorem coefficients_eq : (getCoefficients NUM_OF_COEFFICIENTS).map Int.ofNat = Formula.generalExpDen :: Formula.generalExpCoeffs := by
  decide +kernel

theorem coefficients_cons : ∃ c cs, getCoefficients NUM_OF_COEFFICIENTS = c :: cs ∧ c ≠ 0 :=
  ⟨(getCoefficients NUM_OF_COEFFICIENTS).head!, (getCoefficients NUM_OF_COEFFICIENTS).tail, by decide +kernel, by decide +kernel⟩

/-- The entry of the contract's table before the script shifted it. -/
def unshifted (p : Nat) : Nat := ((Formula.maxExp p + 1) / 2 ^ (127 - p) - 1).toNat

theorem table_facts : ∀ k < 96, Formula.maxExp (k + 32) = (((unshifted (k + 32) + 1) <<< (127 - (k + 32))) - 1 : Nat) ∧
    (generalExp (unshifted (k + 32)) (getCoefficients NUM_OF_COEFFICIENTS) (k + 32)).isSome ∧
    (generalExp (unshifted (k + 32) + 1) (getCoefficients NUM_OF_COEFFICIENTS) (k + 32)).isNone := by
  decide +kernel

theorem table_max {p : Nat} (h1 : 32 ≤ p) (h2 : p ≤ 127) :
    (binarySearch fun x => generalExp x (getCoefficients NUM_OF_COEFFICIENTS) p) = some (unshifted p) := by
  obtain ⟨k, rfl⟩ : ∃ k, p = k + 32 := ⟨p - 32, by omega⟩
  obtain ⟨_, f2, f3⟩ := table_facts k (by omega)
  obtain ⟨c, cs, e, hc⟩ := coefficients_cons
  rw [e] at f2 f3 ⊢
  rw [maxExp_eq hc (by omega)]
  refine ⟨Option.isSome_iff_exists.mp f2, fun x r h => ?_⟩
  by_contra hx
  obtain ⟨r', h', _⟩ := generalExp_mono (show unshifted (k + 32) + 1 ≤ x by omega) h
  rw [h'] at f3; cases f3

theorem array_eq : ∃ g : Nat → Nat, getMaxExpArray (getCoefficients NUM_OF_COEFFICIENTS) (MAX_PRECISION + 1) = some ((List.range 128).map g) ∧
    (∀ p, p < 128 → (binarySearch fun x => generalExp x (getCoefficients NUM_OF_COEFFICIENTS) p) = some (g p)) ∧
    ∀ p, 32 ≤ p → p ≤ 127 → g p = unshifted p := by
  obtain ⟨c, cs, e, hc⟩ := coefficients_cons
  have hall : ∀ p : Nat, ∃ m, p < 128 → (binarySearch fun x => generalExp x (getCoefficients NUM_OF_COEFFICIENTS) p) = some m := by
    intro p
    by_cases hp : p < 128
    · rw [e]
      obtain ⟨m, h⟩ := maxExp_exists (cs := cs) hc (show p < 256 by omega)
      exact ⟨m, fun _ => h⟩
    · exact ⟨0, fun h => absurd h hp⟩
  choose g hg using hall
  refine ⟨g, mapM_some _ fun p hp => hg p (by simpa [MAX_PRECISION] using hp), hg, fun p h1 h2 => ?_⟩
  have := hg p (by omega)
  rw [table_max h1 h2] at this
  injection this with this
  exact this.symm

/-! ### The scripts' functions are the contract's -/

open Formula (Recorded)

/-- Everything on record fits in 256 bits. -/
def Narrow {α : Type} (r : Recorded α) : Prop := ∀ v ∈ r.seen, 0 ≤ v ∧ v < 1 <<< 256

theorem narrow_bind {α β : Type} {r : Recorded α} {f : α → Recorded β} : Narrow (r >>= f) ↔ Narrow r ∧ Narrow (f r.val) := by
  exact List.forall_mem_append
theorem val_bind {α β : Type} {r : Recorded α} {f : α → Recorded β} : (r >>= f).val = (f r.val).val := rfl
theorem narrow_pure {α : Type} {a : α} : Narrow (pure a : Recorded α) := by intro v h; cases h
theorem val_pure {α : Type} {a : α} : (pure a : Recorded α).val = a := rfl
theorem narrow_comp {x : Int} : Narrow (Formula.comp x) ↔ 0 ≤ x ∧ x < 1 <<< 256 := by
  unfold Narrow Formula.comp; simp
theorem val_comp {x : Int} : (Formula.comp x).val = x := rfl
theorem narrow_nat {n : Nat} : Narrow (Formula.comp n) ↔ n < 1 <<< 256 := by
  rw [narrow_comp]
  constructor
  · intro h; exact_mod_cast h.2
  · intro h; exact ⟨by omega, by exact_mod_cast h⟩

/-- One step of the recording version of `_general_exp`. -/
def gstep (x : Int) (p : Nat) : Int × Int → Int → Recorded (Int × Int) := fun (xi, res) c => do
  let xi ← Formula.comp (xi * x)
  let xi ← Formula.comp (xi >>> p)
  let t ← Formula.comp (xi * c)
  let res ← Formula.comp (res + t)
  pure (xi, res)

theorem generalExpLoop_iff {x p : Nat} : ∀ (cs : List Nat) (xi res r : Nat),
    generalExpLoop x p cs xi res = some r ↔ Narrow ((cs.map Int.ofNat).foldlM (gstep x p) ((xi : Int), (res : Int))) ∧
      ((cs.map Int.ofNat).foldlM (gstep x p) ((xi : Int), (res : Int))).val.2 = r := by
  intro cs
  induction cs with
  | nil =>
    intro xi res r
    simp only [generalExpLoop, List.map_nil, List.foldlM_nil, narrow_pure, val_pure, true_and, Option.some.injEq]
    exact_mod_cast Iff.rfl
  | cons c cs ih =>
    intro xi res r
    have e1 : ((xi : Int) * (x : Int)) = ((xi * x : Nat) : Int) := by push_cast; rfl
    have e2 : (((xi * x : Nat) : Int) >>> p) = (((xi * x) >>> p : Nat) : Int) := rfl
    have e3 : ((((xi * x) >>> p : Nat) : Int) * Int.ofNat c) = (((xi * x) >>> p * c : Nat) : Int) := by push_cast; rfl
    have e4 : ((res : Int) + (((xi * x) >>> p * c : Nat) : Int)) = ((res + (xi * x) >>> p * c : Nat) : Int) := by push_cast; rfl
    simp only [List.map_cons, List.foldlM_cons, gstep, narrow_bind, val_bind, val_comp, val_pure, narrow_pure, e1, e2, e3, e4, narrow_nat, and_true]
    simp only [generalExpLoop, Option.bind_eq_bind, Option.bind_eq_some_iff, safeMul_some, safeAdd_some]
    have hs : (xi * x) >>> p ≤ xi * x := by rw [Nat.shiftRight_eq_div_pow]; exact Nat.div_le_self _ _
    constructor
    · rintro ⟨_, ⟨a1, rfl⟩, _, ⟨a2, rfl⟩, _, ⟨a3, rfl⟩, h⟩
      rw [ih] at h
      exact ⟨⟨⟨a1, by omega, a2, a3⟩, h.1⟩, h.2⟩
    · rintro ⟨⟨⟨a1, _, a2, a3⟩, h1⟩, h2⟩
      exact ⟨_, ⟨a1, rfl⟩, _, ⟨a2, rfl⟩, _, ⟨a3, rfl⟩, (ih _ _ _).mpr ⟨h1, h2⟩⟩

theorem gfold_nat {x p : Nat} : ∀ (cs : List Nat) (xi res : Nat),
    ∃ m : Nat, ((cs.map Int.ofNat).foldlM (gstep x p) ((xi : Int), (res : Int))).val.2 = m := by
  intro cs
  induction cs with
  | nil => intro xi res; exact ⟨res, rfl⟩
  | cons c cs ih =>
    intro xi res
    obtain ⟨m, hm⟩ := ih ((xi * x) >>> p) (res + (xi * x) >>> p * c)
    refine ⟨m, ?_⟩
    rw [← hm, List.map_cons, List.foldlM_cons, val_bind]
    simp only [gstep, val_bind, val_comp, val_pure]
    congr 3

theorem generalExpR_eq (x : Int) (p : Nat) : Formula.generalExpR x p = (do
    let st ← Formula.generalExpCoeffs.foldlM (gstep x p) (x, (0 : Int))
    let res ← Formula.comp (st.2 / Formula.generalExpDen)
    let res ← Formula.comp (res + x)
    let one ← Formula.comp (Formula.ONE * 2 ^ p)
    Formula.comp (res + one)) := rfl

/-- The script's `general_exp` works exactly where the contract's needs no more than 256 bits, with the same result. -/
theorem generalExp_iff {x p r : Nat} : generalExp x (getCoefficients NUM_OF_COEFFICIENTS) p = some r ↔
    Narrow (Formula.generalExpR x p) ∧ (Formula.generalExpR x p).val = r := by
  obtain ⟨c, cs, e, hc⟩ := coefficients_cons
  have h := coefficients_eq
  rw [e, List.map_cons, List.cons.injEq] at h
  obtain ⟨hd, ht⟩ := h
  rw [e, generalExpR_eq, ← ht, ← hd]
  have key := generalExpLoop_iff (x := x) (p := p) cs x 0
  simp only [Nat.cast_zero] at key
  simp only [generalExp, Option.bind_eq_bind, Option.bind_eq_some_iff, quot_some, safeAdd_some, narrow_bind, val_bind, val_comp]
  have one : Formula.ONE * (2 : Int) ^ p = ((1 <<< p : Nat) : Int) := by rw [Nat.one_shiftLeft]; unfold Formula.ONE; push_cast; ring
  rw [one]
  constructor
  · rintro ⟨m, hm, _, ⟨_, rfl⟩, _, ⟨a1, rfl⟩, a2, rfl⟩
    obtain ⟨n1, n2⟩ := (key m).mp hm
    have hmlt : m / c < 1 <<< 256 := Nat.lt_of_le_of_lt (Nat.le_add_right _ _) a1
    have hone : 1 <<< p < 1 <<< 256 := Nat.lt_of_le_of_lt (Nat.le_add_left _ _) a2
    have e1 : ((m : Int) / Int.ofNat c) = ((m / c : Nat) : Int) := by push_cast; rfl
    have e2 : (((m / c : Nat) : Int) + (x : Int)) = ((m / c + x : Nat) : Int) := by push_cast; rfl
    have e3 : (((m / c + x : Nat) : Int) + ((1 <<< p : Nat) : Int)) = ((m / c + x + 1 <<< p : Nat) : Int) := by push_cast; rfl
    simp only [n2, e1, e2, e3, narrow_nat]
    exact ⟨⟨n1, hmlt, a1, hone, a2⟩, trivial⟩
  · rintro ⟨⟨n1, h1, h2, h3, h4⟩, h5⟩
    obtain ⟨m, hm⟩ := gfold_nat (x := x) (p := p) cs x 0
    simp only [Nat.cast_zero] at hm
    have hk := (key m).mpr ⟨n1, hm⟩
    have e1 : ((m : Int) / Int.ofNat c) = ((m / c : Nat) : Int) := by push_cast; rfl
    have e2 : (((m / c : Nat) : Int) + (x : Int)) = ((m / c + x : Nat) : Int) := by push_cast; rfl
    have e3 : (((m / c + x : Nat) : Int) + ((1 <<< p : Nat) : Int)) = ((m / c + x + 1 <<< p : Nat) : Int) := by push_cast; rfl
    simp only [hm, e1, e2, e3, narrow_nat] at h1 h2 h3 h4 h5
    exact ⟨m, hk, _, ⟨hc, rfl⟩, _, ⟨h2, rfl⟩, h4, by exact_mod_cast h5.symm⟩

/-! ### `optimal_log` -/

/-- The two loops of the recording version of `_optimal_log`. -/
def lhi : Int × Int → Int × Int → Recorded (Int × Int) := fun (x, res) (e, v) => do
  if x ≥ e then
    let res ← Formula.comp (res + v)
    let x ← Formula.comp (x * Formula.FIXED_1)
    let x ← Formula.comp (x / e)
    pure (x, res)
  else pure (x, res)

def llo (y w : Int) : Int × Int → Int × Int → Recorded (Int × Int) := fun (z, res) (num, den) => do
  let t ← Formula.comp (num - y)
  let t ← Formula.comp (z * t)
  let t ← Formula.comp (t / den)
  let res ← Formula.comp (res + t)
  let z ← Formula.comp (z * w)
  let z ← Formula.comp (z / Formula.FIXED_1)
  pure (z, res)

theorem optimalLogR_eq (x : Int) : Formula.optimalLogR x = (do
    let st ← Formula.optLogHi.foldlM lhi (x, (0 : Int))
    let y ← Formula.comp (st.1 - Formula.FIXED_1)
    let w ← Formula.comp (y * y)
    let w ← Formula.comp (w / Formula.FIXED_1)
    let st ← Formula.optLogLo.foldlM (llo y w) (y, st.2)
    pure st.2) := by
  unfold Formula.optimalLogR lhi llo
  with_reducible rfl

theorem lhi_pos {x res e v : Int} (h : e ≤ x) : lhi (x, res) (e, v) = (do
    let res ← Formula.comp (res + v)
    let x ← Formula.comp (x * Formula.FIXED_1)
    let x ← Formula.comp (x / e)
    pure (x, res)) := if_pos h
theorem lhi_neg {x res e v : Int} (h : ¬ e ≤ x) : lhi (x, res) (e, v) = pure (x, res) := if_neg h

theorem F_eq : Formula.FIXED_1 = ((FIXED_1 : Nat) : Int) := by decide +kernel
theorem F_ne : FIXED_1 ≠ 0 := by decide +kernel

/-- The terms of the script, in the contract's notation. -/
def swap (t : Nat × Nat) : Int × Int := ((t.2 : Int), (t.1 : Int))
def same (t : Nat × Nat) : Int × Int := ((t.1 : Int), (t.2 : Int))

theorem optimalLogHi_of : ∀ (ts : List (Nat × Nat)) (x res : Nat), (∀ t ∈ ts, t.2 ≠ 0) → Narrow ((ts.map swap).foldlM lhi ((x : Int), (res : Int))) →
    ∃ x' res' : Nat, optimalLogHi FIXED_1 ts x res = some (x', res') ∧
      ((ts.map swap).foldlM lhi ((x : Int), (res : Int))).val = ((x' : Int), (res' : Int)) := by
  intro ts
  induction ts with
  | nil => intro x res _ _; exact ⟨x, res, rfl, rfl⟩
  | cons t ts ih =>
    intro x res ht h
    have ht2 := ht t (by simp)
    rw [List.map_cons, List.foldlM_cons, narrow_bind] at h
    rw [List.map_cons, List.foldlM_cons, val_bind]
    obtain ⟨h1, h2⟩ := h
    unfold optimalLogHi
    by_cases hx : t.2 ≤ x
    · have hx' : (t.2 : Int) ≤ (x : Int) := by exact_mod_cast hx
      simp only [swap, lhi_pos hx', narrow_bind, val_bind, val_comp, val_pure, F_eq] at h1 h2 ⊢
      have e1 : ((res : Int) + (t.1 : Int)) = ((res + t.1 : Nat) : Int) := by push_cast; rfl
      have e2 : ((x : Int) * ((FIXED_1 : Nat) : Int)) = ((x * FIXED_1 : Nat) : Int) := by push_cast; rfl
      have e3 : (((x * FIXED_1 : Nat) : Int) / (t.2 : Int)) = ((x * FIXED_1 / t.2 : Nat) : Int) := by push_cast; rfl
      rw [e1, e2, e3] at h1 h2
      rw [e1, e2, e3]
      simp only [narrow_nat] at h1
      rw [if_pos hx]
      obtain ⟨x', res', a, b⟩ := ih _ _ (fun u hu => ht u (by simp [hu])) h2
      refine ⟨x', res', ?_, b⟩
      simp only [Option.bind_eq_bind, Option.bind_eq_some_iff, safeAdd_some, safeMul_some, quot_some]
      exact ⟨_, ⟨h1.1, rfl⟩, _, ⟨h1.2.1, rfl⟩, _, ⟨ht2, rfl⟩, a⟩
    · have hx' : ¬ (t.2 : Int) ≤ (x : Int) := by exact_mod_cast hx
      simp only [swap, lhi_neg hx', val_pure] at h1 h2 ⊢
      rw [if_neg hx]
      exact ih _ _ (fun u hu => ht u (by simp [hu])) h2

theorem optimalLogLo_of {y w : Nat} : ∀ (ts : List (Nat × Nat)) (z res : Nat), ts ≠ [] → (∀ t ∈ ts, t.2 ≠ 0) →
    Narrow ((ts.map same).foldlM (llo y w) ((z : Int), (res : Int))) →
    ∃ r : Nat, optimalLogLo FIXED_1 y w ts z res = some r ∧ ((ts.map same).foldlM (llo y w) ((z : Int), (res : Int))).val.2 = (r : Int) := by
  intro ts
  induction ts with
  | nil => intro z res h; exact absurd rfl h
  | cons t ts ih =>
    intro z res _ ht h
    have ht2 := ht t (by simp)
    rw [List.map_cons, List.foldlM_cons, narrow_bind] at h
    rw [List.map_cons, List.foldlM_cons, val_bind]
    obtain ⟨h1, h2⟩ := h
    simp only [llo, same, narrow_bind, val_bind, val_comp, val_pure, narrow_pure, F_eq, and_true] at h1 h2 ⊢
    obtain ⟨g1, h1⟩ := h1
    rw [narrow_comp] at g1
    have gy : y ≤ t.1 := by have := g1.1; omega
    have e0 : ((t.1 : Int) - (y : Int)) = ((t.1 - y : Nat) : Int) := by omega
    have e1 : ((z : Int) * ((t.1 - y : Nat) : Int)) = ((z * (t.1 - y) : Nat) : Int) := by push_cast; rfl
    have e2 : (((z * (t.1 - y) : Nat) : Int) / (t.2 : Int)) = ((z * (t.1 - y) / t.2 : Nat) : Int) := by push_cast; rfl
    have e3 : ((res : Int) + ((z * (t.1 - y) / t.2 : Nat) : Int)) = ((res + z * (t.1 - y) / t.2 : Nat) : Int) := by push_cast; rfl
    have e4 : ((z : Int) * (w : Int)) = ((z * w : Nat) : Int) := by push_cast; rfl
    have e5 : (((z * w : Nat) : Int) / ((FIXED_1 : Nat) : Int)) = ((z * w / FIXED_1 : Nat) : Int) := by push_cast; rfl
    rw [e0, e1, e2, e3, e4, e5] at h1 h2
    rw [e0, e1, e2, e3, e4, e5]
    simp only [narrow_nat] at h1
    obtain ⟨a1, a2, a3, a4, a5⟩ := h1
    cases ts with
    | nil =>
      refine ⟨_, ?_, rfl⟩
      simp only [optimalLogLo, Option.bind_eq_bind, Option.bind_eq_some_iff, safeAdd_some, safeMul_some, quot_some, safeSub_some]
      exact ⟨_, ⟨gy, rfl⟩, _, ⟨a1, rfl⟩, _, ⟨ht2, rfl⟩, a3, rfl⟩
    | cons t' ts =>
      obtain ⟨r, a, b⟩ := ih _ _ (by simp) (fun u hu => ht u (by simp [hu])) h2
      refine ⟨r, ?_, b⟩
      simp only [optimalLogLo, Option.bind_eq_bind, Option.bind_eq_some_iff, safeAdd_some, safeMul_some, quot_some, safeSub_some]
      exact ⟨_, ⟨gy, rfl⟩, _, ⟨a1, rfl⟩, _, ⟨ht2, rfl⟩, _, ⟨a3, rfl⟩, _, ⟨a4, rfl⟩, _, ⟨F_ne, rfl⟩, a⟩

theorem optimalLog_of {x : Nat} {hi lo : List (Nat × Nat)} (hhi : hi.tail.map swap = Formula.optLogHi) (hlo : lo.map same = Formula.optLogLo)
    (h : Narrow (Formula.optimalLogR x)) : ∃ r : Nat, optimalLog x hi lo FIXED_1 = some r ∧ (Formula.optimalLogR x).val = (r : Int) := by
  rw [optimalLogR_eq] at h ⊢
  rw [narrow_bind] at h
  obtain ⟨h1, h⟩ := h
  have hne : ∀ t ∈ hi.tail, t.2 ≠ 0 := by
    intro t ht e
    have : swap t ∈ Formula.optLogHi := hhi ▸ List.mem_map_of_mem ht
    have hp : ∀ u ∈ Formula.optLogHi, u.1 ≠ 0 := by decide +kernel
    exact hp _ this (by simp [swap, e])
  have hne' : ∀ t ∈ lo, t.2 ≠ 0 := by
    intro t ht e
    have : same t ∈ Formula.optLogLo := hlo ▸ List.mem_map_of_mem ht
    have hp : ∀ u ∈ Formula.optLogLo, u.2 ≠ 0 := by decide +kernel
    exact hp _ this (by simp [same, e])
  have hlne : lo ≠ [] := by rintro rfl; revert hlo; decide +kernel
  rw [← hhi] at h1 h ⊢
  obtain ⟨x', res', a, b⟩ := optimalLogHi_of hi.tail x 0 hne (by simpa using h1)
  simp only [Nat.cast_zero] at b
  rw [val_bind]
  simp only [b, narrow_bind, val_bind, val_comp, val_pure, narrow_pure, F_eq, and_true] at h ⊢
  obtain ⟨g1, h⟩ := h
  rw [narrow_comp] at g1
  have gy : FIXED_1 ≤ x' := by have := g1.1; omega
  have e0 : ((x' : Int) - ((FIXED_1 : Nat) : Int)) = ((x' - FIXED_1 : Nat) : Int) := by omega
  rw [e0] at h ⊢
  have e1 : (((x' - FIXED_1 : Nat) : Int) * ((x' - FIXED_1 : Nat) : Int)) = (((x' - FIXED_1) * (x' - FIXED_1) : Nat) : Int) := by push_cast; rfl
  rw [e1] at h ⊢
  have e2 : ((((x' - FIXED_1) * (x' - FIXED_1) : Nat) : Int) / ((FIXED_1 : Nat) : Int)) = (((x' - FIXED_1) * (x' - FIXED_1) / FIXED_1 : Nat) : Int) := by
    push_cast; rfl
  rw [e2] at h ⊢
  rw [← hlo] at h ⊢
  simp only [narrow_nat] at h
  obtain ⟨r, c, d⟩ := optimalLogLo_of lo _ _ hlne hne' h.2.2
  refine ⟨r, ?_, d⟩
  simp only [optimalLog, Option.bind_eq_bind, Option.bind_eq_some_iff, safeMul_some, quot_some, safeSub_some]
  exact ⟨_, a, _, ⟨gy, rfl⟩, _, ⟨h.1, rfl⟩, _, ⟨F_ne, rfl⟩, c⟩

/-! ### `optimal_exp` -/

/-- The two loops of the recording version of `_optimal_exp`. -/
def elo (y : Int) : Int × Int → Int → Recorded (Int × Int) := fun (z, res) c => do
  let z ← Formula.comp (z * y)
  let z ← Formula.comp (z / Formula.FIXED_1)
  let t ← Formula.comp (z * c)
  let res ← Formula.comp (res + t)
  pure (z, res)

def ehi (x : Int) : Int → Int × Int × Int → Recorded Int := fun res (bit, num, den) => do
  if x / bit % 2 = 1 then
    let t ← Formula.comp (res * num)
    Formula.comp (t / den)
  else pure res

theorem optimalExpR_eq (x : Int) : Formula.optimalExpR x = (do
    let y ← Formula.comp (x % Formula.optExpMod)
    let st ← Formula.optExpCoeffs.foldlM (elo y) (y, (0 : Int))
    let res ← Formula.comp (st.2 / Formula.optExpDen)
    let res ← Formula.comp (res + y)
    let res ← Formula.comp (res + Formula.FIXED_1)
    Formula.optExpHi.foldlM (ehi x) res) := by
  unfold Formula.optimalExpR elo ehi
  with_reducible rfl

theorem ehi_pos {x res b n d : Int} (h : x / b % 2 = 1) : ehi x res (b, n, d) = (do
    let t ← Formula.comp (res * n)
    Formula.comp (t / d)) := if_pos h
theorem ehi_neg {x res b n d : Int} (h : ¬ x / b % 2 = 1) : ehi x res (b, n, d) = pure res := if_neg h

def triple (t : Nat × Nat × Nat) : Int × Int × Int := ((t.1 : Int), (t.2.1 : Int), (t.2.2 : Int))

theorem optimalExpLo_of {y : Nat} : ∀ (vs : List Nat) (z res : Nat), Narrow ((vs.map Int.ofNat).foldlM (elo y) ((z : Int), (res : Int))) →
    ∃ r : Nat, optimalExpLo FIXED_1 y vs z res = some r ∧ ((vs.map Int.ofNat).foldlM (elo y) ((z : Int), (res : Int))).val.2 = (r : Int) := by
  intro vs
  induction vs with
  | nil => intro z res _; exact ⟨res, rfl, rfl⟩
  | cons v vs ih =>
    intro z res h
    rw [List.map_cons, List.foldlM_cons, narrow_bind] at h
    rw [List.map_cons, List.foldlM_cons, val_bind]
    obtain ⟨h1, h2⟩ := h
    simp only [elo, narrow_bind, val_bind, val_comp, val_pure, narrow_pure, F_eq, and_true] at h1 h2 ⊢
    have e1 : ((z : Int) * (y : Int)) = ((z * y : Nat) : Int) := by push_cast; rfl
    have e2 : (((z * y : Nat) : Int) / ((FIXED_1 : Nat) : Int)) = ((z * y / FIXED_1 : Nat) : Int) := by push_cast; rfl
    have e3 : (((z * y / FIXED_1 : Nat) : Int) * Int.ofNat v) = ((z * y / FIXED_1 * v : Nat) : Int) := by push_cast; rfl
    have e4 : ((res : Int) + ((z * y / FIXED_1 * v : Nat) : Int)) = ((res + z * y / FIXED_1 * v : Nat) : Int) := by push_cast; rfl
    rw [e1, e2, e3, e4] at h1 h2
    rw [e1, e2, e3, e4]
    simp only [narrow_nat] at h1
    obtain ⟨a1, _, a3, a4⟩ := h1
    obtain ⟨r, a, b⟩ := ih _ _ h2
    refine ⟨r, ?_, b⟩
    simp only [optimalExpLo, Option.bind_eq_bind, Option.bind_eq_some_iff, safeAdd_some, safeMul_some, quot_some]
    exact ⟨_, ⟨a1, rfl⟩, _, ⟨F_ne, rfl⟩, _, ⟨a3, rfl⟩, _, ⟨a4, rfl⟩, a⟩

theorem and_bit (x k : Nat) : x &&& 2 ^ k ≠ 0 ↔ x / 2 ^ k % 2 = 1 := by
  rw [Nat.and_two_pow, Nat.testBit_eq_decide_div_mod_eq]
  by_cases h : x / 2 ^ k % 2 = 1 <;> simp [h]

theorem optimalExpHi_of {x : Nat} : ∀ (ts : List (Nat × Nat × Nat)) (res : Nat), (∀ t ∈ ts, t.2.2 ≠ 0 ∧ ∃ k, t.1 = 2 ^ k) →
    Narrow ((ts.map triple).foldlM (ehi x) (res : Int)) →
    ∃ r : Nat, optimalExpHi x ts res = some r ∧ ((ts.map triple).foldlM (ehi x) (res : Int)).val = (r : Int) := by
  intro ts
  induction ts with
  | nil => intro res _ _; exact ⟨res, rfl, rfl⟩
  | cons t ts ih =>
    intro res ht h
    obtain ⟨ht2, k, hk⟩ := ht t (by simp)
    rw [List.map_cons, List.foldlM_cons, narrow_bind] at h
    rw [List.map_cons, List.foldlM_cons, val_bind]
    obtain ⟨h1, h2⟩ := h
    have hbit : (x &&& t.1 ≠ 0) ↔ (x : Int) / (t.1 : Int) % 2 = 1 := by
      rw [hk, and_bit]; push_cast; exact_mod_cast Iff.rfl
    unfold optimalExpHi
    by_cases hx : (x : Int) / (t.1 : Int) % 2 = 1
    · rw [if_pos (hbit.mpr hx)]
      simp only [triple, ehi_pos hx, narrow_bind, val_bind, val_comp] at h1 h2 ⊢
      have e1 : ((res : Int) * (t.2.1 : Int)) = ((res * t.2.1 : Nat) : Int) := by push_cast; rfl
      have e2 : (((res * t.2.1 : Nat) : Int) / (t.2.2 : Int)) = ((res * t.2.1 / t.2.2 : Nat) : Int) := by push_cast; rfl
      rw [e1, e2] at h1 h2
      rw [e1, e2]
      simp only [narrow_nat] at h1
      obtain ⟨r, a, b⟩ := ih _ (fun u hu => ht u (by simp [hu])) h2
      refine ⟨r, ?_, b⟩
      simp only [Option.bind_eq_bind, Option.bind_eq_some_iff, safeMul_some, quot_some]
      exact ⟨_, ⟨h1.1, rfl⟩, _, ⟨ht2, rfl⟩, a⟩
    · rw [if_neg (fun hc => hx (hbit.mp hc))]
      simp only [triple, ehi_neg hx, val_pure] at h1 h2 ⊢
      exact ih _ (fun u hu => ht u (by simp [hu])) h2

theorem optimalExp_of {x : Nat} {hi : List (Nat × Nat × Nat)} {lo : List Nat} (hhi : hi.dropLast.map triple = Formula.optExpHi)
    (hlo : lo.map Int.ofNat = Formula.optExpDen :: Formula.optExpCoeffs) (h : Narrow (Formula.optimalExpR x)) :
    ∃ r : Nat, optimalExp x hi lo FIXED_1 = some r ∧ (Formula.optimalExpR x).val = (r : Int) := by
  have hne : ∀ t ∈ hi.dropLast, t.2.2 ≠ 0 ∧ ∃ k, t.1 = 2 ^ k := by
    intro t ht
    have : triple t ∈ Formula.optExpHi := hhi ▸ List.mem_map_of_mem ht
    have hp : ∀ u ∈ Formula.optExpHi, u.2.2 ≠ 0 ∧ ∃ k < 131, u.1 = 2 ^ k := by decide +kernel
    obtain ⟨h1, k, _, h2⟩ := hp _ this
    refine ⟨fun e => h1 (by simp [triple, e]), k, ?_⟩
    simp only [triple] at h2
    exact_mod_cast h2
  obtain ⟨hd, hh, hmod⟩ : ∃ hd, hi.head? = some hd ∧ ((hd.1 : Nat) : Int) = Formula.optExpMod := by
    cases hi with
    | nil => exact absurd hhi (by decide +kernel)
    | cons a l =>
      cases l with
      | nil => exact absurd hhi (by simp only [List.dropLast_singleton, List.map_nil]; decide +kernel)
      | cons b l =>
        refine ⟨a, rfl, ?_⟩
        rw [List.dropLast_cons_of_ne_nil (by simp), List.map_cons] at hhi
        have h1 : Formula.optExpHi.head? = some (triple a) := by rw [← hhi]; rfl
        have h2 : Formula.optExpHi.head?.map (·.1) = some Formula.optExpMod := by decide +kernel
        rw [h1] at h2
        simpa [triple] using h2
  have hd0 : hd.1 ≠ 0 := by
    intro e
    rw [e] at hmod
    revert hmod; decide +kernel
  cases lo with
  | nil => cases hlo
  | cons v vs =>
  rw [List.map_cons, List.cons.injEq] at hlo
  obtain ⟨hv, hvs⟩ := hlo
  have hv0 : v ≠ 0 := by
    rintro rfl
    revert hv; decide +kernel
  rw [optimalExpR_eq] at h ⊢
  rw [← hhi, ← hvs, ← hv, ← hmod, F_eq] at h
  rw [← hhi, ← hvs, ← hv, ← hmod, F_eq]
  have e0 : ((x : Int) % ((hd.1 : Nat) : Int)) = ((x % hd.1 : Nat) : Int) := by push_cast; rfl
  simp only [e0, narrow_bind, val_bind, val_comp, narrow_nat] at h ⊢
  obtain ⟨_, h1, h⟩ := h
  obtain ⟨m, a, b⟩ := optimalExpLo_of vs _ 0 h1
  simp only [Nat.cast_zero] at b
  simp only [b] at h ⊢
  have e1 : ((m : Int) / Int.ofNat v) = ((m / v : Nat) : Int) := by push_cast; rfl
  have e2 : (((m / v : Nat) : Int) + ((x % hd.1 : Nat) : Int)) = ((m / v + x % hd.1 : Nat) : Int) := by push_cast; rfl
  have e3 : (((m / v + x % hd.1 : Nat) : Int) + ((FIXED_1 : Nat) : Int)) = ((m / v + x % hd.1 + FIXED_1 : Nat) : Int) := by push_cast; rfl
  rw [e1, e2, e3] at h
  rw [e1, e2, e3]
  simp only [narrow_nat] at h
  obtain ⟨_, g2, g3, g4⟩ := h
  obtain ⟨r, c, d⟩ := optimalExpHi_of hi.dropLast _ hne g4
  refine ⟨r, ?_, d⟩
  simp only [optimalExp, hh, if_neg hd0, Option.bind_eq_bind, Option.bind_eq_some_iff, safeAdd_some, quot_some]
  exact ⟨_, a, _, ⟨hv0, rfl⟩, _, ⟨g2, rfl⟩, _, ⟨g3, rfl⟩, c⟩

end Verif.Generator

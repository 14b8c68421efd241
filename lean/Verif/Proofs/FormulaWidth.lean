import Verif.Spec.FormulaWidth
import Verif.Proofs.FormulaRange
/-!
Widths of the intermediate values of the conversion formula.
-/
namespace Verif.Formula

theorem bind_val {α β : Type} (x : Recorded α) (f : α → Recorded β) : (x >>= f).val = (f x.val).val := rfl
theorem pure_val {α : Type} (a : α) : (pure a : Recorded α).val = a := rfl
theorem comp_val (x : Int) : (comp x).val = x := rfl

theorem comp_bind_val {β : Type} (x : Int) (f : Int → Recorded β) : (comp x >>= f).val = (f x).val := rfl

theorem foldlM_val {α σ : Type} (f : σ → α → Recorded σ) : ∀ (l : List α) (s : σ), (l.foldlM f s).val = l.foldl (fun s a => (f s a).val) s
  | [], _ => rfl
  | a :: l, s => by rw [List.foldlM_cons, bind_val, foldlM_val f l]; rfl

theorem ite_val {α : Type} {c : Prop} [Decidable c] (a b : Recorded α) : (if c then a else b).val = if c then a.val else b.val := by
  split <;> rfl

theorem generalExpR_val (x : Int) (p : Nat) : (generalExpR x p).val = generalExp x p := by
  unfold generalExpR generalExp
  simp only [bind_val, foldlM_val, comp_val, pure_val]
  rfl

theorem generalLogLoopR_val : ∀ (i : Nat) (x res : Int), (generalLogLoopR i x res).val = generalLogLoop i x res
  | 0, _, _ => rfl
  | i + 1, x, res => by
    unfold generalLogLoopR generalLogLoop
    rw [comp_bind_val, comp_bind_val]
    by_cases h : x * x / FIXED_1 ≥ FIXED_2
    · rw [if_pos h, if_pos h]; exact generalLogLoopR_val i _ _
    · rw [if_neg h, if_neg h]; exact generalLogLoopR_val i _ _

theorem generalLogTailR_val (x res : Int) :
    (generalLogTailR x res).val = if x > FIXED_1 then generalLogLoop MAX_PRECISION x res else res := by
  unfold generalLogTailR
  rw [ite_val, generalLogLoopR_val]; rfl

theorem generalLogR_val (x : Int) : (generalLogR x).val = generalLog x := by
  unfold generalLogR generalLog
  rw [bind_val]
  unfold generalLogHeadR
  by_cases h : x ≥ FIXED_2
  · simp only [if_pos h, bind_val, comp_val, pure_val, generalLogTailR_val, Int.toNat_natCast]
  · simp only [if_neg h, bind_val, comp_val, pure_val, generalLogTailR_val]

theorem optimalLogR_val (x : Int) : (optimalLogR x).val = optimalLog x := by
  unfold optimalLogR optimalLog
  simp only [bind_val, foldlM_val, comp_val, pure_val, ite_val]
  rfl

theorem optimalExpR_val (x : Int) : (optimalExpR x).val = optimalExp x := by
  unfold optimalExpR optimalExp
  simp only [bind_val, foldlM_val, comp_val, pure_val, ite_val]
  rfl

theorem logR_val (x : Int) : (logR x).val = baseLog x := by
  unfold logR baseLog
  rw [ite_val, optimalLogR_val, generalLogR_val]

theorem powerR_val {bn bd en ed : Int} (h : bn < MAX_NUM) (hd : bd ≠ 0) (he : ed ≠ 0) :
    power bn bd en ed = .ok (powerR bn bd en ed).val := by
  rw [power_eq h hd he]
  unfold powerR
  rw [comp_bind_val, comp_bind_val]
  congr 1
  have tail : ∀ y : Int, expPart y = (if y < OPT_EXP_MAX_VAL then (do let r ← optimalExpR y; pure (r, MAX_PRECISION)) else (do
      let z ← comp (y >>> (MAX_PRECISION - findPosition y))
      let r ← generalExpR z (findPosition y)
      pure (r, findPosition y)) : Recorded (Int × Nat)).val := by
    intro y
    unfold expPart
    by_cases hy : y < OPT_EXP_MAX_VAL
    · rw [if_pos hy, if_pos hy, ← optimalExpR_val]; rfl
    · rw [if_neg hy, if_neg hy, ← generalExpR_val]; rfl
  rw [bind_val, logR_val, comp_bind_val, comp_bind_val]
  exact tail _

/-! ### Bounds -/

/-- Everything on record is a natural number of at most 256 bits, and the result satisfies `P`. -/
def Narrow {α : Type} (m : Recorded α) (P : α → Prop) : Prop := (∀ v ∈ m.seen, 0 ≤ v ∧ v < 2 ^ 256) ∧ P m.val

theorem narrow_bind {α β : Type} {m : Recorded α} {f : α → Recorded β} {P : α → Prop} {Q : β → Prop} (h : Narrow m P)
    (hf : ∀ a, P a → Narrow (f a) Q) : Narrow (m >>= f) Q := by
  refine ⟨fun v hv => ?_, (hf _ h.2).2⟩
  rcases List.mem_append.mp (show v ∈ m.seen ++ (f m.val).seen from hv) with hv | hv
  · exact h.1 v hv
  · exact (hf _ h.2).1 v hv

theorem narrow_comp {x : Int} {P : Int → Prop} (h0 : 0 ≤ x) (h1 : x < 2 ^ 256) (h2 : P x) : Narrow (comp x) P := by
  refine ⟨fun v hv => ?_, h2⟩
  rw [List.mem_singleton.mp (show v ∈ [x] from hv)]
  exact ⟨h0, h1⟩

theorem narrow_pure {α : Type} {a : α} {P : α → Prop} (h : P a) : Narrow (pure a) P :=
  ⟨fun v hv => absurd hv List.not_mem_nil, h⟩

theorem narrow_foldlM {α σ : Type} {f : σ → α → Recorded σ} (P : List α → σ → Prop)
    (hf : ∀ a l s, P (a :: l) s → Narrow (f s a) (P l)) : ∀ (l : List α) (s : σ), P l s → Narrow (l.foldlM f s) (P [])
  | [], _, h => narrow_pure h
  | a :: l, s, h => by
    rw [List.foldlM_cons]
    exact narrow_bind (hf a l s h) fun s' h' => narrow_foldlM P hf l s' h'

theorem Narrow.mono {α : Type} {m : Recorded α} {P Q : α → Prop} (h : Narrow m P) (hpq : ∀ a, P a → Q a) : Narrow m Q :=
  ⟨h.1, hpq _ h.2⟩

/-- What `m` records is bounded by what `M` records. -/
def Below {α : Type} (m M : Recorded α) (R : α → α → Prop) : Prop :=
  (∀ v ∈ m.seen, 0 ≤ v ∧ ∃ V ∈ M.seen, v ≤ V) ∧ R m.val M.val

theorem below_bind {α β : Type} {m M : Recorded α} {f g : α → Recorded β} {R : α → α → Prop} {S : β → β → Prop} (h : Below m M R)
    (hf : ∀ a A, R a A → Below (f a) (g A) S) : Below (m >>= f) (M >>= g) S := by
  refine ⟨fun v hv => ?_, (hf _ _ h.2).2⟩
  rcases List.mem_append.mp (show v ∈ m.seen ++ (f m.val).seen from hv) with hv | hv
  · obtain ⟨h0, V, hV, hle⟩ := h.1 v hv
    exact ⟨h0, V, List.mem_append_left _ hV, hle⟩
  · obtain ⟨h0, V, hV, hle⟩ := (hf _ _ h.2).1 v hv
    exact ⟨h0, V, List.mem_append_right _ hV, hle⟩

def Lt (a A : Int) : Prop := 0 ≤ a ∧ a ≤ A

theorem below_comp {x X : Int} (h : Lt x X) : Below (comp x) (comp X) Lt :=
  ⟨fun v hv => by rw [List.mem_singleton.mp (show v ∈ [x] from hv)]; exact ⟨h.1, X, List.mem_singleton.mpr rfl, h.2⟩, h⟩

theorem below_pure {α : Type} {a A : α} {R : α → α → Prop} (h : R a A) : Below (pure a) (pure A) R :=
  ⟨fun v hv => absurd hv List.not_mem_nil, h⟩

theorem below_foldlM {α σ : Type} {f g : σ → α → Recorded σ} {R : σ → σ → Prop} : ∀ (l : List α),
    (∀ a ∈ l, ∀ s S, R s S → Below (f s a) (g S a) R) → ∀ (s S : σ), R s S → Below (l.foldlM f s) (l.foldlM g S) R
  | [], _, _, _, h => below_pure h
  | a :: l, hf, s, S, h => by
    rw [List.foldlM_cons, List.foldlM_cons]
    exact below_bind (hf a List.mem_cons_self s S h) fun s' S' h' =>
      below_foldlM l (fun b hb => hf b (List.mem_cons_of_mem _ hb)) s' S' h'

theorem Lt.mul {a A b B : Int} (h : Lt a A) (k : Lt b B) : Lt (a * b) (A * B) :=
  ⟨Int.mul_nonneg h.1 k.1, Int.mul_le_mul h.2 k.2 k.1 (Int.le_trans h.1 h.2)⟩
theorem Lt.add {a A b B : Int} (h : Lt a A) (k : Lt b B) : Lt (a + b) (A + B) := ⟨Int.add_nonneg h.1 k.1, Int.add_le_add h.2 k.2⟩
theorem Lt.div {a A d : Int} (h : Lt a A) (hd : 0 < d) : Lt (a / d) (A / d) :=
  ⟨Int.ediv_nonneg h.1 (Int.le_of_lt hd), Int.ediv_le_ediv hd h.2⟩
theorem Lt.shift {a A : Int} (h : Lt a A) (n : Nat) : Lt (a >>> n) (A >>> n) := by
  rw [Int.shiftRight_eq_div_pow, Int.shiftRight_eq_div_pow]; exact h.div (by positivity)
theorem Lt.refl {a : Int} (h : 0 ≤ a) : Lt a a := ⟨h, Int.le_refl a⟩

theorem Below.narrow {α : Type} {m M : Recorded α} {R : α → α → Prop} (h : Below m M R) (hM : ∀ v ∈ M.seen, v < 2 ^ 256) :
    Narrow m (fun a => R a M.val) :=
  ⟨fun v hv => by obtain ⟨h0, V, hV, hle⟩ := h.1 v hv; exact ⟨h0, Int.lt_of_le_of_lt hle (hM V hV)⟩, h.2⟩

/-- `_general_exp` is monotone in all its intermediate values. -/
theorem generalExpR_below {x X : Int} (h : Lt x X) (p : Nat) : Below (generalExpR x p) (generalExpR X p) Lt := by
  unfold generalExpR
  refine below_bind (R := fun s S => Lt s.1 S.1 ∧ Lt s.2 S.2) (below_foldlM _ (fun c hc s S hs => ?_) _ _ ⟨h, Lt.refl (Int.le_refl 0)⟩) ?_
  · refine below_bind (below_comp (hs.1.mul h)) fun a A ha => ?_
    refine below_bind (below_comp (ha.shift p)) fun a A ha => ?_
    refine below_bind (below_comp (ha.mul (Lt.refl (generalExpCoeffs_nonneg c hc)))) fun b B hb => ?_
    refine below_bind (below_comp (hs.2.add hb)) fun b B hb => ?_
    exact below_pure ⟨ha, hb⟩
  · intro s S hs
    refine below_bind (below_comp (hs.2.div generalExpDen_pos)) fun b B hb => ?_
    refine below_bind (below_comp (hb.add h)) fun b B hb => ?_
    refine below_bind (below_comp (Lt.refl (by unfold ONE; positivity))) fun c C hc => ?_
    exact below_comp (hb.add hc)

set_option maxRecDepth 100000 in
theorem generalExpR_top : ∀ i < 96, ∀ v ∈ (generalExpR (maxExp (i + 32) >>> (127 - (i + 32))) (i + 32)).seen, v < 2 ^ 256 := by
  decide +kernel

theorem generalExpR_narrow {x : Int} {p : Nat} (hp : 32 ≤ p) (hp2 : p ≤ 127) (h0 : 0 ≤ x) (h : x ≤ maxExp p >>> (127 - p)) :
    Narrow (generalExpR x p) (fun _ => True) := by
  have h1 := (generalExpR_below (p := p) ⟨h0, h⟩).narrow ?_
  · exact h1.mono fun _ _ => trivial
  · have := generalExpR_top (p - 32) (by omega)
    rwa [show p - 32 + 32 = p by omega] at this

/-! ### `_optimal_exp` -/

/-- `_optimal_exp` from `y` on, with all factors applied: an upper bound of all its intermediate values. -/
def optimalExpTop (y : Int) : Recorded Int := do
  let y ← comp y
  let (_, res) ← optExpCoeffs.foldlM (init := (y, (0 : Int))) fun (z, res) c => do
    let z ← comp (z * y)
    let z ← comp (z / FIXED_1)
    let t ← comp (z * c)
    let res ← comp (res + t)
    pure (z, res)
  let res ← comp (res / optExpDen)
  let res ← comp (res + y)
  let res ← comp (res + FIXED_1)
  optExpHi.foldlM (init := res) fun res (_, num, den) => do
      let t ← comp (res * num)
      comp (t / den)

theorem optimalExpR_below {x Y : Int} (h : x % optExpMod ≤ Y) : Below (optimalExpR x) (optimalExpTop Y) Lt := by
  unfold optimalExpR optimalExpTop
  have hm : 0 ≤ x % optExpMod := Int.emod_nonneg _ (by decide)
  refine below_bind (below_comp ⟨hm, h⟩) fun y Y hy => ?_
  refine below_bind (R := fun s S => Lt s.1 S.1 ∧ Lt s.2 S.2) (below_foldlM _ (fun c hc s S hs => ?_) _ _ ⟨hy, Lt.refl (Int.le_refl 0)⟩) ?_
  · refine below_bind (below_comp (hs.1.mul hy)) fun a A ha => ?_
    refine below_bind (below_comp (ha.div F_pos)) fun a A ha => ?_
    refine below_bind (below_comp (ha.mul (Lt.refl (optExpCoeffs_nonneg c hc)))) fun b B hb => ?_
    refine below_bind (below_comp (hs.2.add hb)) fun b B hb => ?_
    exact below_pure ⟨ha, hb⟩
  · intro s S hs
    refine below_bind (below_comp (hs.2.div optExpDen_pos)) fun b B hb => ?_
    refine below_bind (below_comp (hb.add hy)) fun b B hb => ?_
    refine below_bind (below_comp (hb.add (Lt.refl (Int.le_of_lt F_pos)))) fun b B hb => ?_
    refine below_foldlM _ (fun t ht r R hr => ?_) _ _ hb
    obtain ⟨h1, h2⟩ := optExpHi_ok t ht
    have h3 : Lt (r * t.2.1) (R * t.2.1) := hr.mul (Lt.refl (by omega))
    dsimp only
    split
    · exact below_bind (below_comp h3) fun b B hb => below_comp (hb.div h1)
    · refine ⟨fun v hv => absurd hv List.not_mem_nil, ?_⟩
      refine ⟨hr.1, Int.le_trans hr.2 ?_⟩
      show R ≤ R * t.2.1 / t.2.2
      rw [Int.le_ediv_iff_mul_le h1]
      exact Int.mul_le_mul_of_nonneg_left h2 (Int.le_trans hr.1 hr.2)

set_option maxRecDepth 100000 in
theorem optimalExpTop_narrow : ∀ v ∈ (optimalExpTop (optExpMod - 1)).seen, v < 2 ^ 256 := by decide +kernel

theorem optimalExpR_narrow (x : Int) : Narrow (optimalExpR x) (fun _ => True) :=
  ((optimalExpR_below (Int.le_sub_one_of_lt (Int.emod_lt_of_pos x (by decide)))).narrow optimalExpTop_narrow).mono fun _ _ => trivial

/-! ### `_optimal_log` -/

theorem optLogHi_vals : ∀ t ∈ optLogHi, FIXED_1 ≤ t.1 ∧ 0 ≤ t.2 := by decide +kernel

theorem optLogHi_sum : (0 : Int) + (optLogHi.map Prod.snd).sum ≤ FIXED_1 := by decide +kernel

theorem optimalLogR_narrow {x : Int} (h1 : FIXED_1 ≤ x) (h2 : x < OPT_LOG_MAX_VAL) :
    Narrow (optimalLogR x) (fun r => 0 ≤ r ∧ r ≤ 2 * FIXED_1) := by
  have hF := F_pos
  obtain ⟨hy0, hy1, hr0⟩ := optLogHi_final h1 h2
  unfold optimalLogR
  have hi : Narrow (optLogHi.foldlM (init := (x, (0 : Int))) fun (x, res) (e, v) => (do
      if x ≥ e then
        let res ← comp (res + v)
        let x ← comp (x * FIXED_1)
        let x ← comp (x / e)
        pure (x, res)
      else pure (x, res) : Recorded (Int × Int))) (fun s => s = optLogHi.foldl optLogHiStep (x, 0) ∧ s.2 ≤ FIXED_1) := by
    refine Narrow.mono (P := fun s => (FIXED_1 ≤ s.1 ∧ s.1 < OPT_LOG_MAX_VAL ∧ 0 ≤ s.2 ∧ s.2 + (([] : List (Int × Int)).map Prod.snd).sum ≤ FIXED_1 ∧
        (∀ t ∈ ([] : List (Int × Int)), FIXED_1 ≤ t.1 ∧ 0 ≤ t.2)) ∧ ([] : List (Int × Int)).foldl optLogHiStep s = optLogHi.foldl optLogHiStep (x, 0))
      (narrow_foldlM (fun l s => (FIXED_1 ≤ s.1 ∧ s.1 < OPT_LOG_MAX_VAL ∧ 0 ≤ s.2 ∧ s.2 + (l.map Prod.snd).sum ≤ FIXED_1 ∧
        (∀ t ∈ l, FIXED_1 ≤ t.1 ∧ 0 ≤ t.2)) ∧ l.foldl optLogHiStep s = optLogHi.foldl optLogHiStep (x, 0)) ?_ _ _ ⟨⟨h1, h2, Int.le_refl 0, optLogHi_sum, optLogHi_vals⟩, rfl⟩) ?_
    · rintro ⟨e, v⟩ l ⟨a, r⟩ ⟨⟨h3, h4, h5, h6, h7⟩, h8⟩
      simp only [List.map_cons, List.sum_cons] at h3 h4 h5 h6
      obtain ⟨h9, h10⟩ := h7 (e, v) List.mem_cons_self
      have h11 : ∀ t ∈ l, FIXED_1 ≤ t.1 ∧ 0 ≤ t.2 := fun t ht => h7 t (List.mem_cons_of_mem _ ht)
      have hs : 0 ≤ (l.map Prod.snd).sum := by
        refine List.sum_nonneg fun z hz => ?_
        obtain ⟨t, ht, rfl⟩ := List.mem_map.mp hz
        exact (h11 t ht).2
      have hF2 : FIXED_1 < 2 ^ 256 := by decide
      simp only at h9 h10
      simp only [List.foldl_cons] at h8
      dsimp only
      have hprod : a * FIXED_1 < 2 ^ 256 := Int.lt_of_lt_of_le (Int.mul_lt_mul_of_pos_right h4 hF) (by decide)
      split
      · rename_i hc
        refine narrow_bind (P := fun z => z = r + v) (narrow_comp (by omega) (by omega) rfl) fun z hz => ?_
        refine narrow_bind (P := fun y => y = a * FIXED_1) (narrow_comp (Int.mul_nonneg (by omega) (by omega)) hprod rfl) fun y hy => ?_
        subst hz hy
        have hq1 : FIXED_1 ≤ a * FIXED_1 / e := by
          rw [Int.le_ediv_iff_mul_le (by omega), Int.mul_comm]
          exact Int.mul_le_mul_of_nonneg_right hc (by omega)
        have hq2 : a * FIXED_1 / e ≤ a := by
          refine Int.ediv_le_of_le_mul (by omega) (Int.mul_le_mul_of_nonneg_left h9 (by omega))
        refine narrow_bind (P := fun z => z = a * FIXED_1 / e) (narrow_comp (by omega) (Int.lt_of_le_of_lt hq2 (Int.lt_trans h4 (by decide))) rfl) fun z hz => ?_
        subst hz
        refine narrow_pure ⟨⟨hq1, by dsimp only; omega, by dsimp only; omega, by dsimp only; omega, h11⟩, ?_⟩
        rw [← h8]; simp only [optLogHiStep]; rw [if_pos hc]
      · rename_i hc
        refine narrow_pure ⟨⟨h3, h4, h5, by dsimp only; omega, h11⟩, ?_⟩
        rw [← h8]; simp only [optLogHiStep]; rw [if_neg hc]
    · rintro s ⟨⟨_, _, _, h, _⟩, h'⟩
      exact ⟨h', by simpa using h⟩
  refine narrow_bind hi fun s hs => ?_
  obtain ⟨hs1, hs2⟩ := hs
  rw [← hs1] at hy0 hy1 hr0
  have hYF : YMAX < FIXED_1 := by decide
  have hY2 : YMAX * FIXED_1 < 2 ^ 256 := by decide
  have hF2 : FIXED_1 < 2 ^ 256 := by decide
  obtain ⟨a, r⟩ := s
  simp only at hy0 hy1 hr0 hs2
  dsimp only
  refine narrow_bind (P := fun y => y = a - FIXED_1) (narrow_comp hy0 (by omega) rfl) fun y hy => ?_
  rw [← hy] at hy0 hy1
  have hyy : y * y ≤ YMAX * FIXED_1 := Int.mul_le_mul hy1 (by omega) hy0 (by decide)
  refine narrow_bind (P := fun w => w = y * y) (narrow_comp (Int.mul_nonneg hy0 hy0) (by omega) rfl) fun w hw => ?_
  have hw1 : 0 ≤ w / FIXED_1 ∧ w / FIXED_1 ≤ FIXED_1 := by
    subst hw
    exact ⟨Int.ediv_nonneg (Int.mul_nonneg hy0 hy0) (by omega), Int.ediv_le_of_le_mul hF (Int.le_trans hyy (Int.mul_le_mul_of_nonneg_right (by omega) (by omega)))⟩
  refine narrow_bind (P := fun z => z = w / FIXED_1) (narrow_comp hw1.1 (by omega) rfl) fun v hv => ?_
  rw [← hv] at hw1
  refine narrow_bind (P := fun s => 0 ≤ s.2 ∧ s.2 ≤ 2 * FIXED_1) ?_ fun s hs => narrow_pure hs
  refine Narrow.mono (P := fun s => 0 ≤ s.1 ∧ s.1 ≤ YMAX ∧ 0 ≤ s.2 ∧ s.2 + ([] : List (Int × Int)).length * YMAX ≤ 2 * FIXED_1 ∧
      (∀ t ∈ ([] : List (Int × Int)), YMAX ≤ t.1 ∧ 0 < t.2 ∧ t.1 ≤ t.2 ∧ t.1 * YMAX < 2 ^ 256 ∧ t.1 < 2 ^ 256)) (narrow_foldlM (fun (l : List (Int × Int)) (s : Int × Int) => 0 ≤ s.1 ∧ s.1 ≤ YMAX ∧ 0 ≤ s.2 ∧ s.2 + l.length * YMAX ≤ 2 * FIXED_1 ∧
      (∀ t ∈ l, YMAX ≤ t.1 ∧ 0 < t.2 ∧ t.1 ≤ t.2 ∧ t.1 * YMAX < 2 ^ 256 ∧ t.1 < 2 ^ 256)) ?_ _ _ ⟨hy0, hy1, hr0, ?_, ?_⟩) ?_
  · rintro ⟨num, den⟩ l ⟨z, q⟩ ⟨h3, h4, h5, h6, h7⟩
    obtain ⟨h8, h9, h10, h11, h12⟩ := h7 (num, den) List.mem_cons_self
    simp only at h3 h4 h5 h6 h8 h9 h10 h11 h12
    dsimp only
    simp only [List.length_cons, Nat.cast_add, Nat.cast_one, Int.add_mul, Int.one_mul] at h6
    have hl : 0 ≤ (l.length : Int) * YMAX := Int.mul_nonneg (Int.natCast_nonneg _) (by decide)
    generalize (l.length : Int) * YMAX = L at h6 hl
    have hF3 : 2 * FIXED_1 < 2 ^ 256 := by decide
    refine narrow_bind (P := fun t => t = num - y) (narrow_comp (by omega) (by omega) rfl) fun t ht => ?_
    have ht1 : z * t ≤ z * den := by subst ht; exact Int.mul_le_mul_of_nonneg_left (by omega) h3
    have ht2 : 0 ≤ z * t := by subst ht; exact Int.mul_nonneg h3 (by omega)
    have ht3 : z * t ≤ num * YMAX := by
      subst ht; rw [Int.mul_comm num]; exact Int.mul_le_mul h4 (by omega) (by omega) (by decide)
    refine narrow_bind (P := fun t' => t' = z * t) (narrow_comp ht2 (by omega) rfl) fun t' ht' => ?_
    subst ht'
    have hq : z * t / den ≤ z := Int.ediv_le_of_le_mul h9 ht1
    have hq0 : 0 ≤ z * t / den := Int.ediv_nonneg ht2 (by omega)
    refine narrow_bind (P := fun t' => t' = z * t / den) (narrow_comp hq0 (by omega) rfl) fun t' ht' => ?_
    subst ht'
    refine narrow_bind (P := fun u => u = q + z * t / den) (narrow_comp (by omega) (by omega) rfl) fun u hu => ?_
    have hzv : z * v ≤ z * FIXED_1 := Int.mul_le_mul_of_nonneg_left hw1.2 h3
    have hzv2 : z * FIXED_1 ≤ YMAX * FIXED_1 := Int.mul_le_mul_of_nonneg_right h4 (by omega)
    have hzv0 : 0 ≤ z * v := Int.mul_nonneg h3 hw1.1
    refine narrow_bind (P := fun t' => t' = z * v) (narrow_comp hzv0 (by omega) rfl) fun t' ht' => ?_
    subst ht'
    have hz1 : z * v / FIXED_1 ≤ z := Int.ediv_le_of_le_mul hF hzv
    have hz0 : 0 ≤ z * v / FIXED_1 := Int.ediv_nonneg hzv0 (by omega)
    refine narrow_bind (P := fun t' => t' = z * v / FIXED_1) (narrow_comp hz0 (by omega) rfl) fun t' ht' => ?_
    subst ht' hu
    exact narrow_pure ⟨hz0, by dsimp only; omega, by dsimp only; omega, by dsimp only; omega, fun t ht => h7 t (List.mem_cons_of_mem _ ht)⟩
  · have : (optLogLo.length : Int) * YMAX ≤ FIXED_1 := by decide
    dsimp only; omega
  · decide +kernel
  · rintro s ⟨_, _, h3, h4, _⟩
    exact ⟨h3, by simpa using h4⟩

/-! ### `_general_log` -/

theorem generalLogLoopR_narrow {B : Int} (hB : B < 2 ^ 256) : ∀ (i : Nat) (x res : Int), 0 ≤ x → x < FIXED_2 → 0 ≤ res → res + 2 ^ i ≤ B →
    Narrow (generalLogLoopR i x res) (fun r => 0 ≤ r ∧ r < B)
  | 0, x, res, h1, h2, h3, h4 => narrow_pure ⟨h3, by omega⟩
  | i + 1, x, res, h1, h2, h3, h4 => by
    unfold generalLogLoopR
    have hF := F_pos
    have e2 : FIXED_2 = 2 * FIXED_1 := by decide
    have hp : (2 : Int) ^ (i + 1) = 2 * 2 ^ i := by rw [pow_succ]; omega
    have hp0 : (0 : Int) < 2 ^ i := by positivity
    have hxx : x * x ≤ FIXED_2 * (FIXED_2 - 1) := Int.mul_le_mul (by omega) (by omega) h1 (by decide)
    have hxx2 : FIXED_2 * (FIXED_2 - 1) < 2 ^ 256 := by decide
    have hxx0 : 0 ≤ x * x := Int.mul_nonneg h1 h1
    refine narrow_bind (P := fun y => y = x * x) (narrow_comp hxx0 (by omega) rfl) fun y hy => ?_
    subst hy
    have hq0 : 0 ≤ x * x / FIXED_1 := Int.ediv_nonneg hxx0 (by omega)
    have hq1 : x * x / FIXED_1 < 2 * FIXED_2 := by
      rw [Int.ediv_lt_iff_lt_mul hF]
      have : 2 * FIXED_2 * FIXED_1 = FIXED_2 * FIXED_2 := by decide
      rw [this]
      exact Int.lt_of_le_of_lt hxx (by decide)
    have h2' : 2 * FIXED_2 < 2 ^ 256 := by decide
    refine narrow_bind (P := fun y => y = x * x / FIXED_1) (narrow_comp hq0 (by omega) rfl) fun y hy => ?_
    rw [← hy] at hq0 hq1
    split
    · have hs0 : 0 ≤ y >>> 1 := shiftRight_nonneg hq0 1
      have hs1 : y >>> 1 < FIXED_2 := by rw [Int.shiftRight_eq_div_pow]; omega
      refine narrow_bind (P := fun z => z = y >>> 1) (narrow_comp hs0 (by omega) rfl) fun z hz => ?_
      refine narrow_bind (P := fun z => z = 2 ^ i) (narrow_comp (by unfold ONE; omega) (by unfold ONE; omega) (by unfold ONE; omega)) fun b hb => ?_
      refine narrow_bind (P := fun z => z = res + b) (narrow_comp (by omega) (by omega) rfl) fun r hr => ?_
      exact generalLogLoopR_narrow hB i z r (by omega) (by omega) (by omega) (by omega)
    · exact generalLogLoopR_narrow hB i y res hq0 (by omega) h3 (by omega)

theorem generalLogR_narrow {x : Int} (h1 : FIXED_1 ≤ x) (h2 : x < 2 ^ 256) :
    Narrow (generalLogR x) (fun r => 0 ≤ r ∧ r ≤ 129 * FIXED_1) := by
  unfold generalLogR
  have hF := F_pos
  have e2 : FIXED_2 = 2 * FIXED_1 := by decide
  have eF : FIXED_1 = 2 ^ 127 := by decide
  have hBN : 129 * FIXED_1 * LN2_NUMERATOR < 2 ^ 256 := by decide
  have hBD : LN2_NUMERATOR ≤ LN2_DENOMINATOR := by decide
  have hN : 0 < LN2_NUMERATOR := by decide
  have hD : 0 < LN2_DENOMINATOR := by decide
  have hB : 129 * FIXED_1 < 2 ^ 256 := by decide
  refine narrow_bind (P := fun (s : Int × Int) => 0 ≤ s.1 ∧ s.1 < FIXED_2 ∧ 0 ≤ s.2 ∧ s.2 + FIXED_1 ≤ 129 * FIXED_1) ?_ fun s hs => ?_
  · unfold generalLogHeadR
    split
    · rename_i hx
      have hq0 : 1 ≤ x / FIXED_1 := by rw [Int.le_ediv_iff_mul_le hF]; omega
      have hq1 : x / FIXED_1 < 2 ^ 129 := by
        rw [Int.ediv_lt_iff_lt_mul hF]; exact Int.lt_of_lt_of_le h2 (by decide)
      refine narrow_bind (P := fun q => q = x / FIXED_1) (narrow_comp (by omega) (by omega) rfl) fun q hq => ?_
      rw [← hq] at hq0 hq1
      have hl : floorLog2 q.toNat = Nat.log 2 q.toNat := floorLog2_eq (by omega) (by omega)
      have hl1 : Nat.log 2 q.toNat < 129 := Nat.log_lt_of_lt_pow (by omega) (by omega)
      have hl2 : q.toNat < 2 ^ (Nat.log 2 q.toNat + 1) := Nat.lt_pow_succ_log_self (by omega) _
      refine narrow_bind (P := fun c => c = (floorLog2 q.toNat : Int)) (narrow_comp (by omega) (by omega) rfl) fun c hc => ?_
      rw [hl] at hc
      generalize Nat.log 2 q.toNat = k at hc hl1 hl2
      subst hc
      have hs0 : 0 ≤ x >>> (k : Int).toNat := shiftRight_nonneg (by omega) _
      have hs1 : x >>> (k : Int).toNat < FIXED_2 := by
        rw [Int.shiftRight_eq_div_pow, Int.toNat_natCast]
        rw [Int.ediv_lt_iff_lt_mul (by positivity)]
        have h3 : x < (q + 1) * FIXED_1 := by rw [hq]; exact Int.lt_ediv_add_one_mul_self x hF
        have h4 : q + 1 ≤ 2 ^ (k + 1) := by
          have : ((q.toNat + 1 : Nat) : Int) ≤ ((2 ^ (k + 1) : Nat) : Int) := by exact_mod_cast hl2
          push_cast at this
          omega
        have h5 := Int.mul_le_mul_of_nonneg_right h4 (Int.le_of_lt hF)
        have h6 : FIXED_2 * ((2 ^ k : Nat) : Int) = 2 ^ (k + 1) * FIXED_1 := by rw [e2, pow_succ]; push_cast; ring
        rw [h6]; omega
      refine narrow_bind (P := fun z => z = x >>> (k : Int).toNat) (narrow_comp hs0 (by omega) rfl) fun z hz => ?_
      have hk : (k : Int) * FIXED_1 ≤ 128 * FIXED_1 := Int.mul_le_mul_of_nonneg_right (by omega) (by omega)
      have hk0 : 0 ≤ (k : Int) * FIXED_1 := Int.mul_nonneg (by omega) (by omega)
      refine narrow_bind (P := fun z => z = (k : Int) * FIXED_1) (narrow_comp hk0 (by omega) rfl) fun r hr => ?_
      exact narrow_pure ⟨by dsimp only; omega, by dsimp only; omega, by dsimp only; omega, by dsimp only; omega⟩
    · exact narrow_pure ⟨by dsimp only; omega, by dsimp only; omega, by dsimp only; omega, by dsimp only; omega⟩
  · obtain ⟨a, r⟩ := s
    simp only at hs
    obtain ⟨h3, h4, h5, h6⟩ := hs
    dsimp only
    refine narrow_bind (P := fun r => 0 ≤ r ∧ r < 129 * FIXED_1) ?_ fun r hr => ?_
    · unfold generalLogTailR
      split
      · exact generalLogLoopR_narrow hB _ _ _ h3 h4 h5 (by unfold MAX_PRECISION; omega)
      · exact narrow_pure ⟨h5, by omega⟩
    · have h7 : r * LN2_NUMERATOR ≤ 129 * FIXED_1 * LN2_NUMERATOR := Int.mul_le_mul_of_nonneg_right (by omega) (by omega)
      have h8 : 0 ≤ r * LN2_NUMERATOR := Int.mul_nonneg hr.1 (by omega)
      refine narrow_bind (P := fun z => z = r * LN2_NUMERATOR) (narrow_comp h8 (by omega) rfl) fun z hz => ?_
      subst hz
      have h9 : 0 ≤ r * LN2_NUMERATOR / LN2_DENOMINATOR := Int.ediv_nonneg h8 (by omega)
      have h10 : r * LN2_NUMERATOR / LN2_DENOMINATOR ≤ r :=
        Int.ediv_le_of_le_mul hD (Int.mul_le_mul_of_nonneg_left hBD hr.1)
      exact narrow_comp h9 (by omega) ⟨h9, by omega⟩

/-! ### `_power` -/

theorem Narrow.self {α : Type} {m : Recorded α} {P : α → Prop} (h : Narrow m P) : Narrow m (fun a => P a ∧ a = m.val) :=
  ⟨h.1, h.2, rfl⟩

theorem logR_narrow {x : Int} (h1 : FIXED_1 ≤ x) (h2 : x < 2 ^ 256) : Narrow (logR x) (fun r => 0 ≤ r ∧ r ≤ 129 * FIXED_1) := by
  have hF := F_pos
  unfold logR
  split
  · exact (optimalLogR_narrow h1 (by assumption)).mono fun r hr => ⟨hr.1, by omega⟩
  · exact generalLogR_narrow h1 h2

set_option maxRecDepth 100000 in
theorem generalExpR_zero : ∀ v ∈ (generalExpR 129 0).seen, v < 2 ^ 256 := by decide +kernel

theorem baseLog_le {x : Int} (h1 : FIXED_1 ≤ x) (h2 : x < 2 ^ 256) : baseLog x ≤ 129 * FIXED_1 := by
  rw [← logR_val]; exact (logR_narrow h1 h2).2.2

theorem powerR_narrow {bn bd en ed : Int} (hd : 0 < bd) (hb : bd ≤ bn) (hm : bn < 2 ^ 129) (hn : 0 ≤ en) (hn2 : en ≤ 1000000) (he : 1 ≤ ed)
    (hx : 32 ≤ (expPart ((baseLog ((bn * FIXED_1).fdiv bd) * en).fdiv ed)).2 ∨ en ≤ ed) :
    Narrow (powerR bn bd en ed) (fun _ => True) := by
  unfold powerR
  have hF := F_pos
  have hbF : bn * FIXED_1 < 2 ^ 256 := Int.lt_of_lt_of_le (Int.mul_lt_mul_of_pos_right hm hF) (by decide)
  have hbF0 : 0 ≤ bn * FIXED_1 := Int.mul_nonneg (by omega) (by omega)
  refine narrow_bind (P := fun z => z = bn * FIXED_1) (narrow_comp hbF0 hbF rfl) fun z hz => ?_
  subst hz
  have h1 := base_ge hd hb
  have h2 : (bn * FIXED_1).fdiv bd ≤ bn * FIXED_1 := by
    rw [Int.fdiv_eq_ediv_of_nonneg _ (by omega)]
    exact Int.ediv_le_of_le_mul hd (le_mul_of_one_le_right hbF0 hd)
  refine narrow_bind (P := fun z => z = (bn * FIXED_1).fdiv bd) (narrow_comp (by omega) (by omega) rfl) fun z hz => ?_
  rw [← hz] at h1 h2 hx
  refine narrow_bind (logR_narrow h1 (by omega)).self fun log hlog => ?_
  obtain ⟨hlog, hlog2⟩ := hlog
  rw [logR_val] at hlog2
  rw [← hlog2] at hx
  have h3 : log * en ≤ 129 * FIXED_1 * 1000000 := Int.mul_le_mul hlog.2 hn2 hn (by omega)
  have h4 : 0 ≤ log * en := Int.mul_nonneg hlog.1 hn
  have h5 : 129 * FIXED_1 * 1000000 < 2 ^ 256 := by decide
  refine narrow_bind (P := fun z => z = log * en) (narrow_comp h4 (by omega) rfl) fun y hy => ?_
  subst hy
  have h6 : 0 ≤ (log * en).fdiv ed ∧ (log * en).fdiv ed ≤ log * en ∧ (en ≤ ed → (log * en).fdiv ed ≤ 129 * FIXED_1) := by
    rw [Int.fdiv_eq_ediv_of_nonneg _ (by omega)]
    refine ⟨Int.ediv_nonneg h4 (by omega), Int.ediv_le_of_le_mul (by omega) (le_mul_of_one_le_right h4 he), fun hle => ?_⟩
    exact Int.ediv_le_of_le_mul (by omega) (Int.mul_le_mul hlog.2 hle hn (by omega))
  refine narrow_bind (P := fun z => z = (log * en).fdiv ed) (narrow_comp h6.1 (by omega) rfl) fun x hx' => ?_
  rw [← hx'] at h6 hx
  split
  · exact narrow_bind (optimalExpR_narrow x) fun _ _ => narrow_pure trivial
  · rename_i hopt
    unfold expPart at hx
    rw [if_neg hopt] at hx
    simp only at hx
    have h11 : x >>> (MAX_PRECISION - findPosition x) ≤ x := by
      rw [Int.shiftRight_eq_div_pow]
      exact Int.ediv_le_self _ h6.1
    rcases findPosition_spec x with ⟨h7, _⟩ | ⟨h7, h8, h9, _⟩
    · rcases hx with hx | hx
      · omega
      · rw [h7]
        have h12 : Lt (x >>> (MAX_PRECISION - 0)) 129 := by
          refine ⟨shiftRight_nonneg h6.1 _, ?_⟩
          rw [Int.shiftRight_eq_div_pow]
          exact Int.ediv_le_of_le_mul (by positivity) (h6.2.2 hx)
        refine narrow_bind (P := fun z => Lt z 129) (narrow_comp h12.1 (by have := h12.2; omega) h12) fun y hy => ?_
        refine narrow_bind ((generalExpR_below hy 0).narrow generalExpR_zero) fun _ _ => narrow_pure trivial
    · have h10 : Lt (x >>> (MAX_PRECISION - findPosition x)) (maxExp (findPosition x) >>> (MAX_PRECISION - findPosition x)) :=
        Lt.shift ⟨h6.1, h9⟩ _
      refine narrow_bind (P := fun z => z = x >>> (MAX_PRECISION - findPosition x)) (narrow_comp h10.1 (by omega) rfl) fun y hy => ?_
      rw [← hy] at h10
      exact narrow_bind (generalExpR_narrow h7 h8 h10.1 h10.2) fun _ _ => narrow_pure trivial

end Verif.Formula

import Verif.Model.Proxy
import Verif.Model.ClassTable
/-!
C70: interface SCOREs made by `ProxyScore` (`contracts/utility/proxy_score.py`).
-/
set_option autoImplicit false
namespace Verif.Proxy

variable {s s0 s1 s2 s' : St} {a b p : ClsId} {f h : FnId} {g : Fn} {x : String} {c : Cls} {α β : Type}

/-! ### Specification -/

/-- Objects as they are when the modules are loaded, before the first use of `ProxyScore`: classes refer to existing classes and functions, no abstract
function is marked, the caches are empty. -/
structure Fresh (s : St) : Prop where
  interfaceScore : (s.cls INTERFACE_SCORE).isSome
  cls : ∀ a c, s.cls a = some c → a < s.ncls ∧ c.mro.head? = some a ∧ ∀ b ∈ c.mro, ∃ cb, s.cls b = some cb ∧ ∀ e ∈ cb.dict, (s.fn e.2).isSome
  fn : ∀ f g, s.fn f = some g → f < s.nfn ∧ (g.abstract = true → g.marked = false)
  fnCache : ∀ f, s.fnCache f = none
  clsCache : ∀ a, s.clsCache a = none

/-- A class one may apply `ProxyScore` to: not derived from `InterfaceScore`; each abstract method is defined under its own name in the body of a class
at top level (so that its qualified name has two parts). -/
def Usable (s : St) (a : ClsId) : Prop :=
  ∃ c, s.cls a = some c ∧ INTERFACE_SCORE ∉ c.mro ∧
    ∀ x f g, getattr s a x = some f → s.fn f = some g → g.abstract = true → g.name = x ∧ g.parts = 2

/-- The class `p` stands for the abstract class `a` (of the objects `s0`). -/
structure Stands (s0 : St) (a : ClsId) (s : St) (p : ClsId) : Prop where
  /-- It is derived from `InterfaceScore` and from `a`. -/
  order : ∃ c d, s0.cls a = some c ∧ s.cls p = some ⟨p :: INTERFACE_SCORE :: c.mro, d⟩
  /-- Each abstract method of `a`, own or inherited, is in `p` a remote call of the same name. -/
  remote : ∀ x f g, getattr s0 a x = some f → s0.fn f = some g → g.abstract = true →
    ∃ h, getattr s p x = some h ∧ s.fn h = some ⟨x, 2, true, false, some f⟩
  /-- The other methods are inherited, `InterfaceScore`'s first. -/
  inherited : ∀ x, (∀ f g, getattr s0 a x = some f → s0.fn f = some g → g.abstract = false) →
    getattr s p x = ((s0.cls INTERFACE_SCORE).bind fun c => c.dict.lookup x).or (getattr s0 a x)
  /-- The abstract class itself is as it was: its methods are still abstract. -/
  untouched : s.cls a = s0.cls a ∧ ∀ x, getattr s a x = getattr s0 a x ∧
    ∀ f g, getattr s0 a x = some f → s0.fn f = some g → ∃ g', s.fn f = some g' ∧ g'.abstract = g.abstract ∧ g'.name = g.name

/-! ### Proofs -/

@[simp] theorem run_bind (m : P α) (k : α → P β) : (m >>= k).run s = match m.run s with
    | (.ok y, s') => (k y).run s'
    | (.error e, s') => (.error e, s') := by
  show (match (m s : Id (Except Err α × St)) with | (r, s') => (ExceptT.bindCont k r : StateM St (Except Err β)) s') = _
  have : m.run s = m s := rfl
  rw [this]
  rcases m s with ⟨r, s'⟩
  cases r <;> rfl

@[simp] theorem run_pure (y : α) : (pure y : P α).run s = (.ok y, s) := rfl
@[simp] theorem run_throw (e : Err) : (throw e : P α).run s = (.error e, s) := rfl
@[simp] theorem run_get : (get : P St).run s = (.ok s, s) := rfl
@[simp] theorem run_set : (set s' : P Unit).run s = (.ok (), s') := rfl
@[simp] theorem run_modify (k : St → St) : (modify k : P Unit).run s = (.ok (), k s) := rfl

/-- Objects later on, compared with those at the beginning. -/
structure Inv (s0 s : St) : Prop where
  cls : ∀ a, a < s0.ncls → s.cls a = s0.cls a
  ncls : s0.ncls ≤ s.ncls
  nfn : s0.nfn ≤ s.nfn
  fn : ∀ f, f < s0.nfn → s.fn f = (s0.fn f).map fun g => { g with marked := g.marked || (s.fnCache f).isSome }
  cached : ∀ f h, s.fnCache f = some h → f < s0.nfn ∧ s0.nfn ≤ h ∧ h < s.nfn ∧
    ∃ g, s0.fn f = some g ∧ g.parts = 2 ∧ s.fn h = some { g with marked := true, abstract := false, wraps := some f }
  new : ∀ h, s0.nfn ≤ h → s.fn h = none ∨ ∃ f, s.fnCache f = some h

/-- Nothing is taken away. -/
structure Ext (s s' : St) : Prop where
  cls : ∀ a, a < s.ncls → s'.cls a = s.cls a
  ncls : s.ncls ≤ s'.ncls
  cache : ∀ f h, s.fnCache f = some h → s'.fnCache f = some h
  made : ∀ a p, s.clsCache a = some p → s'.clsCache a = some p

theorem Ext.refl : Ext s s := ⟨fun _ _ => rfl, Nat.le_refl _, fun _ _ h => h, fun _ _ h => h⟩
theorem Ext.trans (h1 : Ext s s1) (h2 : Ext s1 s2) : Ext s s2 :=
  ⟨fun a ha => (h2.cls a (Nat.lt_of_lt_of_le ha h1.ncls)).trans (h1.cls a ha), Nat.le_trans h1.ncls h2.ncls,
    fun f h e => h2.cache f h (h1.cache f h e), fun a p e => h2.made a p (h1.made a p e)⟩

theorem Fresh.none_cls (hf : Fresh s) (ha : s.ncls ≤ a) : s.cls a = none := by
  cases h : s.cls a with
  | none => rfl
  | some c => exact absurd (hf.cls a c h).1 (Nat.not_lt.mpr ha)

theorem Fresh.none_fn (hf : Fresh s) (ha : s.nfn ≤ f) : s.fn f = none := by
  cases h : s.fn f with
  | none => rfl
  | some c => exact absurd (hf.fn f c h).1 (Nat.not_lt.mpr ha)

theorem Inv.start (hf : Fresh s) : Inv s s where
  cls := fun _ _ => rfl
  ncls := Nat.le_refl _
  nfn := Nat.le_refl _
  fn := fun f _ => by
    rw [hf.fnCache f]
    cases h : s.fn f with
    | none => rfl
    | some g => cases g; simp
  cached := fun f h e => by rw [hf.fnCache f] at e; exact absurd e (by simp)
  new := fun h e => .inl (hf.none_fn e)

theorem findSome_congr {γ δ : Type} {u v : γ → Option δ} : ∀ (l : List γ), (∀ b ∈ l, u b = v b) → l.findSome? u = l.findSome? v
  | [], _ => rfl
  | b :: l, h => by
    rw [List.findSome?_cons, List.findSome?_cons, h b List.mem_cons_self, findSome_congr l fun b hb => h b (List.mem_cons_of_mem _ hb)]

/-- Classes of the beginning are looked up as then. -/
theorem getattr_base (hf : Fresh s0) (hi : Inv s0 s) (ha : s0.cls a = some c) (x : String) : getattr s a x = getattr s0 a x := by
  have hlt := (hf.cls a c ha).1
  unfold getattr
  rw [hi.cls a hlt, ha]
  simp only [Option.bind_eq_bind, Option.bind_some]
  refine findSome_congr _ fun b hb => ?_
  obtain ⟨cb, hcb, _⟩ := (hf.cls a c ha).2.2 b hb
  rw [hi.cls b (hf.cls b cb hcb).1]

theorem dir_base (hf : Fresh s0) (hi : Inv s0 s) (ha : s0.cls a = some c) : dir s a = dir s0 a := by
  have hlt := (hf.cls a c ha).1
  unfold dir
  rw [hi.cls a hlt, ha]
  simp only
  congr 1
  have : ∀ l : List ClsId, (∀ b ∈ l, s.cls b = s0.cls b) →
      (l.flatMap fun b => match s.cls b with | none => [] | some c => c.dict.map Prod.fst) =
      (l.flatMap fun b => match s0.cls b with | none => [] | some c => c.dict.map Prod.fst) := by
    intro l hl
    induction l with
    | nil => rfl
    | cons b l ih =>
      rw [List.flatMap_cons, List.flatMap_cons, ih fun b hb => hl b (List.mem_cons_of_mem _ hb), hl b List.mem_cons_self]
  refine this _ fun b hb => ?_
  obtain ⟨cb, hcb, _⟩ := (hf.cls a c ha).2.2 b hb
  rw [hi.cls b (hf.cls b cb hcb).1]

/-- An abstract function is one of the beginning. -/
theorem Inv.abstract_base (hi : Inv s0 s) (hg : s.fn f = some g) (ha : g.abstract = true) : f < s0.nfn := by
  rcases Nat.lt_or_ge f s0.nfn with h | h
  · exact h
  · rcases hi.new f h with h' | ⟨f', h'⟩
    · rw [h'] at hg; exact absurd hg (by simp)
    · obtain ⟨_, _, _, g', _, _, h2⟩ := hi.cached f' f h'
      rw [h2] at hg
      injection hg with hg
      rw [← hg] at ha
      exact absurd ha (by simp)

theorem Inv.base (hi : Inv s0 s) (hf : f < s0.nfn) (hg : s.fn f = some g) :
    ∃ g0, s0.fn f = some g0 ∧ g = { g0 with marked := g0.marked || (s.fnCache f).isSome } := by
  have hfn := hi.fn f hf
  rw [hg] at hfn
  cases h0 : s0.fn f with
  | none => rw [h0] at hfn; exact absurd hfn (by simp)
  | some g0 => rw [h0] at hfn; exact ⟨g0, rfl, by simpa using hfn⟩

/-- What happens while the functions of a class are gathered: functions are made and kept. -/
structure Quiet (s0 s s' : St) : Prop where
  inv : Inv s0 s'
  ext : Ext s s'
  made : s'.clsCache = s.clsCache
  ncls : s'.ncls = s.ncls
  cls : s'.cls = s.cls

theorem Quiet.refl (hi : Inv s0 s) : Quiet s0 s s := ⟨hi, .refl, rfl, rfl, rfl⟩
theorem Quiet.trans (h1 : Quiet s0 s s1) (h2 : Quiet s0 s1 s2) : Quiet s0 s s2 :=
  ⟨h2.inv, h1.ext.trans h2.ext, h2.made.trans h1.made, h2.ncls.trans h1.ncls, h2.cls.trans h1.cls⟩

/-- `_get_interface_function` on an abstract function. -/
theorem getInterfaceFunction_inv (hf : Fresh s0) (hi : Inv s0 s) (hg : s.fn f = some g) (ha : g.abstract = true) :
    (∃ h s', (getInterfaceFunction f).run s = (.ok h, s') ∧ Quiet s0 s s' ∧ s'.fnCache f = some h) ∨
    (g.parts ≠ 2 ∧ ∃ e, (getInterfaceFunction f).run s = (.error e, s)) := by
  have hlt := hi.abstract_base hg ha
  unfold getInterfaceFunction
  simp only [run_bind, run_get]
  cases hc : s.fnCache f with
  | some h => exact .inl ⟨h, s, rfl, .refl hi, hc⟩
  | none =>
    obtain ⟨g0, h0, rfl⟩ := hi.base hlt hg
    have ha0 : g0.abstract = true := ha
    have hm0 := (hf.fn f g0 h0).2 ha0
    by_cases hp : g0.parts = 2
    · left
      have hne : f ≠ s.nfn := fun e => by have := hi.nfn; omega
      simp only [run_bind, interface, run_get, hg, hp, ne_eq, not_true_eq_false, if_false, hc, Option.isSome_none, hm0, Bool.or_false,
        Bool.false_eq_true, run_set, run_pure, run_modify]
      refine ⟨s.nfn, _, rfl, ⟨?_, ⟨fun _ _ => rfl, Nat.le_refl _, ?_, fun _ _ h => h⟩, rfl, rfl, rfl⟩, by simp⟩
      · constructor
        · exact hi.cls
        · exact hi.ncls
        · have := hi.nfn; simp only; omega
        · intro i hi'
          have hi1 : i ≠ s.nfn := fun e => by have := hi.nfn; omega
          simp only [hi1, if_false]
          by_cases e : i = f
          · subst e; simp [h0, hp]
          · simp only [e, if_false]; exact hi.fn i hi'
        · intro i h e
          simp only at e
          by_cases e' : i = f
          · subst e'
            simp only [if_true, Option.some.injEq] at e
            subst e
            refine ⟨hlt, hi.nfn, by simp, g0, h0, hp, ?_⟩
            simp [hp]
          · simp only [e', if_false] at e
            obtain ⟨h1, h2, h3, g', h4, h5, h6⟩ := hi.cached i h e
            refine ⟨h1, h2, by simp only; omega, g', h4, h5, ?_⟩
            have e1 : h ≠ s.nfn := by omega
            have e2 : h ≠ f := by omega
            simp only [e1, e2, if_false]; exact h6
        · intro h hh
          by_cases e1 : h = s.nfn
          · exact .inr ⟨f, by simp [e1]⟩
          · have e2 : h ≠ f := by omega
            simp only [e1, e2, if_false]
            rcases hi.new h hh with h' | ⟨i, h'⟩
            · exact .inl h'
            · refine .inr ⟨i, ?_⟩
              have : i ≠ f := fun e => by rw [e, hc] at h'; exact absurd h' (by simp)
              simp [this, h']
      · intro i h e
        have : i ≠ f := fun e' => by rw [e', hc] at e; exact absurd e (by simp)
        simp [this, e]
    · right
      refine ⟨hp, ?_⟩
      simp only [run_bind, interface, run_get, hg, hp, ne_eq, not_false_eq_true, if_true, run_throw]
      exact ⟨_, rfl⟩

theorem addFunction_quiet (hf : Fresh s0) (hi : Inv s0 s) (d : List (String × FnId)) : Quiet s0 s ((addFunction a d x).run s).2 := by
  unfold addFunction
  simp only [run_bind, run_get]
  cases h1 : getattr s a x with
  | none => exact .refl hi
  | some f =>
    simp only
    cases h2 : s.fn f with
    | none => exact .refl hi
    | some g =>
      simp only
      by_cases ha : g.abstract = true
      · simp only [ha, if_true, run_bind]
        rcases getInterfaceFunction_inv hf hi h2 ha with ⟨h, s', h3, h4, _⟩ | ⟨_, e, h3⟩
        · rw [h3]; exact h4
        · rw [h3]; exact .refl hi
      · simp only [ha, if_false, run_pure]; exact .refl hi

theorem loop_quiet (hf : Fresh s0) : ∀ (l : List String) (s : St) (d : List (String × FnId)), Inv s0 s →
    Quiet s0 s ((l.foldlM (addFunction a) d : P _).run s).2
  | [], s, d, hi => .refl hi
  | x :: l, s, d, hi => by
    rw [List.foldlM_cons, run_bind]
    have h1 := addFunction_quiet (a := a) (x := x) hf hi d
    rcases h : (addFunction a d x).run s with ⟨r, s'⟩
    rw [h] at h1
    cases r with
    | error e => exact h1
    | ok d' => exact h1.trans (loop_quiet hf l s' d' h1.inv)

/-- The dictionary so far is right. -/
def Right (s0 : St) (a : ClsId) (s : St) (d : List (String × FnId)) : Prop :=
  ∀ y h, d.lookup y = some h → ∃ f g, getattr s0 a y = some f ∧ s0.fn f = some g ∧ g.abstract = true ∧ s.fnCache f = some h

theorem lookup_replace (d : List (String × FnId)) (x y : String) (h : FnId) :
    (d.filter (fun e => decide (e.1 ≠ x)) ++ [(x, h)]).lookup y = if y = x then some h else d.lookup y := by
  induction d with
  | nil =>
    by_cases e : y = x
    · simp [e]
    · have : (y == x) = false := by simp [e]
      simp [List.lookup_cons, this, e]
  | cons p d ih =>
    obtain ⟨k, v⟩ := p
    by_cases e : k = x
    · subst e
      simp only [List.filter_cons, ne_eq, not_true_eq_false, decide_false, Bool.false_eq_true, if_false]
      simp only [ne_eq] at ih
      rw [ih, List.lookup_cons]
      by_cases e' : y = k
      · simp [e']
      · have : (y == k) = false := by simp [e']
        simp [this, e']
    · simp only [List.filter_cons, ne_eq, e, not_false_eq_true, decide_true, if_true, List.cons_append, List.lookup_cons]
      simp only [ne_eq] at ih
      rw [ih]
      by_cases e' : y = k
      · subst e'; simp [e]
      · have : (y == k) = false := by simp [e']
        simp [this]

theorem loop_works (hf : Fresh s0) (hc : s0.cls a = some c)
    (hu : ∀ x f g, getattr s0 a x = some f → s0.fn f = some g → g.abstract = true → g.name = x ∧ g.parts = 2) :
    ∀ (l : List String) (s : St) (d : List (String × FnId)), Inv s0 s → Right s0 a s d →
      (∀ x ∈ l, ∃ f g, getattr s0 a x = some f ∧ s0.fn f = some g) →
      ∃ d' s', (l.foldlM (addFunction a) d : P _).run s = (.ok d', s') ∧ Quiet s0 s s' ∧ Right s0 a s' d' ∧
        (∀ x, (d.lookup x).isSome → (d'.lookup x).isSome) ∧
        ∀ x ∈ l, ∀ f g, getattr s0 a x = some f → s0.fn f = some g → g.abstract = true → (d'.lookup x).isSome
  | [], s, d, hi, hr, _ => ⟨d, s, rfl, .refl hi, hr, fun _ h => h, fun x hx => by simp at hx⟩
  | x :: l, s, d, hi, hr, hl => by
    rw [List.foldlM_cons, run_bind]
    obtain ⟨f, g, hfx, hgx⟩ := hl x List.mem_cons_self
    have hflt := (hf.fn f g hgx).1
    have hsf := hi.fn f hflt
    rw [hgx] at hsf
    simp only [Option.map_some] at hsf
    have hgs := (getattr_base hf hi hc x).trans hfx
    by_cases ha : g.abstract = true
    · obtain ⟨hname, hparts⟩ := hu x f g hfx hgx ha
      rcases getInterfaceFunction_inv hf hi hsf ha with ⟨h, s', h3, h4, h5⟩ | ⟨h3, _⟩
      · have hrun : (addFunction a d x).run s = (.ok (d.filter (fun e => decide (e.1 ≠ x)) ++ [(x, h)]), s') := by
          unfold addFunction
          simp only [run_bind, run_get, hgs, hsf, ha, if_true, h3, hname, run_pure]
        rw [hrun]
        simp only
        have hr' : Right s0 a s' (d.filter (fun e => decide (e.1 ≠ x)) ++ [(x, h)]) := by
          intro y k hy
          rw [lookup_replace] at hy
          by_cases e : y = x
          · subst e
            simp only [if_true, Option.some.injEq] at hy
            exact ⟨f, g, hfx, hgx, ha, hy ▸ h5⟩
          · simp only [e, if_false] at hy
            obtain ⟨f', g', a1, a2, a3, a4⟩ := hr y k hy
            exact ⟨f', g', a1, a2, a3, h4.ext.cache _ _ a4⟩
        obtain ⟨d', s'', b1, b2, b3, b4, b5⟩ := loop_works hf hc hu l s' _ h4.inv hr' fun y hy => hl y (List.mem_cons_of_mem _ hy)
        refine ⟨d', s'', b1, h4.trans b2, b3, ?_, ?_⟩
        · intro y hy
          apply b4
          rw [lookup_replace]
          by_cases e : y = x <;> simp [e, hy]
        · intro y hy f' g' c1 c2 c3
          rcases List.mem_cons.mp hy with rfl | hy
          · apply b4; rw [lookup_replace]; simp
          · exact b5 y hy f' g' c1 c2 c3
      · exact absurd hparts h3
    · have hrun : (addFunction a d x).run s = (.ok d, s) := by
        unfold addFunction
        simp only [run_bind, run_get, hgs, hsf, ha, if_false, run_pure, Bool.false_eq_true]
      rw [hrun]
      simp only
      obtain ⟨d', s'', b1, b2, b3, b4, b5⟩ := loop_works hf hc hu l s d hi hr fun y hy => hl y (List.mem_cons_of_mem _ hy)
      refine ⟨d', s'', b1, b2, b3, b4, ?_⟩
      intro y hy f' g' c1 c2 c3
      rcases List.mem_cons.mp hy with rfl | hy
      · rw [hfx] at c1; injection c1 with c1; subst c1
        rw [hgx] at c2; injection c2 with c2; subst c2
        exact absurd c3 ha
      · exact b5 y hy f' g' c1 c2 c3

theorem lookup_mem {d : List (String × FnId)} {y : String} {v : FnId} (h : d.lookup y = some v) : (y, v) ∈ d := by
  induction d with
  | nil => simp at h
  | cons e d ih =>
    obtain ⟨k, u⟩ := e
    rw [List.lookup_cons] at h
    by_cases hk : y = k
    · subst hk; simp at h; subst h; exact List.mem_cons_self
    · have : (y == k) = false := by simp [hk]
      rw [this] at h
      exact List.mem_cons_of_mem _ (ih h)

theorem lookup_of_mem {d : List (String × FnId)} {y : String} (h : y ∈ d.map Prod.fst) : ∃ v, d.lookup y = some v := by
  induction d with
  | nil => simp at h
  | cons e d ih =>
    obtain ⟨k, u⟩ := e
    rw [List.lookup_cons]
    by_cases hk : y = k
    · subst hk; exact ⟨u, by simp⟩
    · have : (y == k) = false := by simp [hk]
      rw [this]
      refine ih ?_
      simpa [hk] using h

/-- `dir` lists what `getattr` finds. -/
theorem mem_dir (ha : s.cls a = some c) : x ∈ dir s a ↔ ∃ f, getattr s a x = some f := by
  unfold dir getattr
  rw [ha]
  simp only [Option.bind_eq_bind, Option.bind_some, List.mem_eraseDups, List.mem_flatMap]
  constructor
  · rintro ⟨b, hb, hx⟩
    cases h : s.cls b with
    | none => rw [h] at hx; simp at hx
    | some cb =>
      rw [h] at hx
      obtain ⟨v, hv⟩ := lookup_of_mem hx
      have : (c.mro.findSome? fun b => (s.cls b).bind fun c => c.dict.lookup x).isSome := by
        rw [List.findSome?_isSome_iff]
        exact ⟨b, hb, by rw [h]; simp [hv]⟩
      exact Option.isSome_iff_exists.mp this
  · rintro ⟨f, hx⟩
    obtain ⟨b, hb, hx⟩ := List.exists_of_findSome?_eq_some hx
    refine ⟨b, hb, ?_⟩
    cases h : s.cls b with
    | none => rw [h] at hx; simp at hx
    | some cb =>
      rw [h] at hx
      exact List.mem_map.mpr ⟨_, lookup_mem hx, rfl⟩

theorem getattr_fn (hf : Fresh s) (ha : s.cls a = some c) (hx : getattr s a x = some f) : ∃ g, s.fn f = some g := by
  unfold getattr at hx
  rw [ha] at hx
  simp only [Option.bind_eq_bind, Option.bind_some] at hx
  obtain ⟨b, hb, hx⟩ := List.exists_of_findSome?_eq_some hx
  obtain ⟨cb, hcb, hd⟩ := (hf.cls a c ha).2.2 b hb
  rw [hcb] at hx
  simp only [Option.bind_some] at hx
  exact Option.isSome_iff_exists.mp (hd _ (lookup_mem hx))

/-- The class made for a usable class. -/
def Made (s0 : St) (a : ClsId) (s : St) (p : ClsId) : Prop :=
  ∃ c d, s0.cls a = some c ∧ s.cls p = some ⟨p :: INTERFACE_SCORE :: c.mro, d⟩ ∧ Right s0 a s d ∧
    ∀ x f g, getattr s0 a x = some f → s0.fn f = some g → g.abstract = true → (d.lookup x).isSome

structure Full (s0 s : St) : Prop where
  inv : Inv s0 s
  made : ∀ a p, s.clsCache a = some p → s0.ncls ≤ p ∧ p < s.ncls ∧ (Usable s0 a → Made s0 a s p)
  none : ∀ a, s.ncls ≤ a → s.cls a = Option.none
  source : ∀ a p, s.clsCache a = some p → ∃ c, s.cls a = some c ∧ INTERFACE_SCORE ∉ c.mro

theorem Full.start (hf : Fresh s) : Full s s :=
  ⟨.start hf, fun a p h => by rw [hf.clsCache a] at h; exact absurd h (by simp), fun _ h => hf.none_cls h,
    fun a p h => by rw [hf.clsCache a] at h; exact absurd h (by simp)⟩

theorem Made.ext (h : Made s0 a s p) (hp : p < s.ncls) (he : Ext s s') : Made s0 a s' p := by
  obtain ⟨c, d, h1, h2, h3, h4⟩ := h
  refine ⟨c, d, h1, by rw [he.cls p hp]; exact h2, ?_, h4⟩
  intro y k hy
  obtain ⟨f, g, a1, a2, a3, a4⟩ := h3 y k hy
  exact ⟨f, g, a1, a2, a3, he.cache _ _ a4⟩

theorem newType_cases (a : ClsId) (d : List (String × FnId)) (s : St) :
    (∃ e, (newType a d).run s = (.error e, s)) ∨ ∃ c, s.cls a = some c ∧ INTERFACE_SCORE ∉ c.mro ∧
      (newType a d).run s = (.ok s.ncls, { s with
        cls := fun i => if i = s.ncls then some { mro := s.ncls :: INTERFACE_SCORE :: c.mro, dict := d } else s.cls i
        ncls := s.ncls + 1 }) := by
  unfold newType
  simp only [run_bind, run_get]
  cases h : s.cls a with
  | none => exact .inl ⟨_, rfl⟩
  | some c =>
    simp only
    by_cases hm : INTERFACE_SCORE ∈ c.mro
    · rw [if_pos (by simpa using hm)]; exact .inl ⟨_, rfl⟩
    · rw [if_neg (by simpa using hm)]; exact .inr ⟨c, rfl, hm, rfl⟩

/-- A usable class gets its proxy. -/
theorem proxyScore_new (hf : Fresh s0) (hi : Full s0 s) (hu : Usable s0 a) (hn : s.clsCache a = none) :
    ∃ p s', (proxyScore a).run s = (.ok p, s') ∧ s'.clsCache a = some p ∧ s0.ncls ≤ p ∧ p < s'.ncls ∧ Made s0 a s' p := by
  obtain ⟨c, hc, hm, hu⟩ := hu
  have hd := dir_base hf hi.inv hc
  obtain ⟨d, s1, h1, h2, h3, _, h5⟩ := loop_works hf hc hu (dir s0 a) s [] hi.inv (fun y h e => by simp at e) (fun x hx => by
    obtain ⟨f, hx⟩ := (mem_dir hc).mp hx
    obtain ⟨g, hg⟩ := getattr_fn hf hc hx
    exact ⟨f, g, hx, hg⟩)
  have hc1 : s1.cls a = some c := by rw [h2.inv.cls a (hf.cls a c hc).1, hc]
  have h7 : (newType a d).run s1 = (.ok s1.ncls, { s1 with
      cls := fun i => if i = s1.ncls then some { mro := s1.ncls :: INTERFACE_SCORE :: c.mro, dict := d } else s1.cls i
      ncls := s1.ncls + 1 }) := by
    unfold newType
    simp only [run_bind, run_get, hc1]
    rw [if_neg (by simpa using hm)]
    rfl
  have hrun : (proxyScore a).run s = (.ok s1.ncls, { s1 with
      cls := fun i => if i = s1.ncls then some { mro := s1.ncls :: INTERFACE_SCORE :: c.mro, dict := d } else s1.cls i
      ncls := s1.ncls + 1
      clsCache := fun i => if i = a then some s1.ncls else s1.clsCache i }) := by
    unfold proxyScore createProxyClass
    simp only [run_bind, run_get, hn, hd, h1, h7, run_modify, run_pure]
  refine ⟨s1.ncls, _, hrun, ?_, ?_, ?_, ?_⟩
  · simp
  · exact h2.inv.ncls
  · simp
  · refine ⟨c, d, hc, by simp, h3, ?_⟩
    intro x f g b1 b2 b3
    exact h5 x ((mem_dir hc).mpr ⟨f, b1⟩) f g b1 b2 b3

theorem proxyScore_full (hf : Fresh s0) (hi : Full s0 s) (a : ClsId) :
    Full s0 ((proxyScore a).run s).2 ∧ Ext s ((proxyScore a).run s).2 := by
  cases hn : s.clsCache a with
  | some p =>
    have : (proxyScore a).run s = (.ok p, s) := by unfold proxyScore; simp only [run_bind, run_get, hn, run_pure]
    rw [this]; exact ⟨hi, .refl⟩
  | none =>
    have hnew := fun hu => proxyScore_new hf hi (a := a) hu hn
    have hq := loop_quiet (a := a) hf (dir s a) s [] hi.inv
    have hrun : (proxyScore a).run s = match ((dir s a).foldlM (addFunction a) [] : P _).run s with
        | (.error e, s1) => (.error e, s1)
        | (.ok d, s1) => match (newType a d).run s1 with
          | (.error e, s2) => (.error e, s2)
          | (.ok p, s2) => (.ok p, { s2 with clsCache := fun i => if i = a then some p else s2.clsCache i }) := by
      unfold proxyScore createProxyClass
      simp only [run_bind, run_get, hn]
      rcases ((dir s a).foldlM (addFunction a) [] : P _).run s with ⟨r, s1⟩
      cases r with
      | error e => rfl
      | ok d =>
        simp only
        rcases (newType a d).run s1 with ⟨r, s2⟩
        cases r <;> rfl
    rw [hrun] at hnew ⊢
    rcases h : ((dir s a).foldlM (addFunction a) [] : P _).run s with ⟨r, s1⟩
    rw [h] at hq hnew
    have hfull : Full s0 s1 := ⟨hq.inv, fun b p hb => by
        rw [hq.made] at hb
        obtain ⟨h1, h2, h3⟩ := hi.made b p hb
        exact ⟨h1, by rw [hq.ncls]; exact h2, fun hu => (h3 hu).ext h2 hq.ext⟩,
      fun b hb => by rw [hq.cls]; rw [hq.ncls] at hb; exact hi.none b hb,
      fun b p hb => by rw [hq.cls]; rw [hq.made] at hb; exact hi.source b p hb⟩
    cases r with
    | error e => exact ⟨hfull, hq.ext⟩
    | ok d =>
      simp only at hnew ⊢
      rcases newType_cases a d s1 with ⟨e, h6⟩ | ⟨c', h6, h8, h7⟩
      · rw [h6]; exact ⟨hfull, hq.ext⟩
      · rw [h7] at hnew ⊢
        simp only at hnew ⊢
        have he : Ext s1 { s1 with
            cls := fun i => if i = s1.ncls then some { mro := s1.ncls :: INTERFACE_SCORE :: c'.mro, dict := d } else s1.cls i
            ncls := s1.ncls + 1
            clsCache := fun i => if i = a then some s1.ncls else s1.clsCache i } := by
          refine ⟨fun b hb => ?_, by simp, fun _ _ h => h, fun b p hb => ?_⟩
          · have : b ≠ s1.ncls := by omega
            simp [this]
          · have : b ≠ a := fun e => by rw [e, hq.made, hn] at hb; exact absurd hb (by simp)
            simp [this, hb]
        refine ⟨⟨?_, ?_, ?_, ?_⟩, hq.ext.trans he⟩
        · exact ⟨fun b hb => by
              have : b ≠ s1.ncls := by have : s0.ncls ≤ s1.ncls := hq.inv.ncls; omega
              simp only [this, if_false]; exact hq.inv.cls b hb,
            by have : s0.ncls ≤ s1.ncls := hq.inv.ncls; simp only; omega, hq.inv.nfn, hq.inv.fn, hq.inv.cached, hq.inv.new⟩
        · intro b p hb
          by_cases e : b = a
          · subst e
            simp only [if_true, Option.some.injEq] at hb
            subst hb
            refine ⟨hq.inv.ncls, by simp, fun hu => ?_⟩
            obtain ⟨p, s', e1, _, _, _, e5⟩ := hnew hu
            injection e1 with e1 e2
            injection e1 with e1
            subst e1 e2
            exact e5
          · simp only [e, if_false] at hb
            obtain ⟨h1, h2, h3⟩ := hfull.made b p hb
            exact ⟨h1, by simp only; omega, fun hu => (h3 hu).ext h2 he⟩
        · intro b hb
          simp only at hb
          have : b ≠ s1.ncls := by omega
          simp only [this, if_false]
          exact hfull.none b (by omega)
        · have old : ∀ b c, s1.cls b = some c → b ≠ s1.ncls := fun b c hb e => by
            rw [e, hfull.none _ (Nat.le_refl _)] at hb; exact absurd hb (by simp)
          intro b p hb
          by_cases e : b = a
          · subst e
            exact ⟨c', by simp [old b c' h6, h6], h8⟩
          · simp only [e, if_false] at hb
            obtain ⟨c, e1, e2⟩ := hfull.source b p hb
            exact ⟨c, by simp [old b c e1, e1], e2⟩

theorem runs_full (hf : Fresh s0) : ∀ (l : List ClsId) (s : St), Full s0 s → Full s0 (runs s l) ∧ Ext s (runs s l)
  | [], s, hi => ⟨hi, .refl⟩
  | a :: l, s, hi => by
    have h1 := proxyScore_full hf hi a
    have h2 := runs_full hf l _ h1.1
    exact ⟨h2.1, h1.2.trans h2.2⟩

theorem Made.stands (hf : Fresh s0) (hi : Inv s0 s) (h : Made s0 a s p) (hu : Usable s0 a) : Stands s0 a s p := by
  obtain ⟨c, d, h1, h2, h3, h4⟩ := h
  obtain ⟨c', hc', hm, hu⟩ := hu
  rw [h1] at hc'; injection hc' with hc'; subst hc'
  have hlookup : ∀ x, getattr s p x = (d.lookup x).or
      (((s0.cls INTERFACE_SCORE).bind fun c => c.dict.lookup x).or (getattr s0 a x)) := by
    intro x
    have hb := getattr_base hf hi h1 x
    unfold getattr at hb ⊢
    rw [h2]
    rw [hi.cls a (hf.cls a c h1).1, h1] at hb
    rw [h1]
    simp only [Option.bind_eq_bind, Option.bind_some, List.findSome?_cons, h2] at hb ⊢
    rw [hb]
    obtain ⟨ci, hci⟩ := Option.isSome_iff_exists.mp hf.interfaceScore
    rw [hi.cls _ (hf.cls _ ci hci).1, hci]
    simp only [Option.bind_some]
    cases d.lookup x with
    | some v => rfl
    | none =>
      simp only [Option.none_or]
      cases ci.dict.lookup x <;> rfl
  refine ⟨⟨c, d, h1, h2⟩, ?_, ?_, ?_⟩
  · intro x f g b1 b2 b3
    obtain ⟨h, hh⟩ := Option.isSome_iff_exists.mp (h4 x f g b1 b2 b3)
    refine ⟨h, by rw [hlookup, hh]; rfl, ?_⟩
    obtain ⟨f', g', e1, e2, e3, e4⟩ := h3 x h hh
    rw [b1] at e1; injection e1 with e1; subst e1
    obtain ⟨_, _, _, g'', k1, k2, k3⟩ := hi.cached f h e4
    rw [b2] at k1; injection k1 with k1; subst k1
    rw [k3, (hu x f g b1 b2 b3).1, k2]
  · intro x hx
    rw [hlookup]
    cases hd : d.lookup x with
    | none => rfl
    | some h =>
      obtain ⟨f', g', e1, e2, e3, e4⟩ := h3 x h hd
      rw [hx f' g' e1 e2] at e3
      exact absurd e3 (by simp)
  · refine ⟨hi.cls a (hf.cls a c h1).1, fun x => ⟨getattr_base hf hi h1 x, fun f g b1 b2 => ?_⟩⟩
    have := hi.fn f (hf.fn f g b2).1
    rw [b2] at this
    exact ⟨_, this, rfl, rfl⟩

/-! ### C70 -/

/-- C70. `ProxyScore` works whatever was done with it before: after any calls of it for any classes (failed ones too), `ProxyScore(a)`, for an abstract
class as the project's, gives an interface SCORE that stands for `a`; and whatever is done then, `ProxyScore(a)` gives this same class, and it still
stands for `a`. -/
theorem C70_works (hf : Fresh s0) (hu : Usable s0 a) (l : List ClsId) :
    ∃ p s2, (proxyScore a).run (runs s0 l) = (.ok p, s2) ∧ Stands s0 a s2 p ∧
      ∀ l', (proxyScore a).run (runs s2 l') = (.ok p, runs s2 l') ∧ Stands s0 a (runs s2 l') p := by
  have hi := (runs_full hf l s0 (.start hf)).1
  have h2 := proxyScore_full hf hi a
  have key : ∃ p s2, (proxyScore a).run (runs s0 l) = (.ok p, s2) ∧ s2.clsCache a = some p := by
    cases hn : (runs s0 l).clsCache a with
    | some p => exact ⟨p, _, by unfold proxyScore; simp only [run_bind, run_get, hn, run_pure], hn⟩
    | none => obtain ⟨p, s2, b1, b2, _⟩ := proxyScore_new hf hi hu hn; exact ⟨p, s2, b1, b2⟩
  obtain ⟨p, s2, b1, b2⟩ := key
  rw [b1] at h2
  have fin : ∀ l', (runs s2 l').clsCache a = some p ∧ Stands s0 a (runs s2 l') p := by
    intro l'
    have h3 := runs_full hf l' s2 h2.1
    have h4 := h3.2.made a p b2
    obtain ⟨_, _, m3⟩ := h3.1.made a p h4
    exact ⟨h4, (m3 hu).stands hf h3.1.inv hu⟩
  refine ⟨p, s2, b1, (fin []).2, fun l' => ⟨?_, (fin l').2⟩⟩
  unfold proxyScore
  simp only [run_bind, run_get, (fin l').1, run_pure]

/-- C70. An interface SCORE has no abstract methods, so that it can be instantiated (while the class it stands for has as many as before). -/
theorem C70_no_abstract (h : Stands s0 a s p) (hf : Fresh s0)
    (hI : ∀ c x f g, s0.cls INTERFACE_SCORE = some c → c.dict.lookup x = some f → s.fn f = some g → g.abstract = false) :
    abstracts s p = [] := by
  unfold abstracts
  rw [List.filter_eq_nil_iff]
  intro x _ hx
  obtain ⟨c, d, hc, _⟩ := h.order
  by_cases hab : ∃ f g, getattr s0 a x = some f ∧ s0.fn f = some g ∧ g.abstract = true
  · obtain ⟨f, g, b1, b2, b3⟩ := hab
    obtain ⟨k, k1, k2⟩ := h.remote x f g b1 b2 b3
    rw [k1] at hx
    simp [k2] at hx
  · have := h.inherited x (fun f g b1 b2 => by
      cases hb : g.abstract with
      | false => rfl
      | true => exact absurd ⟨f, g, b1, b2, hb⟩ hab)
    rw [this] at hx
    cases hi : (s0.cls INTERFACE_SCORE).bind fun c => c.dict.lookup x with
    | some f =>
      rw [hi] at hx
      cases h0 : s0.cls INTERFACE_SCORE with
      | none => rw [h0] at hi; simp at hi
      | some ci =>
        rw [h0] at hi
        simp only [Option.bind_some] at hi
        simp only [Option.some_or, Option.bind_some] at hx
        cases hg : s.fn f with
        | none => rw [hg] at hx; simp at hx
        | some g => rw [hg] at hx; simp [hI ci x f g h0 hi hg] at hx
    | none =>
      rw [hi, Option.none_or] at hx
      cases hg : getattr s0 a x with
      | none => rw [hg] at hx; simp at hx
      | some f =>
        obtain ⟨g, hgg⟩ := getattr_fn hf hc hg
        obtain ⟨g', e1, e2, _⟩ := (h.untouched.2 x).2 f g hg hgg
        rw [hg] at hx
        simp only [Option.bind_some, e1, Option.any_some] at hx
        exact hab ⟨f, g, hg, hgg, e2 ▸ hx⟩

/-- C70. A method that two abstract classes share is one and the same function in the two interface SCOREs. -/
theorem C70_shared (hf : Fresh s0) (ha : Usable s0 a) (hb : Usable s0 b) (hs : getattr s0 a x = some f) (hs' : getattr s0 b x = some f)
    (hg : s0.fn f = some g) (hab : g.abstract = true) (l : List ClsId) {p q : ClsId} {s1 s2 : St}
    (h1 : (proxyScore a).run (runs s0 l) = (.ok p, s1)) (l' : List ClsId) (h2 : (proxyScore b).run (runs s1 l') = (.ok q, s2)) :
    getattr s2 p x = getattr s2 q x ∧ (getattr s2 p x).isSome := by
  have i0 := (runs_full hf l s0 (.start hf)).1
  have i1 := proxyScore_full hf i0 a
  rw [h1] at i1
  have i2 := runs_full hf l' s1 i1.1
  have i3 := proxyScore_full hf i2.1 b
  rw [h2] at i3
  have mk : ∀ {c p : ClsId} {s s' : St}, (proxyScore c).run s = (.ok p, s') → s'.clsCache c = some p := by
    intro c p s s' h
    cases hn : s.clsCache c with
    | some p' =>
      unfold proxyScore at h
      simp only [run_bind, run_get, hn, run_pure] at h
      injection h with h h'; injection h with h; subst h h'; exact hn
    | none =>
      unfold proxyScore at h
      simp only [run_bind, run_get, hn, run_modify, run_pure] at h
      rcases hc : (createProxyClass c).run s with ⟨r, s1⟩
      rw [hc] at h
      cases r with
      | error e => cases h
      | ok p' => simp only at h; injection h with h h'; injection h with h; subst h h'; simp
  have m1 := i3.2.made a p (i2.2.made a p (mk h1))
  have m2 := mk h2
  obtain ⟨p1, _, p3⟩ := i3.1.made a p m1
  obtain ⟨q1, _, q3⟩ := i3.1.made b q m2
  have key : ∀ {c p : ClsId}, Usable s0 c → Made s0 c s2 p → getattr s0 c x = some f → getattr s2 p x = s2.fnCache f ∧ (s2.fnCache f).isSome := by
    intro c p hu hm hx
    obtain ⟨cc, d, k1, k2, k3, k4⟩ := hm
    obtain ⟨h, hh⟩ := Option.isSome_iff_exists.mp (k4 x f g hx hg hab)
    obtain ⟨f', g', e1, e2, e3, e4⟩ := k3 x h hh
    rw [hx] at e1; injection e1 with e1; subst e1
    refine ⟨?_, by rw [e4]; rfl⟩
    unfold getattr
    rw [k2]
    simp only [Option.bind_eq_bind, Option.bind_some, List.findSome?_cons, k2, hh, e4]
  obtain ⟨a1, a2⟩ := key ha (p3 ha) hs
  obtain ⟨b1, _⟩ := key hb (q3 hb) hs'
  exact ⟨a1.trans b1.symm, by rw [a1]; exact a2⟩

/-- C70. Without the memory for functions this would not be so: the platform refuses to mark a function a second time. -/
theorem C70_interface_twice (f : FnId) (s : St) : ∃ e, ((do let _ ← interface f; interface f : P FnId).run s).1 = .error e := by
  have two : ∀ s g, s.fn f = some g → g.marked = true → ∃ e, ((interface f).run s).1 = .error e := by
    intro s g hg hm
    unfold interface
    simp only [run_bind, run_get, hg, hm, if_true]
    split <;> exact ⟨_, rfl⟩
  rw [run_bind]
  rcases h : (interface f).run s with ⟨r, s'⟩
  cases r with
  | error e => exact ⟨e, rfl⟩
  | ok k =>
    simp only
    unfold interface at h
    simp only [run_bind, run_get] at h
    cases hg : s.fn f with
    | none => rw [hg] at h; cases h
    | some g =>
      rw [hg] at h
      simp only at h
      by_cases hp : g.parts = 2
      · simp only [hp, ne_eq, not_true_eq_false, if_false] at h
        by_cases hm : g.marked = true
        · simp only [hm, if_true] at h; cases h
        · simp only [hm, if_false, run_bind, run_set, run_pure, Bool.false_eq_true] at h
          injection h with h1 h2
          subst h2
          by_cases e : f = s.nfn
          · refine two _ { g with marked := true, wraps := some f } ?_ rfl
            simp [e, hp]
          · refine two _ { g with marked := true } ?_ rfl
            simp [e, hp]
      · simp only [hp, ne_eq, not_false_eq_true, if_true] at h; cases h

/-- C70. `ProxyScore` cannot be applied to interface SCOREs: whatever was done before, it fails on a class derived from `InterfaceScore`, so also on
what it has made itself. -/
theorem C70_refused (hf : Fresh s0) (l : List ClsId) (ha : (runs s0 l).cls a = some c) (hc : INTERFACE_SCORE ∈ c.mro) :
    ∃ e, ((proxyScore a).run (runs s0 l)).1 = .error e := by
  have hi := (runs_full hf l s0 (.start hf)).1
  generalize runs s0 l = s at *
  have hn : s.clsCache a = none := by
    cases hn : s.clsCache a with
    | none => rfl
    | some p =>
      obtain ⟨c', h1, h2⟩ := hi.source a p hn
      rw [ha] at h1; injection h1 with h1; subst h1
      exact absurd hc h2
  have hq := loop_quiet (a := a) hf (dir s a) s [] hi.inv
  unfold proxyScore createProxyClass
  simp only [run_bind, run_get, hn]
  rcases h : ((dir s a).foldlM (addFunction a) [] : P _).run s with ⟨r, s1⟩
  rw [h] at hq
  cases r with
  | error e => exact ⟨e, rfl⟩
  | ok d =>
    simp only
    rcases newType_cases a d s1 with ⟨e, h6⟩ | ⟨c', h6, h8, h7⟩
    · rw [h6]; exact ⟨e, rfl⟩
    · have : s1.cls = s.cls := hq.cls
      rw [this, ha] at h6; injection h6 with h6; subst h6
      exact absurd hc h8

/-- The interface SCOREs that `ProxyScore` has made, it refuses. -/
theorem C70_refuses_itself (hf : Fresh s0) (hu : Usable s0 a) (l : List ClsId) (h : (proxyScore a).run (runs s0 l) = (.ok p, s1)) (l' : List ClsId) :
    ∃ e, ((proxyScore p).run (runs s1 l')).1 = .error e := by
  obtain ⟨p', s2, h1, _, h3⟩ := C70_works hf hu l
  rw [h] at h1; injection h1 with h1 h2; injection h1 with h1; subst h1 h2
  obtain ⟨c, d, _, h5⟩ := (h3 l').2.order
  have : runs s1 l' = runs s0 (l ++ a :: l') := by unfold runs; rw [List.foldl_append, List.foldl_cons]; show _ = List.foldl _ ((proxyScore a).run (runs s0 l)).2 l'; rw [h]
  rw [this] at h5 ⊢
  exact C70_refused hf _ h5 (by simp)

/-! ### The project's classes -/

/-- The classes of the project (the table of C69), with `InterfaceScore` first. -/
def projectClasses : List Py.Class := Py.table.filter (·.name = "InterfaceScore") ++ Py.table.filter (·.name ≠ "InterfaceScore")

/-- The number of a class. -/
def number (x : String) : ClsId := projectClasses.findIdx (·.name = x)

/-- All functions: class, and method. -/
def projectFns : List (String × Py.Method) := projectClasses.flatMap fun c => c.methods.map fun m => (c.name, m)

/-- A method as a function object, when the module is loaded: the body of a class at top level gives it a qualified name of two parts. -/
def functionOf (m : Py.Method) : Fn := ⟨m.name, 2, m.interface, m.abstract, none⟩

/-- The objects when the modules are loaded. -/
def project : St where
  fn f := (projectFns[f]?).map fun e => functionOf e.2
  nfn := projectFns.length
  cls a := (projectClasses[a]?).bind fun c => (Py.mro Py.table 20 c.name).map fun l =>
    { mro := l.map number, dict := c.methods.map fun m => (m.name, projectFns.findIdx fun e => e.1 = c.name ∧ e.2.name = m.name) }
  ncls := projectClasses.length
  fnCache _ := none
  clsCache _ := none

/-- The interfaces that the contracts use through `ProxyScore`. -/
def projectInterfaces : List String :=
  ((Py.table.flatMap Py.Class.uses).eraseDups).filter (· ≠ "TokenFallbackInterface")

/-- `Fresh` and `Usable`, checked. -/
def freshB (s : St) : Bool :=
  (s.cls INTERFACE_SCORE).isSome &&
  (List.range s.ncls).all (fun a => match s.cls a with
    | none => true
    | some c => decide (c.mro.head? = some a) && c.mro.all fun b => match s.cls b with
      | none => false
      | some cb => cb.dict.all fun e => (s.fn e.2).isSome) &&
  (List.range s.nfn).all (fun f => match s.fn f with | none => true | some g => !g.abstract || !g.marked)

def usableB (s : St) (a : ClsId) : Bool := match s.cls a with
  | none => false
  | some c => decide (INTERFACE_SCORE ∉ c.mro) && (dir s a).all fun x => match getattr s a x with
    | none => true
    | some f => match s.fn f with
      | none => true
      | some g => !g.abstract || decide (g.name = x ∧ g.parts = 2)

theorem fresh_of (h : freshB s = true) (h1 : ∀ a, s.ncls ≤ a → s.cls a = none) (h2 : ∀ f, s.nfn ≤ f → s.fn f = none)
    (h3 : ∀ f, s.fnCache f = none) (h4 : ∀ a, s.clsCache a = none) : Fresh s := by
  unfold freshB at h
  rw [Bool.and_eq_true, Bool.and_eq_true, List.all_eq_true, List.all_eq_true] at h
  obtain ⟨⟨a1, a2⟩, a3⟩ := h
  refine ⟨a1, ?_, ?_, h3, h4⟩
  · intro a c ha
    have hlt : a < s.ncls := by
      rcases Nat.lt_or_ge a s.ncls with h | h
      · exact h
      · rw [h1 a h] at ha; exact absurd ha (by simp)
    have := a2 a (List.mem_range.mpr hlt)
    rw [ha] at this
    simp only [Bool.and_eq_true, decide_eq_true_eq, List.all_eq_true] at this
    refine ⟨hlt, this.1, fun b hb => ?_⟩
    have := this.2 b hb
    cases hcb : s.cls b with
    | none => rw [hcb] at this; exact absurd this (by simp)
    | some cb =>
      rw [hcb] at this
      exact ⟨cb, rfl, List.all_eq_true.mp this⟩
  · intro f g hg
    have hlt : f < s.nfn := by
      rcases Nat.lt_or_ge f s.nfn with h | h
      · exact h
      · rw [h2 f h] at hg; exact absurd hg (by simp)
    have := a3 f (List.mem_range.mpr hlt)
    rw [hg] at this
    refine ⟨hlt, fun ha => ?_⟩
    simpa [ha] using this

theorem usable_of (h : usableB s a = true) : Usable s a := by
  unfold usableB at h
  cases hc : s.cls a with
  | none => rw [hc] at h; exact absurd h (by simp)
  | some c =>
    rw [hc] at h
    simp only [Bool.and_eq_true, decide_eq_true_eq, List.all_eq_true] at h
    refine ⟨c, hc, h.1, fun x f g b1 b2 b3 => ?_⟩
    have := h.2 x ((mem_dir hc).mpr ⟨f, b1⟩)
    rw [b1] at this
    simp only [b2, b3, Bool.not_true, Bool.false_or, decide_eq_true_eq] at this
    exact this

set_option maxRecDepth 100000 in
theorem project_freshB : freshB project = true := by decide +kernel

theorem project_fresh : Fresh project := by
  refine fresh_of project_freshB ?_ ?_ (fun _ => rfl) (fun _ => rfl)
  · intro a ha
    show Option.bind _ _ = none
    rw [List.getElem?_eq_none ha]; rfl
  · intro f hf
    show Option.map _ _ = none
    rw [List.getElem?_eq_none hf]; rfl

set_option maxRecDepth 100000 in
theorem project_usableB : projectInterfaces.all (fun x => usableB project (number x)) = true := by decide +kernel

set_option maxRecDepth 100000 in
theorem project_used : projectInterfaces = ["ABCFlexibleToken", "ABCIRCToken", "ABCScoreRegistry", "ABCConverter", "ABCIcxToken"] := by decide +kernel

set_option maxRecDepth 100000 in
theorem project_interfaceScore : ((project.cls INTERFACE_SCORE).map Cls.dict).getD [] = [] := by decide +kernel

/-- C70. The contracts' interfaces: `ProxyScore` works for each that they use, whatever contracts did before, and the result can be instantiated. -/
theorem C70_project : ∀ i ∈ ["ABCFlexibleToken", "ABCIRCToken", "ABCScoreRegistry", "ABCConverter", "ABCIcxToken"], ∀ l : List ClsId,
    ∃ p s, (proxyScore (number i)).run (runs project l) = (.ok p, s) ∧ Stands project (number i) s p ∧ abstracts s p = [] := by
  intro i hi l
  rw [← project_used] at hi
  have hu := usable_of (List.all_eq_true.mp project_usableB i hi)
  obtain ⟨p, s, h1, h2, _⟩ := C70_works project_fresh hu l
  refine ⟨p, s, h1, h2, C70_no_abstract h2 project_fresh ?_⟩
  intro c x f g hc hx
  have := project_interfaceScore
  rw [hc] at this
  simp at this
  rw [this] at hx
  simp at hx

set_option maxRecDepth 100000 in
/-- The hypotheses of `C70_shared` hold of the interfaces of the plain and the flexible token and `transfer`: and so it is one function. -/
example : (getattr project (number "ABCIRCToken") "transfer" = getattr project (number "ABCFlexibleToken") "transfer" ∧
    (((getattr project (number "ABCIRCToken") "transfer").bind project.fn).map Fn.abstract = some true) ∧
    (let s := runs project [number "ABCIRCToken", number "ABCFlexibleToken"]
     getattr s project.ncls "transfer" = getattr s (project.ncls + 1) "transfer" ∧
     (getattr s project.ncls "transfer").bind s.fn = some ⟨"transfer", 2, true, false, getattr project (number "ABCIRCToken") "transfer"⟩)) := by
  decide +kernel

set_option maxRecDepth 100000 in
/-- The hypothesis of `C70_refused` holds of the interface SCORE of irc_token.py. -/
example : ((project.cls (number "TokenFallbackInterface")).map fun c => decide (INTERFACE_SCORE ∈ c.mro)) = some true := by decide +kernel

/-- An abstract class with a method that is also known under a second name. -/
def aliased : St where
  fn f := if f = 0 then some ⟨"send", 2, false, true, none⟩ else none
  nfn := 1
  cls a := if a = 0 then some ⟨[0], []⟩ else if a = 1 then some ⟨[1], [("send", 0), ("transfer", 0)]⟩ else none
  ncls := 2
  fnCache _ := none
  clsCache _ := none

/-- C70. That methods are defined under their own names is needed: a method with a second name stays abstract under it, and the class that
`ProxyScore` makes cannot be instantiated. -/
theorem C70_alias : Fresh aliased ∧ ∃ p s, (proxyScore 1).run aliased = (.ok p, s) ∧ abstracts s p = ["transfer"] := by
  refine ⟨fresh_of (by decide +kernel) ?_ ?_ (fun _ => rfl) (fun _ => rfl), 2, ((proxyScore 1).run aliased).2, ?_, by decide +kernel⟩
  · intro a ha
    have h0 : a ≠ 0 := by have : 2 ≤ a := ha; omega
    have h1 : a ≠ 1 := by have : 2 ≤ a := ha; omega
    simp [aliased, h0, h1]
  · intro f hf
    have h0 : f ≠ 0 := by have : 1 ≤ f := hf; omega
    simp [aliased, h0]
  · rfl

end Verif.Proxy

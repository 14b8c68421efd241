import Verif.Model.Packaging
import Mathlib.Logic.Relation
import Mathlib.Data.List.Basic
/-!
C52: built packages are self-contained and exactly what was asked for.
-/
set_option autoImplicit false
set_option linter.unusedSimpArgs false
namespace Verif.Packaging

/-! ### Specification: what a Python import statement needs -/

/-- The file of a module `a/b/c`, if it is not a package: `a/b/c.py`. -/
def pyFile (m : Path) : Path := m.dropLast ++ [(m.getLast?.getD "") ++ ".py"]

/-- The directory an import with `dots` leading dots in `file` starts from. -/
def baseDir (file : Path) (dots : Nat) : Path := file.dropLast.take (file.dropLast.length - (dots - 1))

/-- The files (relative to the contracts directory, or to the root of a package) that the import statement `i` in `file` makes
Python load: the module or package named, and the `__init__.py` of the packages on the way. `has` tells which files exist. -/
inductive Loads (has : Path → Prop) (file : Path) (i : Import) : Path → Prop where
  | module : has (pyFile (baseDir file i.dots ++ i.name)) → Loads has file i (pyFile (baseDir file i.dots ++ i.name))
  | package : has (baseDir file i.dots ++ i.name ++ ["__init__.py"]) →
      Loads has file i (baseDir file i.dots ++ i.name ++ ["__init__.py"])
  | parent (k : Nat) : 0 < k → k < i.name.length → Loads has file i (baseDir file i.dots ++ i.name.take k ++ ["__init__.py"])

/-- The import statements of a file. -/
def importsOf (file : Path) : List Import := (imports.lookup file).getD []

/-- File `g` of the code base is loaded by an import statement in file `f`. -/
def ImportsFile (f g : Path) : Prop := ∃ i ∈ importsOf f, Loads (· ∈ tree) f i g

/-- Some file of the code base provides what the import statement names. -/
def Provided (f : Path) (i : Import) : Prop :=
  1 ≤ (baseDir f i.dots ++ i.name).length ∧ i.dots - 1 ≤ f.dropLast.length ∧
  (pyFile (baseDir f i.dots ++ i.name) ∈ tree ∨ baseDir f i.dots ++ i.name ++ ["__init__.py"] ∈ tree)

/-- The package contains file `f` of the code base at its place. -/
def Package.contains (p : Package) (root f : Path) : Prop := (root ++ f, p.name :: f) ∈ p.files

/-! ### Which files a package has -/

/-- The files of the code base that go to their place in the package. -/
def placed (cfg : Config) (tree : List Path) (name : String) : List Path :=
  (tree.filter fun p => p.head? = some name ∧ 2 ≤ p.length ∧ p.dropLast.getLast? ≠ some "tests" ∧ "__pycache__" ∉ p.dropLast ∧
    p.getLast? ≠ some "package.json") ++ ((cfg.lookup name).getD []).filter (· ≠ ["NOTICE"])

theorem mem_ownFiles {root : Path} {tree : List Path} {name : String} {f : Path}
    (h : f ∈ tree.filter fun p => p.head? = some name ∧ 2 ≤ p.length ∧ p.dropLast.getLast? ≠ some "tests" ∧
      "__pycache__" ∉ p.dropLast ∧ p.getLast? ≠ some "package.json") : (root ++ f, name :: f) ∈ ownFiles root tree name := by
  simp only [List.mem_filter, decide_eq_true_eq] at h
  obtain ⟨h0, h1, h2, h3, h4, h5⟩ := h
  unfold ownFiles
  rw [List.mem_filterMap]
  exact ⟨f, h0, by rw [if_pos ⟨h1, h2, h3, h4⟩, if_neg h5]⟩

/-- What a package consists of. -/
theorem package_files {cfg : Config} {root : Path} {tree : List Path} {name : String} {p : Package}
    (h : package cfg root tree name = .ok p) : p.name = name ∧ ∃ deps, cfg.lookup name = some deps ∧ deps ≠ [] ∧
      ((∃ l, deps = l ++ [["NOTICE"]] ∧ p.files = ownFiles root tree name ++ noticeFile name ++ dependencyFiles root name l) ∨
       (deps.getLast? ≠ some ["NOTICE"] ∧ p.files = ownFiles root tree name ++ dependencyFiles root name deps)) := by
  unfold package at h
  cases hc : cfg.lookup name with
  | none => rw [hc] at h; cases h
  | some deps =>
    rw [hc] at h
    simp only at h
    cases hl : deps.getLast? with
    | none => rw [hl] at h; cases h
    | some l =>
      rw [hl] at h
      have hd : deps ≠ [] := by rintro rfl; cases hl
      simp only at h
      split at h
      · rename_i e
        cases h
        refine ⟨rfl, deps, rfl, hd, .inl ⟨deps.dropLast, ?_, rfl⟩⟩
        rw [List.getLast?_eq_some_getLast hd] at hl
        have hg : deps.getLast hd = ["NOTICE"] := by rw [Option.some.inj hl, e]
        rw [← hg]
        exact (List.dropLast_append_getLast hd).symm
      · rename_i e
        cases h
        exact ⟨rfl, deps, rfl, hd, .inr ⟨by simpa [hl] using e, rfl⟩⟩

theorem contains_of_placed {cfg : Config} {root : Path} {tree : List Path} {name : String} {p : Package} {f : Path}
    (h : package cfg root tree name = .ok p) (hf : f ∈ placed cfg tree name) : p.contains root f := by
  obtain ⟨hn, deps, hd, _, h⟩ := package_files h
  unfold placed at hf
  rw [hd, Option.getD_some, List.mem_append] at hf
  unfold Package.contains
  rw [hn]
  rcases hf with hf | hf
  · have := mem_ownFiles (root := root) hf
    rcases h with ⟨l, _, h⟩ | ⟨_, h⟩ <;> rw [h] <;> simp [this]
  · rw [List.mem_filter, decide_eq_true_eq] at hf
    rcases h with ⟨l, e, h⟩ | ⟨_, h⟩ <;> rw [h]
    · have : f ∈ l := by
        have := hf.1
        rw [e, List.mem_append, List.mem_singleton] at this
        exact this.resolve_right hf.2
      have : (root ++ f, name :: f) ∈ dependencyFiles root name l := List.mem_map.mpr ⟨f, this, rfl⟩
      simp [this]
    · have : (root ++ f, name :: f) ∈ dependencyFiles root name deps := List.mem_map.mpr ⟨f, hf.1, rfl⟩
      simp [this]

theorem placed_of_contains {cfg : Config} {root : Path} {tree : List Path} {name : String} {p : Package} {f : Path}
    (h : package cfg root tree name = .ok p) (hf : p.contains root f) (hj : f.getLast? ≠ some "package.json")
    (hN : f ≠ ["NOTICE"]) : f ∈ placed cfg tree name := by
  obtain ⟨hn, deps, hd, _, h⟩ := package_files h
  unfold placed
  rw [hd, Option.getD_some, List.mem_append]
  unfold Package.contains at hf
  rw [hn] at hf
  have hown : (root ++ f, name :: f) ∈ ownFiles root tree name → f ∈ tree.filter fun p => p.head? = some name ∧ 2 ≤ p.length ∧
      p.dropLast.getLast? ≠ some "tests" ∧ "__pycache__" ∉ p.dropLast ∧ p.getLast? ≠ some "package.json" := by
    intro hf
    unfold ownFiles at hf
    rw [List.mem_filterMap] at hf
    obtain ⟨q, hq, e⟩ := hf
    split at e
    · rename_i hc
      have e := Option.some.inj e
      have e1 : root ++ q = root ++ f := (Prod.mk.inj e).1
      have e1 := List.append_cancel_left e1
      subst e1
      rw [List.mem_filter, decide_eq_true_eq]
      exact ⟨hq, hc.1, hc.2.1, hc.2.2.1, hc.2.2.2, hj⟩
    · cases e
  have hdep : ∀ l, (root ++ f, name :: f) ∈ dependencyFiles root name l → f ∈ l := by
    intro l hf
    unfold dependencyFiles at hf
    rw [List.mem_map] at hf
    obtain ⟨q, hq, e⟩ := hf
    have := List.append_cancel_left (Prod.mk.inj e).1
    subst this; exact hq
  rcases h with ⟨l, e, h⟩ | ⟨_, h⟩
  · rw [h, List.mem_append, List.mem_append] at hf
    rcases hf with (hf | hf) | hf
    · exact .inl (hown hf)
    · unfold noticeFile at hf
      rw [List.mem_singleton] at hf
      have := (List.cons.inj (Prod.mk.inj hf).2).2
      exact absurd this hN
    · refine .inr (List.mem_filter.mpr ⟨?_, by simpa using hN⟩)
      rw [e, List.mem_append]; exact .inl (hdep l hf)
  · rw [h, List.mem_append] at hf
    rcases hf with hf | hf
    · exact .inl (hown hf)
    · exact .inr (List.mem_filter.mpr ⟨hdep _ hf, by simpa using hN⟩)

/-- The modules and packages loaded, as a list. -/
def loads (f : Path) (i : Import) : List Path :=
  ([pyFile (baseDir f i.dots ++ i.name), baseDir f i.dots ++ i.name ++ ["__init__.py"]].filter (· ∈ tree)) ++
  ((List.range i.name.length).filter (0 < ·)).map fun k => baseDir f i.dots ++ i.name.take k ++ ["__init__.py"]

theorem mem_loads {f : Path} {i : Import} {g : Path} (h : Loads (· ∈ tree) f i g) : g ∈ loads f i := by
  unfold loads
  rw [List.mem_append]
  cases h with
  | module h => exact .inl (List.mem_filter.mpr ⟨by simp, by simpa using h⟩)
  | package h => exact .inl (List.mem_filter.mpr ⟨by simp, by simpa using h⟩)
  | parent k h1 h2 =>
    exact .inr (List.mem_map.mpr ⟨k, List.mem_filter.mpr ⟨List.mem_range.mpr h2, by simpa using h1⟩, rfl⟩)

theorem placed_closed : ∀ name ∈ config.map (·.1), ∀ f ∈ placed config tree name, f.getLast? ≠ some "package.json" ∧ f ≠ ["NOTICE"] ∧
    f ∈ tree ∧ ∀ i ∈ importsOf f, ∀ g ∈ loads f i, g ∈ placed config tree name := by
  decide +kernel

/-- Every import statement of the code base is provided for. -/
theorem C52_provided : ∀ f ∈ tree, ∀ i ∈ importsOf f, Provided f i := by
  unfold Provided
  decide +kernel

theorem lookup_mem {cfg : Config} {name : String} {d : List Path} (h : cfg.lookup name = some d) : name ∈ cfg.map (·.1) := by
  induction cfg with
  | nil => cases h
  | cons q l ih =>
    obtain ⟨k, v⟩ := q
    rw [List.lookup_cons] at h
    split at h
    · rename_i e
      simp at e
      simp [e]
    · exact List.mem_cons_of_mem _ (ih h)

theorem known_of_package {cfg : Config} {root : Path} {tree : List Path} {name : String} {p : Package}
    (h : package cfg root tree name = .ok p) : name ∈ cfg.map (·.1) := by
  obtain ⟨_, _, h, _⟩ := package_files h
  exact lookup_mem h

/-- C52. Every package that is built contains every file of the code base that any of its files imports, at the place where the
import statement looks for it. -/
theorem C52_imports_contained {name : String} {root : Path} {p : Package}
    (h : package config root tree name = .ok p) {f g : Path} (hj : f.getLast? ≠ some "package.json") (hN : f ≠ ["NOTICE"])
    (hf : p.contains root f) (hg : ImportsFile f g) : p.contains root g := by
  obtain ⟨i, hi, hl⟩ := hg
  exact contains_of_placed h ((placed_closed name (known_of_package h) f (placed_of_contains h hf hj hN)).2.2.2 i hi g (mem_loads hl))

/-- C52. ... directly or indirectly. -/
theorem C52_self_contained {name : String} {root : Path} {p : Package}
    (h : package config root tree name = .ok p) {f g : Path} (hj : f.getLast? ≠ some "package.json") (hN : f ≠ ["NOTICE"])
    (hf : p.contains root f) (hg : Relation.ReflTransGen ImportsFile f g) : p.contains root g := by
  suffices g ∈ placed config tree name from contains_of_placed h this
  have h0 := placed_of_contains h hf hj hN
  induction hg with
  | refl => exact h0
  | tail _ h1 ih =>
    obtain ⟨i, hi, hl⟩ := h1
    exact (placed_closed name (known_of_package h) _ ih).2.2.2 i hi _ (mem_loads hl)

theorem main_placed : ∀ name ∈ config.map (·.1), ∃ m ∈ mainFile.map (·.2), mainFile.lookup name = some m ∧ pyFile m ∈ placed config tree name ∧
    [name, "package.json"] ∈ tree ∧ name ≠ "tests" ∧ name ≠ "__pycache__" := by
  decide +kernel

/-- C52. Every package contains its main file, and at its root the package.json that names it. -/
theorem C52_main_file {name : String} {root : Path} {p : Package} (h : package config root tree name = .ok p) :
    ∃ m, mainFile.lookup name = some m ∧ p.contains root (pyFile m) ∧
      (root ++ [name, "package.json"], [name, "package.json"]) ∈ p.files := by
  obtain ⟨m, _, h1, h2, h3, h4, h5⟩ := main_placed name (known_of_package h)
  refine ⟨m, h1, contains_of_placed h h2, ?_⟩
  have : (root ++ [name, "package.json"], [name, "package.json"]) ∈ ownFiles root tree name := by
    unfold ownFiles
    rw [List.mem_filterMap]
    exact ⟨_, h3, by simp [h4, Ne.symm h5]⟩
  obtain ⟨_, _, _, _, ⟨_, _, h⟩ | ⟨_, h⟩⟩ := package_files h <;> rw [h] <;> simp [this]

/-- The configuration names packages that can be built. -/
theorem package_known {name : String} (h : name ∈ config.map (·.1)) (root : Path) : ∃ p, package config root tree name = .ok p := by
  have key : ∀ name ∈ config.map (·.1), ∃ d ∈ config.map (·.2), config.lookup name = some d ∧ d ≠ [] := by decide +kernel
  obtain ⟨d, _, h1, h2⟩ := key name h
  unfold package
  rw [h1]
  simp only
  cases hl : d.getLast? with
  | none => rw [List.getLast?_eq_none_iff] at hl; exact absurd hl h2
  | some l =>
    simp only
    split
    · exact ⟨_, rfl⟩
    · exact ⟨_, rfl⟩

/-! ### What the build leaves in the file system -/

/-- Where a package puts things: below its own name. -/
def Package.inside (p : Package) : Prop := ∀ q ∈ p.files, ∃ r, q.2 = p.name :: r

theorem package_inside {cfg : Config} {root : Path} {tree : List Path} {name : String} {p : Package}
    (h : package cfg root tree name = .ok p) : p.inside := by
  obtain ⟨hn, deps, _, _, h⟩ := package_files h
  have h1 : ∀ q ∈ ownFiles root tree name, ∃ r, q.2 = name :: r := by
    intro q hq
    unfold ownFiles at hq
    rw [List.mem_filterMap] at hq
    obtain ⟨f, _, e⟩ := hq
    split at e
    · cases e
      split <;> exact ⟨_, rfl⟩
    · cases e
  have h2 : ∀ l, ∀ q ∈ dependencyFiles root name l, ∃ r, q.2 = name :: r := by
    intro l q hq
    unfold dependencyFiles at hq
    rw [List.mem_map] at hq
    obtain ⟨f, _, rfl⟩ := hq
    exact ⟨_, rfl⟩
  intro q hq
  rw [hn]
  rcases h with ⟨l, _, h⟩ | ⟨_, h⟩
  · rw [h, List.mem_append, List.mem_append] at hq
    rcases hq with (hq | hq) | hq
    · exact h1 q hq
    · simp only [noticeFile, List.mem_singleton] at hq
      subst hq; exact ⟨_, rfl⟩
    · exact h2 l q hq
  · rw [h, List.mem_append] at hq
    rcases hq with hq | hq
    · exact h1 q hq
    · exact h2 _ q hq

/-- The sources of the packages are not below the output directory. -/
def Apart (out : Path) (l : List (Path × Path)) : Prop := ∀ q ∈ l, ¬ out <+: q.1

/-- Copying files: what is at a target afterwards is what was at a source for it; everything else is as before. -/
theorem copyAll_spec {out : Path} : ∀ {l : List (Path × Path)} {fs fs' : FS}, Apart out l → copyAll out l fs = some fs' →
    (∀ q, (∃ s, (s, q) ∈ l) → ∃ s, (s, q) ∈ l ∧ fs s ≠ none ∧ fs' (out ++ q) = fs s) ∧
    ∀ q, (∀ d, q = out ++ d → ∀ s, (s, d) ∉ l) → fs' q = fs q := by
  intro l
  induction l with
  | nil =>
    intro fs fs' _ h
    cases h
    refine ⟨?_, fun _ _ => rfl⟩
    rintro q ⟨s, h⟩
    cases h
  | cons p l ih =>
    obtain ⟨s, d⟩ := p
    intro fs fs' ha h
    simp only [copyAll, copyFile] at h
    cases hc : fs s with
    | none => rw [hc] at h; cases h
    | some c =>
      rw [hc] at h
      simp only [Option.bind_some] at h
      have ha' : Apart out l := fun q hq => ha q (List.mem_cons_of_mem _ hq)
      obtain ⟨h1, h2⟩ := ih ha' h
      have hsrc : ∀ r, (∃ d', (r, d') ∈ (s, d) :: l) → upd fs (out ++ d) (some c) r = fs r := by
        rintro r ⟨d', hr⟩
        unfold upd
        rw [if_neg]
        rintro rfl
        exact ha _ hr (List.prefix_append _ _)
      constructor
      · rintro q ⟨s', hq⟩
        by_cases hin : ∃ s', (s', q) ∈ l
        · obtain ⟨r, hr, hr1, hr2⟩ := h1 q hin
          have e := hsrc r ⟨q, List.mem_cons_of_mem _ hr⟩
          rw [e] at hr1 hr2
          exact ⟨r, List.mem_cons_of_mem _ hr, hr1, hr2⟩
        · rw [List.mem_cons] at hq
          rcases hq with hq | hq
          · obtain ⟨rfl, rfl⟩ := Prod.mk.inj hq
            refine ⟨s', List.mem_cons_self, by rw [hc]; nofun, ?_⟩
            rw [h2 (out ++ q) (fun d' e r hr => hin ⟨r, by rw [List.append_cancel_left e]; exact hr⟩), hc]
            simp [upd]
          · exact absurd ⟨_, hq⟩ hin
      · intro q hq
        rw [h2 q fun d' e r hr => hq d' e r (List.mem_cons_of_mem _ hr)]
        unfold upd
        rw [if_neg]
        rintro rfl
        exact hq d rfl s List.mem_cons_self

/-- C52. Building packages leaves in the output directory of each of them exactly its files, each with the content of a source
listed for it - nothing survives from an earlier build - and touches nothing else. -/
theorem C52_build_exact {out : Path} : ∀ {l : List Package} {fs fs' : FS}, (∀ p ∈ l, p.inside ∧ Apart out p.files) →
    (∀ p ∈ l, ∀ p' ∈ l, p.name = p'.name → p = p') → writeFiles out l fs = some fs' →
    (∀ p ∈ l, ∀ q, (∃ s, (s, p.name :: q) ∈ p.files ∧ fs s ≠ none ∧ fs' (out ++ p.name :: q) = fs s) ∨
      ((∀ s, (s, p.name :: q) ∉ p.files) ∧ fs' (out ++ p.name :: q) = none)) ∧
    ∀ q, (∀ p ∈ l, ¬ (out ++ [p.name]) <+: q) → fs' q = fs q := by
  intro l
  induction l with
  | nil => intro fs fs' _ _ h; cases h; exact ⟨(by intro p hp; cases hp), fun _ _ => rfl⟩
  | cons p l ih =>
    intro fs fs' hl hu h
    simp only [writeFiles] at h
    cases hc : copyAll out p.files (removeTree (out ++ [p.name]) fs) with
    | none => rw [hc] at h; cases h
    | some fs1 =>
      rw [hc] at h
      simp only [Option.bind_some] at h
      obtain ⟨h1, h2⟩ := copyAll_spec (hl p List.mem_cons_self).2 hc
      obtain ⟨h3, h4⟩ := ih (fun p hp => hl p (List.mem_cons_of_mem _ hp))
        (fun a ha b hb => hu a (List.mem_cons_of_mem _ ha) b (List.mem_cons_of_mem _ hb)) h
      -- sources are not touched
      have hrem : ∀ s, ¬ out <+: s → removeTree (out ++ [p.name]) fs s = fs s := by
        intro s hs
        unfold removeTree
        rw [if_neg]
        exact fun e => hs ((List.prefix_append _ _).trans e)
      have hfs1 : ∀ s, ¬ out <+: s → fs1 s = fs s := by
        intro s hs
        rw [h2 s (fun d e => absurd (by rw [e]; exact List.prefix_append _ _) hs), hrem s hs]
      have hp : ∀ q, (∃ s, (s, p.name :: q) ∈ p.files ∧ fs s ≠ none ∧ fs1 (out ++ p.name :: q) = fs s) ∨
          ((∀ s, (s, p.name :: q) ∉ p.files) ∧ fs1 (out ++ p.name :: q) = none) := by
        intro q
        by_cases hq : ∃ s, (s, p.name :: q) ∈ p.files
        · obtain ⟨s, hs, hs1, hs2⟩ := h1 _ hq
          have e := hrem s ((hl p List.mem_cons_self).2 _ hs)
          rw [e] at hs1 hs2
          exact .inl ⟨s, hs, hs1, hs2⟩
        · refine .inr ⟨fun s hs => hq ⟨s, hs⟩, ?_⟩
          rw [h2 _ (fun d e s hs => hq ⟨s, by rw [List.append_cancel_left e]; exact hs⟩)]
          unfold removeTree
          rw [if_pos]
          exact ⟨q, by simp⟩
      constructor
      · intro p' hp' q
        by_cases hin : ∃ p2 ∈ l, p2.name = p'.name
        · obtain ⟨p2, hp2, e⟩ := hin
          have e2 : p2 = p' := hu p2 (List.mem_cons_of_mem _ hp2) p' hp' e
          subst e2
          rcases h3 p2 hp2 q with ⟨s, a, b, c⟩ | h
          · have e := hfs1 s ((hl p2 hp').2 _ a)
            rw [e] at b c
            exact .inl ⟨s, a, b, c⟩
          · exact .inr h
        · have hpp : p' = p := by
            rw [List.mem_cons] at hp'
            exact hp'.resolve_right fun hp' => hin ⟨p', hp', rfl⟩
          subst hpp
          rw [h4 (out ++ p'.name :: q)]
          · exact hp q
          · rintro p2 hp2 ⟨r, e⟩
            rw [List.append_assoc] at e
            have e := List.append_cancel_left e
            simp only [List.singleton_append] at e
            exact hin ⟨p2, hp2, (List.cons.inj e).1⟩
      · intro q hq
        rw [h4 q fun p hp => hq p (List.mem_cons_of_mem _ hp)]
        have hq0 := hq p List.mem_cons_self
        rw [h2 q ?_]
        · unfold removeTree; rw [if_neg hq0]
        · rintro d rfl s hs
          obtain ⟨r, hr⟩ := (hl p List.mem_cons_self).1 _ hs
          apply hq0
          refine ⟨r, ?_⟩
          simp only at hr
          rw [hr]; simp

/-- Where file `q` of the package of contract `name` comes from: the contract's own files (but for tests and caches) and those
listed as its dependencies are at the place they have in the contracts directory, the contract's package.json and the NOTICE, if
listed, are at the root. -/
inductive Source (root : Path) (name : String) : Path → Path → Prop where
  | own (f : Path) : f ∈ tree → f.head? = some name → 2 ≤ f.length → f.dropLast.getLast? ≠ some "tests" → "__pycache__" ∉ f.dropLast →
      f.getLast? ≠ some "package.json" → Source root name f (root ++ f)
  | listed (deps : List Path) (f : Path) : config.lookup name = some deps → f ∈ deps → f ≠ ["NOTICE"] → Source root name f (root ++ f)
  | json : Source root name ["package.json"] (root ++ [name, "package.json"])
  | notice (deps : List Path) : config.lookup name = some deps → ["NOTICE"] ∈ deps → Source root name ["NOTICE"] ["NOTICE"]

theorem source_placed {root : Path} {name : String} {q s : Path} (h : Source root name q s) :
    (q ∈ placed config tree name ∧ s = root ++ q) ∨ (q = ["package.json"] ∧ s = root ++ [name, "package.json"]) ∨
      (q = ["NOTICE"] ∧ s = ["NOTICE"] ∧ ["NOTICE"] ∈ (config.lookup name).getD []) := by
  cases h with
  | own f h1 h2 h3 h4 h5 h6 =>
    refine .inl ⟨?_, rfl⟩
    unfold placed
    rw [List.mem_append, List.mem_filter, decide_eq_true_eq]
    exact .inl ⟨h1, h2, h3, h4, h5, h6⟩
  | listed deps f h1 h2 h3 =>
    refine .inl ⟨?_, rfl⟩
    unfold placed
    rw [List.mem_append, h1, Option.getD_some]
    refine .inr ?_
    rw [List.mem_filter, decide_eq_true_eq]
    exact ⟨h2, h3⟩
  | json => exact .inr (.inl ⟨rfl, rfl⟩)
  | notice deps h1 h2 => exact .inr (.inr ⟨rfl, rfl, by rw [h1]; exact h2⟩)

theorem placed_source {root : Path} {name : String} {q : Path} (h : q ∈ placed config tree name) : Source root name q (root ++ q) := by
  unfold placed at h
  rw [List.mem_append, List.mem_filter, List.mem_filter, decide_eq_true_eq, decide_eq_true_eq] at h
  rcases h with ⟨h1, h2, h3, h4, h5, h6⟩ | ⟨h1, h2⟩
  · exact .own q h1 h2 h3 h4 h5 h6
  · cases hd : config.lookup name with
    | none => rw [hd, Option.getD_none] at h1; cases h1
    | some d => rw [hd, Option.getD_some] at h1; exact Source.listed d q hd h1 h2

/-- A file of a package has one source only. -/
theorem source_unique {root : Path} {name : String} (hk : name ∈ config.map (·.1)) {q s s' : Path} (h : Source root name q s)
    (h' : Source root name q s') : s = s' := by
  have hj : ∀ r : Path, r ∈ placed config tree name → r ≠ ["package.json"] ∧ r ≠ ["NOTICE"] := fun r hr =>
    ⟨fun e => (placed_closed name hk r hr).1 (by rw [e]; rfl), (placed_closed name hk r hr).2.1⟩
  rcases source_placed h with ⟨h1, h2⟩ | ⟨h1, h2⟩ | ⟨h1, h2, _⟩ <;>
    rcases source_placed h' with ⟨g1, g2⟩ | ⟨g1, g2⟩ | ⟨g1, g2, _⟩
  · rw [h2, g2]
  · exact absurd g1 (hj q h1).1
  · exact absurd g1 (hj q h1).2
  · exact absurd h1 (hj q g1).1
  · rw [h2, g2]
  · rw [h1] at g1; exact absurd g1 (by decide)
  · exact absurd h1 (hj q g1).2
  · rw [h1] at g1; exact absurd g1 (by decide)
  · rw [h2, g2]

theorem notice_last : ∀ name ∈ config.map (·.1), ["NOTICE"] ∈ (config.lookup name).getD [] →
    ((config.lookup name).getD []).getLast? = some ["NOTICE"] := by decide +kernel

theorem json_own : ∀ f ∈ tree, ∀ name ∈ config.map (·.1), f.head? = some name → f.getLast? = some "package.json" →
    f = [name, "package.json"] := by decide +kernel

/-- The files of a package that is built are those the configuration asks for. -/
theorem package_exact {root : Path} {name : String} {p : Package} (h : package config root tree name = .ok p)
    (s q : Path) : (s, name :: q) ∈ p.files ↔ Source root name q s := by
  have hk := known_of_package h
  obtain ⟨hn, deps, hd, hne, hf⟩ := package_files h
  constructor
  · intro hm
    have hown : (s, name :: q) ∈ ownFiles root tree name → Source root name q s := by
      intro hm
      unfold ownFiles at hm
      rw [List.mem_filterMap] at hm
      obtain ⟨f, hf, e⟩ := hm
      split at e
      · rename_i hc
        have e := Option.some.inj e
        have e1 := (Prod.mk.inj e).1
        have e2 := (Prod.mk.inj e).2
        subst e1
        split at e2
        · rename_i hj
          have hq := (List.cons.inj e2).2
          subst hq
          rw [json_own f hf name hk hc.1 hj]
          exact .json
        · rename_i hj
          have hq := (List.cons.inj e2).2
          subst hq
          exact .own f hf hc.1 hc.2.1 hc.2.2.1 hc.2.2.2 hj
      · cases e
    have hdep : ∀ l, (∀ f ∈ l, f ∈ deps ∧ f ≠ ["NOTICE"]) → (s, name :: q) ∈ dependencyFiles root name l → Source root name q s := by
      intro l hl hm
      unfold dependencyFiles at hm
      rw [List.mem_map] at hm
      obtain ⟨f, hf, e⟩ := hm
      have e1 := (Prod.mk.inj e).1
      have e2 := (List.cons.inj (Prod.mk.inj e).2).2
      subst e1; subst e2
      exact .listed deps f hd (hl f hf).1 (hl f hf).2
    have hplaced : ∀ f ∈ deps, f ≠ ["NOTICE"] → f ∈ placed config tree name := by
      intro f hf hN
      unfold placed
      rw [hd, Option.getD_some, List.mem_append]
      refine .inr ?_
      rw [List.mem_filter, decide_eq_true_eq]
      exact ⟨hf, hN⟩
    rcases hf with ⟨l, e, hf⟩ | ⟨hl, hf⟩
    · rw [hf, List.mem_append, List.mem_append] at hm
      have hN : ["NOTICE"] ∈ deps := by rw [e]; simp
      have hnl : ["NOTICE"] ∉ l := by
        have key : ∀ d ∈ config.map (·.2), ["NOTICE"] ∉ d.dropLast := by decide +kernel
        have hmem : ∀ (c : Config) (d : List Path), c.lookup name = some d → d ∈ c.map (·.2) := by
          intro c
          induction c with
          | nil => intro d h; cases h
          | cons x c ih =>
            obtain ⟨k, v⟩ := x
            intro d h
            rw [List.lookup_cons] at h
            split at h
            · cases h; simp
            · exact List.mem_cons_of_mem _ (ih d h)
        have := key deps (hmem config deps hd)
        rw [e, List.dropLast_concat] at this
        exact this
      rcases hm with (hm | hm) | hm
      · exact hown hm
      · unfold noticeFile at hm
        rw [List.mem_singleton] at hm
        have e1 := (Prod.mk.inj hm).1
        have e2 := (List.cons.inj (Prod.mk.inj hm).2).2
        subst e1; subst e2
        exact .notice deps hd hN
      · exact hdep l (fun f hf => ⟨by rw [e]; simp [hf], fun e => hnl (e ▸ hf)⟩) hm
    · rw [hf, List.mem_append] at hm
      rcases hm with hm | hm
      · exact hown hm
      · refine hdep deps (fun f hf => ⟨hf, ?_⟩) hm
        rintro rfl
        have := notice_last name hk
        rw [hd, Option.getD_some] at this
        exact hl (this hf)
  · intro hs
    rcases source_placed hs with ⟨h1, h2⟩ | ⟨h1, h2⟩ | ⟨h1, h2, h3⟩
    · subst h2
      have := contains_of_placed h h1
      unfold Package.contains at this
      rwa [hn] at this
    · subst h1; subst h2
      obtain ⟨_, _, _, h⟩ := C52_main_file h
      exact h
    · subst h1; subst h2
      rw [hd, Option.getD_some] at h3
      have h4 := notice_last name hk
      rw [hd, Option.getD_some] at h4
      rcases hf with ⟨l, e, hf⟩ | ⟨hl, hf⟩
      · rw [hf]; simp [noticeFile]
      · exact absurd (h4 h3) hl

/-- C52. What the build tool does, for any list of contracts in the configuration (none means all of them), if the sources are
there and the output directory is apart from them: it succeeds; afterwards each file of each package has its source's content,
there is nothing else in the packages' directories, whatever was there before, and nothing else has changed. -/
theorem C52_build {root out : Path} {names : List String} {fs : FS} (h1 : ¬ out <+: root) (h2 : ¬ root <+: out)
    (h3 : ¬ out <+: ["NOTICE"]) (hn : ∀ n ∈ names, n ∈ config.map (·.1)) (hs : ∀ f ∈ tree, fs (root ++ f) ≠ none)
    (hN : fs ["NOTICE"] ≠ none) :
    ∃ fs', main config root tree out names fs = some fs' ∧
      (∀ n, (if names = [] then n ∈ config.map (·.1) else n ∈ names) → ∀ q,
        (∀ s, Source root n q s → fs s ≠ none ∧ fs' (out ++ n :: q) = fs s) ∧
        ((∀ s, ¬ Source root n q s) → fs' (out ++ n :: q) = none)) ∧
      ∀ q, (∀ n, (if names = [] then n ∈ config.map (·.1) else n ∈ names) → ¬ (out ++ [n]) <+: q) → fs' q = fs q := by
  classical
  -- the names
  obtain ⟨ns, hns⟩ : ∃ ns, ns = (if names = [] then config.map (·.1) else names) := ⟨_, rfl⟩
  have hns1 : ∀ n ∈ ns, n ∈ config.map (·.1) := by
    intro n h; rw [hns] at h; split at h
    · exact h
    · exact hn n h
  have hns2 : ∀ n, (if names = [] then n ∈ config.map (·.1) else n ∈ names) ↔ n ∈ ns := by
    intro n; rw [hns]; split <;> rfl
  -- the packages
  have hpk : ∀ l : List String, (∀ n ∈ l, n ∈ config.map (·.1)) → ∃ ps, l.mapM (package config root tree) = .ok ps ∧
      ps.map (·.name) = l ∧ ∀ p ∈ ps, package config root tree p.name = .ok p := by
    intro l
    induction l with
    | nil => intro _; exact ⟨[], rfl, rfl, by intro p hp; cases hp⟩
    | cons n l ih =>
      intro h
      obtain ⟨p, hp⟩ := package_known (h n List.mem_cons_self) root
      obtain ⟨ps, e1, e2, e3⟩ := ih fun n hn => h n (List.mem_cons_of_mem _ hn)
      have hpn : p.name = n := (package_files hp).1
      refine ⟨p :: ps, ?_, ?_, ?_⟩
      · rw [List.mapM_cons, hp, e1]; rfl
      · rw [List.map_cons, e2, hpn]
      · intro p' hp'
        rw [List.mem_cons] at hp'
        rcases hp' with rfl | hp'
        · rw [hpn]; exact hp
        · exact e3 p' hp'
  obtain ⟨ps, e1, e2, e3⟩ := hpk ns hns1
  have hmain : main config root tree out names fs = writeFiles out ps fs := by
    have hp : packages config root tree names = .ok ps := by unfold packages; rw [← hns]; exact e1
    unfold main
    split
    · rename_i c
      exact absurd (hn "clean" List.mem_cons_self) (by decide +kernel)
    · rw [hp]
  have hdeps : ∀ n ∈ config.map (·.1), ∀ q s, Source root n q s → fs s ≠ none ∧ ¬ out <+: s := by
    have key : ∀ f : Path, ¬ out <+: root ++ f := by
      intro f h
      rcases List.prefix_or_prefix_of_prefix h (List.prefix_append root f) with h | h
      · exact h1 h
      · exact h2 h
    intro n hn q s hsrc
    rcases source_placed hsrc with ⟨g1, g2⟩ | ⟨g1, g2⟩ | ⟨g1, g2, g3⟩
    · subst g2
      exact ⟨hs q (placed_closed n hn q g1).2.2.1, key q⟩
    · subst g2
      obtain ⟨_, _, _, _, g, _⟩ := main_placed n hn
      exact ⟨hs _ g, key _⟩
    · subst g2; exact ⟨hN, h3⟩
  have hfiles : ∀ p ∈ ps, p.inside ∧ Apart out p.files ∧ ∀ x ∈ p.files, fs x.1 ≠ none := by
    intro p hp
    have hpk := e3 p hp
    have hin := package_inside hpk
    have hall : ∀ x ∈ p.files, fs x.1 ≠ none ∧ ¬ out <+: x.1 := by
      rintro ⟨s, t⟩ hx
      obtain ⟨r, hr'⟩ := hin _ hx
      simp only at hr'
      subst hr'
      exact hdeps p.name (known_of_package hpk) r s ((package_exact hpk s r).mp hx)
    exact ⟨hin, fun x hx => (hall x hx).2, fun x hx => (hall x hx).1⟩
  -- success
  have hcopy : ∀ (l : List (Path × Path)) (g : FS), Apart out l → (∀ x ∈ l, g x.1 ≠ none) →
      ∃ g', copyAll out l g = some g' ∧ ∀ s, ¬ out <+: s → g' s = g s := by
    intro l
    induction l with
    | nil => intro g _ _; exact ⟨g, rfl, fun _ _ => rfl⟩
    | cons x l ih =>
      obtain ⟨s, t⟩ := x
      intro g ha hg
      obtain ⟨c, hc⟩ := Option.ne_none_iff_exists'.mp (hg (s, t) List.mem_cons_self)
      have hsame : ∀ r, ¬ out <+: r → upd g (out ++ t) (some c) r = g r := by
        intro r hr
        unfold upd
        rw [if_neg]
        rintro rfl
        exact hr (List.prefix_append _ _)
      obtain ⟨g', e, h⟩ := ih (upd g (out ++ t) (some c)) (fun x hx => ha x (List.mem_cons_of_mem _ hx))
        (fun x hx => by rw [hsame _ (ha x (List.mem_cons_of_mem _ hx))]; exact hg x (List.mem_cons_of_mem _ hx))
      refine ⟨g', ?_, fun r hr => by rw [h r hr, hsame r hr]⟩
      simp only [copyAll, copyFile, hc, Option.bind_some]
      exact e
  have hwrite : ∀ (l : List Package) (g : FS), (∀ p ∈ l, Apart out p.files ∧ ∀ x ∈ p.files, g x.1 ≠ none) →
      ∃ g', writeFiles out l g = some g' := by
    intro l
    induction l with
    | nil => intro g _; exact ⟨g, rfl⟩
    | cons p l ih =>
      intro g hg
      have hrem : ∀ s, ¬ out <+: s → removeTree (out ++ [p.name]) g s = g s := by
        intro s hs
        unfold removeTree
        rw [if_neg]
        exact fun e => hs ((List.prefix_append _ _).trans e)
      obtain ⟨ha, hx⟩ := hg p List.mem_cons_self
      obtain ⟨g1, e, h⟩ := hcopy p.files (removeTree (out ++ [p.name]) g) ha (fun x hx' => by rw [hrem _ (ha x hx')]; exact hx x hx')
      obtain ⟨g2, e2⟩ := ih g1 (fun p' hp' => by
        obtain ⟨ha', hx'⟩ := hg p' (List.mem_cons_of_mem _ hp')
        exact ⟨ha', fun x hm => by rw [h _ (ha' x hm), hrem _ (ha' x hm)]; exact hx' x hm⟩)
      refine ⟨g2, ?_⟩
      simp only [writeFiles, e, Option.bind_some]
      exact e2
  obtain ⟨fs', hw⟩ := hwrite ps fs fun p hp => (hfiles p hp).2
  have huniq : ∀ p ∈ ps, ∀ p' ∈ ps, p.name = p'.name → p = p' := by
    intro p hp p' hp' e
    have a := e3 p hp
    rw [e, e3 p' hp'] at a
    exact (Except.ok.inj a).symm
  obtain ⟨k1, k2⟩ := C52_build_exact (fun p hp => ⟨(hfiles p hp).1, (hfiles p hp).2.1⟩) huniq hw
  refine ⟨fs', hmain.trans hw, ?_, ?_⟩
  · intro n hn' q
    rw [hns2, ← e2, List.mem_map] at hn'
    obtain ⟨p, hp, rfl⟩ := hn'
    have hpk := e3 p hp
    have hk := known_of_package hpk
    constructor
    · intro s hsrc
      rcases k1 p hp q with ⟨s', a, b, c⟩ | ⟨a, _⟩
      · have := source_unique hk hsrc ((package_exact hpk s' q).mp a)
        subst this
        exact ⟨b, c⟩
      · exact absurd ((package_exact hpk s q).mpr hsrc) (a s)
    · intro hno
      rcases k1 p hp q with ⟨s', a, _⟩ | ⟨_, b⟩
      · exact absurd ((package_exact hpk s' q).mp a) (hno s')
      · exact b
  · intro q hq
    refine k2 q fun p hp => hq p.name ?_
    rw [hns2, ← e2]
    exact List.mem_map_of_mem hp

/-- C52. A name that is not in the configuration: nothing is written at all. -/
theorem C52_unknown {root out : Path} {names : List String} {fs : FS} (hc : names.head? ≠ some "clean")
    (h : ∃ n ∈ names, n ∉ config.map (·.1)) : main config root tree out names fs = some fs := by
  have key : ∀ l : List String, (∃ n ∈ l, n ∉ config.map (·.1)) → l.mapM (package config root tree) = .error "KeyError" := by
    intro l
    induction l with
    | nil => rintro ⟨n, hn, _⟩; cases hn
    | cons m l ih =>
      rintro ⟨n, hn, hx⟩
      rw [List.mapM_cons]
      by_cases hm : m ∈ config.map (·.1)
      · obtain ⟨p, hp⟩ := package_known hm root
        rw [List.mem_cons] at hn
        rcases hn with rfl | hn
        · exact absurd hm hx
        · rw [hp, ih ⟨n, hn, hx⟩]; rfl
      · have : package config root tree m = .error "KeyError" := by
          unfold package
          cases hl : config.lookup m with
          | none => rfl
          | some d => exact absurd (lookup_mem hl) hm
        rw [this]; rfl
  have hne : names ≠ [] := by rintro rfl; obtain ⟨n, hn, _⟩ := h; cases hn
  have hp : packages config root tree names = .error "KeyError" := by
    unfold packages; rw [if_neg hne]; exact key names h
  unfold main
  split
  · exact absurd rfl hc
  · rw [hp]; rfl

/-- C52. `clean` removes everything in the output directory and nothing else. -/
theorem C52_clean {root out : Path} {rest : List String} {fs : FS} : ∃ fs', main config root tree out ("clean" :: rest) fs = some fs' ∧
    ∀ q, (out <+: q → fs' q = none) ∧ (¬ out <+: q → fs' q = fs q) := by
  refine ⟨clean out fs, rfl, fun q => ⟨fun h => ?_, fun h => ?_⟩⟩ <;> unfold clean removeTree
  · rw [if_pos h]
  · rw [if_neg h]

/-- C52. An archive written by the zip writer and stored to a directory gives every file the content of its source (if no two
sources are listed for one file), and leaves nothing else in that directory. -/
theorem C52_zip {out : Path} {pkgs : List Package} {fs : FS} {z : List (Path × Nat)} (h : writeZip pkgs fs = some z)
    (hu : ∀ s s' d, (s, d) ∈ pkgs.flatMap (·.files) → (s', d) ∈ pkgs.flatMap (·.files) → s = s') :
    (∀ s d, (s, d) ∈ pkgs.flatMap (·.files) → fs s ≠ none ∧ storeToFile out z fs (out ++ d) = fs s) ∧
    (∀ d, (∀ s, (s, d) ∉ pkgs.flatMap (·.files)) → storeToFile out z fs (out ++ d) = none) ∧
    ∀ q, ¬ out <+: q → storeToFile out z fs q = fs q := by
  unfold writeZip at h
  generalize pkgs.flatMap (·.files) = l at h hu
  have hz : ∀ (l : List (Path × Path)) (z : List (Path × Nat)), zipEntries fs l = some z →
      (∀ d c, (d, c) ∈ z ↔ ∃ s, (s, d) ∈ l ∧ fs s = some c) ∧ ∀ s d, (s, d) ∈ l → fs s ≠ none := by
    intro l
    induction l with
    | nil => intro z h; cases h; simp
    | cons x l ih =>
      obtain ⟨s, d⟩ := x
      intro z h
      simp only [zipEntries] at h
      split at h
      · rename_i c r hc hr
        cases h
        obtain ⟨i1, i2⟩ := ih r hr
        constructor
        · intro d' c'
          simp only [List.mem_cons, Prod.mk.injEq, i1]
          constructor
          · rintro (⟨rfl, rfl⟩ | ⟨s', h1, h2⟩)
            · exact ⟨s, .inl ⟨rfl, rfl⟩, hc⟩
            · exact ⟨s', .inr h1, h2⟩
          · rintro ⟨s', ⟨rfl, rfl⟩ | h1, h2⟩
            · rw [hc] at h2; cases h2; exact .inl ⟨rfl, rfl⟩
            · exact .inr ⟨s', h1, h2⟩
        · intro s' d' h
          simp only [List.mem_cons, Prod.mk.injEq] at h
          rcases h with ⟨rfl, rfl⟩ | h
          · rw [hc]; nofun
          · exact i2 s' d' h
      · cases h
  have hx : ∀ (z : List (Path × Nat)) (g : FS) (q : Path), (∃ d c, q = out ++ d ∧ (d, c) ∈ z ∧ extractAll out z g q = some c) ∨
      ((∀ d c, q = out ++ d → (d, c) ∉ z) ∧ extractAll out z g q = g q) := by
    intro z
    induction z with
    | nil => intro g q; exact .inr ⟨by simp, rfl⟩
    | cons x z ih =>
      obtain ⟨d, c⟩ := x
      intro g q
      simp only [extractAll]
      rcases ih (upd g (out ++ d) (some c)) q with ⟨d', c', e, hm, h⟩ | ⟨hm, h⟩
      · exact .inl ⟨d', c', e, List.mem_cons_of_mem _ hm, h⟩
      · by_cases e : q = out ++ d
        · exact .inl ⟨d, c, e, List.mem_cons_self, by rw [h, e]; simp [upd]⟩
        · refine .inr ⟨fun d' c' e' hm' => ?_, by rw [h]; simp [upd, e]⟩
          rw [List.mem_cons] at hm'
          rcases hm' with hm' | hm'
          · rw [(Prod.mk.inj hm').1] at e'; exact e e'
          · exact hm d' c' e' hm'
  obtain ⟨z1, z2⟩ := hz l z h
  unfold storeToFile
  refine ⟨fun s d hm => ⟨z2 s d hm, ?_⟩, fun d hm => ?_, fun q hq => ?_⟩
  · rcases hx z (removeTree out fs) (out ++ d) with ⟨d', c, e, hm', h⟩ | ⟨hm', h⟩
    · have := List.append_cancel_left e
      subst this
      obtain ⟨s', a, b⟩ := (z1 d c).mp hm'
      have := hu s s' d hm a
      subst this
      rw [h, b]
    · obtain ⟨c, hc⟩ := Option.ne_none_iff_exists'.mp (z2 s d hm)
      exact absurd ((z1 d c).mpr ⟨s, hm, hc⟩) (hm' d c rfl)
  · rcases hx z (removeTree out fs) (out ++ d) with ⟨d', c, e, hm', h⟩ | ⟨hm', h⟩
    · have := List.append_cancel_left e
      subst this
      obtain ⟨s', a, _⟩ := (z1 d c).mp hm'
      exact absurd a (hm s')
    · rw [h]; unfold removeTree; rw [if_pos (List.prefix_append _ _)]
  · rcases hx z (removeTree out fs) q with ⟨d', c, e, _⟩ | ⟨_, h⟩
    · exact absurd (by rw [e]; exact List.prefix_append _ _) hq
    · rw [h]; unfold removeTree; rw [if_neg hq]

/-- C52. ... as is the case for the packages of this code base. -/
theorem C52_zip_build {root out : Path} {names : List String} {pkgs : List Package} {fs : FS} {z : List (Path × Nat)}
    (hp : packages config root tree names = .ok pkgs) (h : writeZip pkgs fs = some z) :
    (∀ n, (if names = [] then n ∈ config.map (·.1) else n ∈ names) → ∀ q,
        (∀ s, Source root n q s → fs s ≠ none ∧ storeToFile out z fs (out ++ n :: q) = fs s) ∧
        ((∀ s, ¬ Source root n q s) → storeToFile out z fs (out ++ n :: q) = none)) ∧
    ∀ q, ¬ out <+: q → storeToFile out z fs q = fs q := by
  obtain ⟨ns, hns⟩ : ∃ ns, ns = (if names = [] then config.map (·.1) else names) := ⟨_, rfl⟩
  have hns2 : ∀ n, (if names = [] then n ∈ config.map (·.1) else n ∈ names) ↔ n ∈ ns := by
    intro n; rw [hns]; split <;> rfl
  have key : ∀ (l : List String) (ps : List Package), l.mapM (package config root tree) = .ok ps →
      ps.map (·.name) = l ∧ ∀ p ∈ ps, package config root tree p.name = .ok p := by
    intro l
    induction l with
    | nil => intro ps h; cases h; exact ⟨rfl, by intro p hp; cases hp⟩
    | cons n l ih =>
      intro ps h
      rw [List.mapM_cons] at h
      cases hq : package config root tree n with
      | error e => rw [hq] at h; cases h
      | ok p =>
        cases hr : l.mapM (package config root tree) with
        | error e => rw [hq, hr] at h; cases h
        | ok r =>
          rw [hq, hr] at h
          cases h
          obtain ⟨i1, i2⟩ := ih r hr
          have hpn : p.name = n := (package_files hq).1
          refine ⟨by rw [List.map_cons, i1, hpn], ?_⟩
          intro p' hp'
          rw [List.mem_cons] at hp'
          rcases hp' with rfl | hp'
          · rw [hpn]; exact hq
          · exact i2 p' hp'
  unfold packages at hp
  rw [← hns] at hp
  obtain ⟨e2, e3⟩ := key ns pkgs hp
  have hmem : ∀ n q s, n ∈ ns → ((s, n :: q) ∈ pkgs.flatMap (·.files) ↔ Source root n q s) := by
    intro n q s hn
    rw [List.mem_flatMap]
    constructor
    · rintro ⟨p, hp, hm⟩
      obtain ⟨r, hr⟩ := package_inside (e3 p hp) _ hm
      have := (List.cons.inj hr).1
      subst this
      exact (package_exact (e3 p hp) s q).mp hm
    · intro hs
      rw [← e2, List.mem_map] at hn
      obtain ⟨p, hp, rfl⟩ := hn
      exact ⟨p, hp, (package_exact (e3 p hp) s q).mpr hs⟩
  obtain ⟨z1, z2, z3⟩ := C52_zip (out := out) h (by
    intro s s' d h1 h2
    have h1' := h1
    rw [List.mem_flatMap] at h1'
    obtain ⟨p, hp, hm⟩ := h1'
    obtain ⟨r, hr⟩ := package_inside (e3 p hp) _ hm
    simp only at hr
    subst hr
    have hn : p.name ∈ ns := by rw [← e2]; exact List.mem_map_of_mem hp
    exact source_unique (known_of_package (e3 p hp)) ((hmem _ _ _ hn).mp h1) ((hmem _ _ _ hn).mp h2))
  refine ⟨fun n hn q => ⟨fun s hs => ?_, fun hs => ?_⟩, z3⟩
  · exact z1 s _ ((hmem n q s ((hns2 n).mp hn)).mpr hs)
  · exact z2 _ fun s hm => hs s ((hmem n q s ((hns2 n).mp hn)).mp hm)

/-! ### The hypotheses are met -/

/-- A file system with the sources in place, and a stale file in an earlier build. -/
def workspace : FS := fun p =>
  if p = ["NOTICE"] then some 1 else if p.head? = some "contracts" ∧ p.tail ∈ tree then some (2 + tree.idxOf p.tail)
  else if p = ["build", "network", "stale.py"] then some 1000 else none

example : (∀ f ∈ tree, workspace (["contracts"] ++ f) ≠ none) ∧ workspace ["NOTICE"] ≠ none ∧
    ¬ ["build"] <+: ["contracts"] ∧ ¬ ["contracts"] <+: ["build"] ∧ ¬ ["build"] <+: ["NOTICE"] := by decide +kernel

/-- Building two contracts. -/
example : ∃ fs', main config ["contracts"] tree ["build"] ["network", "converter"] workspace = some fs' ∧
    fs' ["build", "network", "stale.py"] = none ∧
    fs' ["build", "converter", "utility", "managed.py"] = workspace ["contracts", "utility", "managed.py"] := by
  obtain ⟨fs', h1, h2, _⟩ := C52_build (root := ["contracts"]) (out := ["build"]) (names := ["network", "converter"]) (fs := workspace)
    (by decide) (by decide) (by decide) (by decide +kernel) (by decide +kernel) (by decide +kernel)
  refine ⟨fs', h1, ?_, ?_⟩
  · refine (h2 "network" (by decide) ["stale.py"]).2 ?_
    intro s hs
    rcases source_placed hs with ⟨h, _⟩ | ⟨h, _⟩ | ⟨h, _⟩
    · exact absurd h (by decide +kernel)
    · exact absurd h (by decide)
    · exact absurd h (by decide)
  · exact ((h2 "converter" (by decide) ["utility", "managed.py"]).1 _ (placed_source (by decide +kernel))).2

/-- The converter's main file loads, through others, the interface of owned contracts. -/
example : Relation.ReflTransGen ImportsFile ["converter", "converter.py"] ["interfaces", "abc_owned.py"] := by
  have h1 : ImportsFile ["converter", "converter.py"] ["interfaces", "abc_flexible_token.py"] :=
    ⟨⟨2, ["interfaces", "abc_flexible_token"]⟩, by decide +kernel, Loads.module (by decide +kernel)⟩
  have h2 : ImportsFile ["interfaces", "abc_flexible_token.py"] ["interfaces", "abc_token_holder.py"] :=
    ⟨⟨1, ["abc_token_holder"]⟩, by decide +kernel, Loads.module (by decide +kernel)⟩
  have h3 : ImportsFile ["interfaces", "abc_token_holder.py"] ["interfaces", "abc_owned.py"] :=
    ⟨⟨1, ["abc_owned"]⟩, by decide +kernel, Loads.module (by decide +kernel)⟩
  exact ((Relation.ReflTransGen.single h1).tail h2).tail h3

/-- C52. What lies in `__pycache__` directories has no influence on what is packaged: with or without such files below the
contracts directory, the packages are the same. -/
theorem C52_compiled {cfg : Config} {root : Path} {t t' : List Path} {names : List String}
    (h : t.filter (fun p => !p.dropLast.contains "__pycache__") = t'.filter (fun p => !p.dropLast.contains "__pycache__")) :
    packages cfg root t names = packages cfg root t' names := by
  have e : ∀ name, ownFiles root t name = ownFiles root t' name := by
    intro name
    have key : ∀ l : List Path, ownFiles root l name = ownFiles root (l.filter fun p => !p.dropLast.contains "__pycache__") name := by
      intro l
      unfold ownFiles
      rw [List.filterMap_filter]
      refine List.filterMap_congr fun p _ => ?_
      by_cases hp : "__pycache__" ∈ p.dropLast <;> simp [hp]
    rw [key t, key t', h]
  have e' : package cfg root t = package cfg root t' := by
    funext name
    unfold package
    rw [e]
  unfold packages
  rw [e']

-- The code base with some compiled files.
example : packages config ["contracts"] (["score_registry", "__pycache__", "score_registry.cpython-36.pyc"] :: tree) ["score_registry"] =
    packages config ["contracts"] tree ["score_registry"] := C52_compiled (by decide +kernel)

/-- C52. Tests are not packaged, whatever lies in a `tests` directory and whatever the configuration, unless it lists them. -/
theorem C52_tests {cfg : Config} {root : Path} {t : List Path} {name : String} {p : Package} (h : package cfg root t name = .ok p)
    {s d : Path} (hm : (s, d) ∈ p.files) :
    (∃ f ∈ t, s = root ++ f ∧ f.head? = some name ∧ f.dropLast.getLast? ≠ some "tests") ∨ s = ["NOTICE"] ∨
      ∃ deps, cfg.lookup name = some deps ∧ ∃ f ∈ deps, s = root ++ f := by
  have ho : ∀ {s d}, (s, d) ∈ ownFiles root t name → ∃ f ∈ t, s = root ++ f ∧ f.head? = some name ∧ f.dropLast.getLast? ≠ some "tests" := by
    intro s d hm
    unfold ownFiles at hm
    rw [List.mem_filterMap] at hm
    obtain ⟨f, hf, hm⟩ := hm
    split at hm
    · rename_i hc
      injection hm with hm
      injection hm with h1 h2
      exact ⟨f, hf, h1.symm, hc.1, hc.2.2.1⟩
    · cases hm
  have hd : ∀ {s d deps}, (s, d) ∈ dependencyFiles root name deps → ∃ f ∈ deps, s = root ++ f := by
    intro s d deps hm
    unfold dependencyFiles at hm
    rw [List.mem_map] at hm
    obtain ⟨f, hf, hm⟩ := hm
    injection hm with h1 h2
    exact ⟨f, hf, h1.symm⟩
  unfold package at h
  split at h
  · cases h
  · rename_i deps hl
    split at h
    · cases h
    · split at h
      · injection h with h; subst h
        rcases List.mem_append.mp hm with hm | hm
        · rcases List.mem_append.mp hm with hm | hm
          · exact .inl (ho hm)
          · right; left
            unfold noticeFile at hm
            simp at hm
            exact hm.1
        · obtain ⟨f, hf, e⟩ := hd hm
          exact .inr (.inr ⟨deps, hl, f, List.dropLast_subset _ hf, e⟩)
      · injection h with h; subst h
        rcases List.mem_append.mp hm with hm | hm
        · exact .inl (ho hm)
        · obtain ⟨f, hf, e⟩ := hd hm
          exact .inr (.inr ⟨deps, hl, f, hf, e⟩)

end Verif.Packaging

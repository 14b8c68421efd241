import Verif.Model.Storage
import Mathlib.Data.List.Nodup
/-!
C68: the storage wrapper (`contracts/utility/storage.py`).
-/
set_option autoImplicit false
namespace Verif.Storage

variable {misread : Ty → V → Obj} {fields : List Field} {s s' : St} {f g : Field} {disk disk' : Disk} {n y : Name} {v : V}

/-- Fields one can use: different names, none beginning with an underscore, none called `db`. -/
def Sound (fields : List Field) : Prop :=
  (fields.map Field.name).Nodup ∧ ∀ f ∈ fields, hidden f.name = false ∧ f.name ≠ ['d', 'b']

/-- The assignments `s.n = v`, one after the other, in one session: the object is created on the database, and used. -/
def session (misread : Ty → V → Obj) (fields : List Field) (disk : Disk) (writes : List (Name × V)) : Except Err St := do
  writes.foldlM (fun s x => setattr s x.1 (.val x.2)) (← create misread disk fields)

/-- Sessions, one after the other; between them, only what is in the database is kept. -/
def sessions (misread : Ty → V → Obj) (fields : List Field) (disk : Disk) (hist : List (List (Name × V))) : Except Err Disk :=
  hist.foldlM (fun d writes => do return (← session misread fields d writes).disk) disk

/-- Assignments a caller may make: no names beginning with an underscore; and to a `VarDB` field only values of its type. -/
def Proper (fields : List Field) (writes : List (Name × V)) : Prop :=
  ∀ x ∈ writes, hidden x.1 = false ∧ ∀ f ∈ fields, f.cls = .var → f.name = x.1 → x.2.ty = f.ty

/-- The last value assigned to `n`, if any. -/
def lastWrite (n : Name) (writes : List (Name × V)) : Option V := (writes.reverse.find? (·.1 = n)).map Prod.snd

/-! ### Proofs -/

/-- What the object looks like once the fields are there. -/
structure Ready (fields : List Field) (s : St) : Prop where
  field : ∀ f ∈ fields, s.attrs ('_' :: f.name) = some (.container f)
  other : ∀ n, hidden n = false → (∀ f ∈ fields, f.name ≠ n) → n ≠ ['d', 'b'] → s.attrs ('_' :: n) = none

theorem objectGet_hidden (hn : hidden n = true) : objectGet s n = s.attrs n := by
  unfold objectGet
  cases h : s.attrs n with
  | some o => rfl
  | none =>
    have : n ≠ addFieldsName := by rintro rfl; exact absurd hn (by decide)
    simp [this]

theorem objectGet_shadow : objectGet s ('_' :: n) = s.attrs ('_' :: n) := objectGet_hidden rfl

theorem getattribute_field (hr : Ready fields s) (hs : Sound fields) (hf : f ∈ fields) :
    getattribute misread s f.name = .ok (if f.cls = .var then varGet misread s f else .container f) := by
  unfold getattribute
  rw [if_pos (by rw [(hs.2 f hf).1]; decide), objectGet_shadow, hr.field f hf]
  simp only
  split <;> rfl

theorem setattr_var (hr : Ready fields s) (hf : f ∈ fields) (hc : f.cls = .var) :
    setattr s f.name (.val v) = .ok { s with disk := fun n => if n = f.name then some v else s.disk n } := by
  unfold setattr
  rw [objectGet_shadow, hr.field f hf]
  simp only [hc, if_true]
  rfl

theorem setattr_else (hr : Ready fields s) (hn : hidden n = false) (hno : ∀ f ∈ fields, f.name = n → f.cls ≠ .var) {o : Obj}
    (hdb : s.attrs dbName = some .scoreDb) :
    setattr s n o = .ok { s with attrs := fun m => if m = n then some o else s.attrs m } := by
  unfold setattr
  rw [objectGet_shadow]
  by_cases h : ∃ f ∈ fields, f.name = n
  · obtain ⟨f, hf, rfl⟩ := h
    rw [hr.field f hf]
    simp only [hno f hf rfl, if_false]
  · by_cases hd : n = ['d', 'b']
    · subst hd
      have : s.attrs ('_' :: ['d', 'b']) = some .scoreDb := hdb
      rw [this]
    · rw [hr.other n hn (fun f hf e => h ⟨f, hf, e⟩) hd]

theorem create_ready (hs : Sound fields) : ∃ s, create misread disk fields = .ok s ∧ s.disk = disk ∧ Ready fields s ∧ s.attrs dbName = some .scoreDb ∧
    ∀ n, hidden n = false → s.attrs n = none := by
  have h0 : new disk = .ok { attrs := fun n => if n = dbName then some .scoreDb else none, disk := disk } := rfl
  have key : ∀ (todo done : List Field) (s : St), (∀ f ∈ done ++ todo, hidden f.name = false ∧ f.name ≠ ['d', 'b']) → ((done ++ todo).map Field.name).Nodup →
      s.disk = disk → Ready done s → s.attrs dbName = some .scoreDb → (∀ n, hidden n = false → s.attrs n = none) → (∀ n, s.attrs ('_' :: '_' :: n) = none) →
      ∃ s', todo.foldlM addField s = .ok s' ∧ s'.disk = disk ∧ Ready (done ++ todo) s' ∧ s'.attrs dbName = some .scoreDb ∧ (∀ n, hidden n = false → s'.attrs n = none) := by
    intro todo
    induction todo with
    | nil => intro done s _ _ h1 h2 h3 h4 _; exact ⟨s, rfl, h1, by simpa using h2, h3, h4⟩
    | cons f todo ih =>
      intro done s hh hn h1 h2 h3 h4 h5
      have hf := hh f (by simp)
      have e : addField s f = .ok { s with attrs := fun m => if m = '_' :: f.name then some (.container f) else s.attrs m } := by
        unfold addField
        rw [objectGet_hidden (by decide), h3]
        simp only
        unfold setattr
        rw [objectGet_hidden (by rfl), h5]
      have hnd : dbName ≠ '_' :: f.name := by
        intro e; exact hf.2 (List.cons.inj e).2.symm
      have ih' := ih (done ++ [f]) { s with attrs := fun m => if m = '_' :: f.name then some (.container f) else s.attrs m }
        (by simpa using hh) (by simpa using hn) h1
      have hA : Ready (done ++ [f]) { s with attrs := fun m => if m = '_' :: f.name then some (.container f) else s.attrs m } := by
        refine ⟨fun g hg => ?_, fun m hm hno hdb => ?_⟩
        · rcases List.mem_append.mp hg with hg | hg
          · have hne : g.name ≠ f.name := by
              intro e
              rw [List.map_append, List.nodup_append] at hn
              exact hn.2.2 g.name (List.mem_map_of_mem hg) f.name (by simp) e
            have : ('_' :: g.name) ≠ '_' :: f.name := fun e => hne (List.cons.inj e).2
            simp only [this, if_false]
            exact h2.field g hg
          · simp only [List.mem_singleton] at hg; subst hg; simp
        · have : ('_' :: m) ≠ '_' :: f.name := fun e => hno f (by simp) (List.cons.inj e).2.symm
          simp only [this, if_false]
          exact h2.other m hm (fun g hg => hno g (by simp [hg])) hdb
      obtain ⟨s', r1, r2, r3, r4, r5⟩ := ih' hA (by simp only [hnd, if_false]; exact h3)
        (by
          intro m hm
          have : m ≠ '_' :: f.name := by rintro rfl; exact absurd hm (by simp [hidden])
          simp only [this, if_false]; exact h4 m hm)
        (by
          intro m
          have : ('_' :: '_' :: m) ≠ '_' :: f.name := by
            intro e
            have := (List.cons.inj e).2
            rw [← this] at hf
            exact absurd hf.1 (by simp [hidden])
          simp only [this, if_false]; exact h5 m)
      refine ⟨s', ?_, r2, by simpa using r3, r4, r5⟩
      rw [List.foldlM_cons, e]; exact r1
  have k := key fields [] { attrs := fun n => if n = dbName then some .scoreDb else none, disk := disk }
    (by simpa using hs.2) (by simpa using hs.1) rfl
  obtain ⟨s', r1, r2, r3, r4, r5⟩ := k
    ⟨fun _ h => absurd h (by simp), fun m _ _ hm => by
      have : ('_' :: m) ≠ dbName := fun e => hm (List.cons.inj e).2
      simp [this]⟩
    (by simp)
    (by
      intro m hm
      have : m ≠ dbName := by rintro rfl; exact absurd hm (by decide)
      simp [this])
    (by
      intro m
      have : ('_' :: '_' :: m) ≠ dbName := by
        intro e; have := (List.cons.inj (List.cons.inj e).2).1; exact absurd this (by decide)
      simp [this])
  refine ⟨s', ?_, r2, by simpa using r3, r4, r5⟩
  unfold create addFields
  rw [h0]
  exact r1

theorem name_inj (hs : Sound fields) (hf : f ∈ fields) (hg : g ∈ fields) (h : f.name = g.name) : f = g :=
  List.inj_on_of_nodup_map hs.1 hf hg h

/-- One assignment, in a session. -/
theorem setattr_ready (hr : Ready fields s) (hdb : s.attrs dbName = some .scoreDb) {x : Name × V} (hx : hidden x.1 = false) :
    ∃ s', setattr s x.1 (.val x.2) = .ok s' ∧ Ready fields s' ∧ s'.attrs dbName = some .scoreDb ∧
      s'.disk = if ∃ f ∈ fields, f.cls = .var ∧ f.name = x.1 then fun n => if n = x.1 then some x.2 else s.disk n else s.disk := by
  by_cases h : ∃ f ∈ fields, f.cls = .var ∧ f.name = x.1
  · obtain ⟨f, hf, hc, he⟩ := h
    refine ⟨{ s with disk := fun n => if n = f.name then some x.2 else s.disk n }, by rw [← he]; exact setattr_var hr hf hc, ⟨hr.field, hr.other⟩, hdb, ?_⟩
    rw [if_pos ⟨f, hf, hc, he⟩, he]
  · refine ⟨_, setattr_else hr hx (fun f hf e hc => h ⟨f, hf, hc, e⟩) hdb, ⟨fun f hf => ?_, fun n h1 h2 h3 => ?_⟩, ?_, ?_⟩
    · have : ('_' :: f.name) ≠ x.1 := by intro e; rw [← e] at hx; exact absurd hx (by simp [hidden])
      simp only [this, if_false]; exact hr.field f hf
    · have : ('_' :: n) ≠ x.1 := by intro e; rw [← e] at hx; exact absurd hx (by simp [hidden])
      simp only [this, if_false]; exact hr.other n h1 h2 h3
    · have : dbName ≠ x.1 := by intro e; rw [← e] at hx; exact absurd hx (by decide)
      simp only [this, if_false]; exact hdb
    · rw [if_neg h]

theorem lastWrite_nil : lastWrite n [] = none := rfl

theorem lastWrite_append (l1 l2 : List (Name × V)) : lastWrite n (l1 ++ l2) = (lastWrite n l2).or (lastWrite n l1) := by
  unfold lastWrite
  rw [List.reverse_append, List.find?_append]
  cases List.find? (fun x => decide (x.1 = n)) l2.reverse <;> simp

/-- What is in the database after a session. -/
theorem session_disk (hs : Sound fields) {writes : List (Name × V)} (hp : Proper fields writes) :
    ∃ s, session misread fields disk writes = .ok s ∧ Ready fields s ∧
      ∀ f ∈ fields, f.cls = .var → s.disk f.name = (lastWrite f.name writes).or (disk f.name) := by
  obtain ⟨s0, h1, h2, h3, h4, _⟩ := create_ready (misread := misread) (disk := disk) hs
  have key : ∀ (writes : List (Name × V)) (s : St), Proper fields writes → Ready fields s → s.attrs dbName = some .scoreDb →
      ∃ s', writes.foldlM (fun s x => setattr s x.1 (.val x.2)) s = .ok s' ∧ Ready fields s' ∧
        ∀ f ∈ fields, f.cls = .var → s'.disk f.name = (lastWrite f.name writes).or (s.disk f.name) := by
    intro writes
    induction writes with
    | nil => intro s _ hr _; exact ⟨s, rfl, hr, fun _ _ _ => by rw [lastWrite_nil]; rfl⟩
    | cons x writes ih =>
      intro s hp hr hdb
      obtain ⟨s1, e1, e2, e3, e4⟩ := setattr_ready hr hdb (hp x (by simp)).1
      obtain ⟨s2, e5, e6, e7⟩ := ih s1 (fun y hy => hp y (by simp [hy])) e2 e3
      refine ⟨s2, by rw [List.foldlM_cons, e1]; exact e5, e6, fun f hf hc => ?_⟩
      rw [e7 f hf hc, show x :: writes = [x] ++ writes from rfl, lastWrite_append, e4]
      cases lastWrite f.name writes with
      | some v => rfl
      | none =>
        simp only [Option.none_or]
        by_cases hx : f.name = x.1
        · rw [if_pos ⟨f, hf, hc, hx⟩]
          simp [lastWrite, hx]
        · have : lastWrite f.name [x] = none := by
            simp only [lastWrite, List.reverse_cons, List.reverse_nil, List.nil_append, Option.map_eq_none_iff, List.find?_eq_none,
              List.mem_singleton, forall_eq, decide_eq_true_eq]
            exact Ne.symm hx
          rw [this]
          split <;> simp [hx]
  obtain ⟨s', e1, e2, e3⟩ := key writes s0 hp h3 h4
  refine ⟨s', ?_, e2, fun f hf hc => by rw [e3 f hf hc, h2]⟩
  unfold session
  rw [h1]; exact e1

/-! ### C68 -/

/-- C68. A `VarDB` field reads the last value assigned to it, in this session or any before it, and as in the beginning if there was none;
container fields read their container, always. Assignments to other names or other fields do not disturb it. For all histories of
sessions, and all sound lists of fields. -/
theorem C68_reads_last_write (hs : Sound fields) {hist : List (List (Name × V))} {writes : List (Name × V)}
    (hp : ∀ ws ∈ hist ++ [writes], Proper fields ws) :
    ∃ disk' s, sessions misread fields disk hist = .ok disk' ∧ session misread fields disk' writes = .ok s ∧
      ∀ f ∈ fields, getattribute misread s f.name = .ok (
        if f.cls = .var then (match lastWrite f.name (hist.flatten ++ writes) with
          | some v => .val v
          | none => match disk f.name with
            | none => f.ty.default
            | some v => if v.ty = f.ty then .val v else misread f.ty v)
        else .container f) := by
  have key : ∀ (hist : List (List (Name × V))) (disk : Disk), (∀ ws ∈ hist, Proper fields ws) → ∃ disk', sessions misread fields disk hist = .ok disk' ∧
      ∀ f ∈ fields, f.cls = .var → disk' f.name = (lastWrite f.name hist.flatten).or (disk f.name) := by
    intro hist
    induction hist with
    | nil => intro disk _; exact ⟨disk, rfl, fun f _ _ => rfl⟩
    | cons ws hist ih =>
      intro disk hp
      obtain ⟨s, e1, _, e2⟩ := session_disk (misread := misread) (disk := disk) hs (hp ws (by simp))
      obtain ⟨d, e3, e4⟩ := ih s.disk (fun y hy => hp y (by simp [hy]))
      refine ⟨d, ?_, fun f hf hc => ?_⟩
      · unfold sessions
        rw [List.foldlM_cons, e1]
        exact e3
      · rw [e4 f hf hc, e2 f hf hc, List.flatten_cons, lastWrite_append, Option.or_assoc]
  obtain ⟨d, e1, e2⟩ := key hist disk (fun ws h => hp ws (by simp [h]))
  obtain ⟨s, e3, e4, e5⟩ := session_disk (misread := misread) (disk := d) hs (hp writes (by simp))
  refine ⟨d, s, e1, e3, fun f hf => ?_⟩
  rw [getattribute_field e4 hs hf]
  by_cases hc : f.cls = .var
  · rw [if_pos hc, if_pos hc]
    unfold varGet
    rw [e5 f hf hc, e2 f hf hc, ← Option.or_assoc, ← lastWrite_append]
    cases h : lastWrite f.name (hist.flatten ++ writes) with
    | none => rfl
    | some v =>
      have : v.ty = f.ty := by
        unfold lastWrite at h
        rw [Option.map_eq_some_iff] at h
        obtain ⟨x, h1, rfl⟩ := h
        have h2 := List.mem_of_find?_eq_some h1
        have h3 := List.find?_some h1
        simp only [decide_eq_true_eq] at h3
        rw [List.mem_reverse, List.mem_append] at h2
        have : ∃ ws ∈ hist ++ [writes], x ∈ ws := by
          rcases h2 with h2 | h2
          · obtain ⟨ws, h4, h5⟩ := List.mem_flatten.mp h2; exact ⟨ws, by simp [h4], h5⟩
          · exact ⟨writes, by simp, h2⟩
        obtain ⟨ws, h4, h5⟩ := this
        exact ((hp ws h4) x h5).2 f hf hc h3.symm
      simp [this]
  · rw [if_neg hc, if_neg hc]

/-- C68. What is assigned to a name that is no field stays in memory: it can be read in the session, is never stored, and in the next
session the name is unknown. (So a misspelt field name goes unnoticed.) -/
theorem C68_misspelt (hs : Sound fields) (hn : hidden n = false) (hno : ∀ f ∈ fields, f.name ≠ n) (hdb : n ≠ ['d', 'b']) (ha : n ≠ addFieldsName) :
    ∃ s s', create misread disk fields = .ok s ∧ setattr s n (.val v) = .ok s' ∧ getattribute misread s' n = .ok (.val v) ∧ s'.disk = disk ∧
      ∃ s'', create misread s'.disk fields = .ok s'' ∧ getattribute misread s'' n = .error (.python "AttributeError") := by
  obtain ⟨s, h1, h2, h3, h4, h5⟩ := create_ready (misread := misread) (disk := disk) hs
  refine ⟨s, _, h1, setattr_else h3 hn (fun f hf e => absurd e (hno f hf)) h4, ?_, h2, ?_⟩
  · unfold getattribute
    have : ('_' :: n) ≠ n := by simp
    rw [if_pos (by rw [hn]; decide), objectGet_shadow]
    simp only [this, if_false, h3.other n hn hno hdb]
    unfold objectGet
    simp
  · rw [show St.disk _ = s.disk from rfl, h2]
    refine ⟨s, h1, ?_⟩
    unfold getattribute
    rw [if_pos (by rw [hn]; decide), objectGet_shadow, h3.other n hn hno hdb]
    unfold objectGet
    simp [h5 n hn, ha]

/-- C68. An assignment to a container field is accepted and has no effect: it still reads the container, and nothing is stored. -/
theorem C68_container_assignment (hs : Sound fields) (hf : f ∈ fields) (hc : f.cls ≠ .var) :
    ∃ s s', create misread disk fields = .ok s ∧ setattr s f.name (.val v) = .ok s' ∧
      getattribute misread s' f.name = .ok (.container f) ∧ s'.disk = disk := by
  obtain ⟨s, h1, h2, h3, h4, _⟩ := create_ready (misread := misread) (disk := disk) hs
  obtain ⟨s', e1, e2, _, e3⟩ := setattr_ready (x := (f.name, v)) h3 h4 (hs.2 f hf).1
  refine ⟨s, s', h1, e1, ?_, ?_⟩
  · rw [getattribute_field e2 hs hf, if_neg hc]
  · rw [e3, if_neg (by rintro ⟨g, hg, hg1, hg2⟩; exact hc (name_inj hs hg hf hg2 ▸ hg1)), h2]

/-- C68. The restrictions on names are necessary: after a field called `db`, no further field can be added, whatever it is. -/
theorem C68_db_breaks (ty : Ty) (g : Field) : ∃ e, create misread disk [⟨['d', 'b'], .var, ty⟩, g] = .error e :=
  ⟨_, rfl⟩

/-- C68. Of two fields `_x` (a `VarDB`) and `x`, in this order, the second cannot be added. -/
theorem C68_underscore_breaks (x : Name) (ty : Ty) (g : Field) (hg : g.name = x) :
    ∃ e, create misread disk [⟨'_' :: x, .var, ty⟩, g] = .error e := by
  have hdn : dbName ≠ '_' :: '_' :: x := by
    intro e; have := (List.cons.inj (List.cons.inj e).2).1; exact absurd this (by decide)
  have h1 : addField { attrs := fun n => if n = dbName then some .scoreDb else none, disk := disk } ⟨'_' :: x, .var, ty⟩ =
      .ok { attrs := fun m => if m = '_' :: '_' :: x then some (.container ⟨'_' :: x, .var, ty⟩) else if m = dbName then some .scoreDb else none, disk := disk } := by
    unfold addField
    rw [objectGet_hidden (by decide)]
    simp only [if_true]
    unfold setattr
    rw [objectGet_hidden (by rfl)]
    have : ('_' :: '_' :: '_' :: x) ≠ dbName := by
      intro e; have := (List.cons.inj (List.cons.inj e).2).1; exact absurd this (by decide)
    simp only [this, if_false]
  refine ⟨.platform "unsupported type", ?_⟩
  have h2 : addField { attrs := fun m => if m = '_' :: '_' :: x then some (.container ⟨'_' :: x, .var, ty⟩) else if m = dbName then some .scoreDb else none, disk := disk } g =
      .error (.platform "unsupported type") := by
    unfold addField
    rw [objectGet_hidden (by decide)]
    simp only [hdn, if_false, if_true, hg]
    unfold setattr
    rw [objectGet_hidden (by rfl)]
    simp only [if_true]
    rfl
  have h3 : ([⟨'_' :: x, .var, ty⟩, g] : List Field).foldlM addField { attrs := fun n => if n = dbName then some .scoreDb else none, disk := disk } =
      .error (.platform "unsupported type") := by
    rw [List.foldlM_cons, h1]
    show ([g] : List Field).foldlM addField _ = _
    rw [List.foldlM_cons, h2]; rfl
  have h0 : new disk = .ok { attrs := fun n => if n = dbName then some .scoreDb else none, disk := disk } := rfl
  unfold create addFields
  rw [h0]
  exact h3

/-! ### The fields of the class's documentation (storage.py:24-36) -/

def documented : List Field := [⟨"flexible_token_address".toList, .var, .address⟩, ⟨"registry".toList, .var, .address⟩,
  ⟨"prev_registry".toList, .var, .address⟩, ⟨"conversion_whitelist".toList, .var, .address⟩, ⟨"connector_tokens".toList, .array, .address⟩,
  ⟨"total_connector_weight".toList, .var, .int⟩, ⟨"max_conversion_fee".toList, .var, .int⟩, ⟨"conversion_fee".toList, .var, .int⟩,
  ⟨"conversions_enabled".toList, .var, .bool⟩]

theorem documented_sound : Sound documented := by
  refine ⟨by decide, ?_⟩
  decide

/-- Two sessions: the second sees what the first has written, and writes over it. -/
example : ∃ disk' s, sessions misread documented (fun _ => none) [[("conversion_fee".toList, .int 5), ("colour".toList, .str "red".toList)]] = .ok disk' ∧
    session misread documented disk' [("max_conversion_fee".toList, .int 9)] = .ok s ∧
    getattribute misread s "conversion_fee".toList = .ok (.val (.int 5)) ∧ getattribute misread s "max_conversion_fee".toList = .ok (.val (.int 9)) ∧
    getattribute misread s "total_connector_weight".toList = .ok (.val (.int 0)) := by
  obtain ⟨d, s, h1, h2, h3⟩ := C68_reads_last_write (misread := misread) (disk := fun _ => none) documented_sound
    (hist := [[("conversion_fee".toList, .int 5), ("colour".toList, .str "red".toList)]]) (writes := [("max_conversion_fee".toList, .int 9)])
    (by unfold Proper; decide)
  refine ⟨d, s, h1, h2, ?_, ?_, ?_⟩
  · exact h3 ⟨"conversion_fee".toList, .var, .int⟩ (by decide)
  · exact h3 ⟨"max_conversion_fee".toList, .var, .int⟩ (by decide)
  · exact h3 ⟨"total_connector_weight".toList, .var, .int⟩ (by decide)

/-- A slip, `conversion_fees` for `conversion_fee`: nothing is stored. -/
example : ∃ s s', create misread (fun _ => none) documented = .ok s ∧ setattr s "conversion_fees".toList (.val (.int 5)) = .ok s' ∧
    s'.disk = fun _ => none := by
  obtain ⟨s, s', h1, h2, _, h3, _⟩ := C68_misspelt (misread := misread) (disk := fun _ => none) (n := "conversion_fees".toList) (v := .int 5)
    documented_sound (by decide) (by decide) (by decide) (by decide)
  exact ⟨s, s', h1, h2, h3⟩

/-- Assigning to the array of connector tokens does nothing. -/
example : ∃ s s', create misread (fun _ => none) documented = .ok s ∧ setattr s "connector_tokens".toList (.val (.int 5)) = .ok s' ∧
    getattribute misread s' "connector_tokens".toList = .ok (.container ⟨"connector_tokens".toList, .array, .address⟩) := by
  obtain ⟨s, s', h1, h2, h3, _⟩ := C68_container_assignment (misread := misread) (disk := fun _ => none)
    (f := ⟨"connector_tokens".toList, .array, .address⟩) (v := .int 5) documented_sound (by decide) (by decide)
  exact ⟨s, s', h1, h2, h3⟩

end Verif.Storage

import Verif.Proofs.JsonBytes
/-! The parser of `Model/Json.lean` reads nothing but texts of the (liberal) grammar of `Spec/Json.lean`. -/
set_option autoImplicit false
namespace Verif.Json
open Spec

theorem mem_takeWhile {p : Char → Bool} {t : List Char} {c : Char} (h : c ∈ t.takeWhile p) : p c = true := by
  induction t with
  | nil => cases h
  | cons x t ih =>
    by_cases hx : p x = true
    · rw [List.takeWhile_cons_of_pos hx] at h
      rcases List.mem_cons.1 h with rfl | h
      · exact hx
      · exact ih h
    · rw [List.takeWhile_cons_of_neg hx] at h; cases h

theorem skip_split (t : List Char) : ∃ a, Blank a ∧ t = a ++ skip t := by
  refine ⟨t.takeWhile isBlank, ?_, (List.takeWhile_append_dropWhile).symm⟩
  intro c hc
  have := mem_takeWhile hc
  simpa [isBlank, or_assoc] using this

/-! ### Strings -/

theorem hexDigit_sound {c : Char} {n : Nat} (h : hexDigit c = some n) : (c, n) ∈ Spec.hexDigits := by
  have key : ∀ lo hi : Char, lo ≤ c → c ≤ hi → lo.toNat ≤ c.toNat ∧ c.toNat ≤ hi.toNat := by
    intro lo hi h1 h2
    have h1 : lo.val ≤ c.val := h1
    have h2 : c.val ≤ hi.val := h2
    rw [UInt32.le_iff_toNat_le] at h1 h2
    exact ⟨h1, h2⟩
  have ec := Char.ofNat_toNat c
  unfold hexDigit at h
  split at h
  · rename_i hc
    obtain ⟨h1, h2⟩ := key _ _ hc.1 hc.2
    injection h with h; subst h
    have e1 : ('0' : Char).toNat = 48 := rfl
    have e2 : ('9' : Char).toNat = 57 := rfl
    rw [e1] at h1; rw [e2] at h2
    have : ∀ k, k < 58 → 48 ≤ k → (Char.ofNat k, k - 48) ∈ Spec.hexDigits := by decide
    have := this c.toNat (by omega) h1
    rwa [ec] at this
  split at h
  · rename_i hc
    obtain ⟨h1, h2⟩ := key _ _ hc.1 hc.2
    injection h with h; subst h
    have e1 : ('a' : Char).toNat = 97 := rfl
    have e2 : ('f' : Char).toNat = 102 := rfl
    rw [e1] at h1; rw [e2] at h2
    have : ∀ k, k < 103 → 97 ≤ k → (Char.ofNat k, k - 87) ∈ Spec.hexDigits := by decide
    have := this c.toNat (by omega) h1
    rwa [ec] at this
  split at h
  · rename_i hc
    obtain ⟨h1, h2⟩ := key _ _ hc.1 hc.2
    injection h with h; subst h
    have e1 : ('A' : Char).toNat = 65 := rfl
    have e2 : ('F' : Char).toNat = 70 := rfl
    rw [e1] at h1; rw [e2] at h2
    have : ∀ k, k < 71 → 65 ≤ k → (Char.ofNat k, k - 55) ∈ Spec.hexDigits := by decide
    have := this c.toNat (by omega) h1
    rwa [ec] at this
  · cases h

theorem hex4_sound {a b c d : Char} {n : Nat} (h : hex4 a b c d = some n) : Spec.Unit n ['\\', 'u', a, b, c, d] := by
  unfold hex4 at h
  simp only [Option.bind_eq_bind, Option.bind_eq_some_iff, Option.pure_def, Option.some.injEq] at h
  obtain ⟨x, hx, y, hy, z, hz, w, hw, rfl⟩ := h
  exact ⟨a, b, c, d, x, y, z, w, hexDigit_sound hx, hexDigit_sound hy, hexDigit_sound hz, hexDigit_sound hw, by omega, rfl⟩

theorem shortEscape_sound {e c : Char} (h : shortEscape e = some c) : (e, c) ∈ escapes := by
  unfold shortEscape at h
  (repeat' split at h) <;> first | (injection h with h; subst_vars; decide) | (cases h)

/-- Units and how each is written. -/
inductive Units : List Nat → List Char → Prop
  | nil : Units [] []
  | esc (n : Nat) (t : List Char) (us : List Nat) (u : List Char) (h : Spec.Unit n t) (hu : Units us u) : Units (n :: us) (t ++ u)
  | char (c : Char) (t : List Char) (us : List Nat) (u : List Char) (h : CharText true c t) (hu : Units us u) : Units (c.toNat :: us) (t ++ u)

theorem space_le_of {c : Char} (h : ¬ c.toNat < 32) : ' ' ≤ c := by
  show ' '.val ≤ c.val
  rw [UInt32.le_iff_toNat_le]
  have e : c.toNat = c.val.toNat := rfl
  have e2 : (' ' : Char).val.toNat = 32 := rfl
  omega

theorem scanUnits_sound : ∀ (k : Nat) (t : List Char), t.length ≤ k → ∀ {us : List Nat} {r : List Char}, scanUnits t = some (us, r) →
    ∃ u, t = u ++ '"' :: r ∧ Units us u := by
  intro k
  induction k with
  | zero =>
    intro t ht us r h
    obtain rfl : t = [] := List.length_eq_zero_iff.1 (by omega)
    rw [scanUnits.eq_def] at h; cases h
  | succ k ih =>
    intro t ht us r h
    rw [scanUnits.eq_def] at h
    split at h
    · cases h
    rename_i c t
    split at h
    · rename_i hc
      injection h with h; injection h with h1 h2
      subst h1 h2 hc
      exact ⟨[], rfl, .nil⟩
    rename_i hq
    split at h
    · rename_i hb
      subst hb
      split at h
      · cases h
      rename_i e t
      split at h
      · rename_i he
        subst he
        split at h
        · rename_i a b c d t
          simp only [Option.bind_eq_bind, Option.bind_eq_some_iff, Option.pure_def, Option.some.injEq] at h
          obtain ⟨n, hn, ⟨s, r'⟩, hs, h⟩ := h
          injection h with h1 h2
          subst h1 h2
          obtain ⟨u, rfl, hu⟩ := ih t (by simp at ht; omega) hs
          exact ⟨_, by simp, Units.esc n _ _ _ (hex4_sound hn) hu⟩
        · cases h
      · rename_i he
        simp only [Option.bind_eq_bind, Option.bind_eq_some_iff, Option.pure_def, Option.some.injEq] at h
        obtain ⟨x, hx, ⟨s, r'⟩, hs, h⟩ := h
        injection h with h1 h2
        subst h1 h2
        obtain ⟨u, rfl, hu⟩ := ih t (by simp at ht; omega) hs
        exact ⟨_, by simp, Units.char x _ _ _ (.short e x (shortEscape_sound hx)) hu⟩
    · rename_i hb
      split at h
      · cases h
      rename_i h32
      simp only [Option.bind_eq_bind, Option.bind_eq_some_iff, Option.pure_def, Option.some.injEq] at h
      obtain ⟨⟨s, r'⟩, hs, h⟩ := h
      injection h with h1 h2
      subst h1 h2
      obtain ⟨u, rfl, hu⟩ := ih t (by simp at ht; omega) hs
      exact ⟨_, by simp, Units.char c _ _ _ (.raw c (space_le_of h32) hq hb) hu⟩

theorem surrogate_char {n : Nat} (h : 0xD800 ≤ n ∧ n < 0xE000) : Char.ofNat n = Char.ofNat 0 := by
  have : ¬ n.isValidChar := by simp only [Nat.isValidChar]; omega
  simp [Char.ofNat, this]
  rfl

theorem units_chars : ∀ (k : Nat) (us : List Nat), us.length ≤ k → ∀ {u : List Char}, Units us u → Chars true ((join us).map Char.ofNat) u := by
  intro k
  induction k with
  | zero =>
    intro us hk u h
    obtain rfl : us = [] := List.length_eq_zero_iff.1 (by omega)
    cases h; exact .nil
  | succ k ih =>
    intro us hk u h
    cases us with
    | nil => cases h; exact .nil
    | cons a us =>
      by_cases hp : ∃ b l, us = b :: l ∧ isHigh a = true ∧ isLow b = true
      · obtain ⟨b, l, rfl, ha, hb⟩ := hp
        rw [join_pair ha hb, List.map_cons]
        have ha' := ha; have hb' := hb
        simp only [isHigh, isLow, Bool.and_eq_true, decide_eq_true_eq] at ha hb
        cases h with
        | char c t us u' hc hu => rw [char_not_high] at ha'; cases ha'
        | esc n t us u' hn hu =>
          cases hu with
          | char c t us u' hc hu =>
            have hv := c.valid
            simp only [UInt32.isValidChar, Nat.isValidChar] at hv
            have ev : c.val.toNat = c.toNat := rfl
            omega
          | esc n' t' us u' hn' hu =>
            rw [← List.append_assoc]
            exact .cons _ _ _ _ (.pair a b _ _ hn hn' ha hb) (ih _ (by simp at hk; omega) hu)
      · have ej : join (a :: us) = a :: join us := by
          cases us with
          | nil => simp [join]
          | cons b l =>
            rw [join, if_neg]
            intro hh
            rw [Bool.and_eq_true] at hh
            exact hp ⟨b, l, rfl, hh⟩
        rw [ej, List.map_cons]
        cases h with
        | char c t us u' hc hu =>
          rw [Char.ofNat_toNat]
          exact .cons _ _ _ _ hc (ih _ (by simp at hk; omega) hu)
        | esc n t us u' hn hu =>
          refine .cons _ _ _ _ ?_ (ih _ (by simp at hk; omega) hu)
          by_cases hs : 0xD800 ≤ a ∧ a < 0xE000
          · rw [surrogate_char hs]; exact .lone a _ hn hs rfl
          · exact .unit a _ hn (by omega)

theorem scanString_sound {t s r : List Char} (h : scanString t = some (s, r)) : ∃ u, Chars true s u ∧ t = u ++ '"' :: r := by
  unfold scanString at h
  split at h
  · cases h
  · rename_i us r' hs
    injection h with h; injection h with h1 h2
    subst h1 h2
    obtain ⟨u, hu, h3⟩ := scanUnits_sound t.length t (Nat.le_refl _) hs
    exact ⟨u, units_chars us.length us (Nat.le_refl _) h3, hu⟩

/-! ### Numbers -/

theorem takeWhile_spec (t : List Char) : t = t.takeWhile isDigit ++ t.dropWhile isDigit ∧ ∀ c ∈ t.takeWhile isDigit, '0' ≤ c ∧ c ≤ '9' :=
  ⟨(List.takeWhile_append_dropWhile).symm, fun _ hc => isDigit_spec.1 (mem_takeWhile hc)⟩

theorem intPart_sound {t d r : List Char} (h : intPart t = some (d, r)) : IntText d ∧ t = d ++ r := by
  unfold intPart at h
  split at h
  · cases h
  rename_i c t
  split at h
  · rename_i hc
    injection h with h; injection h with h1 h2
    subst h1 h2 hc
    exact ⟨.inl rfl, rfl⟩
  split at h
  · rename_i hc hd
    injection h with h; injection h with h1 h2
    subst h1 h2
    obtain ⟨e, hall⟩ := takeWhile_spec (c :: t)
    refine ⟨.inr ⟨⟨?_, hall⟩, ?_⟩, e⟩
    · rw [List.takeWhile_cons_of_pos hd]; simp
    · rw [List.takeWhile_cons_of_pos hd]; simpa using hc
  · cases h

theorem fracPart_sound (t : List Char) : t = (fracPart t).1 ++ (fracPart t).2 ∧ ((fracPart t).1 = [] ∨ FracText (fracPart t).1) := by
  unfold fracPart
  split
  · rename_i c d r
    split
    · rename_i h
      obtain ⟨rfl, hd⟩ := h
      obtain ⟨e, hall⟩ := takeWhile_spec (d :: r)
      refine ⟨?_, .inr ⟨_, ⟨?_, hall⟩, rfl⟩⟩
      · simp only [List.cons_append]; rw [← e]
      · rw [List.takeWhile_cons_of_pos hd]; simp
    · exact ⟨rfl, .inl rfl⟩
  · exact ⟨rfl, .inl rfl⟩

theorem expPart_sound (t : List Char) : t = (expPart t).1 ++ (expPart t).2 ∧ ((expPart t).1 = [] ∨ ExpText (expPart t).1) := by
  unfold expPart
  split
  · rename_i c d r
    split
    · rename_i hc
      split
      · rename_i hd
        obtain ⟨e, hall⟩ := takeWhile_spec (d :: r)
        refine ⟨?_, .inr ⟨c, [], _, hc, .inl rfl, ⟨?_, hall⟩, rfl⟩⟩
        · simp only [List.cons_append]; rw [← e]
        · rw [List.takeWhile_cons_of_pos hd]; simp
      split
      · rename_i hd h
        obtain ⟨hs, hne⟩ := h
        obtain ⟨e, hall⟩ := takeWhile_spec r
        refine ⟨?_, .inr ⟨c, [d], _, hc, by rcases hs with rfl | rfl <;> simp, ⟨hne, hall⟩, rfl⟩⟩
        simp only [List.cons_append]; rw [← e]
      · exact ⟨rfl, .inl rfl⟩
    · exact ⟨rfl, .inl rfl⟩
  · exact ⟨rfl, .inl rfl⟩

theorem number_sound {float : List Char → JVal} {t r : List Char} {v : JVal} (h : number float t = some (v, r)) :
    ∃ u, Scalar true float v u ∧ t = u ++ r := by
  unfold number at h
  simp only at h
  split at h
  · cases h
  rename_i ds rest hi
  obtain ⟨hd, hrest⟩ := intPart_sound hi
  obtain ⟨f1, f2⟩ := fracPart_sound rest
  obtain ⟨e1, e2⟩ := expPart_sound (fracPart rest).2
  by_cases hneg : t.head? = some '-'
  · have ht : t = '-' :: (ds ++ rest) := by
      simp only [hneg, decide_true, if_true] at hrest
      cases t with
      | nil => cases hneg
      | cons x t => simp at hneg; subst hneg; rw [← hrest]; rfl
    simp only [hneg, decide_true, if_true] at h
    split at h
    · injection h with h; injection h with h1 h2
      subst h1 h2
      rw [natOf_eq]
      exact ⟨_, .neg ds hd, by rw [ht]; simp⟩
    · rename_i hne
      injection h with h; injection h with h1 h2
      subst h1 h2
      refine ⟨_, .float ['-'] ds (fracPart rest).1 (expPart (fracPart rest).2).1 (.inr rfl) hd f2 e2 (by simpa using hne), ?_⟩
      rw [ht]
      simp only [List.append_assoc, List.cons_append, List.nil_append]
      rw [← e1, ← f1]
  · have ht : t = ds ++ rest := by simpa [hneg] using hrest
    simp only [hneg, decide_false, Bool.false_eq_true, if_false] at h
    split at h
    · injection h with h; injection h with h1 h2
      subst h1 h2
      rw [natOf_eq]
      exact ⟨_, .nat ds hd, ht⟩
    · rename_i hne
      injection h with h; injection h with h1 h2
      subst h1 h2
      refine ⟨_, .float [] ds (fracPart rest).1 (expPart (fracPart rest).2).1 (.inl rfl) hd f2 e2 (by simpa using hne), ?_⟩
      rw [ht]
      simp only [List.append_assoc, List.cons_append, List.nil_append]
      rw [← e1, ← f1]

/-! ### Lists and objects -/

/-- `value` reads only what `V` writes. -/
def Sound (value : List Char → Option (JVal × List Char)) (V : JVal → List Char → Prop) : Prop :=
  ∀ t v r, value t = some (v, r) → ∃ u, V v u ∧ t = u ++ r

theorem members_sound {value : List Char → Option (JVal × List Char)} {V : JVal → List Char → Prop} (hV : Sound value V) :
    ∀ (n : Nat) (acc : List (String × JVal)) (t : List Char) {f : List (String × JVal)} {r a : List Char}, Blank a →
      members value n acc t = some (f, r) → ∃ l u, Members true V l u ∧ a ++ t = u ++ '}' :: r ∧ f = dictOf acc l := by
  intro n
  induction n with
  | zero => intro acc t f r a _ h; cases h
  | succ n ih =>
    intro acc t f r a ha h
    unfold members at h
    split at h
    · cases h
    rename_i c t
    split at h
    · rename_i hc
      subst hc
      simp only [Option.bind_eq_bind, Option.bind_eq_some_iff] at h
      obtain ⟨⟨k, t1⟩, hk, h⟩ := h
      obtain ⟨ku, hku, rfl⟩ := scanString_sound hk
      obtain ⟨b, hb, eb⟩ := skip_split t1
      split at h
      · cases h
      rename_i c t2 et2
      split at h
      · rename_i hc
        subst hc
        rw [Option.bind_eq_some_iff] at h
        obtain ⟨⟨v, t3⟩, hv, h⟩ := h
        obtain ⟨vt, hvt, e3⟩ := hV _ _ _ hv
        obtain ⟨c', hc', ec'⟩ := skip_split t2
        obtain ⟨d, hd, ed⟩ := skip_split t3
        simp only at h
        split at h
        · cases h
        rename_i x t4 et4
        have hstr : Str true k ('"' :: ku ++ ['"']) := ⟨ku, hku, rfl⟩
        split at h
        · rename_i hx
          subst hx
          injection h with h; injection h with h1 h2
          subst h1 h2
          refine ⟨_, _, .last k v a _ b c' vt d ha hstr hb hc' hvt hd, ?_, rfl⟩
          rw [eb, et2, ec', e3, ed, et4]
          simp
        split at h
        · rename_i hx _
          rename_i hx
          subst hx
          obtain ⟨a', ha', ea'⟩ := skip_split t4
          obtain ⟨l, u, hl, eu, ef⟩ := ih _ _ ha' h
          refine ⟨_, _, .more k v a _ b c' vt d l u ha hstr hb hc' hvt hd hl, ?_, ?_⟩
          · rw [eb, et2, ec', e3, ed, et4]
            rw [ea', eu]
            simp
          · rw [ef]; rfl
        · cases h
      · cases h
    · cases h

theorem object_sound {value : List Char → Option (JVal × List Char)} {V : JVal → List Char → Prop} (hV : Sound value V)
    {t r : List Char} {f : List (String × JVal)} (h : object value t = some (f, r)) :
    ∃ l u, Obj true V l u ∧ '{' :: t = u ++ r ∧ f = dictOf [] l := by
  obtain ⟨a, ha, ea⟩ := skip_split t
  unfold object at h
  split at h
  · cases h
  rename_i c t' et
  split at h
  · rename_i hc
    subst hc
    injection h with h; injection h with h1 h2
    subst h1 h2
    exact ⟨[], _, .empty a ha, by rw [ea, et]; simp, rfl⟩
  · obtain ⟨l, u, hl, eu, ef⟩ := members_sound hV _ _ _ ha h
    refine ⟨l, _, .full l u hl, ?_, ef⟩
    rw [ea, et, eu]; simp

theorem elements_sound {value : List Char → Option (JVal × List Char)} {V : JVal → List Char → Prop} (hV : Sound value V) :
    ∀ (n : Nat) (t : List Char) {r a : List Char}, Blank a → elements value n t = some r → ∃ u, Elements V u ∧ a ++ t = u ++ ']' :: r := by
  intro n
  induction n with
  | zero => intro t r a _ h; cases h
  | succ n ih =>
    intro t r a ha h
    unfold elements at h
    simp only [Option.bind_eq_bind, Option.bind_eq_some_iff] at h
    obtain ⟨⟨v, t1⟩, hv, h⟩ := h
    obtain ⟨vt, hvt, e1⟩ := hV _ _ _ hv
    obtain ⟨b, hb, eb⟩ := skip_split t1
    split at h
    · cases h
    rename_i x t2 et2
    split at h
    · rename_i hx
      subst hx
      injection h with h
      subst h
      refine ⟨_, .last v a vt b ha hvt hb, ?_⟩
      rw [e1, eb, et2]; simp
    split at h
    · rename_i hx
      subst hx
      obtain ⟨a', ha', ea'⟩ := skip_split t2
      obtain ⟨u, hu, eu⟩ := ih _ ha' h
      refine ⟨_, .more v a vt b u ha hvt hb hu, ?_⟩
      rw [e1, eb, et2, ea', eu]; simp
    · cases h

theorem array_sound {value : List Char → Option (JVal × List Char)} {V : JVal → List Char → Prop} (hV : Sound value V)
    {t r : List Char} (h : array value t = some r) : ∃ u, Arr V u ∧ '[' :: t = u ++ r := by
  obtain ⟨a, ha, ea⟩ := skip_split t
  unfold array at h
  split at h
  · cases h
  rename_i c t' et
  split at h
  · rename_i hc
    subst hc
    injection h with h
    subst h
    exact ⟨_, .empty a ha, by rw [ea, et]; simp⟩
  · obtain ⟨u, hu, eu⟩ := elements_sound hV _ _ ha h
    refine ⟨_, .full u hu, ?_⟩
    rw [ea, et, eu]; simp

theorem words_sound (float : List Char → JVal) : ∀ e ∈ words, Scalar true float e.2 e.1 := by
  intro e he
  simp only [words, List.mem_cons, List.not_mem_nil, or_false] at he
  rcases he with rfl | rfl | rfl | rfl | rfl | rfl
  · exact .null
  · exact .true
  · exact .false
  · exact .word _ (by simp) rfl
  · exact .word _ (by simp) rfl
  · exact .word _ (by simp) rfl

theorem value_sound (float : List Char → JVal) (n : Nat) : Sound (value float n) (Value true float n) := by
  induction n with
  | zero => intro t v r h; cases h
  | succ n ih =>
    intro t v r h
    unfold value at h
    split at h
    · cases h
    rename_i c t
    split at h
    · rename_i hc
      subst hc
      simp only [Option.map_eq_some_iff] at h
      obtain ⟨⟨s, r'⟩, hs, h⟩ := h
      injection h with h1 h2
      subst h1 h2
      obtain ⟨u, hu, rfl⟩ := scanString_sound hs
      exact ⟨_, .inl (.str s _ ⟨u, hu, rfl⟩), by simp⟩
    split at h
    · rename_i hc
      subst hc
      simp only [Option.map_eq_some_iff] at h
      obtain ⟨⟨f, r'⟩, hs, h⟩ := h
      injection h with h1 h2
      subst h1 h2
      obtain ⟨l, u, hu, e, _⟩ := object_sound ih hs
      exact ⟨u, .inr ⟨rfl, .inr ⟨l, hu⟩⟩, e⟩
    split at h
    · rename_i hc
      subst hc
      simp only [Option.map_eq_some_iff] at h
      obtain ⟨r', hs, h⟩ := h
      injection h with h1 h2
      subst h1 h2
      obtain ⟨u, hu, e⟩ := array_sound ih hs
      exact ⟨u, .inr ⟨rfl, .inl hu⟩, e⟩
    split at h
    · rename_i e he
      injection h with h; injection h with h1 h2
      subst h1 h2
      have hp := List.find?_some he
      have hm := List.mem_of_find?_eq_some he
      obtain ⟨x, hx⟩ := List.isPrefixOf_iff_prefix.1 hp
      refine ⟨e.1, .inl (words_sound float e hm), ?_⟩
      rw [← hx]; simp
    · obtain ⟨u, hu, e⟩ := number_sound h
      exact ⟨u, .inl hu, e⟩

theorem loads_sound {float : List Char → JVal} {n : Nat} {t : List Char} {f : List (String × JVal)} (h : loads float n t = some f) :
    ∃ l, Document true float n l t ∧ f = dictOf [] l := by
  obtain ⟨a, ha, ea⟩ := skip_split t
  unfold loads at h
  split at h
  · cases h
  split at h
  · cases h
  rename_i c r et
  split at h
  · rename_i hc
    subst hc
    split at h
    · rename_i fields rest ho
      split at h
      · rename_i hr
        injection h with h
        subst h
        obtain ⟨l, u, hu, eu, ef⟩ := object_sound (value_sound float n) ho
        obtain ⟨b, hb, eb⟩ := skip_split rest
        rw [hr, List.append_nil] at eb
        subst eb
        exact ⟨l, ⟨a, rest, u, ha, hb, hu, by rw [ea, et, eu]; simp⟩, ef⟩
      · cases h
    · cases h
  · cases h

end Verif.Json

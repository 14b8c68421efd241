import Verif.Model.Json
import Verif.Spec.Json
/-! The parser of `Model/Json.lean` reads every text of the grammar of `Spec/Json.lean`. -/
set_option autoImplicit false
namespace Verif.Json
open Spec

/-! ### White space -/

theorem isBlank_of {c : Char} (h : c = ' ' ∨ c = '\t' ∨ c = '\n' ∨ c = '\r') : isBlank c = true := by
  rcases h with rfl | rfl | rfl | rfl <;> rfl

theorem skip_blank {a : List Char} (h : Blank a) (t : List Char) : skip (a ++ t) = skip t := by
  induction a with
  | nil => rfl
  | cons c a ih =>
    have hc := isBlank_of (h c (by simp))
    have := ih (fun x hx => h x (by simp [hx]))
    simp only [skip] at this ⊢
    rw [List.cons_append, List.dropWhile_cons_of_pos (by simpa using hc)]
    exact this

theorem skip_cons {c : Char} (h : isBlank c = false) (t : List Char) : skip (c :: t) = c :: t := by
  simp [skip, List.dropWhile_cons, h]

theorem skip_to {a : List Char} (h : Blank a) {c : Char} (hc : isBlank c = false) (t : List Char) : skip (a ++ c :: t) = c :: t := by
  rw [skip_blank h, skip_cons hc]

theorem skip_all {a : List Char} (h : Blank a) : skip a = [] := by
  have := skip_blank h []
  simpa [skip] using this

/-! ### Strings -/

theorem hexDigit_spec : ∀ p ∈ Spec.hexDigits, hexDigit p.1 = some p.2 := by decide

theorem hexDigit_lt : ∀ p ∈ Spec.hexDigits, p.2 < 16 := by decide

theorem unit_hex4 {n : Nat} {t : List Char} (h : Spec.Unit n t) :
    ∃ a b c d, t = ['\\', 'u', a, b, c, d] ∧ hex4 a b c d = some n := by
  obtain ⟨a, b, c, d, x, y, z, w, ha, hb, hc, hd, rfl, rfl⟩ := h
  refine ⟨a, b, c, d, rfl, ?_⟩
  have e1 : hexDigit a = some x := hexDigit_spec _ ha
  have e2 : hexDigit b = some y := hexDigit_spec _ hb
  have e3 : hexDigit c = some z := hexDigit_spec _ hc
  have e4 : hexDigit d = some w := hexDigit_spec _ hd
  simp only [hex4, e1, e2, e3, e4, Option.bind_eq_bind, Option.bind_some, Option.pure_def, Option.some.injEq]
  omega

theorem unit_lt {n : Nat} {t : List Char} (h : Spec.Unit n t) : n < 0x10000 := by
  obtain ⟨a, b, c, d, x, y, z, w, ha, hb, hc, hd, rfl, rfl⟩ := h
  have e1 := hexDigit_lt _ ha
  have e2 := hexDigit_lt _ hb
  have e3 := hexDigit_lt _ hc
  have e4 := hexDigit_lt _ hd
  dsimp only at e1 e2 e3 e4
  omega

theorem scanUnits_quote (r : List Char) : scanUnits ('"' :: r) = some ([], r) := by
  rw [scanUnits.eq_def]; simp

theorem scanUnits_raw {c : Char} {u r : List Char} {us : List Nat} (h1 : c ≠ '"') (h2 : c ≠ '\\') (h3 : ¬ c.toNat < 32)
    (ih : scanUnits u = some (us, r)) : scanUnits (c :: u) = some (c.toNat :: us, r) := by
  rw [scanUnits.eq_def]
  simp only [h1, h2, h3, if_false, ih, Option.bind_eq_bind, Option.bind_some, Option.pure_def]

theorem scanUnits_short {e c : Char} {u r : List Char} {us : List Nat} (h1 : shortEscape e = some c) (h2 : e ≠ 'u')
    (ih : scanUnits u = some (us, r)) : scanUnits ('\\' :: e :: u) = some (c.toNat :: us, r) := by
  rw [scanUnits.eq_def]
  simp only [h1, h2, Char.reduceEq, if_true, if_false, ih, Option.bind_eq_bind, Option.bind_some, Option.pure_def]

theorem scanUnits_unit {n : Nat} {t : List Char} (h : Spec.Unit n t) {u r : List Char} {us : List Nat}
    (ih : scanUnits u = some (us, r)) : scanUnits (t ++ u) = some (n :: us, r) := by
  obtain ⟨a, b, c, d, rfl, h4⟩ := unit_hex4 h
  simp only [List.cons_append, List.nil_append]
  rw [scanUnits]
  simp only [Char.reduceEq, if_false, if_true, h4, ih, Option.bind_eq_bind, Option.bind_some, Option.pure_def]

theorem escapes_spec : ∀ p ∈ escapes, shortEscape p.1 = some p.2 ∧ p.1 ≠ 'u' ∧ p.2.toNat < 0xD800 := by decide

theorem join_cons {a : Nat} (h : isHigh a = false) (l : List Nat) : join (a :: l) = a :: join l := by
  cases l with
  | nil => simp [join]
  | cons b l => simp [join, h]

theorem join_pair {a b : Nat} (ha : isHigh a = true) (hb : isLow b = true) (l : List Nat) :
    join (a :: b :: l) = (0x10000 + (a - 0xD800) * 1024 + (b - 0xDC00)) :: join l := by
  simp [join, ha, hb]

theorem char_not_high (c : Char) : isHigh c.toNat = false := by
  have h := c.valid
  simp only [UInt32.isValidChar, Nat.isValidChar] at h
  have e : c.toNat = c.val.toNat := rfl
  simp only [isHigh, Bool.and_eq_false_iff, decide_eq_false_iff_not]
  omega

theorem space_le {c : Char} (h : ' ' ≤ c) : ¬ c.toNat < 32 := by
  have : ' '.val ≤ c.val := h
  rw [UInt32.le_iff_toNat_le] at this
  have e : c.toNat = c.val.toNat := rfl
  have e2 : (' ' : Char).val.toNat = 32 := rfl
  omega

theorem scanUnits_chars {s u : List Char} (h : Chars false s u) (r : List Char) :
    ∃ us, scanUnits (u ++ '"' :: r) = some (us, r) ∧ (join us).map Char.ofNat = s := by
  induction h with
  | nil => exact ⟨[], scanUnits_quote r, rfl⟩
  | cons c s t u hc hs ih =>
    obtain ⟨us, h1, h2⟩ := ih
    cases hc with
    | raw h h3 h4 =>
      refine ⟨c.toNat :: us, ?_, ?_⟩
      · exact scanUnits_raw ‹c ≠ '"'› ‹c ≠ '\\'› (space_le ‹_›) h1
      · rw [join_cons (char_not_high c), List.map_cons, h2, Char.ofNat_toNat]
    | short e he =>
      obtain ⟨h3, h4, h5⟩ := escapes_spec _ ‹_›
      refine ⟨c.toNat :: us, ?_, ?_⟩
      · exact scanUnits_short h3 h4 h1
      · rw [join_cons (char_not_high c), List.map_cons, h2, Char.ofNat_toNat]
    | unit n hs hn =>
      refine ⟨n :: us, ?_, ?_⟩
      · rw [List.append_assoc]; exact scanUnits_unit ‹_› h1
      · rw [join_cons (by simp only [isHigh, Bool.and_eq_false_iff, decide_eq_false_iff_not]; omega), List.map_cons, h2]
    | pair hi lo t v h3 h4 h5 h6 =>
      refine ⟨hi :: lo :: us, ?_, ?_⟩
      · rw [List.append_assoc, List.append_assoc]; exact scanUnits_unit h3 (scanUnits_unit h4 h1)
      · rw [join_pair (by simp [isHigh]; omega) (by simp [isLow]; omega), List.map_cons, h2]
    | lone => exact absurd ‹false = true› (by decide)

theorem scanString_chars {s u : List Char} (h : Chars false s u) (r : List Char) : scanString (u ++ '"' :: r) = some (s, r) := by
  obtain ⟨us, h1, h2⟩ := scanUnits_chars h r
  simp [scanString, h1, h2]

/-! ### Numbers -/

/-- What may follow a number. -/
def Stop (r : List Char) : Prop := ∀ c, r.head? = some c → isDigit c = false ∧ c ≠ '.' ∧ c ≠ 'e' ∧ c ≠ 'E'

theorem isDigit_spec {c : Char} : isDigit c = true ↔ '0' ≤ c ∧ c ≤ '9' := by simp [isDigit]

theorem takeWhile_digits {d r : List Char} (h : ∀ c ∈ d, '0' ≤ c ∧ c ≤ '9') (hr : ∀ c, r.head? = some c → isDigit c = false) :
    (d ++ r).takeWhile isDigit = d ∧ (d ++ r).dropWhile isDigit = r := by
  induction d with
  | nil =>
    cases r with
    | nil => exact ⟨rfl, rfl⟩
    | cons c r => have := hr c rfl; simp [List.takeWhile_cons, List.dropWhile_cons, this]
  | cons c d ih =>
    have hc := isDigit_spec.2 (h c (by simp))
    have := ih (fun x hx => h x (by simp [hx]))
    simp [List.takeWhile_cons, List.dropWhile_cons, hc, this]

theorem natOf_append (d : List Char) (c : Char) : natOf (d ++ [c]) = natOf d * 10 + (c.toNat - 48) := by
  simp [natOf, List.foldl_append]

theorem foldl_digits (d : List Char) : ∀ n : Nat, d.foldl (fun n c => n * 10 + (c.toNat - 48)) n = n * 10 ^ d.length + valueOf d := by
  induction d with
  | nil => intro n; simp [valueOf]
  | cons c d ih =>
    intro n
    rw [List.foldl_cons, ih, valueOf, List.length_cons, Nat.pow_succ]
    have e : ('0' : Char).toNat = 48 := rfl
    rw [e, Nat.add_mul, Nat.mul_assoc, Nat.mul_comm 10]
    omega

theorem natOf_eq (d : List Char) : natOf d = valueOf d := by
  have := foldl_digits d 0
  simpa [natOf] using this

theorem intPart_spec {t r : List Char} (h : IntText t) (hr : ∀ c, r.head? = some c → isDigit c = false) : intPart (t ++ r) = some (t, r) := by
  rcases h with rfl | ⟨⟨h1, h2⟩, h3⟩
  · simp [intPart]
  · obtain ⟨c, d, rfl⟩ := List.exists_cons_of_ne_nil h1
    have hc : c ≠ '0' := by intro e; apply h3; simp [e]
    have := takeWhile_digits h2 hr
    simp only [List.cons_append] at this ⊢
    simp only [intPart, if_neg hc, isDigit_spec.2 (h2 c (by simp)), if_true, this.1, this.2]

theorem intText_head {t : List Char} (h : IntText t) : ∃ c d, t = c :: d ∧ '0' ≤ c ∧ c ≤ '9' := by
  rcases h with rfl | ⟨⟨h1, h2⟩, h3⟩
  · exact ⟨'0', [], rfl, by decide, by decide⟩
  · obtain ⟨c, d, rfl⟩ := List.exists_cons_of_ne_nil h1
    exact ⟨c, d, rfl, h2 c (by simp)⟩

theorem fracPart_stop {r : List Char} (h : ∀ c, r.head? = some c → c ≠ '.') : fracPart r = ([], r) := by
  unfold fracPart
  split
  · rename_i c d r
    have := h c rfl
    simp [this]
  · rfl

theorem expPart_stop {r : List Char} (h : ∀ c, r.head? = some c → c ≠ 'e' ∧ c ≠ 'E') : expPart r = ([], r) := by
  unfold expPart
  split
  · rename_i c d r
    have := h c rfl
    simp [this]
  · rfl

theorem fracPart_spec {f r : List Char} (h : FracText f) (hr : ∀ c, r.head? = some c → isDigit c = false) : fracPart (f ++ r) = (f, r) := by
  obtain ⟨d, ⟨h1, h2⟩, rfl⟩ := h
  obtain ⟨c, d, rfl⟩ := List.exists_cons_of_ne_nil h1
  have := takeWhile_digits h2 hr
  simp only [List.cons_append] at this ⊢
  simp only [fracPart, isDigit_spec.2 (h2 c (by simp)), and_self, if_true, this.1, this.2]

theorem not_digit_sign : isDigit '+' = false ∧ isDigit '-' = false ∧ isDigit '.' = false ∧ isDigit 'e' = false ∧ isDigit 'E' = false := by decide

theorem expPart_spec {f r : List Char} (h : ExpText f) (hr : ∀ c, r.head? = some c → isDigit c = false) : expPart (f ++ r) = (f, r) := by
  obtain ⟨e, s, d, he, hs, ⟨h1, h2⟩, rfl⟩ := h
  have ht := takeWhile_digits h2 hr
  obtain ⟨c, d, rfl⟩ := List.exists_cons_of_ne_nil h1
  have hc := isDigit_spec.2 (h2 c (by simp))
  rcases hs with rfl | rfl | rfl
  · simp only [List.cons_append, List.nil_append, List.append_nil] at ht ⊢
    simp only [expPart, he, hc, if_true, ht.1, ht.2]
  · simp only [List.cons_append, List.nil_append, List.append_nil] at ht ⊢
    simp [expPart, he, not_digit_sign, ht.1, ht.2]
  · simp only [List.cons_append, List.nil_append, List.append_nil] at ht ⊢
    simp [expPart, he, not_digit_sign, ht.1, ht.2]

theorem number_int (float : List Char → JVal) {t r : List Char} (h : IntText t) (hr : Stop r) (neg : Bool) :
    number float ((if neg then ['-'] else []) ++ t ++ r) = some (.int (if neg then -(valueOf t : Int) else valueOf t), r) := by
  obtain ⟨c, d, e, h0, h9⟩ := intText_head h
  have hc : c ≠ '-' := by rintro rfl; exact absurd h0 (by decide)
  have e1 := intPart_spec h (fun c hc => (hr c hc).1)
  have e2 := fracPart_stop (fun c hc => (hr c hc).2.1)
  have e3 := expPart_stop (fun c hc => (hr c hc).2.2)
  cases neg with
  | true =>
    simp [number, e1, e2, e3, natOf_eq]
  | false =>
    have : (t ++ r).head? ≠ some '-' := by rw [e]; simpa using hc
    simp only [Bool.false_eq_true, if_false, List.nil_append]
    simp only [number, this, decide_false, Bool.false_eq_true, if_false, e1, e2, e3, and_self, if_true, natOf_eq]

theorem number_float (float : List Char → JVal) {s t f e r : List Char} (hs : s = [] ∨ s = ['-']) (h : IntText t)
    (hf : f = [] ∨ FracText f) (he : e = [] ∨ ExpText e) (hfe : f ++ e ≠ []) (hr : Stop r) :
    number float (s ++ t ++ f ++ e ++ r) = some (float (s ++ t ++ f ++ e), r) := by
  obtain ⟨c, d, et, h0, h9⟩ := intText_head h
  have hc : c ≠ '-' := by rintro rfl; exact absurd h0 (by decide)
  have hExp : ∀ c, (e ++ r).head? = some c → isDigit c = false ∧ c ≠ '.' := by
    intro c hc
    rcases he with rfl | ⟨x, s, d, hx, _, _, rfl⟩
    · exact ⟨(hr c hc).1, (hr c hc).2.1⟩
    · simp at hc; subst hc; rcases hx with rfl | rfl <;> decide
  have e3 : expPart (e ++ r) = (e, r) := by
    rcases he with rfl | he
    · exact expPart_stop (fun c hc => (hr c hc).2.2)
    · exact expPart_spec he (fun c hc => (hr c hc).1)
  have e2 : fracPart (f ++ (e ++ r)) = (f, e ++ r) := by
    rcases hf with rfl | hf
    · exact fracPart_stop (fun c hc => (hExp c hc).2)
    · exact fracPart_spec hf (fun c hc => (hExp c hc).1)
  have e1 : intPart (t ++ (f ++ (e ++ r))) = some (t, f ++ (e ++ r)) := by
    refine intPart_spec h ?_
    intro c hc
    rcases hf with rfl | ⟨d, _, rfl⟩
    · exact (hExp c hc).1
    · simp at hc; subst hc; decide
  have hne : ¬ (f = [] ∧ e = []) := by rintro ⟨rfl, rfl⟩; exact hfe rfl
  rcases hs with rfl | rfl
  · have : (t ++ (f ++ (e ++ r))).head? ≠ some '-' := by rw [et]; simpa using hc
    simp only [List.nil_append, List.append_assoc]
    simp only [number, this, decide_false, Bool.false_eq_true, if_false, e1, e2, e3, if_neg hne, List.nil_append, List.append_assoc]
  · simp only [List.cons_append, List.nil_append, List.append_assoc]
    simp only [number, List.head?_cons, decide_true, if_true, List.tail_cons, e1, e2, e3, if_neg hne, List.cons_append, List.nil_append, List.append_assoc]

/-! ### Lists and objects -/

theorem stop_sep {d : List Char} (h : Blank d) {c : Char} (hc : c = ',' ∨ c = '}' ∨ c = ']') (r : List Char) : Stop (d ++ c :: r) := by
  intro x hx
  cases d with
  | nil => simp at hx; subst hx; rcases hc with rfl | rfl | rfl <;> decide
  | cons y d =>
    simp at hx; subst hx
    rcases h y (by simp) with rfl | rfl | rfl | rfl <;> decide

/-- `value` reads what `V` writes. -/
structure Reads (value : List Char → Option (JVal × List Char)) (V : JVal → List Char → Prop) : Prop where
  read : ∀ v t r, V v t → Stop r → value (t ++ r) = some (v, r)
  solid : ∀ v t, V v t → ∃ c u, t = c :: u ∧ isBlank c = false

/-- The dictionary after so many assignments. -/
def dictOf (acc : List (String × JVal)) (l : List (List Char × JVal)) : List (String × JVal) :=
  l.foldl (fun acc e => setKey acc (String.ofList e.1) e.2) acc

theorem sep_solid {c : Char} (hc : c = ',' ∨ c = '}' ∨ c = ']' ∨ c = ':') : isBlank c = false := by
  rcases hc with rfl | rfl | rfl | rfl <;> decide

theorem member_spec {value : List Char → Option (JVal × List Char)} {V : JVal → List Char → Prop} (hV : Reads value V)
    {k : List Char} {v : JVal} {a kt b c vt d : List Char} (ha : Blank a) (hk : Str false k kt) (hb : Blank b) (hc : Blank c)
    (hv : V v vt) (hd : Blank d) (n : Nat) (acc : List (String × JVal)) {x : Char} (hx : x = ',' ∨ x = '}') (r : List Char) :
    members value (n + 1) acc (skip (a ++ kt ++ b ++ ':' :: c ++ vt ++ d ++ x :: r)) =
      if x = '}' then some (setKey acc (String.ofList k) v, r) else members value n (setKey acc (String.ofList k) v) (skip r) := by
  obtain ⟨u, hu, rfl⟩ := hk
  obtain ⟨y, w, rfl, hy⟩ := hV.solid v vt hv
  have e1 : skip (a ++ ('"' :: u ++ ['"']) ++ b ++ ':' :: c ++ (y :: w) ++ d ++ x :: r) =
      '"' :: (u ++ '"' :: (b ++ ':' :: (c ++ ((y :: w) ++ (d ++ x :: r))))) := by
    simp only [List.append_assoc, List.cons_append, List.nil_append]
    exact skip_to ha (by decide) _
  have e2 : skip (b ++ ':' :: (c ++ ((y :: w) ++ (d ++ x :: r)))) = ':' :: (c ++ ((y :: w) ++ (d ++ x :: r))) := skip_to hb (by decide) _
  have e3 : skip (c ++ ((y :: w) ++ (d ++ x :: r))) = (y :: w) ++ (d ++ x :: r) := by
    rw [List.cons_append]; exact skip_to hc hy _
  have e4 : value ((y :: w) ++ (d ++ x :: r)) = some (v, d ++ x :: r) :=
    hV.read _ _ _ hv (stop_sep hd (by rcases hx with rfl | rfl <;> simp) _)
  have e5 : skip (d ++ x :: r) = x :: r := skip_to hd (sep_solid (by rcases hx with rfl | rfl <;> simp)) _
  rw [e1, members]
  simp only [if_true, scanString_chars hu, Option.bind_eq_bind, Option.bind_some, e2, e3, e4, e5]
  rcases hx with rfl | rfl <;> simp

theorem members_spec {value : List Char → Option (JVal × List Char)} {V : JVal → List Char → Prop} (hV : Reads value V)
    {l : List (List Char × JVal)} {t : List Char} (h : Members false V l t) :
    ∀ (n : Nat) (acc : List (String × JVal)) (r : List Char), l.length ≤ n →
      members value n acc (skip (t ++ '}' :: r)) = some (dictOf acc l, r) := by
  induction h with
  | last k v a kt b c vt d ha hk hb hc hv hd =>
    intro n acc r hn
    obtain ⟨m, rfl⟩ : ∃ m, n = m + 1 := ⟨n - 1, by simp at hn; omega⟩
    rw [member_spec hV ha hk hb hc hv hd m acc (.inr rfl) r, if_pos rfl]
    rfl
  | more k v a kt b c vt d l t ha hk hb hc hv hd hl ih =>
    intro n acc r hn
    obtain ⟨m, rfl⟩ : ∃ m, n = m + 1 := ⟨n - 1, by simp at hn; omega⟩
    have e : a ++ kt ++ b ++ ':' :: c ++ vt ++ d ++ ',' :: t ++ '}' :: r = a ++ kt ++ b ++ ':' :: c ++ vt ++ d ++ ',' :: (t ++ '}' :: r) := by simp
    rw [e, member_spec hV ha hk hb hc hv hd m acc (.inl rfl) _, if_neg (by decide), ih m _ _ (by simp at hn; omega)]
    rfl

theorem members_length {V : JVal → List Char → Prop} {l : List (List Char × JVal)} {t : List Char} (h : Members false V l t) :
    ∃ a c u, t = a ++ c :: u ∧ Blank a ∧ isBlank c = false ∧ c ≠ '}' ∧ l.length ≤ u.length + 1 := by
  induction h with
  | last k v a kt b c vt d ha hk hb hc hv hd =>
    obtain ⟨u, hu, rfl⟩ := hk
    exact ⟨a, '"', u ++ ['"'] ++ b ++ ':' :: c ++ vt ++ d, by simp, ha, by decide, by decide, by simp⟩
  | more k v a kt b c vt d l t ha hk hb hc hv hd hl ih =>
    obtain ⟨u, hu, rfl⟩ := hk
    obtain ⟨a', c', u', rfl, _, _, _, h⟩ := ih
    exact ⟨a, '"', u ++ ['"'] ++ b ++ ':' :: c ++ vt ++ d ++ ',' :: (a' ++ c' :: u'), by simp, ha, by decide, by decide, by simp; omega⟩

theorem object_spec {value : List Char → Option (JVal × List Char)} {V : JVal → List Char → Prop} (hV : Reads value V)
    {l : List (List Char × JVal)} {t : List Char} (h : Obj false V l t) (r : List Char) :
    ∃ u, t ++ r = '{' :: u ∧ object value u = some (dictOf [] l, r) := by
  cases h with
  | empty a ha =>
    refine ⟨a ++ '}' :: r, by simp, ?_⟩
    simp [object, skip_to ha (show isBlank '}' = false by decide), dictOf]
  | full l t h =>
    refine ⟨t ++ '}' :: r, by simp, ?_⟩
    obtain ⟨a, c, u, rfl, ha, hc, hne, h1⟩ := members_length h
    have e : skip (a ++ c :: u ++ '}' :: r) = c :: (u ++ '}' :: r) := by
      rw [List.append_assoc, List.cons_append]; exact skip_to ha hc _
    have h2 := members_spec hV h (c :: (u ++ '}' :: r)).length [] r (by simp; omega)
    rw [e] at h2
    unfold object
    rw [e]
    simp only [if_neg hne]
    exact h2

theorem element_spec {value : List Char → Option (JVal × List Char)} {V : JVal → List Char → Prop} (hV : Reads value V)
    {v : JVal} {a t b : List Char} (ha : Blank a) (hv : V v t) (hb : Blank b) (n : Nat) {x : Char} (hx : x = ',' ∨ x = ']') (r : List Char) :
    elements value (n + 1) (skip (a ++ t ++ b ++ x :: r)) = if x = ']' then some r else elements value n (skip r) := by
  obtain ⟨y, w, rfl, hy⟩ := hV.solid v t hv
  have e1 : skip (a ++ (y :: w) ++ b ++ x :: r) = (y :: w) ++ (b ++ x :: r) := by
    simp only [List.append_assoc, List.cons_append, List.nil_append]
    exact skip_to ha hy _
  have e4 : value ((y :: w) ++ (b ++ x :: r)) = some (v, b ++ x :: r) :=
    hV.read _ _ _ hv (stop_sep hb (by rcases hx with rfl | rfl <;> simp) _)
  have e5 : skip (b ++ x :: r) = x :: r := skip_to hb (sep_solid (by rcases hx with rfl | rfl <;> simp)) _
  rw [e1, elements]
  simp only [Option.bind_eq_bind, e4, Option.bind_some, e5]
  rcases hx with rfl | rfl <;> simp

theorem elements_spec {value : List Char → Option (JVal × List Char)} {V : JVal → List Char → Prop} (hV : Reads value V)
    (hne : ∀ v t, V v t → t.head? ≠ some ']') {t : List Char} (h : Elements V t) :
    ∃ a c u, t = a ++ c :: u ∧ Blank a ∧ isBlank c = false ∧ c ≠ ']' ∧
      ∀ (n : Nat) (r : List Char), u.length + 1 ≤ n → elements value n (skip (t ++ ']' :: r)) = some r := by
  induction h with
  | last v a t b ha hv hb =>
    obtain ⟨y, w, rfl, hy⟩ := hV.solid v t hv
    refine ⟨a, y, w ++ b, by simp, ha, hy, by simpa using hne _ _ hv, ?_⟩
    intro n r hn
    obtain ⟨m, rfl⟩ : ∃ m, n = m + 1 := ⟨n - 1, by omega⟩
    rw [element_spec hV ha hv hb m (.inr rfl) r, if_pos rfl]
  | more v a t b u ha hv hb hu ih =>
    obtain ⟨y, w, rfl, hy⟩ := hV.solid v t hv
    obtain ⟨a', c', u', rfl, _, _, _, ih⟩ := ih
    refine ⟨a, y, w ++ b ++ ',' :: (a' ++ c' :: u'), by simp, ha, hy, by simpa using hne _ _ hv, ?_⟩
    intro n r hn
    obtain ⟨m, rfl⟩ : ∃ m, n = m + 1 := ⟨n - 1, by omega⟩
    have e : a ++ (y :: w) ++ b ++ ',' :: (a' ++ c' :: u') ++ ']' :: r = a ++ (y :: w) ++ b ++ ',' :: (a' ++ c' :: u' ++ ']' :: r) := by simp
    rw [e, element_spec hV ha hv hb m (.inl rfl) _, if_neg (by decide), ih m _ (by simp at hn; omega)]

theorem array_spec {value : List Char → Option (JVal × List Char)} {V : JVal → List Char → Prop} (hV : Reads value V)
    (hne : ∀ v t, V v t → t.head? ≠ some ']') {t : List Char} (h : Arr V t) (r : List Char) :
    ∃ u, t ++ r = '[' :: u ∧ array value u = some r := by
  cases h with
  | empty a ha =>
    refine ⟨a ++ ']' :: r, by simp, ?_⟩
    simp [array, skip_to ha (show isBlank ']' = false by decide)]
  | full t h =>
    refine ⟨t ++ ']' :: r, by simp, ?_⟩
    obtain ⟨a, c, u, rfl, ha, hc, hx, h1⟩ := elements_spec hV hne h
    have e : skip (a ++ c :: u ++ ']' :: r) = c :: (u ++ ']' :: r) := by
      rw [List.append_assoc, List.cons_append]; exact skip_to ha hc _
    have h2 := h1 (c :: (u ++ ']' :: r)).length r (by simp)
    rw [e] at h2
    unfold array
    rw [e]
    simp only [if_neg hx]
    exact h2

/-! ### Values -/

/-- The first character of a value. -/
theorem value_head {float : List Char → JVal} {n : Nat} {v : JVal} {t : List Char} (h : Value false float n v t) :
    ∃ c u, t = c :: u ∧ isBlank c = false ∧ c ≠ ']' := by
  cases n with
  | zero => exact h.elim
  | succ n =>
    have num : ∀ {t : List Char}, IntText t → ∃ c u, t = c :: u ∧ isBlank c = false ∧ c ≠ ']' := by
      intro t ht
      obtain ⟨c, d, rfl, h0, h9⟩ := intText_head ht
      refine ⟨c, d, rfl, ?_, ?_⟩
      · simp only [isBlank, Bool.or_eq_false_iff, decide_eq_false_iff_not]
        refine ⟨⟨⟨?_, ?_⟩, ?_⟩, ?_⟩ <;> rintro rfl <;> exact absurd h0 (by decide)
      · rintro rfl; exact absurd h9 (by decide)
    rcases h with h | ⟨_, h | ⟨l, h⟩⟩
    · cases h with
      | null => exact ⟨'n', _, rfl, by decide, by decide⟩
      | true => exact ⟨'t', _, rfl, by decide, by decide⟩
      | false => exact ⟨'f', _, rfl, by decide, by decide⟩
      | nat => exact num ‹_›
      | neg t h => exact ⟨'-', _, rfl, by decide, by decide⟩
      | float s t f e hs ht hf he hfe =>
        rcases hs with rfl | rfl
        · obtain ⟨c, u, rfl, h1, h2⟩ := num ht
          exact ⟨c, u ++ f ++ e, by simp, h1, h2⟩
        · exact ⟨'-', _, rfl, by decide, by decide⟩
      | str s =>
        obtain ⟨u, _, rfl⟩ := ‹Str _ _ _›
        exact ⟨'"', _, rfl, by decide, by decide⟩
      | word => exact absurd ‹false = true› (by decide)
    · cases h with
      | empty a ha => exact ⟨'[', _, rfl, by decide, by decide⟩
      | full t h => exact ⟨'[', _, rfl, by decide, by decide⟩
    · cases h with
      | empty a ha => exact ⟨'{', _, rfl, by decide, by decide⟩
      | full t h => exact ⟨'{', _, rfl, by decide, by decide⟩

theorem words_digit {c : Char} {t : List Char} (h0 : '0' ≤ c) (h9 : c ≤ '9') : words.find? (fun e => e.1.isPrefixOf (c :: t)) = none ∧
    words.find? (fun e => e.1.isPrefixOf ('-' :: c :: t)) = none := by
  have hn : ∀ x : Char, (x = 'n' ∨ x = 't' ∨ x = 'f' ∨ x = 'N' ∨ x = 'I' ∨ x = '-') → ('x' ≠ c ∧ x ≠ c) := by
    intro x hx
    refine ⟨by rintro rfl; exact absurd h9 (by decide), ?_⟩
    rintro rfl
    rcases hx with rfl | rfl | rfl | rfl | rfl | rfl
    · exact absurd h9 (by decide)
    · exact absurd h9 (by decide)
    · exact absurd h9 (by decide)
    · exact absurd h9 (by decide)
    · exact absurd h9 (by decide)
    · exact absurd h0 (by decide)
  have e1 := (hn 'n' (by simp)).2
  have e2 := (hn 't' (by simp)).2
  have e3 := (hn 'f' (by simp)).2
  have e4 := (hn 'N' (by simp)).2
  have e5 := (hn 'I' (by simp)).2
  have e6 := (hn '-' (by simp)).2
  constructor
  · simp [words, List.find?_cons, List.isPrefixOf, e1, e2, e3, e4, e5, e6]
  · simp [words, List.find?_cons, List.isPrefixOf, e1, e2, e3, e4, e5, e6]

theorem value_number {float : List Char → JVal} {n : Nat} {t r : List Char} (h : IntText t) (s : List Char) (hs : s = [] ∨ s = ['-']) :
    value float (n + 1) (s ++ t ++ r) = number float (s ++ t ++ r) := by
  obtain ⟨c, d, rfl, h0, h9⟩ := intText_head h
  obtain ⟨w1, w2⟩ := words_digit (t := d ++ r) h0 h9
  rcases hs with rfl | rfl
  · have e1 : c ≠ '"' := by rintro rfl; exact absurd h0 (by decide)
    have e2 : c ≠ '{' := by rintro rfl; exact absurd h9 (by decide)
    have e3 : c ≠ '[' := by rintro rfl; exact absurd h9 (by decide)
    simp only [List.nil_append, List.cons_append, value, e1, e2, e3, if_false, w1]
  · simp only [List.nil_append, List.cons_append, value, Char.reduceEq, if_false, w2]

theorem value_reads (float : List Char → JVal) (n : Nat) : Reads (value float n) (Value false float n) := by
  induction n with
  | zero => exact ⟨fun _ _ _ h => h.elim, fun _ _ h => h.elim⟩
  | succ n ih =>
    refine ⟨?_, fun v t h => ?_⟩
    · intro v t r h hr
      have hne : ∀ v t, Value false float n v t → t.head? ≠ some ']' := by
        intro v t h
        obtain ⟨c, u, rfl, _, h2⟩ := value_head h
        simpa using h2
      rcases h with h | ⟨rfl, h | ⟨l, h⟩⟩
      · cases h with
        | null => simp [value, words, List.find?_cons, List.isPrefixOf]
        | true => simp [value, words, List.find?_cons, List.isPrefixOf]
        | false => simp [value, words, List.find?_cons, List.isPrefixOf]
        | nat =>
          have h := ‹IntText _›
          have e := value_number (float := float) (n := n) (r := r) h [] (.inl rfl)
          have e2 := number_int float h hr false
          simp only [Bool.false_eq_true, if_false, List.nil_append] at e e2
          rw [e, e2]
        | neg t h =>
          have e := value_number (float := float) (n := n) (r := r) h ['-'] (.inr rfl)
          have e2 := number_int float h hr true
          simp only [if_true, List.cons_append, List.nil_append] at e e2 ⊢
          rw [e, e2]
        | float s t f e hs ht hf he hfe =>
          have e1 := value_number (float := float) (n := n) (r := f ++ e ++ r) ht s hs
          have e2 := number_float float hs ht hf he hfe hr
          simp only [List.append_assoc] at e1 e2 ⊢
          rw [e1, e2]
        | str s =>
          obtain ⟨u, hu, rfl⟩ := ‹Str _ _ _›
          have := scanString_chars hu r
          simp [value, this]
        | word => exact absurd ‹false = true› (by decide)
      · obtain ⟨u, e, h1⟩ := array_spec ih hne h r
        rw [e]
        simp [value, h1]
      · obtain ⟨u, e, h1⟩ := object_spec ih h r
        rw [e]
        simp [value, h1]
    · obtain ⟨c, u, h1, h2, _⟩ := value_head h
      exact ⟨c, u, h1, h2⟩

theorem loads_spec {float : List Char → JVal} {n : Nat} {l : List (List Char × JVal)} {t : List Char} (h : Document false float n l t) :
    loads float n t = some (dictOf [] l) := by
  obtain ⟨a, b, u, ha, hb, hu, rfl⟩ := h
  obtain ⟨w, e, h1⟩ := object_spec (value_reads float n) hu b
  have e2 : skip (a ++ u ++ b) = '{' :: w := by
    rw [List.append_assoc, e]; exact skip_to ha (by decide) _
  have e3 : (a ++ u ++ b).head? ≠ some (Char.ofNat 0xFEFF) := by
    rw [List.append_assoc, e]
    cases a with
    | nil => simp
    | cons x a =>
      simp only [List.cons_append, List.head?_cons, ne_eq, Option.some.injEq]
      rcases ha x (by simp) with rfl | rfl | rfl | rfl <;> decide
  simp only [loads, e2, if_neg e3, if_true, h1, skip_all hb]

end Verif.Json

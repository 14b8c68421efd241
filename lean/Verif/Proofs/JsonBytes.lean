import Verif.Proofs.Json
/-! Bytes: UTF-8 round trip, dictionaries, and what `json.dumps` writes is a document. -/
set_option autoImplicit false
namespace Verif.Json
open Spec

/-! ### UTF-8 -/

theorem cont_spec {n : Nat} (h : n < 64) : cont (UInt8.ofNat (n + 128)) = some n := by
  have : (UInt8.ofNat (n + 128)).toNat = n + 128 := by rw [UInt8.toNat_ofNat']; omega
  simp only [cont, this]
  rw [if_pos (by omega)]
  simp

theorem decode_char (c : Char) (r : List UInt8) : decodeUtf8 (String.utf8EncodeChar c ++ r) = (decodeUtf8 r).map (c :: ·) := by
  have hv := c.valid
  simp only [UInt32.isValidChar, Nat.isValidChar] at hv
  have ec : Char.ofNat c.val.toNat = c := Char.ofNat_toNat c
  generalize hn : c.val.toNat = n at hv ec
  unfold String.utf8EncodeChar
  simp only [hn]
  split
  · rename_i h
    have e : (UInt8.ofNat n).toNat = n := by rw [UInt8.toNat_ofNat']; omega
    rw [List.cons_append, List.nil_append, decodeUtf8.eq_def]
    simp only [e]
    rw [if_pos (by omega), ec]
  split
  · rename_i h0 h
    have e : (UInt8.ofNat (n / 64 % 32 + 192)).toNat = n / 64 + 192 := by rw [UInt8.toNat_ofNat']; omega
    rw [List.cons_append, List.cons_append, List.nil_append, decodeUtf8.eq_def]
    simp only [e, cont_spec (show n % 64 < 64 by omega), Option.bind_eq_bind, Option.bind_some]
    rw [if_neg (by omega), if_neg (by omega), if_pos (by omega)]
    have e2 : (n / 64 + 192 - 192) * 64 + n % 64 = n := by omega
    rw [e2, ec]
  split
  · rename_i h1 h0 h
    have e : (UInt8.ofNat (n / 4096 % 16 + 224)).toNat = n / 4096 + 224 := by rw [UInt8.toNat_ofNat']; omega
    rw [List.cons_append, List.cons_append, List.cons_append, List.nil_append, decodeUtf8.eq_def]
    simp only [e, cont_spec (show n % 64 < 64 by omega), cont_spec (show n / 64 % 64 < 64 by omega), Option.bind_eq_bind, Option.bind_some]
    rw [if_neg (by omega), if_neg (by omega), if_neg (by omega), if_pos (by omega)]
    have e2 : ((n / 4096 + 224 - 224) * 64 + n / 64 % 64) * 64 + n % 64 = n := by omega
    rw [e2, if_neg (by omega), ec]
  · rename_i h1 h0 h
    have e : (UInt8.ofNat (n / 262144 % 8 + 240)).toNat = n / 262144 + 240 := by rw [UInt8.toNat_ofNat']; omega
    rw [List.cons_append, List.cons_append, List.cons_append, List.cons_append, List.nil_append, decodeUtf8.eq_def]
    simp only [e, cont_spec (show n % 64 < 64 by omega), cont_spec (show n / 64 % 64 < 64 by omega),
      cont_spec (show n / 4096 % 64 < 64 by omega), Option.bind_eq_bind, Option.bind_some]
    rw [if_neg (by omega), if_neg (by omega), if_neg (by omega), if_neg (by omega), if_pos (by omega)]
    have e2 : (((n / 262144 + 240 - 240) * 64 + n / 4096 % 64) * 64 + n / 64 % 64) * 64 + n % 64 = n := by omega
    rw [e2, if_neg (by omega), ec]

theorem decode_utf8 (t : List Char) : decodeUtf8 (utf8 t) = some t := by
  induction t with
  | nil => rfl
  | cons c t ih =>
    have : utf8 (c :: t) = String.utf8EncodeChar c ++ utf8 t := rfl
    rw [this, decode_char, ih]
    rfl

theorem utf8_injective {t u : List Char} (h : utf8 t = utf8 u) : t = u := by
  have := decode_utf8 t
  rw [h, decode_utf8] at this
  exact (Option.some.inj this).symm

theorem ofBytes_spec {float : List Char → JVal} {n : Nat} {l : List (List Char × JVal)} {t : List Char} (h : Document false float n l t) :
    ofBytes float n (utf8 t) = .json (dictOf [] l) := by
  have hl := loads_spec h
  have h1 : utf8 t ≠ "None".toList.flatMap String.utf8EncodeChar := by
    intro e
    have : t = "None".toList := utf8_injective e
    rw [this] at hl
    simp [loads, skip, isBlank] at hl
  have h2 : utf8 t ≠ "conversionResult".toList.flatMap String.utf8EncodeChar := by
    intro e
    have : t = "conversionResult".toList := utf8_injective e
    rw [this] at hl
    simp [loads, skip, isBlank] at hl
  simp only [ofBytes, if_neg h1, if_neg h2, decode_utf8, Option.bind_some, hl]

/-! ### Dictionaries -/

theorem lookup_map_set (l : List (String × JVal)) (k k' : String) (v : JVal) :
    (l.map (fun e => if e.1 = k then (k, v) else e)).lookup k' = if k' = k ∧ l.any (fun e => e.1 = k) = true then some v else l.lookup k' := by
  induction l with
  | nil => simp
  | cons e l ih =>
    obtain ⟨a, b⟩ := e
    simp only [List.map_cons, List.any_cons, List.lookup_cons]
    by_cases ha : a = k
    · subst ha
      by_cases hk : k' = a
      · subst hk; simp
      · have : (k' == a) = false := by simpa using hk
        simp only [if_true, List.lookup_cons, this, ih, hk, false_and, if_false]
    · by_cases hk : k' = a
      · subst hk
        simp [ha]
      · have : (k' == a) = false := by simpa using hk
        simp only [if_neg ha, if_false, List.lookup_cons, this, ih, ha, decide_false, Bool.false_or]

theorem lookup_setKey (l : List (String × JVal)) (k k' : String) (v : JVal) :
    (setKey l k v).lookup k' = if k' = k then some v else l.lookup k' := by
  unfold setKey
  split
  · rename_i h
    rw [lookup_map_set, h]
    simp
  · rename_i h
    rw [List.lookup_append]
    by_cases hk : k' = k
    · subst hk
      have : l.lookup k' = none := by
        rw [List.lookup_eq_none_iff]
        intro p hp
        simp only [List.any_eq_true, not_exists, not_and, decide_eq_true_eq] at h
        have := h p hp
        simpa using fun e => this (Eq.symm e)
      simp [this, List.lookup_cons]
    · have : (k' == k) = false := by simpa using hk
      simp [hk, List.lookup_cons, this]

theorem lookup_dictOf (l : List (List Char × JVal)) : ∀ (acc : List (String × JVal)) (k : String),
    (dictOf acc l).lookup k = match Spec.lastOf k.toList l with | some v => some v | none => acc.lookup k := by
  induction l with
  | nil => intro acc k; rfl
  | cons e l ih =>
    intro acc k
    have : dictOf acc (e :: l) = dictOf (setKey acc (String.ofList e.1) e.2) l := rfl
    rw [this, ih, Spec.lastOf, lookup_setKey]
    cases Spec.lastOf k.toList l with
    | some v => rfl
    | none =>
      by_cases hk : e.1 = k.toList
      · simp [hk]
      · have : k ≠ String.ofList e.1 := by rintro rfl; simp at hk
        simp [hk, this]

theorem dictOf_distinct (l : List (List Char × JVal)) : ∀ (acc : List (String × JVal)),
    ((acc.map fun e => e.1.toList) ++ l.map Prod.fst).Nodup → dictOf acc l = acc ++ l.map fun e => (String.ofList e.1, e.2) := by
  induction l with
  | nil => intro acc _; simp [dictOf]
  | cons e l ih =>
    intro acc h
    have e1 : dictOf acc (e :: l) = dictOf (setKey acc (String.ofList e.1) e.2) l := rfl
    have hn : ¬ acc.any (fun x => x.1 = String.ofList e.1) = true := by
      intro ha
      obtain ⟨x, hx, hx2⟩ := List.any_eq_true.1 ha
      have hx3 : x.1 = String.ofList e.1 := by simpa using hx2
      rw [List.nodup_append] at h
      exact h.2.2 x.1.toList (by simp only [List.mem_map]; exact ⟨x, hx, rfl⟩) e.1 (by simp) (by rw [hx3, String.toList_ofList])
    have e2 : setKey acc (String.ofList e.1) e.2 = acc ++ [(String.ofList e.1, e.2)] := by simp only [setKey, if_neg hn]
    rw [e1, e2, ih _ (by simpa using h)]
    simp

/-! ### `json.dumps` -/

theorem hexChar_spec : ∀ d < 16, (Text.hexChar d, d) ∈ Spec.hexDigits := by decide

theorem uEscape_unit {n : Nat} (h : n < 0x10000) : Spec.Unit n (uEscape n) := by
  refine ⟨Text.hexChar (n / 16 / 16 / 16 % 16), Text.hexChar (n / 16 / 16 % 16), Text.hexChar (n / 16 % 16), Text.hexChar (n % 16),
    n / 16 / 16 / 16 % 16, n / 16 / 16 % 16, n / 16 % 16, n % 16, hexChar_spec _ (by omega), hexChar_spec _ (by omega),
    hexChar_spec _ (by omega), hexChar_spec _ (by omega), by omega, rfl⟩

theorem escapeChar_spec (c : Char) : CharText false c (escapeChar c) := by
  have hv := c.valid
  simp only [UInt32.isValidChar, Nat.isValidChar] at hv
  have ev : c.val.toNat = c.toNat := rfl
  rw [ev] at hv
  have ec := Char.ofNat_toNat c
  unfold escapeChar
  split
  · subst c; exact .short _ _ (by decide)
  split
  · subst c; exact .short _ _ (by decide)
  split
  · subst c; exact .short _ _ (by decide)
  split
  · subst c; exact .short _ _ (by decide)
  split
  · subst c; exact .short _ _ (by decide)
  split
  · rename_i h
    rw [← ec, h]; exact .short _ _ (by decide)
  split
  · rename_i h
    rw [← ec, h]; exact .short _ _ (by decide)
  split
  · rename_i h1 h2 _ _ _ _ _ h
    refine .raw c ?_ h1 h2
    show ' '.val ≤ c.val
    rw [UInt32.le_iff_toNat_le]
    exact h.1
  split
  · rename_i h
    have := CharText.unit (py := false) c.toNat (uEscape c.toNat) (uEscape_unit h) (by omega)
    rwa [ec] at this
  · rename_i h
    have := CharText.pair (py := false) (0xD800 + (c.toNat - 0x10000) / 1024) (0xDC00 + (c.toNat - 0x10000) % 1024) _ _ (uEscape_unit (by omega))
      (uEscape_unit (by omega)) (by omega) (by omega)
    have e : 0x10000 + (0xD800 + (c.toNat - 0x10000) / 1024 - 0xD800) * 1024 + (0xDC00 + (c.toNat - 0x10000) % 1024 - 0xDC00) = c.toNat := by omega
    rwa [e, ec] at this

theorem quote_spec (s : List Char) : Str false s (quote s) := by
  refine ⟨s.flatMap escapeChar, ?_, rfl⟩
  induction s with
  | nil => exact .nil
  | cons c s ih => exact .cons c s _ _ (escapeChar_spec c) ih

theorem digitChar : ∀ n < 10, '0' ≤ Char.ofNat (48 + n) ∧ Char.ofNat (48 + n) ≤ '9' ∧ (Char.ofNat (48 + n)).toNat - '0'.toNat = n ∧
    (Char.ofNat (48 + n) = '0' → n = 0) := by decide

theorem valueOf_snoc (d : List Char) (c : Char) : valueOf (d ++ [c]) = valueOf d * 10 + (c.toNat - '0'.toNat) := by
  rw [← natOf_eq, ← natOf_eq, natOf_append]; rfl

theorem digitsAux_spec : ∀ (k n : Nat), n < k → Digits (digitsAux k n) ∧ valueOf (digitsAux k n) = n ∧
    ((digitsAux k n).head? = some '0' → n = 0) ∧ (n = 0 → digitsAux k n = ['0']) := by
  intro k
  induction k with
  | zero => intro n h; omega
  | succ k ih =>
    intro n h
    unfold digitsAux
    split
    · rename_i h10
      obtain ⟨h1, h2, h3, h4⟩ := digitChar n h10
      refine ⟨⟨by simp, ?_⟩, ?_, ?_, ?_⟩
      · intro c hc; simp at hc; subst hc; exact ⟨h1, h2⟩
      · simp only [valueOf, List.length_nil, Nat.pow_zero, Nat.mul_one, Nat.add_zero]; exact h3
      · intro h; exact h4 (by simpa using h)
      · rintro rfl; rfl
    · rename_i h10
      obtain ⟨⟨i1, i2⟩, i3, i4, i5⟩ := ih (n / 10) (by omega)
      obtain ⟨h1, h2, h3, h4⟩ := digitChar (n % 10) (by omega)
      refine ⟨⟨by simp, ?_⟩, ?_, ?_, by omega⟩
      · intro c hc
        rcases List.mem_append.1 hc with hc | hc
        · exact i2 c hc
        · simp at hc; subst hc; exact ⟨h1, h2⟩
      · rw [valueOf_snoc, i3, h3]; omega
      · intro hh
        obtain ⟨c, d, e⟩ := List.exists_cons_of_ne_nil i1
        have := i4 (by rw [e] at hh ⊢; simpa using hh)
        omega

theorem digits_int (n : Nat) : IntText (digitsAux (n + 1) n) ∧ valueOf (digitsAux (n + 1) n) = n := by
  obtain ⟨h1, h2, h3, h4⟩ := digitsAux_spec (n + 1) n (by omega)
  refine ⟨?_, h2⟩
  by_cases h0 : n = 0
  · exact .inl (h4 h0)
  · exact .inr ⟨h1, fun h => h0 (h3 h)⟩

theorem strInt_spec (float : List Char → JVal) (n : Int) : Scalar false float (.int n) (strInt n) := by
  obtain ⟨h1, h2⟩ := digits_int n.natAbs
  unfold strInt
  split
  · have := Scalar.neg (py := false) (float := float) _ h1
    rw [h2] at this
    have e : -((n.natAbs : Nat) : Int) = n := by omega
    rwa [e] at this
  · have := Scalar.nat (py := false) (float := float) _ h1
    rw [h2] at this
    have e : ((n.natAbs : Nat) : Int) = n := by omega
    rwa [e] at this

/-- Values `json.dumps` is used on. -/
def Plain : JVal → Prop
  | .float _ | .other => False
  | _ => True

theorem dumpValue_spec (float : List Char → JVal) {v : JVal} (h : Plain v) : Scalar false float v (dumpValue v) := by
  cases v with
  | null => exact .null
  | int n => exact strInt_spec float n
  | bool b => cases b <;> constructor
  | float c => exact h.elim
  | str s => exact .str s _ (quote_spec s)
  | other => exact h.elim

theorem members_dumps {float : List Char → JVal} {n : Nat} : ∀ (fields : List (String × JVal)) (a : List Char), Blank a → fields ≠ [] →
    (∀ e ∈ fields, Plain e.2) → Members false (Value false float (n + 1)) (fields.map fun e => (e.1.toList, e.2))
      (a ++ [',', ' '].intercalate (fields.map fun e => quote e.1.toList ++ [':', ' '] ++ dumpValue e.2)) := by
  intro fields
  induction fields with
  | nil => intro a _ h; exact absurd rfl h
  | cons e rest ih =>
    intro a ha _ hp
    have hv : Value false float (n + 1) e.2 (dumpValue e.2) := .inl (dumpValue_spec float (hp e (by simp)))
    have hsp : Blank [' '] := by intro c hc; simp at hc; exact .inl hc
    have hnil : Blank [] := by intro c hc; simp at hc
    cases rest with
    | nil =>
      have := Members.last (V := Value false float (n + 1)) e.1.toList e.2 a _ [] [' '] _ [] ha (quote_spec _) hnil hsp hv hnil
      simpa [List.intercalate] using this
    | cons e2 rest =>
      have h2 := ih [' '] hsp (by simp) (fun x hx => hp x (by simp [hx]))
      have := Members.more (V := Value false float (n + 1)) e.1.toList e.2 a _ [] [' '] _ [] _ _ ha (quote_spec _) hnil hsp hv hnil h2
      simpa [List.intercalate] using this

theorem dumps_document {float : List Char → JVal} {n : Nat} {fields : List (String × JVal)} (hp : ∀ e ∈ fields, Plain e.2) :
    Document false float (n + 1) (fields.map fun e => (e.1.toList, e.2)) (dumps fields) := by
  have hnil : Blank [] := by intro c hc; simp at hc
  refine ⟨[], [], dumps fields, hnil, hnil, ?_, by simp⟩
  by_cases h : fields = []
  · subst h
    exact .empty [] hnil
  · have := members_dumps (float := float) (n := n) fields [] hnil h hp
    exact .full _ _ this

end Verif.Json

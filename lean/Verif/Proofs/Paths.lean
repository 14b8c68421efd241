import Verif.Model.Network
import Mathlib.Data.List.Induction
import Mathlib.Data.List.GetD
/-!
Reading of addresses and paths.
-/
namespace Verif
namespace Text

theorem hexVal_hexChar {d : Nat} (h : d < 16) : hexVal (hexChar d) = some d := by
  have : ∀ d : Fin 16, hexVal (hexChar d.val) = some d.val := by decide
  exact this ⟨d, h⟩

theorem hexChar_of_hexVal {c : Char} {d : Nat} (h : hexVal c = some d) : d < 16 ∧ c = hexChar d := by
  unfold hexVal at h
  simp only at h
  split at h
  · rename_i hi
    injection h with h
    subst h
    refine ⟨hi, ?_⟩
    unfold hexChar
    rw [List.getD_eq_getElem _ _ (by exact hi)]
    exact (List.getElem_idxOf (by exact hi)).symm
  · cases h

theorem hexDigits_length (k n : Nat) : (hexDigits k n).length = k := by
  induction k generalizing n with
  | zero => rfl
  | succ k ih => simp [hexDigits, ih]

theorem readHex_append (acc : Nat) (xs ys : List Char) :
    readHex acc (xs ++ ys) = match readHex acc xs with
      | none => none
      | some n => readHex n ys := by
  induction xs generalizing acc with
  | nil => rfl
  | cons c cs ih =>
    simp only [List.cons_append, readHex]
    cases hexVal c with
    | none => rfl
    | some d => exact ih _

theorem readHex_hexDigits (k n acc : Nat) : readHex acc (hexDigits k n) = some (acc * 16 ^ k + n % 16 ^ k) := by
  induction k generalizing n acc with
  | zero => simp [hexDigits, readHex, Nat.mod_one]
  | succ k ih =>
    rw [hexDigits, readHex_append, ih]
    simp only [readHex, hexVal_hexChar (Nat.mod_lt n (by decide : 16 > 0))]
    congr 1
    have h1 : n % 16 ^ (k + 1) = n / 16 % 16 ^ k * 16 + n % 16 := by
      rw [Nat.pow_succ', Nat.mod_mul]; rw [Nat.mul_comm]; omega
    rw [h1, Nat.pow_succ]
    have : acc * (16 ^ k * 16) = acc * 16 ^ k * 16 := (Nat.mul_assoc ..).symm
    rw [this]; omega

/-- Reading is one to one. -/
theorem hexDigits_of_readHex (ds : List Char) : ∀ acc n, readHex acc ds = some n →
    ∃ m, n = acc * 16 ^ ds.length + m ∧ m < 16 ^ ds.length ∧ ds = hexDigits ds.length m := by
  induction ds using List.reverseRecOn with
  | nil => intro acc n h; cases h; exact ⟨0, by simp, by simp, rfl⟩
  | append_singleton ds c ih =>
    intro acc n h
    rw [readHex_append] at h
    cases h1 : readHex acc ds with
    | none => rw [h1] at h; cases h
    | some k =>
      rw [h1] at h
      simp only [readHex] at h
      cases h2 : hexVal c with
      | none => rw [h2] at h; cases h
      | some d =>
        rw [h2] at h
        injection h with h
        obtain ⟨m, e1, e2, e3⟩ := ih acc k h1
        obtain ⟨hd, hc⟩ := hexChar_of_hexVal h2
        refine ⟨m * 16 + d, ?_, ?_, ?_⟩
        · rw [← h, e1, List.length_append, List.length_singleton, Nat.pow_succ, ← Nat.mul_assoc]; omega
        · rw [List.length_append, List.length_singleton, Nat.pow_succ]; omega
        · rw [List.length_append, List.length_singleton, hexDigits]
          have : (m * 16 + d) / 16 = m := by omega
          have h' : (m * 16 + d) % 16 = d := by omega
          rw [this, h', ← hc, ← e3]

theorem toAddr_ofAddr (a : Addr) : toAddr (ofAddr a) = some a := by
  obtain ⟨c, b⟩ := a
  have h : (b.toNat % 16 ^ 40) = b.toNat := Nat.mod_eq_of_lt (by have := b.isLt; exact this)
  cases c <;> simp [ofAddr, toAddr, hexDigits_length, readHex_hexDigits, h]

theorem ofAddr_of_toAddr {s : List Char} {a : Addr} (h : toAddr s = some a) : s = ofAddr a := by
  unfold toAddr at h
  split at h
  · rename_i p x ds
    split at h
    · rename_i hc
      obtain ⟨rfl, hp, hl⟩ := hc
      cases h1 : readHex 0 ds with
      | none => rw [h1] at h; cases h
      | some n =>
        rw [h1] at h
        injection h with h
        obtain ⟨m, e1, e2, e3⟩ := hexDigits_of_readHex ds 0 n h1
        have : n = m := by omega
        subst this
        rw [hl] at e2 e3
        subst h
        have hn : (BitVec.ofNat 160 n).toNat = n := by
          rw [BitVec.toNat_ofNat]; exact Nat.mod_eq_of_lt e2
        unfold ofAddr
        simp only [hn, ← e3]
        rcases hp with rfl | rfl <;> simp
    · cases h
  · cases h

theorem toAddr_iff {s : List Char} {a : Addr} : toAddr s = some a ↔ s = ofAddr a :=
  ⟨ofAddr_of_toAddr, by rintro rfl; exact toAddr_ofAddr a⟩

/-! ### Blanks -/

theorem hexChar_plain (d : Nat) : hexChar d ≠ ',' ∧ isSpace (hexChar d) = false := by
  by_cases h : d < 16
  · have : ∀ d : Fin 16, hexChar d.val ≠ ',' ∧ isSpace (hexChar d.val) = false := by decide
    exact this ⟨d, h⟩
  · have : hexChar d = '0' := by
      unfold hexChar
      rw [List.getD_eq_default]
      exact Nat.le_of_not_lt h
    rw [this]; decide

theorem hexDigits_plain (k n : Nat) : ∀ c ∈ hexDigits k n, c ≠ ',' ∧ isSpace c = false := by
  induction k generalizing n with
  | zero => intro c hc; cases hc
  | succ k ih =>
    intro c hc
    rw [hexDigits, List.mem_append, List.mem_singleton] at hc
    rcases hc with hc | rfl
    · exact ih _ c hc
    · exact hexChar_plain _

theorem ofAddr_plain (a : Addr) : ∀ c ∈ ofAddr a, c ≠ ',' ∧ isSpace c = false := by
  intro c hc
  unfold ofAddr at hc
  rw [List.mem_append] at hc
  rcases hc with hc | hc
  · split at hc <;> simp only [List.mem_cons, List.not_mem_nil, or_false] at hc <;> rcases hc with rfl | rfl <;> decide
  · exact hexDigits_plain _ _ c hc

theorem ofAddr_ne_nil (a : Addr) : ofAddr a ≠ [] := by
  unfold ofAddr; split <;> simp

theorem dropWhile_all {p : Char → Bool} {l r : List Char} (h : ∀ c ∈ l, p c = true) :
    (l ++ r).dropWhile p = r.dropWhile p := by
  induction l with
  | nil => rfl
  | cons c l ih =>
    rw [List.cons_append, List.dropWhile_cons, if_pos (h c List.mem_cons_self)]
    exact ih (fun x hx => h x (List.mem_cons_of_mem _ hx))

theorem dropWhile_head {p : Char → Bool} {c : Char} {r : List Char} (h : p c = false) : (c :: r).dropWhile p = c :: r := by
  rw [List.dropWhile_cons, if_neg (by simp [h])]

/-- Stripping removes exactly the blanks around a text without blanks. -/
theorem strip_padded {l m r : List Char} (hl : ∀ c ∈ l, isSpace c = true) (hr : ∀ c ∈ r, isSpace c = true)
    (hm : ∀ c ∈ m, isSpace c = false) (hne : m ≠ []) : strip (l ++ m ++ r) = m := by
  unfold strip
  rw [List.append_assoc, dropWhile_all hl]
  obtain ⟨c, m', rfl⟩ := List.exists_cons_of_ne_nil hne
  rw [List.cons_append, dropWhile_head (hm c List.mem_cons_self), ← List.cons_append, List.reverse_append,
    dropWhile_all (by simpa using hr)]
  have hne' : (c :: m').reverse ≠ [] := by simp
  obtain ⟨c', m'', e⟩ := List.exists_cons_of_ne_nil hne'
  rw [e, dropWhile_head (hm c' (by rw [← List.mem_reverse, e]; exact List.mem_cons_self)), ← e, List.reverse_reverse]

theorem dropWhile_split (p : Char → Bool) (s : List Char) : ∃ l, s = l ++ s.dropWhile p ∧ ∀ c ∈ l, p c = true := by
  induction s with
  | nil => exact ⟨[], rfl, by simp⟩
  | cons c s ih =>
    rw [List.dropWhile_cons]
    split
    · rename_i h
      obtain ⟨l, e, hl⟩ := ih
      refine ⟨c :: l, ?_, ?_⟩
      · rw [List.cons_append, ← e]
      · intro x hx
        rcases List.mem_cons.mp hx with rfl | hx
        · exact h
        · exact hl x hx
    · exact ⟨[], rfl, by simp⟩

theorem strip_split (s : List Char) : ∃ l r, s = l ++ strip s ++ r ∧ (∀ c ∈ l, isSpace c = true) ∧ ∀ c ∈ r, isSpace c = true := by
  obtain ⟨l, e1, h1⟩ := dropWhile_split isSpace s
  obtain ⟨r, e2, h2⟩ := dropWhile_split isSpace (s.dropWhile isSpace).reverse
  refine ⟨l, r.reverse, ?_, h1, by simpa using h2⟩
  unfold strip
  rw [List.append_assoc, ← List.reverse_append, ← e2, List.reverse_reverse, ← e1]

/-! ### Commas -/

theorem splitComma_ne_nil (s : List Char) : splitComma s ≠ [] := by
  induction s with
  | nil => simp [splitComma]
  | cons c s ih =>
    unfold splitComma
    split
    · simp
    · split <;> simp

/-- A text without commas before the rest. -/
theorem splitComma_append {p : List Char} (h : ∀ c ∈ p, c ≠ ',') (s : List Char) :
    splitComma (p ++ ',' :: s) = p :: splitComma s := by
  induction p with
  | nil => simp [splitComma]
  | cons c p ih =>
    rw [List.cons_append, splitComma, if_neg (h c List.mem_cons_self), ih (fun x hx => h x (List.mem_cons_of_mem _ hx))]

theorem splitComma_plain {p : List Char} (h : ∀ c ∈ p, c ≠ ',') : splitComma p = [p] := by
  induction p with
  | nil => rfl
  | cons c p ih =>
    rw [splitComma, if_neg (h c List.mem_cons_self), ih (fun x hx => h x (List.mem_cons_of_mem _ hx))]

/-- Splitting undoes joining. -/
theorem splitComma_join {ps : List (List Char)} (hne : ps ≠ []) (h : ∀ p ∈ ps, ∀ c ∈ p, c ≠ ',') :
    splitComma ([','].intercalate ps) = ps := by
  induction ps with
  | nil => exact absurd rfl hne
  | cons p ps ih =>
    cases ps with
    | nil => simpa [List.intercalate] using splitComma_plain (h p List.mem_cons_self)
    | cons q ps =>
      have e : [','].intercalate (p :: q :: ps) = p ++ ',' :: [','].intercalate (q :: ps) := by
        simp [List.intercalate, List.intersperse]
      rw [e, splitComma_append (h p List.mem_cons_self), ih (by simp) (fun x hx => h x (List.mem_cons_of_mem _ hx))]

/-- And joining undoes splitting. -/
theorem join_splitComma (s : List Char) : [','].intercalate (splitComma s) = s := by
  induction s with
  | nil => rfl
  | cons c s ih =>
    unfold splitComma
    split
    · rename_i h
      subst h
      obtain ⟨q, qs, e⟩ := List.exists_cons_of_ne_nil (splitComma_ne_nil s)
      rw [e] at ih ⊢
      have e' : [','].intercalate ([] :: q :: qs) = ',' :: [','].intercalate (q :: qs) := by
        simp [List.intercalate, List.intersperse]
      rw [e', ih]
    · obtain ⟨q, qs, e⟩ := List.exists_cons_of_ne_nil (splitComma_ne_nil s)
      rw [e] at ih ⊢
      simp only
      cases qs with
      | nil => simp [List.intercalate] at ih ⊢; exact ih
      | cons q' qs =>
        have e1 : [','].intercalate (q :: q' :: qs) = q ++ ',' :: [','].intercalate (q' :: qs) := by
          simp [List.intercalate, List.intersperse]
        have e2 : [','].intercalate ((c :: q) :: q' :: qs) = c :: (q ++ ',' :: [','].intercalate (q' :: qs)) := by
          simp [List.intercalate, List.intersperse]
        rw [e2, ← e1, ih]

theorem splitComma_no_comma (s : List Char) : ∀ p ∈ splitComma s, ∀ c ∈ p, c ≠ ',' := by
  induction s with
  | nil => intro p hp c hc; simp [splitComma] at hp; subst hp; cases hc
  | cons c s ih =>
    intro p hp x hx
    unfold splitComma at hp
    split at hp
    · rcases List.mem_cons.mp hp with rfl | hp
      · cases hx
      · exact ih p hp x hx
    · rename_i hc
      obtain ⟨q, qs, e⟩ := List.exists_cons_of_ne_nil (splitComma_ne_nil s)
      rw [e] at ih hp
      simp only at hp
      rcases List.mem_cons.mp hp with rfl | hp
      · rcases List.mem_cons.mp hx with rfl | hx
        · exact hc
        · exact ih q List.mem_cons_self x hx
      · exact ih p (List.mem_cons_of_mem _ hp) x hx

/-- `ss` reads as `as`: each text is the address with blanks around it. -/
inductive Padded : List (List Char) → List Addr → Prop
  | nil : Padded [] []
  | cons {l r : List Char} {a : Addr} {ss as} (hl : ∀ c ∈ l, isSpace c = true) (hr : ∀ c ∈ r, isSpace c = true)
      (h : Padded ss as) : Padded ((l ++ ofAddr a ++ r) :: ss) (a :: as)

theorem toAddrs_padded {ss as} (h : Padded ss as) : toAddrs (ss.map strip) = some as := by
  induction h with
  | nil => rfl
  | @cons l r a ss as hl hr _ ih =>
    rw [List.map_cons, strip_padded hl hr (fun c hc => (ofAddr_plain a c hc).2) (ofAddr_ne_nil a), toAddrs, toAddr_ofAddr, ih]

theorem padded_of_toAddrs (ss : List (List Char)) : ∀ as, toAddrs (ss.map strip) = some as → Padded ss as := by
  induction ss with
  | nil => intro as h; cases h; exact .nil
  | cons s ss ih =>
    intro as h
    rw [List.map_cons, toAddrs] at h
    cases h1 : toAddr (strip s) with
    | none => rw [h1] at h; cases h
    | some a =>
      rw [h1] at h
      simp only at h
      cases h2 : toAddrs (ss.map strip) with
      | none => rw [h2] at h; cases h
      | some as' =>
        rw [h2] at h
        cases h
        obtain ⟨l, r, e, hl, hr⟩ := strip_split s
        rw [ofAddr_of_toAddr h1] at e
        rw [e]
        exact .cons hl hr (ih _ h2)

theorem Padded.no_comma {ss as} (h : Padded ss as) : ∀ p ∈ ss, ∀ c ∈ p, c ≠ ',' := by
  induction h with
  | nil => intro p hp; cases hp
  | @cons l r a ss as hl hr _ ih =>
    intro p hp c hc
    rcases List.mem_cons.mp hp with rfl | hp
    · have hs : ∀ c, isSpace c = true → c ≠ ',' := by rintro c hc rfl; revert hc; decide
      rcases List.mem_append.mp hc with hc | hc
      · rcases List.mem_append.mp hc with hc | hc
        · exact hs c (hl c hc)
        · exact (ofAddr_plain a c hc).1
      · exact hs c (hr c hc)
    · exact ih p hp c hc

theorem convertPath_iff {s : List Char} {as : List Addr} :
    convertPath s = some as ↔ as ≠ [] ∧ ∃ ss, Padded ss as ∧ s = [','].intercalate ss := by
  unfold convertPath
  constructor
  · intro h
    have hp := padded_of_toAddrs _ _ h
    refine ⟨?_, _, hp, (join_splitComma s).symm⟩
    rintro rfl
    have hne := splitComma_ne_nil s
    generalize splitComma s = ss at hp hne
    cases hp; exact hne rfl
  · rintro ⟨hne, ss, hp, rfl⟩
    rw [splitComma_join (by rintro rfl; cases hp; exact hne rfl) hp.no_comma]
    exact toAddrs_padded hp

end Text

/-! ### Valid paths -/
namespace Network

theorem oddPositions_getElem? : ∀ (p : List Addr) (i : Nat), (oddPositions p)[i]? = p[2 * i + 1]?
  | [], i => by simp [oddPositions]
  | [a], i => by simp [oddPositions]
  | a :: b :: rest, 0 => by simp [oddPositions]
  | a :: b :: rest, i + 1 => by
    rw [oddPositions, List.getElem?_cons_succ, oddPositions_getElem? rest i]
    have : 2 * (i + 1) + 1 = (2 * i + 1) + 1 + 1 := by omega
    rw [this, List.getElem?_cons_succ, List.getElem?_cons_succ]

theorem oddPositions_length : ∀ p : List Addr, (oddPositions p).length = p.length / 2
  | [] => rfl
  | [a] => by simp [oddPositions]
  | a :: b :: rest => by simp only [oddPositions, List.length_cons, oddPositions_length rest]; omega

theorem eraseDups_nodup_iff : ∀ (n : Nat) (l : List Addr), l.length ≤ n → (l.eraseDups.length ≤ l.length ∧ (l.eraseDups.length = l.length ↔ l.Nodup))
  | n, [], _ => by simp
  | 0, a :: l, h => by simp at h
  | n + 1, a :: l, h => by
    rw [List.eraseDups_cons, List.length_cons, List.length_cons, List.nodup_cons]
    have hle : (l.filter fun b => !b == a).length ≤ l.length := List.length_filter_le ..
    rw [List.length_cons] at h
    obtain ⟨h1, h2⟩ := eraseDups_nodup_iff n (l.filter fun b => !b == a) (by omega)
    refine ⟨by omega, ?_⟩
    constructor
    · intro e
      have e1 : (l.filter fun b => !b == a).length = l.length := by omega
      have e2 : (l.filter fun b => !b == a) = l := List.filter_eq_self.mpr (List.length_filter_eq_length_iff.mp e1)
      rw [e2] at h2
      refine ⟨?_, h2.mp (by rw [e2] at e; omega)⟩
      intro hm
      have := List.length_filter_eq_length_iff.mp e1 a hm
      simp at this
    · rintro ⟨h3, h4⟩
      have e2 : (l.filter fun b => !b == a) = l := by
        rw [List.filter_eq_self]
        intro b hb
        have : b ≠ a := by rintro rfl; exact h3 hb
        simp [this]
      rw [e2] at h2 ⊢
      rw [h2.mpr h4]

theorem setSize_eq_iff (l : List Addr) : setSize l = l.length ↔ l.Nodup := (eraseDups_nodup_iff l.length l (Nat.le_refl _)).2

end Network
end Verif

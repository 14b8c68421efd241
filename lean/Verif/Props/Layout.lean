import Verif.Model.Layout
/-!
C73: no two pieces of state share a place in the database.
-/
set_option autoImplicit false
namespace Verif.Layout

theorem bigEndian_length (k n : Nat) : (bigEndian k n).length = k := by
  induction k generalizing n with
  | zero => rfl
  | succ k ih => simp [bigEndian, ih]

/-- The number that bytes stand for, most significant first. -/
def value (l : List UInt8) : Nat := l.foldl (fun v b => 256 * v + b.toNat) 0

theorem value_append (l : List UInt8) (b : UInt8) : value (l ++ [b]) = 256 * value l + b.toNat := by simp [value]

theorem value_bigEndian (k n : Nat) : value (bigEndian k n) = n % 256 ^ k := by
  induction k generalizing n with
  | zero => simp [bigEndian, value, Nat.mod_one]
  | succ k ih =>
    rw [bigEndian, value_append, ih]
    have h1 : (UInt8.ofNat (n % 256)).toNat = n % 256 := by
      simp [UInt8.toNat_ofNat']
    rw [h1, Nat.pow_succ, Nat.mul_comm (256 ^ k) 256, Nat.mod_mul]
    omega

theorem addrBytes_length (a : Addr) : (addrBytes a).length = if a.isContract then 21 else 20 := by
  unfold addrBytes; split <;> simp [bigEndian_length]

theorem body_injective {x y : BitVec 160} (h : bigEndian 20 x.toNat = bigEndian 20 y.toNat) : x = y := by
  have h1 := congrArg value h
  rw [value_bigEndian, value_bigEndian, Nat.mod_eq_of_lt (by have := x.isLt; exact this), Nat.mod_eq_of_lt (by have := y.isLt; exact this)] at h1
  exact BitVec.eq_of_toNat_eq h1

theorem addrBytes_injective {a b : Addr} (h : addrBytes a = addrBytes b) : a = b := by
  have hl := congrArg List.length h
  rw [addrBytes_length, addrBytes_length] at hl
  obtain ⟨c, x⟩ := a
  obtain ⟨d, y⟩ := b
  have hcd : c = d := by cases c <;> cases d <;> simp_all
  subst hcd
  unfold addrBytes at h
  have := List.append_cancel_left h
  have h2 : x = y := body_injective this
  rw [h2]

/-- An address followed by a field of a connector: although the bytes of addresses are of two lengths and may contain the separator, both can
be told from the whole. -/
theorem connector_injective {a b : Addr} {m n : List UInt8} (h : addrBytes a ++ bar ++ [2] ++ bar ++ m = addrBytes b ++ bar ++ [2] ++ bar ++ n) :
    a = b ∧ m = n := by
  by_cases hc : a.isContract = b.isContract
  · have hl : (addrBytes a).length = (addrBytes b).length := by rw [addrBytes_length, addrBytes_length, hc]
    simp only [List.append_assoc] at h
    obtain ⟨h1, h2⟩ := List.append_inj h hl
    refine ⟨addrBytes_injective h1, ?_⟩
    simpa [bar] using h2
  · exfalso
    have key : ∀ {a b : Addr} {m n : List UInt8}, a.isContract = true → b.isContract = false →
        addrBytes a ++ bar ++ [2] ++ bar ++ m = addrBytes b ++ bar ++ [2] ++ bar ++ n → False := by
      intro a b m n ha hb h
      have h1 := addrBytes_length a
      have h2 := addrBytes_length b
      rw [if_pos ha] at h1; rw [if_neg (by rw [hb]; decide)] at h2
      have g := congrArg (fun l => l[21]?) h
      simp only [List.append_assoc] at g
      rw [List.getElem?_append_right (l₁ := addrBytes a) (by omega), List.getElem?_append_right (l₁ := addrBytes b) (by omega), h1, h2] at g
      simp [bar] at g
    cases ha : a.isContract <;> cases hb : b.isContract
    · exact hc (by rw [ha, hb])
    · exact key hb ha h.symm
    · exact key ha hb h
    · exact hc (by rw [ha, hb])

theorem intBytes_value (i : Nat) : value (intBytes i) = i := by
  unfold intBytes
  rw [value_bigEndian, Nat.mod_eq_of_lt]
  have h : i < 2 ^ (8 * ((if i = 0 then 0 else Nat.log2 i + 1) / 8 + 1)) := by
    split
    · subst_vars; exact Nat.two_pow_pos _
    · rename_i h0
      refine Nat.lt_of_lt_of_le Nat.lt_log2_self ?_
      exact Nat.pow_le_pow_right (by decide) (by omega)
  rwa [Nat.pow_mul] at h

/-- The first byte of a key after the address of the SCORE and the separator: which container. -/
def tag : Field → UInt8
  | .balance _ | .registered _ | .isIcxToken _ => 1
  | .connectorCount | .connectorAt _ => 0
  | .connector _ _ => 3
  | _ => 2

/-- The rest of a key. -/
def rest (f : Field) : List UInt8 := (fieldKey [] f).drop 3

theorem fieldKey_split (pre : List UInt8) (f : Field) : fieldKey pre f = pre ++ (0x7c :: tag f :: 0x7c :: rest f) := by
  cases f <;> simp [fieldKey, varKey, dictKey, sizeKey, itemKey, connectorPrefix, CONNECTOR_DB_PREFIX, bar, tag, rest]

/-- The fields kept in a `VarDB`. -/
def singles : List Field := [.name, .symbol, .supply, .decimals, .owner, .newOwner, .version, .transferable, .token, .manager, .newManager,
  .allowRegistryUpdate, .prevRegistry, .registry, .totalWeight, .maxFee, .fee, .enabled]

theorem singles_injective : ∀ f ∈ singles, ∀ g ∈ singles, rest f = rest g → f = g := by decide +kernel

theorem mem_singles {f : Field} (h : tag f = 2) : f ∈ singles := by
  cases f <;> first | (simp [singles]; done) | (simp [tag] at h)

theorem names_injective : ∀ f g : ConnectorField, ascii f.name = ascii g.name → f = g := by
  intro f g h; cases f <;> cases g <;> first | rfl | (exfalso; revert h; decide +kernel)

theorem rest_dict (n : String) (k : List UInt8) : (dictKey [] n k).drop 3 = ascii n ++ (0x7c :: k) := by simp [dictKey, bar]

/-- All but the address of the SCORE: the pieces of state of one SCORE have different keys. -/
theorem field_injective {pre : List UInt8} {f g : Field} (hf : f ≠ .connectorAt 1936292453) (hg : g ≠ .connectorAt 1936292453)
    (h : fieldKey pre f = fieldKey pre g) : f = g := by
  rw [fieldKey_split, fieldKey_split] at h
  have h' := List.append_cancel_left h
  obtain ⟨ht, hr⟩ : tag f = tag g ∧ rest f = rest g := by simpa using h'
  clear h h'
  have hs : ∀ i, i ≠ 1936292453 → ascii "size" = intBytes i → False := by
    intro i hi he
    have := congrArg value he
    rw [intBytes_value] at this
    exact hi (this.symm.trans (by decide +kernel))
  by_cases h2 : tag f = 2
  · exact singles_injective f (mem_singles h2) g (mem_singles (ht ▸ h2)) hr
  have h2' : tag g ≠ 2 := ht ▸ h2
  have eb : ascii "balances" = [98, 97, 108, 97, 110, 99, 101, 115] := by decide +kernel
  have er : ascii "score_address" = [115, 99, 111, 114, 101, 95, 97, 100, 100, 114, 101, 115, 115] := by decide +kernel
  have ec : ascii "connector_tokens" = [99, 111, 110, 110, 101, 99, 116, 111, 114, 95, 116, 111, 107, 101, 110, 115] := by decide +kernel
  have ei : ascii "icx_tokens" = [105, 99, 120, 95, 116, 111, 107, 101, 110, 115] := by decide +kernel
  cases f <;> (try exact absurd rfl h2) <;> cases g <;> (try exact absurd rfl h2') <;> (try (exact absurd ht (by decide)))
  case balance.balance a b =>
    simp only [rest, fieldKey, rest_dict, eb] at hr
    rw [addrBytes_injective (a := a) (b := b) (by simpa using hr)]
  case registered.registered a b =>
    simp only [rest, fieldKey, rest_dict, er] at hr
    simpa using hr
  case isIcxToken.isIcxToken a b =>
    simp only [rest, fieldKey, rest_dict, ei] at hr
    rw [addrBytes_injective (a := a) (b := b) (by simpa using hr)]
  case connectorCount.connectorCount => rfl
  case connectorCount.connectorAt i =>
    exact (hs i (fun e => hg (by rw [e])) (by simpa [rest, fieldKey, sizeKey, itemKey, bar] using hr)).elim
  case connectorAt.connectorCount i =>
    exact (hs i (fun e => hf (by rw [e])) (by simpa [rest, fieldKey, sizeKey, itemKey, bar] using hr.symm)).elim
  case connectorAt.connectorAt i j =>
    have h3 : intBytes i = intBytes j := by simpa [rest, fieldKey, itemKey, bar] using hr
    have h4 := congrArg value h3
    rw [intBytes_value, intBytes_value] at h4
    rw [h4]
  case connector.connector a m b n =>
    have h3 : addrBytes a ++ bar ++ [2] ++ bar ++ ascii m.name = addrBytes b ++ bar ++ [2] ++ bar ++ ascii n.name := by
      simpa [rest, fieldKey, varKey, connectorPrefix, CONNECTOR_DB_PREFIX, bar] using hr
    obtain ⟨h4, h5⟩ := connector_injective h3
    rw [h4, names_injective _ _ h5]
  all_goals exfalso
  all_goals first | (simp [tag] at ht; done) | simp [rest, fieldKey, rest_dict, eb, er, ei, sizeKey, itemKey, bar, ec] at hr

/-- C73. Two pieces of state - of the same contract or of different contracts, of whatever class - have the same database key only if they
are the same piece of the same contract. (Element number 1936292453 of the list of connectors is left out, see `C73_limit`.) -/
theorem C73_distinct {A B : Addr} (hA : A.isContract = true) (hB : B.isContract = true) {f g : Field} (hf : f ≠ .connectorAt 1936292453)
    (hg : g ≠ .connectorAt 1936292453) (h : key A f = key B g) : A = B ∧ f = g := by
  unfold key at h
  have hl : (addrBytes A).length = (addrBytes B).length := by rw [addrBytes_length, addrBytes_length, hA, hB]
  have h' := h
  rw [fieldKey_split, fieldKey_split] at h'
  have hAB := addrBytes_injective (List.append_inj h' hl).1
  subst hAB
  exact ⟨rfl, field_injective hf hg h⟩

/-- A database. -/
abbrev Db (V : Type) := List UInt8 → Option V

/-- What a contract reads in the database. -/
def Db.read {V : Type} (db : Db V) (A : Addr) (f : Field) : Option V := db (key A f)

/-- The database after a contract stored a value. -/
def Db.write {V : Type} (db : Db V) (A : Addr) (f : Field) (v : V) : Db V := fun k => if k = key A f then some v else db k

/-- C73. Storing one piece of state changes this piece and no other, of no contract. -/
theorem C73_write {V : Type} (db : Db V) {A B : Addr} (hA : A.isContract = true) (hB : B.isContract = true) {f g : Field}
    (hf : f ≠ .connectorAt 1936292453) (hg : g ≠ .connectorAt 1936292453) (v : V) :
    (db.write A f v).read B g = if B = A ∧ g = f then some v else db.read B g := by
  show (if key B g = key A f then some v else db (key B g)) = if B = A ∧ g = f then some v else db (key B g)
  by_cases h : key B g = key A f
  · rw [if_pos h, if_pos (C73_distinct hB hA hg hf h)]
  · rw [if_neg h, if_neg]
    rintro ⟨rfl, rfl⟩; exact h rfl

/-- C73. Whatever values the pieces of state of all contracts have, there is a database in which each is read back where the code looks for it:
keeping state in one database of bytes restricts nothing, and the fields of the model may be taken to be independent. -/
theorem C73_represents {V : Type} (value : Addr → Field → V) :
    ∃ db : Db V, ∀ A f, A.isContract = true → f ≠ .connectorAt 1936292453 → db.read A f = some (value A f) := by
  classical
  refine ⟨fun k => if h : ∃ x : Addr × Field, x.1.isContract = true ∧ x.2 ≠ .connectorAt 1936292453 ∧ key x.1 x.2 = k
    then some (value h.choose.1 h.choose.2) else none, fun A f hA hf => ?_⟩
  have h : ∃ x : Addr × Field, x.1.isContract = true ∧ x.2 ≠ .connectorAt 1936292453 ∧ key x.1 x.2 = key A f := ⟨(A, f), hA, hf, rfl⟩
  show (if h : ∃ x : Addr × Field, x.1.isContract = true ∧ x.2 ≠ .connectorAt 1936292453 ∧ key x.1 x.2 = key A f
    then some (value h.choose.1 h.choose.2) else none) = _
  rw [dif_pos h]
  obtain ⟨h1, h2, h3⟩ := h.choose_spec
  obtain ⟨e1, e2⟩ := C73_distinct h1 hA h2 hf h3
  rw [e1, e2]

/-- C73. The separator is no protection by itself: the bytes of an address may contain it, and those of contracts are one longer than those of
accounts. Still no field of a connector at one address has the key of a field of a connector at another. -/
theorem C73_connectors {A a b : Addr} {f g : ConnectorField} (h : key A (.connector a f) = key A (.connector b g)) : a = b ∧ f = g := by
  have := field_injective (by simp) (by simp) h
  simpa using this

/-- C73. The length of the list of connectors is kept under the key of what would be its element number 1936292453: the platform's choice of
`size` for the one and of the bytes of the index for the others. -/
theorem C73_limit (A : Addr) : key A (.connectorAt 1936292453) = key A .connectorCount := by
  have h : intBytes 1936292453 = ascii "size" := by decide +kernel
  simp [key, fieldKey, itemKey, sizeKey, h]

/-! Examples: an account and a contract as connectors, whose bytes agree as far as they can and contain the separator. -/

example : (key ⟨true, 6⟩ (.connector ⟨true, 0x7c7c⟩ .weight)).length = 21 + 3 + 21 + 3 + 6 ∧
    key ⟨true, 6⟩ (.connector ⟨true, 0x7c⟩ .weight) ≠ key ⟨true, 6⟩ (.connector ⟨false, 0x0100000000000000000000000000000000000000⟩ .isSet) ∧
    (addrBytes ⟨true, 0x7c⟩).take 20 = addrBytes ⟨false, 0x0100000000000000000000000000000000000000⟩ := by decide +kernel
example : key ⟨true, 6⟩ .owner ≠ key ⟨true, 5⟩ .owner ∧ key ⟨true, 6⟩ .owner ≠ key ⟨true, 6⟩ .newOwner := by decide +kernel

end Verif.Layout

import Verif.Proofs.JsonUtf8
import Verif.Props.Liveness
/-!
Property C71: messages, byte for byte. The claims about conversions (C33, C35-C41, C53, C59, C64-C67) speak of the data of a message as
a parsed document; here is what bytes are which document, whatever Python takes numbers with a fraction for (`float`) and however
deep it lets documents nest (`n`).
-/
set_option autoImplicit false
namespace Verif.Json
open Spec

variable {float : List Char → JVal} {n : Nat}

/-- C71. Every JSON text, in whatever layout - white space, escapes, order of keys, other keys besides - is read as the document it
stands for: under each key is found the last value given for it. -/
theorem C71_read {l : List (List Char × JVal)} {t : List Char} (h : Document false float n l t) :
    ∃ fields, ofBytes float n (utf8 t) = .json fields ∧ ∀ k : String, fields.lookup k = Spec.lastOf k.toList l := by
  refine ⟨dictOf [] l, ofBytes_spec h, fun k => ?_⟩
  rw [lookup_dictOf]
  cases Spec.lastOf k.toList l <;> rfl

/-- C71. Nothing but a JSON text (or what Python allows in addition) is read as a document, and as nothing else. -/
theorem C71_only {b : List UInt8} {fields : List (String × JVal)} (h : ofBytes float n b = .json fields) :
    ∃ l t, b = utf8 t ∧ Document true float n l t ∧ ∀ k : String, fields.lookup k = Spec.lastOf k.toList l := by
  obtain ⟨l, t, h1, h2, rfl⟩ := ofBytes_sound h
  refine ⟨l, t, h1, h2, fun k => ?_⟩
  rw [lookup_dictOf]
  cases Spec.lastOf k.toList l <;> rfl

/-- C71. A JSON text that asks the network for a conversion, in whatever layout, is understood so. (All claims about conversions that
take a request `Requests d …` therefore hold for it.) -/
theorem C71_request {t : List Char} {s f : Addr} {path : List Addr} {m : Int} (h : RequestText false float n t s path m f) :
    Requests (ofBytes float n (utf8 t)) s path m f := by
  obtain ⟨l, p, j, h1, h2, h3, h4, h5, h6⟩ := h
  obtain ⟨fields, e, hl⟩ := C71_read h1
  refine ⟨fields, p, j, e, (hl _).trans h2, h3, (hl _).trans h4, h5, ?_⟩
  rw [hl]
  exact h6

/-- C71. And nothing else is. -/
theorem C71_only_requests {b : List UInt8} {s f : Addr} {path : List Addr} {m : Int} (h : Requests (ofBytes float n b) s path m f) :
    ∃ t, b = utf8 t ∧ RequestText true float n t s path m f := by
  obtain ⟨fields, p, j, e, h2, h3, h4, h5, h6⟩ := h
  obtain ⟨l, t, h0, h1, hl⟩ := C71_only e
  refine ⟨t, h0, l, p, j, h1, (hl _).symm.trans h2, h3, (hl _).symm.trans h4, h5, ?_⟩
  rw [hl] at h6
  exact h6

/-- Tokens sent to the network with data that are no request are not accepted. -/
theorem not_accepted {w : World} {T N s : Addr} {v : Int} {d : Data} (hr : Reachable w) (hT : (w.kind T).isToken) (hN : w.kind N = .net)
    (hd : d ≠ .conversionResult) (hno : ∀ path m f, ¬ Requests d s path m f) : Fails w s T 0 (.transfer N v (some d)) := by
  intro orc k x w' h
  cases k with
  | zero => simp [ok_exec_zero] at h
  | succ k =>
    rw [ok_exec_transfer hT] at h
    have hNc : N.isContract = true := hr.basic.contract N (by rw [hN]; decide)
    obtain ⟨_, _, _, _, _, _, ⟨hc, _⟩ | ⟨_, y, w1, hf, _⟩⟩ := h
    · rw [hNc] at hc; cases hc
    · exact (C36_requests (w := (w.note s T 0 (.transfer N v (some d))).pay T s N v) hN).1 hno hd orc k y w1 hf

/-- C71. Tokens sent to the network with bytes that are no such request are sent back: the transfer fails, on every ledger. -/
theorem C71_refused {w : World} {T N s : Addr} {v : Int} {b : List UInt8} (hr : Reachable w) (hT : (w.kind T).isToken) (hN : w.kind N = .net)
    (hb : b ≠ utf8 "conversionResult".toList) (hno : ∀ t path m f, b = utf8 t → ¬ RequestText true float n t s path m f) :
    Fails w s T 0 (.transfer N v (some (ofBytes float n b))) := by
  refine not_accepted hr hT hN ?_ ?_
  · unfold ofBytes
    split
    · simp
    split
    · rename_i e; exact absurd e hb
    split <;> simp
  · intro path m f hq
    obtain ⟨t, h1, h2⟩ := C71_only_requests hq
    exact hno t path m f h1 h2

/-- C71. What `json.dumps` writes is read back. -/
theorem C71_round_trip {fields : List (String × JVal)} (hp : ∀ e ∈ fields, Plain e.2) (hk : (fields.map Prod.fst).Nodup) :
    ofBytes float (n + 1) (encodeUtf8 (dumps fields)) = .json fields := by
  have h := ofBytes_spec (dumps_document (float := float) (n := n) hp)
  rw [dictOf_distinct _ [] (by
    have : (fields.map fun e => (e.1.toList, e.2)).map Prod.fst = (fields.map Prod.fst).map String.toList := by simp
    rw [List.map_nil, List.nil_append, this]
    rw [List.Nodup, List.pairwise_map]
    exact hk.imp (fun hne e => hne (String.toList_inj.1 e)))] at h
  have e : (fields.map fun e => (e.1.toList, e.2)).map (fun e => (String.ofList e.1, e.2)) = fields := by
    rw [List.map_map]
    conv => rhs; rw [← List.map_id fields]
    apply List.map_congr_left
    intro e _
    simp
  rw [List.nil_append, e] at h
  exact h

/-- C71. What the network tells a converter on every hop is understood as what it is: the token and the minimal return, nothing
else. -/
theorem C71_hop (b : Addr) (m : Int) : ofBytes float (n + 1) (requestBytes b m) = Network.requestData b m ∧
    ∀ b' m', Asks (ofBytes float (n + 1) (requestBytes b m)) b' m' ↔ b' = b ∧ m' = m := by
  have h : ofBytes float (n + 1) (requestBytes b m) = Network.requestData b m :=
    C71_round_trip (by intro e he; simp at he; rcases he with rfl | rfl <;> trivial) (by simp)
  refine ⟨h, fun b' m' => ?_⟩
  rw [h]
  exact C36_converter_request b b' m m'

/-- C71. Different orders have different bytes. -/
theorem C71_distinct {b b' : Addr} {m m' : Int} (h : requestBytes b m = requestBytes b' m') : b = b' ∧ m = m' := by
  have h1 := (C71_hop (float := fun _ => .other) (n := 0) b m).2 b m
  rw [h] at h1
  exact ((C71_hop (float := fun _ => .other) (n := 0) b' m').2 b m).1 (h1.2 ⟨rfl, rfl⟩)

/-! ### The messages of README.md -/

/-- The `k` bytes of a number, as the platform reads `"_data": "0x…"` (of `2 * k` digits). -/
def bytesOf : Nat → Nat → List UInt8
  | 0, _ => []
  | k + 1, x => bytesOf k (x / 256) ++ [UInt8.ofNat (x % 256)]

/-- The data of README.md:548. -/
def readme548 : List UInt8 := bytesOf 176 0x7b2270617468223a226378306538646465333431653834633331303632353637656134323439643566373035323333326461302c6378363731656332326138353232353139303634386337313666353463356365653431323532313831342c20637839306661656363653636613131326532643439396366313266313833373065353664386665336236222c226d696e52657475726e223a31303030303030303030303030303030303030303030307d

/-- The data of README.md:621. -/
def readme621 : List UInt8 := bytesOf 259 0x7b2270617468223a226378393066616563636536366131313265326434393963663132663138333730653536643866653362362c6378363731656332326138353232353139303634386337313666353463356365653431323532313831342c206378306538646465333431653834633331303632353637656134323439643566373035323333326461302c6378306462323434396435366662386633393465353462633536363966643135613464333563653739392c20637839313730363063646365353334366638643562386637353566636161326265623230623333623236222c226d696e52657475726e223a313030303030303030303030303030303030307d

/-- Plain characters stand for themselves. -/
theorem chars_raw {s : List Char} (h : s.all (fun c => decide (' ' ≤ c) && decide (c ≠ '"') && decide (c ≠ '\\')) = true) : Chars false s s := by
  induction s with
  | nil => exact .nil
  | cons c s ih =>
    simp only [List.all_cons, Bool.and_eq_true, decide_eq_true_eq] at h
    exact .cons c s [c] s (.raw c h.1.1.1 h.1.1.2 h.1.2) (ih h.2)

/-- The text `{"path":"…","minReturn":…}`, with any blanks between. -/
theorem request_text {p : List Char} {path : List Addr} {d : List Char} (s : Addr) (hp : PathText p path)
    (hr : p.all (fun c => decide (' ' ≤ c) && decide (c ≠ '"') && decide (c ≠ '\\')) = true) (hd : IntText d)
    (a b c e f g i j : List Char) (hb : ∀ x ∈ [a, b, c, e, f, g, i, j], Blank x) :
    RequestText false float (n + 1) ('{' :: (a ++ "\"path\"".toList ++ b ++ ':' :: c ++ ('"' :: p ++ ['"']) ++ e ++ ',' ::
      (f ++ "\"minReturn\"".toList ++ g ++ ':' :: i ++ d ++ j)) ++ ['}']) s path (valueOf d) s := by
  simp only [List.mem_cons, List.not_mem_nil, or_false, forall_eq_or_imp, forall_eq] at hb
  obtain ⟨h1, h2, h3, h4, h5, h6, h7, h8⟩ := hb
  refine ⟨[("path".toList, .str p), ("minReturn".toList, .int (valueOf d))], p, .int (valueOf d), ?_, by rfl, hp, by rfl, .inl rfl, .inl ⟨rfl, .inl (by rfl)⟩⟩
  have hm : Members false (Value false float (n + 1)) [("path".toList, .str p), ("minReturn".toList, .int (valueOf d))] _ :=
    Members.more _ _ a _ b c _ e _ _ h1 ⟨_, chars_raw (by decide), rfl⟩ h2 h3 (.inl (.str p _ ⟨p, chars_raw hr, rfl⟩)) h4
      (Members.last _ _ f _ g i d j h5 ⟨_, chars_raw (by decide), rfl⟩ h6 h7 (.inl (.nat d hd)) h8)
  exact ⟨[], [], _, by simp [Blank], by simp [Blank], Obj.full _ _ hm, by simp only [List.nil_append, List.append_nil]; rfl⟩

/-- Contracts named in README.md. -/
def TK1 : Addr := ⟨true, 0x0e8dde341e84c31062567ea4249d5f7052332da0#160⟩
def TK2 : Addr := ⟨true, 0x90faecce66a112e2d499cf12f18370e56d8fe3b6#160⟩
def TK1_TK2 : Addr := ⟨true, 0x671ec22a85225190648c716f54c5cee412521814#160⟩
def ICXT_TK1 : Addr := ⟨true, 0x0db2449d56fb8f394e54bc5669fd15a4d35ce799#160⟩
def ICXT : Addr := ⟨true, 0x917060cdce5346f8d5b8f755fcaa2beb20b33b26#160⟩

set_option maxRecDepth 100000 in
/-- C71. The message of the tutorial, README.md:548, asks for what the tutorial says: to convert TK1 into TK2, for the sender, with
a minimum of 10000 tokens (of 18 decimals). -/
theorem C71_readme_short (s : Addr) :
    Requests (ofBytes float (n + 1) readme548) s [TK1, TK1_TK2, TK2] (10000 * 10 ^ 18) s := by
  have hp : PathText _ [TK1, TK1_TK2, TK2] :=
    .more (l := []) (r := []) (by simp) (by simp) (.more (l := []) (r := []) (by simp) (by simp) (.one (l := [' ']) (r := []) (by decide) (by simp)))
  have h := C71_request (request_text (float := float) (n := n) (d := "10000000000000000000000".toList) s hp (by decide +kernel)
    (.inr ⟨⟨by decide, by decide⟩, by decide⟩) [] [] [] [] [] [] [] [] (by simp [Blank]))
  have e1 : ((valueOf "10000000000000000000000".toList : Nat) : Int) = 10000 * 10 ^ 18 := by decide +kernel
  rw [e1] at h
  convert h using 2
  decide +kernel

set_option maxRecDepth 100000 in
/-- C71. So does README.md:621: to convert TK2 into ICX through two converters, with a minimum of 1 ICX. -/
theorem C71_readme_long (s : Addr) :
    Requests (ofBytes float (n + 1) readme621) s [TK2, TK1_TK2, TK1, ICXT_TK1, ICXT] (10 ^ 18) s := by
  have hp : PathText _ [TK2, TK1_TK2, TK1, ICXT_TK1, ICXT] :=
    .more (l := []) (r := []) (by simp) (by simp) (.more (l := []) (r := []) (by simp) (by simp)
      (.more (l := [' ']) (r := []) (by decide) (by simp) (.more (l := []) (r := []) (by simp) (by simp)
        (.one (l := [' ']) (r := []) (by decide) (by simp)))))
  have h := C71_request (request_text (float := float) (n := n) (d := "1000000000000000000".toList) s hp (by decide +kernel)
    (.inr ⟨⟨by decide, by decide⟩, by decide⟩) [] [] [] [] [] [] [] [] (by simp [Blank]))
  have e1 : ((valueOf "1000000000000000000".toList : Nat) : Int) = 10 ^ 18 := by decide +kernel
  rw [e1] at h
  convert h using 2
  decide +kernel

/-- C71. Written as the prose of the tutorial has it (README.md:536, 609), with `_path` and `_minReturn` for `path` and `minReturn`, or
with the number in quotes, no request is accepted: whatever else the document says, the transfer fails, on every ledger. -/
theorem C71_prose {w : World} {T N s : Addr} {v : Int} {l : List (List Char × JVal)} {t : List Char} (hr : Reachable w)
    (hT : (w.kind T).isToken) (hN : w.kind N = .net) (h : Document false float n l t)
    (hno : Spec.lastOf "path".toList l = none ∨ Spec.lastOf "minReturn".toList l = none ∨
      ∃ p, Spec.lastOf "minReturn".toList l = some (.str p)) :
    Fails w s T 0 (.transfer N v (some (ofBytes float n (utf8 t)))) := by
  obtain ⟨fields, e, hl⟩ := C71_read h
  rw [← hl "path", ← hl "minReturn"] at hno
  rw [e]
  refine not_accepted hr hT hN (by simp) ?_
  rintro path m f ⟨fields', p, j, h1, h2, _, h4, h5, _⟩
  injection h1 with h1
  subst h1
  rcases hno with h | h | ⟨p', h⟩
  · rw [h] at h2; cases h2
  · rw [h] at h4; cases h4
  · rw [h] at h4
    cases h4
    simp at h5

/-- The bytes of a text of the scenario's request, laid out over several lines as README.md:142-145 shows it, with the text of the path
`p`. -/
def layout (p : List Char) (m : List Char) : List Char :=
  '{' :: ("\n    ".toList ++ "\"path\"".toList ++ [] ++ ':' :: " ".toList ++ ('"' :: p ++ ['"']) ++ [] ++ ',' ::
    (" \n    ".toList ++ "\"minReturn\"".toList ++ [] ++ ':' :: " ".toList ++ m ++ "\n".toList)) ++ ['}']

/-- The hypothesis of `C71_request` holds of a request laid out as README.md:142-145 shows it, with any path and any minimal return. -/
example (s : Addr) (p : List Char) (path : List Addr) (d : List Char) (hp : PathText p path) (hd : IntText d)
    (hr : p.all (fun c => decide (' ' ≤ c) && decide (c ≠ '"') && decide (c ≠ '\\')) = true) :
    RequestText false float (n + 1) (layout p d) s path (valueOf d) s :=
  request_text s hp hr hd _ _ _ _ _ _ _ _ (by
    unfold Blank
    decide)

set_option maxRecDepth 100000 in
/-- A text with escapes, other keys, one key twice and white space around it is read as `C71_read` says: of the two values for `path` the last counts. -/
example : ofBytes (fun _ => .other) 3 (utf8 " {\"p\\u0061th\": 1.5e3, \"deep\": [[]], \"path\" : \"h\\u00e9\\ud83d\\ude00\\n\", \"minReturn\":-12}\n".toList) =
    .json [("path", .str "hé😀\n".toList), ("deep", .other), ("minReturn", .int (-12))] := by decide +kernel

set_option maxRecDepth 100000 in
/-- What is no JSON text is read as none: a byte that is no UTF-8, text after the object, a comma too many, a number with a superfluous zero. -/
example : ([([123, 34, 0xC0, 0x80, 34, 58, 49, 125] : List UInt8), utf8 "{\"path\": 1} 2".toList, utf8 "{\"path\": 1,}".toList,
    utf8 "{\"path\": 01}".toList].all fun b => match ofBytes (fun _ => .other) 3 b with | .junk _ => true | _ => false) = true := by
  decide +kernel

set_option maxRecDepth 100000 in
/-- The ledger of the scenario, where alice sends 100 of a token to the network with the bytes of the layout of README.md:142-145: the
conversion happens, as with the parsed request. -/
example : ofBytes (fun _ => .other) 1 (utf8 (layout (Scenario.pathText [Scenario.flex, Scenario.conv, Scenario.irc]) "1".toList)) =
    Scenario.request [Scenario.flex, Scenario.conv, Scenario.irc] 1 := by decide +kernel

/-- The hypotheses of `C71_prose` hold of the ready ledger and a text with the keys of the prose of the tutorial. -/
example : Fails Scenario.ready Scenario.alice Scenario.flex 0 (.transfer Scenario.network 100
    (some (ofBytes float (n + 1) (utf8 "{\"_path\":\"x\",\"_minReturn\":\"1\"}".toList)))) := by
  have k : ∀ s : List Char, s.all (fun c => decide (' ' ≤ c) && decide (c ≠ '"') && decide (c ≠ '\\')) = true → Str false s ('"' :: s ++ ['"']) :=
    fun s h => ⟨s, chars_raw h, rfl⟩
  have hb : Blank [] := by simp [Blank]
  refine C71_prose (l := [("_path".toList, .str "x".toList), ("_minReturn".toList, .str "1".toList)]) Scenario.ready_reachable (by decide +kernel)
    (by decide +kernel) ⟨[], [], _, hb, hb, Obj.full _ _ (Members.more _ _ [] _ [] [] _ [] _ _ hb (k _ (by decide)) hb hb (.inl (.str _ _ (k _ (by decide)))) hb
      (Members.last _ _ [] _ [] [] _ [] hb (k _ (by decide)) hb hb (.inl (.str _ _ (k _ (by decide)))) hb)), by rfl⟩ (.inl (by decide))

end Verif.Json

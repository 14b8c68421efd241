import Verif.Proofs.Source.Converter
/-!
The methods of contracts/network/network.py.
-/
set_option autoImplicit false
namespace Verif.Src
attribute [local irreducible] glob find findNext function const mroOf ifaceHas fields cfields Verif.ZERO

/-! ### Comprehensions -/

/-- A `map`, kept in one piece. -/
def mapLoop (cx : Cx) (k : Invoke) (here x : String) (body : Expr) (env : Env) (l : List PV) (w : World) : Option (List PV × World) :=
  forEach (fun v w => eval cx k here body (env.set x v) w >>- fun q => some (some q.1, q.2)) l w
@[py ↓] theorem eval_map (cx : Cx) (k : Invoke) (here x : String) (body it : Expr) (env : Env) (w : World) :
    eval cx k here (.map_ x body it) env w = eval cx k here it env w >>- fun p => elements p.1 >>- fun l =>
      mapLoop cx k here x body env l p.2 >>- fun q => some (.list q.1, q.2) := rfl
theorem mapLoop_nil (cx : Cx) (k : Invoke) (here x : String) (body : Expr) (env : Env) (w : World) :
    mapLoop cx k here x body env [] w = some ([], w) := rfl
theorem mapLoop_cons (cx : Cx) (k : Invoke) (here x : String) (body : Expr) (env : Env) (v : PV) (l : List PV) (w : World) :
    mapLoop cx k here x body env (v :: l) w = eval cx k here body (env.set x v) w >>- fun p =>
      mapLoop cx k here x body env l p.2 >>- fun q => some (p.1 :: q.1, q.2) := by
  show ((eval cx k here body (env.set x v) w >>- fun q => some (some q.1, q.2)) >>- fun p => mapLoop cx k here x body env l p.2 >>- fun q =>
    some (match p.1 with | some x => x :: q.1 | none => q.1, q.2)) = _
  rw [andThen_assoc]
  rfl

/-- A comprehension, kept in one piece. -/
def compLoop (cx : Cx) (k : Invoke) (here : String) (elt : Expr) (xs : List String) (c : Expr) (env : Env) (l : List PV) (w : World) :
    Option (List PV × World) :=
  forEach (fun v w => bindVars env xs v >>- fun env' => eval cx k here c env' w >>- fun q => truth q.1 >>- fun t =>
        if t then eval cx k here elt env' q.2 >>- fun r => some (some r.1, r.2) else some (none, q.2)) l w
@[py ↓] theorem eval_comp (cx : Cx) (k : Invoke) (here : String) (b : Bool) (elt : Expr) (xs : List String) (it c : Expr) (env : Env) (w : World) :
    eval cx k here (.comp b elt xs it c) env w = eval cx k here it env w >>- fun p => elements p.1 >>- fun l =>
      compLoop cx k here elt xs c env l p.2 >>- fun q => some (if b then .set (dedup q.1) else .list q.1, q.2) := rfl
theorem compLoop_nil (cx : Cx) (k : Invoke) (here : String) (elt : Expr) (xs : List String) (c : Expr) (env : Env) (w : World) :
    compLoop cx k here elt xs c env [] w = some ([], w) := rfl
theorem compLoop_cons (cx : Cx) (k : Invoke) (here : String) (elt : Expr) (xs : List String) (c : Expr) (env : Env) (v : PV) (l : List PV) (w : World) :
    compLoop cx k here elt xs c env (v :: l) w = 
      (bindVars env xs v >>- fun env' => eval cx k here c env' w >>- fun q => truth q.1 >>- fun t =>
        if t then eval cx k here elt env' q.2 >>- fun r => some (some r.1, r.2) else some (none, q.2)) >>- fun p =>
      compLoop cx k here elt xs c env l p.2 >>- fun q => some (match p.1 with | some x => x :: q.1 | none => q.1, q.2) := rfl

variable (cx : Ctx) (L : Nat) {n : Nat} (w : World)

/-! ### Paths -/

theorem opt_readPath (s : List Char) : opt (Network.readPath s) w = Text.convertPath s >>- fun p => some (p, w) := by
  unfold Network.readPath
  cases Text.convertPath s <;> rfl

/-- A path. -/
def pathV (l : List Addr) : PV := .list (l.map .addr)

theorem strip_loop (cx : Cx) (k : Invoke) (s : List Char) (l : List (List Char)) :
    mapLoop cx k "Network" "address" (.meth (.name "address") "strip" .nil) [("self", .obj "Network"), ("path", .text s)] (l.map .text) w =
      some ((l.map Text.strip).map .text, w) := by
  induction l with
  | nil => rfl
  | cons a l ih =>
    rw [List.map_cons, mapLoop_cons]
    py_simp [ih]
    rfl

theorem fromString_loop (cx : Cx) (k : Invoke) (s : List Char) (v : PV) (l : List (List Char)) :
    compLoop cx k "Network" (.meth (.name "Address") "from_string" (.cons (.name "address") .nil)) ["address"] (.bool true)
      [("self", .obj "Network"), ("path", .text s), ("converted_path", v)] (l.map .text) w =
      Text.toAddrs l >>- fun r => some (r.map .addr, w) := by
  induction l with
  | nil => rfl
  | cons a l ih =>
    rw [List.map_cons, compLoop_cons, Text.toAddrs]
    py_simp [ih, bindVars]
    cases Text.toAddr a with
    | none => rfl
    | some x => 
      py_simp [ih]
      cases Text.toAddrs l <;> rfl

@[py] theorem inv_convertPath (cx : Cx) (h : 1 ≤ n) (s : List Char) :
    invoke cx n "Network" (some "Network") tNetwork__convert_path [.text s] w =
      Text.convertPath s >>- fun r => some (pathV r, w) := by
  py_start tNetwork__convert_path [strip_loop, fromString_loop]
  unfold Text.convertPath
  py_go
  rfl

/-- The elements at odd positions. -/
theorem odd_loop (cx : Cx) (k : Invoke) (t u : PV) (l : List Addr) (i : Nat) :
    compLoop cx k "Network" (.name "address") ["i", "address"] (.cmp .eq (.op .mod (.name "i") (.num 2)) (.num 1))
      [("self", .obj "Network"), ("path", t), ("path_len", u)]
      (((l.map PV.addr).zipIdx i).map fun p => .tuple [.int p.2, p.1]) w =
      some ((if i % 2 = 0 then Network.oddPositions l else match l with | [] => [] | a :: l => a :: Network.oddPositions l).map .addr, w) := by
  induction l generalizing i with
  | nil => cases hi : decide (i % 2 = 0) <;> simp_all [compLoop_nil, Network.oddPositions]
  | cons a l ih =>
    rw [List.map_cons, List.zipIdx_cons, List.map_cons, compLoop_cons]
    py_simp [ih, bindVars, mod_pos _ (show (0:Int) < 2 by decide)]
    by_cases hi : i % 2 = 0
    · rw [if_neg (by omega)]
      rw [if_neg (by omega), if_pos hi]
      cases l <;> rfl
    · rw [if_pos (by omega)]
      rw [if_pos (by omega), if_neg hi]
      rfl

theorem eraseDupsBy_map (l acc : List Addr) :
    List.eraseDupsBy.loop (fun a b => pyEq a b = some true) (l.map PV.addr) (acc.map PV.addr) =
      (List.eraseDupsBy.loop (· == ·) l acc).map PV.addr := by
  induction l generalizing acc with
  | nil => simp [List.eraseDupsBy.loop]
  | cons a l ih =>
    simp only [List.map_cons, List.eraseDupsBy.loop]
    have : (acc.map PV.addr).any (fun b => pyEq (.addr a) b = some true) = acc.any (fun b => a == b) := by
      induction acc with
      | nil => rfl
      | cons b acc ih => simp only [List.map_cons, List.any_cons, ih]; congr 1; by_cases h : a = b <;> simp [pyEq, h]
    rw [this]
    cases acc.any (fun b => a == b)
    · exact ih (a :: acc)
    · exact ih acc

theorem dedup_addr (l : List Addr) : (dedup (l.map PV.addr)).length = Network.setSize l := by
  unfold dedup Network.setSize List.eraseDups List.eraseDupsBy
  have := eraseDupsBy_map l []
  rw [List.map_nil] at this
  rw [this, List.length_map]

@[py] theorem len_list (s : Addr) (l : List PV) : len s w (.list l) = some (.int l.length) := rfl
@[py] theorem len_set (s : Addr) (l : List PV) : len s w (.set l) = some (.int l.length) := rfl

@[py] theorem inv_validPath (cx : Cx) (h : 2 ≤ n) (l : List Addr) :
    invoke cx n "Network" (some "Network") tNetwork__require_valid_path [pathV l] w =
      if Network.validPath l = true then some (.none, w) else none := by
  unfold pathV
  have ho := odd_loop w cx (invoke cx (n - 1)) (.list (l.map .addr)) (.int l.length) l 0
  rw [if_pos rfl] at ho
  have h2 : (0:Int) < 2 := by decide
  have e : Network.validPath l = true ↔ (2 < (l.length : Int) ∧ (l.length : Int) ≤ 10 * 2 + 1) ∧ (l.length : Int) % 2 = 1 ∧
      (Network.setSize (Network.oddPositions l) : Int) = (l.length : Int) / 2 := by
    unfold Network.validPath Network.MAX_CONVERSION_COUNT
    simp only [Bool.and_eq_true, decide_eq_true_eq]
    omega
  py_start tNetwork__require_valid_path [ho, fdiv_pos _ h2, mod_pos _ h2, dedup_addr, List.length_map]
  by_cases c1 : (2 < (l.length : Int) ∧ (l.length : Int) ≤ 10 * 2 + 1) ∧ (l.length : Int) % 2 = 1
  · rw [if_pos c1]
    by_cases c2 : (Network.setSize (Network.oddPositions l) : Int) = (l.length : Int) / 2
    · rw [if_pos c2, if_pos (e.2 ⟨c1.1, c1.2, c2⟩)]
    · rw [if_neg c2, if_neg (fun h => c2 (e.1 h).2.2)]
  · rw [if_neg c1, if_neg (fun h => c1 ⟨(e.1 h).1, (e.1 h).2.1⟩)]

/-! ### The loops over a path -/

/-- `i`, `i + 2`, … -/
def odds : Nat → Nat → List PV
  | _, 0 => []
  | i, m + 1 => .int (i : Int) :: odds (i + 2) m

theorem range_odds (m : Nat) : range 1 ((2 * m + 1 : Nat) : Int) 2 = some (odds 1 m) := by
  have : ∀ (m i : Nat), (List.range m).map (fun (k : Nat) => PV.int ((i : Int) + 2 * k)) = odds i m := by
    intro m
    induction m with
    | zero => intro i; rfl
    | succ m ih =>
      intro i
      rw [odds, List.range_succ_eq_map, List.map_cons, List.map_map, ← ih]
      refine congr (congrArg List.cons ?_) ?_
      · simp
      · refine List.map_congr_left fun k _ => ?_
        show PV.int _ = PV.int _
        refine congrArg PV.int ?_
        omega
  have e : ((((2 * m + 1 : Nat) : Int) - 1 + 1) / 2).toNat = m := by omega
  show some ((List.range ((((2 * m + 1 : Nat) : Int) - 1 + 1) / 2).toNat).map fun (k : Nat) => PV.int (1 + 2 * (k : Int))) = _
  rw [e]
  exact congrArg some (this m 1)

theorem get_set_miss {x y : String} (v : PV) (t : Env) (h : y ≠ x) : Env.get (Env.set t y v) x = Env.get t x := by
  induction t with
  | nil => rw [set_nil, get_miss _ _ h]
  | cons a t ih =>
    obtain ⟨z, u⟩ := a
    by_cases hz : z = y
    · subst hz; rw [set_hit, get_miss _ _ h, get_miss _ _ h]
    · rw [set_miss _ _ _ hz]
      by_cases hx : z = x
      · subst hx; rw [get_hit, get_hit]
      · rw [get_miss _ _ hx, get_miss _ _ hx, ih]

/-- An element of a path. -/
theorem path_index (l : List Addr) (i : Nat) : pyIndex (l.map PV.addr) (i : Int) = (l[i]?).map .addr := by
  unfold pyIndex
  simp only
  rw [if_neg (show ¬ (i : Int) < 0 by omega), if_pos (show 0 ≤ (i : Int) by omega), Int.toNat_natCast, List.getElem?_map]

/-- An address an answer holds. -/
def vAddr : Val → Option Addr
  | .addr (some a) => some a
  | _ => none
/-- An amount an answer holds. -/
def vAmount : Val → Option Int
  | .ret a _ => some a
  | _ => none
@[py] theorem opt_asAddr (v : Val) : opt (asAddr v) w = vAddr v >>- fun a => some (a, w) := by
  cases v with
  | addr a => cases a <;> rfl
  | _ => rfl
@[py] theorem opt_asAmount (v : Val) : opt (asAmount v) w = vAmount v >>- fun a => some (a, w) := by
  cases v with
  | conn c => cases c <;> rfl
  | _ => rfl
theorem iface_ofVal (cx : Cx) (k : Invoke) (c i : String) (v : Val) :
    send cx k "create_interface_score" [ofVal v, .iclass i] w (.obj c) = vAddr v >>- fun a => some (.iface a i, w) := by
  cases v with
  | addr a => cases a <;> rfl
  | conn c => cases c <;> rfl
  | _ => rfl
/-- The body of the loop of `getExpectedReturnByPath`. -/
def quoteBody : Stmt :=
  .assign (.name "to_token_address") (.index (.name "converted_path") (.op .add (.name "i") (.num 1))) ;;
  .assign (.name "flexible_token") (.meth (.name "self") "create_interface_score" ⟪.index (.name "converted_path") (.name "i"), .name "FlexibleToken"⟫) ;;
  .assign (.name "converter") (.meth (.name "self") "create_interface_score" ⟪.meth (.name "flexible_token") "getOwner" ⟪⟫, .name "Converter"⟫) ;;
  .assign (.name "amount") (.index (.meth (.name "converter") "getReturn" ⟪.name "from_token_address", .name "to_token_address", .name "amount"⟫) (.str "amount")) ;;
  .assign (.name "from_token_address") (.name "to_token_address")

/-- The variables of the loop. -/
def quoteEnv (s : PV) (a0 : Int) (p : List Addr) (a : Int) (f : Addr) (t : Env) : Env :=
  ("self", .obj "Network") :: ("_path", s) :: ("_amount", .int a0) :: ("converted_path", .list (p.map .addr)) :: ("amount", .int a) ::
    ("from_token_address", .addr f) :: t

/-- The other variables after a round. -/
def quoteRest (t : Env) (i : Nat) (ft to c : Addr) : Env :=
  Env.set (Env.set (Env.set (Env.set t "i" (.int (i : Int))) "to_token_address" (.addr to)) "flexible_token" (.iface ft "ABCFlexibleToken"))
    "converter" (.iface c "ABCConverter")

theorem quoteBody_exec (k : Invoke) (s : PV) (a0 : Int) (p : List Addr) (i : Nat) (ft to : Addr) (a : Int) (f : Addr) (t : Env) (w : World)
    (h0 : p[i]? = some ft) (h1 : p[i + 1]? = some to) (hF : Env.get t "FlexibleToken" = none) (hC : Env.get t "Converter" = none) :
    execS (Cx.of cx "Network" L) k "Network" quoteBody (Env.set (quoteEnv s a0 p a f t) "i" (.int (i : Int))) w =
    (opt (cx.call ft 0 .getOwner) w >>- fun v => vAddr v.1 >>- fun c => opt (cx.call c 0 (.getReturn f to a)) v.2 >>- fun r =>
      vAmount r.1 >>- fun a' => some (.next (quoteEnv s a0 p a' to (quoteRest t i ft to c)), r.2)) := by
  have e0 : pyIndex (p.map PV.addr) (i : Int) = some (.addr ft) := by rw [path_index, h0]; rfl
  have ec : (i : Int) + 1 = ((i + 1 : Nat) : Int) := by omega
  have e1 : pyIndex (p.map PV.addr) ((i + 1 : Nat) : Int) = some (.addr to) := by rw [path_index, h1]; rfl
  unfold quoteBody quoteEnv
  py_simp [get_set, get_set_miss, e0, e1, ec, iface_ofVal, hF, hC]
  py_go [get_set, get_set_miss, iface_ofVal, hF, hC]
  rename_i p
  obtain ⟨v, w1⟩ := p
  cases v with
  | addr a => cases a <;> rfl
  | conn c => cases c <;> rfl
  | ret a f =>
    py_simp [ofVal, vAmount, get_set, get_set_miss]
    rfl
  | _ => rfl

theorem quoteLoop (k : Invoke) (s : PV) (a0 : Int) (p : List Addr) : ∀ (m i : Nat) (rest : List Addr) (a : Int) (f : Addr) (t : Env) (w : World),
    p.drop i = rest → rest.length = 2 * m → Env.get t "FlexibleToken" = none → Env.get t "Converter" = none →
    (floop (Cx.of cx "Network" L) k "Network" "i" quoteBody (odds i m) (quoteEnv s a0 p a f t) w >>- fun q => match q.1 with
      | .next env' => execS (Cx.of cx "Network" L) k "Network" (.ret (.name "amount")) env' q.2
      | .ret u => some (.ret u, q.2)) =
    opt (Network.expectedLoop cx f rest a) w >>- fun q => some (.ret (.int q.1), q.2) := by
  intro m
  induction m with
  | zero =>
    intro i rest a f t w h1 h2 hF hC
    have : rest = [] := List.length_eq_zero_iff.1 (by omega)
    subst this
    rw [odds, floop_nil, Network.expectedLoop]
    · unfold quoteEnv
      py_simp
    · simp
  | succ m ih =>
    intro i rest a f t w h1 h2 hF hC
    match rest, h2 with
    | ft :: to :: rest, h2 =>
      have e0 : p[i]? = some ft := by
        have := congrArg List.head? h1
        simpa using this
      have e1 : p[i + 1]? = some to := by
        have := congrArg (fun l => l[1]?) h1
        simpa using this
      have e2 : p.drop (i + 2) = rest := by
        have := congrArg (List.drop 2) h1
        simpa [Nat.add_comm] using this
      have h3 : rest.length = 2 * m := by simp only [List.length_cons] at h2; omega
      rw [odds, floop_cons, quoteBody_exec cx L k s a0 p i ft to a f t w e0 e1 hF hC, Network.expectedLoop]
      py_simp
      py_go
      refine ih (i + 2) rest _ to _ _ e2 h3 ?_ ?_
      · unfold quoteRest; py_simp [get_set_miss, hF]
      · unfold quoteRest; py_simp [get_set_miss, hC]

/-- The body of the loop of `_convert_by_path`. -/
def pathBody : Stmt :=
  .assign (.name "flexible_token_address") (.index (.name "path") (.name "i")) ;;
  .assign (.name "to_token_address") (.index (.name "path") (.op .add (.name "i") (.num 1))) ;;
  .assign (.name "to_token") (.meth (.name "self") "create_interface_score" ⟪.name "to_token_address", .name "IRCToken"⟫) ;;
  .assign (.name "flexible_token") (.meth (.name "self") "create_interface_score" ⟪.name "flexible_token_address", .name "FlexibleToken"⟫) ;;
  .assign (.name "converter_address") (.meth (.name "flexible_token") "getOwner" ⟪⟫) ;;
  .assign (.name "amount_before_converting") (.meth (.name "to_token") "balanceOf" ⟪.attr (.name "self") "address"⟫) ;;
  .assign (.index (.name "data") (.str "toToken")) (.fn "str" ⟪.name "to_token_address"⟫) ;;
  .assign (.index (.name "data") (.str "minReturn")) (.cond (.cmp .eq (.name "i") (.op .sub (.fn "len" ⟪.name "path"⟫) (.num 2))) (.name "min_return") (.num 1)) ;;
  .assign (.name "encoded_data") (.meth (.fn "json_dumps" ⟪.name "data"⟫) "encode" ⟪.str "utf-8"⟫) ;;
  .expr (.meth (.name "from_token") "transfer" ⟪.name "converter_address", .name "amount", .name "encoded_data"⟫) ;;
  .assign (.name "amount_after_converting") (.meth (.name "to_token") "balanceOf" ⟪.attr (.name "self") "address"⟫) ;;
  .assign (.name "amount") (.op .sub (.name "amount_after_converting") (.name "amount_before_converting")) ;;
  .assign (.name "from_token") (.name "to_token")

/-- The variables of the loop. -/
def pathEnv (p : List Addr) (a : Int) (u fo : PV) (x : Addr) (f0 f : Addr) (d : Env) (t : Env) : Env :=
  ("self", .obj "Network") :: ("path", .list (p.map .addr)) :: ("amount", .int a) :: ("min_return", u) :: ("_for", fo) ::
    ("to_token_address", .addr x) :: ("from_token_address", .addr f0) :: ("from_token", .iface f "ABCIRCToken") :: ("data", .dict d) :: t

/-- The other variables after a round. -/
def pathRest (t : Env) (i : Nat) (ft to : Addr) (c : Addr) (b0 b1 : Int) (d : Data) : Env :=
  Env.set (Env.set (Env.set (Env.set (Env.set (Env.set (Env.set (Env.set t "i" (.int (i : Int))) "flexible_token_address" (.addr ft))
    "to_token" (.iface to "ABCIRCToken")) "flexible_token" (.iface ft "ABCFlexibleToken")) "converter_address" (.addr c))
    "amount_before_converting" (.int b0)) "encoded_data" (.bytes d)) "amount_after_converting" (.int b1)

theorem dumps_json (s : Addr) (to : Addr) (v : PV) (n : Int) (h : toJVal v = some (.int n)) :
    builtin s w "json_dumps" [.dict [("toToken", .text (Text.ofAddr to)), ("minReturn", v)]] = some (.decoded (Network.requestData to n)) := by
  show (toFields _).map _ = _
  simp only [toFields, h]
  rfl
theorem mkCall_not (v : Val) (h : vAddr v = none) (a : Int) (d : Data) : mkCall "transfer" [ofVal v, .int a, .bytes d] = none := by
  cases v with
  | addr a => cases a with
    | none => rfl
    | some a => exact absurd h (by simp [vAddr])
  | conn c => cases c <;> rfl
  | _ => rfl

theorem vAddr_some {a : Addr} (v : Val) (h : vAddr v = some a) : v = .addr (some a) := by
  cases v with
  | addr x => cases x with
    | none => exact absurd h (by simp [vAddr])
    | some x => simp only [vAddr, Option.some.injEq] at h; rw [h]
  | _ => exact absurd h (by simp [vAddr])

/-- The dict sent to a converter. -/
def reqDict (to : Addr) (v : PV) : Env := [("toToken", .text (Text.ofAddr to)), ("minReturn", v)]

theorem pathBody_exec (k : Invoke) (p : List Addr) (i : Nat) (ft to : Addr) (a m : Int) (u fo : PV) (x f0 f : Addr) (d t : Env) (w : World)
    (h0 : p[i]? = some ft) (h1 : p[i + 1]? = some to) (hu : toJVal u = some (.int m))
    (hd : ∀ y z, Env.set (Env.set d "toToken" y) "minReturn" z = [("toToken", y), ("minReturn", z)])
    (hF : Env.get t "FlexibleToken" = none) (hC : Env.get t "IRCToken" = none) :
    execS (Cx.of cx "Network" L) k "Network" pathBody (Env.set (pathEnv p a u fo x f0 f d t) "i" (.int (i : Int))) w =
    (opt (cx.call ft 0 .getOwner) w >>- fun v => vAddr v.1 >>- fun c => opt (cx.call to 0 (.balanceOf cx.self)) v.2 >>- fun b =>
      vInt b.1 >>- fun b0 => opt (cx.call f 0 (.transfer c a (some (Network.requestData to (if p.length = i + 2 then m else 1))))) b.2 >>- fun r =>
      opt (cx.call to 0 (.balanceOf cx.self)) r.2 >>- fun b' => vInt b'.1 >>- fun b1 =>
        some (.next (pathEnv p (b1 - b0) u fo to f0 to (reqDict to (if p.length = i + 2 then u else .int 1))
          (pathRest t i ft to c b0 b1 (Network.requestData to (if p.length = i + 2 then m else 1)))), b'.2)) := by
  have e0 : pyIndex (p.map PV.addr) (i : Int) = some (.addr ft) := by rw [path_index, h0]; rfl
  have ec : (i : Int) + 1 = ((i + 1 : Nat) : Int) := by omega
  have e1 : pyIndex (p.map PV.addr) ((i + 1 : Nat) : Int) = some (.addr to) := by rw [path_index, h1]; rfl
  have ei : p.length = i + 2 ↔ (i : Int) = (p.length : Int) - 2 := by omega
  have e1' : toJVal (.int 1) = some (.int 1) := rfl
  unfold pathBody pathEnv
  py_simp [get_set, get_set_miss, e0, e1, ec, hF, hC]
  refine andThen_congr rfl fun v => ?_
  obtain ⟨v, w1⟩ := v
  by_cases hl : (i : Int) = (p.length : Int) - 2
  · have hq := eq_true hl
    rw [if_pos (ei.2 hl), if_pos (ei.2 hl)]
    cases hv : vAddr v with
    | none =>
      py_simp [get_set, get_set_miss]
      refine andThen_fail _ _ fun q => ?_
      py_simp
      refine andThen_fail _ _ fun q => ?_
      py_simp [get_set, get_set_miss, List.length_map, hq, hd, dumps_json _ _ _ _ _ hu, dumps_json _ _ _ _ _ e1', mkCall_not v hv]
    | some c =>
      obtain rfl : v = .addr (some c) := vAddr_some v hv
      have eo : ofVal (.addr (some c)) = .addr c := rfl
      py_simp [get_set, get_set_miss, eo]
      py_go [get_set, get_set_miss, List.length_map, hq, hd, dumps_json _ _ _ _ _ hu, dumps_json _ _ _ _ _ e1', eo]
      rfl
  · have hq := eq_false hl
    rw [if_neg (fun h => hl (ei.1 h)), if_neg (fun h => hl (ei.1 h))]
    cases hv : vAddr v with
    | none =>
      py_simp [get_set, get_set_miss]
      refine andThen_fail _ _ fun q => ?_
      py_simp
      refine andThen_fail _ _ fun q => ?_
      py_simp [get_set, get_set_miss, List.length_map, hq, hd, dumps_json _ _ _ _ _ hu, dumps_json _ _ _ _ _ e1', mkCall_not v hv]
    | some c =>
      obtain rfl : v = .addr (some c) := vAddr_some v hv
      have eo : ofVal (.addr (some c)) = .addr c := rfl
      py_simp [get_set, get_set_miss, eo]
      py_go [get_set, get_set_miss, List.length_map, hq, hd, dumps_json _ _ _ _ _ hu, dumps_json _ _ _ _ _ e1', eo]
      rfl

theorem pathLoop (k : Invoke) (p : List Addr) (mr : Int) (u fo : PV) (f0 : Addr) (hu : toJVal u = some (.int mr)) :
    ∀ (m i : Nat) (rest : List Addr) (a : Int) (x f : Addr) (d t : Env) (w : World),
    p.drop i = rest → rest.length = 2 * m → p.length = i + 2 * m → (m = 0 → x = f) →
    (∀ y z, Env.set (Env.set d "toToken" y) "minReturn" z = [("toToken", y), ("minReturn", z)]) →
    Env.get t "FlexibleToken" = none → Env.get t "IRCToken" = none →
    (floop (Cx.of cx "Network" L) k "Network" "i" pathBody (odds i m) (pathEnv p a u fo x f0 f d t) w >>- fun q => match q.1 with
      | .next env' => execS (Cx.of cx "Network" L) k "Network" (.ret (.tuple ⟪.name "to_token_address", .name "amount"⟫)) env' q.2
      | .ret u => some (.ret u, q.2)) =
    opt (Network.convertLoop cx mr f rest a) w >>- fun q => some (.ret (.tuple [.addr q.1.1, .int q.1.2]), q.2) := by
  intro m
  induction m with
  | zero =>
    intro i rest a x f d t w h1 h2 _ hx _ _ _
    have : rest = [] := List.length_eq_zero_iff.1 (by omega)
    subst this
    obtain rfl := hx rfl
    rw [odds, floop_nil, Network.convertLoop]
    · unfold pathEnv
      py_simp
    · simp
  | succ m ih =>
    intro i rest a x f d t w h1 h2 hl _ hd hF hC
    match rest, h2 with
    | ft :: to :: rest, h2 =>
      have e0 : p[i]? = some ft := by
        have := congrArg List.head? h1
        simpa using this
      have e1 : p[i + 1]? = some to := by
        have := congrArg (fun l => l[1]?) h1
        simpa using this
      have e2 : p.drop (i + 2) = rest := by
        have := congrArg (List.drop 2) h1
        simpa [Nat.add_comm] using this
      have h3 : rest.length = 2 * m := by simp only [List.length_cons] at h2; omega
      have er : (if rest = [] then mr else 1) = if p.length = i + 2 then mr else 1 := by
        have hr : rest = [] ↔ p.length = i + 2 := by rw [← List.length_eq_zero_iff]; omega
        by_cases hq : rest = []
        · rw [if_pos hq, if_pos (hr.1 hq)]
        · rw [if_neg hq, if_neg (fun h => hq (hr.2 h))]
      rw [odds, floop_cons, pathBody_exec cx L k p i ft to a mr u fo x f0 f d t w e0 e1 hu hd hF hC, Network.convertLoop]
      simp only [er]
      py_simp
      py_go
      refine ih (i + 2) rest _ to to _ _ _ e2 h3 (by omega) (fun _ => rfl) (fun y z => ?_) ?_ ?_
      · unfold reqDict; py_simp
      · unfold pathRest; py_simp [get_set_miss, hF]
      · unfold pathRest; py_simp [get_set_miss, hC]

theorem validPath_length {p : List Addr} (h : Network.validPath p = true) : ∃ a rest m, p = a :: rest ∧ rest.length = 2 * m ∧ p.length = 2 * m + 1 := by
  unfold Network.validPath at h
  simp only [Bool.and_eq_true, decide_eq_true_eq] at h
  match p, h with
  | a :: rest, h => 
    simp only [List.length_cons] at h
    exact ⟨a, rest, rest.length / 2, rfl, by omega, by simp only [List.length_cons]; omega⟩

theorem quote_body : tNetwork_getExpectedReturnByPath.body =
   (.assign (.name "converted_path") (.meth (.name "self") "_convert_path" ⟪.name "_path"⟫) ;;
    .expr (.meth (.name "self") "_require_valid_path" ⟪.name "converted_path"⟫) ;;
    .expr (.fn "require_positive_value" ⟪.name "_amount"⟫) ;;
    .assign (.name "amount") (.name "_amount") ;;
    .assign (.name "from_token_address") (.index (.name "converted_path") (.num 0)) ;;
    .for_ "i" (.fn "range" ⟪.num 1, .fn "len" ⟪.name "converted_path"⟫, .num 2⟫) quoteBody ;;
    .ret (.name "amount")) := by krefl
theorem quote_params : tNetwork_getExpectedReturnByPath.params = [("_path", none), ("_amount", none)] := rfl

theorem inv_quote (h : 3 ≤ n) (s : List Char) (a : Int) :
    invoke (Cx.of cx "Network" L) n "Network" (some "Network") tNetwork_getExpectedReturnByPath [.text s, .int a] w =
      opt (Network.getExpectedReturnByPath cx s a) w >>- fun p => some (.int p.1, p.2) := by
  rw [invoke_pos _ (by omega), quote_body, quote_params]
  unfold Network.getExpectedReturnByPath Network.requireValidPath
  py_simp [opt_readPath]
  cases Text.convertPath s with
  | none => rfl
  | some p =>
    py_simp
    refine ite_congr' Iff.rfl (fun hv => ?_) (fun _ => rfl)
    refine ite_congr' Iff.rfl (fun hv => ?_) (fun _ => rfl)
    obtain ⟨x, rest, m, rfl, h1, h2⟩ := validPath_length ‹_›
    have hp : pathV (x :: rest) = .list ((x :: rest).map .addr) := rfl
    have hi : pyIndex ((x :: rest).map PV.addr) 0 = some (.addr x) := rfl
    have hr : range 1 ((x :: rest).length : Int) 2 = some (odds 1 m) := by rw [h2]; exact range_odds m
    have hl := quoteLoop cx L (invoke (Cx.of cx "Network" L) (n - 1)) (.text s) a (x :: rest) m 1 rest a x [] w rfl h1 rfl rfl
    py_simp [hp, hi, hr, List.length_map, len_list]
    refine (andThen_assoc _ _ _).symm.trans ((congrArg (· >>- _) hl).trans ?_)
    py_simp
    rfl

theorem byPath_body : tNetwork__convert_by_path.body =
   (.assign (.name "to_token_address") (.name "ZERO_SCORE_ADDRESS") ;;
    .assign (.name "from_token_address") (.index (.name "path") (.num 0)) ;;
    .assign (.name "from_token") (.meth (.name "self") "create_interface_score" ⟪.name "from_token_address", .name "IRCToken"⟫) ;;
    .assign (.name "data") (.fn "dict" ⟪⟫) ;;
    .for_ "i" (.fn "range" ⟪.num 1, .fn "len" ⟪.name "path"⟫, .num 2⟫) pathBody ;;
    .ret (.tuple ⟪.name "to_token_address", .name "amount"⟫)) := by krefl
theorem byPath_params : tNetwork__convert_by_path.params = [("path", none), ("amount", none), ("min_return", none), ("_for", none)] := rfl

@[py] theorem builtin_dict (s : Addr) : builtin s w "dict" [] = some (.dict []) := rfl

theorem inv_byPath (h : 1 ≤ n) (x : Addr) (rest : List Addr) (hv : Network.validPath (x :: rest) = true) (a m : Int) (u fo : PV)
    (hu : toJVal u = some (.int m)) :
    invoke (Cx.of cx "Network" L) n "Network" (some "Network") tNetwork__convert_by_path [pathV (x :: rest), .int a, u, fo] w =
      opt (Network.convertLoop cx m x rest a) w >>- fun p => some (.tuple [.addr p.1.1, .int p.1.2], p.2) := by
  rw [invoke_pos _ (by omega), byPath_body, byPath_params]
  obtain ⟨_, _, k, e, h1, h2⟩ := validPath_length hv
  obtain ⟨rfl, rfl⟩ := e
  have hk : 3 ≤ (x :: rest).length := by
    unfold Network.validPath at hv
    simp only [Bool.and_eq_true, decide_eq_true_eq] at hv
    omega
  have hp : pathV (x :: rest) = .list ((x :: rest).map .addr) := rfl
  have hi : pyIndex ((x :: rest).map PV.addr) 0 = some (.addr x) := rfl
  have hr : range 1 ((x :: rest).length : Int) 2 = some (odds 1 k) := by rw [h2]; exact range_odds k
  have hl := pathLoop cx L (invoke (Cx.of cx "Network" L) (n - 1)) (x :: rest) m u fo x hu k 1 rest a Verif.ZERO x [] [] w rfl h1 (by omega)
    (by omega) (fun y z => by py_simp) rfl rfl
  py_simp [hp, hi, hr, List.length_map, len_list]
  refine (andThen_assoc _ _ _).symm.trans ((congrArg (· >>- _) hl).trans ?_)
  py_simp
  rfl

@[py] theorem inv_forInternal (h : 2 ≤ n) (p : List Addr) (hv : Network.validPath p = true) (a m : Int) (u : PV) (fo : Addr)
    (hu : toJVal u = some (.int m)) :
    invoke (Cx.of cx "Network" L) n "Network" (some "Network") tNetwork__convert_for_internal [pathV p, .int a, u, .addr fo] w =
      opt (Network.convertForInternal cx p a m fo) w >>- fun p => some (.int p.1, p.2) := by
  obtain ⟨x, rest, k, rfl, h1, h2⟩ := validPath_length hv
  unfold Network.convertForInternal
  py_start tNetwork__convert_for_internal [inv_byPath _ _ _ _ _ _ hv _ _ _ _ hu]
  py_go

theorem inv_register (h : 3 ≤ n) (a : Addr) (b : Bool) :
    invoke (Cx.of cx "Network" L) n "Network" (some "Network") tNetwork_registerIcxToken [.addr a, .bool b] w =
      opt (Network.registerIcxToken cx a b) w >>- fun p => some (.none, p.2) := by
  py_start tNetwork_registerIcxToken [Network.registerIcxToken]
  py_go

theorem inv_registered (h : 1 ≤ n) (a : Addr) :
    invoke (Cx.of cx "Network" L) n "Network" (some "Network") tNetwork_getIcxTokenRegistered [.addr a] w =
      some (.bool (w.net cx.self a), w) := by
  py_start tNetwork_getIcxTokenRegistered

@[py] theorem inv_convertFor (h : 3 ≤ n) (s : List Char) (m : Int) (fo : Addr) :
    invoke (Cx.of cx "Network" L) n "Network" (some "Network") tNetwork_convertFor [.text s, .int m, .addr fo] w =
      opt (Network.convertFor cx s m fo) w >>- fun p => some (.int p.1, p.2) := by
  have hu : toJVal (.int m) = some (.int m) := rfl
  unfold Network.convertFor Network.requireValidPath
  py_start tNetwork_convertFor [opt_readPath]
  cases Text.convertPath s with
  | none => rfl
  | some p =>
    py_simp
    refine ite_congr' Iff.rfl (fun hv => ?_) (fun _ => rfl)
    obtain ⟨x, rest, k, rfl, h1, h2⟩ := validPath_length hv
    have hp : pathV (x :: rest) = .list ((x :: rest).map .addr) := rfl
    have hi : pyIndex ((x :: rest).map PV.addr) 0 = some (.addr x) := rfl
    have hf : ∀ w, invoke (Cx.of cx "Network" L) (n - 1) "Network" (some "Network") tNetwork__convert_for_internal
        [.list ((x :: rest).map .addr), .int cx.fr.value, .int m, .addr fo] w =
        opt (Network.convertForInternal cx (x :: rest) cx.fr.value m fo) w >>- fun p => some (.int p.1, p.2) :=
      fun w => inv_forInternal cx L w (by omega) _ hv _ _ _ _ hu
    py_simp [hp, hi, hf]
    py_go [hp, hi, hf]

theorem inv_convertN (h : 4 ≤ n) (s : List Char) (m : Int) :
    invoke (Cx.of cx "Network" L) n "Network" (some "Network") tNetwork_convert [.text s, .int m] w =
      opt (Network.convert cx s m) w >>- fun p => some (.int p.1, p.2) := by
  py_start tNetwork_convert [Network.convert]
  py_go

/-! ### Requests to the network -/

theorem any_map (fs : List (String × JVal)) (x : String) :
    ((fs.map fun p => (p.1, ofJVal p.2)).any fun p => p.1 = x) = (fs.lookup x).isSome := by
  induction fs with
  | nil => rfl
  | cons p fs ih =>
    obtain ⟨y, v⟩ := p
    by_cases h : y = x
    · subst h; simp [List.lookup]
    · have : (x == y) = false := by simpa using fun e => h e.symm
      rw [List.map_cons, List.any_cons, ih, List.lookup, this]
      simp [h]

theorem inv_convertPath_not (cx : Cx) (h : 1 ≤ n) (j : JVal) (hj : ∀ s, j ≠ .str s) :
    invoke cx n "Network" (some "Network") tNetwork__convert_path [ofJVal j] w = none := by
  cases j
  case str s => exact absurd rfl (hj s)
  all_goals
    py_start tNetwork__convert_path [ofJVal]
    rfl

/-- What `_convert_bytes_data` answers. -/
def bytesDict (p : List Addr) (u : PV) (f : Addr) : PV := .dict [("path", pathV p), ("minReturn", u), ("for", .addr f)]

/-- A text in JSON. -/
def jText : JVal → Option (List Char)
  | .str s => some s
  | _ => none
/-- The receiver named by a request. -/
def forAddr (a : Addr) : Option JVal → Option Addr
  | none => some a
  | some .null => some a
  | some (.str s) => Text.toAddr s
  | some _ => none

/-- What `_convert_bytes_data` computes. -/
def bytesPV (d : Data) (a : Addr) : Option (List Addr × PV × Addr) := match d with
  | .json fs => fs.lookup "path" >>- fun j => jText j >>- fun s => Text.convertPath s >>- fun p => fs.lookup "minReturn" >>- fun m =>
      if (num (ofJVal m)).isSome then forAddr a (fs.lookup "for") >>- fun f => some (p, ofJVal m, f) else none
  | _ => none

theorem bytesPV_model (d : Data) (a : Addr) : match bytesPV d a with
    | none => Network.convertBytesData d a = none
    | some (p, u, f) => ∃ m, Network.convertBytesData d a = some (p, m, f) ∧ toJVal u = some (.int m) ∧ IsNum u m := by
  cases d with
  | json fs =>
    simp only [bytesPV, Network.convertBytesData]
    cases fs.lookup "path" with
    | none => rfl
    | some j => cases j with
      | str s =>
        cases fs.lookup "minReturn" with
        | none => simp only [andThen, jText]; cases Text.convertPath s <;> exact trivial
        | some m =>
          simp only [andThen, jText]
          cases Text.convertPath s with
          | none => rfl
          | some p =>
            cases hf : fs.lookup "for" with
            | none => cases m <;> first | rfl | exact ⟨_, rfl, rfl, ⟨rfl, fun _ => rfl⟩⟩
            | some g =>
              cases g with
              | str g =>
                simp only [forAddr]
                cases Text.toAddr g with
                | none => cases m <;> rfl
                | some g => cases m <;> first | rfl | exact ⟨_, rfl, rfl, ⟨rfl, fun _ => rfl⟩⟩
              | _ => cases m <;> first | rfl | exact ⟨_, rfl, rfl, ⟨rfl, fun _ => rfl⟩⟩
      | _ => cases fs.lookup "minReturn" <;> rfl
  | _ => rfl

theorem inv_bytes (h : 2 ≤ n) (d : Data) (a : Addr) :
    invoke (Cx.of cx "Network" L) n "Network" (some "Network") tNetwork__convert_bytes_data [.bytes d, .addr a] w =
      bytesPV d a >>- fun r => some (bytesDict r.1 r.2.1 r.2.2, w) := by
  py_start tNetwork__convert_bytes_data [Bool.and_self, reverts]
  by_cases hd : ∃ fs, d = .json fs
  · obtain ⟨fs, rfl⟩ := hd
    unfold bytesPV
    cases h1 : fs.lookup "path" with
    | none => py_simp [lookup_map, h1]
    | some j =>
      by_cases hj : ∃ s, j = .str s
      · obtain ⟨s, rfl⟩ := hj
        have ej : ofJVal (.str s) = .text s := rfl
        cases h3 : Text.convertPath s with
        | none => py_simp [lookup_map, h1, ej, h3, jText]
        | some p =>
          cases h2 : fs.lookup "minReturn" with
          | none => py_simp [lookup_map, h1, h2, ej, h3, jText]
          | some m =>
            py_simp [lookup_map, h1, h2, ej, h3, jText]
            refine ite_congr' Iff.rfl (fun _ => ?_) (fun _ => rfl)
            have hin : isIn (.str "for") (.dict (fs.map fun p => (p.1, ofJVal p.2))) = some (fs.lookup "for").isSome := by
              rw [← any_map]; rfl
            cases hf : fs.lookup "for" with
            | none =>
              py_simp [hin, hf, Option.isSome_none, forAddr]
              rfl
            | some g =>
              have hg := lookup_map fs "for"
              rw [hf] at hg
              cases g with
              | null =>
                have : ofJVal .null = .none := rfl
                py_simp [hin, hf, hg, Option.isSome_some, forAddr, this]
                rfl
              | str t =>
                have : ofJVal (.str t) = .text t := rfl
                py_simp [hin, hf, hg, Option.isSome_some, forAddr, this]
                py_go
                rfl
              | int x =>
                have : ofJVal (.int x) = .int x := rfl
                py_simp [hin, hf, hg, Option.isSome_some, forAddr, this]
                rfl
              | bool x =>
                have : ofJVal (.bool x) = .bool x := rfl
                py_simp [hin, hf, hg, Option.isSome_some, forAddr, this]
                rfl
              | float x =>
                have : ofJVal (.float x) = .float x := rfl
                py_simp [hin, hf, hg, Option.isSome_some, forAddr, this]
                rfl
              | other =>
                have : ofJVal .other = .other := rfl
                py_simp [hin, hf, hg, Option.isSome_some, forAddr, this]
                rfl
      · have hc := fun w => inv_convertPath_not w (n := n - 1) (Cx.of cx "Network" L) (by omega) j (fun s e => hj ⟨s, e⟩)
        have : jText j = none := by cases j <;> first | rfl | exact absurd ⟨_, rfl⟩ hj
        py_simp [lookup_map, h1, this, hc]
  · rw [show bytesPV d a = none by cases d <;> first | rfl | exact absurd ⟨_, rfl⟩ hd]
    py_simp [loads_not _ _ d (fun fs e => hd ⟨fs, e⟩)]

theorem inv_netFallback (h : 3 ≤ n) (a : Addr) (v : Int) (d : Data) :
    invoke (Cx.of cx "Network" L) n "Network" (some "Network") tNetwork_tokenFallback [.addr a, .int v, .bytes d] w =
      opt (Network.tokenFallback cx a v d) w >>- fun p => some (.none, p.2) := by
  have hb := bytesPV_model d a
  unfold Network.tokenFallback Network.requireValidPath
  by_cases hd : d = .conversionResult
  · py_start tNetwork_tokenFallback [hd]
  · cases hq : bytesPV d a with
    | none =>
      rw [hq] at hb
      rw [hb]
      py_start tNetwork_tokenFallback [hd, inv_bytes, hq]
    | some r =>
      obtain ⟨p, u, f⟩ := r
      rw [hq] at hb
      obtain ⟨m, hm, hu, hn⟩ := hb
      rw [hm]
      py_start tNetwork_tokenFallback [hd, inv_bytes, hq]
      have hg1 : Env.get [("path", pathV p), ("minReturn", u), ("for", PV.addr f)] "path" = some (.list (p.map .addr)) := by py_simp; rfl
      have hg2 : Env.get [("path", pathV p), ("minReturn", u), ("for", PV.addr f)] "minReturn" = some u := by py_simp
      have hg3 : Env.get [("path", pathV p), ("minReturn", u), ("for", PV.addr f)] "for" = some (.addr f) := by py_simp
      unfold bytesDict
      cases p with
      | nil =>
        have : pyIndex (([] : List Addr).map PV.addr) 0 = none := rfl
        py_simp [hg1, this]
        rw [if_neg (by simp)]
      | cons x rest =>
        have hi : pyIndex ((x :: rest).map PV.addr) 0 = some (.addr x) := rfl
        py_simp [hg1, hg2, hg3, hi, List.head?_cons, Option.some.injEq]
        refine ite_congr' Iff.rfl (fun _ => ?_) (fun _ => rfl)
        have hp := fun w => inv_positive' w (n := n - 1) (Cx.of cx "Network" L) (by omega) u m hn
        have hv : ∀ w, invoke (Cx.of cx "Network" L) (n - 1) "Network" (some "Network") tNetwork__require_valid_path
            [.list ((x :: rest).map .addr)] w = if Network.validPath (x :: rest) = true then some (.none, w) else none :=
          fun w => inv_validPath w (Cx.of cx "Network" L) (by omega) (x :: rest)
        py_simp [hp, hg1, hg2, hg3, hv]
        refine ite_congr' Iff.rfl (fun _ => ?_) (fun _ => rfl)
        refine ite_congr' Iff.rfl (fun _ => rfl) (fun _ => ?_)
        refine ite_congr' Iff.rfl (fun hv => ?_) (fun _ => rfl)
        have hf : ∀ w, invoke (Cx.of cx "Network" L) (n - 1) "Network" (some "Network") tNetwork__convert_for_internal
            [.list ((x :: rest).map .addr), .int v, u, .addr f] w =
            opt (Network.convertForInternal cx (x :: rest) v m f) w >>- fun p => some (.int p.1, p.2) :=
          fun w => inv_forInternal cx L w (by omega) _ hv _ _ _ _ hu
        py_simp [hf, hg1, hg2, hg3]
        py_go

end Verif.Src

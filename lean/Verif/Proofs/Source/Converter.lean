import Verif.Proofs.Source.Controller
import Verif.Proofs.Source.Formula
/-!
The methods of contracts/converter/converter.py that compute prices and convert, and its views.
-/
set_option autoImplicit false
namespace Verif.Src
attribute [local irreducible] glob find findNext function const mroOf ifaceHas fields cfields Verif.ZERO

variable (cx : Ctx) (L : Nat) {n : Nat} (w : World)

/-- A number an answer holds. -/
def vInt : Val → Option Int
  | .int n => some n
  | .bool b => some (if b then 1 else 0)
  | _ => none
@[py] theorem answer_supply' (v : Val) : answer "totalSupply" v = vInt v >>- fun n => some (.int n) := by cases v <;> rfl
@[py] theorem answer_balance' (v : Val) : answer "balanceOf" v = vInt v >>- fun n => some (.int n) := by cases v <;> rfl
@[py] theorem opt_asInt (v : Val) : opt (asInt v) w = vInt v >>- fun n => some (n, w) := by cases v <;> rfl

/-- What the quote functions answer. -/
def retDict (p : Int × Int) : PV := .dict [("amount", .int p.1), ("fee", .int p.2)]

@[py] theorem inv_finalAmount (h : 1 ≤ n) (a m : Int) :
    invoke (Cx.of cx "Converter" L) n "Converter" (some "Converter") tConverter_getFinalAmount [.int a, .int m] w =
      opt (Converter.getFinalAmount cx a m) w >>- fun p => some (.int p.1, p.2) := by
  unfold Converter.getFinalAmount Converter.finalAmount
  by_cases hm : m < 0
  · py_start tConverter_getFinalAmount [hm]
    rfl
  · have hp : (0 : Int) < Converter.MAX_CONVERSION_FEE ^ m.toNat := Int.pow_pos (by decide)
    py_start tConverter_getFinalAmount [hm, fdiv_pos _ hp]
    rfl

@[py] theorem inv_connectorBalance (h : 3 ≤ n) (a : Addr) :
    invoke (Cx.of cx "Converter" L) n "Converter" (some "Converter") tConverter_getConnectorBalance [.addr a] w =
      opt (Converter.getConnectorBalance cx a) w >>- fun p => some (.int p.1, p.2) := by
  py_start tConverter_getConnectorBalance [Converter.getConnectorBalance]
  py_go

@[py] theorem opt_finish (a m : Int) : opt (Converter.finish cx a m) w = opt (Converter.getFinalAmount cx a m) w >>- fun p =>
    if a < p.1 then none else some ((p.1, a - p.1), p.2) := by
  unfold Converter.finish Converter.safeSub
  py_simp
  py_go

@[py] theorem inv_purchaseReturn (h : 5 ≤ n) (hL : 96 ≤ (Cx.of cx "Converter" L).loops) (a : Addr) (v : Int) (b : Bool) :
    invoke (Cx.of cx "Converter" L) n "Converter" (some "Converter") tConverter_get_purchase_return [.addr a, .int v, .bool b] w =
      opt (Converter.getPurchaseReturn cx a v b) w >>- fun p => some (retDict p.1, p.2) := by
  cases b
  · py_start tConverter_get_purchase_return [Converter.getPurchaseReturn, pairs, retDict]
    py_go [pairs, retDict]
  · py_start tConverter_get_purchase_return [Converter.getPurchaseReturn, pairs, retDict]
    py_go [pairs, retDict]

@[py] theorem inv_purchaseReturn' (h : 5 ≤ n) (hL : 96 ≤ (Cx.of cx "Converter" L).loops) (a : Addr) (v : Int) :
    invoke (Cx.of cx "Converter" L) n "Converter" (some "Converter") tConverter_get_purchase_return [.addr a, .int v] w =
      opt (Converter.getPurchaseReturn cx a v false) w >>- fun p => some (retDict p.1, p.2) := by
  py_start tConverter_get_purchase_return [Converter.getPurchaseReturn, pairs, retDict]
  py_go [pairs, retDict]

@[py] theorem inv_saleReturn (h : 5 ≤ n) (hL : 96 ≤ (Cx.of cx "Converter" L).loops) (a : Addr) (v : Int) :
    invoke (Cx.of cx "Converter" L) n "Converter" (some "Converter") tConverter_get_sale_return [.addr a, .int v] w =
      opt (Converter.getSaleReturn cx a v) w >>- fun p => some (retDict p.1, p.2) := by
  py_start tConverter_get_sale_return [Converter.getSaleReturn, pairs, retDict]
  py_go [pairs, retDict]

@[py] theorem inv_crossReturn (h : 5 ≤ n) (hL : 96 ≤ (Cx.of cx "Converter" L).loops) (a a' : Addr) (v : Int) (b : Bool) :
    invoke (Cx.of cx "Converter" L) n "Converter" (some "Converter") tConverter_get_cross_connector_return [.addr a, .addr a', .int v, .bool b] w =
      opt (Converter.getCrossConnectorReturn cx a a' v b) w >>- fun p => some (retDict p.1, p.2) := by
  cases b
  · py_start tConverter_get_cross_connector_return [Converter.getCrossConnectorReturn, pairs, retDict]
    py_go [pairs, retDict]
  · py_start tConverter_get_cross_connector_return [Converter.getCrossConnectorReturn, pairs, retDict]
    py_go [pairs, retDict]

@[py] theorem inv_crossReturn' (h : 5 ≤ n) (hL : 96 ≤ (Cx.of cx "Converter" L).loops) (a a' : Addr) (v : Int) :
    invoke (Cx.of cx "Converter" L) n "Converter" (some "Converter") tConverter_get_cross_connector_return [.addr a, .addr a', .int v] w =
      opt (Converter.getCrossConnectorReturn cx a a' v false) w >>- fun p => some (retDict p.1, p.2) := by
  py_start tConverter_get_cross_connector_return [Converter.getCrossConnectorReturn, pairs, retDict]
  py_go [pairs, retDict]

theorem inv_getReturn (h : 6 ≤ n) (hL : 96 ≤ (Cx.of cx "Converter" L).loops) (a a' : Addr) (v : Int) :
    invoke (Cx.of cx "Converter" L) n "Converter" (some "Converter") tConverter_getReturn [.addr a, .addr a', .int v] w =
      opt (Converter.getReturn cx a a' v) w >>- fun p => some (retDict p.1, p.2) := by
  py_start tConverter_getReturn [Converter.getReturn]
  py_go

/-! ### Conversions -/

/-- A value that compares like a number. -/
structure IsNum (v : PV) (m : Int) : Prop where
  gt : order .gt v (.int 0) = some (decide (m > 0))
  ge : ∀ r : Int, order .ge (.int r) v = some (decide (r ≥ m))

@[py] theorem opt_safeSub (a b : Int) : opt (Converter.safeSub a b) w = if a < b then none else some (a - b, w) := by
  unfold Converter.safeSub
  py_simp

theorem send_none (cx : Cx) (k : Invoke) (c i : String) :
    send cx k "create_interface_score" [.none, .iclass i] w (.obj c) = none := rfl

@[py] theorem inv_buy (h : 6 ≤ n) (hL : 96 ≤ (Cx.of cx "Converter" L).loops) (t a : Addr) (v m : Int) (u : PV) (hu : IsNum u m) :
    invoke (Cx.of cx "Converter" L) n "Converter" (some "Converter") tConverter__buy [.addr t, .addr a, .int v, u] w =
      opt (Converter.buy cx t a v m) w >>- fun p => some (.int p.1, p.2) := by
  py_start tConverter__buy [Converter.buy]
  refine andThen_congr rfl fun p => ?_
  obtain ⟨⟨r, f⟩, w1⟩ := p
  have on : optAddr none = PV.none := rfl
  cases ht : (w1.conv cx.fr.to).token
  · py_simp [retDict, hu.ge, Converter.creditVirtual, ht, on, send_none]
    try py_go
  · py_simp [retDict, hu.ge, Converter.creditVirtual, Converter.priceDataUpdate, ht]
    py_go [Converter.creditVirtual, Converter.priceDataUpdate]

@[py] theorem inv_sell (h : 6 ≤ n) (hL : 96 ≤ (Cx.of cx "Converter" L).loops) (t a : Addr) (v m : Int) (u : PV) (hu : IsNum u m) :
    invoke (Cx.of cx "Converter" L) n "Converter" (some "Converter") tConverter__sell [.addr t, .addr a, .int v, u] w =
      opt (Converter.sell cx t a v m) w >>- fun p => some (.int p.1, p.2) := by
  py_start tConverter__sell [Converter.sell]
  refine andThen_congr rfl fun p => ?_
  obtain ⟨⟨r, f⟩, w1⟩ := p
  have on : optAddr none = PV.none := rfl
  cases ht : (w1.conv cx.fr.to).token
  · py_simp [retDict, hu.ge, ht, on, send_none]
  · py_simp [retDict, hu.ge, Converter.debitVirtual, Converter.priceDataUpdate, ht]
    py_go [Converter.debitVirtual, Converter.priceDataUpdate]

@[py] theorem inv_crossConv (h : 6 ≤ n) (hL : 96 ≤ (Cx.of cx "Converter" L).loops) (t a a' : Addr) (v m : Int) (u : PV) (hu : IsNum u m) :
    invoke (Cx.of cx "Converter" L) n "Converter" (some "Converter") tConverter__convert_cross_connector [.addr t, .addr a, .addr a', .int v, u] w =
      opt (Converter.convertCrossConnector cx t a a' v m) w >>- fun p => some (.int p.1, p.2) := by
  py_start tConverter__convert_cross_connector [Converter.convertCrossConnector]
  refine andThen_congr rfl fun p => ?_
  obtain ⟨⟨r, f⟩, w1⟩ := p
  py_simp [retDict, hu.ge, Converter.debitVirtual, Converter.creditVirtual]
  py_go [Converter.debitVirtual, Converter.creditVirtual]

theorem inv_positive' (cx : Cx) (h : 2 ≤ n) (u : PV) (m : Int) (hu : IsNum u m) :
    invoke cx n "" none f_require_positive_value [u] w = if m > 0 then some (.none, w) else none := by
  py_start f_require_positive_value [hu.gt]

theorem inv_convert (h : 7 ≤ n) (hL : 96 ≤ (Cx.of cx "Converter" L).loops) (t a a' : Addr) (v m : Int) (u : PV) (hu : IsNum u m) :
    invoke (Cx.of cx "Converter" L) n "Converter" (some "Converter") tConverter__convert [.addr t, .addr a, .addr a', .int v, u] w =
      opt (Converter.convert cx t a a' v m) w >>- fun p => some (.int p.1, p.2) := by
  py_start tConverter__convert [Converter.convert, inv_positive' _ _ _ u m hu, inv_buy _ _ _ _ hL t a v m u hu,
    inv_sell _ _ _ _ hL t a' v m u hu, inv_crossConv _ _ _ _ hL t a a' v m u hu]
  py_go

/-! ### `tokenFallback` -/

theorem lookup_map (fs : List (String × JVal)) (x : String) : Env.get (fs.map fun p => (p.1, ofJVal p.2)) x = (fs.lookup x).map ofJVal := by
  induction fs with
  | nil => rfl
  | cons p fs ih =>
    obtain ⟨y, v⟩ := p
    by_cases h : y = x
    · subst h; simp [Env.get, List.lookup]
    · have : (x == y) = false := by simpa using fun e => h e.symm
      rw [List.map_cons, get_miss _ _ h, List.lookup, this, ih]

theorem isNum_of (j : JVal) (m : Int) (h : j.asNumber = some m) : IsNum (ofJVal j) m := by
  cases j <;> simp [JVal.asNumber] at h
  all_goals subst h
  all_goals exact ⟨rfl, fun r => rfl⟩

theorem isNum_not (j : JVal) (h : j.asNumber = none) : order .gt (ofJVal j) (.int 0) = none := by
  cases j <;> simp [JVal.asNumber] at h
  all_goals rfl

theorem inv_positive_none (cx : Cx) (h : 2 ≤ n) (u : PV) (hu : order .gt u (.int 0) = none) :
    invoke cx n "" none f_require_positive_value [u] w = none := by
  py_start f_require_positive_value [hu]

theorem inv_convert_none (h : 7 ≤ n) (t a a' : Addr) (v : Int) (u : PV) (hu : order .gt u (.int 0) = none) :
    invoke (Cx.of cx "Converter" L) n "Converter" (some "Converter") tConverter__convert [.addr t, .addr a, .addr a', .int v, u] w = none := by
  py_start tConverter__convert [inv_positive_none _ _ _ u hu]
  split <;> rfl

/-- What `tokenFallback` does with a request. -/
def requestBody : Stmt :=
  .assign (.name "registry") (.meth (.name "self") "create_interface_score" ⟪.meth (.attr (.name "self") "_registry") "get" ⟪⟫, .name "ScoreRegistry"⟫) ;;
  .assign (.name "network") (.meth (.name "registry") "getAddress" ⟪.attr (.name "ScoreRegistry") "NETWORK"⟫) ;;
  .expr (.fn "require" ⟪.cmp .eq (.name "_from") (.name "network"), .str "'trader' must be network only"⟫) ;;
  .try_ (.assign (.name "conversion_params") (.fn "json_loads" ⟪.meth (.name "_data") "decode" ⟪.str "utf-8"⟫⟫) ;;
    .assign (.name "to_token") (.meth (.name "Address") "from_string" ⟪.index (.name "conversion_params") (.str "toToken")⟫) ;;
    .assign (.name "min_return") (.index (.name "conversion_params") (.str "minReturn")) ;;
    .ret (.meth (.name "self") "_convert" ⟪.name "_from", .name "from_token", .name "to_token", .name "_value", .name "min_return"⟫))
    (.expr (.fn "revert" ⟪.fn "str" ⟪.name "e"⟫⟫))

/-- The same of the model. -/
def requestM (a : Addr) (v : Int) (d : Data) : M Val := do
    match ((← get).conv cx.self).registry with
    | none => fail (.python "None has no address")
    | some registry =>
      let network ← cx.call registry 0 (.getAddress ScoreRegistry.NETWORK)
      require (network.isAddr a = true) "'trader' must be network only"
      match Converter.parseRequest d with
      | none => fail (.revert "cannot parse")
      | some (toToken, minReturn) =>
        let r ← Converter.convert cx a cx.sender toToken v minReturn
        pure (.int r)

@[py] theorem reverts_revert (l : Expr) : reverts (.expr (.fn "revert" l)) = true := by simp [reverts]
@[py] theorem loads_json (s : Addr) (fs : List (String × JVal)) :
    builtin s w "json_loads" [.decoded (.json fs)] = some (.dict (fs.map fun p => (p.1, ofJVal p.2))) := rfl
theorem loads_not (s : Addr) (d : Data) (h : ∀ fs, d ≠ .json fs) : builtin s w "json_loads" [.decoded d] = none := by
  cases d
  case json fs => exact absurd rfl (h fs)
  all_goals rfl

theorem request_exec (h : 7 ≤ n) (hL : 96 ≤ (Cx.of cx "Converter" L).loops) (a : Addr) (v : Int) (d : Data) :
    execS (Cx.of cx "Converter" L) (invoke (Cx.of cx "Converter" L) n) "Converter" requestBody
      [("self", .obj "Converter"), ("_from", .addr a), ("_value", .int v), ("_data", .bytes d), ("from_token", .addr cx.fr.sender)] w =
    opt (requestM cx a v d) w >>- fun p => some (.ret (ofVal p.1), p.2) := by
  unfold requestBody requestM
  py_simp
  cases (w.conv cx.fr.to).registry with
  | none => rfl
  | some r =>
    py_simp
    refine andThen_congr rfl fun p => ?_
    py_simp
    refine ite_congr' Iff.rfl (fun _ => ?_) (fun _ => rfl)
    by_cases hd : ∃ fs, d = .json fs
    · obtain ⟨fs, rfl⟩ := hd
      cases h1 : fs.lookup "toToken" with
      | none =>
        rw [show Converter.parseRequest (.json fs) = none by simp [Converter.parseRequest, h1]]
        py_simp [lookup_map, h1]
      | some j =>
        by_cases hj : ∃ s, j = .str s
        · obtain ⟨s, rfl⟩ := hj
          have ej : ofJVal (.str s) = .text s := rfl
          cases h3 : Text.toAddr s with
          | none =>
            rw [show Converter.parseRequest (.json fs) = none by
              simp only [Converter.parseRequest, h1]; cases fs.lookup "minReturn" <;> simp [h3]]
            py_simp [lookup_map, h1, ej, h3]
          | some t =>
            cases h2 : fs.lookup "minReturn" with
            | none =>
              rw [show Converter.parseRequest (.json fs) = none by simp [Converter.parseRequest, h1, h2]]
              py_simp [lookup_map, h1, h2, ej, h3]
            | some m =>
              cases hm : m.asNumber with
              | none =>
                rw [show Converter.parseRequest (.json fs) = none by simp [Converter.parseRequest, h1, h2, h3, hm]]
                py_simp [lookup_map, h1, h2, ej, h3, inv_convert_none _ _ _ h _ _ _ _ _ (isNum_not m hm)]
              | some k =>
                rw [show Converter.parseRequest (.json fs) = some (t, k) by simp [Converter.parseRequest, h1, h2, h3, hm]]
                py_simp [lookup_map, h1, h2, ej, h3, inv_convert _ _ _ h hL _ _ _ _ _ _ (isNum_of m k hm)]
                py_go [ofVal]
        · rw [show Converter.parseRequest (.json fs) = none by
            simp only [Converter.parseRequest, h1]; cases j <;> first | (exact absurd ⟨_, rfl⟩ hj) | (cases fs.lookup "minReturn" <;> rfl)]
          have : ∀ w, send (Cx.of cx "Converter" L) (invoke (Cx.of cx "Converter" L) n) "from_string" [ofJVal j] w (.cls "Address") = none := by
            intro w; cases j <;> first | (exact absurd ⟨_, rfl⟩ hj) | rfl
          py_simp [lookup_map, h1, this]
    · rw [show Converter.parseRequest d = none by cases d <;> first | rfl | exact absurd ⟨_, rfl⟩ hd]
      py_simp [loads_not _ _ d (fun fs e => hd ⟨fs, e⟩)]

theorem convFallback_body : tConverter_tokenFallback.body =
   (.expr (.fn "require_positive_value" ⟪.name "_value"⟫) ;;
    .assign (.name "from_token") (.attr (.attr (.name "self") "msg") "sender") ;;
    .ite (.and_ (.or_ (.cmp .eq (.name "_from") (.meth (.name "self") "getOwner" ⟪⟫)) (.cmp .eq (.name "_from") (.attr (.name "self") "getManager"))) (.and_ (.meth (.attr (.index (.attr (.name "self") "_connectors") (.name "from_token")) "is_set") "get" ⟪⟫) (.not_ (.meth (.name "self") "_is_active" ⟪⟫))))
      .pass requestBody) := by krefl
theorem convFallback_params : tConverter_tokenFallback.params = [("_from", none), ("_value", none), ("_data", none)] := rfl

theorem inv_convFallback (h : 8 ≤ n) (hL : 96 ≤ (Cx.of cx "Converter" L).loops) (a : Addr) (v : Int) (d : Data) :
    invoke (Cx.of cx "Converter" L) n "Converter" (some "Converter") tConverter_tokenFallback [.addr a, .int v, .bytes d] w =
      opt (Converter.tokenFallback cx a v d) w >>- fun p => some (ofVal p.1, p.2) := by
  have e : Converter.tokenFallback cx a v d = (do
    require (v > 0) "Amount should be greater than 0"
    let accept ← Converter.acceptsDeposit cx a
    if accept then pure .unit else requestM cx a v d) := rfl
  rw [invoke_pos _ (by omega), convFallback_body, convFallback_params, e]
  have hr := request_exec cx L (n := n - 1) (h := by omega) (hL := hL) (a := a) (v := v) (d := d)
  unfold Converter.acceptsDeposit
  by_cases h1 : some a = (w.own cx.fr.to).owner
  · by_cases h2 : ((w.conv cx.fr.to).connectors cx.fr.sender).isSet = true
    · py_simp [h1, h2, hr, true_or, and_self]
      py_go [hr]
      all_goals py_simp [hr, ofVal]
    · py_simp [h1, h2, hr, true_or, and_false]
      try py_go [hr]
  · py_simp [h1, hr, false_or, false_and]
    try py_go [hr]

end Verif.Src

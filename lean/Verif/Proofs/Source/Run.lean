import Verif.Proofs.Source.Find
import Verif.Model.Source.Machine
/-!
Symbolic execution of the source text, side by side with the model.
-/
set_option autoImplicit false
set_option linter.style.nameCheck false
namespace Verif.Src

@[py] theorem of_fr (cx : Ctx) (c : String) (L : Nat) : (Cx.of cx c L).fr = cx.fr := rfl
@[py] theorem of_cls (cx : Ctx) (c : String) (L : Nat) : (Cx.of cx c L).cls = c := rfl
@[py] theorem of_loops (cx : Ctx) (c : String) (L : Nat) : (Cx.of cx c L).loops = L := rfl
@[py] theorem of_call (cx : Ctx) (c : String) (L : Nat) (a : Addr) (v : Int) (k : Call) (w : World) :
    (Cx.of cx c L).call a v k w = opt (cx.call a v k) w := rfl

section
variable {α β γ : Type}

theorem andThen_congr_left {x y : Option α} {f : α → Option β} (h : x = y) : (x >>- f) = (y >>- f) := by rw [h]
theorem andThen_congr {x y : Option α} {f g : α → Option β} (hx : x = y) (h : ∀ a, f a = g a) : (x >>- f) = (y >>- g) := by
  rw [hx, funext h]
theorem andThen_some (a : α) (f : α → Option β) : (some a >>- f) = f a := rfl
theorem andThen_none (f : α → Option β) : (none >>- f) = none := rfl
theorem andThen_assoc (x : Option α) (f : α → Option β) (g : β → Option γ) :
    (x >>- f >>- g) = x >>- fun a => f a >>- g := by cases x <;> rfl
theorem andThen_ite (p : Prop) [Decidable p] (x y : Option α) (f : α → Option β) :
    ((if p then x else y) >>- f) = if p then x >>- f else y >>- f := by split <;> rfl
theorem andThen_fail (x : Option α) (f : α → Option β) (h : ∀ a, f a = none) : (x >>- f) = none := by
  cases x
  · rfl
  · exact h _
theorem fail_andThen (x : Option α) (f : α → Option β) (h : ∀ a, f a = none) : none = (x >>- f) := (andThen_fail x f h).symm
theorem ite_congr' {p q : Prop} [Decidable p] [Decidable q] {x y x' y' : Option α} (h : p ↔ q) (hx : q → x = x') (hy : ¬ q → y = y') :
    (if p then x else y) = if q then x' else y' := by
  by_cases hq : q
  · rw [if_pos (h.2 hq), if_pos hq, hx hq]
  · rw [if_neg (fun h' => hq (h.1 h')), if_neg hq, hy hq]

@[py] theorem opt_bind (m : M α) (f : α → M β) (w : World) : opt (m >>= f) w = opt m w >>- fun p => opt (f p.1) p.2 := by
  show opt (fun w => (m w) >>= fun p => f p.1 p.2) w = _
  unfold opt
  cases h : m w <;> simp [bind, Except.bind, andThen, h]
@[py] theorem opt_map (m : M α) (f : α → β) (w : World) : opt (f <$> m) w = opt m w >>- fun p => some (f p.1, p.2) := by
  show opt (StateT.map f m) w = _
  unfold opt StateT.map
  cases h : m w <;> simp [bind, Except.bind, andThen, pure, Except.pure, h]
@[py] theorem opt_pure (a : α) (w : World) : opt (pure a : M α) w = some (a, w) := rfl
@[py] theorem opt_get (w : World) : opt (get : M World) w = some (w, w) := rfl
@[py] theorem opt_modify (f : World → World) (w : World) : opt (modify f : M Unit) w = some ((), f w) := rfl
@[py] theorem opt_fail (e : Err) (w : World) : opt (fail e : M α) w = none := rfl
@[py] theorem opt_require (c : Prop) [Decidable c] (s : String) (w : World) :
    opt (require c s) w = if c then some ((), w) else none := by
  unfold require; split <;> rfl
@[py] theorem opt_ite (p : Prop) [Decidable p] (a b : M α) (w : World) : opt (if p then a else b) w = if p then opt a w else opt b w := by
  split <;> rfl
@[py] theorem opt_emit (a : Addr) (e : Event) (w : World) : opt (emit a e) w = some ((), w.addLog a e) := rfl
@[py] theorem opt_modTok (a : Addr) (g : TokSt → TokSt) (w : World) : opt (modTok a g) w = some ((), w.setTok a (g (w.tok a))) := rfl
@[py] theorem opt_modOwn (a : Addr) (g : OwnSt → OwnSt) (w : World) : opt (modOwn a g) w = some ((), w.setOwn a (g (w.own a))) := rfl
@[py] theorem opt_modFlex (a : Addr) (g : FlexSt → FlexSt) (w : World) : opt (modFlex a g) w = some ((), w.setFlex a (g (w.flex a))) := rfl
@[py] theorem opt_modConv (a : Addr) (g : ConvSt → ConvSt) (w : World) : opt (modConv a g) w = some ((), w.setConv a (g (w.conv a))) := rfl
@[py] theorem opt_setEntry (a : Addr) (n : String) (v : Option Addr) (w : World) :
    opt (ScoreRegistry.setEntry a n v) w = some ((), w.setReg a (upd (w.reg a) n v)) := rfl
/-- A result of the formula, with all failures identified. -/
def optE : Except Err α → Option α
  | .ok a => some a
  | .error _ => none
@[py] theorem opt_liftE (e : Except Err α) (w : World) : opt (liftE e) w = optE e >>- fun a => some (a, w) := by cases e <;> rfl
end

section
theorem upd_upd {α β : Type} [DecidableEq α] (f : α → β) (a : α) (x y : β) : upd (upd f a x) a y = upd f a y := by
  funext z; unfold upd; split <;> rfl
theorem upd_self {α β : Type} [DecidableEq α] (f : α → β) (a : α) (x : β) : upd f a x a = x := by unfold upd; simp
attribute [py] upd_upd upd_self
variable (w : World) (a : Addr)
@[py] theorem setTok_setTok (x y : TokSt) : (w.setTok a x).setTok a y = w.setTok a y := by simp [World.setTok, upd_upd]
@[py] theorem setOwn_setOwn (x y : OwnSt) : (w.setOwn a x).setOwn a y = w.setOwn a y := by simp [World.setOwn, upd_upd]
@[py] theorem setFlex_setFlex (x y : FlexSt) : (w.setFlex a x).setFlex a y = w.setFlex a y := by simp [World.setFlex, upd_upd]
@[py] theorem setConv_setConv (x y : ConvSt) : (w.setConv a x).setConv a y = w.setConv a y := by simp [World.setConv, upd_upd]
@[py] theorem tok_setTok (x : TokSt) : (w.setTok a x).tok a = x := upd_self ..
@[py] theorem own_setOwn (x : OwnSt) : (w.setOwn a x).own a = x := upd_self ..
@[py] theorem flex_setFlex (x : FlexSt) : (w.setFlex a x).flex a = x := upd_self ..
@[py] theorem conv_setConv (x : ConvSt) : (w.setConv a x).conv a = x := upd_self ..
@[py] theorem own_setTok (x : TokSt) : (w.setTok a x).own = w.own := rfl
@[py] theorem flex_setTok (x : TokSt) : (w.setTok a x).flex = w.flex := rfl
@[py] theorem conv_setTok (x : TokSt) : (w.setTok a x).conv = w.conv := rfl
@[py] theorem tok_setOwn (x : OwnSt) : (w.setOwn a x).tok = w.tok := rfl
@[py] theorem flex_setOwn (x : OwnSt) : (w.setOwn a x).flex = w.flex := rfl
@[py] theorem conv_setOwn (x : OwnSt) : (w.setOwn a x).conv = w.conv := rfl
@[py] theorem own_setFlex (x : FlexSt) : (w.setFlex a x).own = w.own := rfl
@[py] theorem own_setConv (x : ConvSt) : (w.setConv a x).own = w.own := rfl
@[py] theorem tok_setConv (x : ConvSt) : (w.setConv a x).tok = w.tok := rfl
variable (e : Event)
@[py] theorem tok_addLog : (w.addLog a e).tok = w.tok := rfl
@[py] theorem own_addLog : (w.addLog a e).own = w.own := rfl
@[py] theorem flex_addLog : (w.addLog a e).flex = w.flex := rfl
@[py] theorem conv_addLog : (w.addLog a e).conv = w.conv := rfl
@[py] theorem reg_addLog : (w.addLog a e).reg = w.reg := rfl
@[py] theorem addLog_setOwn (b : Addr) (x : OwnSt) : (w.addLog a e).setOwn b x = (w.setOwn b x).addLog a e := rfl
@[py] theorem addLog_setConv (b : Addr) (x : ConvSt) : (w.addLog a e).setConv b x = (w.setConv b x).addLog a e := rfl
end

/-! ### Values that are not literals -/

@[py] theorem pyEq_addr_opt (a : Addr) (o : Option Addr) : pyEq (.addr a) (optAddr o) = some (decide (some a = o)) := by
  cases o <;> simp [optAddr, pyEq]
@[py] theorem pyEq_opt_addr (a : Addr) (o : Option Addr) : pyEq (optAddr o) (.addr a) = some (decide (o = some a)) := by
  cases o <;> simp [optAddr, pyEq]
@[py] theorem isNone_opt (o : Option Addr) : isNone (optAddr o) = decide (o = none) := by cases o <;> simp [optAddr, isNone]
@[py] theorem asOptAddr_opt (o : Option Addr) : asOptAddr (optAddr o) = some o := by cases o <;> rfl
@[py] theorem asOptAddr_addr (a : Addr) : asOptAddr (.addr a) = some (some a) := rfl
@[py] theorem asOptAddr_none : asOptAddr .none = some none := rfl
@[py] theorem asOptAddr_int (n : Int) : asOptAddr (.int n) = none := rfl
@[py] theorem asOptAddr_bool (b : Bool) : asOptAddr (.bool b) = none := rfl
@[py] theorem asOptAddr_str (s : String) : asOptAddr (.str s) = none := rfl
@[py] theorem asOptAddr_list (l : List PV) : asOptAddr (.list l) = none := rfl
@[py] theorem asOptAddr_dict (l : List (String × PV)) : asOptAddr (.dict l) = none := rfl
@[py] theorem isNone_addr (a : Addr) : isNone (.addr a) = false := rfl
@[py] theorem isNone_none : isNone .none = true := rfl
@[py] theorem isNone_bytes (d : Data) : isNone (.bytes d) = false := rfl
@[py] theorem optAddr_some (a : Addr) : optAddr (some a) = .addr a := rfl
@[py] theorem truth_bool (b : Bool) : truth (.bool b) = some b := rfl
@[py] theorem num_int (n : Int) : num (.int n) = some n := rfl

theorem pyEq_int (a b : Int) : pyEq (.int a) (.int b) = some (decide (a = b)) := rfl
theorem pyEq_addr (a b : Addr) : pyEq (.addr a) (.addr b) = some (decide (a = b)) := rfl
theorem pyEq_bool (a b : Bool) : pyEq (.bool a) (.bool b) = some (decide (a = b)) := rfl
theorem pyEq_bytes (a b : Data) : pyEq (.bytes a) (.bytes b) = some (decide (a = b)) := rfl
theorem pyEq_str (a b : String) : pyEq (.str a) (.str b) = some (decide (a = b)) := rfl
theorem pyEq_addr_method (a : Addr) : pyEq (.addr a) .method = some false := rfl
attribute [py] pyEq_int pyEq_addr pyEq_bool pyEq_bytes pyEq_str pyEq_addr_method

@[py] theorem order_lt (a b : Int) : order .lt (.int a) (.int b) = some (decide (a < b)) := rfl
@[py] theorem order_le (a b : Int) : order .le (.int a) (.int b) = some (decide (a ≤ b)) := rfl
@[py] theorem order_gt (a b : Int) : order .gt (.int a) (.int b) = some (decide (a > b)) := rfl
@[py] theorem order_ge (a b : Int) : order .ge (.int a) (.int b) = some (decide (a ≥ b)) := rfl
@[py] theorem compare_eq (a b : PV) : compare .eq a b = pyEq a b := rfl
@[py] theorem compare_ne (a b : PV) : compare .ne a b = pyEq a b >>- fun r => some (!r) := rfl
@[py] theorem compare_is (a : PV) : compare .is a .none = some (isNone a) := rfl
@[py] theorem compare_isNot (a : PV) : compare .isNot a .none = some (!isNone a) := rfl
@[py] theorem compare_in (a b : PV) : compare .in_ a b = isIn a b := rfl
@[py] theorem compare_notIn (a b : PV) : compare .notIn a b = isIn a b >>- fun r => some (!r) := rfl
@[py] theorem compare_lt (a b : PV) : compare .lt a b = order .lt a b := rfl
@[py] theorem compare_le (a b : PV) : compare .le a b = order .le a b := rfl
@[py] theorem compare_gt (a b : PV) : compare .gt a b = order .gt a b := rfl
@[py] theorem compare_ge (a b : PV) : compare .ge a b = order .ge a b := rfl

@[py] theorem bytesLit_none : bytesLit "None" = some .noneBytes := by decide
@[py] theorem bytesLit_res : bytesLit "conversionResult" = some .conversionResult := by decide

theorem invoke_pos (cx : Cx) {n : Nat} (h : 1 ≤ n) (here : String) (self : Option String) (d : Def) (args : List PV) (w : World) :
    invoke cx n here self d args w =
      bindParams d.params args >>- fun env => execS cx (invoke cx (n - 1)) here d.body (selfVar self ++ env) w >>- fun p =>
        match p.1 with
        | .next _ => some (.none, p.2)
        | .ret v => some (v, p.2) := by
  obtain ⟨m, rfl⟩ : ∃ m, n = m + 1 := ⟨n - 1, by omega⟩
  rfl

@[py] theorem get_hit (x : String) (v : PV) (r : Env) : Env.get ((x, v) :: r) x = some v := by simp [Env.get]
@[py] theorem get_miss {x y : String} (v : PV) (r : Env) (h : y ≠ x) : Env.get ((y, v) :: r) x = Env.get r x := by simp [Env.get, h]
@[py] theorem get_nil (x : String) : Env.get [] x = none := rfl
@[py] theorem set_hit (x : String) (v u : PV) (r : Env) : Env.set ((x, u) :: r) x v = (x, v) :: r := by simp [Env.set]
@[py] theorem set_miss {x y : String} (v u : PV) (r : Env) (h : y ≠ x) : Env.set ((y, u) :: r) x v = (y, u) :: Env.set r x v := by
  simp [Env.set, h]
@[py] theorem set_nil (x : String) (v : PV) : Env.set [] x v = [(x, v)] := rfl
@[py] theorem revert_none (s : Addr) (w : World) (l : List PV) : builtin s w "revert" l = none := rfl
/-! ### Attributes -/
section
variable (cx : Cx) (c : String)
@[py] theorem attr_address : getAttr cx (.obj c) "address" = some (.addr cx.fr.to) := rfl
@[py] theorem attr_msg : getAttr cx (.obj c) "msg" = some .msg := rfl
@[py] theorem attr_icx : getAttr cx (.obj c) "icx" = some .icx := rfl
@[py] theorem attr_maxExp : getAttr cx (.obj c) "_max_exp_array" = some .expArray := rfl
@[py] theorem attr_sender : getAttr cx .msg "sender" = some (.addr cx.fr.sender) := rfl
@[py] theorem attr_value : getAttr cx .msg "value" = some (.int cx.fr.value) := rfl
@[py] theorem attr_isContract (a : Addr) : getAttr cx (.addr a) "is_contract" = some (.bool a.isContract) := rfl
@[py] theorem attr_iclass (f : String) : getAttr cx (.iclass c) f = const c f := rfl
theorem attr_other {f : String} (h : fields.lookup f = none) (h1 : f ≠ "address") (h2 : f ≠ "msg") (h3 : f ≠ "icx")
    (h4 : f ≠ "_max_exp_array") : getAttr cx (.obj c) f = match const c f with
        | some v => some v
        | none => if (find c f).isSome then some .method else none := by
  simp [getAttr, h, h1, h2, h3, h4]
  rfl
@[py] theorem attr__owner : getAttr cx (.obj c) "_owner" = some (.field .owner) := rfl
@[py] theorem attr__new_owner : getAttr cx (.obj c) "_new_owner" = some (.field .newOwner) := rfl
@[py] theorem attr__manager : getAttr cx (.obj c) "_manager" = some (.field .manager) := rfl
@[py] theorem attr__new_manager : getAttr cx (.obj c) "_new_manager" = some (.field .newManager) := rfl
@[py] theorem attr__name : getAttr cx (.obj c) "_name" = some (.field .name) := rfl
@[py] theorem attr__symbol : getAttr cx (.obj c) "_symbol" = some (.field .symbol) := rfl
@[py] theorem attr__decimals : getAttr cx (.obj c) "_decimals" = some (.field .decimals) := rfl
@[py] theorem attr__total_supply : getAttr cx (.obj c) "_total_supply" = some (.field .totalSupply) := rfl
@[py] theorem attr__balances : getAttr cx (.obj c) "_balances" = some (.field .balances) := rfl
@[py] theorem attr__version : getAttr cx (.obj c) "_version" = some (.field .version) := rfl
@[py] theorem attr__transfer_possibility : getAttr cx (.obj c) "_transfer_possibility" = some (.field .transferPossibility) := rfl
@[py] theorem attr__token : getAttr cx (.obj c) "_token" = some (.field .token) := rfl
@[py] theorem attr__allow_registry_update : getAttr cx (.obj c) "_allow_registry_update" = some (.field .allowRegistryUpdate) := rfl
@[py] theorem attr__prev_registry : getAttr cx (.obj c) "_prev_registry" = some (.field .prevRegistry) := rfl
@[py] theorem attr__registry : getAttr cx (.obj c) "_registry" = some (.field .registry) := rfl
@[py] theorem attr__connector_tokens : getAttr cx (.obj c) "_connector_tokens" = some (.field .connectorTokens) := rfl
@[py] theorem attr__total_connector_weight : getAttr cx (.obj c) "_total_connector_weight" = some (.field .totalConnectorWeight) := rfl
@[py] theorem attr__max_conversion_fee : getAttr cx (.obj c) "_max_conversion_fee" = some (.field .maxConversionFee) := rfl
@[py] theorem attr__conversion_fee : getAttr cx (.obj c) "_conversion_fee" = some (.field .conversionFee) := rfl
@[py] theorem attr__conversions_enabled : getAttr cx (.obj c) "_conversions_enabled" = some (.field .conversionsEnabled) := rfl
@[py] theorem attr__connectors : getAttr cx (.obj c) "_connectors" = some (.field .connectors) := rfl
@[py] theorem attr__score_address : getAttr cx (.obj c) "_score_address" = some (.field .scoreAddress) := rfl
@[py] theorem attr__icx_tokens : getAttr cx (.obj c) "_icx_tokens" = some (.field .icxTokens) := rfl
@[py] theorem attr_virtual_balance (a : Addr) : getAttr cx (.conn a) "virtual_balance" = some (.cfield a .virtualBalance) := rfl
@[py] theorem attr_weight (a : Addr) : getAttr cx (.conn a) "weight" = some (.cfield a .weight) := rfl
@[py] theorem attr_is_virtual_balance_enabled (a : Addr) : getAttr cx (.conn a) "is_virtual_balance_enabled" = some (.cfield a .isVirtual) := rfl
@[py] theorem attr_is_purchase_enabled (a : Addr) : getAttr cx (.conn a) "is_purchase_enabled" = some (.cfield a .isPurchaseEnabled) := rfl
@[py] theorem attr_is_set (a : Addr) : getAttr cx (.conn a) "is_set" = some (.cfield a .isSet) := rfl
@[py] theorem attr_ScoreRegistry_SCORE_REGISTRY : getAttr cx (.obj "ScoreRegistry") "SCORE_REGISTRY" = some (.str "ScoreRegistry") := by
  rw [attr_other cx _ (by simp only [py]) (by decide) (by decide) (by decide) (by decide)]; simp only [py]
@[py] theorem attr_ScoreRegistry_SCORE_KEYS : getAttr cx (.obj "ScoreRegistry") "SCORE_KEYS" = some (.list [.str "ScoreRegistry", .str "Network"]) := by
  rw [attr_other cx _ (by simp only [py]) (by decide) (by decide) (by decide) (by decide)]; simp only [py]
@[py] theorem attr_FlexibleToken__VERSION : getAttr cx (.obj "FlexibleToken") "_VERSION" = some (.str "0.1") := by
  rw [attr_other cx _ (by simp only [py]) (by decide) (by decide) (by decide) (by decide)]; simp only [py]
@[py] theorem attr_Converter__REVISION : getAttr cx (.obj "Converter") "_REVISION" = some (.int 0) := by
  rw [attr_other cx _ (by simp only [py]) (by decide) (by decide) (by decide) (by decide)]; simp only [py]
@[py] theorem attr_Converter__MAX_WEIGHT : getAttr cx (.obj "Converter") "_MAX_WEIGHT" = some (.int Converter.MAX_WEIGHT) := by
  rw [attr_other cx _ (by simp only [py]) (by decide) (by decide) (by decide) (by decide)]; simp only [py]; rfl
@[py] theorem attr_Converter__MAX_CONVERSION_FEE : getAttr cx (.obj "Converter") "_MAX_CONVERSION_FEE" = some (.int Converter.MAX_CONVERSION_FEE) := by
  rw [attr_other cx _ (by simp only [py]) (by decide) (by decide) (by decide) (by decide)]; simp only [py]; rfl
@[py] theorem attr_Network__MAX_CONVERSION_COUNT : getAttr cx (.obj "Network") "_MAX_CONVERSION_COUNT" = some (.int 10) := by
  rw [attr_other cx _ (by simp only [py]) (by decide) (by decide) (by decide) (by decide)]; simp only [py]
@[py] theorem attr_FixedMapFormula__ONE : getAttr cx (.obj "FixedMapFormula") "_ONE" = some (.int Formula.ONE) := by
  rw [attr_other cx _ (by simp only [py]) (by decide) (by decide) (by decide) (by decide)]; simp only [py]; rfl
@[py] theorem attr_FixedMapFormula__MAX_WEIGHT : getAttr cx (.obj "FixedMapFormula") "_MAX_WEIGHT" = some (.int Formula.MAX_WEIGHT) := by
  rw [attr_other cx _ (by simp only [py]) (by decide) (by decide) (by decide) (by decide)]; simp only [py]; rfl
@[py] theorem attr_FixedMapFormula__MIN_PRECISION : getAttr cx (.obj "FixedMapFormula") "_MIN_PRECISION" = some (.int (Formula.MIN_PRECISION : Nat)) := by
  rw [attr_other cx _ (by simp only [py]) (by decide) (by decide) (by decide) (by decide)]; simp only [py]; rfl
@[py] theorem attr_FixedMapFormula__MAX_PRECISION : getAttr cx (.obj "FixedMapFormula") "_MAX_PRECISION" = some (.int (Formula.MAX_PRECISION : Nat)) := by
  rw [attr_other cx _ (by simp only [py]) (by decide) (by decide) (by decide) (by decide)]; simp only [py]; rfl
@[py] theorem attr_FixedMapFormula__FIXED_1 : getAttr cx (.obj "FixedMapFormula") "_FIXED_1" = some (.int Formula.FIXED_1) := by
  rw [attr_other cx _ (by simp only [py]) (by decide) (by decide) (by decide) (by decide)]; simp only [py]; rfl
@[py] theorem attr_FixedMapFormula__FIXED_2 : getAttr cx (.obj "FixedMapFormula") "_FIXED_2" = some (.int Formula.FIXED_2) := by
  rw [attr_other cx _ (by simp only [py]) (by decide) (by decide) (by decide) (by decide)]; simp only [py]; rfl
@[py] theorem attr_FixedMapFormula__MAX_NUM : getAttr cx (.obj "FixedMapFormula") "_MAX_NUM" = some (.int Formula.MAX_NUM) := by
  rw [attr_other cx _ (by simp only [py]) (by decide) (by decide) (by decide) (by decide)]; simp only [py]; rfl
@[py] theorem attr_FixedMapFormula__LN2_NUMERATOR : getAttr cx (.obj "FixedMapFormula") "_LN2_NUMERATOR" = some (.int Formula.LN2_NUMERATOR) := by
  rw [attr_other cx _ (by simp only [py]) (by decide) (by decide) (by decide) (by decide)]; simp only [py]; rfl
@[py] theorem attr_FixedMapFormula__LN2_DENOMINATOR : getAttr cx (.obj "FixedMapFormula") "_LN2_DENOMINATOR" = some (.int Formula.LN2_DENOMINATOR) := by
  rw [attr_other cx _ (by simp only [py]) (by decide) (by decide) (by decide) (by decide)]; simp only [py]; rfl
@[py] theorem attr_FixedMapFormula__OPT_LOG_MAX_VAL : getAttr cx (.obj "FixedMapFormula") "_OPT_LOG_MAX_VAL" = some (.int Formula.OPT_LOG_MAX_VAL) := by
  rw [attr_other cx _ (by simp only [py]) (by decide) (by decide) (by decide) (by decide)]; simp only [py]; rfl
@[py] theorem attr_FixedMapFormula__OPT_EXP_MAX_VAL : getAttr cx (.obj "FixedMapFormula") "_OPT_EXP_MAX_VAL" = some (.int Formula.OPT_EXP_MAX_VAL) := by
  rw [attr_other cx _ (by simp only [py]) (by decide) (by decide) (by decide) (by decide)]; simp only [py]; rfl
@[py] theorem attr_getManager : getAttr cx (.obj "Converter") "getManager" = some .method := by
  rw [attr_other cx _ (by simp only [py]) (by decide) (by decide) (by decide) (by decide)]; simp only [py]; rfl
end

/-! ### Calls -/
section
variable (cx : Cx) (k : Invoke) (w : World) (c m : String) (args : List PV)
@[py] theorem send_obj (h : m ≠ "create_interface_score") : send cx k m args w (.obj c) = runFound cx k c m args w (find c m) := if_neg h
@[py] theorem create_addr (i : String) (a : Addr) :
    send cx k "create_interface_score" [.addr a, .iclass i] w (.obj c) = some (.iface a i, w) := rfl
@[py] theorem create_addr' (i : String) (a : Addr) :
    send cx k "create_interface_score" [.addr a, .cls i] w (.obj c) = some (.iface a i, w) := rfl
@[py] theorem create_opt (i : String) (o : Option Addr) :
    send cx k "create_interface_score" [optAddr o, .iclass i] w (.obj c) = o >>- fun a => some (.iface a i, w) := by
  cases o <;> rfl
@[py] theorem send_logger : send cx k m args w (.cls "Logger") = some (.none, w) := rfl
@[py] theorem send_base : send cx k m args w (.cls "IconScoreBase") = some (.none, w) := rfl
@[py] theorem send_fromString (s : List Char) :
    send cx k "from_string" [.text s] w (.cls "Address") = Text.toAddr s >>- fun a => some (.addr a, w) := rfl
@[py] theorem send_cls (o : String) (h1 : c ≠ "Logger") (h2 : c ≠ "Address") (h3 : c ≠ "IconScoreBase") :
    send cx k m (.obj o :: args) w (.cls c) = runFound cx k o m args w (find c m) := by
  unfold send; simp [h1, h2, h3]
@[py] theorem send_get (f : Field) : send cx k "get" args w (.field f) = getField cx.fr.to w f >>- fun v => some (v, w) := rfl
@[py] theorem send_set (f : Field) (v : PV) :
    send cx k "set" [v] w (.field f) = setField cx.fr.to w f v >>- fun w' => some (.none, w') := rfl
@[py] theorem send_put (a : Addr) : send cx k "put" [.addr a] w (.field .connectorTokens) = some (.none, w.setConv cx.fr.to
          { w.conv cx.fr.to with connectorTokens := (w.conv cx.fr.to).connectorTokens ++ [a] }) := rfl
@[py] theorem send_cget (a : Addr) (f : CField) : send cx k "get" args w (.cfield a f) = some (getCField cx.fr.to w a f, w) := rfl
@[py] theorem send_cset (a : Addr) (f : CField) (v : PV) :
    send cx k "set" [v] w (.cfield a f) = setCField cx.fr.to w a f v >>- fun w' => some (.none, w') := rfl
@[py] theorem send_icx (a : Addr) (v : Int) :
    send cx k "transfer" [.addr a, .int v] w .icx = cx.call a v .fallback w >>- fun p => some (.none, p.2) := rfl
@[py] theorem send_iface (a : Addr) (h : ifaceHas c m = true) : send cx k m args w (.iface a c) =
    mkCall m args >>- fun call => cx.call a 0 call w >>- fun p => answer m p.1 >>- fun v => some (v, p.2) := if_pos h
@[py] theorem send_split (s : List Char) :
    send cx k "split" [.str ","] w (.text s) = some (.list ((Text.splitComma s).map .text), w) := rfl
@[py] theorem send_strip (s : List Char) : send cx k "strip" [] w (.text s) = some (.text (Text.strip s), w) := rfl
@[py] theorem send_decode (d : Data) : send cx k "decode" [.str "utf-8"] w (.bytes d) = some (.decoded d, w) := rfl
@[py] theorem send_encode (d : Data) : send cx k "encode" [.str "utf-8"] w (.decoded d) = some (.bytes d, w) := rfl
@[py] theorem runFound_none : runFound cx k c m args w none = none := rfl
@[py] theorem runFound_event {h : String} {d : Def} (e : d.event = true) :
    runFound cx k c m args w (some (h, d)) = mkEvent m args >>- fun e => some (.none, w.addLog cx.fr.to e) := if_pos e
@[py] theorem runFound_method {h : String} {d : Def} (e : d.event = false) :
    runFound cx k c m args w (some (h, d)) = k h (some c) d args w := if_neg (by rw [e]; decide)
end
theorem answer_supply (w : World) (v : Val) : answer "totalSupply" v = opt (asInt v) w >>- fun p => some (.int p.1) := by cases v <;> rfl
theorem answer_balance (w : World) (v : Val) : answer "balanceOf" v = opt (asInt v) w >>- fun p => some (.int p.1) := by cases v <;> rfl
@[py] theorem answer_other {m : String} (v : Val) (h1 : m ≠ "totalSupply") (h2 : m ≠ "balanceOf") : answer m v = some (ofVal v) := by
  unfold answer; rw [if_neg (by simp [h1, h2])]
@[py] theorem mkCall_0  : mkCall "totalSupply" [] = some .totalSupply := rfl
@[py] theorem mkCall_1 (a : Addr) : mkCall "balanceOf" [.addr a] = some (.balanceOf a) := rfl
@[py] theorem mkCall_2 (a : Addr) (v : Int) : mkCall "transfer" [.addr a, .int v] = some (.transfer a v none) := rfl
@[py] theorem mkCall_3 (a : Addr) (v : Int) (d : Data) : mkCall "transfer" [.addr a, .int v, .bytes d] = some (.transfer a v (some d)) := rfl
@[py] theorem mkCall_4 (a : Addr) (v : Int) (d : Data) : mkCall "tokenFallback" [.addr a, .int v, .bytes d] = some (.tokenFallback a v d) := rfl
@[py] theorem mkCall_5  : mkCall "getOwner" [] = some .getOwner := rfl
@[py] theorem mkCall_6 (a : Addr) : mkCall "transferOwnerShip" [.addr a] = some (.transferOwnerShip a) := rfl
@[py] theorem mkCall_7  : mkCall "acceptOwnerShip" [] = some .acceptOwnerShip := rfl
@[py] theorem mkCall_8 (b : Bool) : mkCall "disableTransfer" [.bool b] = some (.disableTransfer b) := rfl
@[py] theorem mkCall_9 (a : Addr) (b : Addr) (v : Int) : mkCall "withdrawTokens" [.addr a, .addr b, .int v] = some (.withdrawTokens a b v) := rfl
@[py] theorem mkCall_10 (a : Addr) (v : Int) : mkCall "issue" [.addr a, .int v] = some (.issue a v) := rfl
@[py] theorem mkCall_11 (a : Addr) (v : Int) : mkCall "destroy" [.addr a, .int v] = some (.destroy a v) := rfl
@[py] theorem mkCall_12 (s : String) : mkCall "getAddress" [.str s] = some (.getAddress s) := rfl
@[py] theorem mkCall_13 (a : Addr) (b : Addr) (v : Int) : mkCall "getReturn" [.addr a, .addr b, .int v] = some (.getReturn a b v) := rfl
@[py] theorem mkCall_14 (v : Int) (a : Addr) : mkCall "withdrawTo" [.int v, .addr a] = some (.withdrawTo v a) := rfl
@[py] theorem mkEvent_0 (a : Addr) (b : Addr) (v : Int) (d : Data) : mkEvent "Transfer" [.addr a, .addr b, .int v, .bytes d] = some (.Transfer a b v d) := rfl
@[py] theorem mkEvent_1 (a : Addr) : mkEvent "NewFlexibleToken" [.addr a] = some (.NewFlexibleToken a) := rfl
@[py] theorem mkEvent_2 (v : Int) : mkEvent "Issuance" [.int v] = some (.Issuance v) := rfl
@[py] theorem mkEvent_3 (v : Int) : mkEvent "Destruction" [.int v] = some (.Destruction v) := rfl
@[py] theorem mkEvent_4 (a b : PV) : mkEvent "OwnerUpdate" [a, b] = asOptAddr a >>- fun a => asOptAddr b >>- fun b => some (.OwnerUpdate a b) := rfl
@[py] theorem mkEvent_5 (a b : PV) : mkEvent "ManagerUpdate" [a, b] = asOptAddr a >>- fun a => asOptAddr b >>- fun b => some (.ManagerUpdate a b) := rfl
@[py] theorem mkEvent_6 (a : Addr) (b : Addr) (c : Addr) (v : Int) (r : Int) (f : Int) : mkEvent "Conversion" [.addr a, .addr b, .addr c, .int v, .int r, .int f] = some (.Conversion a b c v r f) := rfl
@[py] theorem mkEvent_7 (a : Addr) (s : Int) (b : Int) (wt : Int) : mkEvent "PriceDataUpdate" [.addr a, .int s, .int b, .int wt] = some (.PriceDataUpdate a s b wt) := rfl
@[py] theorem mkEvent_8 (a : Int) (b : Int) : mkEvent "ConversionFeeUpdate" [.int a, .int b] = some (.ConversionFeeUpdate a b) := rfl
@[py] theorem mkEvent_9 (b : Bool) : mkEvent "ConversionsEnable" [.bool b] = some (.ConversionsEnable b) := rfl
@[py] theorem mkEvent_10 (s : String) (a : Addr) : mkEvent "AddressUpdate" [.str s, .addr a] = some (.AddressUpdate s a) := rfl

@[py] theorem valid_addr (a : Addr) : (isValidAddress (some a) = true) = ¬ a = ZERO := by
  simp [isValidAddress]
section
variable (s : Addr) (w : World)
@[py] theorem fn_ProxyScore' (c : String) : builtin s w "ProxyScore" [.cls c] = some (.iclass c) := rfl
@[py] theorem fn_len' (v : PV) : builtin s w "len" [v] = len s w v := rfl
@[py] theorem fn_range' (a b d : Int) : builtin s w "range" [.int a, .int b, .int d] = (range a b d).map .list := rfl
@[py] theorem fn_enumerate' (l : List PV) : builtin s w "enumerate" [.list l] = some (.list (l.zipIdx.map fun p => .tuple [.int p.2, p.1])) := rfl
@[py] theorem fn_dict' : builtin s w "dict" [] = some (.dict []) := rfl
@[py] theorem fn_dumps' (d : List (String × PV)) : builtin s w "json_dumps" [.dict d] = (toFields d).map fun fs => .decoded (.json fs) := rfl
@[py] theorem fn_str' (a : Addr) : builtin s w "str" [.addr a] = some (.text (Text.ofAddr a)) := rfl
@[py] theorem fn_isinstance' (v : PV) : builtin s w "isinstance" [v, .cls "int"] = some (.bool (num v).isSome) := rfl
end

/-! ### Arithmetic -/

/-- Division by a positive number. -/
theorem fdiv_pos (a : Int) {b : Int} (h : 0 < b) : arith .fdiv a b = some (a / b) := by
  simp only [arith]
  rw [if_neg (by omega), Int.fdiv_eq_ediv_of_nonneg _ (by omega)]

theorem mod_pos (a : Int) {b : Int} (h : 0 < b) : arith .mod a b = some (a % b) := by
  simp only [arith]
  rw [if_neg (by omega), Int.fmod_eq_emod_of_nonneg _ (by omega)]

@[py] theorem shr_nat (a : Int) (b : Nat) : arith .shr a (b : Int) = some (a >>> b) := by
  simp only [arith]
  rw [if_neg (by omega), Int.toNat_natCast]

@[py] theorem shl_nat (a : Int) (b : Nat) : arith .shl a (b : Int) = some (a * 2 ^ b) := by
  simp only [arith]
  rw [if_neg (by omega), Int.toNat_natCast]

@[py] theorem binop_int (o : Op) (a b : Int) : binop o (.int a) (.int b) = arith o a b >>- fun r => some (.int r) := rfl
@[py] theorem arith_add (a b : Int) : arith .add a b = some (a + b) := rfl
@[py] theorem arith_sub (a b : Int) : arith .sub a b = some (a - b) := rfl
@[py] theorem arith_mul (a b : Int) : arith .mul a b = some (a * b) := rfl
@[py] theorem pow_any (a b : Int) : arith .pow a b = if b < 0 then none else some (a ^ b.toNat) := rfl
theorem fdiv_any (a b : Int) : arith .fdiv a b = if b = 0 then none else some (a.fdiv b) := rfl


section
variable {p q : Prop} [Decidable p] [Decidable q] {a b : Bool} {w : World}
@[py] theorem or_pq : (if p then some (PV.bool (decide p), w) else some (PV.bool (decide q), w)) = some (PV.bool (decide (p ∨ q)), w) := by
  by_cases p <;> simp [*]
@[py] theorem or_pb : (if p then some (PV.bool (decide p), w) else some (PV.bool b, w)) = some (PV.bool (decide (p ∨ b = true)), w) := by
  by_cases p <;> simp [*]
@[py] theorem or_bq : (if b = true then some (PV.bool b, w) else some (PV.bool (decide q), w)) = some (PV.bool (decide (b = true ∨ q)), w) := by
  cases b <;> simp
@[py] theorem or_bb : (if a = true then some (PV.bool a, w) else some (PV.bool b, w)) = some (PV.bool (decide (a = true ∨ b = true)), w) := by
  cases a <;> simp
@[py] theorem and_pq : (if p then some (PV.bool (decide q), w) else some (PV.bool (decide p), w)) = some (PV.bool (decide (p ∧ q)), w) := by
  by_cases p <;> simp [*]
@[py] theorem and_pb : (if p then some (PV.bool b, w) else some (PV.bool (decide p), w)) = some (PV.bool (decide (p ∧ b = true)), w) := by
  by_cases p <;> simp [*]
@[py] theorem and_bq : (if b = true then some (PV.bool (decide q), w) else some (PV.bool b, w)) = some (PV.bool (decide (b = true ∧ q)), w) := by
  cases b <;> simp
@[py] theorem and_bb : (if a = true then some (PV.bool b, w) else some (PV.bool a, w)) = some (PV.bool (decide (a = true ∧ b = true)), w) := by
  cases a <;> simp
@[py] theorem chain_pq : (if p then some (PV.bool (decide q), w) else some (PV.bool false, w)) = some (PV.bool (decide (p ∧ q)), w) := by
  by_cases p <;> simp [*]
end

section
variable {p q : Prop} [Decidable p] [Decidable q] {w : World}
@[py] theorem or_nq : (if p then some (PV.bool (decide q), w) else some (PV.bool (decide (¬ p)), w)) = some (PV.bool (decide (¬ p ∨ q)), w) := by
  by_cases p <;> simp [*]
@[py] theorem and_nq : (if p then some (PV.bool (decide (¬ p)), w) else some (PV.bool (decide q), w)) = some (PV.bool (decide (¬ p ∧ q)), w) := by
  by_cases p <;> simp [*]
theorem not_bool (b : Bool) : (!b) = decide (¬ b = true) := by cases b <;> rfl
end

attribute [py] eval execS resolve storeKey bindParams selfVar callFn store getField setField getCField setCField
  putConnector getIndex setIndex delIndex listOf default_ literal elements
  List.cons_append List.nil_append
attribute [py] Ctx.self Ctx.sender Ctx.value

/-- A `while` loop, kept in one piece. -/
def wloop (cx : Cx) (k : Invoke) (here : String) (c : Expr) (b : Stmt) (n : Nat) (env : Env) (w : World) : Option (Flow × World) :=
  whileLoop (eval cx k here c) (execS cx k here b) n env w
@[py ↓] theorem execS_while (cx : Cx) (k : Invoke) (here : String) (c : Expr) (b : Stmt) (env : Env) (w : World) :
    execS cx k here (.while_ c b) env w = wloop cx k here c b cx.loops env w := rfl
theorem wloop_succ (cx : Cx) (k : Invoke) (here : String) (c : Expr) (b : Stmt) (n : Nat) (env : Env) (w : World) :
    wloop cx k here c b (n + 1) env w = eval cx k here c env w >>- fun p => truth p.1 >>- fun t =>
      if t then execS cx k here b env p.2 >>- fun q => match q.1 with
        | .next env' => wloop cx k here c b n env' q.2
        | .ret u => some (.ret u, q.2)
      else some (.next env, p.2) := rfl

/-- A `for` loop, kept in one piece. -/
def floop (cx : Cx) (k : Invoke) (here : String) (x : String) (b : Stmt) (l : List PV) (env : Env) (w : World) : Option (Flow × World) :=
  forLoop x (execS cx k here b) l env w
@[py ↓] theorem execS_for (cx : Cx) (k : Invoke) (here : String) (x : String) (e : Expr) (b : Stmt) (env : Env) (w : World) :
    execS cx k here (.for_ x e b) env w =
      eval cx k here e env w >>- fun p => elements p.1 >>- fun l => floop cx k here x b l env p.2 := rfl
theorem floop_nil (cx : Cx) (k : Invoke) (here : String) (x : String) (b : Stmt) (env : Env) (w : World) :
    floop cx k here x b [] env w = some (.next env, w) := rfl
theorem floop_cons (cx : Cx) (k : Invoke) (here : String) (x : String) (b : Stmt) (v : PV) (l : List PV) (env : Env) (w : World) :
    floop cx k here x b (v :: l) env w = execS cx k here b (env.set x v) w >>- fun p => match p.1 with
      | .next env' => floop cx k here x b l env' p.2
      | .ret u => some (.ret u, p.2) := rfl

open Lean Meta Simp in
/-- Simplifies the first part of a sequence only, and goes on when its value is known. -/
simproc_decl headFirst (andThen _ _) := fun e => do
  let_expr f@andThen α β x g := e | return .continue
  let r ← simp x
  let fn := mkApp2 f α β
  let r ← mkCongrFun (← mkCongr { expr := fn } r) g
  let y := r.expr.appFn!.appArg!
  let go (thm : Name) (args : Array Lean.Expr) (rhs : Lean.Expr) (visit : Bool) : SimpM Step := do
    let pf := mkAppN (mkConst thm) args
    let r ← r.mkEqTrans { expr := rhs, proof? := some pf }
    return if visit then .visit r else .done r
  match_expr y with
  | Option.some _ a => go ``andThen_some #[α, β, a, g] (mkApp g a).headBeta true
  | Option.none _ => go ``andThen_none #[α, β, g] (mkApp (mkConst ``Option.none [.zero]) β) false
  | ite _ p i a b =>
    let t := mkApp5 (mkConst ``ite [.succ .zero]) (mkApp (mkConst ``Option [.zero]) β) p i (mkApp2 (mkApp2 f α β) a g) (mkApp2 (mkApp2 f α β) b g)
    go ``andThen_ite #[α, β, p, i, a, b, g] t true
  | andThen γ _ z h =>
    let t := mkApp4 f γ β z (.lam `a γ (mkApp2 fn (mkApp h (.bvar 0)).headBeta g) .default)
    go ``andThen_assoc #[γ, α, β, z, h, g] t true
  | _ => return .done r

open Lean.Parser.Tactic in
/-- One step of execution on both sides. -/
syntax "py_simp" (" [" (simpStar <|> simpErase <|> simpLemma),* "]")? : tactic
macro_rules
  | `(tactic| py_simp) => `(tactic| py_simp [])
  | `(tactic| py_simp [$ls,*]) => `(tactic| simp (disch := first | assumption | omega | simp only [ne_eq, String.reduceEq, not_false_eq_true] | (simp only [py]; done) | rfl) only [py, ↓headFirst, ↓reduceIte, reduceCtorEq, String.reduceEq,
      decide_eq_true_eq, not_bool, Bool.not_true, Bool.not_false, decide_eq_false_iff_not, Bool.false_eq_true, decide_true, decide_false,
      Option.map_some, Option.map_none, true_and, and_true, not_true_eq_false, not_false_eq_true, ite_not, ne_eq, $ls,*])

open Lean.Parser.Tactic in
/-- Enters the rest of two sequences with the same first part. -/
syntax "py_next" (" [" (simpStar <|> simpErase <|> simpLemma),* "]")? : tactic
macro_rules
  | `(tactic| py_next) => `(tactic| (refine andThen_congr rfl fun p => ?_; py_simp))
  | `(tactic| py_next [$ls,*]) => `(tactic| (refine andThen_congr rfl fun p => ?_; py_simp [$ls,*]))

open Lean.Parser.Tactic in
/-- Goes on as long as both sides do the same. -/
syntax "py_go" (" [" (simpStar <|> simpErase <|> simpLemma),* "]")? : tactic
macro_rules
  | `(tactic| py_go) => `(tactic| py_go [])
  | `(tactic| py_go [$ls,*]) => `(tactic| repeat' (first
    | with_reducible rfl
    | (refine ite_congr' Iff.rfl (fun _ => ?_) (fun _ => ?_))
    | (refine andThen_congr rfl fun p => ?_; py_simp [$ls,*])))

open Lean.Parser.Tactic in
/-- Starts the execution of a method. -/
syntax "py_start" ident (" [" (simpStar <|> simpErase <|> simpLemma),* "]")? : tactic
macro_rules
  | `(tactic| py_start $d:ident) => `(tactic| (rw [invoke_pos _ (by omega)]; simp only [$d:ident]; py_simp))
  | `(tactic| py_start $d:ident [$ls,*]) => `(tactic| (rw [invoke_pos _ (by omega)]; simp only [$d:ident]; py_simp [$ls,*]))

end Verif.Src

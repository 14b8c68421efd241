import Verif.Proofs.Source.FindNone
import Verif.Proofs.Source.Network
import Verif.Proofs.Source.Views
import Verif.Proofs.Source.Tokens
import Verif.Proofs.Source.Registry
import Verif.Proofs.Source.Controller
import Verif.Proofs.Source.Converter
/-!
The source text and the model answer every call alike.
-/
set_option autoImplicit false
set_option linter.style.nameCheck false
namespace Verif.Src
attribute [local irreducible] glob find findNext function const mroOf ifaceHas fields cfields Verif.ZERO

theorem callMethod_eq (cx : Ctx) (c : String) (L n : Nat) (w : World) : callMethod (Cx.of cx c L) n w =
    match request cx.fr.call with
    | none => none
    | some (m, args) => match find c m with
      | some (here, d) =>
        if (d.ext = true ∨ m = "fallback") ∧ (d.payable = true ∨ cx.fr.value = 0) then
          invoke (Cx.of cx c L) n here (some c) d args w >>- fun p => toVal d.answers p.1 >>- fun v => some (v, p.2)
        else none
      | none => if m = "fallback" ∧ cx.fr.value = 0 then some (.unit, w) else none := rfl

theorem nonPayable_some (cx : Ctx) (m : M Val) (w : World) :
    opt (runNonPayable cx (some m)) w = if cx.fr.value = 0 then opt m w else none := by
  unfold runNonPayable notPayable
  rw [opt_bind, opt_require]
  show (if cx.fr.value = 0 then _ else _) >>- _ = _
  split <;> rfl
theorem nonPayable_none (cx : Ctx) (w : World) :
    opt (runNonPayable cx none) w = if cx.fr.call = .fallback ∧ cx.fr.value = 0 then some (.unit, w) else none := by
  unfold runNonPayable notPayable
  rw [opt_bind, opt_require]
  show (if cx.fr.value = 0 then _ else _) >>- _ = _
  by_cases h : cx.fr.value = 0
  · rw [if_pos h, andThen_some, opt_ite]; simp only [h, and_true]; rfl
  · rw [if_neg h, andThen_none, if_neg (fun h' => h h'.2)]

theorem toVal_none (t : String) (h : t ≠ "Address") : toVal t .none = some .unit := by simp [toVal, h]
theorem toVal_int (t : String) (v : Int) : toVal t (.int v) = some (.int v) := rfl
theorem toVal_bool (t : String) (v : Bool) : toVal t (.bool v) = some (.bool v) := rfl
theorem toVal_str (t : String) (v : String) : toVal t (.str v) = some (.str v) := rfl
theorem toVal_addr (t : String) (v : Addr) : toVal t (.addr v) = some (.addr (some v)) := rfl
theorem toVal_optAddr (o : Option Addr) : toVal "Address" (optAddr o) = some (.addr o) := by cases o <;> simp [optAddr, toVal]
theorem toVal_ret (t : String) (p : Int × Int) : toVal t (retDict p) = some (.ret p.1 p.2) := rfl
theorem toVal_conn (t : String) (c : Option Connector) : toVal t (ofVal (.conn c)) = some (.conn c) := by cases c <;> rfl
theorem toVal_ids (t : String) : toVal t (.list [.str "ScoreRegistry", .str "Network"]) = some (.strs ScoreRegistry.SCORE_KEYS) := rfl


/-- Runs one call on both sides. -/
macro "both" h:ident : tactic => `(tactic| (
  py_simp [request, $h:ident, IRCToken.dispatchViews, Owned.dispatch, orElse', nonPayable_some, nonPayable_none, toVal_none, toVal_int, toVal_str, toVal_bool, toVal_addr,
    toVal_optAddr, toVal_ret, toVal_conn, toVal_ids, optData, or_false, false_or, false_and, true_or, or_true, inv_version, inv_possibility, inv_disableTransfer,
    inv_issue, inv_destroy, inv_flexTransfer, inv_icxTransfer, inv_fallback, inv_withdraw, inv_getAddress, inv_getScoreIds, inv_unregisterAddress, Owned.getOwner, Owned.getNewOwner,
    inv_getManager, inv_getNewManager, inv_transferManagement, inv_acceptManagement, inv_transferTokenOwnership, inv_acceptTokenOwnership, inv_disableTokenTransfers,
    inv_withdrawFromToken, inv_getToken, inv_updateConnector, inv_disableConnectorPurchases, inv_updateRegistry, inv_restoreRegistry, inv_disableRegistryUpdate,
    inv_disableConversions, inv_setConversionFee, inv_convWithdraw, inv_isAllow, inv_isActive, inv_prevRegistry, inv_getRegistry, inv_tokenCount, inv_maxFee, inv_getFee,
    inv_enabled, inv_connectorAt, inv_connectorView, inv_quote, inv_register, inv_registered, inv_convertN, inv_netFallback, Converter.connector]
  try py_go [toVal_none, toVal_int, toVal_str, toVal_bool, toVal_addr, toVal_optAddr, toVal_ret, toVal_conn, toVal_ids]))

theorem call_IRCToken (cx : Ctx) (L n : Nat) (hn : 8 ≤ n) (w : World) :
    callMethod (Cx.of cx "IRCToken" L) n w = opt (IRCToken.dispatch cx) w := by
  rw [callMethod_eq]
  unfold IRCToken.dispatch
  cases hc : cx.fr.call
  case transfer a v d => cases d <;> both hc
  all_goals both hc

theorem call_FlexibleToken (cx : Ctx) (L n : Nat) (hn : 8 ≤ n) (w : World) :
    callMethod (Cx.of cx "FlexibleToken" L) n w = opt (FlexibleToken.dispatch cx) w := by
  rw [callMethod_eq]
  unfold FlexibleToken.dispatch
  cases hc : cx.fr.call
  case transfer a v d =>
    py_simp [request, hc, IRCToken.dispatchViews, Owned.dispatch, orElse', nonPayable_some, or_false, false_or, inv_flexTransfer]
    py_go [toVal_none]
  all_goals both hc

theorem call_IcxToken (cx : Ctx) (L n : Nat) (hn : 8 ≤ n) (w : World) :
    callMethod (Cx.of cx "IcxToken" L) n w = opt (IcxToken.dispatch cx) w := by
  rw [callMethod_eq]
  unfold IcxToken.dispatch
  cases hc : cx.fr.call
  case transfer a v d =>
    py_simp [request, hc, IRCToken.dispatchViews, Owned.dispatch, orElse', nonPayable_some, or_false, false_or, inv_icxTransfer]
    py_go [toVal_none]
  all_goals both hc

theorem call_ScoreRegistry (cx : Ctx) (L n : Nat) (hn : 8 ≤ n) (w : World) :
    callMethod (Cx.of cx "ScoreRegistry" L) n w = opt (ScoreRegistry.dispatch cx) w := by
  rw [callMethod_eq]
  unfold ScoreRegistry.dispatch
  cases hc : cx.fr.call
  all_goals both hc

theorem call_Network (cx : Ctx) (L n : Nat) (hn : 8 ≤ n) (w : World) :
    callMethod (Cx.of cx "Network" L) n w = opt (Network.dispatch cx) w := by
  rw [callMethod_eq]
  unfold Network.dispatch
  cases hc : cx.fr.call
  all_goals both hc

/-- Whatever the computation answers is a number or nothing. -/
def Plain (m : M Val) : Prop := ∀ w p, opt m w = some p → toVal "" (ofVal p.1) = some p.1
theorem Plain.bind {α : Type} {m : M α} {f : α → M Val} (h : ∀ a, Plain (f a)) : Plain (m >>= f) := by
  intro w p hp
  rw [opt_bind] at hp
  cases hm : opt m w with
  | none => rw [hm] at hp; cases hp
  | some q => rw [hm] at hp; exact h q.1 _ _ hp
theorem Plain.pure {v : Val} (h : toVal "" (ofVal v) = some v) : Plain (pure v) := by
  intro w p hp
  cases hp; exact h
theorem Plain.fail {e : Err} : Plain (Verif.fail e) := by intro w p hp; cases hp
theorem Plain.ite {c : Prop} [Decidable c] {a b : M Val} (ha : Plain a) (hb : Plain b) : Plain (if c then a else b) := by split <;> assumption

theorem plain_fallback (cx : Ctx) (a : Addr) (v : Int) (d : Data) : Plain (Converter.tokenFallback cx a v d) := by
  unfold Converter.tokenFallback
  refine .bind fun _ => .bind fun _ => .ite (.pure rfl) (.bind fun w => ?_)
  split
  · exact .fail
  · refine .bind fun _ => .bind fun _ => ?_
    split
    · exact .fail
    · exact .bind fun _ => .pure rfl

theorem call_Converter (cx : Ctx) (L n : Nat) (hn : 8 ≤ n) (hL : 96 ≤ L) (w : World) :
    callMethod (Cx.of cx "Converter" L) n w = opt (Converter.dispatch cx) w := by
  have hL' : 96 ≤ (Cx.of cx "Converter" L).loops := hL
  rw [callMethod_eq]
  unfold Converter.dispatch
  cases hc : cx.fr.call
  case tokenFallback a v d =>
    py_simp [request, hc, Owned.dispatch, orElse', nonPayable_some, or_false, false_or]
    refine ite_congr' Iff.rfl (fun _ => ?_) (fun _ => rfl)
    rw [inv_convFallback _ _ _ hn hL', ans_tConverter_tokenFallback, andThen_assoc]
    have h := plain_fallback cx a v d w
    cases ho : opt (Converter.tokenFallback cx a v d) w with
    | none => rfl
    | some p => show (toVal "" (ofVal p.1) >>- _) = _; rw [h p ho]; rfl
  case getReturn a b v =>
    py_simp [request, hc, Owned.dispatch, orElse', nonPayable_some, or_false, false_or]
    refine ite_congr' Iff.rfl (fun _ => ?_) (fun _ => rfl)
    rw [inv_getReturn _ _ _ (by omega) hL']
    py_simp
    py_go [toVal_ret]
  all_goals both hc

end Verif.Src

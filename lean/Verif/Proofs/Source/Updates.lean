import Verif.Proofs.Source.Run
import Verif.Model.Source.Declared
/-! `on_update` of every class. -/
set_option autoImplicit false
set_option linter.style.nameCheck false
namespace Verif.Src
attribute [local irreducible] glob find findNext function const mroOf ifaceHas fields cfields Verif.ZERO
variable (cx : Ctx) (c : String) (L : Nat) {n : Nat} (w : World)

@[py] theorem upd_Owned (h : 1 ≤ n) : invoke (Cx.of cx c L) n "Owned" (some c) tOwned_on_update [] w = some (.none, w) := by
  py_start tOwned_on_update
@[py] theorem upd_IRCToken (h : 1 ≤ n) : invoke (Cx.of cx c L) n "IRCToken" (some c) tIRCToken_on_update [] w = some (.none, w) := by
  py_start tIRCToken_on_update
@[py] theorem upd_TokenHolder (h : 2 ≤ n) : invoke (Cx.of cx c L) n "TokenHolder" (some c) tTokenHolder_on_update [] w = some (.none, w) := by
  py_start tTokenHolder_on_update
@[py] theorem upd_Controller (h : 3 ≤ n) :
    invoke (Cx.of cx c L) n "FlexibleTokenController" (some c) tFlexibleTokenController_on_update [] w = some (.none, w) := by
  py_start tFlexibleTokenController_on_update
theorem upd_FlexibleToken (h : 3 ≤ n) : invoke (Cx.of cx c L) n "FlexibleToken" (some c) tFlexibleToken_on_update [] w = some (.none, w) := by
  py_start tFlexibleToken_on_update
theorem upd_IcxToken (h : 3 ≤ n) : invoke (Cx.of cx c L) n "IcxToken" (some c) tIcxToken_on_update [] w = some (.none, w) := by
  py_start tIcxToken_on_update
theorem upd_ScoreRegistry (h : 3 ≤ n) : invoke (Cx.of cx c L) n "ScoreRegistry" (some c) tScoreRegistry_on_update [] w = some (.none, w) := by
  py_start tScoreRegistry_on_update
theorem upd_Network (h : 3 ≤ n) : invoke (Cx.of cx c L) n "Network" (some c) tNetwork_on_update [] w = some (.none, w) := by
  py_start tNetwork_on_update
theorem upd_Converter (h : 4 ≤ n) : invoke (Cx.of cx c L) n "Converter" (some c) tConverter_on_update [] w = some (.none, w) := by
  py_start tConverter_on_update

end Verif.Src

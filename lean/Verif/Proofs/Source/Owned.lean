import Verif.Proofs.Source.Utils
/-!
The methods of contracts/utility/owned.py and token_holder.py.
-/
set_option autoImplicit false
namespace Verif.Src
attribute [local irreducible] glob find findNext function const mroOf ifaceHas fields cfields Verif.ZERO

variable (cx : Ctx) (c : String) (L : Nat) {n : Nat} (w : World)

@[py] theorem inv_requireOwner (h : 1 ≤ n) :
    invoke (Cx.of cx c L) n "Owned" (some c) tOwned_require_owner_only [] w =
      opt (Owned.requireOwnerOnly cx) w >>- fun p => some (.none, p.2) := by
  py_start tOwned_require_owner_only [Owned.requireOwnerOnly]

@[py] theorem inv_ownedInstall (h : 1 ≤ n) :
    invoke (Cx.of cx c L) n "Owned" (some c) tOwned_on_install [] w =
      opt (Owned.onInstall cx) w >>- fun p => some (.none, p.2) := by
  py_start tOwned_on_install [Owned.onInstall]

@[py] theorem inv_getOwner (h : 1 ≤ n) :
    invoke (Cx.of cx c L) n "Owned" (some c) tOwned_getOwner [] w = some (optAddr (w.own cx.self).owner, w) := by
  py_start tOwned_getOwner

@[py] theorem inv_getNewOwner (h : 1 ≤ n) :
    invoke (Cx.of cx c L) n "Owned" (some c) tOwned_getNewOwner [] w = some (optAddr (w.own cx.self).newOwner, w) := by
  py_start tOwned_getNewOwner

@[py] theorem inv_transferOwnerShip (h : 2 ≤ n) (hf : find c "require_owner_only" = some ("Owned", tOwned_require_owner_only)) (a : Addr) :
    invoke (Cx.of cx c L) n "Owned" (some c) tOwned_transferOwnerShip [.addr a] w =
      opt (Owned.transferOwnerShip cx a) w >>- fun p => some (.none, p.2) := by
  py_start tOwned_transferOwnerShip [Owned.transferOwnerShip, hf]
  py_go

@[py] theorem inv_acceptOwnerShip (h : 2 ≤ n) (hf : find c "OwnerUpdate" = some ("Owned", tOwned_OwnerUpdate)) :
    invoke (Cx.of cx c L) n "Owned" (some c) tOwned_acceptOwnerShip [] w =
      opt (Owned.acceptOwnerShip cx) w >>- fun p => some (.none, p.2) := by
  py_start tOwned_acceptOwnerShip [Owned.acceptOwnerShip, hf]

@[py] theorem inv_withdrawTokens (h : 3 ≤ n) (hf : find c "require_owner_only" = some ("Owned", tOwned_require_owner_only)) (t a : Addr) (v : Int) :
    invoke (Cx.of cx c L) n "TokenHolder" (some c) tTokenHolder_withdrawTokens [.addr t, .addr a, .int v] w =
      opt (TokenHolder.withdrawTokens cx t a v) w >>- fun p => some (.none, p.2) := by
  py_start tTokenHolder_withdrawTokens [TokenHolder.withdrawTokens, hf]
  py_go

end Verif.Src

import Verif.Proofs.Source.Owned
/-!
The methods of contracts/irc_token, flexible_token and icx_token.
-/
set_option autoImplicit false
namespace Verif.Src
attribute [local irreducible] glob find findNext function const mroOf ifaceHas fields cfields Verif.ZERO

variable (cx : Ctx) (c : String) (L : Nat) {n : Nat} (w : World)

@[py] theorem inv_ircInstall (h : 1 ≤ n) (a b : String) (s d : Int) :
    invoke (Cx.of cx c L) n "IRCToken" (some c) tIRCToken_on_install [.str a, .str b, .int s, .int d] w =
      opt (IRCToken.onInstall cx a b s d) w >>- fun p => some (.none, p.2) := by
  py_start tIRCToken_on_install [IRCToken.onInstall]
  py_go
  rw [if_neg ‹_›]

@[py] theorem inv_name (h : 1 ≤ n) :
    invoke (Cx.of cx c L) n "IRCToken" (some c) tIRCToken_name [] w = some (.str (w.tok cx.self).name, w) := by
  py_start tIRCToken_name
@[py] theorem inv_symbol (h : 1 ≤ n) :
    invoke (Cx.of cx c L) n "IRCToken" (some c) tIRCToken_symbol [] w = some (.str (w.tok cx.self).symbol, w) := by
  py_start tIRCToken_symbol
@[py] theorem inv_decimals (h : 1 ≤ n) :
    invoke (Cx.of cx c L) n "IRCToken" (some c) tIRCToken_decimals [] w = some (.int (w.tok cx.self).decimals, w) := by
  py_start tIRCToken_decimals
@[py] theorem inv_totalSupply (h : 1 ≤ n) :
    invoke (Cx.of cx c L) n "IRCToken" (some c) tIRCToken_totalSupply [] w = some (.int (w.tok cx.self).supply, w) := by
  py_start tIRCToken_totalSupply
@[py] theorem inv_balanceOf (h : 1 ≤ n) (a : Addr) :
    invoke (Cx.of cx c L) n "IRCToken" (some c) tIRCToken_balanceOf [.addr a] w = some (.int ((w.tok cx.self).bal a), w) := by
  py_start tIRCToken_balanceOf

@[py] theorem inv_transfer' (h : 1 ≤ n) (hf : find c "Transfer" = some ("IRCToken", tIRCToken_Transfer)) (a b : Addr) (v : Int) (d : Data) :
    invoke (Cx.of cx c L) n "IRCToken" (some c) tIRCToken__transfer [.addr a, .addr b, .int v, .bytes d] w =
      opt (IRCToken.transfer' cx a b v d) w >>- fun p => some (.none, p.2) := by
  py_start tIRCToken__transfer [IRCToken.transfer', hf]
  py_go [hf]

@[py] theorem inv_transfer_some (h : 2 ≤ n) (hf : find c "Transfer" = some ("IRCToken", tIRCToken_Transfer))
    (hg : find c "_transfer" = some ("IRCToken", tIRCToken__transfer)) (a : Addr) (v : Int) (d : Data) :
    invoke (Cx.of cx c L) n "IRCToken" (some c) tIRCToken_transfer [.addr a, .int v, .bytes d] w =
      opt (IRCToken.transfer cx a v (some d)) w >>- fun p => some (.none, p.2) := by
  py_start tIRCToken_transfer [IRCToken.transfer, hg, Option.getD]
  py_go
@[py] theorem inv_transfer_none (h : 2 ≤ n) (hf : find c "Transfer" = some ("IRCToken", tIRCToken_Transfer))
    (hg : find c "_transfer" = some ("IRCToken", tIRCToken__transfer)) (a : Addr) (v : Int) :
    invoke (Cx.of cx c L) n "IRCToken" (some c) tIRCToken_transfer [.addr a, .int v, .none] w =
      opt (IRCToken.transfer cx a v none) w >>- fun p => some (.none, p.2) := by
  py_start tIRCToken_transfer [IRCToken.transfer, hg, Option.getD]
  py_go

/-! ### FlexibleToken -/

@[py] theorem inv_holderInstall (h : 2 ≤ n) :
    invoke (Cx.of cx c L) n "TokenHolder" (some c) tTokenHolder_on_install [] w =
      opt (Owned.onInstall cx) w >>- fun p => some (.none, p.2) := by
  py_start tTokenHolder_on_install
  py_go

theorem inv_flexInstall (h : 3 ≤ n) (a b : String) (s d : Int) :
    invoke (Cx.of cx "FlexibleToken" L) n "FlexibleToken" (some "FlexibleToken") tFlexibleToken_on_install [.str a, .str b, .int s, .int d] w =
      opt (FlexibleToken.onInstall cx a b s d) w >>- fun p => some (.none, p.2) := by
  py_start tFlexibleToken_on_install [FlexibleToken.onInstall]
  py_go

@[py] theorem inv_transferAllowed (h : 2 ≤ n) :
    invoke (Cx.of cx c L) n "FlexibleToken" (some c) tFlexibleToken_require_transfer_allowed [] w =
      if (w.flex cx.self).transferable = true then some (.none, w) else none := by
  py_start tFlexibleToken_require_transfer_allowed

theorem inv_flexTransfer (h : 3 ≤ n) (a : Addr) (v : Int) (d : Option Data) :
    invoke (Cx.of cx "FlexibleToken" L) n "FlexibleToken" (some "FlexibleToken") tFlexibleToken_transfer [.addr a, .int v, optData d] w =
      opt (FlexibleToken.transfer cx a v d) w >>- fun p => some (.none, p.2) := by
  cases d <;> (simp only [optData]; py_start tFlexibleToken_transfer [FlexibleToken.transfer]; py_go)

theorem inv_version (h : 1 ≤ n) :
    invoke (Cx.of cx c L) n "FlexibleToken" (some c) tFlexibleToken_getFlexibleTokenVersion [] w = some (.str (w.flex cx.self).version, w) := by
  py_start tFlexibleToken_getFlexibleTokenVersion
theorem inv_possibility (h : 1 ≤ n) :
    invoke (Cx.of cx c L) n "FlexibleToken" (some c) tFlexibleToken_getTransferPossibility [] w = some (.bool (w.flex cx.self).transferable, w) := by
  py_start tFlexibleToken_getTransferPossibility

theorem inv_disableTransfer (h : 2 ≤ n) (b : Bool) :
    invoke (Cx.of cx "FlexibleToken" L) n "FlexibleToken" (some "FlexibleToken") tFlexibleToken_disableTransfer [.bool b] w =
      opt (FlexibleToken.disableTransfer cx b) w >>- fun p => some (.none, p.2) := by
  py_start tFlexibleToken_disableTransfer [FlexibleToken.disableTransfer]
  py_go

theorem inv_issue (h : 3 ≤ n) (a : Addr) (v : Int) :
    invoke (Cx.of cx "FlexibleToken" L) n "FlexibleToken" (some "FlexibleToken") tFlexibleToken_issue [.addr a, .int v] w =
      opt (FlexibleToken.issue cx a v) w >>- fun p => some (.none, p.2) := by
  py_start tFlexibleToken_issue [FlexibleToken.issue]
  py_go

theorem inv_destroy (h : 3 ≤ n) (a : Addr) (v : Int) :
    invoke (Cx.of cx "FlexibleToken" L) n "FlexibleToken" (some "FlexibleToken") tFlexibleToken_destroy [.addr a, .int v] w =
      opt (FlexibleToken.destroy cx a v) w >>- fun p => some (.none, p.2) := by
  py_start tFlexibleToken_destroy [FlexibleToken.destroy]
  py_go

/-! ### IcxToken -/

theorem inv_icxInstall (h : 3 ≤ n) :
    invoke (Cx.of cx "IcxToken" L) n "IcxToken" (some "IcxToken") tIcxToken_on_install [] w =
      opt (IcxToken.onInstall cx) w >>- fun p => some (.none, p.2) := by
  py_start tIcxToken_on_install [IcxToken.onInstall]
  py_go

@[py] theorem inv_deposit (h : 1 ≤ n) :
    invoke (Cx.of cx "IcxToken" L) n "IcxToken" (some "IcxToken") tIcxToken_deposit [] w =
      opt (IcxToken.deposit cx) w >>- fun p => some (.none, p.2) := by
  py_start tIcxToken_deposit [IcxToken.deposit]
  py_go

theorem inv_fallback (h : 2 ≤ n) :
    invoke (Cx.of cx "IcxToken" L) n "IcxToken" (some "IcxToken") tIcxToken_fallback [] w =
      opt (IcxToken.deposit cx) w >>- fun p => some (.none, p.2) := by
  py_start tIcxToken_fallback
  py_go

@[py] theorem inv_withdrawTo (h : 3 ≤ n) (v : Int) (a : Addr) :
    invoke (Cx.of cx "IcxToken" L) n "IcxToken" (some "IcxToken") tIcxToken_withdrawTo [.int v, .addr a] w =
      opt (IcxToken.withdrawTo cx v a) w >>- fun p => some (.none, p.2) := by
  py_start tIcxToken_withdrawTo [IcxToken.withdrawTo]
  py_go

theorem inv_withdraw (h : 4 ≤ n) (v : Int) :
    invoke (Cx.of cx "IcxToken" L) n "IcxToken" (some "IcxToken") tIcxToken_withdraw [.int v] w =
      opt (IcxToken.withdrawTo cx v cx.sender) w >>- fun p => some (.none, p.2) := by
  py_start tIcxToken_withdraw
  py_go

theorem inv_icxTransfer (h : 3 ≤ n) (a : Addr) (v : Int) (d : Option Data) :
    invoke (Cx.of cx "IcxToken" L) n "IcxToken" (some "IcxToken") tIcxToken_transfer [.addr a, .int v, optData d] w =
      opt (IcxToken.transfer cx a v d) w >>- fun p => some (.none, p.2) := by
  cases d <;> (simp only [optData]; py_start tIcxToken_transfer [IcxToken.transfer]; py_go)

end Verif.Src

import Verif.Spec.Pool
import Verif.Props.Wealth
/-!
What others can make out of a trader's order (C79): vocabulary.
-/
set_option autoImplicit false
namespace Verif

/-- A stretch of trading, from ledger `w` to `w'`: the converter `T` of flexible token `t` with connectors `l` is open for business
(as in C59), transactions of any kind are made, by anybody and with any third-party contracts, but nobody in office meddles; there is
supply and reserve to trade with. Flexible tokens among the connectors are not issued meanwhile, and no flexible token is taken
from the converter. -/
structure Stretch (w w' : World) (T t R N : Addr) (l : List Addr) : Prop where
  start : Reachable w
  trading : Trading w T t R N l
  later : Later w w'
  plain : ∀ f, Called w w' f → ¬ Meddles T t R l f
  reserves : ∀ a ∈ l, 0 < (w.tok a).bal T
  supply : 0 < (w'.tok t).supply
  unissued : ∀ a ∈ l, w.kind a = .flex → (w'.tok a).supply ≤ (w.tok a).supply
  kept : (w.tok t).bal T ≤ (w'.tok t).bal T

/-- How many calls were made. -/
def World.length (w w' : World) : Nat := w'.frames.length - w.frames.length

/-- How much more of token `a` account `y` has in the end (counting coin for ICX tokens). -/
def World.gained (w w' : World) (a y : Addr) : Int := w'.wealth a y - w.wealth a y

/-- How much more of token `a` the accounts in `F` have together. -/
def World.taken (w w' : World) (F : Finset Addr) (a : Addr) : Int := ∑ y ∈ F, w.gained w' a y

/-- Nobody but the trader `A` (and the converter `T`) has less of any of the tokens `L` in the end. -/
def World.unharmed (w w' : World) (T A : Addr) (L : List Addr) : Prop :=
  ∀ y, y ≠ T → y ≠ A → ∀ a ∈ L, 0 ≤ w.gained w' a y

end Verif

import Verif.Spec.Local
import Verif.Spec
/-!
Orders of conversions (C78).
-/
set_option autoImplicit false
namespace Verif

/-- The transaction `tx` is an order of account `s` to network `N` to convert `v` of the first token of the path into at least `m` of the last, for `f`:
tokens sent to the network with a request, or (`coins`) coin sent with `convertFor` or `convert`. -/
inductive Order (N s : Addr) (v m : Int) (f : Addr) : Bool → List Addr → Tx → Prop
  | tokens {a : Addr} {rest : List Addr} {d : Data} : Requests d s (a :: rest) m f → Order N s v m f false (a :: rest) (.call s a 0 (.transfer N v (some d)))
  | coins {p : List Char} {path : List Addr} : PathText p path → Order N s v m f true path (.call s N v (.convertFor p m f))
  | ownCoins {p : List Char} {path : List Addr} : PathText p path → f = s → Order N s v m f true path (.call s N v (.convert p m))

/-- The flexible tokens of a path: every second address, from the second on. -/
def flexibles : List Addr → List Addr
  | _ :: ft :: rest => ft :: flexibles rest
  | _ => []

end Verif

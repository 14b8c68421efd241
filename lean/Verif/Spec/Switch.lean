import Verif.Spec
/-!
The switches along a path: which of them must be on for the network to convert.
-/
set_option autoImplicit false
namespace Verif

/-- The path leads through converters of this code base, with registries of this code base. Which network (if any) is registered
there is left open, and so are all switches. -/
def KnownPath (w : World) : Addr → List Addr → Prop
  | a, ft :: b :: rest => (w.kind a).isToken ∧
      (∃ T R, (w.own ft).owner = some T ∧ w.kind T = .conv ∧ (w.conv T).token = some ft ∧ w.kind ft = .flex ∧
        (w.conv T).registry = some R ∧ w.kind R = .reg) ∧ KnownPath w b rest
  | a, _ => (w.kind a).isToken

/-- Every switch along the path is on for network `N`: at each converter conversions are enabled, the hop's tokens are connectors
(or the flexible token) with purchases not disabled, the registry names `N` as the network; and no flexible token that is moved
has its transfers disabled. -/
def SwitchedOn (w : World) (N : Addr) : Addr → List Addr → Prop
  | a, ft :: b :: rest => (w.kind a = .flex → (w.flex a).transferable = true) ∧
      (∀ T, (w.own ft).owner = some T → (w.conv T).enabled = true ∧ w.tradable T a b ∧
        ∀ R, (w.conv T).registry = some R → w.reg R "Network" = some N) ∧ SwitchedOn w N b rest
  | a, _ => w.kind a = .flex → (w.flex a).transferable = true

/-- All converters of the path use registry `R`. -/
def UsesRegistry (w : World) (R : Addr) : Addr → List Addr → Prop
  | _, ft :: b :: rest => (∀ T, (w.own ft).owner = some T → (w.conv T).registry = some R) ∧ UsesRegistry w R b rest
  | _, _ => True

end Verif

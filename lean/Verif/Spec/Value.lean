import Verif.Spec.Trip
/-!
Prices along a path (C83).
-/
set_option autoImplicit false
namespace Verif

/-- Units of token `z` per unit of weight in the pool of converter `T` with flexible token `t`; the flexible token has weight 1. An infinitely small amount of `a` is converted into `b`
at the rate `share b / share a`. -/
noncomputable def World.share (w : World) (T t z : Addr) : ℝ :=
  if z = t then ((w.tok t).supply : ℝ) / 1000000 else ((w.tok z).bal T : ℝ) / (((w.conv T).connectors z).weight : ℝ)

/-- What is left of a unit after the fee of the converter of `t`, charged once or (between connectors) twice. -/
noncomputable def World.kept (w : World) (t a b : Addr) : ℝ :=
  match (w.own t).owner with
  | none => 1
  | some T => (1 - ((w.conv T).fee : ℝ) / 1000000) ^ (if a = t ∨ b = t then 1 else 2)

/-- The rate of an infinitely small conversion of `a` into `b` with the converter of `t`, before the fee. -/
noncomputable def World.rate (w : World) (t a b : Addr) : ℝ :=
  match (w.own t).owner with
  | none => 1
  | some T => w.share T t b / w.share T t a

/-- `x` of `a` along a path, at the rates of its converters: a unit is added for the rounding of each, and its fee taken. -/
noncomputable def World.atRates (w : World) : Addr → List Addr → ℝ → ℝ
  | a, t :: b :: rest, x => w.atRates b rest ((x * w.rate t a b + 1) * w.kept t a b)
  | _, _, x => x

/-- What is left of a unit after all the fees of a path. -/
noncomputable def World.keptAlong (w : World) : Addr → List Addr → ℝ
  | a, t :: b :: rest => w.kept t a b * w.keptAlong b rest
  | _, _ => 1

/-- One unit of each token received along a path, in terms of values of the tokens. -/
def oneEach (value : Addr → ℝ) : List Addr → ℝ
  | _ :: b :: rest => value b + oneEach value rest
  | _ => 0

/-- The converters of a path pay and are paid from real balances; those paid out of are not too large, and where flexible tokens are bought the payment does not let the reserve grow too much
(`w'` is the ledger afterwards). -/
def SizedPath (w w' : World) : Addr → List Addr → Prop
  | a, t :: b :: rest => (∀ T, (w.own t).owner = some T → (∀ z, z = a ∨ z = b → z ≠ t → ((w.conv T).connectors z).isVirtual = false) ∧
      (b ≠ t → (w.tok b).bal T ≤ 2 ^ 104) ∧ (b = t → (w.tok t).supply * (w'.tok a).bal T ≤ 2 ^ 124 * (w.tok a).bal T)) ∧ SizedPath w w' b rest
  | _, _ => True

/-- The same for a quote for (at most) `x` of the first token: nothing is paid, so the growth is reckoned at the rates. -/
def SizedQuote (w : World) : Addr → List Addr → ℝ → Prop
  | a, t :: b :: rest, x => (∀ T, (w.own t).owner = some T → (∀ z, z = a ∨ z = b → z ≠ t → ((w.conv T).connectors z).isVirtual = false) ∧
      (b ≠ t → (w.tok b).bal T ≤ 2 ^ 104) ∧ (b = t → ((w.tok t).supply : ℝ) * ((w.tok a).bal T + x) ≤ 2 ^ 124 * (w.tok a).bal T)) ∧
      SizedQuote w b rest ((x * w.rate t a b + 1) * w.kept t a b)
  | _, _, _ => True

/-- Account `s` has `v` of token `a` converted along the path `a, rest`, through converters of this code base, and gets `r`. -/
structure Ride (w w' : World) (N s a : Addr) (rest : List Addr) (v r : Int) : Prop where
  reachable : Reachable w
  plain : s.isContract = false
  net : w.kind N = .net
  honest : HonestPath w N a rest
  sized : SizedPath w w' a rest
  carried : Carried w w' N s (a :: rest) a (lastOf a rest) v r

/-- With these values of the tokens, no converter of the path gives more than it gets. -/
def InLine (w : World) (value : Addr → ℝ) : Addr → List Addr → Prop
  | a, t :: b :: rest => w.rate t a b * value b ≤ value a ∧ InLine w value b rest
  | _, _ => True

end Verif

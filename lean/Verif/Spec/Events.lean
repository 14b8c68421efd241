import Verif.Spec
/-!
Vocabulary for event logs: what the events of a conversion are.
-/
set_option autoImplicit false
namespace Verif

/-- The price event of connector `a` of converter `T` with flexible token `t`: supply, balance and weight as of ledger `w`. -/
def World.priceEvent (w : World) (T t a : Addr) : Addr × Event :=
  (T, .PriceDataUpdate a (w.tok t).supply (w.reserve T a) ((w.conv T).connectors a).weight)

/-- The events of a conversion of `v` of `a` into `r` of `b` at converter `T` for the network `N`, oldest first. `w` is the ledger
afterwards, `d` the request. The token sent to the converter reports its transfer last, when the converter has answered. -/
def World.hopEvents (w : World) (T t a b N : Addr) (v r fee : Int) (d : Data) : List (Addr × Event) :=
  (if b = t then
    [(t, .Issuance r), (t, .Transfer t N r .noneBytes), (T, .Conversion a b N v r fee), w.priceEvent T t a]
  else if a = t then
    [(t, .Destruction v), (t, .Transfer T t v .noneBytes), (b, .Transfer T N r .conversionResult),
      (T, .Conversion a b N v r fee), w.priceEvent T t b]
  else
    [(b, .Transfer T N r .conversionResult), (T, .Conversion a b N v r fee), w.priceEvent T t a, w.priceEvent T t b]) ++
  [(a, .Transfer N T v d)]

/-- The events of a route (`Route`), oldest first. The fee reported is what the formula gives beyond what is paid. -/
inductive Narrated (N : Addr) (m : Int) : World → Addr → List Addr → Int → World → Int → List (Addr × Event) → Prop
  | done {w : World} {a : Addr} {v : Int} : Narrated N m w a [] v w v []
  | hop {w : World} {a ft b : Addr} {rest : List Addr} {v : Int} {T : Addr} {r1 fee : Int} {w' : World} {r : Int}
      {es : List (Addr × Event)} (own : (w.own ft).owner = some T) (pos : 0 < v) (bal : v ≤ (w.tok a).bal N)
      (move : w.kind a = .flex → (w.flex a).transferable = true)
      (conv : Converts (w.pay a N T v) T ft a b v (if rest = [] then m else 1) r1)
      (fee_eq : (w.pay a N T v).curve T a b v v = .ok (r1 + fee))
      (next : Narrated N m (w.hopped T ft a b N v r1) b rest r1 w' r es) :
      Narrated N m w a (ft :: b :: rest) v w' r ((w.hopped T ft a b N v r1).hopEvents T ft a b N v r1 fee
        (Network.requestData b (if rest = [] then m else 1)) ++ es)

/-- The event of the final payment of `r` of `z` to `f`: a registered ICX token reports the destruction only. -/
def payoutEvent (w : World) (N z f : Addr) (r : Int) : Addr × Event :=
  if w.net N z = true then (z, .Destruction r) else (z, .Transfer N f r .noneBytes)

/-! ### Reading balances off the log -/

/-- What one log entry says token `T` (of kind `k`) adds to the balance of `a`: transfers count for both parties; the token
itself is the source of issued tokens and the sink of destroyed ones. An ICX token does not report its withdrawals as transfers. -/
def told (k : Kind) (T a : Addr) (e : Addr × Event) : Int :=
  if e.1 = T then
    match e.2 with
    | .Transfer x y v _ => (if a = y then v else 0) - (if a = x then v else 0)
    | .Issuance v => if a = T then v else 0
    | .Destruction v => if a = T ∧ k ≠ .icx then -v else 0
    | _ => 0
  else 0

/-- What one log entry says is added to the supply of `T`. -/
def toldSupply (T : Addr) (e : Addr × Event) : Int :=
  if e.1 = T then
    match e.2 with
    | .Issuance v => v
    | .Destruction v => -v
    | _ => 0
  else 0

/-- Sum over a list of log entries. -/
def tally (g : Addr × Event → Int) (l : List (Addr × Event)) : Int := (l.map g).sum

/-- What `a` takes out of the ICX token `T` by the successful call `f`. -/
def withdrawn (T a : Addr) (f : Frame) : Int :=
  if f.to = T then
    match f.call with
    | .withdraw v | .withdrawTo v _ => if a = f.sender then v else 0
    | _ => 0
  else 0

/-- What a token gives its creator when it is deployed. -/
def Install.grant : Install → Int
  | .irc _ _ i d | .flex _ _ i d => i * 10 ^ d.toNat
  | _ => 0

/-! ### Reading settings off the log -/

/-- Folds `ε` over log entries (newest first), oldest entry first. -/
def retell {σ : Type} (ε : Addr × Event → σ → σ) (l : List (Addr × Event)) (s : σ) : σ := l.foldr ε s

/-- Every entry of `l` (newest first) satisfies `G` in the state told by the earlier entries. -/
def EachEntry {σ : Type} (ε : Addr × Event → σ → σ) (G : Addr × Event → σ → Prop) (l : List (Addr × Event)) (s : σ) : Prop :=
  ∀ later e earlier, l = later ++ e :: earlier → G e (retell ε earlier s)

/-- The owner of `T` after one more log entry: the new owner named by an `OwnerUpdate` of `T`. -/
def ownerTold (T : Addr) (e : Addr × Event) (s : Option Addr) : Option Addr :=
  if e.1 = T then
    match e.2 with
    | .OwnerUpdate _ new => new
    | _ => s
  else s

/-- An `OwnerUpdate` of `T` names the owner so far and a new one. -/
def OwnerEntry (T : Addr) (e : Addr × Event) (s : Option Addr) : Prop :=
  e.1 = T → match e.2 with
    | .OwnerUpdate old new => old = s ∧ new ≠ none
    | _ => True

/-- What a converter's log tells of its settings. -/
structure ConvTold where
  manager : Option Addr := none
  fee : Int := 0
  enabled : Bool := true
  deriving DecidableEq

/-- The settings of converter `T` after one more log entry. -/
def convTold (T : Addr) (e : Addr × Event) (s : ConvTold) : ConvTold :=
  if e.1 = T then
    match e.2 with
    | .ManagerUpdate _ new => { s with manager := new }
    | .ConversionFeeUpdate _ new => { s with fee := new }
    | .ConversionsEnable b => { s with enabled := b }
    | _ => s
  else s

/-- The entries of converter `T` name the values so far; fees are not negative; enabling and disabling are reported when they
change something. -/
def ConvEntry (T : Addr) (e : Addr × Event) (s : ConvTold) : Prop :=
  e.1 = T → match e.2 with
    | .ManagerUpdate old new => old = s.manager ∧ new ≠ none
    | .ConversionFeeUpdate old new => old = s.fee ∧ 0 ≤ new
    | .ConversionsEnable b => s.enabled = !b
    | _ => True

/-- The table of registry `T` after one more log entry. -/
def regTold (T : Addr) (e : Addr × Event) (s : String → Option Addr) : String → Option Addr :=
  if e.1 = T then
    match e.2 with
    | .AddressUpdate n a => fun m => if m = n then (if a = ZERO then none else some a) else s m
    | _ => s
  else s

/-- Entries of registry `T` name contracts under legal names, or report the removal of an entry. -/
def RegEntry (T : Addr) (e : Addr × Event) (s : String → Option Addr) : Prop :=
  e.1 = T → match e.2 with
    | .AddressUpdate n a => if a = ZERO then s n ≠ none else a.isContract = true ∧ (n = "ScoreRegistry" ∨ n = "Network")
    | _ => True

end Verif

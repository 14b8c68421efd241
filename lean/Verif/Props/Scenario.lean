import Verif.Model.Exec
/-!
A concrete history used to show that the hypotheses of the property theorems are met: one owner deploys a registry, a
network, an ICX token, an IRC token, two flexible tokens with converters, and makes the converters active.
-/
set_option autoImplicit false
namespace Verif.Scenario

/-- Ordinary accounts. -/
def owner : Addr := ⟨false, 1⟩
def alice : Addr := ⟨false, 2⟩
def bob : Addr := ⟨false, 3⟩
/-- Contract addresses. -/
def registry : Addr := ⟨true, 1⟩
def network : Addr := ⟨true, 2⟩
def icxt : Addr := ⟨true, 3⟩
def irc : Addr := ⟨true, 4⟩
def flex : Addr := ⟨true, 5⟩
def conv : Addr := ⟨true, 6⟩
def evil : Addr := ⟨true, 7⟩

/-- Third-party code that gives up at once. -/
def orc : Oracle := fun _ => .ret .unit

/-- A ledger before anything is deployed. -/
def genesis : World where
  kind := fun _ => .none
  coin := fun a => if a = owner then 1000000 else if a = alice then 1000 else 0
  tok := fun _ => {}
  own := fun _ => {}
  flex := fun _ => {}
  conv := fun _ => {}
  reg := fun _ _ => none
  net := fun _ _ => false
  store := fun _ => 0
  log := []
  frames := []

theorem genesis_ok : Genesis genesis where
  kind _ := rfl
  tok _ := rfl
  own _ := rfl
  flex _ := rfl
  conv _ := rfl
  reg _ _ := rfl
  net _ _ := rfl
  log := rfl
  frames := rfl
  coin_nonneg a := by simp only [genesis]; split <;> (try split) <;> decide
  coin_contract a ha := by
    simp only [genesis]
    rw [if_neg, if_neg]
    · rintro rfl; simp [alice] at ha
    · rintro rfl; simp [owner] at ha

/-- The setup: deployments, reserves, activation, registration. -/
def setup : List Tx := [
  .deploy owner registry .reg,
  .deploy owner network .net,
  .call owner registry 0 (.registerAddress "Network" network),
  .deploy owner icxt .icx,
  .deploy owner irc (.irc "Token" "TOK" 1000000 0),
  .deploy owner flex (.flex "Flex" "FLX" 100000 0),
  .deploy owner conv (.conv (some flex) (some registry) 30000 (some irc) 250000),
  .call owner conv 0 (.addConnector icxt 250000 false),
  .call owner irc 0 (.transfer conv 50000 none),
  .call owner icxt 60000 .deposit,
  .call owner icxt 0 (.transfer conv 50000 none),
  .call owner flex 0 (.transferOwnerShip conv),
  .call owner conv 0 .acceptTokenOwnership,
  .call owner conv 0 (.setConversionFee 1000),
  .call owner network 0 (.registerIcxToken icxt true),
  .call owner flex 0 (.transfer alice 10000 none),
  .call owner irc 0 (.transfer alice 10000 none),
  .call alice icxt 500 .deposit]

/-- The ledger after a list of transactions. -/
def run (l : List Tx) (w : World) : World := l.foldl (fun w tx => tx.apply orc 20 w) w

theorem run_reachable (l : List Tx) {w : World} (h : Reachable w) : Reachable (run l w) := by
  induction l generalizing w with
  | nil => exact h
  | cons tx l ih => exact ih (.step orc 20 tx h)

/-- The ledger after the setup. -/
def ready : World := run setup genesis

theorem ready_reachable : Reachable ready := run_reachable _ (.genesis genesis_ok)

/-- The text of a path. -/
def pathText : List Addr → List Char
  | [] => []
  | [a] => Text.ofAddr a
  | a :: as => Text.ofAddr a ++ ',' :: pathText as

/-- The data a user sends along with tokens to the network. -/
def request (path : List Addr) (minReturn : Int) : Data :=
  .json [("path", .str (pathText path)), ("minReturn", .int minReturn)]

/-- What a call answers. -/
def answer (s t : Addr) (c : Call) (w : World) : Except Err Val := (exec orc 20 s t 0 c w).map (·.1)

/-- Alice converts `v` of the first token along the path. -/
def trade (path : List Addr) (v minReturn : Int) : Tx :=
  .call alice (path.headD ZERO) 0 (.transfer network v (some (request path minReturn)))

set_option maxRecDepth 100000 in
example : (ready.tok flex).bal alice = 10000 := by decide +kernel
set_option maxRecDepth 100000 in
example : (ready.own flex).owner = some conv ∧ (ready.tok icxt).supply = 60500 ∧ ready.coin icxt = 60500
  ∧ (ready.tok icxt).bal conv = 50000 ∧ (ready.conv conv).fee = 1000 ∧ ready.net network icxt = true := by decide +kernel

/-- A second flexible token and its converter, whose connector is the first flexible token. -/
def flex2 : Addr := ⟨true, 8⟩
def conv2 : Addr := ⟨true, 9⟩

/-- The ledger with both converters. -/
def ready2 : World := run [
  .deploy owner flex2 (.flex "Flex2" "FL2" 40000 0),
  .deploy owner conv2 (.conv (some flex2) (some registry) 30000 (some flex) 500000),
  .call owner flex 0 (.transfer conv2 20000 none),
  .call owner flex2 0 (.transferOwnerShip conv2),
  .call owner conv2 0 .acceptTokenOwnership,
  .call owner flex2 0 (.transfer alice 3000 none)] ready

theorem ready2_reachable : Reachable ready2 := run_reachable _ ready_reachable

end Verif.Scenario

import Verif.Proofs.Wp
import Verif.Spec.Depth
/-!
Two runs of the same method that differ only in the budget of their nested calls: they do the same while the nested calls
do, and the calls they make are counted.
-/
set_option autoImplicit false
namespace Verif

/-- On ledgers without third-party contracts both computations do the same, keep the ledger free of them, and make at most
`k` calls. -/
def Same {α} (k : Nat) (m m' : M α) : Prop :=
  ∀ w : World, w.Own → m w = m' w ∧ ∀ x w', m w = .ok (x, w') → w'.Own ∧ w'.frames.length ≤ w.frames.length + k

namespace Same
variable {α β : Type}

theorem mono {j k : Nat} {m m' : M α} (h : Same j m m') (hk : j ≤ k) : Same k m m' := by
  intro w hw
  refine ⟨(h w hw).1, fun x w' e => ?_⟩
  have := (h w hw).2 x w' e
  exact ⟨this.1, by omega⟩

theorem bind {j k : Nat} {m m' : M α} {f f' : α → M β} (h : Same j m m') (hf : ∀ x, Same k (f x) (f' x)) :
    Same (j + k) (m >>= f) (m' >>= f') := by
  intro w hw
  obtain ⟨h1, h2⟩ := h w hw
  show (StateT.bind m f) w = (StateT.bind m' f') w ∧ ∀ x w', (StateT.bind m f) w = _ → _
  simp only [StateT.bind]
  rw [← h1]
  cases hm : m w with
  | error er => exact ⟨rfl, fun x w' e => by cases e⟩
  | ok p =>
    obtain ⟨ho, hl⟩ := h2 p.1 p.2 hm
    obtain ⟨g1, g2⟩ := hf p.1 p.2 ho
    refine ⟨g1, fun x w' e => ?_⟩
    have := g2 x w' e
    exact ⟨this.1, by omega⟩

/-- A step that makes no calls, then the rest. -/
theorem bind0 {k : Nat} {m m' : M α} {f f' : α → M β} (h : Same 0 m m') (hf : ∀ x, Same k (f x) (f' x)) :
    Same k (m >>= f) (m' >>= f') := (h.bind hf).mono (by omega)

/-- A step that makes at most `j` calls, then the rest. -/
theorem step {k : Nat} (j : Nat) {m m' : M α} {f f' : α → M β} (h : Same j m m') (hj : j ≤ k)
    (hf : ∀ x, Same (k - j) (f x) (f' x)) : Same k (m >>= f) (m' >>= f') := (h.bind hf).mono (by omega)

theorem pure {k : Nat} (a : α) : Same k (Pure.pure a : M α) (Pure.pure a) := by
  intro w hw
  refine ⟨rfl, fun x w' e => ?_⟩
  cases e
  exact ⟨hw, by omega⟩

theorem fail {k : Nat} (e : Err) : Same k (Verif.fail e : M α) (Verif.fail e) := by
  intro w hw
  exact ⟨rfl, fun x w' e => by cases e⟩

theorem get {k : Nat} : Same k (MonadState.get : M World) (MonadState.get) := by
  intro w hw
  refine ⟨rfl, fun x w' e => ?_⟩
  cases e
  exact ⟨hw, by omega⟩

theorem modify {k : Nat} (g : World → World) (hk : ∀ w, (g w).kind = w.kind) (hf : ∀ w, (g w).frames = w.frames) :
    Same k (_root_.modify g : M Unit) (_root_.modify g : M Unit) := by
  intro w hw
  refine ⟨rfl, fun x w' e => ?_⟩
  cases e
  exact ⟨fun a => by rw [hk]; exact hw a, by rw [hf]; omega⟩

theorem modifyFrames (g : Frame) :
    Same 1 (_root_.modify (fun w : World => { w with frames := g :: w.frames }) : M Unit)
      (_root_.modify (fun w : World => { w with frames := g :: w.frames })) := by
  intro w hw
  refine ⟨rfl, fun x w' e => ?_⟩
  cases e
  exact ⟨hw, Nat.le_refl _⟩

theorem bindGet {k : Nat} {f f' : World → M β} (h : ∀ w : World, w.Own → Same k (f w) (f' w)) :
    Same k ((MonadState.get : M World) >>= f) ((MonadState.get : M World) >>= f') := fun w hw => h w hw w hw

theorem modTok {k : Nat} (a : Addr) (g : TokSt → TokSt) : Same k (Verif.modTok a g) (Verif.modTok a g) :=
  modify _ (fun _ => rfl) (fun _ => rfl)
theorem modOwn {k : Nat} (a : Addr) (g : OwnSt → OwnSt) : Same k (Verif.modOwn a g) (Verif.modOwn a g) :=
  modify _ (fun _ => rfl) (fun _ => rfl)
theorem modFlex {k : Nat} (a : Addr) (g : FlexSt → FlexSt) : Same k (Verif.modFlex a g) (Verif.modFlex a g) :=
  modify _ (fun _ => rfl) (fun _ => rfl)
theorem modConv {k : Nat} (a : Addr) (g : ConvSt → ConvSt) : Same k (Verif.modConv a g) (Verif.modConv a g) :=
  modify _ (fun _ => rfl) (fun _ => rfl)
theorem emit {k : Nat} (a : Addr) (e : Event) : Same k (Verif.emit a e) (Verif.emit a e) :=
  modify _ (fun _ => rfl) (fun _ => rfl)
theorem setEntry {k : Nat} (a : Addr) (n : String) (v : Option Addr) :
    Same k (ScoreRegistry.setEntry a n v) (ScoreRegistry.setEntry a n v) :=
  modify _ (fun _ => rfl) (fun _ => rfl)
theorem setNet {k : Nat} (a : Addr) (g : World → Addr → Bool) :
    Same k (_root_.modify (fun w => w.setNet a (g w)) : M Unit) (_root_.modify (fun w => w.setNet a (g w))) :=
  modify _ (fun _ => rfl) (fun _ => rfl)
theorem modConnector {k : Nat} (f : Frame) (c1 c2 : Addr → Int → Call → M Val) (a : Addr) (g : Connector → Connector) :
    Same k (Converter.modConnector ⟨f, c1⟩ a g) (Converter.modConnector ⟨f, c2⟩ a g) := modConv _ _

theorem ite {k : Nat} (c : Prop) [Decidable c] {a a' b b' : M α} (h : c → Same k a a') (h' : ¬ c → Same k b b') :
    Same k (if c then a else b) (if c then a' else b') := by
  split
  · exact h ‹_›
  · exact h' ‹_›

theorem require {k : Nat} (c : Prop) [Decidable c] (s : String) : Same k (Verif.require c s) (Verif.require c s) := by
  unfold Verif.require
  exact ite c (fun _ => pure _) (fun _ => fail _)

theorem liftE {k : Nat} (e : Except Err α) : Same k (Verif.liftE e) (Verif.liftE e) := by
  cases e
  · exact fail _
  · exact pure _

theorem asInt {k : Nat} (v : Val) : Same k (Verif.asInt v) (Verif.asInt v) := by
  cases v <;> first | exact pure _ | exact fail _

theorem asAmount {k : Nat} (v : Val) : Same k (Verif.asAmount v) (Verif.asAmount v) := by
  cases v <;> first | exact pure _ | exact fail _

theorem asAddr {k : Nat} (v : Val) : Same k (Verif.asAddr v) (Verif.asAddr v) := by
  unfold Verif.asAddr
  split
  · exact pure _
  · exact fail _

end Same

/-- The nested calls of depth at most `d` do the same. -/
def CallSame (d : Nat) (c1 c2 : Addr → Int → Call → M Val) : Prop :=
  ∀ t v c, c.depth ≤ d → Same c.calls (c1 t v c) (c2 t v c)

theorem CallSame.mono {d e : Nat} {c1 c2 : Addr → Int → Call → M Val} (h : CallSame d c1 c2) (he : e ≤ d) :
    CallSame e c1 c2 := fun t v c hc => h t v c (by omega)

/-- A call, then the rest. -/
theorem Same.call {β : Type} {d k : Nat} {c1 c2 : Addr → Int → Call → M Val} (h : CallSame d c1 c2) {t : Addr} {v : Int} {c : Call}
    {f f' : Val → M β} (hd : c.depth ≤ d) (hk : c.calls ≤ k) (hf : ∀ x, Same (k - c.calls) (f x) (f' x)) :
    Same k (c1 t v c >>= f) (c2 t v c >>= f') := Same.step _ (h t v c hd) hk hf

/-- A step without calls; extended below. -/
syntax "same0" : tactic
macro_rules | `(tactic| same0) => `(tactic| with_reducible exact Same.pure _)
macro_rules | `(tactic| same0) => `(tactic| with_reducible exact Same.fail _)
macro_rules | `(tactic| same0) => `(tactic| with_reducible exact Same.get)
macro_rules | `(tactic| same0) => `(tactic| with_reducible exact Same.require _ _)
macro_rules | `(tactic| same0) => `(tactic| with_reducible exact Same.modTok _ _)
macro_rules | `(tactic| same0) => `(tactic| with_reducible exact Same.modOwn _ _)
macro_rules | `(tactic| same0) => `(tactic| with_reducible exact Same.modFlex _ _)
macro_rules | `(tactic| same0) => `(tactic| with_reducible exact Same.modConv _ _)
macro_rules | `(tactic| same0) => `(tactic| with_reducible exact Same.emit _ _)
macro_rules | `(tactic| same0) => `(tactic| with_reducible exact Same.setEntry _ _ _)
macro_rules | `(tactic| same0) => `(tactic| with_reducible exact Same.setNet _ _)
macro_rules | `(tactic| same0) => `(tactic| with_reducible exact Same.modConnector _ _ _ _ _)
macro_rules | `(tactic| same0) => `(tactic| with_reducible exact Same.liftE _)
macro_rules | `(tactic| same0) => `(tactic| with_reducible exact Same.asInt _)
macro_rules | `(tactic| same0) => `(tactic| with_reducible exact Same.asAmount _)
macro_rules | `(tactic| same0) => `(tactic| with_reducible exact Same.asAddr _)

/-- A part of a method that makes calls; extended below. -/
syntax "sameSub" : tactic
macro_rules | `(tactic| sameSub) => `(tactic| fail)

/-- One step of a method. -/
macro "same1" : tactic => `(tactic| first
  | same0
  | (with_reducible refine Same.call (d := 1) (by assumption) (by first | assumption | (with_unfolding_all exact Nat.le_of_ble_eq_true rfl)) (by first | assumption | (with_unfolding_all exact Nat.le_of_ble_eq_true rfl)) (fun _ => ?_))
  | (with_reducible refine Same.call (d := 2) (by assumption) (by first | assumption | (with_unfolding_all exact Nat.le_of_ble_eq_true rfl)) (by first | assumption | (with_unfolding_all exact Nat.le_of_ble_eq_true rfl)) (fun _ => ?_))
  | (with_reducible refine Same.call (d := 3) (by assumption) (by first | assumption | (with_unfolding_all exact Nat.le_of_ble_eq_true rfl)) (by first | assumption | (with_unfolding_all exact Nat.le_of_ble_eq_true rfl)) (fun _ => ?_))
  | (with_reducible refine Same.call (d := 5) (by assumption) (by first | assumption | (with_unfolding_all exact Nat.le_of_ble_eq_true rfl)) (by first | assumption | (with_unfolding_all exact Nat.le_of_ble_eq_true rfl)) (fun _ => ?_))
  | (with_reducible refine Same.bind0 (by same0) (fun _ => ?_))
  | (with_reducible refine Same.step _ (by sameSub) (by first | assumption | (with_unfolding_all exact Nat.le_of_ble_eq_true rfl)) (fun _ => ?_))
  | (with_reducible refine Same.mono (by sameSub) (by first | assumption | (with_unfolding_all exact Nat.le_of_ble_eq_true rfl)))
  | (with_reducible refine Same.ite _ (fun _ => ?_) (fun _ => ?_)))

/-- Walks through a method. -/
macro "walk" : tactic => `(tactic| repeat' same1)

variable {f : Frame} {c1 c2 : Addr → Int → Call → M Val} {k : Nat}

theorem same_requireOwnerOnly : Same k (Owned.requireOwnerOnly ⟨f, c1⟩) (Owned.requireOwnerOnly ⟨f, c2⟩) := by
  unfold Owned.requireOwnerOnly; walk
macro_rules | `(tactic| same0) => `(tactic| with_reducible exact same_requireOwnerOnly)

theorem same_requireOwnerOrManagerOnly :
    Same k (Managed.requireOwnerOrManagerOnly ⟨f, c1⟩) (Managed.requireOwnerOrManagerOnly ⟨f, c2⟩) := by
  unfold Managed.requireOwnerOrManagerOnly; walk
macro_rules | `(tactic| same0) => `(tactic| with_reducible exact same_requireOwnerOrManagerOnly)

theorem same_token : Same k (Controller.token ⟨f, c1⟩) (Controller.token ⟨f, c2⟩) := by
  unfold Controller.token
  refine Same.bind0 Same.get (fun w => ?_)
  show Same k (match (w.conv f.to).token with | some t => Pure.pure t | none => _)
    (match (w.conv f.to).token with | some t => Pure.pure t | none => _)
  split <;> walk
macro_rules | `(tactic| same0) => `(tactic| with_reducible exact same_token)

theorem same_connector (a : Addr) : Same k (Converter.connector ⟨f, c1⟩ a) (Converter.connector ⟨f, c2⟩ a) := by
  unfold Converter.connector; walk
macro_rules | `(tactic| same0) => `(tactic| with_reducible exact same_connector _)

theorem same_requireValidConnector (a : Addr) :
    Same k (Converter.requireValidConnector ⟨f, c1⟩ a) (Converter.requireValidConnector ⟨f, c2⟩ a) := by
  unfold Converter.requireValidConnector; walk
macro_rules | `(tactic| same0) => `(tactic| with_reducible exact same_requireValidConnector _)

theorem same_requireValidConnectorWeight (a : Int) :
    Same k (Converter.requireValidConnectorWeight a) (Converter.requireValidConnectorWeight a) := by
  unfold Converter.requireValidConnectorWeight; walk
macro_rules | `(tactic| same0) => `(tactic| with_reducible exact same_requireValidConnectorWeight _)

theorem same_getFinalAmount (a m : Int) :
    Same k (Converter.getFinalAmount ⟨f, c1⟩ a m) (Converter.getFinalAmount ⟨f, c2⟩ a m) := by
  unfold Converter.getFinalAmount; walk
macro_rules | `(tactic| same0) => `(tactic| with_reducible exact same_getFinalAmount _ _)

theorem same_safeSub (a b : Int) : Same k (Converter.safeSub a b) (Converter.safeSub a b) := by
  unfold Converter.safeSub; walk
macro_rules | `(tactic| same0) => `(tactic| with_reducible exact same_safeSub _ _)

theorem same_finish (a m : Int) : Same k (Converter.finish ⟨f, c1⟩ a m) (Converter.finish ⟨f, c2⟩ a m) := by
  unfold Converter.finish; walk
macro_rules | `(tactic| same0) => `(tactic| with_reducible exact same_finish _ _)

theorem same_creditVirtual (a : Addr) (v : Int) :
    Same k (Converter.creditVirtual ⟨f, c1⟩ a v) (Converter.creditVirtual ⟨f, c2⟩ a v) := by
  unfold Converter.creditVirtual; walk
macro_rules | `(tactic| same0) => `(tactic| with_reducible exact same_creditVirtual _ _)

theorem same_debitVirtual (a : Addr) (v : Int) :
    Same k (Converter.debitVirtual ⟨f, c1⟩ a v) (Converter.debitVirtual ⟨f, c2⟩ a v) := by
  unfold Converter.debitVirtual; walk
macro_rules | `(tactic| same0) => `(tactic| with_reducible exact same_debitVirtual _ _)

theorem same_requireValidPath (p : List Addr) : Same k (Network.requireValidPath p) (Network.requireValidPath p) := by
  unfold Network.requireValidPath; walk

theorem same_readPath (p : List Char) : Same k (Network.readPath p) (Network.readPath p) := by
  unfold Network.readPath
  split <;> walk
macro_rules | `(tactic| same0) => `(tactic| with_reducible exact same_readPath _)

theorem same_isActive (h : CallSame 1 c1 c2) : Same 1 (Controller.isActive ⟨f, c1⟩) (Controller.isActive ⟨f, c2⟩) := by
  unfold Controller.isActive; walk
macro_rules | `(tactic| sameSub) => `(tactic| with_reducible exact same_isActive (by assumption))

theorem same_requireActive (h : CallSame 1 c1 c2) :
    Same 1 (Controller.requireActive ⟨f, c1⟩) (Controller.requireActive ⟨f, c2⟩) := by
  unfold Controller.requireActive; walk
macro_rules | `(tactic| sameSub) => `(tactic| with_reducible exact same_requireActive (by assumption))

theorem same_requireInactive (h : CallSame 1 c1 c2) :
    Same 1 (Controller.requireInactive ⟨f, c1⟩) (Controller.requireInactive ⟨f, c2⟩) := by
  unfold Controller.requireInactive; walk
macro_rules | `(tactic| sameSub) => `(tactic| with_reducible exact same_requireInactive (by assumption))

theorem same_getConnectorBalance (h : CallSame 1 c1 c2) (a : Addr) :
    Same 1 (Converter.getConnectorBalance ⟨f, c1⟩ a) (Converter.getConnectorBalance ⟨f, c2⟩ a) := by
  unfold Converter.getConnectorBalance; walk
macro_rules | `(tactic| sameSub) => `(tactic| with_reducible exact same_getConnectorBalance (by assumption) _)

theorem same_getPurchaseReturn (h : CallSame 1 c1 c2) (a : Addr) (v : Int) (b : Bool) :
    Same 3 (Converter.getPurchaseReturn ⟨f, c1⟩ a v b) (Converter.getPurchaseReturn ⟨f, c2⟩ a v b) := by
  unfold Converter.getPurchaseReturn; walk
macro_rules | `(tactic| sameSub) => `(tactic| with_reducible exact same_getPurchaseReturn (by assumption) _ _ _)

theorem same_getSaleReturn (h : CallSame 1 c1 c2) (a : Addr) (v : Int) :
    Same 3 (Converter.getSaleReturn ⟨f, c1⟩ a v) (Converter.getSaleReturn ⟨f, c2⟩ a v) := by
  unfold Converter.getSaleReturn; walk
macro_rules | `(tactic| sameSub) => `(tactic| with_reducible exact same_getSaleReturn (by assumption) _ _)

theorem same_getCrossConnectorReturn (h : CallSame 1 c1 c2) (a b : Addr) (v : Int) (fc : Bool) :
    Same 3 (Converter.getCrossConnectorReturn ⟨f, c1⟩ a b v fc) (Converter.getCrossConnectorReturn ⟨f, c2⟩ a b v fc) := by
  unfold Converter.getCrossConnectorReturn; walk
macro_rules | `(tactic| sameSub) => `(tactic| with_reducible exact same_getCrossConnectorReturn (by assumption) _ _ _ _)

theorem same_getReturn (h : CallSame 1 c1 c2) (a b : Addr) (v : Int) :
    Same 3 (Converter.getReturn ⟨f, c1⟩ a b v) (Converter.getReturn ⟨f, c2⟩ a b v) := by
  unfold Converter.getReturn; walk

theorem same_priceDataUpdate (h : CallSame 1 c1 c2) (a b : Addr) :
    Same 2 (Converter.priceDataUpdate ⟨f, c1⟩ a b) (Converter.priceDataUpdate ⟨f, c2⟩ a b) := by
  unfold Converter.priceDataUpdate; walk
macro_rules | `(tactic| sameSub) => `(tactic| with_reducible exact same_priceDataUpdate (by assumption) _ _)

/-- The data a converter sends along with its payments, and the data of plain transfers, ask nobody for anything. -/
theorem depth_conversionResult : Data.depth .conversionResult = 2 := rfl
theorem depth_noneBytes : Data.depth .noneBytes = 2 := rfl

theorem same_buy (h : CallSame 1 c1 c2) (t a : Addr) (v m : Int) :
    Same 6 (Converter.buy ⟨f, c1⟩ t a v m) (Converter.buy ⟨f, c2⟩ t a v m) := by
  unfold Converter.buy; walk

theorem same_sell (h : CallSame 3 c1 c2) (t a : Addr) (v m : Int) :
    Same 12 (Converter.sell ⟨f, c1⟩ t a v m) (Converter.sell ⟨f, c2⟩ t a v m) := by
  have h1 : CallSame 1 c1 c2 := h.mono (by omega)
  unfold Converter.sell; walk

theorem same_cross (h : CallSame 3 c1 c2) (t a b : Addr) (v m : Int) :
    Same 11 (Converter.convertCrossConnector ⟨f, c1⟩ t a b v m) (Converter.convertCrossConnector ⟨f, c2⟩ t a b v m) := by
  have h1 : CallSame 1 c1 c2 := h.mono (by omega)
  unfold Converter.convertCrossConnector; walk

theorem same_convert (h : CallSame 3 c1 c2) (t a b : Addr) (v m : Int) :
    Same 12 (Converter.convert ⟨f, c1⟩ t a b v m) (Converter.convert ⟨f, c2⟩ t a b v m) := by
  have h1 : CallSame 1 c1 c2 := h.mono (by omega)
  have hb := fun t a => same_buy (f := f) h1 t a v m
  have hs := fun t a => same_sell (f := f) h t a v m
  have hc := fun t a b => same_cross (f := f) h t a b v m
  unfold Converter.convert
  walk
  · exact (hb _ _).mono (by omega)
  · exact (hs _ _).mono (by omega)
  · exact (hc _ _ _).mono (by omega)

theorem same_acceptsDeposit (h : CallSame 1 c1 c2) (a : Addr) :
    Same 1 (Converter.acceptsDeposit ⟨f, c1⟩ a) (Converter.acceptsDeposit ⟨f, c2⟩ a) := by
  unfold Converter.acceptsDeposit; walk
macro_rules | `(tactic| sameSub) => `(tactic| with_reducible exact same_acceptsDeposit (by assumption) _)

/-- Enough depth for what data asks of a converter. -/
theorem same_converterFallback (d : Data) (h : CallSame 1 c1 c2) (h3 : d.asksConverter = true → CallSame 3 c1 c2)
    (a : Addr) (v : Int) :
    Same (if d.asksConverter then 14 else 2) (Converter.tokenFallback ⟨f, c1⟩ a v d) (Converter.tokenFallback ⟨f, c2⟩ a v d) := by
  have key : ∀ j, 2 ≤ j → (d.asksConverter = true → 14 ≤ j) →
      Same j (Converter.tokenFallback ⟨f, c1⟩ a v d) (Converter.tokenFallback ⟨f, c2⟩ a v d) := by
    intro j hj hj'
    unfold Converter.tokenFallback
    refine Same.bind0 (Same.require _ _) (fun _ => ?_)
    refine Same.step 1 (same_acceptsDeposit h _) (by omega) (fun _ => ?_)
    refine Same.ite _ (fun _ => Same.pure _) (fun _ => ?_)
    refine Same.bind0 Same.get (fun w => ?_)
    show Same (j - 1) (match (w.conv f.to).registry with | none => _ | some r => _)
      (match (w.conv f.to).registry with | none => _ | some r => _)
    split
    · walk
    · refine Same.call h (by exact Nat.le_refl 1) (show 1 ≤ j - 1 by omega) (fun _ => ?_)
      refine Same.bind0 (Same.require _ _) (fun _ => ?_)
      cases hp : Converter.parseRequest d with
      | none => exact Same.fail _
      | some q =>
        obtain ⟨b, m⟩ := q
        have hq : d.asksConverter = true := by simp [Data.asksConverter, hp]
        have := hj' hq
        refine Same.step 12 (same_convert (h3 hq) _ _ _ _ _) (show 12 ≤ j - 1 - 1 by omega) (fun _ => Same.pure _)
  split
  · exact key _ (by omega) (fun _ => by omega)
  · exact key _ (by omega) (fun h => absurd h (by assumption))

/-! ### Network -/

/-- The request a network sends to a converter is no request to a network. -/
theorem requestData_asksNetwork (a : Addr) (m : Int) : (Network.requestData a m).asksNetwork = false := rfl

theorem requestData_depth (a : Addr) (m : Int) : (Network.requestData a m).depth ≤ 4 := by
  unfold Data.depth; rw [requestData_asksNetwork]; simp; split <;> omega

theorem requestData_calls (a : Addr) (m : Int) : (Network.requestData a m).calls ≤ 15 := by
  unfold Data.calls; rw [requestData_asksNetwork]; simp; split <;> omega

theorem asksNetwork_sender (d : Data) (a b : Addr) :
    (Network.convertBytesData d a).isSome = (Network.convertBytesData d b).isSome := by
  unfold Network.convertBytesData
  cases d with
  | json fields =>
    simp only
    split
    · rename_i m _ _
      split
      · rfl
      · cases hf : fields.lookup "for" with
        | none => cases m <;> simp
        | some q => cases q <;> cases m <;> simp
    · rfl
  | _ => rfl

theorem same_expectedLoop (h : CallSame 2 c1 c2) (p : List Addr) : ∀ (a : Addr) (v : Int),
    Same (5 * (p.length / 2)) (Network.expectedLoop ⟨f, c1⟩ a p v) (Network.expectedLoop ⟨f, c2⟩ a p v) := by
  induction p using Network.oddPositions.induct with
  | case1 => intro a v; exact Same.pure _
  | case2 => intro a v; exact Same.pure _
  | case3 ft to rest ih =>
    intro a v
    have hl : (ft :: to :: rest).length / 2 = rest.length / 2 + 1 := by simp only [List.length_cons]; omega
    rw [hl]
    unfold Network.expectedLoop
    refine Same.call h (by exact Nat.le_of_ble_eq_true rfl) (show 1 ≤ _ by omega) (fun _ => ?_)
    refine Same.bind0 (Same.asAddr _) (fun _ => ?_)
    refine Same.call h (by exact Nat.le_refl 2) (show 4 ≤ 5 * (rest.length / 2 + 1) - 1 by omega) (fun _ => ?_)
    refine Same.bind0 (Same.asAmount _) (fun _ => ?_)
    exact (ih _ _).mono (show _ ≤ 5 * (rest.length / 2 + 1) - 1 - 4 by omega)

theorem same_convertLoop (h : CallSame 5 c1 c2) (m : Int) (p : List Addr) : ∀ (a : Addr) (v : Int),
    Same (19 * (p.length / 2)) (Network.convertLoop ⟨f, c1⟩ m a p v) (Network.convertLoop ⟨f, c2⟩ m a p v) := by
  induction p using Network.oddPositions.induct with
  | case1 => intro a v; exact Same.pure _
  | case2 => intro a v; exact Same.pure _
  | case3 ft to rest ih =>
    intro a v
    have hl : (ft :: to :: rest).length / 2 = rest.length / 2 + 1 := by simp only [List.length_cons]; omega
    rw [hl]
    unfold Network.convertLoop
    generalize hk : 19 * (rest.length / 2 + 1) = k
    refine Same.step 1 (h _ _ .getOwner (by exact Nat.le_of_ble_eq_true rfl)) (by omega) (fun _ => ?_)
    refine Same.bind0 (Same.asAddr _) (fun _ => ?_)
    refine Same.step 1 (h _ _ (.balanceOf f.to) (by exact Nat.le_of_ble_eq_true rfl)) (by omega) (fun _ => ?_)
    refine Same.bind0 (Same.asInt _) (fun _ => ?_)
    refine Same.step 16 ((h _ _ (.transfer _ v (some (Network.requestData to _))) (Nat.succ_le_succ (requestData_depth _ _))).mono
      (Nat.succ_le_succ (requestData_calls _ _))) (by omega) (fun _ => ?_)
    refine Same.step 1 (h _ _ (.balanceOf f.to) (by exact Nat.le_of_ble_eq_true rfl)) (by omega) (fun _ => ?_)
    refine Same.bind0 (Same.asInt _) (fun _ => ?_)
    exact (ih _ _).mono (by omega)

/-- A valid path has at most ten hops. -/
theorem hops_le {a : Addr} {p : List Addr} (h : Network.validPath (a :: p) = true) : p.length / 2 ≤ 10 := by
  simp [Network.validPath, Network.MAX_CONVERSION_COUNT] at h
  omega

/-- After the check of the path. -/
theorem Same.afterPath {α : Type} {k : Nat} {p : List Addr} {m m' : M α} (h : Network.validPath p = true → Same k m m') :
    Same k (Network.requireValidPath p >>= fun _ => m) (Network.requireValidPath p >>= fun _ => m') := by
  unfold Network.requireValidPath Verif.require
  split
  · exact Same.bind0 (Same.pure _) (fun _ => h ‹_›)
  · intro w _
    exact ⟨rfl, fun x w' e => by cases e⟩

theorem same_getExpectedReturnByPath (h : CallSame 2 c1 c2) (p : List Char) (v : Int) :
    Same 50 (Network.getExpectedReturnByPath ⟨f, c1⟩ p v) (Network.getExpectedReturnByPath ⟨f, c2⟩ p v) := by
  unfold Network.getExpectedReturnByPath
  refine Same.bind0 (same_readPath _) (fun q => ?_)
  refine Same.afterPath fun hq => ?_
  refine Same.bind0 (Same.require _ _) (fun _ => ?_)
  cases q with
  | nil => exact Same.fail _
  | cons a rest => exact (same_expectedLoop h rest a v).mono (by have := hops_le hq; omega)

theorem same_convertForInternal (h : CallSame 5 c1 c2) (p : List Addr) (hp : Network.validPath p = true) (v m : Int)
    (a : Addr) : Same 194 (Network.convertForInternal ⟨f, c1⟩ p v m a) (Network.convertForInternal ⟨f, c2⟩ p v m a) := by
  unfold Network.convertForInternal
  cases p with
  | nil => exact Same.fail _
  | cons b rest =>
    refine Same.step 190 ((same_convertLoop h m rest b v).mono (by have := hops_le hp; omega)) (by omega) (fun q => ?_)
    obtain ⟨t, x⟩ := q
    walk

theorem same_networkFallback (d : Data) (h : d.asksNetwork = true → CallSame 5 c1 c2) (a : Addr) (v : Int) :
    Same (if d.asksNetwork then 194 else 0) (Network.tokenFallback ⟨f, c1⟩ a v d) (Network.tokenFallback ⟨f, c2⟩ a v d) := by
  unfold Network.tokenFallback
  refine Same.ite _ (fun _ => Same.pure _) (fun _ => ?_)
  cases hd : Network.convertBytesData d a with
  | none => exact Same.fail _
  | some q =>
    obtain ⟨p, m, g⟩ := q
    have hq : d.asksNetwork = true := by unfold Data.asksNetwork; rw [asksNetwork_sender d ZERO a, hd]; rfl
    rw [if_pos hq]
    refine Same.bind0 (Same.require _ _) (fun _ => ?_)
    refine Same.bind0 (Same.require _ _) (fun _ => ?_)
    refine Same.bind0 (Same.require _ _) (fun _ => ?_)
    refine Same.afterPath fun hp => ?_
    refine Same.step 194 (same_convertForInternal (h hq) p hp v m g) (by omega) (fun _ => Same.pure _)

theorem same_convertFor (h : CallSame 5 c1 c2) (p : List Char) (m : Int) (a : Addr) :
    Same 195 (Network.convertFor ⟨f, c1⟩ p m a) (Network.convertFor ⟨f, c2⟩ p m a) := by
  unfold Network.convertFor
  refine Same.bind0 (same_readPath _) (fun q => ?_)
  refine Same.afterPath fun hq => ?_
  refine Same.bind0 (Same.require _ _) (fun _ => ?_)
  refine Same.bind0 (Same.require _ _) (fun _ => ?_)
  refine Same.bind0 (Same.require _ _) (fun _ => ?_)
  cases q with
  | nil => exact Same.fail _
  | cons t rest =>
    refine Same.bind0 Same.get (fun w => ?_)
    refine Same.bind0 (Same.require _ _) (fun _ => ?_)
    refine Same.step 1 (h _ _ .fallback (by exact Nat.le_of_ble_eq_true rfl)) (by omega) (fun _ => ?_)
    exact same_convertForInternal h _ hq _ _ _

/-! ### Tokens -/

theorem same_transfer (d : Data) (h : CallSame d.depth c1 c2) (a b : Addr) (v : Int) :
    Same d.calls (IRCToken.transfer' ⟨f, c1⟩ a b v d) (IRCToken.transfer' ⟨f, c2⟩ a b v d) := by
  unfold IRCToken.transfer'
  walk
  exact Same.step d.calls (h _ _ (.tokenFallback _ _ d) (Nat.le_refl _)) (Nat.le_refl _) (fun _ => Same.emit _ _)

theorem same_tokenHolder (h : CallSame 3 c1 c2) (t a : Addr) (v : Int) :
    Same 4 (TokenHolder.withdrawTokens ⟨f, c1⟩ t a v) (TokenHolder.withdrawTokens ⟨f, c2⟩ t a v) := by
  unfold TokenHolder.withdrawTokens; walk
macro_rules | `(tactic| sameSub) => `(tactic| with_reducible exact same_tokenHolder (by assumption) _ _ _)

theorem same_withdrawTo (h : CallSame 1 c1 c2) (v : Int) (a : Addr) :
    Same 1 (IcxToken.withdrawTo ⟨f, c1⟩ v a) (IcxToken.withdrawTo ⟨f, c2⟩ v a) := by
  unfold IcxToken.withdrawTo; walk

/-! ### Dispatch -/

/-- Two method tables that do the same. -/
def TableSame (k : Nat) : Option (M Val) → Option (M Val) → Prop
  | some m, some m' => Same k m m'
  | none, none => True
  | _, _ => False

theorem TableSame.orElse {k : Nat} {a a' b b' : Option (M Val)} (h : TableSame k a a') (h' : TableSame k b b') :
    TableSame k (orElse' a b) (orElse' a' b') := by
  cases a <;> cases a' <;> first | exact h' | exact h | exact absurd h id

theorem TableSame.run {k : Nat} {a a' : Option (M Val)} (h : TableSame k a a') :
    Same k (runNonPayable ⟨f, c1⟩ a) (runNonPayable ⟨f, c2⟩ a') := by
  unfold runNonPayable notPayable
  refine Same.bind0 (Same.require _ _) (fun _ => ?_)
  cases a <;> cases a'
  · dsimp only; walk
  · exact absurd h id
  · exact absurd h id
  · exact h

theorem same_views (c : Call) :
    TableSame k (IRCToken.dispatchViews ⟨f, c1⟩ c) (IRCToken.dispatchViews ⟨f, c2⟩ c) := by
  cases c <;> first | exact True.intro | (simp only [IRCToken.dispatchViews, TableSame]; walk; done)

theorem same_owned (c : Call) : TableSame k (Owned.dispatch ⟨f, c1⟩ c) (Owned.dispatch ⟨f, c2⟩ c) := by
  cases c <;> first
    | exact True.intro
    | (simp only [Owned.dispatch, TableSame, Owned.getOwner, Owned.getNewOwner, Owned.transferOwnerShip, Owned.acceptOwnerShip,
        bind_assoc]; walk; done)

theorem same_irc (h : CallSame (f.call.depth - 1) c1 c2) :
    Same (f.call.calls - 1) (IRCToken.dispatch ⟨f, c1⟩) (IRCToken.dispatch ⟨f, c2⟩) := by
  unfold IRCToken.dispatch
  refine TableSame.run (TableSame.orElse (same_views _) ?_)
  obtain ⟨s, t, v, c, o, m, al⟩ := f
  cases c <;> first | exact True.intro | skip
  case transfer to x d =>
    exact Same.step _ (same_transfer (d.getD .noneBytes) h _ _ _) (Nat.le_refl _) (fun _ => Same.pure _)

theorem same_flex (h : CallSame (f.call.depth - 1) c1 c2) :
    Same (f.call.calls - 1) (FlexibleToken.dispatch ⟨f, c1⟩) (FlexibleToken.dispatch ⟨f, c2⟩) := by
  unfold FlexibleToken.dispatch
  refine TableSame.run (TableSame.orElse (same_views _) (TableSame.orElse (same_owned _) ?_))
  obtain ⟨s, t, v, c, o, m, al⟩ := f
  cases c <;> first | exact True.intro | skip
  case transfer to x d =>
    show Same ((d.getD .noneBytes).calls) _ _
    simp only [FlexibleToken.transfer, bind_assoc]
    refine Same.bind0 Same.get (fun _ => ?_)
    refine Same.bind0 (Same.require _ _) (fun _ => ?_)
    exact Same.step _ (same_transfer (d.getD .noneBytes) h _ _ _) (Nat.le_refl _) (fun _ => Same.pure _)
  case disableTransfer b =>
    show Same 0 _ _
    simp only [FlexibleToken.disableTransfer, bind_assoc]; walk
  case getFlexibleTokenVersion => show Same 0 _ _; walk
  case getTransferPossibility => show Same 0 _ _; walk
  case issue to x =>
    show Same 0 _ _
    simp only [FlexibleToken.issue, bind_assoc]; walk
  case destroy to x =>
    show Same 0 _ _
    simp only [FlexibleToken.destroy, bind_assoc]; walk
  case withdrawTokens t to x =>
    show Same 5 _ _
    exact Same.step 4 (same_tokenHolder h _ _ _) (by omega) (fun _ => Same.pure _)

theorem same_icx (h : CallSame (f.call.depth - 1) c1 c2) :
    Same (f.call.calls - 1) (IcxToken.dispatch ⟨f, c1⟩) (IcxToken.dispatch ⟨f, c2⟩) := by
  have ht : ∀ k o o', TableSame k o o' → Same k (runNonPayable ⟨f, c1⟩ <| orElse' (IRCToken.dispatchViews ⟨f, c1⟩ f.call) <|
      orElse' (Owned.dispatch ⟨f, c1⟩ f.call) o) (runNonPayable ⟨f, c2⟩ <| orElse' (IRCToken.dispatchViews ⟨f, c2⟩ f.call) <|
      orElse' (Owned.dispatch ⟨f, c2⟩ f.call) o') := fun k o o' h =>
    TableSame.run (TableSame.orElse (same_views _) (TableSame.orElse (same_owned _) h))
  unfold IcxToken.dispatch
  obtain ⟨s, t, v, c, o, m, al⟩ := f
  cases c <;> first | exact ht _ none none True.intro | skip
  case transfer to x d =>
    refine ht _ (some _) (some _) ?_
    show Same ((d.getD .noneBytes).calls) _ _
    simp only [IcxToken.transfer, bind_assoc]
    refine Same.bind0 (Same.require _ _) (fun _ => ?_)
    exact Same.step _ (same_transfer (d.getD .noneBytes) h _ _ _) (Nat.le_refl _) (fun _ => Same.pure _)
  case deposit =>
    show Same 0 _ _
    simp only [IcxToken.deposit, bind_assoc]; walk
  case fallback =>
    show Same 0 _ _
    simp only [IcxToken.deposit, bind_assoc]; walk
  case withdraw x =>
    refine ht _ (some _) (some _) ?_
    exact Same.step 1 (same_withdrawTo h _ _) (Nat.le_refl 1) (fun _ => Same.pure _)
  case withdrawTo x to =>
    refine ht _ (some _) (some _) ?_
    exact Same.step 1 (same_withdrawTo h _ _) (Nat.le_refl 1) (fun _ => Same.pure _)
  case withdrawTokens t to x =>
    refine ht _ (some _) (some _) ?_
    show Same 5 _ _
    exact Same.step 4 (same_tokenHolder h _ _ _) (by omega) (fun _ => Same.pure _)

theorem same_reg : Same k (ScoreRegistry.dispatch ⟨f, c1⟩) (ScoreRegistry.dispatch ⟨f, c2⟩) := by
  unfold ScoreRegistry.dispatch
  refine TableSame.run (TableSame.orElse (same_owned _) ?_)
  obtain ⟨s, t, v, c, o, m, al⟩ := f
  cases c <;> first | exact True.intro | skip
  all_goals
    simp only [TableSame, ScoreRegistry.getAddress, ScoreRegistry.registerAddress, ScoreRegistry.unregisterAddress, bind_assoc]
    walk

theorem Data.depth_ge (d : Data) : 2 ≤ d.depth := by unfold Data.depth; split; · omega
                                                     split <;> omega

theorem same_getConnectorAt (i : Int) :
    Same k (Converter.getConnectorAt ⟨f, c1⟩ i) (Converter.getConnectorAt ⟨f, c2⟩ i) := by
  show Same k (Converter.getConnectorAt ⟨f, c1⟩ i) (Converter.getConnectorAt ⟨f, c1⟩ i)
  unfold Converter.getConnectorAt
  refine Same.bind0 Same.get (fun w => ?_)
  refine Same.ite _ (fun _ => ?_) (fun _ => Same.fail _)
  split <;> walk

theorem same_disableConversions (b : Bool) :
    Same k (Converter.disableConversions ⟨f, c1⟩ b) (Converter.disableConversions ⟨f, c2⟩ b) := by
  unfold Converter.disableConversions; walk
macro_rules | `(tactic| same0) => `(tactic| with_reducible exact same_disableConversions _)

theorem same_conv (h : CallSame (f.call.depth - 1) c1 c2) :
    Same (f.call.calls - 1) (Converter.dispatch ⟨f, c1⟩) (Converter.dispatch ⟨f, c2⟩) := by
  unfold Converter.dispatch
  refine TableSame.run (TableSame.orElse (same_owned _) ?_)
  obtain ⟨s, t, v, c, o, m, al⟩ := f
  cases c <;> first | exact True.intro | skip
  case tokenFallback a x d =>
    show Same (d.calls - 1) _ _
    replace h : CallSame (d.depth - 1) c1 c2 := h
    have h1 : CallSame 1 c1 c2 := h.mono (by have := d.depth_ge; omega)
    have h3 : d.asksConverter = true → CallSame 3 c1 c2 := by
      intro hd
      apply h.mono
      unfold Data.depth
      rw [if_pos hd]
      split <;> omega
    refine (same_converterFallback d h1 h3 a x).mono ?_
    unfold Data.calls
    split <;> split <;> omega
  case withdrawTokens t to x =>
    replace h : CallSame 3 c1 c2 := h
    have h1 : CallSame 1 c1 c2 := h.mono (by omega)
    show Same 5 _ _
    simp only [Converter.withdrawTokens, bind_assoc]; walk
  case isActive => replace h : CallSame 1 c1 c2 := h; show Same 1 _ _; walk
  case transferTokenOwnership a =>
    replace h : CallSame 1 c1 c2 := h; show Same 1 _ _
    simp only [Controller.transferTokenOwnership, bind_assoc]; walk
  case acceptTokenOwnership =>
    replace h : CallSame 1 c1 c2 := h; show Same 1 _ _
    simp only [Controller.acceptTokenOwnership, bind_assoc]; walk
  case disableTokenTransfers b =>
    replace h : CallSame 1 c1 c2 := h; show Same 1 _ _
    simp only [Controller.disableTokenTransfers, bind_assoc]; walk
  case withdrawFromToken t to x =>
    show Same 6 _ _
    simp only [Controller.withdrawFromToken, bind_assoc]
    refine Same.bind0 same_requireOwnerOnly (fun _ => ?_)
    refine Same.bind0 same_token (fun _ => ?_)
    exact Same.step 6 (h _ _ (.withdrawTokens _ _ _) (by exact Nat.le_of_ble_eq_true rfl)) (by omega) (fun _ => Same.pure _)
  case addConnector t wt b =>
    replace h : CallSame 1 c1 c2 := h; show Same 1 _ _
    simp only [Converter.addConnector, bind_assoc]; walk
  case updateRegistry =>
    replace h : CallSame 1 c1 c2 := h; show Same 1 _ _
    simp only [Converter.updateRegistry, bind_assoc]
    refine Same.bind0 Same.get (fun w => ?_)
    refine Same.bind0 (Same.require _ _) (fun _ => ?_)
    refine Same.step 1 ?_ (by omega) (fun _ => Same.pure _)
    show Same 1 (match (w.conv t).registry with | none => _ | some r => _)
      (match (w.conv t).registry with | none => _ | some r => _)
    split <;> walk
  case getConnectorBalance a => replace h : CallSame 1 c1 c2 := h; show Same 1 _ _; walk
  case getReturn a b x =>
    replace h : CallSame 1 c1 c2 := h; show Same 3 _ _
    exact Same.step 3 (same_getReturn h _ _ _) (by omega) (fun _ => Same.pure _)
  case getConnectorAt i =>
    exact Same.bind0 (same_getConnectorAt i) (fun _ => Same.pure _)
  case getConnector a => show Same 0 _ _; walk
  all_goals
    show Same 0 _ _
    try simp only [Managed.transferManagement, Managed.acceptManagement, Converter.updateConnector, Converter.disableConnectorPurchases,
      Converter.restoreRegistry, Converter.disableRegistryUpdate, Converter.setConversionFee, bind_assoc]
    walk

theorem same_net (h : CallSame (f.call.depth - 1) c1 c2) :
    Same (f.call.calls - 1) (Network.dispatch ⟨f, c1⟩) (Network.dispatch ⟨f, c2⟩) := by
  have ht : ∀ k o o', TableSame k o o' → Same k (runNonPayable ⟨f, c1⟩ <| orElse' (Owned.dispatch ⟨f, c1⟩ f.call) o)
      (runNonPayable ⟨f, c2⟩ <| orElse' (Owned.dispatch ⟨f, c2⟩ f.call) o') := fun k o o' h =>
    TableSame.run (TableSame.orElse (same_owned _) h)
  unfold Network.dispatch
  obtain ⟨s, t, v, c, o, m, al⟩ := f
  cases c <;> first | exact ht _ none none True.intro | skip
  case convert p m =>
    exact Same.step 195 (same_convertFor h p m _) (Nat.le_refl 195) (fun _ => Same.pure _)
  case convertFor p m a =>
    exact Same.step 195 (same_convertFor h p m a) (Nat.le_refl 195) (fun _ => Same.pure _)
  case withdrawTokens t to x =>
    refine ht _ (some _) (some _) ?_
    show Same 5 _ _
    exact Same.step 4 (same_tokenHolder h _ _ _) (by omega) (fun _ => Same.pure _)
  case tokenFallback a x d =>
    refine ht _ (some _) (some _) ?_
    show Same (d.calls - 1) _ _
    replace h : CallSame (d.depth - 1) c1 c2 := h
    have h3 : d.asksNetwork = true → CallSame 5 c1 c2 := by
      intro hd
      apply h.mono
      unfold Data.depth
      rw [if_pos hd]; omega
    refine Same.step _ (same_networkFallback d h3 a x) ?_ (fun _ => Same.pure _)
    unfold Data.calls
    split
    · omega
    · omega
  case getExpectedReturnByPath p x =>
    refine ht _ (some _) (some _) ?_
    exact Same.step 50 (same_getExpectedReturnByPath h p x) (Nat.le_refl 50) (fun _ => Same.pure _)
  case getIcxTokenRegistered a =>
    refine ht _ (some _) (some _) ?_
    show Same 0 _ _; walk
  case registerIcxToken a b =>
    refine ht _ (some _) (some _) ?_
    show Same 0 _ _
    simp only [Network.registerIcxToken, bind_assoc]
    refine Same.bind0 same_requireOwnerOnly (fun _ => ?_)
    refine Same.bind0 (Same.require _ _) (fun _ => ?_)
    refine Same.bind0 (Same.require _ _) (fun _ => ?_)
    refine Same.bind0 (Same.modify _ (fun _ => rfl) (fun _ => rfl)) (fun _ => Same.pure _)

theorem same_body (orc orc' : Oracle) (h : CallSame (f.call.depth - 1) c1 c2) :
    Same (f.call.calls - 1) (body orc ⟨f, c1⟩) (body orc' ⟨f, c2⟩) := by
  unfold body
  refine Same.bindGet (fun w hw => ?_)
  show Same (f.call.calls - 1) (match w.kind f.to with | .none => _ | .irc => _ | .icx => _ | .flex => _ | .conv => _ | .net => _ | .reg => _ | .foreign => _)
    (match w.kind f.to with | .none => _ | .irc => _ | .icx => _ | .flex => _ | .conv => _ | .net => _ | .reg => _ | .foreign => _)
  cases hk : w.kind f.to with
  | none => dsimp only; walk
  | irc => exact same_irc h
  | icx => exact same_icx h
  | flex => exact same_flex h
  | conv => exact same_conv h
  | net => exact same_net h
  | reg => exact same_reg
  | foreign => exact absurd hk (hw _)

theorem depth_pos (c : Call) : 1 ≤ c.depth := by
  cases c <;> first | exact Nat.le_of_ble_eq_true rfl | exact Nat.succ_pos _ | skip
  · exact Nat.le_trans (by omega) (Data.depth_ge _)

theorem calls_pos (c : Call) : 1 ≤ c.calls := by
  cases c <;> first | exact Nat.le_of_ble_eq_true rfl | exact Nat.succ_pos _ | skip
  · show 1 ≤ Data.calls _
    unfold Data.calls
    split; · omega
    split <;> omega

/-- Entering a call, then its body. -/
theorem same_entered (orc orc' : Oracle) (n m : Nat) (s t : Addr) (v : Int) (c : Call)
    (h : CallSame (c.depth - 1) (exec orc n t) (exec orc' m t)) :
    Same c.calls (exec orc (n + 1) s t v c) (exec orc' (m + 1) s t v c) := by
  unfold exec
  have hp := calls_pos c
  unfold enter
  simp only [bind_assoc, pure_bind]
  refine Same.bind0 Same.get (fun w => ?_)
  refine Same.bind0 (Same.require _ _) (fun _ => ?_)
  refine Same.bind0 (Same.modify _ (fun _ => rfl) (fun _ => rfl)) (fun _ => ?_)
  refine Same.step 1 (Same.modifyFrames _) hp (fun _ => ?_)
  exact same_body (f := mkFrame w s t v c) orc orc' h

/-- Calls with enough depth do the same. -/
theorem same_exec (orc orc' : Oracle) : ∀ (d n m : Nat) (s t : Addr) (v : Int) (c : Call), c.depth ≤ d → c.depth ≤ n →
    c.depth ≤ m → Same c.calls (exec orc n s t v c) (exec orc' m s t v c)
  | 0, _, _, _, _, _, c, h, _, _ => absurd h (by have := depth_pos c; omega)
  | _ + 1, 0, _, _, _, _, c, _, h, _ => absurd h (by have := depth_pos c; omega)
  | _ + 1, _ + 1, 0, _, _, _, c, _, _, h => absurd h (by have := depth_pos c; omega)
  | d + 1, n + 1, m + 1, s, t, v, c, hd, hn, hm => by
    apply same_entered
    intro t' v' c' h'
    exact same_exec orc orc' d n m t t' v' c' (by omega) (by omega) (by omega)

/-- Calls make a bounded number of calls, whatever their budget. -/
theorem cost_exec (orc : Oracle) : ∀ (n : Nat) (s t : Addr) (v : Int) (c : Call),
    Same c.calls (exec orc n s t v c) (exec orc n s t v c)
  | 0, _, _, _, _ => Same.fail _
  | n + 1, s, t, v, c => same_entered orc orc n n s t v c fun t' v' c' _ => cost_exec orc n t t' v' c'

theorem Data.depth_le (d : Data) : d.depth ≤ 6 := by unfold Data.depth; split; · omega
                                                     split <;> omega

theorem Data.calls_le (d : Data) : d.calls ≤ 195 := by unfold Data.calls; split; · omega
                                                       split <;> omega

theorem depth_le (c : Call) : c.depth ≤ 7 := by
  cases c <;> first | exact Nat.le_of_ble_eq_true rfl | exact Nat.succ_le_succ (Data.depth_le _) | skip
  · exact Nat.le_trans (Data.depth_le _) (by omega)

theorem calls_le (c : Call) : c.calls ≤ 196 := by
  cases c <;> first | exact Nat.le_of_ble_eq_true rfl | exact Nat.succ_le_succ (Data.calls_le _) | skip
  · exact Nat.le_trans (Data.calls_le _) (by omega)

theorem same_addConnector (h : CallSame 1 c1 c2) (a : Addr) (wt : Int) (b : Bool) :
    Same 1 (Converter.addConnector ⟨f, c1⟩ a wt b) (Converter.addConnector ⟨f, c2⟩ a wt b) := by
  unfold Converter.addConnector; walk

theorem same_ircInstall (n s : String) (i d : Int) :
    Same k (IRCToken.onInstall ⟨f, c1⟩ n s i d) (IRCToken.onInstall ⟨f, c2⟩ n s i d) := by
  unfold IRCToken.onInstall; walk
macro_rules | `(tactic| same0) => `(tactic| with_reducible exact same_ircInstall _ _ _ _)

theorem same_ownedInstall : Same k (Owned.onInstall ⟨f, c1⟩) (Owned.onInstall ⟨f, c2⟩) := Same.modOwn _ _
macro_rules | `(tactic| same0) => `(tactic| with_reducible exact same_ownedInstall)

theorem same_controllerInstall (t : Option Addr) :
    Same k (Controller.onInstall ⟨f, c1⟩ t) (Controller.onInstall ⟨f, c2⟩ t) := by
  unfold Controller.onInstall; walk
macro_rules | `(tactic| same0) => `(tactic| with_reducible exact same_controllerInstall _)

theorem same_install (orc orc' : Oracle) (i : Install) (hi : i ≠ .foreign) (h : CallSame 1 c1 c2) :
    Same 1 (install orc ⟨f, c1⟩ i) (install orc' ⟨f, c2⟩ i) := by
  cases i with
  | irc n s x d => exact same_ircInstall n s x d
  | icx => show Same 1 (IcxToken.onInstall _) (IcxToken.onInstall _); unfold IcxToken.onInstall; walk
  | flex n s x d => show Same 1 (FlexibleToken.onInstall _ _ _ _ _) (FlexibleToken.onInstall _ _ _ _ _); unfold FlexibleToken.onInstall; walk
  | net => exact same_ownedInstall
  | reg =>
    show Same 1 (ScoreRegistry.onInstall _) (ScoreRegistry.onInstall _)
    unfold ScoreRegistry.onInstall ScoreRegistry.registerAddress; walk
  | foreign => exact absurd rfl hi
  | conv t r m ct cw =>
    show Same 1 (Converter.onInstall _ _ _ _ _ _) (Converter.onInstall _ _ _ _ _ _)
    unfold Converter.onInstall
    walk
    cases ct with
    | none => exact Same.pure _
    | some a => exact Same.ite _ (fun _ => same_addConnector h _ _ _) (fun _ => Same.pure _)

theorem Same.setKind {k : Nat} (a : Addr) (x : Kind) (hx : x ≠ .foreign) :
    Same k (_root_.modify (fun w : World => w.setKind a x) : M Unit) (_root_.modify (fun w : World => w.setKind a x)) := by
  intro w hw
  refine ⟨rfl, fun _ w' e => ?_⟩
  cases e
  refine ⟨fun b => ?_, by show w.frames.length ≤ _; omega⟩
  show upd w.kind a x b ≠ _
  unfold upd
  split
  · exact hx
  · exact hw b

theorem same_deploy (orc orc' : Oracle) (n m : Nat) (s a : Addr) (i : Install) (hi : i ≠ .foreign)
    (h : CallSame 1 (exec orc n a) (exec orc' m a)) : Same 2 (deploy orc n s a i) (deploy orc' m s a i) := by
  unfold deploy enter
  simp only [bind_assoc, pure_bind]
  refine Same.bind0 Same.get (fun w => ?_)
  refine Same.bind0 (Same.require _ _) (fun _ => ?_)
  refine Same.bind0 (Same.setKind _ _ (by cases i <;> first | exact absurd rfl hi | exact Kind.noConfusion)) (fun _ => ?_)
  refine Same.bind0 Same.get (fun w => ?_)
  refine Same.bind0 (Same.require _ _) (fun _ => ?_)
  refine Same.bind0 (Same.modify _ (fun _ => rfl) (fun _ => rfl)) (fun _ => ?_)
  refine Same.step 1 (Same.modifyFrames _) (by omega) (fun _ => ?_)
  exact Same.step 1 (same_install (f := mkFrame w s a 0 (.onInstall i)) orc orc' i hi h) (by omega) (fun _ => Same.pure _)

theorem same_tx (orc orc' : Oracle) {n m : Nat} (hn : 7 ≤ n) (hm : 7 ≤ m) (tx : Tx) (ht : tx.Own) :
    Same 196 (tx.run orc n) (tx.run orc' m) := by
  cases tx with
  | call s t v c =>
    refine Same.bind0 (Same.require _ _) (fun _ => ?_)
    have := depth_le c
    exact (same_exec orc orc' 7 n m s t v c this (by omega) (by omega)).mono (calls_le c)
  | deploy s a i =>
    refine Same.bind0 (Same.require _ _) (fun _ => ?_)
    refine (same_deploy orc orc' n m s a i ht fun t v c hc => ?_).mono (by omega)
    exact same_exec orc orc' 7 n m a t v c (by omega) (by omega) (by omega)

theorem cost_tx (orc : Oracle) (n : Nat) (tx : Tx) (ht : tx.Own) : Same 196 (tx.run orc n) (tx.run orc n) := by
  cases tx with
  | call s t v c =>
    refine Same.bind0 (Same.require _ _) (fun _ => ?_)
    exact (cost_exec orc n s t v c).mono (calls_le c)
  | deploy s a i =>
    refine Same.bind0 (Same.require _ _) (fun _ => ?_)
    exact (same_deploy orc orc n n s a i ht fun t v c _ => cost_exec orc n a t v c).mono (by omega)

end Verif

import Verif.Proofs.Sent
import Verif.Spec.Local
/-!
A successful call depends on and changes only what there is at the addresses it touches.
-/
set_option autoImplicit false
namespace Verif

/-- Two ledgers that have the same at the addresses in `S`. -/
structure RowsAt (S : Addr → Prop) (w w' : World) : Prop where
  row : ∀ {a}, S a → w.row a = w'.row a

/-- No third-party code at the addresses in `S`. -/
def OwnAt (S : Addr → Prop) (w : World) : Prop := ∀ a, S a → w.kind a ≠ .foreign

namespace RowsAt
variable {S : Addr → Prop} {w w' : World}
theorem refl : RowsAt S w w := ⟨fun _ => rfl⟩
variable (h : RowsAt S w w') {a : Addr} (ha : S a)
include h ha
theorem kind : w.kind a = w'.kind a := congrArg Row.kind (h.row ha)
theorem coin : w.coin a = w'.coin a := congrArg Row.coin (h.row ha)
theorem tok : w.tok a = w'.tok a := congrArg Row.tok (h.row ha)
theorem own : w.own a = w'.own a := congrArg Row.own (h.row ha)
theorem flex : w.flex a = w'.flex a := congrArg Row.flex (h.row ha)
theorem conv : w.conv a = w'.conv a := congrArg Row.conv (h.row ha)
theorem reg : w.reg a = w'.reg a := congrArg Row.reg (h.row ha)
theorem net : w.net a = w'.net a := congrArg Row.net (h.row ha)
theorem store : w.store a = w'.store a := congrArg Row.store (h.row ha)
end RowsAt

/-- The step from `w` to `w1` makes the calls `l`, writes the event logs `g` and changes nothing outside `S`. -/
structure Next (S : Addr → Prop) (l : List Frame) (g : List (Addr × Event)) (w w1 : World) : Prop where
  frames : w1.frames = l ++ w.frames
  log : w1.log = g ++ w.log
  row : ∀ a, ¬ S a → w1.row a = w.row a

theorem Next.refl {S : Addr → Prop} {w : World} : Next S [] [] w w := ⟨rfl, rfl, fun _ _ => rfl⟩

theorem Next.trans {S : Addr → Prop} {l l' : List Frame} {g g' : List (Addr × Event)} {w w1 w2 : World} (h : Next S l g w w1)
    (h' : Next S l' g' w1 w2) : Next S (l' ++ l) (g' ++ g) w w2 :=
  ⟨by rw [h'.frames, h.frames, List.append_assoc], by rw [h'.log, h.log, List.append_assoc],
    fun a ha => (h'.row a ha).trans (h.row a ha)⟩

/-- A success of `m` that touches only `S` is a success of `m'` with the same result, calls and event logs on every ledger that
has the same at `S`; both change nothing outside `S`. -/
def Local {α} (S : Addr → Prop) (m m' : M α) : Prop :=
  ∀ w x w1, m w = .ok (x, w1) → ∃ l, w1.frames = l ++ w.frames ∧
    ∀ w', RowsAt S w w' → OwnAt S w → (∀ f ∈ l, S f.to) →
      ∃ g w1', m' w' = .ok (x, w1') ∧ Next S l g w w1 ∧ Next S l g w' w1' ∧ RowsAt S w1 w1' ∧ OwnAt S w1

namespace Local
variable {α β : Type} {S : Addr → Prop}

theorem bind {m m' : M α} {f f' : α → M β} (h : Local S m m') (hf : ∀ x, Local S (f x) (f' x)) :
    Local S (m >>= f) (m' >>= f') := by
  intro w y w2 e
  change (StateT.bind m f) w = _ at e
  simp only [StateT.bind] at e
  cases hm : m w with
  | error er => rw [hm] at e; cases e
  | ok p =>
    obtain ⟨x, w1⟩ := p
    rw [hm] at e
    obtain ⟨l, hl, h1⟩ := h w x w1 hm
    obtain ⟨l2, hl2, h2⟩ := hf x w1 y w2 e
    refine ⟨l2 ++ l, by rw [hl2, hl, List.append_assoc], fun w' ha ho hc => ?_⟩
    obtain ⟨g, w1', e1, n1, n1', a1, o1⟩ := h1 w' ha ho (fun q hq => hc q (List.mem_append_right _ hq))
    obtain ⟨g2, w2', e2, n2, n2', a2, o2⟩ := h2 w1' a1 o1 (fun q hq => hc q (List.mem_append_left _ hq))
    refine ⟨g2 ++ g, w2', ?_, n1.trans n2, n1'.trans n2', a2, o2⟩
    show (StateT.bind m' f') w' = _
    simp only [StateT.bind]
    rw [e1]
    exact e2

theorem bindGet {f f' : World → M β} (h : ∀ w w' : World, RowsAt S w w' → Local S (f w) (f' w')) :
    Local S ((MonadState.get : M World) >>= f) ((MonadState.get : M World) >>= f') := by
  intro w y w2 e
  obtain ⟨l, hl, _⟩ := h w w .refl w y w2 e
  refine ⟨l, hl, fun w' ha ho hc => ?_⟩
  obtain ⟨l', hl', h'⟩ := h w w' ha w y w2 e
  obtain rfl : l' = l := List.append_cancel_right (hl'.symm.trans hl)
  exact h' w' ha ho hc

theorem pure (a : α) : Local S (Pure.pure a : M α) (Pure.pure a) := by
  intro w x w1 e
  cases e
  exact ⟨[], rfl, fun w' ha ho _ => ⟨[], w', rfl, .refl, .refl, ha, ho⟩⟩

theorem fail (e : Err) : Local S (Verif.fail e : M α) (Verif.fail e) := by
  intro w x w1 e
  cases e

theorem ite (c : Prop) [Decidable c] {a a' b b' : M α} (h : c → Local S a a') (h' : ¬ c → Local S b b') :
    Local S (if c then a else b) (if c then a' else b') := by
  split
  · exact h ‹_›
  · exact h' ‹_›

theorem require (c : Prop) [Decidable c] (s : String) : Local S (Verif.require c s) (Verif.require c s) := by
  unfold Verif.require
  exact ite c (fun _ => pure _) (fun _ => fail _)

theorem liftE (e : Except Err α) : Local S (Verif.liftE e) (Verif.liftE e) := by
  cases e
  · exact fail _
  · exact pure _

theorem asInt (v : Val) : Local S (Verif.asInt v) (Verif.asInt v) := by
  cases v <;> first | exact pure _ | exact fail _

theorem asAmount (v : Val) : Local S (Verif.asAmount v) (Verif.asAmount v) := by
  cases v <;> first | exact pure _ | exact fail _

theorem asAddr (v : Val) : Local S (Verif.asAddr v) (Verif.asAddr v) := by
  unfold Verif.asAddr
  split
  · exact pure _
  · exact fail _

/-- Changing what there is at one address of `S`. -/
theorem modifyRow (g : World → World) {b : Addr} (hb : S b) (h : Row → Row) (e : List (Addr × Event)) (hf : ∀ w, (g w).frames = w.frames)
    (hl : ∀ w, (g w).log = e ++ w.log) (hk : ∀ r, (h r).kind = r.kind)
    (hr : ∀ w a, (g w).row a = if a = b then h (w.row b) else w.row a) :
    Local S (_root_.modify g : M Unit) (_root_.modify g) := by
  have hn : ∀ w, Next S [] e w (g w) := fun w => ⟨hf w, hl w, fun a ha => by
    rw [hr, if_neg]; rintro rfl; exact ha hb⟩
  intro w x w1 he
  cases he
  refine ⟨[], hf w, fun w' ha ho _ => ⟨e, g w', rfl, hn w, hn w', ⟨fun {a} hs => ?_⟩, fun a hs => ?_⟩⟩
  · rw [hr, hr, ha.row hb, ha.row hs]
  · have : ((g w).row a).kind ≠ .foreign := by
      rw [hr]
      split
      · rename_i h; subst h; rw [hk]; exact ho _ hs
      · exact ho _ hs
    exact this

theorem emit (a : Addr) (e : Event) : Local S (Verif.emit a e) (Verif.emit a e) := by
  intro w x w1 he
  cases he
  exact ⟨[], rfl, fun w' ha ho _ => ⟨[(a, e)], w'.addLog a e, rfl, ⟨rfl, rfl, fun _ _ => rfl⟩, ⟨rfl, rfl, fun _ _ => rfl⟩,
    ⟨fun hs => ha.row hs⟩, ho⟩⟩

variable {a : Addr} (ha : S a)
include ha
theorem modTok (g : TokSt → TokSt) : Local S (Verif.modTok a g) (Verif.modTok a g) :=
  modifyRow _ ha (fun r => { r with tok := g r.tok }) [] (fun _ => rfl) (fun _ => rfl) (fun _ => rfl) fun w b => by
    unfold World.row World.setTok upd; by_cases h : b = a
    · subst h; simp
    · simp [h]
theorem modOwn (g : OwnSt → OwnSt) : Local S (Verif.modOwn a g) (Verif.modOwn a g) :=
  modifyRow _ ha (fun r => { r with own := g r.own }) [] (fun _ => rfl) (fun _ => rfl) (fun _ => rfl) fun w b => by
    unfold World.row World.setOwn upd; by_cases h : b = a
    · subst h; simp
    · simp [h]
theorem modFlex (g : FlexSt → FlexSt) : Local S (Verif.modFlex a g) (Verif.modFlex a g) :=
  modifyRow _ ha (fun r => { r with flex := g r.flex }) [] (fun _ => rfl) (fun _ => rfl) (fun _ => rfl) fun w b => by
    unfold World.row World.setFlex upd; by_cases h : b = a
    · subst h; simp
    · simp [h]
theorem modConv (g : ConvSt → ConvSt) : Local S (Verif.modConv a g) (Verif.modConv a g) :=
  modifyRow _ ha (fun r => { r with conv := g r.conv }) [] (fun _ => rfl) (fun _ => rfl) (fun _ => rfl) fun w b => by
    unfold World.row World.setConv upd; by_cases h : b = a
    · subst h; simp
    · simp [h]
theorem setEntry (n : String) (v : Option Addr) : Local S (ScoreRegistry.setEntry a n v) (ScoreRegistry.setEntry a n v) :=
  modifyRow _ ha (fun r => { r with reg := upd r.reg n v }) [] (fun _ => rfl) (fun _ => rfl) (fun _ => rfl) fun w b => by
    unfold World.row World.setReg upd; by_cases h : b = a
    · subst h; simp
    · simp [h]
theorem setNet (x : Addr) (y : Bool) : Local S (_root_.modify (fun w => w.setNet a (upd (w.net a) x y)) : M Unit)
    (_root_.modify (fun w => w.setNet a (upd (w.net a) x y))) :=
  modifyRow _ ha (fun r => { r with net := upd r.net x y }) [] (fun _ => rfl) (fun _ => rfl) (fun _ => rfl) fun w b => by
    unfold World.row World.setNet upd; by_cases h : b = a
    · subst h; simp
    · simp [h]

end Local

/-- The nested calls are local. -/
def CallLocal (S : Addr → Prop) (c1 c2 : Addr → Int → Call → M Val) : Prop := ∀ t v c, Local S (c1 t v c) (c2 t v c)

variable {S : Addr → Prop} {f : Frame} {c1 c2 : Addr → Int → Call → M Val}

theorem Local.call (h : CallLocal S c1 c2) (t : Addr) (v : Int) (c : Call) : Local S (c1 t v c) (c2 t v c) := h t v c

theorem Local.modConnector (h : S f.to) (a : Addr) (g : Connector → Connector) :
    Local S (Converter.modConnector ⟨f, c1⟩ a g) (Converter.modConnector ⟨f, c2⟩ a g) := Local.modConv h _

/-- A step of a method; extended below. -/
syntax "loc0" : tactic
macro_rules | `(tactic| loc0) => `(tactic| with_reducible exact Local.pure _)
macro_rules | `(tactic| loc0) => `(tactic| with_reducible exact Local.fail _)
macro_rules | `(tactic| loc0) => `(tactic| with_reducible exact Local.require _ _)
macro_rules | `(tactic| loc0) => `(tactic| with_reducible exact Local.modTok (by assumption) _)
macro_rules | `(tactic| loc0) => `(tactic| with_reducible exact Local.modOwn (by assumption) _)
macro_rules | `(tactic| loc0) => `(tactic| with_reducible exact Local.modFlex (by assumption) _)
macro_rules | `(tactic| loc0) => `(tactic| with_reducible exact Local.modConv (by assumption) _)
macro_rules | `(tactic| loc0) => `(tactic| with_reducible exact Local.modConnector (by assumption) _ _)
macro_rules | `(tactic| loc0) => `(tactic| with_reducible exact Local.setEntry (by assumption) _ _)
macro_rules | `(tactic| loc0) => `(tactic| with_reducible exact Local.setNet (by assumption) _ _)
macro_rules | `(tactic| loc0) => `(tactic| with_reducible exact Local.emit _ _)
macro_rules | `(tactic| loc0) => `(tactic| with_reducible exact Local.liftE _)
macro_rules | `(tactic| loc0) => `(tactic| with_reducible exact Local.asInt _)
macro_rules | `(tactic| loc0) => `(tactic| with_reducible exact Local.asAmount _)
macro_rules | `(tactic| loc0) => `(tactic| with_reducible exact Local.asAddr _)
macro_rules | `(tactic| loc0) => `(tactic| with_reducible exact Local.call (by assumption) _ _ _)

/-- One step of a method. -/
macro "loc1" hs:ident : tactic => `(tactic| first
  | loc0
  | (with_reducible refine Local.bind (by loc0) (fun _ => ?_))
  | (with_reducible refine Local.bindGet (fun w w' hw => ?_)
     try dsimp only [Ctx.self, Ctx.sender, Ctx.value]
     try rw [hw.tok $hs]
     try rw [hw.own $hs]
     try rw [hw.flex $hs]
     try rw [hw.conv $hs]
     try rw [hw.reg $hs]
     try rw [hw.net $hs]
     clear hw)
  | (with_reducible refine Local.ite _ (fun _ => ?_) (fun _ => ?_)))

/-- Walks through a method. -/
macro "lwalk" hs:ident : tactic => `(tactic| repeat' loc1 $hs)

variable (hs : S f.to)
include hs

theorem loc_requireOwnerOnly : Local S (Owned.requireOwnerOnly ⟨f, c1⟩) (Owned.requireOwnerOnly ⟨f, c2⟩) := by
  unfold Owned.requireOwnerOnly; lwalk hs
macro_rules | `(tactic| loc0) => `(tactic| with_reducible exact loc_requireOwnerOnly (by assumption))

theorem loc_requireOwnerOrManagerOnly : Local S (Managed.requireOwnerOrManagerOnly ⟨f, c1⟩) (Managed.requireOwnerOrManagerOnly ⟨f, c2⟩) := by
  unfold Managed.requireOwnerOrManagerOnly; lwalk hs
macro_rules | `(tactic| loc0) => `(tactic| with_reducible exact loc_requireOwnerOrManagerOnly (by assumption))

theorem loc_token : Local S (Controller.token ⟨f, c1⟩) (Controller.token ⟨f, c2⟩) := by
  unfold Controller.token; lwalk hs
  split <;> lwalk hs
macro_rules | `(tactic| loc0) => `(tactic| with_reducible exact loc_token (by assumption))

theorem loc_connector (a : Addr) : Local S (Converter.connector ⟨f, c1⟩ a) (Converter.connector ⟨f, c2⟩ a) := by
  unfold Converter.connector; lwalk hs
macro_rules | `(tactic| loc0) => `(tactic| with_reducible exact loc_connector (by assumption) _)

theorem loc_requireValidConnector (a : Addr) : Local S (Converter.requireValidConnector ⟨f, c1⟩ a) (Converter.requireValidConnector ⟨f, c2⟩ a) := by
  unfold Converter.requireValidConnector; lwalk hs
macro_rules | `(tactic| loc0) => `(tactic| with_reducible exact loc_requireValidConnector (by assumption) _)

omit hs in
theorem loc_requireValidConnectorWeight (x : Int) :
    Local S (Converter.requireValidConnectorWeight x) (Converter.requireValidConnectorWeight x) := Local.require _ _
macro_rules | `(tactic| loc0) => `(tactic| with_reducible exact loc_requireValidConnectorWeight _)

omit hs in
theorem loc_safeSub (x y : Int) : Local S (Converter.safeSub x y) (Converter.safeSub x y) :=
  Local.bind (Local.require _ _) (fun _ => Local.pure _)
macro_rules | `(tactic| loc0) => `(tactic| with_reducible exact loc_safeSub _ _)

omit hs in
theorem loc_readPath (p : List Char) : Local S (Network.readPath p) (Network.readPath p) := by
  unfold Network.readPath
  split
  · exact Local.pure _
  · exact Local.fail _
macro_rules | `(tactic| loc0) => `(tactic| with_reducible exact loc_readPath _)

omit hs in
theorem loc_requireValidPath (p : List Addr) : Local S (Network.requireValidPath p) (Network.requireValidPath p) := Local.require _ _
macro_rules | `(tactic| loc0) => `(tactic| with_reducible exact loc_requireValidPath _)

theorem loc_getFinalAmount (a m : Int) : Local S (Converter.getFinalAmount ⟨f, c1⟩ a m) (Converter.getFinalAmount ⟨f, c2⟩ a m) := by
  unfold Converter.getFinalAmount; lwalk hs
macro_rules | `(tactic| loc0) => `(tactic| with_reducible exact loc_getFinalAmount (by assumption) _ _)

theorem loc_finish (a m : Int) : Local S (Converter.finish ⟨f, c1⟩ a m) (Converter.finish ⟨f, c2⟩ a m) := by
  unfold Converter.finish; lwalk hs
macro_rules | `(tactic| loc0) => `(tactic| with_reducible exact loc_finish (by assumption) _ _)

theorem loc_creditVirtual (a : Addr) (v : Int) : Local S (Converter.creditVirtual ⟨f, c1⟩ a v) (Converter.creditVirtual ⟨f, c2⟩ a v) := by
  unfold Converter.creditVirtual; lwalk hs
macro_rules | `(tactic| loc0) => `(tactic| with_reducible exact loc_creditVirtual (by assumption) _ _)

theorem loc_debitVirtual (a : Addr) (v : Int) : Local S (Converter.debitVirtual ⟨f, c1⟩ a v) (Converter.debitVirtual ⟨f, c2⟩ a v) := by
  unfold Converter.debitVirtual; lwalk hs
macro_rules | `(tactic| loc0) => `(tactic| with_reducible exact loc_debitVirtual (by assumption) _ _)

theorem loc_isActive (h : CallLocal S c1 c2) : Local S (Controller.isActive ⟨f, c1⟩) (Controller.isActive ⟨f, c2⟩) := by
  unfold Controller.isActive; lwalk hs
macro_rules | `(tactic| loc0) => `(tactic| with_reducible exact loc_isActive (by assumption) (by assumption))

theorem loc_requireActive (h : CallLocal S c1 c2) : Local S (Controller.requireActive ⟨f, c1⟩) (Controller.requireActive ⟨f, c2⟩) := by
  unfold Controller.requireActive; lwalk hs
macro_rules | `(tactic| loc0) => `(tactic| with_reducible exact loc_requireActive (by assumption) (by assumption))

theorem loc_requireInactive (h : CallLocal S c1 c2) : Local S (Controller.requireInactive ⟨f, c1⟩) (Controller.requireInactive ⟨f, c2⟩) := by
  unfold Controller.requireInactive; lwalk hs
macro_rules | `(tactic| loc0) => `(tactic| with_reducible exact loc_requireInactive (by assumption) (by assumption))

theorem loc_getConnectorBalance (h : CallLocal S c1 c2) (a : Addr) : Local S (Converter.getConnectorBalance ⟨f, c1⟩ a) (Converter.getConnectorBalance ⟨f, c2⟩ a) := by
  unfold Converter.getConnectorBalance; lwalk hs
macro_rules | `(tactic| loc0) => `(tactic| with_reducible exact loc_getConnectorBalance (by assumption) (by assumption) _)

theorem loc_getPurchaseReturn (h : CallLocal S c1 c2) (a : Addr) (v : Int) (b : Bool) : Local S (Converter.getPurchaseReturn ⟨f, c1⟩ a v b) (Converter.getPurchaseReturn ⟨f, c2⟩ a v b) := by
  unfold Converter.getPurchaseReturn; lwalk hs
macro_rules | `(tactic| loc0) => `(tactic| with_reducible exact loc_getPurchaseReturn (by assumption) (by assumption) _ _ _)

theorem loc_getSaleReturn (h : CallLocal S c1 c2) (a : Addr) (v : Int) : Local S (Converter.getSaleReturn ⟨f, c1⟩ a v) (Converter.getSaleReturn ⟨f, c2⟩ a v) := by
  unfold Converter.getSaleReturn; lwalk hs
macro_rules | `(tactic| loc0) => `(tactic| with_reducible exact loc_getSaleReturn (by assumption) (by assumption) _ _)

theorem loc_getCrossConnectorReturn (h : CallLocal S c1 c2) (a b : Addr) (v : Int) (fc : Bool) : Local S (Converter.getCrossConnectorReturn ⟨f, c1⟩ a b v fc) (Converter.getCrossConnectorReturn ⟨f, c2⟩ a b v fc) := by
  unfold Converter.getCrossConnectorReturn; lwalk hs
macro_rules | `(tactic| loc0) => `(tactic| with_reducible exact loc_getCrossConnectorReturn (by assumption) (by assumption) _ _ _ _)

theorem loc_getReturn (h : CallLocal S c1 c2) (a b : Addr) (v : Int) : Local S (Converter.getReturn ⟨f, c1⟩ a b v) (Converter.getReturn ⟨f, c2⟩ a b v) := by
  unfold Converter.getReturn; lwalk hs
macro_rules | `(tactic| loc0) => `(tactic| with_reducible exact loc_getReturn (by assumption) (by assumption) _ _ _)

theorem loc_priceDataUpdate (h : CallLocal S c1 c2) (a b : Addr) : Local S (Converter.priceDataUpdate ⟨f, c1⟩ a b) (Converter.priceDataUpdate ⟨f, c2⟩ a b) := by
  unfold Converter.priceDataUpdate; lwalk hs
macro_rules | `(tactic| loc0) => `(tactic| with_reducible exact loc_priceDataUpdate (by assumption) (by assumption) _ _)

theorem loc_buy (h : CallLocal S c1 c2) (t a : Addr) (v m : Int) : Local S (Converter.buy ⟨f, c1⟩ t a v m) (Converter.buy ⟨f, c2⟩ t a v m) := by
  unfold Converter.buy; lwalk hs
macro_rules | `(tactic| loc0) => `(tactic| with_reducible exact loc_buy (by assumption) (by assumption) _ _ _ _)

theorem loc_sell (h : CallLocal S c1 c2) (t a : Addr) (v m : Int) : Local S (Converter.sell ⟨f, c1⟩ t a v m) (Converter.sell ⟨f, c2⟩ t a v m) := by
  unfold Converter.sell; lwalk hs
macro_rules | `(tactic| loc0) => `(tactic| with_reducible exact loc_sell (by assumption) (by assumption) _ _ _ _)

theorem loc_cross (h : CallLocal S c1 c2) (t a b : Addr) (v m : Int) : Local S (Converter.convertCrossConnector ⟨f, c1⟩ t a b v m) (Converter.convertCrossConnector ⟨f, c2⟩ t a b v m) := by
  unfold Converter.convertCrossConnector; lwalk hs
macro_rules | `(tactic| loc0) => `(tactic| with_reducible exact loc_cross (by assumption) (by assumption) _ _ _ _ _)

theorem loc_convert (h : CallLocal S c1 c2) (t a b : Addr) (v m : Int) : Local S (Converter.convert ⟨f, c1⟩ t a b v m) (Converter.convert ⟨f, c2⟩ t a b v m) := by
  unfold Converter.convert; lwalk hs
macro_rules | `(tactic| loc0) => `(tactic| with_reducible exact loc_convert (by assumption) (by assumption) _ _ _ _ _)

theorem loc_acceptsDeposit (h : CallLocal S c1 c2) (a : Addr) : Local S (Converter.acceptsDeposit ⟨f, c1⟩ a) (Converter.acceptsDeposit ⟨f, c2⟩ a) := by
  unfold Converter.acceptsDeposit; lwalk hs
macro_rules | `(tactic| loc0) => `(tactic| with_reducible exact loc_acceptsDeposit (by assumption) (by assumption) _)

theorem loc_converterFallback (h : CallLocal S c1 c2) (d : Data) (a : Addr) (v : Int) :
    Local S (Converter.tokenFallback ⟨f, c1⟩ a v d) (Converter.tokenFallback ⟨f, c2⟩ a v d) := by
  unfold Converter.tokenFallback
  lwalk hs
  split
  · lwalk hs
  · lwalk hs
    split <;> lwalk hs

omit hs in
theorem loc_expectedLoop (h : CallLocal S c1 c2) (p : List Addr) : ∀ (a : Addr) (v : Int),
    Local S (Network.expectedLoop ⟨f, c1⟩ a p v) (Network.expectedLoop ⟨f, c2⟩ a p v) := by
  induction p using Network.oddPositions.induct with
  | case1 => intro a v; exact Local.pure _
  | case2 => intro a v; exact Local.pure _
  | case3 ft b rest ih =>
    intro a v
    unfold Network.expectedLoop
    refine Local.bind (h _ _ _) (fun _ => ?_)
    refine Local.bind (Local.asAddr _) (fun _ => ?_)
    refine Local.bind (h _ _ _) (fun _ => ?_)
    refine Local.bind (Local.asAmount _) (fun _ => ?_)
    exact ih _ _
macro_rules | `(tactic| loc0) => `(tactic| with_reducible exact loc_expectedLoop (by assumption) _ _ _)

omit hs in
theorem loc_convertLoop (h : CallLocal S c1 c2) (m : Int) (p : List Addr) : ∀ (a : Addr) (v : Int),
    Local S (Network.convertLoop ⟨f, c1⟩ m a p v) (Network.convertLoop ⟨f, c2⟩ m a p v) := by
  induction p using Network.oddPositions.induct with
  | case1 => intro a v; exact Local.pure _
  | case2 => intro a v; exact Local.pure _
  | case3 ft b rest ih =>
    intro a v
    unfold Network.convertLoop
    refine Local.bind (h _ _ _) (fun _ => ?_)
    refine Local.bind (Local.asAddr _) (fun _ => ?_)
    refine Local.bind (h _ _ _) (fun _ => ?_)
    refine Local.bind (Local.asInt _) (fun _ => ?_)
    refine Local.bind (h _ _ _) (fun _ => ?_)
    refine Local.bind (h _ _ _) (fun _ => ?_)
    refine Local.bind (Local.asInt _) (fun _ => ?_)
    exact ih _ _
macro_rules | `(tactic| loc0) => `(tactic| with_reducible exact loc_convertLoop (by assumption) _ _ _ _)

omit hs in
theorem loc_getExpectedReturnByPath (h : CallLocal S c1 c2) (p : List Char) (v : Int) :
    Local S (Network.getExpectedReturnByPath ⟨f, c1⟩ p v) (Network.getExpectedReturnByPath ⟨f, c2⟩ p v) := by
  unfold Network.getExpectedReturnByPath
  lwalk h
  split <;> lwalk h
macro_rules | `(tactic| loc0) => `(tactic| with_reducible exact loc_getExpectedReturnByPath (by assumption) _ _)

theorem loc_convertForInternal (h : CallLocal S c1 c2) (p : List Addr) (v m : Int) (a : Addr) :
    Local S (Network.convertForInternal ⟨f, c1⟩ p v m a) (Network.convertForInternal ⟨f, c2⟩ p v m a) := by
  unfold Network.convertForInternal
  split <;> lwalk hs
macro_rules | `(tactic| loc0) => `(tactic| with_reducible exact loc_convertForInternal (by assumption) (by assumption) _ _ _ _)

theorem loc_networkFallback (h : CallLocal S c1 c2) (d : Data) (a : Addr) (v : Int) :
    Local S (Network.tokenFallback ⟨f, c1⟩ a v d) (Network.tokenFallback ⟨f, c2⟩ a v d) := by
  unfold Network.tokenFallback
  lwalk hs
  split <;> lwalk hs
macro_rules | `(tactic| loc0) => `(tactic| with_reducible exact loc_networkFallback (by assumption) (by assumption) _ _ _)

theorem loc_convertFor (h : CallLocal S c1 c2) (p : List Char) (m : Int) (a : Addr) :
    Local S (Network.convertFor ⟨f, c1⟩ p m a) (Network.convertFor ⟨f, c2⟩ p m a) := by
  unfold Network.convertFor
  lwalk hs
  split <;> lwalk hs
macro_rules | `(tactic| loc0) => `(tactic| with_reducible exact loc_convertFor (by assumption) (by assumption) _ _ _)

theorem loc_transfer' (h : CallLocal S c1 c2) (a b : Addr) (v : Int) (d : Data) : Local S (IRCToken.transfer' ⟨f, c1⟩ a b v d) (IRCToken.transfer' ⟨f, c2⟩ a b v d) := by
  unfold IRCToken.transfer'; lwalk hs
macro_rules | `(tactic| loc0) => `(tactic| with_reducible exact loc_transfer' (by assumption) (by assumption) _ _ _ _)

theorem loc_tokenHolder (h : CallLocal S c1 c2) (t a : Addr) (v : Int) : Local S (TokenHolder.withdrawTokens ⟨f, c1⟩ t a v) (TokenHolder.withdrawTokens ⟨f, c2⟩ t a v) := by
  unfold TokenHolder.withdrawTokens; lwalk hs
macro_rules | `(tactic| loc0) => `(tactic| with_reducible exact loc_tokenHolder (by assumption) (by assumption) _ _ _)

theorem loc_withdrawTo (h : CallLocal S c1 c2) (v : Int) (a : Addr) : Local S (IcxToken.withdrawTo ⟨f, c1⟩ v a) (IcxToken.withdrawTo ⟨f, c2⟩ v a) := by
  unfold IcxToken.withdrawTo; lwalk hs
macro_rules | `(tactic| loc0) => `(tactic| with_reducible exact loc_withdrawTo (by assumption) (by assumption) _ _)

theorem loc_addConnector (h : CallLocal S c1 c2) (a : Addr) (wt : Int) (b : Bool) : Local S (Converter.addConnector ⟨f, c1⟩ a wt b) (Converter.addConnector ⟨f, c2⟩ a wt b) := by
  unfold Converter.addConnector; lwalk hs
macro_rules | `(tactic| loc0) => `(tactic| with_reducible exact loc_addConnector (by assumption) (by assumption) _ _ _)

/-! ### Dispatch -/

/-- Two method tables that do the same. -/
def TableLocal (S : Addr → Prop) : Option (M Val) → Option (M Val) → Prop
  | some m, some m' => Local S m m'
  | none, none => True
  | _, _ => False

omit hs in
theorem TableLocal.orElse {a a' b b' : Option (M Val)} (h : TableLocal S a a') (h' : TableLocal S b b') :
    TableLocal S (orElse' a b) (orElse' a' b') := by
  cases a <;> cases a' <;> first | exact h' | exact h | exact absurd h id

omit hs in
theorem TableLocal.run {a a' : Option (M Val)} (h : TableLocal S a a') :
    Local S (runNonPayable ⟨f, c1⟩ a) (runNonPayable ⟨f, c2⟩ a') := by
  unfold runNonPayable notPayable
  refine Local.bind (Local.require _ _) (fun _ => ?_)
  cases a <;> cases a'
  · dsimp only; lwalk h
  · exact absurd h id
  · exact absurd h id
  · exact h

theorem loc_views (c : Call) :
    TableLocal S (IRCToken.dispatchViews ⟨f, c1⟩ c) (IRCToken.dispatchViews ⟨f, c2⟩ c) := by
  cases c <;> first | exact True.intro | (simp only [IRCToken.dispatchViews, TableLocal]; lwalk hs; done)

theorem loc_owned (c : Call) : TableLocal S (Owned.dispatch ⟨f, c1⟩ c) (Owned.dispatch ⟨f, c2⟩ c) := by
  cases c <;> first
    | exact True.intro
    | (simp only [Owned.dispatch, TableLocal, Owned.getOwner, Owned.getNewOwner, Owned.transferOwnerShip, Owned.acceptOwnerShip,
        bind_assoc]; lwalk hs; done)

theorem loc_irc (h : CallLocal S c1 c2) : Local S (IRCToken.dispatch ⟨f, c1⟩) (IRCToken.dispatch ⟨f, c2⟩) := by
  unfold IRCToken.dispatch
  refine TableLocal.run (TableLocal.orElse (loc_views hs _) ?_)
  dsimp only
  split
  · simp only [TableLocal, IRCToken.transfer]; lwalk hs
  · exact True.intro

theorem loc_flex (h : CallLocal S c1 c2) : Local S (FlexibleToken.dispatch ⟨f, c1⟩) (FlexibleToken.dispatch ⟨f, c2⟩) := by
  unfold FlexibleToken.dispatch
  refine TableLocal.run (TableLocal.orElse (loc_views hs _) (TableLocal.orElse (loc_owned hs _) ?_))
  dsimp only
  split <;> first
    | exact True.intro
    | (simp only [TableLocal, FlexibleToken.transfer, FlexibleToken.disableTransfer, FlexibleToken.issue, FlexibleToken.destroy,
        IRCToken.transfer, bind_assoc]; lwalk hs; done)
    | (simp only [TableLocal]; lwalk hs; done)

theorem loc_icx (h : CallLocal S c1 c2) : Local S (IcxToken.dispatch ⟨f, c1⟩) (IcxToken.dispatch ⟨f, c2⟩) := by
  unfold IcxToken.dispatch
  dsimp only
  split
  · simp only [IcxToken.deposit, bind_assoc]; lwalk hs
  · simp only [IcxToken.deposit, bind_assoc]; lwalk hs
  · refine TableLocal.run (TableLocal.orElse (loc_views hs _) (TableLocal.orElse (loc_owned hs _) ?_))
    split <;> first
      | exact True.intro
      | (simp only [TableLocal, IcxToken.transfer, IRCToken.transfer, bind_assoc]; lwalk hs; done)
      | (simp only [TableLocal]; lwalk hs; done)

theorem loc_reg : Local S (ScoreRegistry.dispatch ⟨f, c1⟩) (ScoreRegistry.dispatch ⟨f, c2⟩) := by
  unfold ScoreRegistry.dispatch
  refine TableLocal.run (TableLocal.orElse (loc_owned hs _) ?_)
  dsimp only
  split <;> first
    | exact True.intro
    | (simp only [TableLocal, ScoreRegistry.getAddress, ScoreRegistry.registerAddress, ScoreRegistry.unregisterAddress, bind_assoc]
       lwalk hs; done)
    | (simp only [TableLocal]; lwalk hs; done)

theorem loc_getConnectorAt (i : Int) : Local S (Converter.getConnectorAt ⟨f, c1⟩ i) (Converter.getConnectorAt ⟨f, c2⟩ i) := by
  unfold Converter.getConnectorAt
  refine Local.bindGet (fun w w' hw => ?_)
  dsimp only [Ctx.self]
  rw [hw.conv hs]
  refine Local.ite _ (fun _ => ?_) (fun _ => Local.fail _)
  split <;> lwalk hs
macro_rules | `(tactic| loc0) => `(tactic| with_reducible exact loc_getConnectorAt (by assumption) _)

theorem loc_updateRegistry (h : CallLocal S c1 c2) : Local S (Converter.updateRegistry ⟨f, c1⟩) (Converter.updateRegistry ⟨f, c2⟩) := by
  unfold Converter.updateRegistry
  lwalk hs
  split <;> lwalk hs
macro_rules | `(tactic| loc0) => `(tactic| with_reducible exact loc_updateRegistry (by assumption) (by assumption))

theorem loc_disableConversions (b : Bool) :
    Local S (Converter.disableConversions ⟨f, c1⟩ b) (Converter.disableConversions ⟨f, c2⟩ b) := by
  unfold Converter.disableConversions; lwalk hs
macro_rules | `(tactic| loc0) => `(tactic| with_reducible exact loc_disableConversions (by assumption) _)
macro_rules | `(tactic| loc0) => `(tactic| with_reducible exact loc_converterFallback (by assumption) (by assumption) _ _ _)

theorem loc_conv (h : CallLocal S c1 c2) : Local S (Converter.dispatch ⟨f, c1⟩) (Converter.dispatch ⟨f, c2⟩) := by
  unfold Converter.dispatch
  refine TableLocal.run (TableLocal.orElse (loc_owned hs _) ?_)
  dsimp only
  split <;> first
    | exact True.intro
    | (simp only [TableLocal]; lwalk hs; done)
    | (simp only [TableLocal, Managed.transferManagement, Managed.acceptManagement, Converter.updateConnector,
        Converter.disableConnectorPurchases, Converter.restoreRegistry, Converter.disableRegistryUpdate, Converter.setConversionFee,
        Converter.withdrawTokens, Controller.transferTokenOwnership, Controller.acceptTokenOwnership, Controller.disableTokenTransfers,
        Controller.withdrawFromToken, bind_assoc]
       lwalk hs; done)

theorem loc_net (h : CallLocal S c1 c2) : Local S (Network.dispatch ⟨f, c1⟩) (Network.dispatch ⟨f, c2⟩) := by
  unfold Network.dispatch
  dsimp only
  split
  · simp only [Network.convert]; lwalk hs
  · lwalk hs
  · refine TableLocal.run (TableLocal.orElse (loc_owned hs _) ?_)
    split <;> first
      | exact True.intro
      | (simp only [TableLocal]; lwalk hs; done)
      | (simp only [TableLocal, Network.registerIcxToken, bind_assoc]; lwalk hs; done)

theorem loc_body (orc orc' : Oracle) (h : CallLocal S c1 c2) {w : World} {x : Val} {w1 : World} (hk : w.kind f.to ≠ .foreign)
    (e : body orc ⟨f, c1⟩ w = .ok (x, w1)) : ∃ l, w1.frames = l ++ w.frames ∧
    ∀ w', RowsAt S w w' → OwnAt S w → (∀ f ∈ l, S f.to) →
      ∃ g w1', body orc' ⟨f, c2⟩ w' = .ok (x, w1') ∧ Next S l g w w1 ∧ Next S l g w' w1' ∧ RowsAt S w1 w1' ∧ OwnAt S w1 := by
  have key : ∀ (m m' : M Val), Local S m m' → body orc ⟨f, c1⟩ w = m w → (∀ w', RowsAt S w w' → body orc' ⟨f, c2⟩ w' = m' w') →
      ∃ l, w1.frames = l ++ w.frames ∧ ∀ w', RowsAt S w w' → OwnAt S w → (∀ f ∈ l, S f.to) →
      ∃ g w1', body orc' ⟨f, c2⟩ w' = .ok (x, w1') ∧ Next S l g w w1 ∧ Next S l g w' w1' ∧ RowsAt S w1 w1' ∧ OwnAt S w1 := by
    intro m m' hm h1 h2
    rw [h1] at e
    obtain ⟨l, hl, hr⟩ := hm w x w1 e
    refine ⟨l, hl, fun w' ha ho hc => ?_⟩
    rw [h2 w' ha]
    exact hr w' ha ho hc
  have red : ∀ (o : Oracle) (cc : Addr → Int → Call → M Val) (v : World), body o ⟨f, cc⟩ v = (match v.kind f.to with
    | .none => if f.to.isContract = false ∧ f.call = Call.fallback then (pure Val.unit : M Val) else fail (.platform "no contract")
    | .irc => IRCToken.dispatch ⟨f, cc⟩
    | .icx => IcxToken.dispatch ⟨f, cc⟩
    | .flex => FlexibleToken.dispatch ⟨f, cc⟩
    | .conv => Converter.dispatch ⟨f, cc⟩
    | .net => Network.dispatch ⟨f, cc⟩
    | .reg => ScoreRegistry.dispatch ⟨f, cc⟩
    | .foreign => match f.call with
      | .onInstall _ => fail (.platform "MethodNotFound")
      | _ => runProg f.to cc (o f)) v := fun _ _ _ => rfl
  cases hw : w.kind f.to with
  | foreign => exact absurd hw hk
  | none =>
    refine key _ _ ?_ (by rw [red, hw]) (fun w' ha => by rw [red, ← ha.kind hs, hw])
    dsimp only; lwalk hs
  | irc => exact key _ _ (loc_irc hs h) (by rw [red, hw]) (fun w' ha => by rw [red, ← ha.kind hs, hw])
  | icx => exact key _ _ (loc_icx hs h) (by rw [red, hw]) (fun w' ha => by rw [red, ← ha.kind hs, hw])
  | flex => exact key _ _ (loc_flex hs h) (by rw [red, hw]) (fun w' ha => by rw [red, ← ha.kind hs, hw])
  | conv => exact key _ _ (loc_conv hs h) (by rw [red, hw]) (fun w' ha => by rw [red, ← ha.kind hs, hw])
  | net => exact key _ _ (loc_net hs h) (by rw [red, hw]) (fun w' ha => by rw [red, ← ha.kind hs, hw])
  | reg => exact key _ _ (loc_reg hs) (by rw [red, hw]) (fun w' ha => by rw [red, ← ha.kind hs, hw])

omit hs in
/-- What there is after entering a call. -/
theorem enterW_row (w : World) (s t : Addr) (v : Int) (c : Call) (a : Addr) :
    (enterW w s t v c).row a = { kind := w.kind a, coin := w.coin a - (if a = s then v else 0) + (if a = t then v else 0)
                                 tok := w.tok a, own := w.own a, flex := w.flex a, conv := w.conv a, reg := w.reg a, net := w.net a
                                 store := w.store a } := by
  have : (enterW w s t v c).coin a = w.coin a - (if a = s then v else 0) + (if a = t then v else 0) := by
    show upd (upd w.coin s (w.coin s - v)) t (upd w.coin s (w.coin s - v) t + v) a = _
    unfold upd
    by_cases h1 : a = t <;> by_cases h2 : t = s <;> by_cases h3 : a = s <;> simp_all
  unfold World.row
  rw [this]
  rfl

omit hs in
/-- Entering a call and running its body, on both ledgers. -/
theorem loc_enter {s t : Addr} {v : Int} {c : Call} {w w' : World} (hs : S s) (ht : S t) (ha : RowsAt S w w') (ho : OwnAt S w) :
    mkFrame w' s t v c = mkFrame w s t v c ∧ Next S [mkFrame w s t v c] [] w (enterW w s t v c) ∧
    Next S [mkFrame w s t v c] [] w' (enterW w' s t v c) ∧ RowsAt S (enterW w s t v c) (enterW w' s t v c) ∧
    OwnAt S (enterW w s t v c) := by
  have hf : mkFrame w' s t v c = mkFrame w s t v c := by
    unfold mkFrame
    rw [ha.own ht, ha.conv ht]
  have hn : ∀ u, Next S [mkFrame u s t v c] [] u (enterW u s t v c) := fun u => ⟨rfl, rfl, fun a hna => by
    rw [enterW_row, if_neg (fun h : a = s => hna (h ▸ hs)), if_neg (fun h : a = t => hna (h ▸ ht))]
    simp only [Int.sub_zero, Int.add_zero]
    rfl⟩
  refine ⟨hf, hn w, hf ▸ hn w', ⟨fun {a} hS => ?_⟩, fun a hS => ho a hS⟩
  rw [enterW_row, enterW_row, ha.coin hS, ha.kind hS, ha.tok hS, ha.own hS, ha.flex hS, ha.conv hS, ha.reg hS, ha.net hS, ha.store hS]

omit hs in
theorem exec_enter {orc : Oracle} {n : Nat} {s t : Addr} {v : Int} {c : Call} {w : World} (hv : 0 ≤ v ∧ v ≤ w.coin s) :
    exec orc (n + 1) s t v c w = body orc { fr := mkFrame w s t v c, call := exec orc n t } (enterW w s t v c) := by
  unfold exec
  show (StateT.bind (enter s t v c) _) w = _
  have he : enter s t v c w = .ok (mkFrame w s t v c, enterW w s t v c) := by
    show ((require (0 ≤ v ∧ v ≤ w.coin s) "Out of balance" >>= fun _ => _ : M Frame)) w = _
    unfold require
    rw [if_pos hv]
    rfl
  simp only [StateT.bind, he]
  rfl

omit hs in
/-- Calls are local. -/
theorem loc_exec (orc orc' : Oracle) : ∀ (n : Nat) (s t : Addr) (v : Int) (c : Call), S s →
    Local S (exec orc n s t v c) (exec orc' n s t v c)
  | 0, _, _, _, _, _ => Local.fail _
  | n + 1, s, t, v, c, hs => by
    intro w x w1 e
    obtain ⟨hv, hb⟩ := exec_succ e
    by_cases hk : S t ∧ w.kind t ≠ .foreign
    · have ih : CallLocal S (exec orc n t) (exec orc' n t) := fun t' v' c' => loc_exec orc orc' n t t' v' c' hk.1
      obtain ⟨l, hl, hr⟩ := loc_body (f := mkFrame w s t v c) (w := enterW w s t v c) hk.1 orc orc' ih hk.2 hb
      refine ⟨l ++ [mkFrame w s t v c], by rw [hl]; simp [enterW], fun w' ha ho hc => ?_⟩
      obtain ⟨hf, n1, n1', a1, o1⟩ := loc_enter (v := v) (c := c) hs hk.1 ha ho
      obtain ⟨g, w1', e1, n2, n2', a2, o2⟩ := hr _ a1 o1 (fun q hq => hc q (List.mem_append_left _ hq))
      refine ⟨g, w1', ?_, ?_, ?_, a2, o2⟩
      · rw [exec_enter ⟨hv.1, by rw [← ha.coin hs]; exact hv.2⟩, hf]; exact e1
      · have := n1.trans n2; rwa [List.append_nil] at this
      · have := n1'.trans n2'; rwa [List.append_nil] at this
    · obtain ⟨l, hl⟩ := exec_head e
      refine ⟨l ++ [mkFrame w s t v c], by rw [hl]; simp, fun w' ha ho hc => ?_⟩
      have ht : S t := hc (mkFrame w s t v c) (by simp)
      exact absurd ⟨ht, ho t ht⟩ hk

/-! ### Deployment and transactions -/

theorem loc_ircInstall (n s : String) (i d : Int) :
    Local S (IRCToken.onInstall ⟨f, c1⟩ n s i d) (IRCToken.onInstall ⟨f, c2⟩ n s i d) := by
  unfold IRCToken.onInstall; lwalk hs
macro_rules | `(tactic| loc0) => `(tactic| with_reducible exact loc_ircInstall (by assumption) _ _ _ _)

theorem loc_ownedInstall : Local S (Owned.onInstall ⟨f, c1⟩) (Owned.onInstall ⟨f, c2⟩) := Local.modOwn hs _
macro_rules | `(tactic| loc0) => `(tactic| with_reducible exact loc_ownedInstall (by assumption))

theorem loc_controllerInstall (t : Option Addr) :
    Local S (Controller.onInstall ⟨f, c1⟩ t) (Controller.onInstall ⟨f, c2⟩ t) := by
  unfold Controller.onInstall; lwalk hs
macro_rules | `(tactic| loc0) => `(tactic| with_reducible exact loc_controllerInstall (by assumption) _)

theorem loc_install (orc orc' : Oracle) (i : Install) (hi : i ≠ .foreign) (h : CallLocal S c1 c2) :
    Local S (install orc ⟨f, c1⟩ i) (install orc' ⟨f, c2⟩ i) := by
  cases i with
  | irc n s x d => exact loc_ircInstall hs n s x d
  | icx => show Local S (IcxToken.onInstall _) (IcxToken.onInstall _); unfold IcxToken.onInstall; lwalk hs
  | flex n s x d =>
    show Local S (FlexibleToken.onInstall _ _ _ _ _) (FlexibleToken.onInstall _ _ _ _ _); unfold FlexibleToken.onInstall; lwalk hs
  | net => exact loc_ownedInstall hs
  | reg =>
    show Local S (ScoreRegistry.onInstall _) (ScoreRegistry.onInstall _)
    unfold ScoreRegistry.onInstall ScoreRegistry.registerAddress; lwalk hs
  | foreign => exact absurd rfl hi
  | conv t r m ct cw =>
    show Local S (Converter.onInstall _ _ _ _ _ _) (Converter.onInstall _ _ _ _ _ _)
    unfold Converter.onInstall
    lwalk hs
    cases ct with
    | none => exact Local.pure _
    | some a => exact Local.ite _ (fun _ => loc_addConnector hs h _ _ _) (fun _ => Local.pure _)

omit hs in
theorem loc_setKind {b : Addr} (hb : S b) (k : Kind) (hk : k ≠ .foreign) :
    Local S (modify fun w => w.setKind b k : M Unit) (modify fun w => w.setKind b k) := by
  have hr : ∀ (w : World) a, (w.setKind b k).row a = if a = b then { w.row b with kind := k } else w.row a := by
    intro w a
    unfold World.row World.setKind upd
    by_cases h : a = b
    · subst h; simp
    · simp [h]
  have hn : ∀ w : World, Next S [] [] w (w.setKind b k) := fun w => ⟨rfl, rfl, fun a ha => by
    rw [hr, if_neg]; rintro rfl; exact ha hb⟩
  intro w x w1 he
  cases he
  refine ⟨[], rfl, fun w' ha ho _ => ⟨[], w'.setKind b k, rfl, hn w, hn w', ⟨fun {a} hs => ?_⟩, fun a hs => ?_⟩⟩
  · rw [hr, hr, ha.row hb, ha.row hs]
  · show upd w.kind b k a ≠ _
    unfold upd
    split
    · exact hk
    · exact ho a hs

omit hs in
theorem loc_entering {s t : Addr} (hs : S s) (ht : S t) (v : Int) (c : Call) {m m' : Frame → M Val}
    (hm : ∀ g : Frame, g.to = t → Local S (m g) (m' g)) : Local S (enter s t v c >>= m) (enter s t v c >>= m') := by
  intro w x w1 e
  have hv : 0 ≤ v ∧ v ≤ w.coin s := by
    by_contra hv
    change (StateT.bind (enter s t v c) m) w = _ at e
    have he : enter s t v c w = .error (.revert "Out of balance") := by
      show ((require (0 ≤ v ∧ v ≤ w.coin s) "Out of balance" >>= fun _ => _ : M Frame)) w = _
      unfold require
      rw [if_neg hv]
      rfl
    simp only [StateT.bind, he] at e
    cases e
  have red : ∀ (u : World) (k : Frame → M Val), (0 ≤ v ∧ v ≤ u.coin s) →
      (enter s t v c >>= k) u = k (mkFrame u s t v c) (enterW u s t v c) := by
    intro u k hu
    show (StateT.bind (enter s t v c) k) u = _
    have he : enter s t v c u = .ok (mkFrame u s t v c, enterW u s t v c) := by
      show ((require (0 ≤ v ∧ v ≤ u.coin s) "Out of balance" >>= fun _ => _ : M Frame)) u = _
      unfold require
      rw [if_pos hu]
      rfl
    simp only [StateT.bind, he]
    rfl
  rw [red w m hv] at e
  obtain ⟨l, hl, hr⟩ := hm (mkFrame w s t v c) rfl _ x w1 e
  refine ⟨l ++ [mkFrame w s t v c], by rw [hl]; simp [enterW], fun w' ha ho hc => ?_⟩
  obtain ⟨hf, n1, n1', a1, o1⟩ := loc_enter (v := v) (c := c) hs ht ha ho
  obtain ⟨g, w1', e1, n2, n2', a2, o2⟩ := hr _ a1 o1 (fun q hq => hc q (List.mem_append_left _ hq))
  refine ⟨g, w1', ?_, ?_, ?_, a2, o2⟩
  · rw [red w' m' ⟨hv.1, by rw [← ha.coin hs]; exact hv.2⟩, hf]; exact e1
  · have := n1.trans n2; rwa [List.append_nil] at this
  · have := n1'.trans n2'; rwa [List.append_nil] at this

omit hs in
theorem loc_deploy (orc orc' : Oracle) (n : Nat) {s a : Addr} (hs : S s) (ha : S a) (i : Install) (hi : i ≠ .foreign) :
    Local S (deploy orc n s a i) (deploy orc' n s a i) := by
  unfold deploy
  refine Local.bindGet (fun w w' hw => ?_)
  rw [hw.kind ha]
  refine Local.bind (Local.require _ _) (fun _ => ?_)
  refine Local.bind (loc_setKind ha _ (by cases i <;> first | exact absurd rfl hi | exact Kind.noConfusion)) (fun _ => ?_)
  refine loc_entering hs ha 0 _ (fun g hg => ?_)
  exact Local.bind (loc_install (f := g) (hg ▸ ha) orc orc' i hi (fun t v c => loc_exec orc orc' n a t v c ha)) (fun _ => Local.pure _)

omit hs in
/-- Transactions are local. -/
theorem loc_tx (orc orc' : Oracle) (n : Nat) (tx : Tx) (hi : tx.Own) (hs : S tx.signer) (ht : S tx.target) :
    Local S (tx.run orc n) (tx.run orc' n) := by
  cases tx with
  | call s t v c => exact Local.bind (Local.require _ _) (fun _ => loc_exec orc orc' n s t v c hs)
  | deploy s a i => exact Local.bind (Local.require _ _) (fun _ => loc_deploy orc orc' n hs ht i hi)

end Verif

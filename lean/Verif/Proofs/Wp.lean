import Verif.Spec
/-!
Symbolic execution of the model: `wp m Q w` says that whenever `m` succeeds from `w`, its result satisfies `Q`.
-/
namespace Verif

/-- Whenever `m` succeeds from `w`, result and final ledger satisfy `Q`. -/
def wp {α} (m : M α) (Q : α → World → Prop) (w : World) : Prop := ∀ x w', m w = .ok (x, w') → Q x w'

theorem wp_run {α} {m : M α} {Q : α → World → Prop} {w x w'} (h : wp m Q w) (e : m w = .ok (x, w')) : Q x w' :=
  h x w' e

theorem wp_mono {α} {m : M α} {Q Q' : α → World → Prop} {w} (h : wp m Q w) (hq : ∀ x w', Q x w' → Q' x w') :
    wp m Q' w := fun x w' e => hq x w' (h x w' e)

theorem wp_and {α} {m : M α} {Q Q' : α → World → Prop} {w} (h : wp m Q w) (h' : wp m Q' w) :
    wp m (fun x w' => Q x w' ∧ Q' x w') w := fun x w' e => ⟨h x w' e, h' x w' e⟩

@[simp] theorem wp_pure {α} (a : α) (Q : α → World → Prop) (w : World) : wp (pure a) Q w ↔ Q a w := by
  constructor
  · intro h; exact h a w rfl
  · intro h x w' e
    cases e
    exact h

@[simp] theorem wp_bind {α β} (m : M α) (k : α → M β) (Q : β → World → Prop) (w : World) :
    wp (m >>= k) Q w ↔ wp m (fun x w' => wp (k x) Q w') w := by
  constructor
  · intro h x w' e y w'' e'
    apply h y w''
    show (StateT.bind m k) w = _
    simp only [StateT.bind]
    rw [e]
    exact e'
  · intro h y w'' e
    change (StateT.bind m k) w = _ at e
    simp only [StateT.bind] at e
    cases hm : m w with
    | error er => rw [hm] at e; cases e
    | ok p =>
      rw [hm] at e
      exact h p.1 p.2 hm y w'' e

@[simp] theorem wp_map {α β} (g : α → β) (m : M α) (Q : β → World → Prop) (w : World) :
    wp (g <$> m) Q w ↔ wp m (fun x w' => Q (g x) w') w := by
  have : (g <$> m) = (m >>= fun x => pure (g x)) := rfl
  rw [this, wp_bind]
  simp only [wp_pure]

@[simp] theorem wp_get (Q : World → World → Prop) (w : World) : wp (get : M World) Q w ↔ Q w w := by
  constructor
  · intro h; exact h w w rfl
  · intro h x w' e; cases e; exact h

@[simp] theorem wp_getThe (Q : World → World → Prop) (w : World) :
    wp (getThe World : M World) Q w ↔ Q w w := by
  constructor
  · intro h; exact h w w rfl
  · intro h x w' e; cases e; exact h

@[simp] theorem wp_modify (g : World → World) (Q : Unit → World → Prop) (w : World) :
    wp (modify g : M Unit) Q w ↔ Q () (g w) := by
  constructor
  · intro h; exact h () (g w) rfl
  · intro h x w' e; cases e; exact h

@[simp] theorem wp_fail {α} (er : Err) (Q : α → World → Prop) (w : World) : wp (fail er) Q w ↔ True := by
  constructor
  · intro _; trivial
  · intro _ x w' e; cases e

@[simp] theorem wp_require (c : Prop) [Decidable c] (msg : String) (Q : Unit → World → Prop) (w : World) :
    wp (require c msg) Q w ↔ (c → Q () w) := by
  unfold require
  split
  · simp_all
  · simp_all

@[simp] theorem wp_ite {α} (c : Prop) [Decidable c] (a b : M α) (Q : α → World → Prop) (w : World) :
    wp (if c then a else b) Q w ↔ (c → wp a Q w) ∧ (¬ c → wp b Q w) := by
  split <;> simp_all

@[simp] theorem wp_liftE {α} (r : Except Err α) (Q : α → World → Prop) (w : World) :
    wp (liftE r) Q w ↔ ∀ a, r = .ok a → Q a w := by
  cases r with
  | error e => simp [liftE]
  | ok a => simp [liftE]

@[simp] theorem wp_modTok (a : Addr) (g) (Q : Unit → World → Prop) (w : World) :
    wp (modTok a g) Q w ↔ Q () (w.setTok a (g (w.tok a))) := by unfold modTok; simp
@[simp] theorem wp_modOwn (a : Addr) (g) (Q : Unit → World → Prop) (w : World) :
    wp (modOwn a g) Q w ↔ Q () (w.setOwn a (g (w.own a))) := by unfold modOwn; simp
@[simp] theorem wp_modFlex (a : Addr) (g) (Q : Unit → World → Prop) (w : World) :
    wp (modFlex a g) Q w ↔ Q () (w.setFlex a (g (w.flex a))) := by unfold modFlex; simp
@[simp] theorem wp_modConv (a : Addr) (g) (Q : Unit → World → Prop) (w : World) :
    wp (modConv a g) Q w ↔ Q () (w.setConv a (g (w.conv a))) := by unfold modConv; simp
@[simp] theorem wp_emit (a : Addr) (e) (Q : Unit → World → Prop) (w : World) :
    wp (emit a e) Q w ↔ Q () (w.addLog a e) := by unfold emit; simp

@[simp] theorem wp_asInt (v : Val) (Q : Int → World → Prop) (w : World) :
    wp (asInt v) Q w ↔ (∀ n, v = .int n → Q n w) ∧ (∀ b, v = .bool b → Q (if b then 1 else 0) w) := by
  cases v <;> simp [asInt]

@[simp] theorem wp_asAddr (v : Val) (Q : Addr → World → Prop) (w : World) :
    wp (asAddr v) Q w ↔ ∀ a, v = .addr (some a) → Q a w := by
  cases v with
  | addr o => cases o <;> simp [asAddr]
  | _ => simp [asAddr]

@[simp] theorem wp_asAmount (v : Val) (Q : Int → World → Prop) (w : World) :
    wp (asAmount v) Q w ↔ ∀ a b, v = .ret a b → Q a w := by
  cases v <;> simp [asAmount]

/-! ### point updates -/

@[simp] theorem upd_same {α β} [DecidableEq α] (f : α → β) (a : α) (b : β) : upd f a b a = b := by simp [upd]
theorem upd_apply {α β} [DecidableEq α] (f : α → β) (a : α) (b : β) (x : α) :
    upd f a b x = if x = a then b else f x := rfl
@[simp] theorem upd_upd {α β} [DecidableEq α] (f : α → β) (a : α) (b b' : β) : upd (upd f a b) a b' = upd f a b' := by
  funext x; simp only [upd]; split <;> rfl
@[simp] theorem upd_self {α β} [DecidableEq α] (f : α → β) (a : α) : upd f a (f a) = f := by
  funext x; simp only [upd]; split <;> simp_all
theorem upd_ne {α β} [DecidableEq α] (f : α → β) {a x : α} (b : β) (h : x ≠ a) : upd f a b x = f x := by simp [upd, h]

section
variable (w : World) (a : Addr)

@[simp] theorem setTok_setTok (t t') : (w.setTok a t).setTok a t' = w.setTok a t' := by simp [World.setTok]
@[simp] theorem setOwn_setOwn (t t') : (w.setOwn a t).setOwn a t' = w.setOwn a t' := by simp [World.setOwn]
@[simp] theorem setFlex_setFlex (t t') : (w.setFlex a t).setFlex a t' = w.setFlex a t' := by simp [World.setFlex]
@[simp] theorem setConv_setConv (t t') : (w.setConv a t).setConv a t' = w.setConv a t' := by simp [World.setConv]
@[simp] theorem setTok_tok_same (t) : (w.setTok a t).tok a = t := by simp [World.setTok]
@[simp] theorem setOwn_own_same (t) : (w.setOwn a t).own a = t := by simp [World.setOwn]
@[simp] theorem setFlex_flex_same (t) : (w.setFlex a t).flex a = t := by simp [World.setFlex]
@[simp] theorem setConv_conv_same (t) : (w.setConv a t).conv a = t := by simp [World.setConv]
theorem setTok_tok (t) (b : Addr) : (w.setTok a t).tok b = if b = a then t else w.tok b := rfl
theorem setOwn_own (t) (b : Addr) : (w.setOwn a t).own b = if b = a then t else w.own b := rfl
theorem setFlex_flex (t) (b : Addr) : (w.setFlex a t).flex b = if b = a then t else w.flex b := rfl
theorem setConv_conv (t) (b : Addr) : (w.setConv a t).conv b = if b = a then t else w.conv b := rfl
theorem setReg_reg (t) (b : Addr) : (w.setReg a t).reg b = if b = a then t else w.reg b := rfl
theorem setNet_net (t) (b : Addr) : (w.setNet a t).net b = if b = a then t else w.net b := rfl
end

/-! Fields a setter leaves alone. -/

@[simp] theorem setTok_kind (w : World) (a : Addr) (t : TokSt) : (w.setTok a t).kind = w.kind := rfl
@[simp] theorem setTok_coin (w : World) (a : Addr) (t : TokSt) : (w.setTok a t).coin = w.coin := rfl
@[simp] theorem setTok_own (w : World) (a : Addr) (t : TokSt) : (w.setTok a t).own = w.own := rfl
@[simp] theorem setTok_flex (w : World) (a : Addr) (t : TokSt) : (w.setTok a t).flex = w.flex := rfl
@[simp] theorem setTok_conv (w : World) (a : Addr) (t : TokSt) : (w.setTok a t).conv = w.conv := rfl
@[simp] theorem setTok_reg (w : World) (a : Addr) (t : TokSt) : (w.setTok a t).reg = w.reg := rfl
@[simp] theorem setTok_net (w : World) (a : Addr) (t : TokSt) : (w.setTok a t).net = w.net := rfl
@[simp] theorem setTok_store (w : World) (a : Addr) (t : TokSt) : (w.setTok a t).store = w.store := rfl
@[simp] theorem setTok_log (w : World) (a : Addr) (t : TokSt) : (w.setTok a t).log = w.log := rfl
@[simp] theorem setTok_frames (w : World) (a : Addr) (t : TokSt) : (w.setTok a t).frames = w.frames := rfl

@[simp] theorem setOwn_kind (w : World) (a : Addr) (t : OwnSt) : (w.setOwn a t).kind = w.kind := rfl
@[simp] theorem setOwn_coin (w : World) (a : Addr) (t : OwnSt) : (w.setOwn a t).coin = w.coin := rfl
@[simp] theorem setOwn_tok (w : World) (a : Addr) (t : OwnSt) : (w.setOwn a t).tok = w.tok := rfl
@[simp] theorem setOwn_flex (w : World) (a : Addr) (t : OwnSt) : (w.setOwn a t).flex = w.flex := rfl
@[simp] theorem setOwn_conv (w : World) (a : Addr) (t : OwnSt) : (w.setOwn a t).conv = w.conv := rfl
@[simp] theorem setOwn_reg (w : World) (a : Addr) (t : OwnSt) : (w.setOwn a t).reg = w.reg := rfl
@[simp] theorem setOwn_net (w : World) (a : Addr) (t : OwnSt) : (w.setOwn a t).net = w.net := rfl
@[simp] theorem setOwn_store (w : World) (a : Addr) (t : OwnSt) : (w.setOwn a t).store = w.store := rfl
@[simp] theorem setOwn_log (w : World) (a : Addr) (t : OwnSt) : (w.setOwn a t).log = w.log := rfl
@[simp] theorem setOwn_frames (w : World) (a : Addr) (t : OwnSt) : (w.setOwn a t).frames = w.frames := rfl

@[simp] theorem setFlex_kind (w : World) (a : Addr) (t : FlexSt) : (w.setFlex a t).kind = w.kind := rfl
@[simp] theorem setFlex_coin (w : World) (a : Addr) (t : FlexSt) : (w.setFlex a t).coin = w.coin := rfl
@[simp] theorem setFlex_tok (w : World) (a : Addr) (t : FlexSt) : (w.setFlex a t).tok = w.tok := rfl
@[simp] theorem setFlex_own (w : World) (a : Addr) (t : FlexSt) : (w.setFlex a t).own = w.own := rfl
@[simp] theorem setFlex_conv (w : World) (a : Addr) (t : FlexSt) : (w.setFlex a t).conv = w.conv := rfl
@[simp] theorem setFlex_reg (w : World) (a : Addr) (t : FlexSt) : (w.setFlex a t).reg = w.reg := rfl
@[simp] theorem setFlex_net (w : World) (a : Addr) (t : FlexSt) : (w.setFlex a t).net = w.net := rfl
@[simp] theorem setFlex_store (w : World) (a : Addr) (t : FlexSt) : (w.setFlex a t).store = w.store := rfl
@[simp] theorem setFlex_log (w : World) (a : Addr) (t : FlexSt) : (w.setFlex a t).log = w.log := rfl
@[simp] theorem setFlex_frames (w : World) (a : Addr) (t : FlexSt) : (w.setFlex a t).frames = w.frames := rfl

@[simp] theorem setConv_kind (w : World) (a : Addr) (t : ConvSt) : (w.setConv a t).kind = w.kind := rfl
@[simp] theorem setConv_coin (w : World) (a : Addr) (t : ConvSt) : (w.setConv a t).coin = w.coin := rfl
@[simp] theorem setConv_tok (w : World) (a : Addr) (t : ConvSt) : (w.setConv a t).tok = w.tok := rfl
@[simp] theorem setConv_own (w : World) (a : Addr) (t : ConvSt) : (w.setConv a t).own = w.own := rfl
@[simp] theorem setConv_flex (w : World) (a : Addr) (t : ConvSt) : (w.setConv a t).flex = w.flex := rfl
@[simp] theorem setConv_reg (w : World) (a : Addr) (t : ConvSt) : (w.setConv a t).reg = w.reg := rfl
@[simp] theorem setConv_net (w : World) (a : Addr) (t : ConvSt) : (w.setConv a t).net = w.net := rfl
@[simp] theorem setConv_store (w : World) (a : Addr) (t : ConvSt) : (w.setConv a t).store = w.store := rfl
@[simp] theorem setConv_log (w : World) (a : Addr) (t : ConvSt) : (w.setConv a t).log = w.log := rfl
@[simp] theorem setConv_frames (w : World) (a : Addr) (t : ConvSt) : (w.setConv a t).frames = w.frames := rfl

@[simp] theorem setReg_kind (w : World) (a : Addr) (t : String → Option Addr) : (w.setReg a t).kind = w.kind := rfl
@[simp] theorem setReg_coin (w : World) (a : Addr) (t : String → Option Addr) : (w.setReg a t).coin = w.coin := rfl
@[simp] theorem setReg_tok (w : World) (a : Addr) (t : String → Option Addr) : (w.setReg a t).tok = w.tok := rfl
@[simp] theorem setReg_own (w : World) (a : Addr) (t : String → Option Addr) : (w.setReg a t).own = w.own := rfl
@[simp] theorem setReg_flex (w : World) (a : Addr) (t : String → Option Addr) : (w.setReg a t).flex = w.flex := rfl
@[simp] theorem setReg_conv (w : World) (a : Addr) (t : String → Option Addr) : (w.setReg a t).conv = w.conv := rfl
@[simp] theorem setReg_net (w : World) (a : Addr) (t : String → Option Addr) : (w.setReg a t).net = w.net := rfl
@[simp] theorem setReg_store (w : World) (a : Addr) (t : String → Option Addr) : (w.setReg a t).store = w.store := rfl
@[simp] theorem setReg_log (w : World) (a : Addr) (t : String → Option Addr) : (w.setReg a t).log = w.log := rfl
@[simp] theorem setReg_frames (w : World) (a : Addr) (t : String → Option Addr) : (w.setReg a t).frames = w.frames := rfl

@[simp] theorem setNet_kind (w : World) (a : Addr) (t : Addr → Bool) : (w.setNet a t).kind = w.kind := rfl
@[simp] theorem setNet_coin (w : World) (a : Addr) (t : Addr → Bool) : (w.setNet a t).coin = w.coin := rfl
@[simp] theorem setNet_tok (w : World) (a : Addr) (t : Addr → Bool) : (w.setNet a t).tok = w.tok := rfl
@[simp] theorem setNet_own (w : World) (a : Addr) (t : Addr → Bool) : (w.setNet a t).own = w.own := rfl
@[simp] theorem setNet_flex (w : World) (a : Addr) (t : Addr → Bool) : (w.setNet a t).flex = w.flex := rfl
@[simp] theorem setNet_conv (w : World) (a : Addr) (t : Addr → Bool) : (w.setNet a t).conv = w.conv := rfl
@[simp] theorem setNet_reg (w : World) (a : Addr) (t : Addr → Bool) : (w.setNet a t).reg = w.reg := rfl
@[simp] theorem setNet_store (w : World) (a : Addr) (t : Addr → Bool) : (w.setNet a t).store = w.store := rfl
@[simp] theorem setNet_log (w : World) (a : Addr) (t : Addr → Bool) : (w.setNet a t).log = w.log := rfl
@[simp] theorem setNet_frames (w : World) (a : Addr) (t : Addr → Bool) : (w.setNet a t).frames = w.frames := rfl

@[simp] theorem setStore_kind (w : World) (a : Addr) (t : Nat) : (w.setStore a t).kind = w.kind := rfl
@[simp] theorem setStore_coin (w : World) (a : Addr) (t : Nat) : (w.setStore a t).coin = w.coin := rfl
@[simp] theorem setStore_tok (w : World) (a : Addr) (t : Nat) : (w.setStore a t).tok = w.tok := rfl
@[simp] theorem setStore_own (w : World) (a : Addr) (t : Nat) : (w.setStore a t).own = w.own := rfl
@[simp] theorem setStore_flex (w : World) (a : Addr) (t : Nat) : (w.setStore a t).flex = w.flex := rfl
@[simp] theorem setStore_conv (w : World) (a : Addr) (t : Nat) : (w.setStore a t).conv = w.conv := rfl
@[simp] theorem setStore_reg (w : World) (a : Addr) (t : Nat) : (w.setStore a t).reg = w.reg := rfl
@[simp] theorem setStore_net (w : World) (a : Addr) (t : Nat) : (w.setStore a t).net = w.net := rfl
@[simp] theorem setStore_log (w : World) (a : Addr) (t : Nat) : (w.setStore a t).log = w.log := rfl
@[simp] theorem setStore_frames (w : World) (a : Addr) (t : Nat) : (w.setStore a t).frames = w.frames := rfl

@[simp] theorem setKind_coin (w : World) (a : Addr) (t : Kind) : (w.setKind a t).coin = w.coin := rfl
@[simp] theorem setKind_tok (w : World) (a : Addr) (t : Kind) : (w.setKind a t).tok = w.tok := rfl
@[simp] theorem setKind_own (w : World) (a : Addr) (t : Kind) : (w.setKind a t).own = w.own := rfl
@[simp] theorem setKind_flex (w : World) (a : Addr) (t : Kind) : (w.setKind a t).flex = w.flex := rfl
@[simp] theorem setKind_conv (w : World) (a : Addr) (t : Kind) : (w.setKind a t).conv = w.conv := rfl
@[simp] theorem setKind_reg (w : World) (a : Addr) (t : Kind) : (w.setKind a t).reg = w.reg := rfl
@[simp] theorem setKind_net (w : World) (a : Addr) (t : Kind) : (w.setKind a t).net = w.net := rfl
@[simp] theorem setKind_store (w : World) (a : Addr) (t : Kind) : (w.setKind a t).store = w.store := rfl
@[simp] theorem setKind_log (w : World) (a : Addr) (t : Kind) : (w.setKind a t).log = w.log := rfl
@[simp] theorem setKind_frames (w : World) (a : Addr) (t : Kind) : (w.setKind a t).frames = w.frames := rfl

@[simp] theorem addLog_kind (w : World) (a : Addr) (t : Event) : (w.addLog a t).kind = w.kind := rfl
@[simp] theorem addLog_coin (w : World) (a : Addr) (t : Event) : (w.addLog a t).coin = w.coin := rfl
@[simp] theorem addLog_tok (w : World) (a : Addr) (t : Event) : (w.addLog a t).tok = w.tok := rfl
@[simp] theorem addLog_own (w : World) (a : Addr) (t : Event) : (w.addLog a t).own = w.own := rfl
@[simp] theorem addLog_flex (w : World) (a : Addr) (t : Event) : (w.addLog a t).flex = w.flex := rfl
@[simp] theorem addLog_conv (w : World) (a : Addr) (t : Event) : (w.addLog a t).conv = w.conv := rfl
@[simp] theorem addLog_reg (w : World) (a : Addr) (t : Event) : (w.addLog a t).reg = w.reg := rfl
@[simp] theorem addLog_net (w : World) (a : Addr) (t : Event) : (w.addLog a t).net = w.net := rfl
@[simp] theorem addLog_store (w : World) (a : Addr) (t : Event) : (w.addLog a t).store = w.store := rfl
@[simp] theorem addLog_frames (w : World) (a : Addr) (t : Event) : (w.addLog a t).frames = w.frames := rfl

section
variable (w : World) (a b : Addr) (v : Int)
@[simp] theorem moveCoin_kind : (w.moveCoin a b v).kind = w.kind := rfl
@[simp] theorem moveCoin_tok : (w.moveCoin a b v).tok = w.tok := rfl
@[simp] theorem moveCoin_own : (w.moveCoin a b v).own = w.own := rfl
@[simp] theorem moveCoin_flex : (w.moveCoin a b v).flex = w.flex := rfl
@[simp] theorem moveCoin_conv : (w.moveCoin a b v).conv = w.conv := rfl
@[simp] theorem moveCoin_reg : (w.moveCoin a b v).reg = w.reg := rfl
@[simp] theorem moveCoin_net : (w.moveCoin a b v).net = w.net := rfl
@[simp] theorem moveCoin_store : (w.moveCoin a b v).store = w.store := rfl
@[simp] theorem moveCoin_log : (w.moveCoin a b v).log = w.log := rfl
@[simp] theorem moveCoin_frames : (w.moveCoin a b v).frames = w.frames := rfl
end

/-- The ledger after entering a call. -/
def enterW (w : World) (sender to : Addr) (value : Int) (c : Call) : World :=
  { w.moveCoin sender to value with frames := mkFrame w sender to value c :: w.frames }

@[simp] theorem wp_enter (s t : Addr) (v : Int) (c : Call) (Q : Frame → World → Prop) (w : World) :
    wp (enter s t v c) Q w ↔ (0 ≤ v ∧ v ≤ w.coin s → Q (mkFrame w s t v c) (enterW w s t v c)) := by
  unfold enter
  simp only [wp_bind, wp_get, wp_require, wp_modify, wp_pure]
  rfl

@[simp] theorem enterW_kind (w s t v c) : (enterW w s t v c).kind = w.kind := rfl
@[simp] theorem enterW_tok (w s t v c) : (enterW w s t v c).tok = w.tok := rfl
@[simp] theorem enterW_own (w s t v c) : (enterW w s t v c).own = w.own := rfl
@[simp] theorem enterW_flex (w s t v c) : (enterW w s t v c).flex = w.flex := rfl
@[simp] theorem enterW_conv (w s t v c) : (enterW w s t v c).conv = w.conv := rfl
@[simp] theorem enterW_reg (w s t v c) : (enterW w s t v c).reg = w.reg := rfl
@[simp] theorem enterW_net (w s t v c) : (enterW w s t v c).net = w.net := rfl
@[simp] theorem enterW_store (w s t v c) : (enterW w s t v c).store = w.store := rfl
@[simp] theorem enterW_log (w s t v c) : (enterW w s t v c).log = w.log := rfl
@[simp] theorem enterW_frames (w s t v c) : (enterW w s t v c).frames = mkFrame w s t v c :: w.frames := rfl
theorem enterW_coin (w s t v c) : (enterW w s t v c).coin = (w.moveCoin s t v).coin := rfl

end Verif

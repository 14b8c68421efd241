import Verif.Proofs.Trace
import Verif.Proofs.OkAttr
/-!
Exact characterisation of success: `m w = .ok (x, w')` as an equivalence, for every construct of the model.
-/
namespace Verif

section
variable {α β : Type} (w w' w'' : World)

theorem ok_pure (a x : α) : ((pure a : M α) w = .ok (x, w')) ↔ a = x ∧ w = w' := by
  constructor
  · intro h; cases h; exact ⟨rfl, rfl⟩
  · rintro ⟨rfl, rfl⟩; rfl

theorem ok_bind (m : M α) (k : α → M β) (y : β) :
    ((m >>= k) w = .ok (y, w'')) ↔ ∃ x w', m w = .ok (x, w') ∧ k x w' = .ok (y, w'') := by
  change (StateT.bind m k) w = _ ↔ _
  simp only [StateT.bind]
  cases hm : m w with
  | error e =>
    constructor
    · intro h; cases h
    · rintro ⟨_, _, h, _⟩; cases h
  | ok p =>
    obtain ⟨x, w1⟩ := p
    constructor
    · intro h; exact ⟨x, w1, rfl, h⟩
    · rintro ⟨_, _, h, h'⟩; cases h; exact h'

theorem ok_get (x : World) : ((get : M World) w = .ok (x, w')) ↔ w = x ∧ w = w' := by
  constructor
  · intro h; cases h; exact ⟨rfl, rfl⟩
  · rintro ⟨rfl, rfl⟩; rfl

theorem ok_modify (g : World → World) (x : Unit) : ((modify g : M Unit) w = .ok (x, w')) ↔ g w = w' := by
  constructor
  · intro h; cases h; rfl
  · rintro rfl; rfl

theorem ok_fail (e : Err) (x : α) : ((fail e : M α) w = .ok (x, w')) ↔ False := by
  constructor
  · intro h; cases h
  · exact False.elim

theorem ok_require (c : Prop) [Decidable c] (msg : String) (x : Unit) :
    (require c msg w = .ok (x, w')) ↔ c ∧ w = w' := by
  unfold require
  split
  · rw [ok_pure]; simp_all
  · rw [ok_fail]; simp_all

theorem ok_ite (c : Prop) [Decidable c] (a b : M α) (x : α) :
    ((if c then a else b) w = .ok (x, w')) ↔ (c ∧ a w = .ok (x, w')) ∨ (¬ c ∧ b w = .ok (x, w')) := by
  split <;> simp_all

theorem ok_liftE (r : Except Err α) (x : α) : (liftE r w = .ok (x, w')) ↔ r = .ok x ∧ w = w' := by
  cases r with
  | error e => simp only [liftE, ok_fail]; simp
  | ok a => simp only [liftE, ok_pure]; simp

theorem ok_modTok (a : Addr) (g) (x : Unit) : (modTok a g w = .ok (x, w')) ↔ w.setTok a (g (w.tok a)) = w' := ok_modify ..
theorem ok_modOwn (a : Addr) (g) (x : Unit) : (modOwn a g w = .ok (x, w')) ↔ w.setOwn a (g (w.own a)) = w' := ok_modify ..
theorem ok_modFlex (a : Addr) (g) (x : Unit) : (modFlex a g w = .ok (x, w')) ↔ w.setFlex a (g (w.flex a)) = w' := ok_modify ..
theorem ok_modConv (a : Addr) (g) (x : Unit) : (modConv a g w = .ok (x, w')) ↔ w.setConv a (g (w.conv a)) = w' := ok_modify ..
theorem ok_emit (a : Addr) (e) (x : Unit) : (emit a e w = .ok (x, w')) ↔ w.addLog a e = w' := ok_modify ..

theorem ok_asInt (v : Val) (n : Int) :
    (asInt v w = .ok (n, w')) ↔ (v = .int n ∨ ∃ b, v = .bool b ∧ n = if b then 1 else 0) ∧ w = w' := by
  cases v <;> simp only [asInt, ok_pure, ok_fail] <;> simp <;> intro _ <;> exact eq_comm

theorem ok_asAddr (v : Val) (a : Addr) : (asAddr v w = .ok (a, w')) ↔ v = .addr (some a) ∧ w = w' := by
  cases v with
  | addr o => cases o <;> simp [asAddr, ok_pure, ok_fail]
  | _ => simp [asAddr, ok_fail]

theorem ok_asAmount (v : Val) (n : Int) : (asAmount v w = .ok (n, w')) ↔ (∃ f, v = .ret n f) ∧ w = w' := by
  cases v <;> simp [asAmount, ok_pure, ok_fail]

theorem ok_enter (s t : Addr) (v : Int) (c : Call) (f : Frame) :
    (enter s t v c w = .ok (f, w')) ↔ (0 ≤ v ∧ v ≤ w.coin s) ∧ mkFrame w s t v c = f ∧ enterW w s t v c = w' := by
  unfold enter
  simp only [ok_bind, ok_get, ok_require, ok_modify, ok_pure]
  constructor
  · rintro ⟨_, _, ⟨rfl, rfl⟩, _, _, ⟨h, rfl⟩, _, _, rfl, _, _, rfl, rfl, rfl⟩
    exact ⟨h, rfl, rfl⟩
  · rintro ⟨h, rfl, rfl⟩
    exact ⟨_, _, ⟨rfl, rfl⟩, (), _, ⟨h, rfl⟩, (), _, rfl, (), _, rfl, rfl, rfl⟩

end

/-- A computation fails. -/
theorem fails_iff {α} (m : M α) (w : World) : (∃ e, m w = .error e) ↔ ∀ x w', m w ≠ .ok (x, w') := by
  cases h : m w with
  | error e => simp
  | ok p => obtain ⟨x, w'⟩ := p; simp

/-- A successful call, exactly. -/
theorem ok_exec {orc : Oracle} {n : Nat} {s t : Addr} {v : Int} {c : Call} {w x w'} :
    exec orc (n + 1) s t v c w = .ok (x, w') ↔ (0 ≤ v ∧ v ≤ w.coin s) ∧
      body orc { fr := mkFrame w s t v c, call := exec orc n t } (enterW w s t v c) = .ok (x, w') := by
  constructor
  · exact exec_succ
  · rintro ⟨hg, h⟩
    unfold exec
    rw [ok_bind]
    exact ⟨_, _, (ok_enter ..).mpr ⟨hg, rfl, rfl⟩, h⟩

theorem ok_exec_zero {orc : Oracle} {s t : Addr} {v : Int} {c : Call} {w x w'} :
    exec orc 0 s t v c w = .ok (x, w') ↔ False := ⟨exec_zero, False.elim⟩

/-- A successful deployment, exactly. -/
theorem ok_deploy {orc : Oracle} {n : Nat} {s a : Addr} {i : Install} {w x w'} :
    deploy orc n s a i w = .ok (x, w') ↔ (a.isContract = true ∧ a ≠ ZERO ∧ w.kind a = .none) ∧ 0 ≤ w.coin s ∧
      install orc { fr := mkFrame (w.setKind a i.kind) s a 0 (.onInstall i), call := exec orc n a } i
        (enterW (w.setKind a i.kind) s a 0 (.onInstall i)) = .ok ((), w') ∧ x = .unit := by
  unfold deploy
  simp only [ok_bind, ok_get, ok_require, ok_modify, ok_enter, ok_pure]
  constructor
  · rintro ⟨_, _, ⟨rfl, rfl⟩, _, _, ⟨h1, rfl⟩, _, _, rfl, f, _, ⟨h2, rfl, rfl⟩, _, _, h3, rfl, rfl⟩
    exact ⟨h1, h2.2, h3, rfl⟩
  · rintro ⟨h1, h2, h3, rfl⟩
    exact ⟨_, _, ⟨rfl, rfl⟩, (), _, ⟨h1, rfl⟩, (), _, rfl, _, _, ⟨⟨Int.le_refl _, h2⟩, rfl, rfl⟩, (), _, h3, rfl, rfl⟩

/-- Success of a contract's method. -/
theorem ok_body {orc : Oracle} {cx : Ctx} {w x w'} : body orc cx w = .ok (x, w') ↔
    (match w.kind cx.self with
    | .none => (if cx.self.isContract = false ∧ cx.fr.call = Call.fallback then pure .unit else fail (.platform "no contract") : M Val)
    | .irc => IRCToken.dispatch cx
    | .icx => IcxToken.dispatch cx
    | .flex => FlexibleToken.dispatch cx
    | .conv => Converter.dispatch cx
    | .net => Network.dispatch cx
    | .reg => ScoreRegistry.dispatch cx
    | .foreign => match cx.fr.call with
      | .onInstall _ => fail (.platform "MethodNotFound")
      | _ => runProg cx.self cx.call (orc cx.fr)) w = .ok (x, w') := by
  unfold body
  rw [ok_bind]
  constructor
  · rintro ⟨_, _, h, h'⟩
    obtain ⟨rfl, rfl⟩ := (ok_get ..).mp h
    exact h'
  · intro h
    exact ⟨w, w, (ok_get ..).mpr ⟨rfl, rfl⟩, h⟩

theorem ok_runNonPayable {cx : Ctx} {m : M Val} {w x w'} :
    runNonPayable cx (some m) w = .ok (x, w') ↔ cx.value = 0 ∧ m w = .ok (x, w') := by
  unfold runNonPayable notPayable
  simp only [ok_bind, ok_require]
  constructor
  · rintro ⟨_, _, ⟨h, rfl⟩, h'⟩; exact ⟨h, h'⟩
  · rintro ⟨h, h'⟩; exact ⟨(), _, ⟨h, rfl⟩, h'⟩

/-! Fused rules: one statement followed by the rest of the method. -/
section
variable {α β γ : Type} {w : World} {r : β × World} {k : α → M β}

@[okk] theorem okk_assoc (m : M γ) (g : γ → M α) (k : α → M β) : ((m >>= g) >>= k) = (m >>= fun x => g x >>= k) :=
  bind_assoc m g k
@[okk] theorem okk_pure_bind (a : α) (k : α → M β) : (pure a >>= k) = k a := pure_bind a k
@[okk] theorem okk_get (k : World → M β) : ((get : M World) >>= k) w = k w w := rfl
@[okk] theorem okk_modify (g : World → World) (k : Unit → M β) : ((modify g : M Unit) >>= k) w = k () (g w) := rfl
@[okk] theorem okk_modTok (a g) (k : Unit → M β) : (modTok a g >>= k) w = k () (w.setTok a (g (w.tok a))) := rfl
@[okk] theorem okk_modOwn (a g) (k : Unit → M β) : (modOwn a g >>= k) w = k () (w.setOwn a (g (w.own a))) := rfl
@[okk] theorem okk_modFlex (a g) (k : Unit → M β) : (modFlex a g >>= k) w = k () (w.setFlex a (g (w.flex a))) := rfl
@[okk] theorem okk_modConv (a g) (k : Unit → M β) : (modConv a g >>= k) w = k () (w.setConv a (g (w.conv a))) := rfl
@[okk] theorem okk_emit (a e) (k : Unit → M β) : (emit a e >>= k) w = k () (w.addLog a e) := rfl
@[okk] theorem okk_modify' (g : World → World) : (modify g : M Unit) w = .ok ((), g w) := rfl
@[okk] theorem okk_modTok' (a g) : modTok a g w = .ok ((), w.setTok a (g (w.tok a))) := rfl
@[okk] theorem okk_modOwn' (a g) : modOwn a g w = .ok ((), w.setOwn a (g (w.own a))) := rfl
@[okk] theorem okk_modFlex' (a g) : modFlex a g w = .ok ((), w.setFlex a (g (w.flex a))) := rfl
@[okk] theorem okk_modConv' (a g) : modConv a g w = .ok ((), w.setConv a (g (w.conv a))) := rfl
@[okk] theorem okk_emit' (a e) : emit a e w = .ok ((), w.addLog a e) := rfl
@[okk] theorem okk_pure (a : β) : (pure a : M β) w = .ok (a, w) := rfl
@[okk] theorem okk_get' : (get : M World) w = .ok (w, w) := rfl
@[okk] theorem okk_fail (e : Err) : ((fail e : M β) w = .ok r) = False := by
  simp only [eq_iff_iff, iff_false]; intro h; cases h
@[okk] theorem okk_fail_bind (e : Err) : (((fail e : M α) >>= k) w = .ok r) = False := by
  simp only [eq_iff_iff, iff_false]; intro h; cases h
@[okk] theorem okk_require (c : Prop) {_ : Decidable c} (msg : String) (k : Unit → M β) :
    ((require c msg >>= k) w = .ok r) = (c ∧ k () w = .ok r) := by
  unfold require
  by_cases h : c
  · simp only [h, if_true, true_and]; rfl
  · simp only [h, if_false, false_and, eq_iff_iff, iff_false]; intro h; cases h
@[okk] theorem okk_require' (c : Prop) {_ : Decidable c} (msg : String) (r : Unit × World) :
    (require c msg w = .ok r) = (c ∧ ((), w) = r) := by
  obtain ⟨_, w'⟩ := r
  simp [ok_require]
theorem okk_ite (c : Prop) {_ : Decidable c} (a b : M β) :
    ((if c then a else b) w = .ok r) = ((c ∧ a w = .ok r) ∨ (¬ c ∧ b w = .ok r)) := by
  split <;> simp_all
@[okk] theorem okk_liftE (x : Except Err α) : ((liftE x >>= k) w = .ok r) = (∃ a, x = .ok a ∧ k a w = .ok r) := by
  cases x with
  | error e => simp only [liftE, eq_iff_iff]; constructor
               · intro h; cases h
               · rintro ⟨_, h, _⟩; cases h
  | ok a => simp only [liftE, eq_iff_iff]; constructor
            · intro h; exact ⟨a, rfl, h⟩
            · rintro ⟨_, h, h'⟩; cases h; exact h'
theorem okk_bind (m : M α) : ((m >>= k) w = .ok r) = (∃ x w', m w = .ok (x, w') ∧ k x w' = .ok r) := by
  obtain ⟨y, w''⟩ := r
  simp only [ok_bind]
end

/-! Successful calls, by the kind of the callee. -/
section
variable {orc : Oracle} {n : Nat} {s t : Addr} {v : Int} {c : Call} {w w' : World} {x : Val}

theorem ok_exec_irc (hk : w.kind t = .irc) : exec orc (n + 1) s t v c w = .ok (x, w') ↔ (0 ≤ v ∧ v ≤ w.coin s) ∧
    IRCToken.dispatch { fr := mkFrame w s t v c, call := exec orc n t } (enterW w s t v c) = .ok (x, w') := by
  rw [ok_exec, ok_body]
  simp only [enterW_kind, Ctx.self, mkFrame, hk]
theorem ok_exec_icx (hk : w.kind t = .icx) : exec orc (n + 1) s t v c w = .ok (x, w') ↔ (0 ≤ v ∧ v ≤ w.coin s) ∧
    IcxToken.dispatch { fr := mkFrame w s t v c, call := exec orc n t } (enterW w s t v c) = .ok (x, w') := by
  rw [ok_exec, ok_body]
  simp only [enterW_kind, Ctx.self, mkFrame, hk]
theorem ok_exec_flex (hk : w.kind t = .flex) : exec orc (n + 1) s t v c w = .ok (x, w') ↔ (0 ≤ v ∧ v ≤ w.coin s) ∧
    FlexibleToken.dispatch { fr := mkFrame w s t v c, call := exec orc n t } (enterW w s t v c) = .ok (x, w') := by
  rw [ok_exec, ok_body]
  simp only [enterW_kind, Ctx.self, mkFrame, hk]
theorem ok_exec_conv (hk : w.kind t = .conv) : exec orc (n + 1) s t v c w = .ok (x, w') ↔ (0 ≤ v ∧ v ≤ w.coin s) ∧
    Converter.dispatch { fr := mkFrame w s t v c, call := exec orc n t } (enterW w s t v c) = .ok (x, w') := by
  rw [ok_exec, ok_body]
  simp only [enterW_kind, Ctx.self, mkFrame, hk]
theorem ok_exec_net (hk : w.kind t = .net) : exec orc (n + 1) s t v c w = .ok (x, w') ↔ (0 ≤ v ∧ v ≤ w.coin s) ∧
    Network.dispatch { fr := mkFrame w s t v c, call := exec orc n t } (enterW w s t v c) = .ok (x, w') := by
  rw [ok_exec, ok_body]
  simp only [enterW_kind, Ctx.self, mkFrame, hk]
theorem ok_exec_reg (hk : w.kind t = .reg) : exec orc (n + 1) s t v c w = .ok (x, w') ↔ (0 ≤ v ∧ v ≤ w.coin s) ∧
    ScoreRegistry.dispatch { fr := mkFrame w s t v c, call := exec orc n t } (enterW w s t v c) = .ok (x, w') := by
  rw [ok_exec, ok_body]
  simp only [enterW_kind, Ctx.self, mkFrame, hk]

/-- Existential over intermediate results that are determined. -/
theorem ex_eq {α : Type} {p : α → World → Prop} {a : α} {u : World} :
    (∃ x w', (a = x ∧ u = w') ∧ p x w') ↔ p a u :=
  ⟨fun ⟨_, _, ⟨rfl, rfl⟩, h⟩ => h, fun h => ⟨a, u, ⟨rfl, rfl⟩, h⟩⟩
theorem ex_req {c : Prop} {p : Unit → World → Prop} {u : World} :
    (∃ x w', (c ∧ u = w') ∧ p x w') ↔ c ∧ p () u :=
  ⟨fun ⟨_, _, ⟨h, rfl⟩, h'⟩ => ⟨h, h'⟩, fun h => ⟨(), u, ⟨h.1, rfl⟩, h.2⟩⟩
theorem ex_mod {p : Unit → World → Prop} {u : World} :
    (∃ x w', u = w' ∧ p x w') ↔ p () u :=
  ⟨fun ⟨_, _, rfl, h⟩ => h, fun h => ⟨(), u, rfl, h⟩⟩
end

end Verif

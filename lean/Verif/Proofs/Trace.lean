import Verif.Proofs.MethodsConv
/-!
Calls, transactions and histories as flat sequences of elementary steps.
-/
namespace Verif

open Relation

/-- Unfolding of a successful call. -/
theorem exec_succ {orc : Oracle} {n : Nat} {s t : Addr} {v : Int} {c : Call} {w x w'}
    (h : exec orc (n + 1) s t v c w = .ok (x, w')) :
    (0 ≤ v ∧ v ≤ w.coin s) ∧
      body orc { fr := mkFrame w s t v c, call := exec orc n t } (enterW w s t v c) = .ok (x, w') := by
  unfold exec at h
  have hw : wp (enter s t v c >>= fun f => body orc { fr := f, call := exec orc n f.to })
      (fun x' w'' => x' = x ∧ w'' = w' → (0 ≤ v ∧ v ≤ w.coin s) ∧
        body orc { fr := mkFrame w s t v c, call := exec orc n t } (enterW w s t v c) = .ok (x, w')) w := by
    rw [wp_bind, wp_enter]
    intro hg x' w'' e
    rintro ⟨rfl, rfl⟩
    exact ⟨hg, e⟩
  exact hw x w' h ⟨rfl, rfl⟩

theorem exec_zero {orc : Oracle} {s t : Addr} {v : Int} {c : Call} {w x w'}
    (h : exec orc 0 s t v c w = .ok (x, w')) : False := by
  unfold exec at h; cases h

theorem start_enter (w : World) (s t : Addr) (v : Int) (c : Call) (hv : 0 ≤ v) :
    Start (mkFrame w s t v c) (enterW w s t v c) :=
  ⟨rfl, rfl, rfl, hv, rfl⟩

theorem enterW_stable (w s t v c) : Stable w (enterW w s t v c) :=
  ⟨rfl, fun _ => rfl, fun _ => rfl, List.suffix_cons _ _⟩

/-- What a call may rely on about its callee: a call to an address without contract is a plain coin transfer. -/
theorem body_none {orc : Oracle} {cx : Ctx} {w x w'} (hk : w.kind cx.self = .none) (h : body orc cx w = .ok (x, w')) :
    cx.self.isContract = false ∧ cx.fr.call = .fallback := by
  have : wp (body orc cx) (fun _ _ => cx.self.isContract = false ∧ cx.fr.call = .fallback) w := by
    simp only [body, wp_bind, wp_get, hk, wp_ite, wp_pure, wp_fail]
    exact ⟨fun h => h, fun _ => trivial⟩
  exact this _ _ h

/-- Storage after `on_install` (before the optional first connector of a converter is added, and before third-party
code runs). -/
inductive Installed (s a : Addr) (w : World) : Install → World → Prop where
  | irc (n sy : String) (i d : Int) : 0 ≤ i → 0 ≤ d →
      Installed s a w (.irc n sy i d) (w.setTok a { w.tok a with
        name := n, symbol := sy, supply := i * 10 ^ d.toNat, decimals := d
        bal := upd (w.tok a).bal s (i * 10 ^ d.toNat) })
  | icx : Installed s a w .icx ((w.setTok a { w.tok a with
        name := "ICX Token", symbol := "ICXT", supply := 0, decimals := 18, bal := upd (w.tok a).bal s 0 }).setOwn a
          { owner := some s, newOwner := some ZERO })
  | flex (n sy : String) (i d : Int) : 0 ≤ i → 0 ≤ d →
      Installed s a w (.flex n sy i d) ((((w.setTok a { w.tok a with
        name := n, symbol := sy, supply := i * 10 ^ d.toNat, decimals := d
        bal := upd (w.tok a).bal s (i * 10 ^ d.toNat) }).setOwn a
          { owner := some s, newOwner := some ZERO }).setFlex a
          { version := "0.1", transferable := true }).addLog a (.NewFlexibleToken a))
  | conv (t r : Addr) (mf : Int) (ct : Option Addr) (cw : Int) : t ≠ ZERO → r ≠ ZERO → 0 ≤ mf → mf ≤ 1000000 →
      Installed s a w (.conv (some t) (some r) mf ct cw) ((w.setOwn a { owner := some s, newOwner := some ZERO }).setConv a
        { w.conv a with token := some t, allowRegistryUpdate := true, registry := some r, prevRegistry := some r
                        enabled := true, maxFee := mf })
  | net : Installed s a w .net (w.setOwn a { owner := some s, newOwner := some ZERO })
  | reg : Installed s a w .reg (((w.setOwn a { owner := some s, newOwner := some ZERO }).setReg a
        (upd (w.reg a) ScoreRegistry.SCORE_REGISTRY (some a))).addLog a
          (.AddressUpdate ScoreRegistry.SCORE_REGISTRY a))
  | foreign : Installed s a w .foreign w

/-- Who may enter a call: an ordinary account, or a running contract making a call of known shape. -/
def Caller (B : List Frame) (w : World) (s t : Addr) (v : Int) (c : Call) : Prop :=
  s.isContract = false ∨ ∃ f, Since B w f ∧ f.to = s ∧ OutCall f w t v c

theorem Since.mono {B w w' f} (h : Since B w f) (hs : w.frames <:+ w'.frames) : Since B w' f := by
  obtain ⟨new, e, hf⟩ := h
  obtain ⟨l, hl⟩ := hs
  exact ⟨l ++ new, by rw [← hl, e, List.append_assoc], List.mem_append_right _ hf⟩

theorem Since.weaken {B B' w f} (h : Since B w f) (hs : B' <:+ B) : Since B' w f := by
  obtain ⟨new, e, hf⟩ := h
  obtain ⟨l, hl⟩ := hs
  exact ⟨new ++ l, by rw [e, ← hl, List.append_assoc], List.mem_append_left _ hf⟩

theorem Since.mem {B w f} (h : Since B w f) : f ∈ w.frames := by
  obtain ⟨new, e, hf⟩ := h
  rw [e]; exact List.mem_append_left _ hf

theorem since_cons {B w f l} (h : w.frames = f :: (l ++ B)) : Since B w f := ⟨f :: l, h, List.mem_cons_self⟩

/-- Elementary steps of histories; `B` are the frames of earlier transactions. -/
inductive Step (B : List Frame) (w : World) : World → Prop where
  | enter (s t : Addr) (v : Int) (c : Call) : 0 ≤ v → v ≤ w.coin s → Caller B w s t v c →
      (w.kind t = .none → t.isContract = false ∧ c = .fallback) → Step B w (enterW w s t v c)
  | loc (f : Frame) (w' : World) : Since B w f → LocalStep f w w' → Step B w w'
  | deploy (s a : Addr) (i : Install) (w' : World) : s.isContract = false → a.isContract = true → a ≠ ZERO →
      w.kind a = .none → 0 ≤ w.coin s →
      Installed s a (enterW (w.setKind a i.kind) s a 0 (.onInstall i)) i w' → Step B w w'

/-- Sequences of elementary steps. -/
def Steps (B : List Frame) : World → World → Prop := ReflTransGen (Step B)

theorem Steps.refl {B w} : Steps B w w := ReflTransGen.refl
theorem Steps.trans {B a b c} (h : Steps B a b) (h' : Steps B b c) : Steps B a c := ReflTransGen.trans h h'
theorem Steps.one {B a b} (h : Step B a b) : Steps B a b := ReflTransGen.single h

theorem Caller.weaken {B B' w s t v c} (h : Caller B w s t v c) (hs : B' <:+ B) : Caller B' w s t v c :=
  h.imp id fun ⟨f, h1, h2⟩ => ⟨f, h1.weaken hs, h2⟩

theorem Step.weaken {B B' w w'} (h : Step B w w') (hs : B' <:+ B) : Step B' w w' := by
  cases h with
  | enter s t v c h1 h2 h3 h4 => exact .enter s t v c h1 h2 (h3.weaken hs) h4
  | loc f w' h1 h2 => exact .loc f w' (h1.weaken hs) h2
  | deploy s a i w' h1 h2 h3 h4 h5 h6 => exact .deploy s a i w' h1 h2 h3 h4 h5 h6

theorem Steps.weaken {B B' w w'} (h : Steps B w w') (hs : B' <:+ B) : Steps B' w w' := by
  induction h with
  | refl => exact .refl
  | tail _ s ih => exact ih.trans (.one (s.weaken hs))

/-- What is shown about calls. -/
def ExecRel (s t : Addr) (v : Int) (c : Call) (w w' : World) : Prop :=
  Stable w w' ∧ ∀ B, B <:+ w.frames → Caller B w s t v c → Steps B w w'

theorem execRel_stable : StableC ExecRel := fun _ _ _ _ _ _ h => h.1

theorem Body.steps {B f w w'} (h : Body ExecRel f w w') (hB : B <:+ w.frames) (hf : Since B w f) : Steps B w w' := by
  have : Steps B w w' ∧ Stable w w' := by
    induction h with
    | refl => exact ⟨.refl, .refl _⟩
    | tail _ s ih =>
      obtain ⟨ih, ihs⟩ := ih
      have hf' := hf.mono ihs.frames
      rcases s with s | ⟨t, v, c, o, s⟩
      · exact ⟨ih.trans (.one (.loc f _ hf' s)), ihs.trans s.stable⟩
      · exact ⟨ih.trans (s.2 B (hB.trans ihs.frames) (.inr ⟨f, hf', rfl, o⟩)), ihs.trans s.1⟩
  exact this.1

theorem since_enter {B : List Frame} {w s t v c} (hB : B <:+ w.frames) :
    Since B (enterW w s t v c) (mkFrame w s t v c) := by
  obtain ⟨l, hl⟩ := hB
  exact since_cons (l := l) (by rw [enterW_frames, hl])

/-- A successful call is a sequence of elementary steps. -/
theorem exec_rel (orc : Oracle) : ∀ (n : Nat) (s t : Addr) (v : Int) (c : Call) (w : World) (x : Val) (w' : World),
    exec orc n s t v c w = .ok (x, w') → ExecRel s t v c w w'
  | 0, _, _, _, _, _, _, _, h => (exec_zero h).elim
  | n + 1, s, t, v, c, w, x, w', h => by
    obtain ⟨⟨hv, hb⟩, h⟩ := exec_succ h
    have hcall : CallOK ExecRel { fr := mkFrame w s t v c, call := exec orc n t } :=
      fun t' v' c' w1 x1 w1' e => exec_rel orc n t t' v' c' w1 x1 w1' e
    have hB := body_body orc hcall execRel_stable (start_enter w s t v c hv) _ _ h
    refine ⟨(enterW_stable w s t v c).trans (hB.stable execRel_stable), fun B hsB hc => ?_⟩
    refine (Steps.one (.enter s t v c hv hb hc ?_)).trans
      (hB.steps (hsB.trans (List.suffix_cons _ _)) (since_enter hsB))
    intro hk
    exact body_none (cx := { fr := mkFrame w s t v c, call := exec orc n t }) (w := enterW w s t v c) hk h

theorem exec_callOK (orc : Oracle) (n : Nat) (f : Frame) : CallOK ExecRel { fr := f, call := exec orc n f.to } :=
  fun t v c w x w' h => exec_rel orc n f.to t v c w x w' h

theorem setKind_setKind_kind (w : World) (a : Addr) (k : Kind) : (w.setKind a k).kind a = k := by simp [World.setKind]

theorem valid_some {o : Option Addr} (h : isValidAddress o = true) : ∃ a, o = some a ∧ a ≠ ZERO := by
  cases o with
  | none => simp [isValidAddress] at h
  | some a => exact ⟨a, rfl, not_zero_of_valid h⟩

theorem wp_ircInstall (cx : Ctx) (n sy : String) (i d : Int) (Q : Unit → World → Prop) (w : World) :
    wp (IRCToken.onInstall cx n sy i d) Q w ↔ (0 ≤ i → 0 ≤ d → Q () (w.setTok cx.self { w.tok cx.self with
        name := n, symbol := sy, supply := i * 10 ^ d.toNat, decimals := d
        bal := upd (w.tok cx.self).bal cx.sender (i * 10 ^ d.toNat) })) := by
  simp [IRCToken.onInstall]

/-- A successful deployment is a sequence of elementary steps. -/
theorem deploy_body (orc : Oracle) (n : Nat) (s a : Addr) (i : Install) {w x w'}
    {C : Addr → Addr → Int → Call → World → World → Prop} (hC : StableC C)
    (hcall : ∀ t v c w x w', exec orc n a t v c w = .ok (x, w') → C a t v c w w')
    (h : deploy orc n s a i w = .ok (x, w')) :
    (a.isContract = true ∧ a ≠ ZERO ∧ w.kind a = .none ∧ 0 ≤ w.coin s) ∧
    ∃ w1, Installed s a (enterW (w.setKind a i.kind) s a 0 (.onInstall i)) i w1 ∧
      Body C (mkFrame (w.setKind a i.kind) s a 0 (.onInstall i)) w1 w' := by
  have key : wp (deploy orc n s a i) (fun _ w' =>
      (a.isContract = true ∧ a ≠ ZERO ∧ w.kind a = .none ∧ 0 ≤ w.coin s) ∧ ∃ w1,
      Installed s a (enterW (w.setKind a i.kind) s a 0 (.onInstall i)) i w1 ∧
      Body C (mkFrame (w.setKind a i.kind) s a 0 (.onInstall i)) w1 w') w := by
    simp only [deploy, wp_bind, wp_get, wp_require, wp_modify, wp_enter, wp_pure]
    rintro ⟨h1, h2, h3⟩ ⟨_, h4⟩
    refine wp_mono (Q := fun _ w' => ∃ w1,
      Installed s a (enterW (w.setKind a i.kind) s a 0 (.onInstall i)) i w1 ∧
      Body C (mkFrame (w.setKind a i.kind) s a 0 (.onInstall i)) w1 w') ?_
      (fun _ _ h => ⟨⟨h1, h2, h3, h4⟩, h⟩)
    cases i with
    | irc n sy i d =>
      simp only [install, wp_ircInstall]
      intro h5 h6
      exact ⟨_, .irc n sy i d h5 h6, Body.refl⟩
    | icx =>
      simp only [install, IcxToken.onInstall, Owned.onInstall, wp_bind, wp_ircInstall, wp_modOwn]
      intro _ _
      refine ⟨_, .icx, ?_⟩
      have e : (0 : Int) * 10 ^ (18 : Int).toNat = 0 := by simp
      rw [e]
      exact Body.refl
    | flex n sy i d =>
      simp only [install, FlexibleToken.onInstall, Owned.onInstall, wp_bind, wp_ircInstall, wp_modOwn, wp_modFlex, wp_emit]
      intro h5 h6
      exact ⟨_, .flex n sy i d h5 h6, Body.refl⟩
    | net =>
      simp only [install, Owned.onInstall, wp_modOwn]
      exact ⟨_, .net, Body.refl⟩
    | reg =>
      simp only [install, ScoreRegistry.onInstall, Owned.onInstall, wp_bind, wp_modOwn, ScoreRegistry.registerAddress,
        ScoreRegistry.setEntry, Owned.requireOwnerOnly, wp_get, wp_require, wp_modify, wp_emit]
      intro _ _ _ _
      exact ⟨_, .reg, Body.refl⟩
    | foreign =>
      simp only [install, wp_bind, wp_pure]
      refine wp_mono (body_prog (cx := { fr := mkFrame (w.setKind a .foreign) s a 0 (.onInstall .foreign), call := exec orc n a }) hcall
        hC _ ?_) (fun _ _ hb => ⟨_, .foreign, hb⟩)
      exact setKind_setKind_kind w a .foreign
    | conv t r mf ct cw =>
      simp only [install, Converter.onInstall, Controller.onInstall, Owned.onInstall, wp_bind, wp_require, wp_modOwn,
        wp_modConv]
      intro h5 h6 h7
      obtain ⟨t, rfl, ht⟩ := valid_some h7
      obtain ⟨r, rfl, hr⟩ := valid_some h5
      have hI : Installed s a (enterW (w.setKind a (Install.conv (some t) (some r) mf ct cw).kind) s a 0
          (.onInstall (Install.conv (some t) (some r) mf ct cw))) (.conv (some t) (some r) mf ct cw) _ :=
        .conv t r mf ct cw ht hr h6.1 h6.2
      simp only [setConv_setConv, setConv_conv_same]
      refine wp_mono (Q := fun _ w' => Body C _ _ w') ?_ (fun _ _ hb => ⟨_, hI, hb⟩)
      cases ct with
      | none => simp only [wp_pure]; exact Body.refl
      | some c =>
        simp only [wp_ite, wp_pure]
        refine ⟨fun hc => ?_, fun _ => Body.refl⟩
        refine body_addConnector
          (cx := { fr := mkFrame (w.setKind a .conv) s a 0 (.onInstall (.conv (some t) (some r) mf (some c) cw)),
                   call := exec orc n a }) ?_ hC ?_ ?_
        · exact hcall
        · exact setKind_setKind_kind w a .conv
        · intro _
          exact .inr ⟨_, _, _, rfl, rfl⟩
  exact key _ _ h

theorem deploy_steps (orc : Oracle) (n : Nat) (s a : Addr) (i : Install) {w x w'} (hs : s.isContract = false)
    (h : deploy orc n s a i w = .ok (x, w')) :
    ∃ w1, (∀ B, Step B w w1) ∧ Installed s a (enterW (w.setKind a i.kind) s a 0 (.onInstall i)) i w1 ∧
      Body ExecRel (mkFrame (w.setKind a i.kind) s a 0 (.onInstall i)) w1 w' ∧
      a.isContract = true ∧ w.kind a = .none := by
  obtain ⟨⟨h1, h2, h3, h4⟩, w1, hI, hB⟩ := deploy_body orc n s a i execRel_stable (exec_rel orc n a) h
  exact ⟨w1, fun B => .deploy s a i w1 hs h1 h2 h3 h4 hI, hI, hB, h1, h3⟩

theorem Installed.frames {s a w i w'} (h : Installed s a w i w') : w'.frames = w.frames := by
  cases h <;> rfl

/-- A transaction is a sequence of elementary steps. -/
theorem tx_steps (orc : Oracle) (fuel : Nat) (tx : Tx) (w : World) : Steps w.frames w (tx.apply orc fuel w) := by
  unfold Tx.apply
  cases h : tx.run orc fuel w with
  | error e => exact .refl
  | ok p =>
    obtain ⟨x, w'⟩ := p
    have : wp (tx.run orc fuel) (fun _ w' => Steps w.frames w w') w := by
      cases tx with
      | call s t v c =>
        simp only [Tx.run, wp_bind, wp_require]
        intro hs x w' e
        exact (exec_rel orc fuel s t v c w x w' e).2 _ (List.suffix_refl _) (.inl hs)
      | deploy s a i =>
        simp only [Tx.run, wp_bind, wp_require]
        intro hs x w' e
        obtain ⟨w1, h1, h2, h3, _⟩ := deploy_steps orc fuel s a i hs e
        have hf : w1.frames = _ := h2.frames
        rw [enterW_frames] at hf
        refine (Steps.one (h1 _)).trans (h3.steps ?_ ?_)
        · rw [hf]; exact List.suffix_cons _ _
        · exact since_cons (l := []) hf
    exact this _ _ h

theorem Step.frames {B w w'} (h : Step B w w') : w.frames <:+ w'.frames := by
  cases h with
  | enter => exact List.suffix_cons _ _
  | loc f w' _ hl => exact hl.stable.frames
  | deploy s a i w' _ _ _ _ _ hI => rw [hI.frames]; exact List.suffix_cons _ _

theorem Steps.frames {B w w'} (h : Steps B w w') : w.frames <:+ w'.frames := by
  induction h with
  | refl => exact List.suffix_refl _
  | tail _ s ih => exact ih.trans s.frames

/-- Every reachable ledger comes from a genesis ledger by elementary steps. -/
theorem Reachable.steps {w} (h : Reachable w) : ∃ g, Genesis g ∧ Steps [] g w := by
  induction h with
  | genesis h => exact ⟨_, h, .refl⟩
  | step orc fuel tx _ ih =>
    obtain ⟨g, hg, hs⟩ := ih
    exact ⟨g, hg, hs.trans ((tx_steps orc fuel tx _).weaken (List.nil_suffix))⟩

/-- Invariants of histories. -/
theorem Reachable.inv {I : World → Prop} (hg : ∀ w, Genesis w → I w) (hs : ∀ w w', I w → Step [] w w' → I w') {w}
    (h : Reachable w) : I w := by
  obtain ⟨g, hg', hst⟩ := h.steps
  clear h
  induction hst with
  | refl => exact hg _ hg'
  | tail _ s ih => exact hs _ _ ih s

theorem Steps.inv {B} {I : World → Prop} (hs : ∀ w w', I w → Step B w w' → I w') {w w'} (h : Steps B w w') (hi : I w) :
    I w' := by
  induction h with
  | refl => exact hi
  | tail _ s ih => exact hs _ _ ih s

end Verif

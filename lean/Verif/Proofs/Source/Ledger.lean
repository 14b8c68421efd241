import Verif.Proofs.Source.Machine
/-!
The ledger driven by the source text is the ledger of the model.
-/
set_option autoImplicit false
set_option linter.style.nameCheck false
namespace Verif.Src
attribute [local irreducible] glob find findNext function const mroOf ifaceHas fields cfields Verif.ZERO invoke

theorem opt_lift {α : Type} (f : World → Option (α × World)) (w : World) : opt (lift f) w = f w := by
  unfold opt lift
  cases f w <;> rfl

theorem runProg_congr (self : Addr) (f g : Addr → Int → Call → M Val) (h : ∀ a v c w, opt (f a v c) w = opt (g a v c) w) (p : Prog) :
    ∀ w, opt (runProg self f p) w = opt (runProg self g p) w := by
  induction p with
  | ret v => intro w; rfl
  | fail => intro w; rfl
  | look k ih => intro w; simp only [runProg, opt_bind, opt_get, andThen_some, ih]
  | store m k ih => intro w; simp only [runProg, opt_bind, opt_modify, andThen_some, ih]
  | emit e k ih => intro w; simp only [runProg, opt_bind, opt_emit, andThen_some, ih]
  | call a v c k ih =>
    intro w
    have hw := h a v c w
    simp only [runProg]
    unfold opt at hw ⊢
    cases hf : f a v c w with
    | ok p =>
      cases hg : g a v c w with
      | ok q =>
        rw [hf, hg] at hw
        injection hw with hw
        subst hw
        have := ih (some p.1) p.2
        unfold opt at this
        simp only [hf, hg]
        exact this
      | error e => rw [hf, hg] at hw; cases hw
    | error e =>
      cases hg : g a v c w with
      | ok q => rw [hf, hg] at hw; cases hw
      | error e' =>
        have := ih none w
        unfold opt at this
        simp only [hf, hg]
        exact this

/-- The own contracts see the calls of others only through `opt`. -/
theorem of_congr (fr : Frame) (f g : Addr → Int → Call → M Val) (h : ∀ a v c w, opt (f a v c) w = opt (g a v c) w) (c : String) (L : Nat) :
    Cx.of ⟨fr, f⟩ c L = Cx.of ⟨fr, g⟩ c L := by
  unfold Cx.of
  congr 1
  funext a v k w
  exact h a v k w

theorem body_eq (orc : Oracle) (d L : Nat) (hd : 8 ≤ d) (hL : 96 ≤ L) (fr : Frame) (f g : Addr → Int → Call → M Val)
    (h : ∀ a v c w, opt (f a v c) w = opt (g a v c) w) (w : World) : opt (body orc d L ⟨fr, f⟩) w = opt (Verif.body orc ⟨fr, g⟩) w := by
  unfold body Verif.body
  rw [opt_bind, opt_bind, opt_get, andThen_some, andThen_some]
  simp only [Ctx.self]
  cases hk : w.kind fr.to with
  | none => simp only [className]; rfl
  | foreign =>
    simp only [className, if_true]
    cases fr.call <;> first | exact runProg_congr _ f g h _ w | rfl
  | irc => simp only [className, opt_lift]; rw [of_congr fr f g h]; exact call_IRCToken _ _ _ hd _
  | icx => simp only [className, opt_lift]; rw [of_congr fr f g h]; exact call_IcxToken _ _ _ hd _
  | flex => simp only [className, opt_lift]; rw [of_congr fr f g h]; exact call_FlexibleToken _ _ _ hd _
  | conv => simp only [className, opt_lift]; rw [of_congr fr f g h]; exact call_Converter _ _ _ hd hL _
  | net => simp only [className, opt_lift]; rw [of_congr fr f g h]; exact call_Network _ _ _ hd _
  | reg => simp only [className, opt_lift]; rw [of_congr fr f g h]; exact call_ScoreRegistry _ _ _ hd _

theorem exec_eq (orc : Oracle) (d L : Nat) (hd : 8 ≤ d) (hL : 96 ≤ L) (n : Nat) : ∀ s t v c w,
    opt (exec orc d L n s t v c) w = opt (Verif.exec orc n s t v c) w := by
  induction n with
  | zero => intros; rfl
  | succ n ih =>
    intro s t v c w
    unfold exec Verif.exec
    rw [opt_bind, opt_bind]
    exact andThen_congr rfl fun p => body_eq orc d L hd hL p.1 _ _ (fun a v c w => ih p.1.to a v c w) p.2

theorem andThen_unit (x : Option (Unit × World)) : (x >>- fun p => some (PV.none, p.2) >>- fun q => some ((), q.2)) = x := by
  cases x <;> rfl

theorem install_own (cx : Ctx) (c : String) (L d : Nat) (i : Install) (m : M Unit) (w : World) (here : String) (t : Def)
    (hf : find c "on_install" = some (here, t))
    (hi : invoke (Cx.of cx c L) d here (some c) t (installArgs i) w = opt m w >>- fun p => some (.none, p.2)) :
    onInstall (Cx.of cx c L) d i w = opt m w := by
  unfold onInstall
  simp only [of_cls]
  rw [hf, andThen_some, hi, andThen_assoc]
  exact andThen_unit _

theorem install_eq (orc : Oracle) (d L : Nat) (hd : 8 ≤ d) (fr : Frame) (f g : Addr → Int → Call → M Val)
    (h : ∀ a v c w, opt (f a v c) w = opt (g a v c) w) (i : Install) (w : World) :
    opt (install orc d L ⟨fr, f⟩ i) w = opt (Verif.install orc ⟨fr, g⟩ i) w := by
  unfold install Verif.install
  cases i with
  | irc a b s e =>
    simp only [Install.kind, className, opt_lift]; rw [of_congr fr f g h]
    exact install_own _ _ _ _ _ _ _ _ _ find_IRCToken_on_install (inv_ircInstall _ _ _ _ (by omega) _ _ _ _)
  | icx =>
    simp only [Install.kind, className, opt_lift]; rw [of_congr fr f g h]
    exact install_own _ _ _ _ _ _ _ _ _ find_IcxToken_on_install (inv_icxInstall _ _ _ (by omega))
  | flex a b s e =>
    simp only [Install.kind, className, opt_lift]; rw [of_congr fr f g h]
    exact install_own _ _ _ _ _ _ _ _ _ find_FlexibleToken_on_install (inv_flexInstall _ _ _ (by omega) _ _ _ _)
  | conv t r m ct cw =>
    simp only [Install.kind, className, opt_lift]; rw [of_congr fr f g h]
    exact install_own _ _ _ _ _ _ _ _ _ find_Converter_on_install (inv_convInstall _ _ _ (by omega) _ _ _ _ _)
  | net =>
    simp only [Install.kind, className, opt_lift]; rw [of_congr fr f g h]
    exact install_own _ _ _ _ _ _ _ _ _ find_Network_on_install (inv_netInstall _ _ _ (by omega))
  | reg =>
    simp only [Install.kind, className, opt_lift]; rw [of_congr fr f g h]
    exact install_own _ _ _ _ _ _ _ _ _ find_ScoreRegistry_on_install (inv_regInstall _ _ _ (by omega))
  | «foreign» =>
    simp only [Install.kind, className]
    rw [opt_bind, opt_bind]
    exact andThen_congr (runProg_congr _ f g h _ w) fun _ => rfl

theorem deploy_eq (orc : Oracle) (d L : Nat) (hd : 8 ≤ d) (hL : 96 ≤ L) (n : Nat) (s a : Addr) (i : Install) (w : World) :
    opt (deploy orc d L n s a i) w = opt (Verif.deploy orc n s a i) w := by
  unfold deploy Verif.deploy
  simp only [opt_bind]
  refine andThen_congr rfl fun _ => andThen_congr rfl fun _ => andThen_congr rfl fun _ => andThen_congr rfl fun p => ?_
  exact andThen_congr (install_eq orc d L hd p.1 _ _ (fun b v c w => exec_eq orc d L hd hL n a b v c w) i _) fun _ => rfl

theorem run_eq (orc : Oracle) (d L : Nat) (hd : 8 ≤ d) (hL : 96 ≤ L) (n : Nat) (tx : Tx) (w : World) :
    opt (run orc d L n tx) w = opt (tx.run orc n) w := by
  cases tx with
  | call s t v c =>
    simp only [run, Tx.run, opt_bind]
    exact andThen_congr rfl fun _ => exec_eq orc d L hd hL n s t v c _
  | deploy s a i =>
    simp only [run, Tx.run, opt_bind]
    exact andThen_congr rfl fun _ => deploy_eq orc d L hd hL n s a i _

theorem apply_eq (orc : Oracle) (d L : Nat) (hd : 8 ≤ d) (hL : 96 ≤ L) (n : Nat) (tx : Tx) (w : World) :
    apply orc d L n tx w = tx.apply orc n w := by
  have h := run_eq orc d L hd hL n tx w
  unfold apply Tx.apply
  unfold opt at h
  cases h1 : run orc d L n tx w <;> cases h2 : tx.run orc n w <;> rw [h1, h2] at h <;> simp only [Option.some.injEq, reduceCtorEq] at h
  rw [h]

theorem reachable_iff (d L : Nat) (hd : 8 ≤ d) (hL : 96 ≤ L) (w : World) : Reachable d L w ↔ Verif.Reachable w := by
  constructor
  · intro h
    induction h with
    | genesis h => exact .genesis h
    | step orc n tx _ ih => rw [apply_eq orc d L hd hL]; exact .step orc n tx ih
  · intro h
    induction h with
    | genesis h => exact .genesis h
    | step orc n tx _ ih => rw [← apply_eq orc d L hd hL]; exact .step orc n tx ih

end Verif.Src

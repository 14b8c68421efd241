import Verif.Spec.Api
import Verif.Proofs.Ok
import Verif.Proofs.Inv
import Verif.Proofs.Blame
import Verif.Props.Scenario
/-!
C69: what may be called from outside, and what the contracts call of each other.
-/
set_option autoImplicit false
namespace Verif

open Py (Method table exports)

variable {w w' : World} {orc : Oracle} {n : Nat} {s t T : Addr} {v : Int} {c : Call} {x : Val} {k : Kind} {fr : Frame}

/-! ### Proofs -/

/-- `Offers`, to be computed. -/
def offersB (k : Kind) (sg : Option (String × List String)) (pay ro : Bool) : Bool :=
  match sg with
  | none => false
  | some sg => decide ((sg, pay, ro) ∈ methodsOf k)

theorem offersB_offers {pay ro : Bool} (h : offersB k c.sig pay ro = true) : Offers k c pay ro := by
  unfold offersB at h
  cases hc : c.sig with
  | none => rw [hc] at h; exact absurd h (by simp)
  | some sg => rw [hc] at h; exact ⟨sg, hc, by simpa using h⟩

theorem offersB_any {pay : Bool} (h : (offersB k c.sig pay true || offersB k c.sig pay false) = true) : ∃ ro, Offers k c pay ro := by
  rw [Bool.or_eq_true] at h
  rcases h with h | h
  · exact ⟨_, offersB_offers h⟩
  · exact ⟨_, offersB_offers h⟩

theorem offersB_free (hv : v = 0) (h : (offersB k c.sig false true || offersB k c.sig false false) = true) :
    ∃ pay ro, Offers k c pay ro ∧ (pay = true ∨ v = 0) := by
  obtain ⟨ro, h⟩ := offersB_any h
  exact ⟨_, ro, h, .inr hv⟩

theorem runNonPayable_ok {cx : Ctx} {tb : Option (M Val)} (h : runNonPayable cx tb w = .ok (x, w')) :
    cx.value = 0 ∧ (tb ≠ none ∨ cx.fr.call = .fallback) := by
  unfold runNonPayable notPayable at h
  simp only [ok_bind, ok_require] at h
  obtain ⟨_, _, ⟨h1, rfl⟩, h2⟩ := h
  refine ⟨h1, ?_⟩
  cases tb with
  | some m => exact .inl (by simp)
  | none =>
    by_cases hc : cx.fr.call = .fallback
    · exact .inr hc
    · simp only [hc, if_false] at h2
      exact absurd h2 (by simp [fail])

theorem exec_irc_offers (hk : w.kind t = .irc) (h : exec orc (n + 1) s t v c w = .ok (x, w')) :
    v = 0 ∧ (c = .fallback ∨ ∃ ro, Offers .irc c false ro) := by
  obtain ⟨_, h⟩ := (ok_exec_irc hk).mp h
  obtain ⟨h1, h2⟩ := runNonPayable_ok h
  refine ⟨h1, ?_⟩
  rcases h2 with h2 | h2
  · right
    apply offersB_any
    cases c <;> first | exact absurd rfl h2 | (simp only [Call.sig]; decide +kernel)
  · exact .inl h2

theorem exec_flex_offers (hk : w.kind t = .flex) (h : exec orc (n + 1) s t v c w = .ok (x, w')) :
    v = 0 ∧ (c = .fallback ∨ ∃ ro, Offers .flex c false ro) := by
  obtain ⟨_, h⟩ := (ok_exec_flex hk).mp h
  obtain ⟨h1, h2⟩ := runNonPayable_ok h
  refine ⟨h1, ?_⟩
  rcases h2 with h2 | h2
  · right
    apply offersB_any
    cases c <;> first | exact absurd rfl h2 | (simp only [Call.sig]; decide +kernel)
  · exact .inl h2

theorem exec_conv_offers (hk : w.kind t = .conv) (h : exec orc (n + 1) s t v c w = .ok (x, w')) :
    v = 0 ∧ (c = .fallback ∨ ∃ ro, Offers .conv c false ro) := by
  obtain ⟨_, h⟩ := (ok_exec_conv hk).mp h
  obtain ⟨h1, h2⟩ := runNonPayable_ok h
  refine ⟨h1, ?_⟩
  rcases h2 with h2 | h2
  · right
    apply offersB_any
    cases c <;> first | exact absurd rfl h2 | (simp only [Call.sig]; decide +kernel)
  · exact .inl h2

theorem exec_reg_offers (hk : w.kind t = .reg) (h : exec orc (n + 1) s t v c w = .ok (x, w')) :
    v = 0 ∧ (c = .fallback ∨ ∃ ro, Offers .reg c false ro) := by
  obtain ⟨_, h⟩ := (ok_exec_reg hk).mp h
  obtain ⟨h1, h2⟩ := runNonPayable_ok h
  refine ⟨h1, ?_⟩
  rcases h2 with h2 | h2
  · right
    apply offersB_any
    cases c <;> first | exact absurd rfl h2 | (simp only [Call.sig]; decide +kernel)
  · exact .inl h2

theorem exec_icx_offers (hk : w.kind t = .icx) (h : exec orc (n + 1) s t v c w = .ok (x, w')) :
    c = .fallback ∨ ∃ pay ro, Offers .icx c pay ro ∧ (pay = true ∨ v = 0) := by
  obtain ⟨_, h⟩ := (ok_exec_icx hk).mp h
  cases c
  case fallback => exact .inl rfl
  case deposit => exact .inr ⟨true, false, offersB_offers (by simp only [Call.sig]; decide +kernel), .inl rfl⟩
  all_goals
    unfold IcxToken.dispatch at h
    simp only [mkFrame] at h
    obtain ⟨h3, h4⟩ := runNonPayable_ok h
    right
    rcases h4 with h4 | h4
    · first | exact absurd rfl h4 | exact offersB_free h3 (by simp only [Call.sig]; decide +kernel)
    · exact absurd h4 (by intro h; cases h)

theorem exec_net_offers (hk : w.kind t = .net) (h : exec orc (n + 1) s t v c w = .ok (x, w')) :
    (c = .fallback ∧ v = 0) ∨ ∃ pay ro, Offers .net c pay ro ∧ (pay = true ∨ v = 0) := by
  obtain ⟨_, h⟩ := (ok_exec_net hk).mp h
  cases c
  case convert p m => exact .inr ⟨true, false, offersB_offers (by simp only [Call.sig]; decide +kernel), .inl rfl⟩
  case convertFor p m f => exact .inr ⟨true, false, offersB_offers (by simp only [Call.sig]; decide +kernel), .inl rfl⟩
  case fallback =>
    unfold Network.dispatch at h
    simp only [mkFrame] at h
    exact .inl ⟨rfl, (runNonPayable_ok h).1⟩
  all_goals
    unfold Network.dispatch at h
    simp only [mkFrame] at h
    obtain ⟨h3, h4⟩ := runNonPayable_ok h
    right
    rcases h4 with h4 | h4
    · first | exact absurd rfl h4 | exact offersB_free h3 (by simp only [Call.sig]; decide +kernel)
    · exact absurd h4 (by intro h; cases h)

/-- Writing calls are not read-only methods. -/
def readOnlyB (k : Kind) (sg : Option (String × List String)) : Bool := offersB k sg true true || offersB k sg false true

theorem readOnlyB_of {pay : Bool} (h : Offers k c pay true) : readOnlyB k c.sig = true := by
  obtain ⟨sg, h1, h2⟩ := h
  unfold readOnlyB offersB
  rw [h1]
  cases pay <;> simp [h2]

theorem not_readOnly {pay : Bool} (h : readOnlyB k c.sig = false) : ¬ Offers k c pay true := fun ho => by
  rw [readOnlyB_of ho] at h; exact absurd h (by simp)

theorem LocalStep.not_readOnly (hl : LocalStep fr w w') (hs : w.kind fr.to ∈ scores) :
    SameAt fr.to w w' ∨ ∀ pay, ¬ Offers (w.kind fr.to) fr.call pay true := by
  cases hl with
  | log e _ => exact .inl ⟨rfl, rfl, rfl, rfl, rfl, rfl, rfl⟩
  | store n hk => rw [hk] at hs; exact absurd hs (by decide)
  | transfer to v d hk hc =>
    refine .inr fun pay => Verif.not_readOnly ?_
    rw [hc]; simp only [Call.sig]
    revert hs; generalize w.kind fr.to = k; intro hs
    cases k <;> first | exact absurd hs (by decide) | decide +kernel
  | issue to v hk hc => exact .inr fun pay => Verif.not_readOnly (by rw [hc, hk]; simp only [Call.sig]; decide +kernel)
  | destroy to v hk hc => exact .inr fun pay => Verif.not_readOnly (by rw [hc, hk]; simp only [Call.sig]; decide +kernel)
  | deposit hk hc =>
    refine .inr fun pay => Verif.not_readOnly ?_
    rcases hc with hc | hc
    · rw [hc, hk]; simp only [Call.sig]; decide +kernel
    · rw [hc, hk]; simp only [Call.sig]; decide +kernel
  | withdraw v to hk hc =>
    refine .inr fun pay => Verif.not_readOnly ?_
    rcases hc with hc | ⟨hc, _⟩
    · rw [hc, hk]; simp only [Call.sig]; decide +kernel
    · rw [hc, hk]; simp only [Call.sig]; decide +kernel
  | disableTransfer b hk hc => exact .inr fun pay => Verif.not_readOnly (by rw [hc, hk]; simp only [Call.sig]; decide +kernel)
  | nominate a hk _ hc =>
    refine .inr fun pay => Verif.not_readOnly ?_
    rw [hc]; simp only [Call.sig]
    revert hs; generalize w.kind fr.to = k; intro hs
    cases k <;> first | exact absurd hs (by decide) | decide +kernel
  | accept hk _ hc =>
    refine .inr fun pay => Verif.not_readOnly ?_
    rw [hc]; simp only [Call.sig]
    revert hs; generalize w.kind fr.to = k; intro hs
    cases k <;> first | exact absurd hs (by decide) | decide +kernel
  | nominateManager m hk _ hc => exact .inr fun pay => Verif.not_readOnly (by rw [hc, hk]; simp only [Call.sig]; decide +kernel)
  | acceptManager hk _ hc => exact .inr fun pay => Verif.not_readOnly (by rw [hc, hk]; simp only [Call.sig]; decide +kernel)
  | conv c' hk hc =>
    refine .inr fun pay => Verif.not_readOnly ?_
    rw [hk]
    cases hc with
    | addConnector t wt b h =>
      rcases h with ⟨h, _⟩ | ⟨tk, r, mf, h, _⟩
      · rw [h]; simp only [Call.sig]; decide +kernel
      · rw [h]; simp only [Call.sig]; decide +kernel
    | updateConnector t wt b vb h => rw [h]; simp only [Call.sig]; decide +kernel
    | setPurchase t b h => rw [h]; simp only [Call.sig]; decide +kernel
    | updateRegistry new h => rw [h]; simp only [Call.sig]; decide +kernel
    | restoreRegistry h => rw [h]; simp only [Call.sig]; decide +kernel
    | disableRegistryUpdate b h => rw [h]; simp only [Call.sig]; decide +kernel
    | disableConversions b h => rw [h]; simp only [Call.sig]; decide +kernel
    | setFee n h => rw [h]; simp only [Call.sig]; decide +kernel
    | addVirtual from_ v d h => rw [h]; simp only [Call.sig]; decide +kernel
    | subVirtual from_ v d t m r h => rw [h]; simp only [Call.sig]; decide +kernel
  | register n a hk hc => exact .inr fun pay => Verif.not_readOnly (by rw [hc.1, hk]; simp only [Call.sig]; decide +kernel)
  | unregister n hk hc => exact .inr fun pay => Verif.not_readOnly (by rw [hc, hk]; simp only [Call.sig]; decide +kernel)
  | registerIcx a b hk hc => exact .inr fun pay => Verif.not_readOnly (by rw [hc, hk]; simp only [Call.sig]; decide +kernel)

/-- A call a contract of kind `k` may make of another: a plain coin transfer, or a method one of its interfaces declares, with the types
it declares (but for `getAddress`, see `C69_getAddress`). -/
def CallsDeclared (k : Kind) (c : Call) : Prop :=
  c = .fallback ∨ ∃ sg, c.sig = some sg ∧ (sg ∈ declared k ∨ (sg = ("getAddress", ["str"]) ∧ ("getAddress", ["bytes"]) ∈ declared k))

def declaredB (k : Kind) (sg : Option (String × List String)) : Bool :=
  match sg with
  | none => false
  | some sg => decide (sg ∈ declared k ∨ (sg = ("getAddress", ["str"]) ∧ ("getAddress", ["bytes"]) ∈ declared k))

theorem declaredB_of (h : declaredB k c.sig = true) : CallsDeclared k c := by
  unfold declaredB at h
  cases hc : c.sig with
  | none => rw [hc] at h; exact absurd h (by simp)
  | some sg => rw [hc] at h; exact .inr ⟨sg, hc, of_decide_eq_true h⟩

theorem OutCall.declared (h : OutCall fr w t v c) (hs : w.kind fr.to ∈ scores) : CallsDeclared (w.kind fr.to) c := by
  cases h with
  | foreign _ _ _ hk => rw [hk] at hs; exact absurd hs (by decide)
  | fallback to v d hk =>
    apply declaredB_of
    simp only [Call.sig]
    revert hk; generalize w.kind fr.to = k; intro hk
    cases k <;> first | exact absurd hk (by decide) | decide +kernel
  | withdrawTokens tok to v hk =>
    apply declaredB_of
    simp only [Call.sig]
    revert hk; generalize w.kind fr.to = k; intro hk
    cases k <;> first | exact absurd hk (by decide) | decide +kernel
  | icxOut => exact .inl rfl
  | convView t c hk hc =>
    apply declaredB_of
    rw [hk]
    rcases hc with rfl | rfl | rfl | ⟨n, rfl⟩ <;> simp only [Call.sig] <;> decide +kernel
  | convToken t c hk _ _ hc =>
    apply declaredB_of
    rw [hk]
    rcases hc with ⟨a, _, rfl⟩ | ⟨_, rfl⟩ | ⟨b, _, rfl⟩ | ⟨a, b, v, _, rfl⟩ <;> simp only [Call.sig] <;> decide +kernel
  | convIssue t f v d m r hk => apply declaredB_of; rw [hk]; simp only [Call.sig]; decide +kernel
  | convDestroy f v d hk => apply declaredB_of; rw [hk]; simp only [Call.sig]; decide +kernel
  | convPay t f v d m r hk => apply declaredB_of; rw [hk]; simp only [Call.sig]; decide +kernel
  | net t v c hk hc =>
    rcases hc with ⟨p, m, a, _, _, rfl⟩ | ⟨_, hc⟩
    · exact .inl rfl
    · apply declaredB_of
      rw [hk]
      rcases hc with rfl | rfl | ⟨a, b, n, rfl⟩ | ⟨a, n, d, rfl⟩ | ⟨a, n, rfl⟩ <;> simp only [Call.sig] <;> decide +kernel

/-! ### C69 -/

set_option maxRecDepth 100000 in
/-- C69. `methodsOf` is what the text of the classes says: for each contract its `@external` methods, own and inherited, as Python resolves
them. -/
theorem C69_table : ∀ k ∈ scores, ∃ cls, k.className = some cls ∧
    (exports table cls).map (fun m => ((m.name, m.params.map Prod.snd), m.payable, m.readonly)) = methodsOf k := by
  have h : (scores.all fun k => match k.className with
    | none => false
    | some cls => decide ((exports table cls).map (fun m => ((m.name, m.params.map Prod.snd), m.payable, m.readonly)) = methodsOf k)) = true := by
    decide +kernel
  intro k hk
  have := List.all_eq_true.mp h k hk
  revert this
  cases k.className with
  | none => simp
  | some cls => intro h; exact ⟨cls, rfl, of_decide_eq_true h⟩

/-- C69. Only what a contract offers can be called: a call that succeeds, as a transaction or nested, asks for an `@external` method with
arguments of its types, or is a plain coin transfer. Coin can be sent along only to a `@payable` method (or plainly to a contract whose
`fallback` is `@payable`). In all states, for all callers. -/
theorem C69_only_offered (hs : w.kind t ∈ scores) (h : exec orc n s t v c w = .ok (x, w')) :
    (c = .fallback ∧ (v = 0 ∨ acceptsCoin (w.kind t) = true)) ∨ ∃ pay ro, Offers (w.kind t) c pay ro ∧ (v = 0 ∨ pay = true) := by
  cases n with
  | zero => exact absurd h (by simp [exec, fail])
  | succ n =>
    have npay : ∀ k, w.kind t = k → (v = 0 ∧ (c = .fallback ∨ ∃ ro, Offers k c false ro)) →
        (c = .fallback ∧ (v = 0 ∨ acceptsCoin (w.kind t) = true)) ∨ ∃ pay ro, Offers (w.kind t) c pay ro ∧ (v = 0 ∨ pay = true) := by
      rintro k hk ⟨h1, h2 | ⟨ro, h2⟩⟩
      · exact .inl ⟨h2, .inl h1⟩
      · exact .inr ⟨_, ro, by rw [hk]; exact h2, .inl h1⟩
    cases hk : w.kind t with
    | none => rw [hk] at hs; exact absurd hs (by decide)
    | foreign => rw [hk] at hs; exact absurd hs (by decide)
    | irc => rw [← hk]; exact npay _ hk (exec_irc_offers hk h)
    | flex => rw [← hk]; exact npay _ hk (exec_flex_offers hk h)
    | conv => rw [← hk]; exact npay _ hk (exec_conv_offers hk h)
    | reg => rw [← hk]; exact npay _ hk (exec_reg_offers hk h)
    | icx =>
      rcases exec_icx_offers hk h with h | ⟨pay, ro, h1, h2⟩
      · exact .inl ⟨h, .inr (by decide +kernel)⟩
      · exact .inr ⟨pay, ro, h1, h2.symm⟩
    | net =>
      rcases exec_net_offers hk h with ⟨h, h'⟩ | ⟨pay, ro, h1, h2⟩
      · exact .inl ⟨h, .inl h'⟩
      · exact .inr ⟨pay, ro, h1, h2.symm⟩

/-- C69. Only the ICX token accepts plain coin transfers; only its `deposit` and the network's `convert` and `convertFor` accept coin. -/
theorem C69_payable : (∀ k ∈ scores, (acceptsCoin k = true ↔ k = .icx)) ∧
    ∀ k ∈ scores, ∀ c ro, Offers k c true ro → (k = .icx ∧ c = .deposit) ∨ (k = .net ∧ ((∃ p m, c = .convert p m) ∨ ∃ p m f, c = .convertFor p m f)) := by
  refine ⟨by decide +kernel, fun k hk c ro h => ?_⟩
  have hb : (offersB k c.sig true true || offersB k c.sig true false) = true := by
    obtain ⟨sg, h1, h2⟩ := h
    unfold offersB
    rw [h1]
    cases ro <;> simp [h2]
  cases c
  case deposit =>
    refine .inl ⟨?_, rfl⟩
    simp only [Call.sig] at hb
    cases k <;> first | rfl | exact absurd hb (by decide +kernel)
  case convert p m =>
    refine .inr ⟨?_, .inl ⟨p, m, rfl⟩⟩
    simp only [Call.sig] at hb
    cases k <;> first | rfl | exact absurd hb (by decide +kernel)
  case convertFor p m f =>
    refine .inr ⟨?_, .inr ⟨p, m, f, rfl⟩⟩
    simp only [Call.sig] at hb
    cases k <;> first | rfl | exact absurd hb (by decide +kernel)
  all_goals
    simp only [Call.sig] at hb
    exfalso
    cases k <;> exact absurd hb (by decide +kernel)

/-- C69. Read-only methods write nothing: if the storage of a contract is different at the end of a history, some call to it was not for a
method marked read-only. -/
theorem C69_readonly (h : Later w w') (hs : w.kind T ∈ scores) :
    SameAt T w w' ∨ ∃ f, Called w w' f ∧ f.to = T ∧ ∀ pay, ¬ Offers (w.kind T) f.call pay true := by
  have hne : w.kind T ≠ .none := by intro e; rw [e] at hs; exact absurd hs (by decide)
  have hst : Steps w.frames w w' := by
    induction h with
    | refl => exact .refl
    | @step u orc fuel tx hl ih => exact ih.trans ((tx_steps orc fuel tx u).weaken ih.frames)
  exact Steps.blame hne (R := SameAt T) (fun _ _ h => h)
    (fun a b c h1 h2 => ⟨h2.kind.trans h1.kind, h2.tok.trans h1.tok, h2.own.trans h1.own, h2.flex.trans h1.flex, h2.conv.trans h1.conv,
      h2.reg.trans h1.reg, h2.net.trans h1.net⟩)
    (P := fun f => ∀ pay, ¬ Offers (w.kind T) f.call pay true)
    (fun f u u' hk hT hl => by
      subst hT
      rw [← hk]
      exact hl.not_readOnly (by rw [hk]; exact hs)) hst

/-- C69. The contracts call others only as their interfaces say: every call in every history that one of the contracts made is a plain coin
transfer, or for a method declared in one of the interfaces its class uses, with arguments of the declared types. -/
theorem C69_calls (hr : Reachable w) (hf : fr ∈ w.frames) (hs : w.kind fr.sender ∈ scores) : CallsDeclared (w.kind fr.sender) fr.call := by
  have key : (∀ a, w.kind a ≠ .none → a.isContract = true) ∧ ∀ f ∈ w.frames, f.sender.isContract = false ∨
      (w.kind f.sender ≠ .none ∧ (w.kind f.sender ∈ scores → CallsDeclared (w.kind f.sender) f.call)) := by
    refine Reachable.inv (I := fun w => (∀ a, w.kind a ≠ .none → a.isContract = true) ∧ ∀ f ∈ w.frames, f.sender.isContract = false ∨
      (w.kind f.sender ≠ .none ∧ (w.kind f.sender ∈ scores → CallsDeclared (w.kind f.sender) f.call))) ?_ ?_ hr
    · intro w hg
      exact ⟨fun a h => absurd (hg.kind a) h, fun f h => by rw [hg.frames] at h; exact absurd h (by simp)⟩
    · rintro w w' ⟨hi1, hi2⟩ hst
      cases hst with
      | enter s t v c hv hc hcall hn =>
        refine ⟨hi1, fun f hf => ?_⟩
        have hf' : f = mkFrame w s t v c ∨ f ∈ w.frames := by simpa [enterW] using hf
        rcases hf' with rfl | hf'
        · rcases hcall with h | ⟨g, _, rfl, ho⟩
          · exact .inl h
          · refine .inr ⟨?_, fun hs => OutCall.declared (w := w) (t := t) (v := v) ho hs⟩
            show w.kind g.to ≠ .none
            intro e
            cases ho <;> simp_all [Kind.isToken, Kind.isOwned]
        · exact hi2 f hf'
      | loc g w' hg hl =>
        have hfr : w'.frames = w.frames := hl.frames
        rw [hl.kind, hfr]
        exact ⟨hi1, hi2⟩
      | deploy s a i w' hsE ha _ hn _ hI =>
        have hkind : w'.kind = upd w.kind a i.kind := by
          rw [hI.kind, enterW_kind]; rfl
        refine ⟨fun b hb => ?_, fun f hf => ?_⟩
        · rw [hkind, upd_apply] at hb
          by_cases e : b = a
          · rw [e]; exact ha
          · rw [if_neg e] at hb; exact hi1 b hb
        · rw [hI.frames] at hf
          have hf' : f = mkFrame (w.setKind a i.kind) s a 0 (.onInstall i) ∨ f ∈ w.frames := by simpa [enterW, World.setKind] using hf
          rcases hf' with rfl | hf'
          · exact .inl hsE
          · rcases hi2 f hf' with h | ⟨h1, h2⟩
            · exact .inl h
            · have hne : f.sender ≠ a := by intro e; rw [e] at h1; exact h1 hn
              right
              rw [hkind, upd_apply, if_neg hne]
              exact ⟨h1, h2⟩
  rcases key.2 fr hf with h | ⟨_, h⟩
  · rw [key.1 fr.sender (by intro e; rw [e] at hs; exact absurd hs (by decide))] at h
    exact absurd h (by simp)
  · exact h hs

/-- C69. What the interfaces declare, the contracts that implement them offer, with the same types (but for `getAddress`): for every contract and
every method declared abstract in a class it inherits. And no method is left abstract. -/
theorem C69_implemented : ∀ k ∈ scores, ∃ cls l, k.className = some cls ∧ Py.mro table 20 cls = some l ∧ Py.abstracts table cls = [] ∧
    ∀ b ∈ l, ∀ cl, Py.find table b = some cl → ∀ m ∈ cl.methods, m.abstract = true → m.name ≠ "getAddress" →
      ∃ pay ro, ((m.name, m.params.map Prod.snd), pay, ro) ∈ methodsOf k := by
  have h : (scores.all fun k => match k.className with
    | none => false
    | some cls => match Py.mro table 20 cls with
      | none => false
      | some l => decide (Py.abstracts table cls = []) && l.all fun b => match Py.find table b with
        | none => true
        | some cl => cl.methods.all fun m => !m.abstract || decide (m.name = "getAddress") || (methodsOf k).any fun e => decide (e.1 = (m.name, m.params.map Prod.snd))) = true := by
    decide +kernel
  intro k hk
  have := List.all_eq_true.mp h k hk
  revert this
  cases k.className with
  | none => simp
  | some cls =>
    simp only
    cases hm : Py.mro table 20 cls with
    | none => simp
    | some l =>
      intro h
      simp only [Bool.and_eq_true, decide_eq_true_eq, List.all_eq_true] at h
      refine ⟨cls, l, rfl, hm, h.1, fun b hb cl hcl m hm ha hg => ?_⟩
      have h2 := h.2 b hb
      rw [hcl] at h2
      simp only [List.all_eq_true, Bool.or_eq_true, decide_eq_true_eq, Bool.not_eq_true', List.any_eq_true] at h2
      rcases h2 m hm with (h3 | h3) | ⟨e, h3, h4⟩
      · rw [ha] at h3; exact absurd h3 (by simp)
      · exact absurd h3 hg
      · obtain ⟨sg, pay, ro⟩ := e
        exact ⟨pay, ro, by simpa [← h4] using h3⟩

/-- C69. The exception: the registry's interface declares `getAddress` for `bytes`, the registry (and the converter, which calls it) takes a
string. -/
theorem C69_getAddress : ("getAddress", ["bytes"]) ∈ declared .conv ∧ ("getAddress", ["str"]) ∉ declared .conv ∧
    (("getAddress", ["str"]), false, true) ∈ methodsOf .reg := by
  refine ⟨by decide +kernel, by decide +kernel, by decide +kernel⟩

/-- C69. Creating a contract object runs the `__init__` of each class it inherits from, each once, so that every storage field exists; installing
it runs the `on_install` of its own class and of those listed: for the converter not that of `Managed`. -/
theorem C69_initialised :
    (∀ k ∈ scores, ∀ cls, k.className = some cls → ∀ l, Py.mro table 20 cls = some l →
      (Py.runs table l 20 l "__init__").map Prod.fst = (Py.defs table l "__init__").map Prod.fst ∧
      (Py.runs table l 20 l "__init__").map Prod.snd = ((Py.defs table l "__init__").map fun _ => "__init__")) ∧
    (∀ l, Py.mro table 20 "Converter" = some l → (Py.runs table l 20 l "on_install") =
      [("Converter", "on_install"), ("FlexibleTokenController", "on_install"), ("TokenHolder", "on_install"), ("Owned", "on_install")]) ∧
    (∀ cls ∈ ["FlexibleToken", "IcxToken"], ∀ l, Py.mro table 20 cls = some l → (Py.runs table l 20 l "on_install") =
      [(cls, "on_install"), ("IRCToken", "on_install"), ("TokenHolder", "on_install"), ("Owned", "on_install")]) ∧
    (∀ l, Py.mro table 20 "Network" = some l → (Py.runs table l 20 l "on_install") =
      [("Network", "on_install"), ("TokenHolder", "on_install"), ("Owned", "on_install")]) ∧
    (∀ l, Py.mro table 20 "ScoreRegistry" = some l → (Py.runs table l 20 l "on_install") =
      [("ScoreRegistry", "on_install"), ("Owned", "on_install")]) ∧
    (∀ l, Py.mro table 20 "IRCToken" = some l → (Py.runs table l 20 l "on_install") = [("IRCToken", "on_install")]) := by
  have all : ∀ (o : Option (List String)) (P : List String → Prop) [DecidablePred P],
      (match o with | none => true | some l => decide (P l)) = true → ∀ l, o = some l → P l := by
    intro o P _ h l e
    subst e
    exact of_decide_eq_true h
  refine ⟨?_, all _ _ (by decide +kernel), ?_, all _ _ (by decide +kernel), all _ _ (by decide +kernel), all _ _ (by decide +kernel)⟩
  · intro k hk cls hc
    cases k <;> first | exact absurd hk (by decide) | (cases hc; exact all _ _ (by decide +kernel))
  · intro cls hk
    simp only [List.mem_cons, List.not_mem_nil, or_false] at hk
    rcases hk with rfl | rfl <;> exact all _ _ (by decide +kernel)

/-! ### Everything offered can be had -/

namespace Scenario

def flex3 : Addr := ⟨true, 10⟩
def registry2 : Addr := ⟨true, 11⟩

/-- A tour of all methods, from the ledger `ready2`. -/
def tour : List Tx := [
  .call alice irc 0 .name, .call alice irc 0 .symbol, .call alice irc 0 .decimals, .call alice irc 0 .totalSupply,
  .call alice irc 0 (.balanceOf alice), .call alice irc 0 (.transfer bob 1 none),
  .call alice flex 0 .name, .call alice flex 0 .symbol, .call alice flex 0 .decimals, .call alice flex 0 .totalSupply,
  .call alice flex 0 (.balanceOf alice), .call alice flex 0 (.transfer bob 1 none), .call alice flex 0 .getFlexibleTokenVersion,
  .call alice flex 0 .getTransferPossibility, .call alice flex 0 (.destroy alice 1), .call alice flex 0 .getOwner, .call alice flex 0 .getNewOwner,
  .deploy owner flex3 (.flex "Flex3" "FL3" 100 0),
  .call owner flex3 0 (.issue flex 5), .call owner flex3 0 (.issue icxt 5), .call owner flex3 0 (.issue conv 5), .call owner flex3 0 (.issue network 5),
  .call owner conv 0 (.withdrawFromToken flex3 bob 5), .call owner icxt 0 (.withdrawTokens flex3 bob 5), .call owner conv 0 (.withdrawTokens flex3 bob 5),
  .call owner network 0 (.withdrawTokens flex3 bob 5),
  .call alice icxt 0 .name, .call alice icxt 0 .symbol, .call alice icxt 0 .decimals, .call alice icxt 0 .totalSupply,
  .call alice icxt 0 (.balanceOf alice), .call alice icxt 0 (.transfer bob 1 none), .call alice icxt 5 .deposit, .call alice icxt 0 (.withdraw 1),
  .call alice icxt 0 (.withdrawTo 1 bob), .call alice icxt 0 .getOwner, .call alice icxt 0 .getNewOwner,
  .call owner icxt 0 (.transferOwnerShip bob), .call bob icxt 0 .acceptOwnerShip,
  .call alice network 0 (.getExpectedReturnByPath (pathText [irc, flex, flex]) 1000), .call alice network 0 (.getIcxTokenRegistered icxt),
  .call owner network 0 (.registerIcxToken icxt true), .call alice network 100 (.convert (pathText [icxt, flex, flex]) 1),
  .call alice network 100 (.convertFor (pathText [icxt, flex, flex]) 1 bob), trade [irc, flex, flex] 1000 1, trade [flex, flex, irc] 10 1,
  .call alice network 0 .getOwner, .call alice network 0 .getNewOwner, .call owner network 0 (.transferOwnerShip bob), .call bob network 0 .acceptOwnerShip,
  .call owner conv 0 (.updateConnector irc 250000 false 0), .call owner conv 0 (.disableConnectorPurchases irc false),
  .deploy owner registry2 .reg, .call owner registry2 0 (.registerAddress "Network" network),
  .call owner registry 0 (.registerAddress "ScoreRegistry" registry2), .call owner conv 0 .updateRegistry,
  .call owner conv 0 .restoreRegistry, .call owner conv 0 (.disableRegistryUpdate false), .call owner conv 0 (.disableConversions false),
  .call owner conv 0 (.setConversionFee 1000),
  .call alice conv 0 .isAllowRegistryUpdate, .call alice conv 0 .isActive, .call alice conv 0 .getPreviousRegistry, .call alice conv 0 .getRegistry,
  .call alice conv 0 .getConnectorTokenCount, .call alice conv 0 .getMaxConversionFee, .call alice conv 0 .getConversionFee,
  .call alice conv 0 .isConversionsEnabled, .call alice conv 0 (.getConnectorAt 0), .call alice conv 0 (.getConnector irc),
  .call alice conv 0 (.getConnectorBalance irc), .call alice conv 0 (.getReturn irc flex 1000), .call alice conv 0 (.getFinalAmount 1000 1),
  .call owner conv 0 (.disableTokenTransfers false), .call alice conv 0 .getToken, .call alice conv 0 .getManager, .call alice conv 0 .getNewManager,
  .call owner conv 0 (.transferManagement bob), .call bob conv 0 .acceptManagement, .call alice conv 0 .getOwner, .call alice conv 0 .getNewOwner,
  .call owner conv 0 (.transferTokenOwnership owner), .call owner conv 0 (.transferOwnerShip bob), .call bob conv 0 .acceptOwnerShip,
  .call alice registry 0 (.getAddress "Network"), .call alice registry 0 .getScoreIds, .call owner registry 0 (.unregisterAddress "Network"),
  .call alice registry 0 .getOwner, .call alice registry 0 .getNewOwner, .call owner registry 0 (.transferOwnerShip bob), .call bob registry 0 .acceptOwnerShip]

def toured : World := run tour ready2

end Scenario

/-- All methods occur among the calls of the ledger. -/
def allMethods (w : World) : Bool := scores.all fun k => (methodsOf k).all fun e =>
  (w.frames.map fun f => (w.kind f.to, f.call.sig)).any fun p => decide (p.1 = k ∧ p.2 = some e.1)

theorem allMethods_spec (h : allMethods w = true) : ∀ k ∈ scores, ∀ e ∈ methodsOf k, ∃ f ∈ w.frames, w.kind f.to = k ∧ f.call.sig = some e.1 := by
  intro k hk e he
  have := List.all_eq_true.mp (List.all_eq_true.mp h k hk) e he
  obtain ⟨p, h1, h2⟩ := List.any_eq_true.mp this
  obtain ⟨f, hf, rfl⟩ := List.mem_map.mp h1
  exact ⟨f, hf, of_decide_eq_true h2⟩

set_option maxRecDepth 100000 in
theorem Scenario.toured_all : allMethods Scenario.toured = true := by decide +kernel

/-- C69. And all that is offered can be had: there is a history in which every method of every contract was called with success (as a transaction,
or by another contract). -/
theorem C69_all_work : ∃ w, Reachable w ∧ ∀ k ∈ scores, ∀ e ∈ methodsOf k, ∃ f ∈ w.frames, w.kind f.to = k ∧ f.call.sig = some e.1 :=
  ⟨Scenario.toured, Scenario.run_reachable _ Scenario.ready2_reachable, allMethods_spec Scenario.toured_all⟩

end Verif

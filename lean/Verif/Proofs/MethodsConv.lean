import Verif.Proofs.Methods
/-!
Converter and network: method bodies as sequences of elementary steps and nested calls.
-/
namespace Verif

open Relation

variable {C : Addr → Addr → Int → Call → World → World → Prop} {cx : Ctx}

/-- Sequencing two bodies. -/
theorem body_seq {α} {m : M α} {Q : α → World → Prop} {w : World}
    (h : wp m (fun _ w' => Body C cx.fr w w') w) (k : ∀ x w', Body C cx.fr w w' → Q x w') : wp m Q w :=
  wp_mono h k

@[simp] theorem wp_token (Q : Addr → World → Prop) (w : World) :
    wp (Controller.token cx) Q w ↔ ∀ t, (w.conv cx.self).token = some t → Q t w := by
  unfold Controller.token
  simp only [wp_bind, wp_get]
  cases h : (w.conv cx.self).token <;> simp

@[simp] theorem wp_connector (a : Addr) (Q : Connector → World → Prop) (w : World) :
    wp (Converter.connector cx a) Q w ↔ Q ((w.conv cx.self).connectors a) w := by
  simp [Converter.connector]

@[simp] theorem wp_modConnector (a : Addr) (g) (Q : Unit → World → Prop) (w : World) :
    wp (Converter.modConnector cx a g) Q w ↔ Q () (w.setConv cx.self { w.conv cx.self with
      connectors := upd (w.conv cx.self).connectors a (g ((w.conv cx.self).connectors a)) }) := by
  simp [Converter.modConnector]

@[simp] theorem wp_safeSub (x y : Int) (Q : Int → World → Prop) (w : World) :
    wp (Converter.safeSub x y) Q w ↔ (y ≤ x → Q (x - y) w) := by
  simp [Converter.safeSub]

@[simp] theorem wp_requireValidConnector (a : Addr) (Q : Unit → World → Prop) (w : World) :
    wp (Converter.requireValidConnector cx a) Q w ↔ (((w.conv cx.self).connectors a).isSet = true → Q () w) := by
  simp [Converter.requireValidConnector]

@[simp] theorem wp_getFinalAmount (a m : Int) (Q : Int → World → Prop) (w : World) :
    wp (Converter.getFinalAmount cx a m) Q w ↔
      ∀ r, Converter.finalAmount (w.conv cx.self).fee a m = .ok r → Q r w := by
  simp [Converter.getFinalAmount]

theorem body_isActive (hcall : CallOK C cx) {w : World} (hk : w.kind cx.self = .conv) :
    wp (Controller.isActive cx) (fun _ w' => Body C cx.fr w w') w := by
  simp only [Controller.isActive, wp_bind, wp_token]
  intro t ht
  refine wp_call hcall (.convView t _ hk (.inl rfl)) ?_
  intro x w' hb; simpa using hb

theorem body_requireActive (hcall : CallOK C cx) {w : World} (hk : w.kind cx.self = .conv) :
    wp (Controller.requireActive cx) (fun _ w' => Body C cx.fr w w') w := by
  simp only [Controller.requireActive, wp_bind]
  refine body_seq (body_isActive hcall hk) ?_
  intro x w' hb; simp; intro _; exact hb

theorem body_requireInactive (hcall : CallOK C cx) {w : World} (hk : w.kind cx.self = .conv) :
    wp (Controller.requireInactive cx) (fun _ w' => Body C cx.fr w w') w := by
  simp only [Controller.requireInactive, wp_bind]
  refine body_seq (body_isActive hcall hk) ?_
  intro x w' hb; simp; intro _; exact hb

theorem body_getConnectorBalance (hcall : CallOK C cx) {w : World} (hk : w.kind cx.self = .conv) (a : Addr) :
    wp (Converter.getConnectorBalance cx a) (fun _ w' => Body C cx.fr w w') w := by
  simp only [Converter.getConnectorBalance, wp_bind, wp_requireValidConnector, wp_connector, wp_ite, wp_pure]
  intro _
  refine ⟨fun _ => Body.refl, fun _ => ?_⟩
  refine wp_call hcall (.convView a _ hk (.inr (.inr (.inl rfl)))) ?_
  intro x w' hb; simp [hb]

theorem body_totalSupply (hcall : CallOK C cx) {w : World} (hk : w.kind cx.self = .conv) (t : Addr) :
    wp (cx.call t 0 .totalSupply) (fun _ w' => Body C cx.fr w w') w :=
  wp_call hcall (.convView t _ hk (.inr (.inl rfl))) (fun _ _ h => h)

theorem body_finish {w : World} (a m : Int) : wp (Converter.finish cx a m) (fun _ w' => Body C cx.fr w w') w := by
  simp only [Converter.finish, wp_bind, wp_getFinalAmount, wp_safeSub, wp_pure]
  intro _ _ _; exact Body.refl

theorem Body.kind {f} (hC : StableC C) {w w'} {k} (hk : w.kind f.to = k) (h : Body C f w w') : w'.kind f.to = k := by
  rw [(h.stable hC).kind]; exact hk

theorem Body.token {f} (hC : StableC C) {w w'} {t} (hk : (w.conv f.to).token = t) (h : Body C f w w') :
    (w'.conv f.to).token = t := by rw [(h.stable hC).token]; exact hk

theorem body_purchase (hcall : CallOK C cx) (hC : StableC C) {w : World} (hk : w.kind cx.self = .conv) (a : Addr) (n : Int)
    (b : Bool) : wp (Converter.getPurchaseReturn cx a n b) (fun _ w' => Body C cx.fr w w') w := by
  simp only [Converter.getPurchaseReturn, wp_bind]
  refine body_seq (body_requireActive hcall hk) fun _ w1 b1 => ?_
  simp only [wp_requireValidConnector, wp_connector, wp_require, wp_token]
  intro _ _ t _
  refine body_seq (body_totalSupply hcall (b1.kind hC hk) t) fun x w2 b2 => ?_
  have b12 := b1.trans b2
  simp only [wp_asInt]
  constructor <;> intro _ _ <;>
  · refine body_seq (body_getConnectorBalance hcall (b12.kind hC hk) a) fun _ w3 b3 => ?_
    simp only [wp_liftE]
    intro _ _
    exact body_seq (body_finish _ _) fun _ w4 b4 => (b12.trans b3).trans b4

theorem body_sale (hcall : CallOK C cx) (hC : StableC C) {w : World} (hk : w.kind cx.self = .conv) (a : Addr) (n : Int) :
    wp (Converter.getSaleReturn cx a n) (fun _ w' => Body C cx.fr w w') w := by
  simp only [Converter.getSaleReturn, wp_bind]
  refine body_seq (body_requireActive hcall hk) fun _ w1 b1 => ?_
  simp only [wp_requireValidConnector, wp_token]
  intro _ t _
  refine body_seq (body_totalSupply hcall (b1.kind hC hk) t) fun x w2 b2 => ?_
  have b12 := b1.trans b2
  simp only [wp_asInt]
  constructor <;> intro _ _ <;>
  · refine body_seq (body_getConnectorBalance hcall (b12.kind hC hk) a) fun _ w3 b3 => ?_
    simp only [wp_connector, wp_liftE]
    intro _ _
    exact body_seq (body_finish _ _) fun _ w4 b4 => (b12.trans b3).trans b4

theorem body_cross (hcall : CallOK C cx) (hC : StableC C) {w : World} (hk : w.kind cx.self = .conv) (a a' : Addr) (n : Int)
    (b : Bool) : wp (Converter.getCrossConnectorReturn cx a a' n b) (fun _ w' => Body C cx.fr w w') w := by
  simp only [Converter.getCrossConnectorReturn, wp_bind]
  refine body_seq (body_requireActive hcall hk) fun _ w1 b1 => ?_
  simp only [wp_requireValidConnector, wp_connector, wp_require]
  intro _ _ _
  refine body_seq (body_getConnectorBalance hcall (b1.kind hC hk) a) fun _ w2 b2 => ?_
  have b12 := b1.trans b2
  refine body_seq (body_getConnectorBalance hcall (b12.kind hC hk) a') fun _ w3 b3 => ?_
  simp only [wp_liftE]
  intro _ _
  exact body_seq (body_finish _ _) fun _ w4 b4 => (b12.trans b3).trans b4

theorem body_getReturn (hcall : CallOK C cx) (hC : StableC C) {w : World} (hk : w.kind cx.self = .conv) (a a' : Addr)
    (n : Int) : wp (Converter.getReturn cx a a' n) (fun _ w' => Body C cx.fr w w') w := by
  simp only [Converter.getReturn, wp_bind, wp_require, wp_get, wp_ite]
  intro _
  exact ⟨fun _ => body_purchase hcall hC hk _ _ _, fun _ => ⟨fun _ => body_sale hcall hC hk _ _,
    fun _ => body_cross hcall hC hk _ _ _ _⟩⟩

theorem body_priceData (hcall : CallOK C cx) (hC : StableC C) {w : World} (hk : w.kind cx.self = .conv) (t a : Addr) :
    wp (Converter.priceDataUpdate cx t a) (fun _ w' => Body C cx.fr w w') w := by
  simp only [Converter.priceDataUpdate, wp_bind]
  refine body_seq (body_totalSupply hcall hk t) fun x w2 b2 => ?_
  simp only [wp_asInt]
  constructor <;> intro _ _ <;>
  · refine body_seq (body_getConnectorBalance hcall (b2.kind hC hk) a) fun _ w3 b3 => ?_
    simp only [wp_connector, wp_emit]
    exact (b2.trans b3).local (.log _ (.inr trivial))

section
variable {from_ : Addr} {v : Int} {d : Data} {t : Addr} {m : Int}

theorem body_credit {w : World} (hk : w.kind cx.self = .conv)
    (hc : cx.fr.call = .tokenFallback from_ v d) (hv : 0 < v) :
    wp (Converter.creditVirtual cx cx.sender v) (fun _ w' => Body C cx.fr w w') w := by
  simp only [Converter.creditVirtual, wp_bind, wp_connector, wp_ite, wp_modConnector, wp_pure]
  exact ⟨fun hvirt => Body.refl.local (.conv _ hk (.addVirtual from_ v d hc hv hvirt)), fun _ => Body.refl⟩

theorem body_debit {w : World} (hk : w.kind cx.self = .conv)
    (hc : cx.fr.call = .tokenFallback from_ v d) (hv : 0 < v) (hd : Converter.parseRequest d = some (t, m)) (hm : 0 < m)
    {r : Int} (hr : m ≤ r) :
    wp (Converter.debitVirtual cx t r) (fun _ w' => Body C cx.fr w w') w := by
  simp only [Converter.debitVirtual, wp_bind, wp_connector, wp_ite, wp_modConnector, wp_pure, wp_safeSub]
  exact ⟨fun hvirt hle => Body.refl.local (.conv _ hk (.subVirtual from_ v d t m r hc hv hd hm hr hvirt hle)),
    fun _ => Body.refl⟩

theorem body_buy (hcall : CallOK C cx) (hC : StableC C) {w : World} (hk : w.kind cx.self = .conv)
    (hc : cx.fr.call = .tokenFallback from_ v d) (hv : 0 < v) (hd : Converter.parseRequest d = some (t, m)) (hm : 0 < m)
    (ht : (w.conv cx.self).token = some t) :
    wp (Converter.buy cx from_ cx.sender v m) (fun _ w' => Body C cx.fr w w') w := by
  simp only [Converter.buy, wp_bind]
  refine body_seq (body_purchase hcall hC hk _ _ _) fun x w1 b1 => ?_
  obtain ⟨r, fee⟩ := x
  simp only [wp_bind, wp_require]
  intro hr
  refine body_seq (body_credit (C := C) (b1.kind hC hk) hc hv) fun _ w2 b2 => ?_
  have b2' := b1.trans b2
  simp only [wp_token]
  intro t' ht'
  have e : t' = t := by rw [b2'.token hC ht] at ht'; exact (Option.some.inj ht').symm
  subst e
  refine wp_call hcall (.convIssue t' from_ v d m r (b2'.kind hC hk) ht' hc hv hd hm hr) fun _ w3 b3 => ?_
  have b23 := b2'.trans b3
  simp only [wp_emit, wp_pure]
  have b4 := b23.local (.log (.Conversion cx.sender t' from_ v r fee) (.inr trivial))
  exact body_seq (body_priceData hcall hC (b4.kind hC hk) _ _) fun _ _ b5 => b4.trans b5

theorem body_sell (hcall : CallOK C cx) (hC : StableC C) {w : World} (hk : w.kind cx.self = .conv)
    (hc : cx.fr.call = .tokenFallback from_ v d) (hv : 0 < v) (hd : Converter.parseRequest d = some (t, m)) (hm : 0 < m)
    (ht : (w.conv cx.self).token = some cx.sender) :
    wp (Converter.sell cx from_ t v m) (fun _ w' => Body C cx.fr w w') w := by
  simp only [Converter.sell, wp_bind]
  refine body_seq (body_sale hcall hC hk _ _) fun x w1 b1 => ?_
  obtain ⟨r, fee⟩ := x
  simp only [wp_bind, wp_require, wp_token]
  intro hr t' ht'
  have e : t' = cx.sender := by
    have := b1.token hC ht
    rw [this] at ht'; exact (Option.some.inj ht').symm
  subst e
  refine body_seq (body_totalSupply hcall (b1.kind hC hk) _) fun x w2 b2 => ?_
  have b12 := b1.trans b2
  simp only [wp_asInt]
  constructor <;> intro _ _ <;>
  · refine body_seq (body_getConnectorBalance hcall (b12.kind hC hk) _) fun _ w3 b3 => ?_
    have b13 := b12.trans b3
    intro _
    refine body_seq (body_debit (C := C) (b13.kind hC hk) hc hv hd hm hr) fun _ w4 b4 => ?_
    have b4 := b13.trans b4
    refine wp_call hcall (.convDestroy from_ v d (b4.kind hC hk) (b4.token hC ht) hc hv) fun _ w5 b5 => ?_
    have b5' := b4.trans b5
    refine wp_call hcall (.convPay t from_ v d m r (b5'.kind hC hk) hc hv hd hm hr) fun _ w6 b6 => ?_
    simp only [wp_emit, wp_pure]
    have b7 := (b5'.trans b6).local (.log (.Conversion cx.sender t from_ v r fee) (.inr trivial))
    exact body_seq (body_priceData hcall hC (b7.kind hC hk) _ _) fun _ _ b8 => b7.trans b8

theorem body_convertCross (hcall : CallOK C cx) (hC : StableC C) {w : World} (hk : w.kind cx.self = .conv)
    (hc : cx.fr.call = .tokenFallback from_ v d) (hv : 0 < v) (hd : Converter.parseRequest d = some (t, m)) (hm : 0 < m) :
    wp (Converter.convertCrossConnector cx from_ cx.sender t v m) (fun _ w' => Body C cx.fr w w') w := by
  simp only [Converter.convertCrossConnector, wp_bind]
  refine body_seq (body_cross hcall hC hk _ _ _ _) fun x w1 b1 => ?_
  obtain ⟨r, fee⟩ := x
  simp only [wp_bind, wp_require]
  intro hr
  refine body_seq (body_credit (C := C) (b1.kind hC hk) hc hv) fun _ w2 b2 => ?_
  have b2' := b1.trans b2
  refine body_seq (body_debit (C := C) (b2'.kind hC hk) hc hv hd hm hr) fun _ w3 b3 => ?_
  have b4 := b2'.trans b3
  refine body_seq (body_getConnectorBalance hcall (b4.kind hC hk) t) fun _ w5 b5 => ?_
  have b5' := b4.trans b5
  intro _
  refine wp_call hcall (.convPay t from_ v d m r (b5'.kind hC hk) hc hv hd hm hr) fun _ w6 b6 => ?_
  simp only [wp_emit]
  have b7 := (b5'.trans b6).local (.log (.Conversion cx.sender t from_ v r fee) (.inr trivial))
  simp only [wp_token]
  intro tk _
  refine body_seq (body_totalSupply hcall (b7.kind hC hk) tk) fun s w8 b8 => ?_
  have b8' := b7.trans b8
  simp only [wp_asInt]
  constructor <;> intro _ _ <;>
  · refine body_seq (body_getConnectorBalance hcall (b8'.kind hC hk) _) fun _ w9 b9 => ?_
    have b10 := b8'.trans b9
    simp only [wp_connector]
    refine body_seq (body_getConnectorBalance hcall (by simpa using b10.kind hC hk) _) fun _ w11 b11 => ?_
    simp only [wp_pure]
    exact ((b10.local (.log (.PriceDataUpdate _ _ _ _) (.inr trivial))).trans b11).local (.log (.PriceDataUpdate _ _ _ _) (.inr trivial))

theorem body_convert (hcall : CallOK C cx) (hC : StableC C) {w : World} (hk : w.kind cx.self = .conv)
    (hc : cx.fr.call = .tokenFallback from_ v d) (hv : 0 < v) (hd : Converter.parseRequest d = some (t, m)) :
    wp (Converter.convert cx from_ cx.sender t v m) (fun _ w' => Body C cx.fr w w') w := by
  simp only [Converter.convert, wp_bind, wp_get, wp_require, wp_ite]
  intro _ hm _
  exact ⟨fun h => body_buy hcall hC hk hc hv hd hm h.symm, fun _ => ⟨fun h => body_sell hcall hC hk hc hv hd hm h.symm,
    fun _ => body_convertCross hcall hC hk hc hv hd hm⟩⟩

theorem body_acceptsDeposit (hcall : CallOK C cx) {w : World} (hk : w.kind cx.self = .conv) :
    wp (Converter.acceptsDeposit cx from_) (fun _ w' => Body C cx.fr w w') w := by
  simp only [Converter.acceptsDeposit, wp_get, wp_ite, wp_bind, wp_pure]
  exact ⟨fun _ => body_isActive hcall hk, fun _ => Body.refl⟩

theorem body_convFallback (hcall : CallOK C cx) (hC : StableC C) {w : World} (hk : w.kind cx.self = .conv)
    (hc : cx.fr.call = .tokenFallback from_ v d) :
    wp (Converter.tokenFallback cx from_ v d) (fun _ w' => Body C cx.fr w w') w := by
  simp only [Converter.tokenFallback, wp_bind, wp_get, wp_require]
  intro hv
  refine body_seq (body_acceptsDeposit hcall hk) fun acc w1 b1 => ?_
  · simp only [wp_ite, wp_pure, wp_bind, wp_get]
    refine ⟨fun _ => b1, fun _ => ?_⟩
    split
    · simp
    · simp only [wp_bind]
      refine wp_call hcall (.convView _ _ (b1.kind hC hk) (.inr (.inr (.inr ⟨_, rfl⟩)))) fun _ w2 b2 => ?_
      have b12 := b1.trans b2
      simp only [wp_require]
      intro _
      split
      · simp
      · rename_i t m hd
        simp only [wp_bind, wp_pure]
        exact body_seq (body_convert hcall hC (b12.kind hC hk) hc hv hd) fun _ _ b3 => b12.trans b3
end

theorem body_addConnector (hcall : CallOK C cx) (hC : StableC C) {w : World} (hk : w.kind cx.self = .conv)
    {t : Addr} {wt : Int} {b : Bool}
    (hc : (w.own cx.self).owner = some cx.sender → (cx.fr.call = .addConnector t wt b ∧ cx.fr.owner = some cx.fr.sender) ∨
        ∃ tk r mf, cx.fr.call = .onInstall (.conv tk r mf (some t) wt) ∧ b = false) :
    wp (Converter.addConnector cx t wt b) (fun _ w' => Body C cx.fr w w') w := by
  simp only [Converter.addConnector, Owned.requireOwnerOnly, wp_bind, wp_get, wp_require]
  intro ho
  refine body_seq (body_requireInactive hcall hk) fun _ w1 b1 => ?_
  simp only [Converter.requireValidConnectorWeight, wp_require, wp_get, wp_modConnector, wp_modConv]
  intro h1 h2 h3 h4 h5 h6
  refine b1.trans ?_
  have := Body.refl (C := C) (w := w1) |>.local (.conv _ (b1.kind hC hk) (.addConnector t wt b (hc ho.symm)
    (not_zero_of_valid h1) (Ne.symm h2) h3.1 h3.2 h4 (by simpa using h5) h6))
  simpa using this

theorem body_updateRegistry (hcall : CallOK C cx) {w : World} (hs : Start cx.fr w) (hC : StableC C)
    (hk : w.kind cx.self = .conv) (hc : cx.fr.call = .updateRegistry) :
    wp (Converter.updateRegistry cx) (fun _ w' => Body C cx.fr w w') w := by
  simp only [Converter.updateRegistry, wp_bind, wp_get, wp_require]
  intro h1
  split
  · simp
  · simp only [wp_bind]
    refine wp_call hcall (.convView _ _ hk (.inr (.inr (.inr ⟨_, rfl⟩)))) fun _ w1 b1 => ?_
    simp only [wp_asAddr, wp_require, wp_get, wp_modConv]
    intro new _ h2 h3
    refine b1.trans ?_
    have := Body.refl (C := C) (w := w1) |>.local (.conv _ (b1.kind hC hk) (.updateRegistry new hc
      (by rw [← hs.allow, ← hs.owner]; exact h1.imp id Eq.symm) (not_zero_of_valid h2) (Ne.symm h3)))
    simpa using this

theorem body_conv (hcall : CallOK C cx) (hC : StableC C) {w : World} (hs : Start cx.fr w) (hk : w.kind cx.self = .conv) :
    wp (Converter.dispatch cx) (fun _ w' => Body C cx.fr w w') w := by
  unfold Converter.dispatch
  apply body_runNonPayable
  intro m _ hm
  replace hm := orElse'_some hm; rcases hm with hm | hm
  · exact body_ownedDispatch hs (by simp [Kind.isOwned, hk]) rfl hm
  have hom : ∀ {Q : Unit → World → Prop},
      ((cx.fr.manager = some cx.fr.sender ∨ cx.fr.owner = some cx.fr.sender) → Q () w) →
      wp (Managed.requireOwnerOrManagerOnly cx) Q w := by
    intro Q h
    simp only [Managed.requireOwnerOrManagerOnly, wp_bind, wp_get, wp_require]
    intro h'
    apply h
    rw [← hs.owner, ← hs.manager]
    exact h'.imp Eq.symm Eq.symm
  have ho : ∀ {Q : Unit → World → Prop}, (cx.fr.owner = some cx.fr.sender → Q () w) →
      wp (Owned.requireOwnerOnly cx) Q w := by
    intro Q h
    simp only [Owned.requireOwnerOnly, wp_bind, wp_get, wp_require]
    intro h'
    exact h (by rw [← hs.owner]; exact h'.symm)
  have ht : ∀ {t : Addr} {c : Call}, (w.conv cx.self).token = some t → cx.fr.owner = some cx.fr.sender →
      ((∃ a, cx.fr.call = .transferTokenOwnership a ∧ c = .transferOwnerShip a) ∨
       (cx.fr.call = .acceptTokenOwnership ∧ c = .acceptOwnerShip) ∨
       (∃ b, cx.fr.call = .disableTokenTransfers b ∧ c = .disableTransfer b) ∨
       (∃ a b v, cx.fr.call = .withdrawFromToken a b v ∧ c = .withdrawTokens a b v)) →
      wp (cx.call t 0 c) (fun _ w' => Body C cx.fr w w') w := by
    intro t c h1 h2 h3
    exact wp_call hcall (.convToken t c hk h1 h2 h3) fun _ _ h => h
  split at hm <;> cases hm <;> try rename_i hc
  · -- withdrawTokens
    simp only [wp_bind, wp_pure, Converter.withdrawTokens]
    refine body_seq (body_isActive hcall hk) fun _ w1 b1 => ?_
    simp only [wp_connector, wp_require]
    intro _
    exact body_seq (body_withdrawTokens hcall (by simp [Kind.isOwned, b1.kind hC hk]) hc (fun h => absurd (b1.kind hC hk) h)) fun _ _ b2 => b1.trans b2
  · exact body_convFallback hcall hC hk hc
  · simp only [wp_bind, wp_pure]
    exact body_isActive hcall hk
  · simp only [wp_bind, wp_pure, Controller.transferTokenOwnership, wp_token]
    exact ho fun h t h' => ht h' h (.inl ⟨_, hc, rfl⟩)
  · simp only [wp_bind, wp_pure, Controller.acceptTokenOwnership, wp_token]
    exact ho fun h t h' => ht h' h (.inr (.inl ⟨hc, rfl⟩))
  · simp only [wp_bind, wp_pure, Controller.disableTokenTransfers, wp_token]
    exact ho fun h t h' => ht h' h (.inr (.inr (.inl ⟨_, hc, rfl⟩)))
  · simp only [wp_bind, wp_pure, Controller.withdrawFromToken, wp_token]
    exact ho fun h t h' => ht h' h (.inr (.inr (.inr ⟨_, _, _, hc, rfl⟩)))
  · simp [Body.refl]
  · simp [Body.refl]
  · simp [Body.refl]
  · simp only [wp_bind, wp_pure, Managed.transferManagement, wp_get, wp_require, wp_modConv]
    exact hom fun h _ => Body.refl.local (.nominateManager _ hk hs.top hc h)
  · simp only [wp_bind, wp_pure, Managed.acceptManagement, wp_get, wp_require, wp_modConv, wp_emit]
    intro h
    have b1 := (Body.refl (C := C) (f := cx.fr) (w := w)).local
      (.log (.ManagerUpdate (w.conv cx.self).manager (w.conv cx.self).newManager) (.inr hc))
    have b2 := b1.local (.acceptManager hk hs.top hc h.symm)
    convert b2 using 1
    simp [h]
  · simp only [wp_bind, wp_pure]
    exact body_addConnector hcall hC hk fun h => .inl ⟨hc, by rw [← hs.owner]; exact h⟩
  · simp only [wp_bind, wp_pure, Converter.updateConnector, Converter.requireValidConnectorWeight, wp_get, wp_require,
      wp_modConv, wp_requireValidConnector, wp_modConnector]
    refine ho fun h h1 h2 h3 => ?_
    have := Body.refl (C := C) (w := w) |>.local (.conv _ hk (.updateConnector _ _ _ _ hc h h1 h2.1 h2.2 h3))
    simpa using this
  · simp only [wp_bind, wp_pure, Converter.disableConnectorPurchases, wp_requireValidConnector, wp_modConnector]
    exact ho fun h h1 => Body.refl.local (.conv _ hk (.setPurchase _ _ hc h h1))
  · simp only [wp_bind, wp_pure]
    exact body_updateRegistry hcall hs hC hk hc
  · simp only [wp_bind, wp_pure, Converter.restoreRegistry, wp_modConv]
    refine hom fun h => ?_
    have := Body.refl (C := C) (w := w) |>.local (.conv _ hk (.restoreRegistry hc h))
    simpa using this
  · simp only [wp_bind, wp_pure, Converter.disableRegistryUpdate, wp_modConv]
    exact hom fun h => Body.refl.local (.conv _ hk (.disableRegistryUpdate _ hc h))
  · simp only [wp_bind, wp_pure, Converter.disableConversions, wp_modConv, wp_get, wp_ite, wp_emit]
    exact hom fun h => ⟨fun _ => (Body.refl.local (.conv _ hk (.disableConversions _ hc h))).local (.log _ (.inr ⟨_, hc⟩)),
      fun _ => Body.refl⟩
  · simp only [wp_bind, wp_pure, Converter.setConversionFee, wp_modConv, wp_get, wp_require, wp_emit]
    exact hom fun h h1 => (Body.refl.local (.log (.ConversionFeeUpdate _ _) (.inr ⟨_, hc⟩))).local (.conv _ hk (.setFee _ hc h h1.1 h1.2))
  · simp [Body.refl]
  · simp [Body.refl]
  · simp [Body.refl]
  · simp [Body.refl]
  · simp [Body.refl]
  · simp [Body.refl]
  · simp [Body.refl]
  · simp only [wp_bind, wp_pure, Converter.getConnectorAt, wp_get, wp_ite, wp_fail]
    refine ⟨fun _ => ?_, fun _ => trivial⟩
    split <;> simp [Body.refl]
  · simp [Body.refl]
  · simp only [wp_bind, wp_pure]
    exact body_getConnectorBalance hcall hk _
  · simp only [wp_bind, wp_pure]
    exact body_getReturn hcall hC hk _ _ _
  · simp [Body.refl]

/-! ### Network -/

@[simp] theorem wp_readPath (p : List Char) (Q : List Addr → World → Prop) (w : World) :
    wp (Network.readPath p) Q w ↔ ∀ l, Text.convertPath p = some l → Q l w := by
  unfold Network.readPath
  split <;> simp_all

@[simp] theorem wp_requireValidPath (p : List Addr) (Q : Unit → World → Prop) (w : World) :
    wp (Network.requireValidPath p) Q w ↔ (Network.validPath p = true → Q () w) := by
  simp [Network.requireValidPath]

theorem body_netCall (hcall : CallOK C cx) {w : World} (hk : w.kind cx.self = .net) {t : Addr} {c : Call}
    (h : c = .getOwner ∨ c = .balanceOf cx.self ∨ (∃ a b n, c = .getReturn a b n) ∨
        (∃ a n d, c = .transfer a n (some d)) ∨ ∃ a n, c = .withdrawTo n a) :
    wp (cx.call t 0 c) (fun _ w' => Body C cx.fr w w') w :=
  wp_call hcall (.net t 0 c hk (.inr ⟨rfl, h⟩)) fun _ _ h => h

theorem body_expectedLoop (hcall : CallOK C cx) (hC : StableC C) : ∀ (l : List Addr) {w : World} (a : Addr) (n : Int),
    w.kind cx.self = .net → wp (Network.expectedLoop cx a l n) (fun _ w' => Body C cx.fr w w') w
  | [], w, a, n, _ => by simp [Network.expectedLoop, Body.refl]
  | [_], w, a, n, _ => by simp [Network.expectedLoop, Body.refl]
  | ft :: to :: rest, w, a, n, hk => by
    simp only [Network.expectedLoop, wp_bind]
    refine body_seq (body_netCall hcall hk (.inl rfl)) fun _ w1 b1 => ?_
    simp only [wp_asAddr]
    intro conv _
    refine body_seq (body_netCall hcall (b1.kind hC hk) (.inr (.inr (.inl ⟨_, _, _, rfl⟩)))) fun _ w2 b2 => ?_
    have b12 := b1.trans b2
    simp only [wp_asAmount]
    intro _ _ _
    exact body_seq (body_expectedLoop hcall hC rest to _ (b12.kind hC hk)) fun _ _ b3 => b12.trans b3

theorem body_convertLoop (hcall : CallOK C cx) (hC : StableC C) (m : Int) : ∀ (l : List Addr) {w : World} (a : Addr)
    (n : Int), w.kind cx.self = .net → wp (Network.convertLoop cx m a l n) (fun _ w' => Body C cx.fr w w') w
  | [], w, a, n, _ => by simp [Network.convertLoop, Body.refl]
  | [_], w, a, n, _ => by simp [Network.convertLoop, Body.refl]
  | ft :: to :: rest, w, a, n, hk => by
    simp only [Network.convertLoop, wp_bind]
    refine body_seq (body_netCall hcall hk (.inl rfl)) fun _ w1 b1 => ?_
    simp only [wp_asAddr]
    intro conv _
    refine body_seq (body_netCall hcall (b1.kind hC hk) (.inr (.inl rfl))) fun _ w2 b2 => ?_
    have b12 := b1.trans b2
    simp only [wp_asInt]
    have tail : ∀ before, wp (cx.call a 0 (.transfer conv n (some (Network.requestData to (if rest = [] then m else 1)))))
        (fun _ w' => wp (cx.call to 0 (.balanceOf cx.self)) (fun x w' => wp (asInt x) (fun x w' =>
          wp (Network.convertLoop cx m to rest (x - before)) (fun _ w' => Body C cx.fr w w') w') w') w') w2 := by
      intro before
      refine body_seq (body_netCall hcall (b12.kind hC hk) (.inr (.inr (.inr (.inl ⟨_, _, _, rfl⟩))))) fun _ w3 b3 => ?_
      have b13 := b12.trans b3
      refine body_seq (body_netCall hcall (b13.kind hC hk) (.inr (.inl rfl))) fun _ w4 b4 => ?_
      have b14 := b13.trans b4
      simp only [wp_asInt]
      constructor <;> intro _ _ <;>
      exact body_seq (body_convertLoop hcall hC m rest to _ (b14.kind hC hk)) fun _ _ b5 => b14.trans b5
    simp only [wp_asInt] at tail
    exact ⟨fun n _ => tail n, fun b _ => tail _⟩

theorem body_convertForInternal (hcall : CallOK C cx) (hC : StableC C) {w : World} (hk : w.kind cx.self = .net)
    (p : List Addr) (n m : Int) (f : Addr) :
    wp (Network.convertForInternal cx p n m f) (fun _ w' => Body C cx.fr w w') w := by
  unfold Network.convertForInternal
  split
  · simp
  · simp only [wp_bind]
    refine body_seq (body_convertLoop hcall hC m _ _ _ hk) fun x w1 b1 => ?_
    obtain ⟨t, amt⟩ := x
    simp only [wp_bind, wp_get, wp_ite, wp_pure]
    constructor <;> intro _
    · exact body_seq (body_netCall hcall (b1.kind hC hk) (.inr (.inr (.inr (.inr ⟨_, _, rfl⟩))))) fun _ _ b2 => b1.trans b2
    · exact body_seq (body_netCall hcall (b1.kind hC hk) (.inr (.inr (.inr (.inl ⟨_, _, _, rfl⟩))))) fun _ _ b2 => b1.trans b2

theorem body_convertFor (hcall : CallOK C cx) (hC : StableC C) {w : World} (hk : w.kind cx.self = .net)
    {p : List Char} {m : Int} {f : Addr}
    (hc : cx.fr.call = .convertFor p m f ∨ (cx.fr.call = .convert p m ∧ f = cx.sender)) :
    wp (Network.convertFor cx p m f) (fun _ w' => Body C cx.fr w w') w := by
  simp only [Network.convertFor, wp_bind, wp_readPath, wp_requireValidPath, wp_require]
  intro l _ _ _ _ _
  split
  · simp
  · simp only [wp_bind, wp_get, wp_require]
    intro _
    refine wp_call hcall (.net _ _ _ hk (.inl ⟨p, m, f, hc, rfl, rfl⟩)) fun _ w1 b1 => ?_
    exact body_seq (body_convertForInternal hcall hC (b1.kind hC hk) _ _ _ _) fun _ _ b2 => b1.trans b2

theorem body_net (hcall : CallOK C cx) (hC : StableC C) {w : World} (hs : Start cx.fr w) (hk : w.kind cx.self = .net) :
    wp (Network.dispatch cx) (fun _ w' => Body C cx.fr w w') w := by
  unfold Network.dispatch
  split
  · rename_i hc
    simp only [wp_bind, wp_pure, Network.convert]
    exact body_convertFor hcall hC hk (.inr ⟨hc, rfl⟩)
  · rename_i hc
    simp only [wp_bind, wp_pure]
    exact body_convertFor hcall hC hk (.inl hc)
  · apply body_runNonPayable
    intro m _ hm
    replace hm := orElse'_some hm; rcases hm with hm | hm
    · exact body_ownedDispatch hs (by simp [Kind.isOwned, hk]) rfl hm
    split at hm <;> cases hm <;> try rename_i hc
    · simp only [wp_bind, wp_pure]
      exact body_withdrawTokens hcall (by simp [Kind.isOwned, hk]) hc fun _ => hs.owner
    · simp only [wp_bind, wp_pure, Network.tokenFallback, wp_ite]
      refine ⟨fun _ => Body.refl, fun _ => ?_⟩
      split
      · simp
      · simp only [wp_bind, wp_require, wp_requireValidPath, wp_pure]
        intro _ _ _ _
        exact body_convertForInternal hcall hC hk _ _ _ _
    · simp only [wp_bind, wp_pure, Network.getExpectedReturnByPath, wp_readPath, wp_requireValidPath, wp_require]
      intro l _ _ _
      split
      · simp
      · exact body_expectedLoop hcall hC _ _ _ hk
    · simp [Body.refl]
    · simp only [wp_bind, wp_pure, Network.registerIcxToken, Owned.requireOwnerOnly, wp_get, wp_require, wp_modify]
      intro h1 h2 h3
      exact Body.refl.local (.registerIcx _ _ hk hc (by rw [← hs.owner]; exact h1.symm) (not_zero_of_valid h2) h3)

/-- Every body is a sequence of elementary steps and nested calls. -/
theorem body_body (orc : Oracle) (hcall : CallOK C cx) (hC : StableC C) {w : World} (hs : Start cx.fr w) :
    wp (body orc cx) (fun _ w' => Body C cx.fr w w') w := by
  simp only [body, wp_bind, wp_get]
  split <;> rename_i hk
  · simp [Body.refl]
  · exact body_irc hcall hk
  · exact body_icx hcall hs hk
  · exact body_flex hcall hs hk
  · exact body_conv hcall hC hs hk
  · exact body_net hcall hC hs hk
  · exact body_reg hs hk
  · split
    · simp
    · exact body_prog hcall hC _ hk

end Verif

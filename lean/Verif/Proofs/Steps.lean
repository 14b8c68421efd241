import Verif.Proofs.Wp
import Mathlib.Logic.Relation
/-!
Elementary steps. Every method body of the model is shown (in `Proofs/Methods.lean`) to be a sequence of elementary
storage writes (`LocalStep`) and nested calls of known shape (`OutCall`). The inductive relations here are proof devices:
they are not part of the model and not mentioned by the property statements.
-/
namespace Verif

open Relation

theorem moveBal_eq (bal : Addr → Int) (a b : Addr) (v : Int) :
    moveBal bal a b v = upd (upd bal a (bal a - v)) b (upd bal a (bal a - v) b + v) := by
  funext x
  simp only [moveBal, upd_apply]
  by_cases h1 : x = b <;> by_cases h2 : x = a <;> by_cases h3 : b = a <;> simp_all

theorem gain_eq (bal : Addr → Int) (a : Addr) (v : Int) : gain bal a v = upd bal a (bal a + v) := by
  funext x
  simp only [gain, upd_apply]
  split <;> simp_all

/-- Writes to a converter's own storage in frame `f`. -/
inductive ConvStep (f : Frame) (c : ConvSt) : ConvSt → Prop where
  | addConnector (t : Addr) (wt : Int) (b : Bool) :
      ((f.call = .addConnector t wt b ∧ f.owner = some f.sender) ∨
        ∃ tk r mf, f.call = .onInstall (.conv tk r mf (some t) wt) ∧ b = false) →
      t ≠ ZERO → t ≠ f.to → 0 < wt → wt ≤ 1000000 → c.token ≠ some t → (c.connectors t).isSet = false →
      c.totalWeight + wt ≤ 1000000 →
      ConvStep f c { c with
        connectors := upd c.connectors t
          { virtualBalance := 0, weight := wt, isVirtual := b, isPurchaseEnabled := true, isSet := true }
        connectorTokens := c.connectorTokens ++ [t]
        totalWeight := c.totalWeight + wt }
  | updateConnector (t : Addr) (wt : Int) (b : Bool) (vb : Int) :
      f.call = .updateConnector t wt b vb → f.owner = some f.sender → (c.connectors t).isSet = true →
      0 < wt → wt ≤ 1000000 → c.totalWeight - (c.connectors t).weight + wt ≤ 1000000 →
      ConvStep f c { c with
        totalWeight := c.totalWeight - (c.connectors t).weight + wt
        connectors := upd c.connectors t
          { c.connectors t with weight := wt, isVirtual := b, virtualBalance := vb } }
  | setPurchase (t : Addr) (b : Bool) :
      f.call = .disableConnectorPurchases t b → f.owner = some f.sender → (c.connectors t).isSet = true →
      ConvStep f c { c with connectors := upd c.connectors t { c.connectors t with isPurchaseEnabled := !b } }
  | updateRegistry (new : Addr) :
      f.call = .updateRegistry → (f.allow = true ∨ f.owner = some f.sender) → new ≠ ZERO → c.registry ≠ some new →
      ConvStep f c { c with prevRegistry := c.registry, registry := some new }
  | restoreRegistry :
      f.call = .restoreRegistry → (f.manager = some f.sender ∨ f.owner = some f.sender) →
      ConvStep f c { c with registry := c.prevRegistry, allowRegistryUpdate := false }
  | disableRegistryUpdate (b : Bool) :
      f.call = .disableRegistryUpdate b → (f.manager = some f.sender ∨ f.owner = some f.sender) →
      ConvStep f c { c with allowRegistryUpdate := !b }
  | disableConversions (b : Bool) :
      f.call = .disableConversions b → (f.manager = some f.sender ∨ f.owner = some f.sender) →
      ConvStep f c { c with enabled := !b }
  | setFee (n : Int) :
      f.call = .setConversionFee n → (f.manager = some f.sender ∨ f.owner = some f.sender) → 0 ≤ n → n ≤ c.maxFee →
      ConvStep f c { c with fee := n }
  | addVirtual (from_ : Addr) (v : Int) (d : Data) :
      f.call = .tokenFallback from_ v d → 0 < v → (c.connectors f.sender).isVirtual = true →
      ConvStep f c { c with connectors := (upd c.connectors f.sender
        { c.connectors f.sender with virtualBalance := (c.connectors f.sender).virtualBalance + v }) }
  | subVirtual (from_ : Addr) (v : Int) (d : Data) (t : Addr) (m r : Int) :
      f.call = .tokenFallback from_ v d → 0 < v → Converter.parseRequest d = some (t, m) → 0 < m → m ≤ r →
      (c.connectors t).isVirtual = true → r ≤ (c.connectors t).virtualBalance →
      ConvStep f c { c with connectors := (upd c.connectors t
        { c.connectors t with virtualBalance := (c.connectors t).virtualBalance - r }) }

/-- Events that report a change of balances. -/
def Event.moves : Event → Bool
  | .Transfer .. | .Issuance .. | .Destruction .. => true
  | _ => false

/-- Calls during which a token of kind `k` reports such changes. -/
def Moving (k : Kind) : Call → Prop
  | .transfer .. | .issue .. | .destroy .. | .deposit | .withdraw .. | .withdrawTo .. => True
  | .fallback => k = .icx
  | _ => False

/-- Events a contract of kind `k` may report during call `c`. -/
def Fits (k : Kind) (c : Call) : Event → Prop
  | .Transfer .. | .Issuance .. | .Destruction .. => Moving k c
  | .OwnerUpdate .. => c = .acceptOwnerShip
  | .ManagerUpdate .. => c = .acceptManagement
  | .ConversionFeeUpdate .. => ∃ n, c = .setConversionFee n
  | .ConversionsEnable _ => ∃ b, c = .disableConversions b
  | .AddressUpdate .. => (∃ n a, c = .registerAddress n a) ∨ ∃ n, c = .unregisterAddress n
  | .NewFlexibleToken _ | .Conversion .. | .PriceDataUpdate .. => True

/-- Writes of the contract entered by frame `f` to its own storage. -/
inductive LocalStep (f : Frame) (w : World) : World → Prop where
  | log (e : Event) : (w.kind f.to = .foreign ∨ Fits (w.kind f.to) f.call e) → LocalStep f w (w.addLog f.to e)
  | store (n : Nat) : w.kind f.to = .foreign → LocalStep f w (w.setStore f.to n)
  | transfer (to : Addr) (v : Int) (d : Option Data) :
      (w.kind f.to).isToken → f.call = .transfer to v d → 0 ≤ v → v ≤ (w.tok f.to).bal f.sender →
      (w.kind f.to = .flex → (w.flex f.to).transferable = true) → (w.kind f.to = .icx → f.to ≠ to) →
      LocalStep f w (w.setTok f.to { w.tok f.to with bal := moveBal (w.tok f.to).bal f.sender to v })
  | issue (to : Addr) (v : Int) :
      w.kind f.to = .flex → f.call = .issue to v → 0 < v → f.owner = some f.sender → to ≠ ZERO → f.to ≠ to →
      LocalStep f w (w.setTok f.to { w.tok f.to with
        bal := upd (w.tok f.to).bal to ((w.tok f.to).bal to + v), supply := (w.tok f.to).supply + v })
  | destroy (from_ : Addr) (v : Int) :
      w.kind f.to = .flex → f.call = .destroy from_ v → 0 < v → v ≤ (w.tok f.to).bal from_ →
      (f.sender = from_ ∨ f.owner = some f.sender) →
      LocalStep f w (w.setTok f.to { w.tok f.to with
        bal := upd (w.tok f.to).bal from_ ((w.tok f.to).bal from_ - v), supply := (w.tok f.to).supply - v })
  | deposit : w.kind f.to = .icx → (f.call = .fallback ∨ f.call = .deposit) → 0 ≤ f.value →
      LocalStep f w (w.setTok f.to { w.tok f.to with
        bal := upd (w.tok f.to).bal f.sender ((w.tok f.to).bal f.sender + f.value)
        supply := (w.tok f.to).supply + f.value })
  | withdraw (v : Int) (to : Addr) :
      w.kind f.to = .icx → (f.call = .withdrawTo v to ∨ (f.call = .withdraw v ∧ to = f.sender)) → 0 < v →
      v ≤ (w.tok f.to).bal f.sender →
      LocalStep f w (w.setTok f.to { w.tok f.to with
        bal := upd (w.tok f.to).bal f.sender ((w.tok f.to).bal f.sender - v), supply := (w.tok f.to).supply - v })
  | disableTransfer (b : Bool) :
      w.kind f.to = .flex → f.call = .disableTransfer b → f.owner = some f.sender →
      LocalStep f w (w.setFlex f.to { w.flex f.to with transferable := !b })
  | nominate (a : Addr) :
      (w.kind f.to).isOwned → w.frames.head? = some f → f.call = .transferOwnerShip a → f.owner = some f.sender → f.owner ≠ some a →
      LocalStep f w (w.setOwn f.to { w.own f.to with newOwner := some a })
  | accept : (w.kind f.to).isOwned → w.frames.head? = some f → f.call = .acceptOwnerShip → (w.own f.to).newOwner = some f.sender →
      LocalStep f w (w.setOwn f.to { owner := some f.sender, newOwner := some ZERO })
  | nominateManager (m : Addr) : w.kind f.to = .conv → w.frames.head? = some f → f.call = .transferManagement m →
      (f.manager = some f.sender ∨ f.owner = some f.sender) →
      LocalStep f w (w.setConv f.to { w.conv f.to with newManager := some m })
  | acceptManager : w.kind f.to = .conv → w.frames.head? = some f → f.call = .acceptManagement →
      (w.conv f.to).newManager = some f.sender →
      LocalStep f w (w.setConv f.to { w.conv f.to with manager := some f.sender, newManager := some ZERO })
  | conv (c' : ConvSt) : w.kind f.to = .conv → ConvStep f (w.conv f.to) c' → LocalStep f w (w.setConv f.to c')
  | register (n : String) (a : Addr) :
      w.kind f.to = .reg → (f.call = .registerAddress n a ∧ f.owner = some f.sender) → a ≠ ZERO → a.isContract = true →
      n ∈ ScoreRegistry.SCORE_KEYS →
      LocalStep f w (w.setReg f.to (upd (w.reg f.to) n (some a)))
  | unregister (n : String) :
      w.kind f.to = .reg → f.call = .unregisterAddress n → f.owner = some f.sender →
      LocalStep f w (w.setReg f.to (upd (w.reg f.to) n none))
  | registerIcx (a : Addr) (b : Bool) :
      w.kind f.to = .net → f.call = .registerIcxToken a b → f.owner = some f.sender → a ≠ ZERO → f.to ≠ a →
      LocalStep f w (w.setNet f.to (upd (w.net f.to) a b))

/-- The calls the contract entered by frame `f` makes. -/
inductive OutCall (f : Frame) (w : World) : Addr → Int → Call → Prop where
  | foreign (t v c) : w.kind f.to = .foreign → OutCall f w t v c
  | fallback (to : Addr) (v : Int) (d : Option Data) :
      (w.kind f.to).isToken → f.call = .transfer to v d → to.isContract = true →
      OutCall f w to 0 (.tokenFallback f.sender v (d.getD .noneBytes))
  | withdrawTokens (tok to : Addr) (v : Int) :
      (w.kind f.to).isOwned ∧ w.kind f.to ≠ .reg → f.call = .withdrawTokens tok to v → (w.own f.to).owner = some f.sender → 0 < v → f.to ≠ to → to ≠ ZERO →
      (w.kind f.to ≠ .conv → f.owner = some f.sender) →
      OutCall f w tok 0 (.transfer to v none)
  | icxOut (v : Int) (to : Addr) :
      w.kind f.to = .icx → (f.call = .withdrawTo v to ∨ (f.call = .withdraw v ∧ to = f.sender)) → 0 < v →
      OutCall f w to v .fallback
  | convView (t : Addr) (c : Call) : w.kind f.to = .conv →
      (c = .getOwner ∨ c = .totalSupply ∨ c = .balanceOf f.to ∨ ∃ n, c = .getAddress n) → OutCall f w t 0 c
  | convToken (t : Addr) (c : Call) : w.kind f.to = .conv → (w.conv f.to).token = some t → f.owner = some f.sender →
      ((∃ a, f.call = .transferTokenOwnership a ∧ c = .transferOwnerShip a) ∨
       (f.call = .acceptTokenOwnership ∧ c = .acceptOwnerShip) ∨
       (∃ b, f.call = .disableTokenTransfers b ∧ c = .disableTransfer b) ∨
       (∃ a b v, f.call = .withdrawFromToken a b v ∧ c = .withdrawTokens a b v)) → OutCall f w t 0 c
  | convIssue (t from_ : Addr) (v : Int) (d : Data) (m r : Int) : w.kind f.to = .conv → (w.conv f.to).token = some t →
      f.call = .tokenFallback from_ v d → 0 < v → Converter.parseRequest d = some (t, m) → 0 < m → m ≤ r →
      OutCall f w t 0 (.issue from_ r)
  | convDestroy (from_ : Addr) (v : Int) (d : Data) : w.kind f.to = .conv →
      (w.conv f.to).token = some f.sender → f.call = .tokenFallback from_ v d → 0 < v →
      OutCall f w f.sender 0 (.destroy f.to v)
  | convPay (t from_ : Addr) (v : Int) (d : Data) (m r : Int) : w.kind f.to = .conv →
      f.call = .tokenFallback from_ v d → 0 < v → Converter.parseRequest d = some (t, m) → 0 < m → m ≤ r →
      OutCall f w t 0 (.transfer from_ r (some .conversionResult))
  | net (t : Addr) (v : Int) (c : Call) : w.kind f.to = .net →
      (∃ p m a, (f.call = .convertFor p m a ∨ (f.call = .convert p m ∧ a = f.sender)) ∧ v = f.value ∧ c = .fallback) ∨
      (v = 0 ∧ (c = .getOwner ∨ c = .balanceOf f.to ∨ (∃ a b n, c = .getReturn a b n) ∨
        (∃ a n d, c = .transfer a n (some d)) ∨ ∃ a n, c = .withdrawTo n a)) → OutCall f w t v c

/-- What never changes once a contract runs; frames are only added. -/
structure Stable (w w' : World) : Prop where
  kind : w'.kind = w.kind
  token : ∀ a, (w'.conv a).token = (w.conv a).token
  maxFee : ∀ a, (w'.conv a).maxFee = (w.conv a).maxFee
  frames : w.frames <:+ w'.frames

theorem Stable.refl (w : World) : Stable w w := ⟨rfl, fun _ => rfl, fun _ => rfl, List.suffix_refl _⟩

theorem Stable.trans {a b c : World} (h : Stable a b) (h' : Stable b c) : Stable a c :=
  ⟨h'.kind.trans h.kind, fun x => (h'.token x).trans (h.token x), fun x => (h'.maxFee x).trans (h.maxFee x),
    h.frames.trans h'.frames⟩

theorem ConvStep.stable {f c c'} (h : ConvStep f c c') : c'.token = c.token ∧ c'.maxFee = c.maxFee := by
  cases h <;> exact ⟨rfl, rfl⟩

theorem LocalStep.stable {f w w'} (h : LocalStep f w w') : Stable w w' := by
  cases h with
  | conv c' _ hc =>
    refine ⟨rfl, ?_, ?_, List.suffix_refl _⟩ <;> intro a <;> rw [setConv_conv] <;> split
    · subst_vars; exact hc.stable.1
    · rfl
    · subst_vars; exact hc.stable.2
    · rfl
  | nominateManager m =>
    refine ⟨rfl, ?_, ?_, List.suffix_refl _⟩ <;> intro a <;> rw [setConv_conv] <;> split <;> simp_all
  | acceptManager =>
    refine ⟨rfl, ?_, ?_, List.suffix_refl _⟩ <;> intro a <;> rw [setConv_conv] <;> split <;> simp_all
  | _ => exact ⟨rfl, fun _ => rfl, fun _ => rfl, List.suffix_refl _⟩

/-- A step of the body of frame `f`: a storage write, or a nested call, whose effect is described by `C`. -/
def BodyStep (C : Addr → Addr → Int → Call → World → World → Prop) (f : Frame) (w w' : World) : Prop :=
  LocalStep f w w' ∨ ∃ t v c, OutCall f w t v c ∧ C f.to t v c w w'

/-- The body of frame `f`: a sequence of such steps. -/
def Body (C : Addr → Addr → Int → Call → World → World → Prop) (f : Frame) : World → World → Prop :=
  ReflTransGen (BodyStep C f)

theorem Body.refl {C f w} : Body C f w w := ReflTransGen.refl

theorem Body.local {C f w0 w w'} (h : Body C f w0 w) (s : LocalStep f w w') : Body C f w0 w' :=
  ReflTransGen.tail h (.inl s)

theorem Body.call {C f w0 w w' t v c} (h : Body C f w0 w) (o : OutCall f w t v c) (s : C f.to t v c w w') :
    Body C f w0 w' := ReflTransGen.tail h (.inr ⟨t, v, c, o, s⟩)

/-- Induction principle for bodies: a reflexive and transitive relation closed under the steps. -/
theorem Body.elim {C f} {R : World → World → Prop} (hr : ∀ w, R w w) (ht : ∀ a b c, R a b → R b c → R a c)
    (hl : ∀ w w', LocalStep f w w' → R w w') (hc : ∀ t v c w w', OutCall f w t v c → C f.to t v c w w' → R w w')
    {w w'} (h : Body C f w w') : R w w' := by
  induction h with
  | refl => exact hr _
  | tail _ s ih =>
    refine ht _ _ _ ih ?_
    rcases s with s | ⟨t, v, c, o, s⟩
    · exact hl _ _ s
    · exact hc _ _ _ _ _ o s

end Verif

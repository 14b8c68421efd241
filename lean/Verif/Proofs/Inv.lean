import Verif.Proofs.Trace
/-!
Basic invariants of histories.
-/
namespace Verif

open Relation

theorem LocalStep.kind {f w w'} (h : LocalStep f w w') : w'.kind = w.kind := by cases h <;> rfl
theorem LocalStep.coin {f w w'} (h : LocalStep f w w') : w'.coin = w.coin := by cases h <;> rfl
theorem LocalStep.frames {f w w'} (h : LocalStep f w w') : w'.frames = w.frames := by cases h <;> rfl

theorem LocalStep.tok {f w w'} (h : LocalStep f w w') {a : Addr} (hk : ¬ (a = f.to ∧ (w.kind a).isToken)) :
    w'.tok a = w.tok a := by
  cases h with
  | transfer | issue | destroy | deposit | withdraw =>
    rw [setTok_tok, if_neg]
    rintro rfl
    simp_all [Kind.isToken]
  | _ => rfl

theorem LocalStep.own {f w w'} (h : LocalStep f w w') {a : Addr} (hk : ¬ (a = f.to ∧ (w.kind a).isOwned)) :
    w'.own a = w.own a := by
  cases h with
  | nominate | accept =>
    rw [setOwn_own, if_neg]
    rintro rfl
    exact hk ⟨rfl, by assumption⟩
  | _ => rfl

theorem LocalStep.flex {f w w'} (h : LocalStep f w w') {a : Addr} (hk : ¬ (a = f.to ∧ w.kind a = .flex)) :
    w'.flex a = w.flex a := by
  cases h with
  | disableTransfer =>
    rw [setFlex_flex, if_neg]
    rintro rfl
    exact hk ⟨rfl, by assumption⟩
  | _ => rfl

theorem LocalStep.convSt {f w w'} (h : LocalStep f w w') {a : Addr} (hk : ¬ (a = f.to ∧ w.kind a = .conv)) :
    w'.conv a = w.conv a := by
  cases h with
  | conv | nominateManager | acceptManager =>
    rw [setConv_conv, if_neg]
    rintro rfl
    exact hk ⟨rfl, by assumption⟩
  | _ => rfl

theorem LocalStep.reg {f w w'} (h : LocalStep f w w') {a : Addr} (hk : ¬ (a = f.to ∧ w.kind a = .reg)) :
    w'.reg a = w.reg a := by
  cases h with
  | register | unregister =>
    rw [setReg_reg, if_neg]
    rintro rfl
    exact hk ⟨rfl, by assumption⟩
  | _ => rfl

theorem LocalStep.net {f w w'} (h : LocalStep f w w') {a : Addr} (hk : ¬ (a = f.to ∧ w.kind a = .net)) :
    w'.net a = w.net a := by
  cases h with
  | registerIcx =>
    rw [setNet_net, if_neg]
    rintro rfl
    exact hk ⟨rfl, by assumption⟩
  | _ => rfl

/-! What an installation leaves alone. -/
section
variable {s a : Addr} {w w' : World} {i : Install} (h : Installed s a w i w')
include h
theorem Installed.kind : w'.kind = w.kind := by cases h <;> rfl
theorem Installed.coin : w'.coin = w.coin := by cases h <;> rfl
theorem Installed.tok {b : Addr} (hb : ¬ (b = a ∧ i.kind.isToken)) : w'.tok b = w.tok b := by
  cases h with
  | irc | icx | flex =>
    simp only [addLog_tok, setFlex_tok, setOwn_tok]
    rw [setTok_tok, if_neg]
    rintro rfl
    simp [Install.kind, Kind.isToken] at hb
  | _ => rfl
theorem Installed.own {b : Addr} (hb : ¬ (b = a ∧ i.kind.isOwned)) : w'.own b = w.own b := by
  cases h with
  | icx | flex | conv | net | reg =>
    have hne : b ≠ a := by
      rintro rfl
      simp [Install.kind, Kind.isOwned] at hb
    simp [setOwn_own, hne]
  | _ => rfl
theorem Installed.flexSt {b : Addr} (hb : ¬ (b = a ∧ i.kind = .flex)) : w'.flex b = w.flex b := by
  cases h with
  | flex =>
    simp only [addLog_flex]
    rw [setFlex_flex, if_neg]
    · rfl
    · rintro rfl
      simp [Install.kind] at hb
  | _ => rfl
theorem Installed.convSt {b : Addr} (hb : ¬ (b = a ∧ i.kind = .conv)) : w'.conv b = w.conv b := by
  cases h with
  | conv =>
    rw [setConv_conv, if_neg]
    · rfl
    · rintro rfl
      simp [Install.kind] at hb
  | _ => rfl
theorem Installed.regSt {b : Addr} (hb : ¬ (b = a ∧ i.kind = .reg)) : w'.reg b = w.reg b := by
  cases h with
  | reg =>
    simp only [addLog_reg]
    rw [setReg_reg, if_neg]
    · rfl
    · rintro rfl
      simp [Install.kind] at hb
  | _ => rfl
theorem Installed.netSt : w'.net = w.net := by cases h <;> rfl
end

/-- Basic facts about reachable ledgers. -/
structure Inv (w : World) : Prop where
  tok : ∀ a, ¬ (w.kind a).isToken → w.tok a = {}
  own : ∀ a, ¬ (w.kind a).isOwned → w.own a = {}
  flex : ∀ a, w.kind a ≠ .flex → w.flex a = {}
  conv : ∀ a, w.kind a ≠ .conv → w.conv a = {}
  reg : ∀ a, w.kind a ≠ .reg → w.reg a = fun _ => none
  net : ∀ a, w.kind a ≠ .net → w.net a = fun _ => false
  contract : ∀ a, w.kind a ≠ .none → a.isContract = true
  zero : w.kind ZERO = .none
  coin_nonneg : ∀ a, 0 ≤ w.coin a
  coin_none : ∀ a, w.kind a = .none → a.isContract = true → w.coin a = 0
  sender : ∀ f ∈ w.frames, f.sender ≠ ZERO

theorem OutCall.kind_ne {f w t v c} (h : OutCall f w t v c) : w.kind f.to ≠ .none := by
  intro hk
  cases h <;> simp_all [Kind.isToken, Kind.isOwned]

theorem moveCoin_coin (w : World) (a b : Addr) (v : Int) (x : Addr) :
    (w.moveCoin a b v).coin x = w.coin x - (if x = a then v else 0) + (if x = b then v else 0) := by
  unfold World.moveCoin
  simp only [upd_apply]
  by_cases h1 : x = b <;> by_cases h2 : x = a <;> by_cases h3 : b = a <;> simp_all

theorem setKind_kind (w : World) (a : Addr) (k : Kind) (b : Addr) :
    (w.setKind a k).kind b = if b = a then k else w.kind b := rfl

theorem Inv.genesis {w} (h : Genesis w) : Inv w where
  tok a _ := h.tok a
  own a _ := h.own a
  flex a _ := h.flex a
  conv a _ := h.conv a
  reg a _ := funext (h.reg a)
  net a _ := funext (h.net a)
  contract a hk := absurd (h.kind a) hk
  zero := h.kind _
  coin_nonneg := h.coin_nonneg
  coin_none a _ := h.coin_contract a
  sender f hf := by rw [h.frames] at hf; cases hf

theorem Inv.step {B w w'} (hi : Inv w) (h : Step B w w') : Inv w' := by
  cases h with
  | enter s t v c hv hb hc hn =>
    refine { hi with coin_nonneg := ?_, coin_none := ?_, sender := ?_ }
    · intro a
      rw [enterW_coin, moveCoin_coin]
      have := hi.coin_nonneg a
      split <;> split <;> subst_vars <;> omega
    · intro a hk ha
      have h0 := hi.coin_none a hk ha
      rw [enterW_coin, moveCoin_coin, h0]
      have h1 : a ≠ t := by
        rintro rfl
        have := (hn hk).1
        simp_all
      have h2 : a = s → v = 0 := by
        rintro rfl
        omega
      by_cases h3 : a = s
      · simp [h1, h2 h3]
      · simp [h1, h3]
    · intro f hf
      rw [enterW_frames] at hf
      rcases List.mem_cons.mp hf with rfl | hf
      · intro hz
        have hz : s = ZERO := hz
        rcases hc with hc | ⟨f, _, hf, ho⟩
        · rw [hz] at hc; simp [ZERO] at hc
        · apply ho.kind_ne
          rw [hf, hz]; exact hi.zero
      · exact hi.sender f hf
  | loc f w' hf hl =>
    have hk := hl.kind
    constructor
    · intro a ha; rw [hk] at ha; rw [hl.tok (fun h => ha h.2)]; exact hi.tok a ha
    · intro a ha; rw [hk] at ha; rw [hl.own (fun h => ha h.2)]; exact hi.own a ha
    · intro a ha; rw [hk] at ha; rw [hl.flex (fun h => ha h.2)]; exact hi.flex a ha
    · intro a ha; rw [hk] at ha; rw [hl.convSt (fun h => ha h.2)]; exact hi.conv a ha
    · intro a ha; rw [hk] at ha; rw [hl.reg (fun h => ha h.2)]; exact hi.reg a ha
    · intro a ha; rw [hk] at ha; rw [hl.net (fun h => ha h.2)]; exact hi.net a ha
    · intro a ha; rw [hk] at ha; exact hi.contract a ha
    · rw [hk]; exact hi.zero
    · intro a; rw [hl.coin]; exact hi.coin_nonneg a
    · intro a; rw [hl.coin, hk]; exact hi.coin_none a
    · rw [hl.frames]; exact hi.sender
  | deploy s a i w' hs ha hz hk hc hI =>
    have hkk : ∀ b, w'.kind b = if b = a then i.kind else w.kind b := by
      intro b; rw [hI.kind]; rfl
    have hcoin : w'.coin = w.coin := by
      rw [hI.coin, enterW_coin]; funext x; rw [moveCoin_coin]; simp
    constructor
    · intro b hb
      rw [hkk] at hb
      rw [hI.tok (by rintro ⟨rfl, h⟩; simp_all)]
      by_cases e : b = a
      · subst e; exact hi.tok b (by simp [hk, Kind.isToken])
      · exact hi.tok b (by simpa [e] using hb)
    · intro b hb
      rw [hkk] at hb
      rw [hI.own (by rintro ⟨rfl, h⟩; simp_all)]
      by_cases e : b = a
      · subst e; exact hi.own b (by simp [hk, Kind.isOwned])
      · exact hi.own b (by simpa [e] using hb)
    · intro b hb
      rw [hkk] at hb
      rw [hI.flexSt (by rintro ⟨rfl, h⟩; simp_all)]
      by_cases e : b = a
      · subst e; exact hi.flex b (by simp [hk])
      · exact hi.flex b (by simpa [e] using hb)
    · intro b hb
      rw [hkk] at hb
      rw [hI.convSt (by rintro ⟨rfl, h⟩; simp_all)]
      by_cases e : b = a
      · subst e; exact hi.conv b (by simp [hk])
      · exact hi.conv b (by simpa [e] using hb)
    · intro b hb
      rw [hkk] at hb
      rw [hI.regSt (by rintro ⟨rfl, h⟩; simp_all)]
      by_cases e : b = a
      · subst e; exact hi.reg b (by simp [hk])
      · exact hi.reg b (by simpa [e] using hb)
    · intro b hb
      rw [hkk] at hb
      rw [hI.netSt]
      by_cases e : b = a
      · subst e; exact hi.net b (by simp [hk])
      · exact hi.net b (by simpa [e] using hb)
    · intro b hb
      rw [hkk] at hb
      by_cases e : b = a
      · subst e; exact ha
      · exact hi.contract b (by simpa [e] using hb)
    · rw [hkk, if_neg (Ne.symm hz)]; exact hi.zero
    · rw [hcoin]; exact hi.coin_nonneg
    · intro b hb
      rw [hcoin]
      rw [hkk] at hb
      by_cases e : b = a
      · subst e; intro _; exact hi.coin_none b hk ha
      · exact hi.coin_none b (by simpa [e] using hb)
    · rw [hI.frames, enterW_frames]
      intro f hf
      rcases List.mem_cons.mp hf with rfl | hf
      · intro h
        have h : s = ZERO := h
        rw [h] at hs; simp [ZERO] at hs
      · exact hi.sender f hf

theorem Reachable.basic {w} (h : Reachable w) : Inv w := h.inv (fun _ => Inv.genesis) (fun _ _ => Inv.step)

end Verif

import Verif.Proofs.Stuck
import Verif.Props.Windup
/-!
C80: tokens do not get stuck in contracts.
-/
set_option autoImplicit false
set_option linter.unusedSimpArgs false
namespace Verif

open Scenario (ready ready_reachable alice bob owner)

variable {w : World} {K a : Addr}

/-- C80. Whatever the token, whoever the sender and whatever data he adds: a transfer to a token contract, a registry, or an
address without contract behind it that is not an ordinary account, fails. (Converters and networks are told of the arrival.) -/
theorem C80_refused {s : Addr} {cv v : Int} {d : Option Data} (hK : w.kind K = .irc ∨ w.kind K = .icx ∨ w.kind K = .flex)
    (hc : a.isContract = true)
    (ha : w.kind a = .none ∨ w.kind a = .irc ∨ w.kind a = .icx ∨ w.kind a = .flex ∨ w.kind a = .reg) :
    Fails w s K cv (.transfer a v d) := by
  intro orc n x w' h
  cases n with
  | zero => exact exec_zero h
  | succ n =>
    have hk : (w.kind K).isToken := hK
    have hv := exec_tok_value hk h (fun _ => ⟨by rintro ⟨⟩, by rintro ⟨⟩⟩)
    subst hv
    rw [ok_exec_transfer hk] at h
    obtain ⟨_, _, _, _, _, _, ⟨h, _⟩ | ⟨_, y, w1, h, _⟩⟩ := h
    · rw [hc] at h; cases h
    · refine deaf_tokenFallback hc ?_ h
      show w.kind a = .none ∨ w.kind a = .irc ∨ w.kind a = .flex ∨ w.kind a = .reg ∨ w.kind a = .icx
      tauto

/-- C80. Plain tokens are never found at the address of a token contract or a registry, nor at a contract address without
contract. -/
theorem C80_plain (h : Reachable w) (hK : w.kind K = .irc) (hc : a.isContract = true)
    (ha : w.kind a = .none ∨ w.kind a = .irc ∨ w.kind a = .icx ∨ w.kind a = .flex ∨ w.kind a = .reg) :
    (w.tok K).bal a = 0 := by
  refine h.flat (.inl hK) ⟨hc, ?_⟩ fun e => by rw [hK] at e; cases e
  rw [hK]
  rcases ha with h | h | h | h | h <;> simp [h]

/-- C80. ICX tokens are never found at the address of a plain or flexible token, a registry, or a contract address without
contract. -/
theorem C80_icx (h : Reachable w) (hK : w.kind K = .icx) (hc : a.isContract = true)
    (ha : w.kind a = .none ∨ w.kind a = .irc ∨ w.kind a = .flex ∨ w.kind a = .reg) : (w.tok K).bal a = 0 := by
  refine h.flat (.inr (.inl hK)) ⟨hc, ?_⟩ fun e => by rw [hK] at e; cases e
  rcases ha with h | h | h | h <;> simp [h]

/-- C80. Flexible tokens are found at such an address only if the token's owner once created them there. -/
theorem C80_flexible (h : Reachable w) (hK : w.kind K = .flex) (hc : a.isContract = true)
    (ha : w.kind a = .none ∨ w.kind a = .irc ∨ w.kind a = .icx ∨ w.kind a = .flex ∨ w.kind a = .reg)
    (hn : ∀ f ∈ w.frames, f.to = K → f.owner = some f.sender → ∀ v, f.call ≠ .issue a v) : (w.tok K).bal a = 0 := by
  refine h.flat (.inr (.inr hK)) ⟨hc, ?_⟩ fun _ f hf hm => ?_
  · rw [hK]
    rcases ha with h | h | h | h | h <;> simp [h]
  · obtain ⟨h1, h2, v, h3⟩ := hm
    exact hn f hf h1 h2 v h3

/-- C80. What an ICX token, a flexible token or a network holds of any token comes out again: its owner can send any part of it to
any ordinary account (of a flexible token, while its transfers are not disabled). For converters: C63. -/
theorem C80_out (h : Reachable w) {s T b : Addr} {v : Int} (hT : w.kind T = .icx ∨ w.kind T = .flex ∨ w.kind T = .net)
    (hK : w.kind K = .irc ∨ w.kind K = .icx ∨ w.kind K = .flex) (hs : (w.own T).owner = some s) (hb : b.isContract = false)
    (hv : 0 < v) (hle : v ≤ (w.tok K).bal T) (hf : w.kind K = .flex → (w.flex K).transferable = true) {orc : Oracle} {n : Nat} :
    ∃ w', exec orc (n + 2) s T 0 (.withdrawTokens K b v) w = .ok (.unit, w') ∧
      (w'.tok K).bal T = (w.tok K).bal T - v ∧ (w'.tok K).bal b = (w.tok K).bal b + v := by
  have hc := h.basic.coin_nonneg
  have hkc : ∀ a : Addr, w.kind a ≠ .none → a ≠ b := by
    rintro _ hh rfl
    rw [h.basic.contract _ hh] at hb; cases hb
  have hTb : T ≠ b := hkc T (by rcases hT with h | h | h <;> rw [h] <;> decide)
  have hbz : b ≠ ZERO := by rintro rfl; exact absurd hb (by decide)
  refine ⟨((((w.note s T 0 (.withdrawTokens K b v)).note T K 0 (.transfer b v none)).pay K T b v).addLog K
      (.Transfer T b v .noneBytes)), ?_, ?_, ?_⟩
  · rw [ok_exec_withdrawTokens hT]
    have e : exec orc (n + 1) T K 0 (.transfer b v none) (w.note s T 0 (.withdrawTokens K b v)) = .ok (.unit,
        ((((w.note s T 0 (.withdrawTokens K b v)).note T K 0 (.transfer b v none)).pay K T b v).addLog K
          (.Transfer T b v .noneBytes))) := by
      rw [ok_exec_transfer (by exact hK)]
      exact ⟨hc T, hf, fun e => hkc K (by rw [show w.kind K = .icx from e]; decide), by omega, hle, rfl, .inl ⟨hb, rfl⟩⟩
    have := hc s
    first | exact ⟨rfl, hc s, rfl, hs, hv, hTb.symm, hbz, _, e⟩ | exact ⟨rfl, this, rfl, hs, hv, hTb, hbz, _, e⟩
  · simp [World.pay, moveBal, hTb]
  · simp [World.pay, moveBal, hTb.symm]

/-- Alice withdraws 100 of her ICX tokens to the ICX token itself, and the owner makes 5 units of a new flexible token for the plain
token: the two ways tokens get to such contracts; the ICX token's owner can send the former on, and nobody's transfer adds to them. -/
def Scenario.astray : World := Scenario.run [.deploy owner ⟨true, 50⟩ (.flex "F" "F" 0 18), .call owner ⟨true, 50⟩ 0 (.issue Scenario.irc 5),
  .call alice Scenario.icxt 300 .deposit, .call alice Scenario.icxt 0 (.withdrawTo 100 Scenario.icxt)] ready

open Scenario (astray) in
set_option maxRecDepth 100000 in
example : ready.kind Scenario.irc = .irc ∧ ready.kind Scenario.icxt = .icx ∧ ready.kind Scenario.flex = .flex ∧
    ready.kind Scenario.registry = .reg ∧ ready.kind Scenario.evil = .none ∧ Scenario.evil.isContract = true ∧
    (ready.tok Scenario.irc).bal alice = 10000 ∧
    Scenario.answer alice Scenario.irc (.transfer Scenario.irc 1 none) ready = .error (.platform "MethodNotFound") ∧
    Scenario.answer alice Scenario.irc (.transfer Scenario.evil 1 none) ready = .error (.platform "no contract") ∧
    (astray.tok ⟨true, 50⟩).bal Scenario.irc = 5 ∧ astray.kind ⟨true, 50⟩ = .flex ∧
    (astray.tok Scenario.icxt).bal Scenario.icxt = 100 ∧ (astray.tok Scenario.icxt).bal alice = 700 ∧
    (astray.own Scenario.icxt).owner = some owner ∧
    ((Scenario.run [.call owner Scenario.icxt 0 (.withdrawTokens Scenario.icxt alice 100)] astray).tok Scenario.icxt).bal alice = 800 ∧
    (astray.tok Scenario.irc).bal Scenario.icxt = 0 ∧ (astray.tok Scenario.icxt).bal Scenario.irc = 0 ∧
    (astray.tok Scenario.flex).bal Scenario.irc = 0 ∧
    (∀ f ∈ astray.frames, f.to = Scenario.flex → f.owner = some f.sender → ∀ v, f.call ≠ .issue Scenario.irc v) := by
  refine ⟨by decide +kernel, by decide +kernel, by decide +kernel, by decide +kernel, by decide +kernel, by decide +kernel,
    by decide +kernel, by decide +kernel, by decide +kernel, by decide +kernel, by decide +kernel, by decide +kernel,
    by decide +kernel, by decide +kernel, by decide +kernel, by decide +kernel, by decide +kernel, by decide +kernel, ?_⟩
  have h : astray.frames.all (fun f => !(f.to == Scenario.flex && match f.call with
      | .issue a _ => a == Scenario.irc
      | _ => false)) = true := by decide +kernel
  intro f hf ht _ v hcall
  have := List.all_eq_true.mp h f hf
  simp [ht, hcall] at this

end Verif

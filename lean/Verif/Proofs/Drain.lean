import Verif.Proofs.Sent
import Verif.Proofs.Backing
/-!
Tokens held by the network stay there.
-/
set_option linter.unusedSimpArgs false
namespace Verif

open Relation

/-- Induction over the nesting of calls, with several contracts singled out. -/
theorem exec_hierS (orc : Oracle) (S : Addr → Prop) {P : World → World → Prop} {Q : Addr → Addr → Int → Call → World → World → Prop}
    (hr : ∀ w, P w w) (ht : ∀ a b c, P a b → P b c → P a c)
    (hl : ∀ f w w', ¬ S f.to → LocalStep f w w' → P w w')
    (hq : ∀ f w t v c w', ¬ S f.to → OutCall f w t v c → Stable w w' → Q f.to t v c w w' → P w w')
    (he : ∀ s t v c w w', ¬ S t → 0 ≤ v → v ≤ w.coin s → Stable w w' → P (enterW w s t v c) w' → Q s t v c w w')
    (hT : ∀ n s t v c w x w', S t → AllCalls orc n Q → exec orc (n + 1) s t v c w = .ok (x, w') → Q s t v c w w') :
    ∀ n, AllCalls orc n Q := by
  intro n
  induction n with
  | zero => intro s t v c w x w' h; exact (exec_zero h).elim
  | succ n ih =>
    intro s t v c w x w' h
    by_cases e : S t
    · exact hT n s t v c w x w' e ih h
    · obtain ⟨hv, hb, hB⟩ := exec_body ih h
      refine he s t v c w w' e hv hb ((enterW_stable ..).trans (hB.stable (withStable Q))) ?_
      exact Body.elim hr ht (fun w w' hs => hl _ _ _ e hs) (fun t v c w w' ho hq' => hq _ _ _ _ _ _ e ho hq'.1 hq'.2) hB

/-- The calls that may take `X` from the network `N`. -/
def Takes (N X : Addr) (k : Kind) (f : Frame) : Prop :=
  (f.to = N ∧ f.owner = some f.sender ∧ ∃ b v, f.call = .withdrawTokens X b v) ∨
  (k = .flex ∧ f.to = X ∧ f.owner = some f.sender ∧ ∃ v, f.call = .destroy N v)

/-- What a call from `s` to `t` may take from `N`'s balance of `X` on behalf of its caller. -/
def spend (N X s t : Addr) (c : Call) : Int :=
  if s = N ∧ t = X then (match c with
    | .transfer _ v _ => v
    | .withdraw v => v
    | .withdrawTo v _ => v
    | .destroy _ v => v
    | _ => 0)
  else if s = X ∧ t = N then (match c with
    | .tokenFallback _ v _ => max v 0
    | _ => 0)
  else 0

section
variable {N X : Addr}

/-- An excuse since `w`. -/
def Excused (N X : Addr) (w w' : World) : Prop := ∃ f, Called w w' f ∧ Takes N X (w.kind X) f

/-- Since `w0`, `N`'s balance of `X` is at least `k`, or there is an excuse. -/
def Held (N X : Addr) (w0 : World) (k : Int) (w : World) : Prop :=
  Stable w0 w ∧ (Excused N X w0 w ∨ k ≤ (w.tok X).bal N)

theorem Held.mono {w0 w k k'} (h : Held N X w0 k w) (hk : k' ≤ k) : Held N X w0 k' w :=
  ⟨h.1, h.2.imp id fun h => by omega⟩

/-- What is shown about calls. -/
def Keeps (N X s t : Addr) (_ : Int) (c : Call) (w w' : World) : Prop :=
  w.kind N = .net → (w.kind X).isToken → Excused N X w w' ∨ (w.tok X).bal N - spend N X s t c ≤ (w'.tok X).bal N

theorem Excused.of_stable {w0 w w'} (h : Excused N X w0 w) (hs : Stable w w') : Excused N X w0 w' := by
  obtain ⟨f, h1, h2⟩ := h
  exact ⟨f, Since.mono h1 hs.frames, h2⟩

theorem Excused.weaken {w0 w w'} (h : Excused N X w w') (hs : Stable w0 w) : Excused N X w0 w' := by
  obtain ⟨f, h1, h2⟩ := h
  exact ⟨f, Since.weaken h1 hs.frames, by rw [← hs.kind]; exact h2⟩

theorem Held.call {w0 w w' k} (h : Held N X w0 k w) (hN : w0.kind N = .net) (hX : (w0.kind X).isToken)
    {s t v c} (hs : Stable w w') (hq : Keeps N X s t v c w w') : Held N X w0 (k - spend N X s t c) w' := by
  refine ⟨h.1.trans hs, ?_⟩
  rcases h.2 with h' | h'
  · exact .inl (h'.of_stable hs)
  · rcases hq (by rw [h.1.kind]; exact hN) (by rw [h.1.kind]; exact hX) with h2 | h2
    · exact .inl (h2.weaken h.1)
    · exact .inr (by omega)

theorem Held.same {w0 w w' k} (h : Held N X w0 k w) (hs : Stable w w') (ht : w'.tok = w.tok) : Held N X w0 k w' :=
  ⟨h.1.trans hs, h.2.imp (fun h => h.of_stable hs) (fun h => by rw [ht]; exact h)⟩

variable {orc : Oracle} {n : Nat} {w0 w w' : World} {cx : Ctx} {k : Int}

theorem note_stable (w : World) (s t v c) : Stable w (w.note s t v c) :=
  ⟨rfl, fun _ => rfl, fun _ => rfl, List.suffix_cons _ _⟩

theorem spend_other {s t : Addr} {c : Call} (h1 : ¬ (s = N ∧ t = X)) (h2 : s ≠ X) : spend N X s t c = 0 := by
  unfold spend; rw [if_neg h1, if_neg (fun h => h2 h.1)]

/-- A call of the network with its consequences. -/
theorem held_net (ih : AllCalls orc n (Keeps N X)) (hN : w0.kind N = .net) (hX : (w0.kind X).isToken)
    (h : Held N X w0 k w) {t v c y} (e : exec orc n N t v c w = .ok (y, w')) : Held N X w0 (k - spend N X N t c) w' :=
  h.call hN hX (exec_rel orc n _ _ _ _ _ _ _ e).1 (ih _ _ _ _ _ _ _ e)

theorem net_ne (hN : w0.kind N = .net) (hX : (w0.kind X).isToken) : N ≠ X := by
  rintro rfl; rw [hN] at hX; simp [Kind.isToken] at hX

theorem spend_view (hNX : N ≠ X) {t : Addr} {c : Call} (hc : c = .getOwner ∨ (∃ a, c = .balanceOf a) ∨ (∃ a b v, c = .getReturn a b v) ∨ c = .fallback) :
    spend N X N t c = 0 := by
  unfold spend
  rw [if_neg (fun h : N = X ∧ t = N => hNX h.1)]
  split
  · rcases hc with rfl | ⟨_, rfl⟩ | ⟨_, _, _, rfl⟩ | rfl <;> rfl
  · rfl

theorem spend_to (hNX : N ≠ X) {t : Addr} {c : Call} (ht : t ≠ X) : spend N X N t c = 0 :=
  spend_other (fun h => ht h.2) hNX

theorem spend_transfer {a : Addr} {v : Int} {d} : spend N X N X (.transfer a v d) = v := by
  unfold spend; rw [if_pos ⟨rfl, rfl⟩]
theorem spend_withdrawTo {a : Addr} {v : Int} : spend N X N X (.withdrawTo v a) = v := by
  unfold spend; rw [if_pos ⟨rfl, rfl⟩]

theorem held_loop (ih : AllCalls orc n (Keeps N X)) (hN : w0.kind N = .net) (hX : (w0.kind X).isToken)
    (hcall : cx.call = exec orc n N) (hself : cx.self = N) (m : Int) :
    ∀ (rest : List Addr) {a : Addr} {v : Int} {w w' : World} {z : Addr} {r : Int},
      Held N X w0 (k + if a = X then v else 0) w →
      Network.convertLoop cx m a rest v w = .ok ((z, r), w') → Held N X w0 (k + if z = X then r else 0) w'
  | [], a, v, w, w', z, r, hh, h => by
    unfold Network.convertLoop at h; cases h; exact hh
  | [_], a, v, w, w', z, r, hh, h => by
    unfold Network.convertLoop at h; cases h; exact hh
  | ft :: b :: rest, a, v, w, w', z, r, hh, h => by
    have hNX := net_ne hN hX
    unfold Network.convertLoop at h
    rw [hcall, hself] at h
    rw [okk_bind] at h
    obtain ⟨x1, w1, h1, h⟩ := h
    have hk : ∃ j, n = j + 1 := by
      cases n with
      | zero => simp [ok_exec_zero] at h1
      | succ j => exact ⟨j, rfl⟩
    obtain ⟨j, hk⟩ := hk
    have hh1 := held_net ih hN hX hh h1
    rw [spend_view hNX (.inl rfl)] at hh1
    rw [okk_bind] at h
    obtain ⟨T, w1', h1', h⟩ := h
    rw [ok_asAddr] at h1'
    obtain ⟨_, rfl⟩ := h1'
    rw [okk_bind] at h
    obtain ⟨x2, w2, h2, h⟩ := h
    have hh2 := held_net ih hN hX hh1 h2
    rw [spend_view hNX (.inr (.inl ⟨_, rfl⟩))] at hh2
    rw [okk_bind] at h
    obtain ⟨before, w2', h2', h⟩ := h
    rw [ok_asInt] at h2'
    obtain ⟨hbef, rfl⟩ := h2'
    rw [okk_bind] at h
    obtain ⟨x3, w3, h3, h⟩ := h
    have hh3 := held_net ih hN hX hh2 h3
    rw [okk_bind] at h
    obtain ⟨x4, w4, h4, h⟩ := h
    rw [okk_bind] at h
    obtain ⟨after, w4', h4', h⟩ := h
    rw [ok_asInt] at h4'
    obtain ⟨haft, rfl⟩ := h4'
    have hh4 := held_net ih hN hX hh3 h4
    rw [spend_view hNX (.inr (.inl ⟨_, rfl⟩))] at hh4
    refine held_loop ih hN hX hcall hself m rest ?_ h
    by_cases hb : b = X
    · subst hb
      rw [if_pos rfl]
      refine ⟨hh4.1, ?_⟩
      rcases hh2.2 with he | he
      · have hs : Stable w2 w4 := (exec_rel orc n _ _ _ _ _ _ _ h3).1.trans (exec_rel orc n _ _ _ _ _ _ _ h4).1
        exact .inl (he.of_stable hs)
      · rcases hh4.2 with he' | he'
        · exact .inl he'
        · right
          rw [hk, ok_exec_balanceOf (by rw [hh1.1.kind]; exact hX)] at h2
          obtain ⟨_, rfl, rfl⟩ := h2
          rw [hk, ok_exec_balanceOf (by rw [hh3.1.kind]; exact hX)] at h4
          obtain ⟨_, rfl, rfl⟩ := h4
          have hbef : (w1.tok b).bal N = before := by rcases hbef with h | ⟨b, h, _⟩ <;> simp_all
          have haft : (w3.tok b).bal N = after := by rcases haft with h | ⟨b, h, _⟩ <;> simp_all
          rw [note_tok] at he ⊢
          have hpos : a = b → 0 ≤ v := by
            rintro rfl
            rw [hk, ok_exec_transfer (by rw [note_kind, hh1.1.kind]; exact hX)] at h3
            exact h3.2.2.2.1
          by_cases hab : a = b
          · rw [if_pos hab] at he; have := hpos hab; omega
          · rw [if_neg hab] at he; omega
    · rw [if_neg hb]
      refine hh4.mono ?_
      by_cases ha : a = X
      · subst ha; rw [if_pos rfl, spend_transfer]; omega
      · rw [if_neg ha, spend_to hNX ha]; omega

theorem held_internal (ih : AllCalls orc n (Keeps N X)) (hN : w0.kind N = .net) (hX : (w0.kind X).isToken)
    (hcall : cx.call = exec orc n N) (hself : cx.self = N) {a : Addr} {rest : List Addr} {v m r : Int} {f : Addr}
    (hh : Held N X w0 (k + if a = X then v else 0) w)
    (h : Network.convertForInternal cx (a :: rest) v m f w = .ok (r, w')) : Held N X w0 k w' := by
  have hNX := net_ne hN hX
  unfold Network.convertForInternal at h
  rw [okk_bind] at h
  obtain ⟨⟨z, r'⟩, w1, h1, h⟩ := h
  have hh1 := held_loop ih hN hX hcall hself m rest hh h1
  simp only [okk] at h
  simp only [hcall, hself, okk_ite, okk_bind (exec orc n N _ _ _), okk] at h
  have fin : ∀ {c y w2}, (∀ hz : z = X, spend N X N X c = r') → exec orc n N z 0 c w1 = .ok (y, w2) → Held N X w0 k w2 := by
    intro c y w2 hc e
    refine (held_net ih hN hX hh1 e).mono ?_
    by_cases hz : z = X
    · rw [if_pos hz]; subst hz; rw [hc rfl]; omega
    · rw [if_neg hz, spend_to hNX hz]; omega
  rcases h with ⟨h2, y, w2, h3, h4⟩ | ⟨h2, y, w2, h3, h4⟩
  · cases h4
    exact fin (fun _ => spend_withdrawTo) h3
  · cases h4
    exact fin (fun _ => spend_transfer) h3

theorem held_expected (ih : AllCalls orc n (Keeps N X)) (hN : w0.kind N = .net) (hX : (w0.kind X).isToken)
    (hcall : cx.call = exec orc n N) :
    ∀ (rest : List Addr) {a : Addr} {v : Int} {w w' : World} {r : Int}, Held N X w0 k w →
      Network.expectedLoop cx a rest v w = .ok (r, w') → Held N X w0 k w'
  | [], a, v, w, w', r, hh, h => by
    unfold Network.expectedLoop at h; cases h; exact hh
  | [_], a, v, w, w', r, hh, h => by
    unfold Network.expectedLoop at h; cases h; exact hh
  | ft :: b :: rest, a, v, w, w', r, hh, h => by
    have hNX := net_ne hN hX
    unfold Network.expectedLoop at h
    rw [hcall] at h
    rw [okk_bind] at h
    obtain ⟨x1, w1, h1, h⟩ := h
    have hh1 := held_net ih hN hX hh h1
    rw [spend_view hNX (.inl rfl)] at hh1
    rw [okk_bind] at h
    obtain ⟨T, w1', h1', h⟩ := h
    rw [ok_asAddr] at h1'
    obtain ⟨_, rfl⟩ := h1'
    rw [okk_bind] at h
    obtain ⟨x2, w2, h2, h⟩ := h
    have hh2 := held_net ih hN hX hh1 h2
    rw [spend_view hNX (.inr (.inr (.inl ⟨_, _, _, rfl⟩)))] at hh2
    rw [okk_bind] at h
    obtain ⟨r', w2', h2', h⟩ := h
    rw [ok_asAmount] at h2'
    obtain ⟨_, rfl⟩ := h2'
    exact held_expected ih hN hX hcall rest (hh2.mono (by omega)) h


theorem held_deposit (ih : AllCalls orc n (Keeps N X)) (hN : w0.kind N = .net) (hX : (w0.kind X).isToken) {a : Addr} {v : Int} {y : Val}
    (hh : Held N X w0 k w) (h : exec orc n N a v .fallback w = .ok (y, w')) :
    Held N X w0 (k + if a = X then v else 0) w' := by
  have hNX := net_ne hN hX
  have hh1 := held_net ih hN hX hh h
  rw [spend_view hNX (.inr (.inr (.inr rfl)))] at hh1
  by_cases ha : a = X
  · subst ha
    rw [if_pos rfl]
    refine ⟨hh1.1, ?_⟩
    rcases hh.2 with he | he
    · exact .inl (he.of_stable (exec_rel orc n _ _ _ _ _ _ _ h).1)
    · right
      cases n with
      | zero => simp [ok_exec_zero] at h
      | succ n =>
        by_cases hi : w.kind a = .icx
        · rw [ok_exec_deposit hi (.inr rfl)] at h
          obtain ⟨_, _, _, rfl⟩ := h
          simp [gain]; omega
        · obtain ⟨rfl, rfl⟩ := fallback_plain (by rw [hh.1.kind]; exact hX) hi h
          rw [note_tok]; omega
  · rw [if_neg ha]; exact hh1.mono (by omega)

theorem enterW_tok' (w : World) (s t v c) : (enterW w s t v c).tok = w.tok := rfl

theorem held_start (w : World) (s t v c) : Held N X w ((w.tok X).bal N) (enterW w s t v c) :=
  ⟨enterW_stable .., .inr (Int.le_refl _)⟩

/-- Calls entering the network. -/
theorem keeps_net (ih : AllCalls orc n (Keeps N X)) {s v c x} (h : exec orc (n + 1) s N v c w = .ok (x, w')) :
    Keeps N X s N v c w w' := by
  intro hN hX
  have hNX := net_ne hN hX
  have fin : ∀ {k}, Held N X w k w' → (w.tok X).bal N - spend N X s N c ≤ k →
      Excused N X w w' ∨ (w.tok X).bal N - spend N X s N c ≤ (w'.tok X).bal N :=
    fun hh hk => hh.2.imp id (fun h => by omega)
  have h0 := held_start (N := N) (X := X) w s N v c
  have hsp : (∀ f u d, c ≠ .tokenFallback f u d) → spend N X s N c = 0 := by
    intro hc
    unfold spend
    rw [if_neg (fun h : s = N ∧ N = X => hNX h.2)]
    split
    · split
      · exact absurd rfl (hc _ _ _)
      · rfl
    · rfl
  have hquiet : ∀ (hs : Stable (enterW w s N v c) w') (ht : w'.tok = w.tok), (∀ f u d, c ≠ .tokenFallback f u d) →
      Excused N X w w' ∨ (w.tok X).bal N - spend N X s N c ≤ (w'.tok X).bal N := by
    intro hs ht hc
    exact fin (h0.same hs ht) (by rw [hsp hc]; omega)
  cases c with
  | tokenFallback f u d =>
    by_cases hd : d = .conversionResult
    · subst hd
      rw [ok_exec_net hN] at h
      have e : Network.dispatch { fr := mkFrame w s N v (.tokenFallback f u .conversionResult), call := exec orc n N } =
        runNonPayable { fr := mkFrame w s N v (.tokenFallback f u .conversionResult), call := exec orc n N }
        (some do Network.tokenFallback { fr := mkFrame w s N v (.tokenFallback f u .conversionResult), call := exec orc n N } f u .conversionResult; return .unit) := rfl
      rw [e, ok_runNonPayable, ok_unit] at h
      obtain ⟨_, _, h, _⟩ := h
      unfold Network.tokenFallback at h
      rw [if_pos rfl] at h
      cases h
      refine fin (k := (w.tok X).bal N) h0 ?_
      unfold spend
      rw [if_neg (fun h : s = N ∧ N = X => hNX h.2)]
      split <;> simp
    · obtain ⟨hv, path, m, g, r, h1, h2, h3, h4, h5, h6⟩ := ok_exec_netFallback hN h hd
      cases path with
      | nil => cases h2
      | cons a rest =>
        simp only [List.head?_cons, Option.some.injEq] at h2
        subst h2
        have hst : Held N X w ((w.tok X).bal N - spend N X a N (.tokenFallback f u d) + if a = X then u else 0)
            (w.note a N 0 (.tokenFallback f u d)) := by
          refine ⟨note_stable .., .inr ?_⟩
          rw [note_tok]
          unfold spend
          rw [if_neg (fun h : a = N ∧ N = X => hNX h.2)]
          by_cases ha : a = X
          · simp only [ha, if_true, and_self]; omega
          · simp only [ha, if_false, false_and]; omega
        exact fin (held_internal ih hN hX rfl rfl hst h6) (Int.le_refl _)
  | convertFor p m f =>
    obtain ⟨hv, hb, path, r, y, w1, hx, h1, h2, h3, h4, h5, a, rest, rfl, h6, h7, h8⟩ := ok_exec_convertFor hN (.inl rfl) h
    refine fin (k := (w.tok X).bal N) (held_internal ih hN hX rfl rfl ?_ h8) (by rw [hsp (by intros; simp)]; omega)
    exact held_deposit ih hN hX h0 h7
  | convert p m =>
    obtain ⟨hv, hb, path, r, y, w1, hx, h1, h2, h3, h4, h5, a, rest, rfl, h6, h7, h8⟩ := ok_exec_convertFor hN (.inr ⟨rfl, rfl⟩) h
    refine fin (k := (w.tok X).bal N) (held_internal ih hN hX rfl rfl ?_ h8) (by rw [hsp (by intros; simp)]; omega)
    exact held_deposit ih hN hX h0 h7
  | getExpectedReturnByPath p u =>
    rw [ok_exec_net hN] at h
    have e : Network.dispatch { fr := mkFrame w s N v (.getExpectedReturnByPath p u), call := exec orc n N } =
      runNonPayable { fr := mkFrame w s N v (.getExpectedReturnByPath p u), call := exec orc n N }
      (some do return .int (← Network.getExpectedReturnByPath { fr := mkFrame w s N v (.getExpectedReturnByPath p u), call := exec orc n N } p u)) := rfl
    rw [e, ok_runNonPayable, ok_view] at h
    obtain ⟨_, _, r, h, _⟩ := h
    unfold Network.getExpectedReturnByPath at h
    rw [okk_bind] at h
    obtain ⟨path, w1, h1, h⟩ := h
    rw [readPath_ok] at h1
    obtain ⟨h1, h1'⟩ := h1
    have h1' : w1 = enterW w s N v _ := h1'
    subst h1'
    simp only [Network.requireValidPath, okk] at h
    obtain ⟨h2, h3, h⟩ := h
    cases path with
    | nil => simp only [okk] at h
    | cons a rest =>
      exact fin (k := (w.tok X).bal N) (held_expected ih hN hX rfl rest h0 h) (by rw [hsp (by intros; simp)]; omega)
  | withdrawTokens t b m =>
    rw [ok_exec_net hN] at h
    have e : Network.dispatch { fr := mkFrame w s N v (.withdrawTokens t b m), call := exec orc n N } =
      runNonPayable { fr := mkFrame w s N v (.withdrawTokens t b m), call := exec orc n N }
      (some do TokenHolder.withdrawTokens { fr := mkFrame w s N v (.withdrawTokens t b m), call := exec orc n N } t b m; return .unit) := rfl
    rw [e, ok_runNonPayable, ok_unit] at h
    obtain ⟨_, _, h, _⟩ := h
    unfold TokenHolder.withdrawTokens at h
    rw [okk_bind] at h
    obtain ⟨_, w1, h1, h⟩ := h
    rw [ok_requireOwner] at h1
    obtain ⟨ho, h1⟩ := h1
    cases h1
    simp only [okk, okk_bind (exec orc n N _ _ _)] at h
    obtain ⟨h2, h3, h4, y, w1, h5, h6⟩ := h
    cases h6
    by_cases ht : t = X
    · subst ht
      left
      refine ⟨mkFrame w s N v (.withdrawTokens t b m), ?_, .inl ⟨rfl, ho, b, m, rfl⟩⟩
      exact Since.mono (since_cons (l := []) rfl) (exec_rel orc n _ _ _ _ _ _ _ h5).1.frames
    · have hh := held_net ih hN hX h0 h5
      rw [spend_to hNX ht] at hh
      exact fin hh (by rw [hsp (by intros; simp)])
  | fallback =>
    rw [ok_exec_net hN] at h
    have e : Network.dispatch { fr := mkFrame w s N v .fallback, call := exec orc n N } =
      runNonPayable { fr := mkFrame w s N v .fallback, call := exec orc n N } (some (pure .unit)) := rfl
    rw [e, ok_runNonPayable] at h
    obtain ⟨_, _, h⟩ := h
    cases h
    exact hquiet (.refl _) rfl (by intros; simp)
  | getIcxTokenRegistered a =>
    rw [ok_exec_net hN] at h
    have e : Network.dispatch { fr := mkFrame w s N v (.getIcxTokenRegistered a), call := exec orc n N } =
      runNonPayable { fr := mkFrame w s N v (.getIcxTokenRegistered a), call := exec orc n N } (some do return .bool ((← get).net N a)) := rfl
    rw [e, ok_runNonPayable] at h
    obtain ⟨_, _, h⟩ := h
    simp only [okk] at h
    cases h
    exact hquiet (.refl _) rfl (by intros; simp)
  | registerIcxToken a b =>
    rw [ok_exec_net hN] at h
    have e : Network.dispatch { fr := mkFrame w s N v (.registerIcxToken a b), call := exec orc n N } =
      runNonPayable { fr := mkFrame w s N v (.registerIcxToken a b), call := exec orc n N }
      (some do Network.registerIcxToken { fr := mkFrame w s N v (.registerIcxToken a b), call := exec orc n N } a b; return .unit) := rfl
    rw [e, ok_runNonPayable, ok_unit] at h
    obtain ⟨_, _, h, _⟩ := h
    unfold Network.registerIcxToken at h
    rw [okk_bind] at h
    obtain ⟨_, w1, h1, h⟩ := h
    rw [ok_requireOwner] at h1
    obtain ⟨ho, h1⟩ := h1
    cases h1
    simp only [okk] at h
    obtain ⟨h2, h3, h4⟩ := h
    cases h4
    exact hquiet ⟨rfl, fun _ => rfl, fun _ => rfl, List.suffix_refl _⟩ rfl (by intros; simp)
  | getOwner | getNewOwner | transferOwnerShip _ | acceptOwnerShip =>
    have hv : v = 0 := by
      rw [ok_exec_net hN] at h
      simp only [Network.dispatch, mkFrame_call] at h
      exact runNonPayable_value h.2
    subst hv
    have hown : (w.kind N).isOwned := by rw [hN]; simp [Kind.isOwned]
    rw [enterW_zero] at hquiet
    first
    | (rw [ok_exec_getOwner hown] at h
       obtain ⟨_, _, rfl⟩ := h
       exact hquiet (.refl _) rfl (by intros; simp))
    | (rw [ok_exec_transferOwnerShip hown] at h
       obtain ⟨_, _, _, _, rfl⟩ := h
       exact hquiet ⟨rfl, fun _ => rfl, fun _ => rfl, List.suffix_refl _⟩ rfl (by intros; simp))
    | (rw [ok_exec_acceptOwnerShip hown] at h
       obtain ⟨_, _, _, rfl⟩ := h
       exact hquiet ⟨rfl, fun _ => rfl, fun _ => rfl, List.suffix_refl _⟩ rfl (by intros; simp))
    | (rw [ok_exec_owned hown rfl] at h
       simp only [Owned.getNewOwner, okk] at h
       obtain ⟨_, h⟩ := h
       cases h
       exact hquiet (.refl _) rfl (by intros; simp))
  | _ =>
    rw [ok_exec_net hN] at h
    cases runNonPayable_none h.2


theorem spend_X {t : Addr} {c : Call} (hNX : N ≠ X) (hc : ∀ f u d, c ≠ .tokenFallback f u d) : spend N X X t c = 0 := by
  unfold spend
  rw [if_neg (fun h : X = N ∧ t = X => hNX h.1.symm)]
  split
  · split
    · exact absurd rfl (hc _ _ _)
    · rfl
  · rfl

/-- Calls entering the token. -/
theorem keeps_tok (ih : AllCalls orc n (Keeps N X)) {s v c x} (h : exec orc (n + 1) s X v c w = .ok (x, w')) :
    Keeps N X s X v c w w' := by
  intro hN hX
  have hNX := net_ne hN hX
  have fin : ∀ {k}, Held N X w k w' → (w.tok X).bal N - spend N X s X c ≤ k →
      Excused N X w w' ∨ (w.tok X).bal N - spend N X s X c ≤ (w'.tok X).bal N :=
    fun hh hk => hh.2.imp id (fun h => by omega)
  have h0 := held_start (N := N) (X := X) w s X v c
  have hsX : ∀ {c'}, s ≠ N → spend N X s X c' = 0 := by
    intro c' hs
    unfold spend
    rw [if_neg (fun h : s = N ∧ X = X => hs h.1), if_neg (fun h : s = X ∧ X = N => hNX h.2.symm)]
  have hq0 : Quiet c ∨ (w.kind X ≠ .icx ∧ c = .fallback) → spend N X s X c = 0 := by
    intro hq
    by_cases hs : s = N
    · unfold spend
      rw [if_pos ⟨hs, rfl⟩]
      rcases hq with hq | ⟨_, rfl⟩
      · cases c <;> first | rfl | exact hq.elim
      · rfl
    · exact hsX hs
  have hquiet : Quiet c ∨ (w.kind X ≠ .icx ∧ c = .fallback) →
      Excused N X w w' ∨ (w.tok X).bal N - spend N X s X c ≤ (w'.tok X).bal N := by
    intro hq
    obtain ⟨_, _, hB⟩ := exec_body ih h
    have key : Held N X w ((w.tok X).bal N) w' := by
      refine Body.elim (R := fun u u' => Held N X w ((w.tok X).bal N) u → Held N X w ((w.tok X).bal N) u') ?_ ?_ ?_ ?_ hB h0
      · intro u hu; exact hu
      · intro a b c h1 h2 ha; exact h2 (h1 ha)
      · intro u u' hls hu
        refine hu.same hls.stable ?_
        refine hls.quiet ?_
        rw [mkFrame_call, mkFrame_to, hu.1.kind]; exact hq
      · intro t' v' c' u u' ho hc hu
        refine (hu.call hN hX hc.1 hc.2).mono ?_
        rw [mkFrame_to, spend_X hNX]
        · omega
        · rintro f u1 d rfl
          have hkX := hu.1.kind
          cases ho with
          | foreign _ _ _ h => rw [mkFrame_to, hkX] at h; rw [h] at hX; simp [Kind.isToken] at hX
          | fallback _ _ _ _ h =>
            rw [mkFrame_call] at h; subst h
            rcases hq with hq | ⟨_, hq⟩
            · exact hq
            · cases hq
          | convView _ _ _ h => rcases h with h | h | h | ⟨_, h⟩ <;> cases h
          | convToken _ _ _ _ _ h =>
            rcases h with ⟨_, _, h⟩ | ⟨_, h⟩ | ⟨_, _, h⟩ | ⟨_, _, _, _, h⟩ <;> cases h
          | net _ _ _ hk h => rw [mkFrame_to, hkX] at hk; rw [hk] at hX; simp [Kind.isToken] at hX
    exact fin key (by rw [hq0 hq]; omega)
  by_cases hq : Quiet c
  · exact hquiet (.inl hq)
  cases c with
  | transfer b m d =>
    have hv := exec_tok_value hX h (fun _ => ⟨by rintro ⟨⟩, by rintro ⟨⟩⟩)
    subst hv
    rw [ok_exec_transfer hX] at h
    obtain ⟨_, _, _, hm, hmb, _, h⟩ := h
    have hb : (((w.note s X 0 (.transfer b m d)).pay X s b m).tok X).bal N =
        (w.tok X).bal N + (if N = b then m else 0) - (if N = s then m else 0) := by
      simp [World.pay, moveBal]; omega
    have hsp : spend N X s X (.transfer b m d) = if N = s then m else 0 := by
      by_cases hs : s = N
      · subst hs; rw [spend_transfer, if_pos rfl]
      · rw [hsX hs, if_neg (Ne.symm hs)]
    have hst : Stable w ((w.note s X 0 (.transfer b m d)).pay X s b m) :=
      ⟨rfl, fun _ => rfl, fun _ => rfl, List.suffix_cons _ _⟩
    have h1 : Held N X w ((w.tok X).bal N + (if N = b then m else 0) - (if N = s then m else 0))
        ((w.note s X 0 (.transfer b m d)).pay X s b m) := ⟨hst, .inr (by rw [hb])⟩
    rcases h with ⟨hbc, rfl⟩ | ⟨_, y, w1, h2, rfl⟩
    · refine fin (h1.same ⟨rfl, fun _ => rfl, fun _ => rfl, List.suffix_refl _⟩ rfl) ?_
      rw [hsp]; split <;> split <;> omega
    · have h3 := h1.call hN hX (exec_rel orc n _ _ _ _ _ _ _ h2).1 (ih _ _ _ _ _ _ _ h2)
      refine fin (h3.same ⟨rfl, fun _ => rfl, fun _ => rfl, List.suffix_refl _⟩ rfl) ?_
      have hs2 : spend N X X b (.tokenFallback s m (d.getD .noneBytes)) = if N = b then m else 0 := by
        unfold spend
        rw [if_neg (fun h : X = N ∧ b = X => hNX h.1.symm)]
        by_cases hbN : b = N
        · rw [if_pos ⟨rfl, hbN⟩, if_pos hbN.symm]; simp; omega
        · rw [if_neg (fun h => hbN h.2), if_neg (Ne.symm hbN)]
      rw [hsp, hs2]; omega
  | issue b m =>
    have hkf := exec_flexOnly hX h (.inl ⟨_, _, rfl⟩)
    have hv := exec_tok_value hX h (fun _ => ⟨by rintro ⟨⟩, by rintro ⟨⟩⟩)
    subst hv
    rw [ok_exec_issue hkf] at h
    obtain ⟨_, h1, _, _, _, _, rfl⟩ := h
    right
    have hsp : spend N X s X (.issue b m) = 0 := by
      by_cases hs : s = N
      · unfold spend; rw [if_pos ⟨hs, rfl⟩]
      · exact hsX hs
    rw [hsp]
    simp [gain]; split <;> omega
  | destroy b m =>
    have hkf := exec_flexOnly hX h (.inr ⟨_, _, rfl⟩)
    have hv := exec_tok_value hX h (fun _ => ⟨by rintro ⟨⟩, by rintro ⟨⟩⟩)
    subst hv
    rw [ok_exec_destroy hkf] at h
    obtain ⟨_, h1, h2, h3, _, rfl⟩ := h
    by_cases hs : s = N
    · right
      have hsp : spend N X s X (.destroy b m) = m := by unfold spend; rw [if_pos ⟨hs, rfl⟩]
      rw [hsp]; simp [gain]; split <;> omega
    · rw [hsX hs]
      by_cases hb : b = N
      · subst hb
        left
        refine ⟨mkFrame w s X 0 (.destroy b m), since_cons (l := []) rfl, .inr ⟨hkf, rfl, ?_, m, rfl⟩⟩
        exact h3.resolve_left hs
      · right
        simp [gain, Ne.symm hb]
  | deposit =>
    have hki := exec_icxOnly hX h (.inl rfl)
    rw [ok_exec_deposit hki (.inl rfl)] at h
    obtain ⟨h1, _, _, rfl⟩ := h
    right
    have hsp : spend N X s X .deposit = 0 := by
      by_cases hs : s = N
      · unfold spend; rw [if_pos ⟨hs, rfl⟩]
      · exact hsX hs
    rw [hsp]; simp [gain]; split <;> omega
  | fallback =>
    by_cases hki : w.kind X = .icx
    · rw [ok_exec_deposit hki (.inr rfl)] at h
      obtain ⟨h1, _, _, rfl⟩ := h
      right
      have hsp : spend N X s X .fallback = 0 := by
        by_cases hs : s = N
        · unfold spend; rw [if_pos ⟨hs, rfl⟩]
        · exact hsX hs
      rw [hsp]; simp [gain]; split <;> omega
    · exact hquiet (.inr ⟨hki, rfl⟩)
  | withdraw m =>
    have hki := exec_icxOnly hX h (.inr (.inl ⟨_, rfl⟩))
    have hv := exec_tok_value hX h (fun _ => ⟨by rintro ⟨⟩, by rintro ⟨⟩⟩)
    subst hv
    rw [ok_exec_withdraw hki (.inr ⟨rfl, rfl⟩)] at h
    obtain ⟨_, h1, _, _, y, w1, h2, rfl⟩ := h
    have hsp : spend N X s X (.withdraw m) = if N = s then m else 0 := by
      by_cases hs : s = N
      · subst hs; unfold spend; rw [if_pos ⟨rfl, rfl⟩, if_pos rfl]
      · rw [hsX hs, if_neg (Ne.symm hs)]
    have h3 : Held N X w ((w.tok X).bal N - (if N = s then m else 0)) ((w.note s X 0 (.withdraw m)).setTok X { w.tok X with
        bal := gain (w.tok X).bal s (-m), supply := (w.tok X).supply - m }) :=
      ⟨⟨rfl, fun _ => rfl, fun _ => rfl, List.suffix_cons _ _⟩, .inr (by simp [gain]; split <;> omega)⟩
    have h4 := h3.call hN hX (exec_rel orc n _ _ _ _ _ _ _ h2).1 (ih _ _ _ _ _ _ _ h2)
    rw [spend_X hNX (by intros; simp)] at h4
    refine fin (h4.same ⟨rfl, fun _ => rfl, fun _ => rfl, List.suffix_refl _⟩ rfl) ?_
    rw [hsp]; omega
  | withdrawTo m b =>
    have hki := exec_icxOnly hX h (.inr (.inr ⟨_, _, rfl⟩))
    have hv := exec_tok_value hX h (fun _ => ⟨by rintro ⟨⟩, by rintro ⟨⟩⟩)
    subst hv
    rw [ok_exec_withdraw hki (.inl rfl)] at h
    obtain ⟨_, h1, _, _, y, w1, h2, rfl⟩ := h
    have hsp : spend N X s X (.withdrawTo m b) = if N = s then m else 0 := by
      by_cases hs : s = N
      · subst hs; unfold spend; rw [if_pos ⟨rfl, rfl⟩, if_pos rfl]
      · rw [hsX hs, if_neg (Ne.symm hs)]
    have h3 : Held N X w ((w.tok X).bal N - (if N = s then m else 0)) ((w.note s X 0 (.withdrawTo m b)).setTok X { w.tok X with
        bal := gain (w.tok X).bal s (-m), supply := (w.tok X).supply - m }) :=
      ⟨⟨rfl, fun _ => rfl, fun _ => rfl, List.suffix_cons _ _⟩, .inr (by simp [gain]; split <;> omega)⟩
    have h4 := h3.call hN hX (exec_rel orc n _ _ _ _ _ _ _ h2).1 (ih _ _ _ _ _ _ _ h2)
    rw [spend_X hNX (by intros; simp)] at h4
    refine fin (h4.same ⟨rfl, fun _ => rfl, fun _ => rfl, List.suffix_refl _⟩ rfl) ?_
    rw [hsp]; omega
  | onInstall i => exact (exec_noInstall hX h).elim
  | _ => exact absurd trivial hq

theorem keeps_exec (orc : Oracle) (N X : Addr) (n : Nat) : AllCalls orc n (Keeps N X) := by
  refine exec_hierS orc (fun a => a = N ∨ a = X)
    (P := fun w w' => Stable w w' ∧ (w.kind N = .net → (w.kind X).isToken → Excused N X w w' ∨ (w.tok X).bal N ≤ (w'.tok X).bal N))
    ?_ ?_ ?_ ?_ ?_ ?_ n
  · intro w; exact ⟨.refl w, fun _ _ => .inr (Int.le_refl _)⟩
  · rintro a b c ⟨s1, h1⟩ ⟨s2, h2⟩
    refine ⟨s1.trans s2, fun hN hX => ?_⟩
    rcases h1 hN hX with h1 | h1
    · exact .inl (h1.of_stable s2)
    · rcases h2 (by rw [s1.kind]; exact hN) (by rw [s1.kind]; exact hX) with h2 | h2
      · exact .inl (h2.weaken s1)
      · exact .inr (by omega)
  · intro f w w' hf hl
    refine ⟨hl.stable, fun _ _ => .inr ?_⟩
    rw [(hl.sameAt (T := X) (fun e => hf (.inr e))).tok]
  · intro f w t v c w' hf _ hs h
    refine ⟨hs, fun hN hX => ?_⟩
    have := h hN hX
    rw [spend_other (fun e => hf (.inl e.1)) (fun e => hf (.inr e))] at this
    exact this.imp id (fun h => by omega)
  · rintro s t v c w w' ht _ _ hs ⟨_, h⟩ hN hX
    have hsp : spend N X s t c = 0 := by
      unfold spend
      rw [if_neg (fun e => ht (.inr e.2)), if_neg (fun e => ht (.inl e.2))]
    rw [hsp]
    rcases h hN hX with h | h
    · exact .inl (h.weaken (enterW_stable ..))
    · right; rw [enterW_tok'] at h; omega
  · intro n s t v c w x w' ht ih h
    rcases ht with rfl | rfl
    · exact keeps_net ih h
    · exact keeps_tok ih h

/-- What a transaction can take from the network. -/
theorem keeps_tx (fuel : Nat) (tx : Tx) (hN : w.kind N = .net) (hX : (w.kind X).isToken) (hc : N.isContract = true) (hc' : X.isContract = true) :
    Excused N X w (tx.apply orc fuel w) ∨ (w.tok X).bal N ≤ ((tx.apply orc fuel w).tok X).bal N := by
  rcases apply_cases orc fuel tx w with h | ⟨s, t, v, c, x, _, hs, h⟩ | ⟨s, a, i, x, _, _, h⟩
  · rw [h]; exact .inr (Int.le_refl _)
  · have := keeps_exec orc N X fuel _ _ _ _ _ _ _ h hN hX
    rw [spend_other (by rintro ⟨rfl, _⟩; rw [hc] at hs; cases hs) (by rintro rfl; rw [hc'] at hs; cases hs)] at this
    exact this.imp id (fun h => by omega)
  · obtain ⟨⟨_, _, hn, _⟩, w1, hI, hB⟩ := deploy_body orc fuel s a i (withStable (Keeps N X))
      (fun t v c w x w' e => ⟨(exec_rel orc fuel a t v c w x w' e).1, keeps_exec orc N X fuel _ _ _ _ _ _ _ e⟩) h
    have haN : a ≠ N := by rintro rfl; rw [hn] at hN; cases hN
    have haX : a ≠ X := by rintro rfl; rw [hn] at hX; simp [Kind.isToken] at hX
    have hsX := installed_sameAt hI haX
    have hsN := installed_sameAt hI haN
    have hfr : w.frames <:+ w1.frames := by rw [hI.frames]; exact List.suffix_cons _ _
    have h1 : Held N X w1 ((w1.tok X).bal N) w1 := ⟨.refl _, .inr (Int.le_refl _)⟩
    have hN1 : w1.kind N = .net := by rw [hsN.kind]; exact hN
    have hX1 : (w1.kind X).isToken := by rw [hsX.kind]; exact hX
    have key : Held N X w1 ((w1.tok X).bal N) (tx.apply orc fuel w) := by
      refine Body.elim (R := fun u u' => Held N X w1 ((w1.tok X).bal N) u → Held N X w1 ((w1.tok X).bal N) u') ?_ ?_ ?_ ?_ hB h1
      · intro u hu; exact hu
      · intro a b c h1 h2 ha; exact h2 (h1 ha)
      · intro u u' hls hu
        exact hu.same hls.stable (hls.tok_onInstall rfl)
      · intro t' v' c' u u' ho hc hu
        refine (hu.call hN1 hX1 hc.1 hc.2).mono ?_
        rw [mkFrame_to, spend_other (fun e => haN e.1) haX]; omega
    rcases key.2 with h | h
    · left
      obtain ⟨f, h1, h2⟩ := h
      exact ⟨f, Since.weaken h1 hfr, by rw [← hsX.kind]; exact h2⟩
    · right; rw [← hsX.tok]; exact h

end

end Verif

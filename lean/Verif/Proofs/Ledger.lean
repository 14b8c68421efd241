import Verif.Proofs.Hier
/-!
A token's balances are exactly the sum of the effects of the successful calls made to it.
-/
namespace Verif

open Relation

theorem runNonPayable_value {cx : Ctx} {m w p} (h : runNonPayable cx m w = .ok p) : cx.value = 0 := by
  obtain ⟨x, w'⟩ := p
  unfold runNonPayable notPayable at h
  simp only [okk] at h
  exact h.1

/-- Coin is accepted by the ICX token's `deposit` and `fallback` only. -/
theorem exec_tok_value {orc n s T v c w x w'} (hk : (w.kind T).isToken) (h : exec orc (n + 1) s T v c w = .ok (x, w'))
    (hc : w.kind T = .icx → c ≠ .deposit ∧ c ≠ .fallback) : v = 0 := by
  rcases hk with hk | hk | hk
  · rw [ok_exec_irc hk] at h; exact runNonPayable_value h.2
  · obtain ⟨h1, h2⟩ := hc hk
    rw [ok_exec_icx hk] at h
    have h := h.2
    unfold IcxToken.dispatch at h
    rw [mkFrame_call] at h
    split at h
    · exact absurd rfl h2
    · exact absurd rfl h1
    · exact runNonPayable_value h
  · rw [ok_exec_flex hk] at h; exact runNonPayable_value h.2

theorem runNonPayable_none {cx : Ctx} {w p} (h : runNonPayable cx none w = .ok p) : cx.fr.call = .fallback := by
  obtain ⟨x, w'⟩ := p
  unfold runNonPayable notPayable at h
  simp only [okk, okk_ite] at h
  rcases h with ⟨_, h | h⟩
  · exact h.1
  · exact h.2.elim

theorem exec_flexOnly {orc n s T v c w x w'} (hk : (w.kind T).isToken) (h : exec orc (n + 1) s T v c w = .ok (x, w'))
    (hc : (∃ a m, c = .issue a m) ∨ (∃ a m, c = .destroy a m)) : w.kind T = .flex := by
  rcases hk with hk | hk | hk
  · rw [ok_exec_irc hk] at h
    have h := h.2
    rcases hc with ⟨a, m, rfl⟩ | ⟨a, m, rfl⟩ <;> cases runNonPayable_none h
  · rw [ok_exec_icx hk] at h
    have h := h.2
    rcases hc with ⟨a, m, rfl⟩ | ⟨a, m, rfl⟩ <;> cases runNonPayable_none h
  · exact hk

theorem exec_icxOnly {orc n s T v c w x w'} (hk : (w.kind T).isToken) (h : exec orc (n + 1) s T v c w = .ok (x, w'))
    (hc : c = .deposit ∨ (∃ m, c = .withdraw m) ∨ (∃ m a, c = .withdrawTo m a)) : w.kind T = .icx := by
  rcases hk with hk | hk | hk
  · rw [ok_exec_irc hk] at h
    have h := h.2
    rcases hc with rfl | ⟨m, rfl⟩ | ⟨m, a, rfl⟩ <;> cases runNonPayable_none h
  · exact hk
  · rw [ok_exec_flex hk] at h
    have h := h.2
    rcases hc with rfl | ⟨m, rfl⟩ | ⟨m, a, rfl⟩ <;> cases runNonPayable_none h

theorem exec_noInstall {orc n s T v i w x w'} (hk : (w.kind T).isToken)
    (h : exec orc (n + 1) s T v (.onInstall i) w = .ok (x, w')) : False := by
  rcases hk with hk | hk | hk
  · rw [ok_exec_irc hk] at h; cases runNonPayable_none h.2
  · rw [ok_exec_icx hk] at h; cases runNonPayable_none h.2
  · rw [ok_exec_flex hk] at h; cases runNonPayable_none h.2

/-- Exact accounting of token `T` between two ledgers. -/
structure Books' (T : Addr) (new : List Frame) (w w' : World) : Prop where
  frames : w'.frames = new ++ w.frames
  kind : w'.kind T = w.kind T
  bal : ∀ a, (w'.tok T).bal a = (w.tok T).bal a + total (credit T a) new
  supply : (w'.tok T).supply = (w.tok T).supply + total (minted T) new
  name : (w'.tok T).name = (w.tok T).name
  symbol : (w'.tok T).symbol = (w.tok T).symbol
  decimals : (w'.tok T).decimals = (w.tok T).decimals
  lawful : ∀ f ∈ new, Lawful T f

def Acct (T : Addr) (w w' : World) : Prop := (w.kind T).isToken → ∃ new, Books' T new w w'

theorem total_nil (g) : total g [] = 0 := rfl
theorem total_append (g) (a b : List Frame) : total g (a ++ b) = total g a + total g b := by
  simp [total, List.sum_append]
theorem total_one (g) (f : Frame) : total g [f] = g f := by simp [total]

theorem Books'.refl (T w) : Books' T [] w w where
  frames := rfl
  kind := rfl
  bal a := by rw [total_nil, Int.add_zero]
  supply := by rw [total_nil, Int.add_zero]
  name := rfl
  symbol := rfl
  decimals := rfl
  lawful f hf := by cases hf

theorem Books'.trans {T l1 l2 a b c} (h : Books' T l1 a b) (h' : Books' T l2 b c) : Books' T (l2 ++ l1) a c where
  frames := by rw [h'.frames, h.frames, List.append_assoc]
  kind := h'.kind.trans h.kind
  bal x := by rw [h'.bal, h.bal, total_append, Int.add_assoc, Int.add_comm (total _ l2)]
  supply := by rw [h'.supply, h.supply, total_append, Int.add_assoc, Int.add_comm (total _ l2)]
  name := h'.name.trans h.name
  symbol := h'.symbol.trans h.symbol
  decimals := h'.decimals.trans h.decimals
  lawful f hf := by
    rcases List.mem_append.mp hf with hf | hf
    · exact h'.lawful f hf
    · exact h.lawful f hf

theorem Acct.refl (T w) : Acct T w w := fun _ => ⟨[], .refl T w⟩
theorem Acct.trans {T a b c} (h : Acct T a b) (h' : Acct T b c) : Acct T a c := by
  intro hk
  obtain ⟨l, h⟩ := h hk
  obtain ⟨l', h'⟩ := h' (by rw [h.kind]; exact hk)
  exact ⟨_, h.trans h'⟩

/-- Nothing about `T`'s balances changes. -/
theorem books_same {T w w'} (hf : w'.frames = w.frames) (hk : w'.kind T = w.kind T) (ht : w'.tok T = w.tok T) :
    Books' T [] w w' where
  frames := hf
  kind := hk
  bal a := by rw [total_nil, Int.add_zero, ht]
  supply := by rw [total_nil, Int.add_zero, ht]
  name := by rw [ht]
  symbol := by rw [ht]
  decimals := by rw [ht]
  lawful f hf := by cases hf

theorem books_enter {T w s t v c} (hc : ∀ a, credit T a (mkFrame w s t v c) = 0) (hm : minted T (mkFrame w s t v c) = 0)
    (hl : Lawful T (mkFrame w s t v c)) : Books' T [mkFrame w s t v c] w (enterW w s t v c) where
  frames := rfl
  kind := rfl
  bal a := by rw [total_one, hc]; simp
  supply := by rw [total_one, hm]; simp
  name := rfl
  symbol := rfl
  decimals := rfl
  lawful f hf := by rw [List.mem_singleton] at hf; subst hf; exact hl

/-- Calls that do not touch the balances themselves. -/
def Quiet (c : Call) : Prop := match c with
  | .transfer .. | .issue .. | .destroy .. | .deposit | .fallback | .withdraw .. | .withdrawTo .. | .onInstall _ => False
  | _ => True

theorem LocalStep.quiet {f w w'} (h : LocalStep f w w') (hq : Quiet f.call ∨ (w.kind f.to ≠ .icx ∧ f.call = .fallback)) :
    w'.tok = w.tok := by
  cases h with
  | transfer _ _ _ _ hc | issue _ _ _ hc | destroy _ _ _ hc =>
    rcases hq with hq | ⟨_, hq⟩
    · rw [hc] at hq; exact hq.elim
    · rw [hc] at hq; cases hq
  | deposit hk hc =>
    rcases hq with hq | ⟨hq, _⟩
    · rcases hc with hc | hc <;> (rw [hc] at hq; exact hq.elim)
    · exact absurd hk hq
  | withdraw _ _ hk hc =>
    rcases hq with hq | ⟨hq, _⟩
    · rcases hc with hc | ⟨hc, _⟩ <;> (rw [hc] at hq; exact hq.elim)
    · exact absurd hk hq
  | _ => rfl

theorem acct_quiet {orc n T s v c w x w'} (ih : AllCalls orc n (fun _ _ _ _ => Acct T)) (hk : (w.kind T).isToken)
    (h : exec orc (n + 1) s T v c w = .ok (x, w')) (hq : Quiet c ∨ (w.kind T ≠ .icx ∧ c = .fallback)) : ∃ new, Books' T new w w' := by
  obtain ⟨hv, hb, hB⟩ := exec_body ih h
  have hv0 : v = 0 := exec_tok_value hk h (by
    intro hk'
    rcases hq with hq | hq
    · constructor <;> rintro rfl <;> exact hq
    · exact absurd hk' hq.1)
  subst hv0
  have key : Acct T (enterW w s T 0 c) w' ∧ (w'.kind = w.kind) := by
    refine Body.elim (R := fun u u' => (u.kind = w.kind → Acct T u u' ∧ u'.kind = w.kind)) ?_ ?_ ?_ ?_ hB rfl
    · intro u hu; exact ⟨.refl _ _, hu⟩
    · intro a b c h1 h2 ha
      obtain ⟨h3, h4⟩ := h1 ha
      obtain ⟨h5, h6⟩ := h2 h4
      exact ⟨h3.trans h5, h6⟩
    · intro u u' hls hu
      refine ⟨fun _ => ⟨[], books_same hls.frames (by rw [hls.kind]) ?_⟩, by rw [hls.kind, hu]⟩
      rw [hls.quiet]
      rw [mkFrame_call, mkFrame_to, hu]; exact hq
    · intro t' v' c' u u' ho hc hu
      exact ⟨hc.2, by rw [hc.1.kind, hu]⟩
  obtain ⟨l, hl⟩ := key.1 hk
  refine ⟨_, (books_enter ?_ ?_ ?_).trans hl⟩
  · intro a
    unfold credit
    rw [mkFrame_to, if_pos rfl, mkFrame_call, mkFrame_value, mkFrame_sender]
    rcases hq with hq | ⟨_, rfl⟩
    · cases c <;> first | rfl | exact hq.elim
    · simp
  · unfold minted
    rw [mkFrame_to, if_pos rfl, mkFrame_call, mkFrame_value]
    rcases hq with hq | ⟨_, rfl⟩
    · cases c <;> first | rfl | exact hq.elim
    · rfl
  · intro _
    rw [mkFrame_call, mkFrame_value]
    rcases hq with hq | ⟨_, rfl⟩
    · cases c <;> first | rfl | exact hq.elim
    · exact Int.le_refl 0

section
variable (w : World) (s T a : Addr) (v : Int)
theorem credit_transfer (b d) : credit T a (mkFrame w s T 0 (.transfer b v d)) =
    (if a = b then v else 0) - (if a = s then v else 0) := if_pos rfl
theorem credit_issue (b) : credit T a (mkFrame w s T 0 (.issue b v)) = if a = b then v else 0 := if_pos rfl
theorem credit_destroy (b) : credit T a (mkFrame w s T 0 (.destroy b v)) = if a = b then -v else 0 := if_pos rfl
theorem credit_deposit : credit T a (mkFrame w s T v .deposit) = if a = s then v else 0 := if_pos rfl
theorem credit_fallback : credit T a (mkFrame w s T v .fallback) = if a = s then v else 0 := if_pos rfl
theorem credit_withdraw : credit T a (mkFrame w s T 0 (.withdraw v)) = if a = s then -v else 0 := if_pos rfl
theorem credit_withdrawTo (b) : credit T a (mkFrame w s T 0 (.withdrawTo v b)) = if a = s then -v else 0 := if_pos rfl
end

theorem moveBal_credit (w : World) (s T : Addr) (b : Addr) (v : Int) (d : Option Data) (a : Addr) :
    moveBal (w.tok T).bal s b v a = (w.tok T).bal a + credit T a (mkFrame w s T 0 (.transfer b v d)) := by
  simp only [moveBal, credit_transfer]
  omega

/-- Every call accounts exactly for token `T`. -/
theorem acct_exec (orc : Oracle) (T : Addr) (n : Nat) : AllCalls orc n (fun _ _ _ _ => Acct T) := by
  refine exec_hier orc T (P := Acct T) (Acct.refl T) (fun _ _ _ => Acct.trans) ?_ ?_ ?_ ?_ n
  · intro f w w' hf hl _
    exact ⟨[], books_same hl.frames (by rw [hl.kind]) (hl.sameAt hf).tok⟩
  · intro f w t v c w' _ _ _ h; exact h
  · intro s t v c w w' ht _ _ _ h hk
    obtain ⟨l, hl⟩ := h hk
    refine ⟨_, (books_enter ?_ ?_ ?_).trans hl⟩
    · intro a; unfold credit; rw [mkFrame_to, if_neg ht]
    · unfold minted; rw [mkFrame_to, if_neg ht]
    · intro e; exact absurd e ht
  · intro n s v c w x w' ih h hk
    by_cases hq : Quiet c
    · exact acct_quiet ih hk h (.inl hq)
    cases c with
    | transfer b m d =>
      have hv := exec_tok_value hk h (fun _ => ⟨by rintro ⟨⟩, by rintro ⟨⟩⟩)
      subst hv
      rw [ok_exec_transfer hk] at h
      obtain ⟨_, _, _, hm, _, _, h⟩ := h
      have h1 : Books' T [mkFrame w s T 0 (.transfer b m d)] w ((w.note s T 0 (.transfer b m d)).pay T s b m) :=
        { frames := rfl, kind := rfl
          bal := fun a => by
            rw [total_one, ← moveBal_credit]; simp [World.pay]
          supply := by rw [total_one]; simp [World.pay, minted]
          name := by simp [World.pay]
          symbol := by simp [World.pay]
          decimals := by simp [World.pay]
          lawful := fun f hf => by
            rw [List.mem_singleton] at hf; subst hf
            intro _; exact ⟨hm, rfl⟩ }
      rcases h with ⟨_, rfl⟩ | ⟨_, y, w1, h2, rfl⟩
      · exact ⟨_, h1.trans (books_same (w' := World.addLog _ _ _) rfl rfl rfl)⟩
      · obtain ⟨l, h2⟩ := ih _ _ _ _ _ _ _ h2 hk
        exact ⟨_, (h1.trans h2).trans (books_same (w' := World.addLog _ _ _) rfl rfl rfl)⟩
    | issue b m =>
      have hkf := exec_flexOnly hk h (.inl ⟨_, _, rfl⟩)
      have hv := exec_tok_value hk h (fun _ => ⟨by rintro ⟨⟩, by rintro ⟨⟩⟩)
      subst hv
      rw [ok_exec_issue hkf] at h
      obtain ⟨_, h1, h2, _, _, _, rfl⟩ := h
      exact ⟨[mkFrame w s T 0 (.issue b m)],
        { frames := rfl, kind := rfl
          bal := fun a => by rw [total_one]; simp [credit_issue, credit_destroy, credit_deposit, credit_fallback, credit_withdraw, credit_withdrawTo, gain]
          supply := by rw [total_one]; simp [minted]
          name := by simp
          symbol := by simp
          decimals := by simp
          lawful := fun f hf => by
            rw [List.mem_singleton] at hf; subst hf
            intro _; exact ⟨h1, rfl, h2⟩ }⟩
    | destroy b m =>
      have hkf := exec_flexOnly hk h (.inr ⟨_, _, rfl⟩)
      have hv := exec_tok_value hk h (fun _ => ⟨by rintro ⟨⟩, by rintro ⟨⟩⟩)
      subst hv
      rw [ok_exec_destroy hkf] at h
      obtain ⟨_, h1, h2, h3, _, rfl⟩ := h
      exact ⟨[mkFrame w s T 0 (.destroy b m)],
        { frames := rfl, kind := rfl
          bal := fun a => by rw [total_one]; simp [credit_issue, credit_destroy, credit_deposit, credit_fallback, credit_withdraw, credit_withdrawTo, gain]
          supply := by rw [total_one]; simp [minted, Int.sub_eq_add_neg]
          name := by simp
          symbol := by simp
          decimals := by simp
          lawful := fun f hf => by
            rw [List.mem_singleton] at hf; subst hf
            intro _; exact ⟨h1, rfl, h3⟩ }⟩
    | deposit =>
      have hki := exec_icxOnly hk h (.inl rfl)
      rw [ok_exec_deposit hki (.inl rfl)] at h
      obtain ⟨h1, _, _, rfl⟩ := h
      exact ⟨[mkFrame w s T v .deposit],
        { frames := rfl, kind := rfl
          bal := fun a => by rw [total_one]; simp [credit_issue, credit_destroy, credit_deposit, credit_fallback, credit_withdraw, credit_withdrawTo, gain]
          supply := by rw [total_one]; simp [minted]
          name := by simp
          symbol := by simp
          decimals := by simp
          lawful := fun f hf => by
            rw [List.mem_singleton] at hf; subst hf
            intro _; exact h1 }⟩
    | fallback =>
      by_cases hki : w.kind T = .icx
      · rw [ok_exec_deposit hki (.inr rfl)] at h
        obtain ⟨h1, _, _, rfl⟩ := h
        exact ⟨[mkFrame w s T v .fallback],
          { frames := rfl, kind := rfl
            bal := fun a => by rw [total_one]; simp [credit_issue, credit_destroy, credit_deposit, credit_fallback, credit_withdraw, credit_withdrawTo, gain]
            supply := by rw [total_one]; simp [minted]
            name := by simp
            symbol := by simp
            decimals := by simp
            lawful := fun f hf => by
              rw [List.mem_singleton] at hf; subst hf
              intro _; exact h1 }⟩
      · exact acct_quiet ih hk h (.inr ⟨hki, rfl⟩)
    | withdraw m =>
      have hki := exec_icxOnly hk h (.inr (.inl ⟨_, rfl⟩))
      have hv := exec_tok_value hk h (fun _ => ⟨by rintro ⟨⟩, by rintro ⟨⟩⟩)
      subst hv
      rw [ok_exec_withdraw hki (.inr ⟨rfl, rfl⟩)] at h
      obtain ⟨_, h1, _, _, y, w1, h2, rfl⟩ := h
      have hb : Books' T [mkFrame w s T 0 (.withdraw m)] w ((w.note s T 0 (.withdraw m)).setTok T { w.tok T with
            bal := gain (w.tok T).bal s (-m), supply := (w.tok T).supply - m }) :=
        { frames := rfl, kind := rfl
          bal := fun a => by rw [total_one]; simp [credit_issue, credit_destroy, credit_deposit, credit_fallback, credit_withdraw, credit_withdrawTo, gain]
          supply := by rw [total_one]; simp [minted, Int.sub_eq_add_neg]
          name := by simp
          symbol := by simp
          decimals := by simp
          lawful := fun f hf => by
            rw [List.mem_singleton] at hf; subst hf
            intro _; exact ⟨h1, rfl⟩ }
      obtain ⟨l, h2⟩ := ih _ _ _ _ _ _ _ h2 hk
      exact ⟨_, (hb.trans h2).trans (books_same (w' := World.addLog _ _ _) rfl rfl rfl)⟩
    | withdrawTo m b =>
      have hki := exec_icxOnly hk h (.inr (.inr ⟨_, _, rfl⟩))
      have hv := exec_tok_value hk h (fun _ => ⟨by rintro ⟨⟩, by rintro ⟨⟩⟩)
      subst hv
      rw [ok_exec_withdraw hki (.inl rfl)] at h
      obtain ⟨_, h1, _, _, y, w1, h2, rfl⟩ := h
      have hb : Books' T [mkFrame w s T 0 (.withdrawTo m b)] w ((w.note s T 0 (.withdrawTo m b)).setTok T { w.tok T with
            bal := gain (w.tok T).bal s (-m), supply := (w.tok T).supply - m }) :=
        { frames := rfl, kind := rfl
          bal := fun a => by rw [total_one]; simp [credit_issue, credit_destroy, credit_deposit, credit_fallback, credit_withdraw, credit_withdrawTo, gain]
          supply := by rw [total_one]; simp [minted, Int.sub_eq_add_neg]
          name := by simp
          symbol := by simp
          decimals := by simp
          lawful := fun f hf => by
            rw [List.mem_singleton] at hf; subst hf
            intro _; exact ⟨h1, rfl⟩ }
      obtain ⟨l, h2⟩ := ih _ _ _ _ _ _ _ h2 hk
      exact ⟨_, (hb.trans h2).trans (books_same (w' := World.addLog _ _ _) rfl rfl rfl)⟩
    | onInstall i => exact (exec_noInstall hk h).elim
    | _ => exact absurd trivial hq

end Verif

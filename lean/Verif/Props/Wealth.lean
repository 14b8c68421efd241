import Verif.Props.Pool
import Verif.Props.Coin
import Verif.Props.Tokens
import Verif.Props.Guide
/-!
C65: coin is conserved; if nobody loses, nobody gains.
-/
set_option autoImplicit false
set_option linter.unusedSimpArgs false
namespace Verif

section
variable {w w' : World} {T t R N a : Addr} {l : List Addr}

/-- What `y` has of token `a`. For an ICX token, the coin he has counts as well: he can change it one to one (C10, C11). -/
def World.wealth (w : World) (a y : Addr) : Int := (w.tok a).bal y + if w.kind a = .icx ∧ y ≠ a then w.coin y else 0

theorem Installed.coin_eq {s a : Addr} {u u' : World} {i : Install} (h : Installed s a u i u') : u'.coin = u.coin := h.coin

/-- C65. The coin in circulation is conserved: no transaction creates or destroys any. -/
theorem C65_coin (h : Later w w') : ∑ᶠ y, w'.coin y = ∑ᶠ y, w.coin y := by
  have hmove : ∀ (u : World) (s t : Addr) (v : Int) (c : Call), ∑ᶠ y, (enterW u s t v c).coin y = ∑ᶠ y, u.coin y := by
    intro u s t v c
    have : (enterW u s t v c).coin = moveBal u.coin s t v := by
      funext y; rw [enterW_coin']; rfl
    rw [this, sum_moveBal]
  induction h with
  | refl => rfl
  | @step w' orc fuel tx _ ih =>
    rw [← ih]
    have := tx_steps orc fuel tx w'
    generalize tx.apply orc fuel w' = u at this
    clear ih
    induction this with
    | refl => rfl
    | @tail u u' _ hs ih =>
      rw [← ih]
      cases hs with
      | enter s t v c => exact hmove _ _ _ _ _
      | loc f u' _ hl => rw [hl.coin]
      | deploy s a i u' _ _ _ _ _ hI => rw [hI.coin, hmove]; rfl

theorem sum_add {f g : Addr → Int} : ∑ᶠ y, (f y + g y) = ∑ᶠ y, f y + ∑ᶠ y, g y :=
  finsum_add_distrib (Set.toFinite _) (Set.toFinite _)

theorem sum_except (f : Addr → Int) (a : Addr) : ∑ᶠ y, (if y ≠ a then f y else 0) = ∑ᶠ y, f y - f a := by
  have h : (fun y => if y ≠ a then f y else 0) = upd f a 0 := by
    funext y; by_cases hy : y = a
    · subst hy; simp
    · simp [hy, upd_ne _ _ hy]
  rw [h, sum_upd]; omega

theorem wealth_sum (hw : Reachable w) (a : Addr) :
    ∑ᶠ y, w.wealth a y = if w.kind a = .icx then ∑ᶠ y, w.coin y else (w.tok a).supply := by
  unfold World.wealth
  rw [sum_add, ← (C01_supply_is_sum hw a).1]
  split
  · rename_i hk
    simp only [hk, true_and]
    rw [sum_except, ← C09_backed hw hk]; omega
  · rename_i hk
    simp [hk]

theorem Reachable.later (hw : Reachable w) (h : Later w w') : Reachable w' := by
  induction h with
  | refl => exact hw
  | step orc fuel tx _ ih => exact .step orc fuel tx ih

theorem Later.kind (hw : w.kind a ≠ .none) (h : Later w w') : w'.kind a = w.kind a :=
  (later_keep (R := fun _ _ => True) h (T := a) (fun _ => trivial) (fun _ _ _ _ _ => trivial) hw (fun _ _ _ _ _ => trivial)).2

/-- C65. What all accounts together have is conserved: of a plain token, and of an ICX token and coin taken together. -/
theorem C65_conserved (hw : Reachable w) (h : Later w w') (hk : w.kind a = .irc ∨ w.kind a = .icx) :
    ∑ᶠ y, w'.wealth a y = ∑ᶠ y, w.wealth a y := by
  have hk' := h.kind (a := a) (by rcases hk with hk | hk <;> (rw [hk]; decide))
  rw [wealth_sum hw, wealth_sum (hw.later h), hk']
  rcases hk with hk | hk
  · rw [hk]; simpa using C04_irc_supply_fixed hk h
  · rw [hk]; simpa using C65_coin h

theorem sum_le_one {f g : Addr → Int} (T : Addr) (h : ∀ y, y ≠ T → f y ≤ g y) (hs : ∑ᶠ y, g y ≤ ∑ᶠ y, f y) : g T ≤ f T := by
  have : Fintype Addr := Fintype.ofFinite Addr
  rw [finsum_eq_sum_of_fintype, finsum_eq_sum_of_fintype] at hs
  have h1 : ∀ g : Addr → Int, ∑ x, g x = g T + ∑ x ∈ Finset.univ.erase T, g x :=
    fun g => (Finset.add_sum_erase _ g (Finset.mem_univ T)).symm
  rw [h1 f, h1 g] at hs
  have := Finset.sum_le_sum (s := Finset.univ.erase T) (f := f) (g := g) (fun y hy => h y (Finset.ne_of_mem_erase hy))
  omega

theorem sum_eq_all {f g : Addr → Int} (h : ∀ y, f y ≤ g y) (hs : ∑ᶠ y, g y ≤ ∑ᶠ y, f y) : ∀ y, f y = g y := by
  intro y
  have := sum_le_one y (fun z _ => h z) hs
  have := h y
  omega

/-- C65. If nobody loses, nobody gains. Whatever transactions are made with a converter that is open for business, by whomever and
with whatever third-party contracts: if afterwards nobody has less of any connector or of the flexible token than before, then
everybody has exactly what he had before. So whoever gains something loses something else, or others lose. (As in C59: nobody in
office meddles, there is supply left, the pool is below `2^104` tokens divided by the number of calls; connectors that are flexible
tokens themselves are not issued meanwhile.) -/
theorem C65_nobody_gains (hw : Reachable w) (ht : Trading w T t R N l) (h : Later w w')
    (hno : ∀ f, Called w w' f → ¬ Meddles T t R l f) (hb : ∀ a ∈ l, 0 < (w.tok a).bal T) (hs : 0 < (w'.tok t).supply)
    (hsize : ∀ a ∈ l, (w.tok a).bal T * (w'.frames.length - w.frames.length : Nat) ≤ 2 ^ 104)
    (hsize' : (w.tok t).supply * (w'.frames.length - w.frames.length : Nat) ≤ 2 ^ 120)
    (hflex : ∀ a ∈ l, w.kind a = .flex → (w'.tok a).supply ≤ (w.tok a).supply)
    (hT : (w.tok t).bal T ≤ (w'.tok t).bal T)
    (hgain : ∀ y, y ≠ T → ∀ a ∈ t :: l, w.wealth a y ≤ w'.wealth a y) :
    ∀ y, ∀ a ∈ t :: l, w'.wealth a y = w.wealth a y := by
  have hr' := hw.later h
  have hkT : w.kind T = .conv := ht.wired.conv
  have hkt : w.kind t = .flex := ht.wired.flex
  have hkT' : w'.kind T = .conv := by rw [h.kind (by rw [hkT]; decide), hkT]
  have hkt' : w'.kind t = .flex := by rw [h.kind (by rw [hkt]; decide), hkt]
  have hcT : w.coin T = 0 := C58_no_coin_stuck hw (.inr (.inr (.inl hkT)))
  have hcT' : w'.coin T = 0 := C58_no_coin_stuck hr' (.inr (.inr (.inl hkT')))
  have hwT : ∀ b, w.wealth b T = (w.tok b).bal T := by intro b; unfold World.wealth; rw [hcT]; simp
  have hwT' : ∀ b, w'.wealth b T = (w'.tok b).bal T := by intro b; unfold World.wealth; rw [hcT']; simp
  have hka : ∀ a ∈ l, w.kind a = .irc ∨ w.kind a = .icx ∨ w.kind a = .flex := fun a ha => ht.honest a ha
  have hsum : ∀ a ∈ l, ∑ᶠ y, w'.wealth a y ≤ ∑ᶠ y, w.wealth a y := by
    intro a ha
    rcases hka a ha with hk | hk | hk
    · exact le_of_eq (C65_conserved hw h (.inl hk))
    · exact le_of_eq (C65_conserved hw h (.inr hk))
    · rw [wealth_sum hw, wealth_sum hr', h.kind (by rw [hk]; decide), hk]
      simpa using hflex a ha hk
  have hdown : ∀ a ∈ l, (w'.tok a).bal T ≤ (w.tok a).bal T := by
    intro a ha
    rw [← hwT, ← hwT']
    exact sum_le_one T (fun y hy => hgain y hy a (List.mem_cons_of_mem _ ha)) (hsum a ha)
  have hst : ∀ y, w.wealth t y ≤ w'.wealth t y := by
    intro y
    by_cases hy : y = T
    · subst hy; rw [hwT, hwT']; exact hT
    · exact hgain y hy t List.mem_cons_self
  have hS : ∑ᶠ y, w.wealth t y = (w.tok t).supply := by rw [wealth_sum hw, hkt]; simp
  have hS' : ∑ᶠ y, w'.wealth t y = (w'.tok t).supply := by rw [wealth_sum hr', hkt']; simp
  have hup : (w.tok t).supply ≤ (w'.tok t).supply := by
    rw [← hS, ← hS']
    have : Fintype Addr := Fintype.ofFinite Addr
    rw [finsum_eq_sum_of_fintype, finsum_eq_sum_of_fintype]
    exact Finset.sum_le_sum fun y _ => hst y
  have hle := C59_no_free_supply hw ht h hno hb hs hdown hsize'
  intro y a ha
  rcases List.mem_cons.mp ha with rfl | ha
  · exact (sum_eq_all hst (by rw [hS, hS']; exact hle) y).symm
  · refine (sum_eq_all (f := w.wealth a) (g := w'.wealth a) (fun y => ?_) (hsum a ha) y).symm
    by_cases hy : y = T
    · subst hy
      rw [hwT, hwT']
      exact C59_no_free_balance hw ht h hno hb hs ha hup (fun b hb _ => hdown b hb) (hsize a ha)
    · exact hgain y hy a (List.mem_cons_of_mem _ ha)

/-- C65. In other words: if nobody but `s` loses anything, and `s` gains something, then `s` loses something else. -/
theorem C65_gain_has_a_price (hw : Reachable w) (ht : Trading w T t R N l) (h : Later w w')
    (hno : ∀ f, Called w w' f → ¬ Meddles T t R l f) (hb : ∀ a ∈ l, 0 < (w.tok a).bal T) (hs : 0 < (w'.tok t).supply)
    (hsize : ∀ a ∈ l, (w.tok a).bal T * (w'.frames.length - w.frames.length : Nat) ≤ 2 ^ 104)
    (hsize' : (w.tok t).supply * (w'.frames.length - w.frames.length : Nat) ≤ 2 ^ 120)
    (hflex : ∀ a ∈ l, w.kind a = .flex → (w'.tok a).supply ≤ (w.tok a).supply)
    (hT : (w.tok t).bal T ≤ (w'.tok t).bal T) {s : Addr}
    (hothers : ∀ y, y ≠ T → y ≠ s → ∀ a ∈ t :: l, w.wealth a y ≤ w'.wealth a y)
    (hs' : s ≠ T) (ha : a ∈ t :: l) (hgain : w.wealth a s < w'.wealth a s) :
    ∃ b ∈ t :: l, w'.wealth b s < w.wealth b s := by
  by_contra hc
  push Not at hc
  have := C65_nobody_gains hw ht h hno hb hs hsize hsize' hflex hT (fun y hy b hb => by
    by_cases e : y = s
    · subst e; exact hc b hb
    · exact hothers y hy e b hb) s a ha
  omega

end

open Scenario (ready ready_reachable alice)

/-- Alice changes 100 coin into ICX tokens. -/
def Scenario.changed : World := Scenario.run [.call alice Scenario.icxt 100 .deposit] ready

/-- The ledger after `s` deposited `v` coin into ICX token `T` (C11). -/
def World.deposited (w : World) (s T : Addr) (v : Int) : World :=
  ((((w.note s T v .deposit).moveCoin s T v).setTok T { w.tok T with
    bal := gain (w.tok T).bal s v, supply := (w.tok T).supply + v }).addLog T (.Issuance v)).addLog T (.Transfer T s v .noneBytes)

theorem deposited_kind {w : World} {s T : Addr} {v : Int} : (w.deposited s T v).kind = w.kind := rfl
theorem deposited_coin {w : World} {s T : Addr} {v : Int} (y : Addr) :
    (w.deposited s T v).coin y = w.coin y - (if y = s then v else 0) + (if y = T then v else 0) := moveCoin_coin w s T v y
theorem deposited_other {w : World} {s T a : Addr} {v : Int} (h : a ≠ T) : (w.deposited s T v).tok a = w.tok a := upd_ne _ _ h
theorem deposited_bal {w : World} {s T : Addr} {v : Int} (y : Addr) :
    ((w.deposited s T v).tok T).bal y = (w.tok T).bal y + if y = s then v else 0 := by
  have : (w.deposited s T v).tok T = { w.tok T with bal := gain (w.tok T).bal s v, supply := (w.tok T).supply + v } := upd_same _ _ _
  rw [this]; rfl

set_option maxRecDepth 100000 in
theorem changed_eq : Scenario.changed = ready.deposited alice Scenario.icxt 100 := by
  have h := run_call (s := alice) rfl ((C11_deposit_exact (orc := Scenario.orc) (n := 19) (s := alice) (T := Scenario.icxt) (v := 100)
    (c := .deposit) (w := ready) (x := .unit) (by decide +kernel) (.inl rfl)).mpr ⟨by decide +kernel, rfl, rfl⟩)
  show (Tx.call alice Scenario.icxt 100 .deposit).apply Scenario.orc (19 + 1) ready = _
  unfold Tx.apply
  rw [h]; rfl

open Scenario in
set_option maxRecDepth 100000 in
/-- C65: a case where nobody loses anything. Alice's coin became tokens; the theorem says everybody has what he had. -/
example : ∀ y, ∀ a ∈ [flex, irc, icxt], changed.wealth a y = ready.wealth a y := by
  have hk : ready.kind irc = .irc ∧ ready.kind icxt = .icx ∧ ready.kind flex = .flex ∧ alice ≠ icxt ∧ flex ≠ icxt ∧ irc ≠ icxt := by decide +kernel
  refine C65_nobody_gains ready_reachable ready_trading (run_later _ .refl) (plain_of (by decide +kernel)) (by decide +kernel) (by decide +kernel)
    (by decide +kernel) (by decide +kernel) (by decide +kernel) (by decide +kernel) ?_
  intro y _ a ha
  refine le_of_eq ?_
  unfold World.wealth
  rw [changed_eq, deposited_kind]
  simp only [List.mem_cons, List.not_mem_nil, or_false] at ha
  rcases ha with rfl | rfl | rfl
  · rw [deposited_other hk.2.2.2.2.1, hk.2.2.1]; simp
  · rw [deposited_other hk.2.2.2.2.2, hk.1]; simp
  · rw [hk.2.1, deposited_bal, deposited_coin]
    generalize ready.coin y = c
    by_cases h1 : y = icxt
    · subst h1; simp [Ne.symm hk.2.2.2.1]
    · by_cases h2 : y = alice
      · subst h2; simp [h1]
      · simp [h1, h2]

end Verif

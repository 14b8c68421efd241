import Verif.Spec.Trip
import Verif.Props.Legs
import Verif.Props.Curve
/-!
A conversion through one converter, seen from its pool; and round trips on the exact curve (C82).
-/
set_option autoImplicit false
set_option linter.unusedSimpArgs false
namespace Verif

section
variable {orc : Oracle} {k : Nat} {w w' : World} {s T t R a b N : Addr} {v m r : Int} {x : Val} {coins : Bool} {tx : Tx}

theorem begun_supply (haff : w.affords coins a N s v) (htk : w.kind t = .flex) : ((w.begun coins a N s v).tok t).supply = (w.tok t).supply := by
  unfold World.begun
  split
  · rename_i hc
    subst hc
    unfold World.affords at haff
    rw [if_pos rfl] at haff
    have hne : t ≠ a := by rintro rfl; rw [haff.2.1] at htk; cases htk
    unfold World.staked World.mint; rw [setTok_tok, if_neg hne]; rfl
  · unfold World.pay; rw [setTok_tok]; split
    · subst t; rfl
    · rfl

theorem delivered_supply {u : World} {z f : Addr} (hreg : u.net N z = true → u.kind z = .icx) (htk : u.kind t = .flex) :
    ((u.delivered N z f r).tok t).supply = (u.tok t).supply := by
  unfold World.delivered
  split
  · rename_i hn
    have hne : t ≠ z := by rintro rfl; rw [hreg hn] at htk; cases htk
    change ((u.mint z N (-r)).tok t).supply = _
    unfold World.mint; rw [setTok_tok, if_neg hne]
  · unfold World.pay; rw [setTok_tok]; split
    · subst t; rfl
    · rfl

theorem mint_supply {z : Addr} : ((w.mint t N v).tok z).supply = (w.tok z).supply + (if z = t then v else 0) := by
  unfold World.mint; rw [setTok_tok]; split
  · subst z; rfl
  · simp

theorem pay_supply {z : Addr} : ((w.pay a N s v).tok z).supply = (w.tok z).supply := by
  unfold World.pay; rw [setTok_tok]; split
  · subst z; rfl
  · rfl

/-- What a conversion through one converter does to its pool. -/
theorem exchanged (h : Reachable w) (hw : Wired w T t R N) (hown : (w.own t).owner = some T) (hka : (w.kind a).isToken) (hkb : (w.kind b).isToken)
    (hreal : ∀ z, z = a ∨ z = b → z ≠ t → ((w.conv T).connectors z).isVirtual = false) (hs : s.isContract = false)
    (he : Exchanged w w' N t s a b v r) :
    ∃ c, a ≠ b ∧ 0 < v ∧ 0 < r ∧ w.curve T a b v 0 = .ok c ∧ r = w.afterFee T c (w.feeSteps T a b) ∧ r ≤ c ∧
      Reachable w' ∧ Wired w' T t R N ∧ w'.own = w.own ∧ w'.kind = w.kind ∧ w'.conv T = w.conv T ∧
      (w'.tok t).supply = (w.tok t).supply + (if b = t then r else 0) - (if a = t then v else 0) ∧
      ∀ z, z ≠ t → (w'.tok z).bal T = (w.tok z).bal T + (if z = a then v else 0) - (if z = b then r else 0) := by
  obtain ⟨orc, k, tx, m, coins, x, ho, hx, hset⟩ := he
  have hk := hw.net
  have hp : HonestPath w N a [t, b] := ⟨hka, ⟨T, R, hown, hw⟩, hkb⟩
  have hsN := ne_net h hk hs
  have hw' := run_reachable h hx
  obtain ⟨u', r', hr, hpu, hcoin, hal, hset', hreg, haff, hl, _⟩ := order_exact h.basic hk hp ho hs hsN hs hx
  have hTc := h.basic.contract T (by rw [hw.conv]; nofun)
  have hTs : T ≠ s := by rintro rfl; rw [hs] at hTc; cases hTc
  have hTN : T ≠ N := by rintro rfl; have h1 := hw.net; rw [hw.conv] at h1; cases h1
  have hks : w.kind s ≠ .conv := by
    intro h1; have := h.basic.contract s (by rw [h1]; nofun); rw [hs] at this; cases this
  have hsb : s ≠ b := by
    rintro rfl; have := h.basic.contract s (by intro e; rw [e] at hkb; exact absurd hkb (by decide)); rw [hs] at this; cases this
  have hrr : r' = r := Settled.unique (z := b) hset' hset rfl rfl hsN hks hsb
  subst hrr
  have hpos := hr.min (by simp)
  have hr0 := hr
  cases hr with
  | @hop _ _ _ _ _ _ T' r1 _ _ own' pos bal move conv next =>
    cases next
    rw [begun_own, hown] at own'; cases own'
    obtain ⟨c, hc, hrc, hle⟩ := conv.curve
    have hab : a ≠ b := conv.tradable.1
    have hwu : Wired (w.begun coins a N s v) T t R N := by
      obtain ⟨_, ⟨T2, R2, h2, h3⟩, _⟩ := hpu
      rw [begun_own, hown] at h2; cases h2
      have : R2 = R := by have h4 := h3.registry; rw [begun_conv, hw.registry] at h4; cases h4; rfl
      subst this; exact h3
    have hreal' : ∀ z, z = a ∨ z = b → z ≠ t → (((w.begun coins a N s v).conv T).connectors z).isVirtual = false := by rw [begun_conv]; exact hreal
    rw [curve_pay hwu hab (by by_cases e : a = t; exacts [.inl e, .inr (hreal' a (.inl rfl) e)])] at hc
    have hag : Agree w (w.begun coins a N s v) [t] := by
      refine ⟨begun_own, fun ft hft T2 hT2 => ?_⟩
      rw [List.mem_singleton] at hft; subst hft
      rw [hown] at hT2; cases hT2
      exact ⟨by rw [begun_conv], begun_supply haff hw.flex, fun z => begun_bal hTs hTN⟩
    rw [hag.curve (by simp) hw hown] at hc
    have hfee : r' = w.afterFee T c (w.feeSteps T a b) := by
      rw [hrc]; unfold World.afterFee World.feeSteps; rw [pay_conv, begun_conv]
    have hkind : w'.kind = w.kind := by rw [hal.kind, delivered_kind, hr0.kind, begun_kind]
    have hown' : w'.own = w.own := by rw [hal.own, delivered_own, hr0.own, begun_own]
    -- the pool after the hop
    have hpool : ((w.begun coins a N s v).hopped T t a b N v r').conv T = w.conv T ∧
        (((w.begun coins a N s v).hopped T t a b N v r').tok t).supply = (w.tok t).supply + (if b = t then r' else 0) - (if a = t then v else 0) ∧
        ∀ z, z ≠ t → (((w.begun coins a N s v).hopped T t a b N v r').tok z).bal T = (w.tok z).bal T + (if z = a then v else 0) - (if z = b then r' else 0) := by
      have hsup := begun_supply (t := t) haff hw.flex
      have hbal : ∀ z, ((w.begun coins a N s v).tok z).bal T = (w.tok z).bal T := fun z => begun_bal hTs hTN
      have hcv : (w.begun coins a N s v).conv = w.conv := begun_conv
      generalize w.begun coins a N s v = u at hsup hbal hcv hreal'
      have hra : ∀ z, z = a ∨ z = b → z ≠ t → (((u.pay a N T v).conv T).connectors z).isVirtual = false := by rw [pay_conv]; exact hreal'
      unfold World.hopped World.traded
      by_cases hbt : b = t
      · have hat : a ≠ t := by rintro rfl; exact hab hbt.symm
        rw [if_pos hbt, virt_real (hra a (.inl rfl) hat)]
        refine ⟨by rw [← hcv]; rfl, by rw [mint_supply, pay_supply, hsup]; simp [hbt, hat], fun z hz => ?_⟩
        rw [mint_bal, pay_bal, hbal]
        have : z ≠ b := by rintro rfl; exact hz hbt
        simp [this, hTN, hz]
      · rw [if_neg hbt]
        by_cases hat : a = t
        · rw [if_pos hat, virt_real (hra b (.inr rfl) hbt)]
          refine ⟨by rw [← hcv]; rfl, by rw [pay_supply, mint_supply, pay_supply, hsup]; simp [hbt, hat]; ring, fun z hz => ?_⟩
          rw [pay_bal, mint_bal, pay_bal, hbal]
          have : z ≠ a := by rintro rfl; exact hz hat
          simp [this, hTN, hz]
        · rw [if_neg hat, virt_real (hra a (.inl rfl) hat), virt_real (hra b (.inr rfl) hbt)]
          refine ⟨by rw [← hcv]; rfl, by rw [pay_supply, pay_supply, hsup]; simp [hbt, hat], fun z hz => ?_⟩
          rw [pay_bal, pay_bal, hbal]
          simp [hTN]
    refine ⟨c, hab, pos, hpos.2.1, hc, hfee, hle, hw', ?_, hown', hkind, ?_, ?_, fun z hz => ?_⟩
    · obtain ⟨_, ⟨T2, R2, h2, h3⟩, _⟩ := order_honest (c := a) (rest' := [t, b]) hw'.basic.coin_nonneg hr0 hal hp
      rw [hown', hown] at h2; cases h2
      have : R2 = R := by
        have h4 := h3.registry
        rw [hal.conv, delivered_conv, hpool.1, hw.registry] at h4; cases h4; rfl
      subst this; exact h3
    · rw [hal.conv, delivered_conv]; exact hpool.1
    · rw [hal.tok, delivered_supply (by rw [hr0.net, hr0.kind, begun_net, begun_kind]; exact hreg) (by rw [hr0.kind, begun_kind]; exact hw.flex)]; exact hpool.2.1
    · rw [hal.tok, delivered_bal, hpool.2.2 z hz]
      simp [hTN, hTs]

end
end Verif

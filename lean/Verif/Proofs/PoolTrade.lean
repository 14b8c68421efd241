import Verif.Proofs.PoolSafe
import Verif.Props.Curve
/-!
Tokens sent to a converter are traded along the curve.
-/
set_option linter.unusedSimpArgs false
namespace Verif

open Relation

section
variable {T t R N : Addr} {l : List Addr} {wt : {a // a ∈ l} → Int} {orc : Oracle} {n : Nat} {w w' : World} {s a : Addr} {cv : Int} {c : Call} {x : Val}

/-- A call that succeeds is recorded. -/
theorem called_self (h : exec orc n s a cv c w = .ok (x, w')) : Called w w' (mkFrame w s a cv c) := by
  cases n with
  | zero => exact (exec_zero h).elim
  | succ n =>
    obtain ⟨_, _, hB⟩ := exec_body (Q := fun _ _ _ _ _ _ => True) (fun _ _ _ _ _ _ _ _ => trivial) h
    exact Since.mono (since_cons (l := []) rfl) (hB.stable (withStable _)).frames

theorem called_length (h : exec orc n s a cv c w = .ok (x, w')) : 1 + w.frames.length ≤ w'.frames.length := by
  obtain ⟨new, h1, h2⟩ := called_self h
  rw [h1, List.length_append]
  have := List.length_pos_of_mem h2
  omega

theorem Cfg.tok_notin (h : Cfg T t R N l wt w) : t ∉ l := by
  rw [h.isSet, h.inv.token t h.tr.wired.token]; simp

theorem Cfg.neT (h : Cfg T t R N l wt w) (ha : (w.kind a).isToken) : a ≠ T ∧ a ≠ N ∧ a ≠ R := by
  refine ⟨?_, ?_, ?_⟩ <;> rintro rfl
  · rw [h.tr.wired.conv] at ha; simp [Kind.isToken] at ha
  · rw [h.tr.wired.net] at ha; simp [Kind.isToken] at ha
  · rw [h.tr.wired.reg] at ha; simp [Kind.isToken] at ha

theorem Cfg.flexTok (h : Cfg T t R N l wt w) : (w.kind t).isToken := by rw [h.tr.wired.flex]; simp [Kind.isToken]

theorem Cfg.NT (h : Cfg T t R N l wt w) : N ≠ T := by
  rintro rfl; have := h.tr.wired.conv; rw [h.tr.wired.net] at this; cases this

/-- One step of trade. -/
theorem rel_one (hl : 1 + w.frames.length ≤ w'.frames.length)
    (h : 0 < (w'.tok t).supply → 0 < (w.tok t).supply ∧ Curve.Trade wt (w.pool T t l) (w'.pool T t l)) : Rel T t l wt w w' := by
  intro hp
  obtain ⟨h1, h2⟩ := h hp
  exact ⟨h1, 1, hl, .more (.none _) h2⟩

theorem virt_real {v : Int} (h : ((w.conv T).connectors a).isVirtual = false) : w.virt T a v = w := by
  unfold World.virt; rw [h]; rfl

theorem pool_ext {P Q : Curve.Pool {a // a ∈ l}} (h1 : P.supply = Q.supply) (h2 : ∀ i, P.balance i = Q.balance i) : P = Q := by
  cases P; cases Q; simp only at h1 h2; subst h1; congr; funext i; exact h2 i

theorem safe_trade {v : Int} {d : Option Data} (ha : a ∈ l ∨ a = t) (h : exec orc n s a cv (.transfer T v d) w = .ok (x, w')) :
    Safe T t R N l wt w w' := by
  refine ⟨(exec_rel orc n _ _ _ _ _ _ _ h).1, fun hc => .inr ?_⟩
  have hka : (w.kind a).isToken := by
    rcases ha with ha | rfl
    · exact hc.tr.honest a ha
    · exact hc.flexTok
  have hw := hc.tr.wired
  obtain ⟨rfl, hv, hh⟩ := transfer_open hw hka h
  rcases hh with ⟨_, _, hh⟩ | ⟨rfl, _, hact, b, m, hasks, hm, htr⟩
  · exact absurd hc.tr.active hh
  have hlen := called_length h
  have hd : ∃ d', d = some d' := by
    cases d with
    | some d => exact ⟨d, rfl⟩
    | none => obtain ⟨_, _, _, h1, _⟩ := hasks; cases h1
  obtain ⟨d, rfl⟩ := hd
  have hcases : (b = t ∧ a ∈ l) ∨ (a = t ∧ b ∈ l) ∨ (a ∈ l ∧ b ∈ l ∧ a ≠ b) := by
    have htk := hw.token
    obtain ⟨hab, htr⟩ := htr
    rw [htk] at htr
    by_cases hb : t = b
    · subst hb; rw [if_pos rfl] at htr; exact .inl ⟨rfl, hc.isSet.2 htr.1⟩
    · rw [if_neg (by simpa using hb)] at htr
      by_cases h2 : t = a
      · subst h2; rw [if_pos rfl] at htr; exact .inr (.inl ⟨rfl, hc.isSet.2 htr⟩)
      · rw [if_neg (by simpa using h2)] at htr
        exact .inr (.inr ⟨hc.isSet.2 htr.1, hc.isSet.2 htr.2.1, hab⟩)
  have hkb : (w.kind b).isToken := by
    rcases hcases with ⟨rfl, _⟩ | ⟨_, hb⟩ | ⟨_, hb, _⟩
    · exact hc.flexTok
    · exact hc.tr.honest b hb
    · exact hc.tr.honest b hb
  obtain ⟨_, hbal, _, r, hcv, hal⟩ := hop_effect hw hc.nz hact hka hkb hasks h
  obtain ⟨fs, lg, rfl⟩ := hal
  obtain ⟨c, hcurve, _, hrc⟩ := hcv.curve
  have hr : 0 ≤ r := le_trans (le_of_lt hm) hcv.enough
  have hNT := hc.NT
  have htl := hc.tok_notin
  have hva : a ∈ l → ((w.conv T).connectors a).isVirtual = false := hc.tr.real a
  have hvb : b ∈ l → ((w.conv T).connectors b).isVirtual = false := hc.tr.real b
  have hwt : ∀ (y : Addr) (hy : y ∈ l), ((w.conv T).connectors y).weight = wt ⟨y, hy⟩ := by
    intro y hy; rw [← hc.weights]; rfl
  rcases hcases with ⟨rfl, hal'⟩ | ⟨rfl, hbl⟩ | ⟨hal', hbl, hab⟩
  · -- buy
    have hva := hva hal'
    have hat : a ≠ b := by rintro rfl; exact htl hal'
    have e : (w.pay a s T v).traded T b a b s v r = (w.pay a s T v).mint b s r := by
      unfold World.traded; rw [if_pos rfl, virt_real (w := w.pay a s T v) hva]
    rw [e] at hlen ⊢
    refine ⟨Cfg.same (w := w) rfl rfl rfl rfl hw.coin hc, rel_one hlen ?_⟩
    unfold World.curve World.reserve at hcurve
    rw [if_pos (show ((w.pay a s T v).conv T).token = some b from hw.token)] at hcurve
    simp only [World.pay, World.setTok, upd, hva, if_neg hat, if_neg (Ne.symm hat), if_true, Bool.false_eq_true, if_false] at hcurve
    simp only [moveBal, if_neg (Ne.symm hNT), if_true] at hcurve
    have hcurve' : Formula.calculatePurchaseReturn (w.tok b).supply ((w.tok a).bal T) ((w.conv T).connectors a).weight v = .ok c := by
      rw [← hcurve]; congr 1; ring
    have hs := (Formula.purchase_input hcurve').1
    intro _
    refine ⟨hs, ?_⟩
    rw [hwt a hal'] at hcurve'
    have := Curve.Trade.buy (weight := wt) (w.pool T b l) ⟨a, hal'⟩ v c r (le_of_lt hv) hcurve' hr hrc
    convert this using 1
    refine pool_ext ?_ ?_
    · simp [World.pool, World.mint, World.pay, World.setTok, upd, hat, Ne.symm hat]
    · rintro ⟨y, hy⟩
      have hyb : y ≠ b := by rintro rfl; exact htl hy
      by_cases hya : y = a
      · subst hya
        simp [World.pool, World.mint, World.pay, World.setTok, upd, hyb, moveBal, Ne.symm hNT]
      · simp [World.pool, World.mint, World.pay, World.setTok, upd, hyb, moveBal, Function.update, hya]
  · -- sell
    have hvb := hvb hbl
    have hbt : b ≠ a := by rintro rfl; exact htl hbl
    have e : (w.pay a s T v).traded T a a b s v r = ((w.pay a s T v).mint a T (-v)).pay b T s r := by
      unfold World.traded; rw [if_neg hbt, if_pos rfl, virt_real (w := w.pay a s T v) hvb]
    rw [e] at hlen ⊢
    refine ⟨Cfg.same (w := w) rfl rfl rfl rfl hw.coin hc, rel_one hlen ?_⟩
    unfold World.curve World.reserve at hcurve
    have htk : (w.pay a s T v).conv T = w.conv T := rfl
    rw [htk, hw.token, if_neg (by simpa using Ne.symm hbt), if_pos rfl] at hcurve
    simp only [World.pay, World.setTok, upd, hvb, if_neg hbt, if_true, Bool.false_eq_true, if_false] at hcurve
    intro hp
    have hp : 0 < (w.tok a).supply - v := by
      simpa [World.mint, World.pay, World.setTok, upd, hbt, Ne.symm hbt, sub_eq_add_neg] using hp
    refine ⟨by omega, ?_⟩
    rw [hwt b hbl] at hcurve
    have := Curve.Trade.sell (weight := wt) (w.pool T a l) ⟨b, hbl⟩ v c r (le_of_lt hv) (by show v < (w.tok a).supply; omega) hcurve hr hrc
    convert this using 1
    refine pool_ext ?_ ?_
    · simp [World.pool, World.mint, World.pay, World.setTok, upd, hbt, Ne.symm hbt, sub_eq_add_neg]
    · rintro ⟨y, hy⟩
      have hyb : y ≠ a := by rintro rfl; exact htl hy
      by_cases hya : y = b
      · subst hya
        simp [World.pool, World.mint, World.pay, World.setTok, upd, hyb, moveBal, Ne.symm hNT]
      · simp [World.pool, World.mint, World.pay, World.setTok, upd, hyb, moveBal, Function.update, hya]
  · -- cross
    have hva := hva hal'
    have hvb := hvb hbl
    have hat : a ≠ t := by rintro rfl; exact htl hal'
    have hbt : b ≠ t := by rintro rfl; exact htl hbl
    have e : (w.pay a s T v).traded T t a b s v r = (w.pay a s T v).pay b T s r := by
      unfold World.traded; rw [if_neg hbt, if_neg hat, virt_real (w := w.pay a s T v) hva, virt_real (w := w.pay a s T v) hvb]
    rw [e] at hlen ⊢
    refine ⟨Cfg.same (w := w) rfl rfl rfl rfl hw.coin hc, rel_one hlen ?_⟩
    unfold World.curve World.reserve at hcurve
    have htk : (w.pay a s T v).conv T = w.conv T := rfl
    rw [htk, hw.token, if_neg (by simpa using Ne.symm hbt), if_neg (by simpa using Ne.symm hat)] at hcurve
    simp only [World.pay, World.setTok, upd, hva, hvb, if_neg hab, if_neg (Ne.symm hab), if_true, Bool.false_eq_true, if_false] at hcurve
    simp only [moveBal, if_neg (Ne.symm hNT), if_true] at hcurve
    have hcurve' : Formula.calculateCrossConnectorReturn ((w.tok a).bal T) ((w.conv T).connectors a).weight ((w.tok b).bal T)
        ((w.conv T).connectors b).weight v = .ok c := by
      rw [← hcurve]; congr 1; ring
    intro hp
    refine ⟨by simpa [World.pay, World.setTok, upd, Ne.symm hat, Ne.symm hbt] using hp, ?_⟩
    rw [hwt a hal', hwt b hbl] at hcurve'
    have := Curve.Trade.cross (weight := wt) (w.pool T t l) ⟨a, hal'⟩ ⟨b, hbl⟩ v c r (by simpa using hab) (le_of_lt hv) hcurve' hr hrc
    convert this using 1
    refine pool_ext ?_ ?_
    · simp [World.pool, World.pay, World.setTok, upd, Ne.symm hat, Ne.symm hbt]
    · rintro ⟨y, hy⟩
      by_cases hyb : y = b
      · subst hyb
        simp [World.pool, World.pay, World.setTok, upd, moveBal, Ne.symm hNT, Ne.symm hab]
      · by_cases hya : y = a
        · subst hya
          simp [World.pool, World.pay, World.setTok, upd, moveBal, Ne.symm hNT, hyb, Function.update]
        · simp [World.pool, World.pay, World.setTok, upd, moveBal, Ne.symm hNT, hyb, hya, Function.update]

end
end Verif

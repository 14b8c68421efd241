import Verif.Proofs.PoolTrade
/-!
Calls of the contracts around a pool.
-/
set_option linter.unusedSimpArgs false
namespace Verif

open Relation

section
variable {T t R N : Addr} {l : List Addr} {wt : {a // a ∈ l} → Int} {orc : Oracle} {n : Nat} {w w' : World} {s a : Addr} {cv : Int} {c : Call} {x : Val}

/-- Calls that may disturb the pool. -/
def Risky (T t R : Addr) (l : List Addr) (s d : Addr) (c : Call) : Prop :=
  (d = T ∧ ((∃ a wt b vb, c = .updateConnector a wt b vb) ∨ c = .restoreRegistry)) ∨
  (d = R ∧ ((∃ n a, c = .registerAddress n a) ∨ ∃ n, c = .unregisterAddress n)) ∨
  (d = t ∧ s ≠ T ∧ c = .acceptOwnerShip) ∨
  (d ∈ l ∧ s ≠ T ∧ ∃ v, c = .destroy T v)

theorem safe_risky (h : exec orc (n + 1) s a cv c w = .ok (x, w')) (hr : Risky T t R l s a c) : Safe T t R N l wt w w' := by
  refine ⟨(exec_rel orc _ _ _ _ _ _ _ _ h).1, fun hc => .inl ⟨_, called_self h, ?_⟩⟩
  rcases hr with ⟨rfl, hr⟩ | ⟨rfl, hr⟩ | ⟨rfl, hsT, rfl⟩ | ⟨hl, hsT, v, rfl⟩
  · rcases hr with ⟨b, w1, b1, vb, rfl⟩ | rfl
    · rw [ok_exec_updateConnector hc.tr.wired.conv] at h
      exact .inl ⟨rfl, h.2.2.2.1, _, _, _, _, rfl⟩
    · rw [ok_exec_restoreRegistry hc.tr.wired.conv] at h
      exact .inr (.inl ⟨rfl, h.2.2.2.1.symm, rfl⟩)
  · refine .inr (.inr (.inl ⟨rfl, ?_, hr⟩))
    rcases hr with ⟨nm, b, rfl⟩ | ⟨nm, rfl⟩
    · rw [ok_exec_registerAddress hc.tr.wired.reg] at h
      exact h.2.2.2.1
    · rw [ok_exec_unregisterAddress hc.tr.wired.reg] at h
      exact h.2.2.2.1
  · exact .inr (.inr (.inr (.inl ⟨rfl, hsT, rfl⟩)))
  · refine .inr (.inr (.inr (.inr ⟨hl, ?_, v, rfl⟩)))
    have hk := hc.tr.honest a hl
    have hkf := exec_flexOnly hk h (.inr ⟨_, _, rfl⟩)
    have hv := exec_tok_value hk h (fun _ => ⟨by rintro ⟨⟩, by rintro ⟨⟩⟩)
    subst hv
    rw [ok_exec_destroy hkf] at h
    exact h.2.2.2.1.resolve_left hsT

/-- Running a contract of the pool: every step of it is safe. -/
theorem safe_body (ih : AllCalls orc n (SafeCall T t R N l wt)) (h : exec orc (n + 1) s a cv c w = .ok (x, w'))
    (hl : ∀ u u', u.kind = w.kind → LocalStep (mkFrame w s a cv c) u u' → Safe T t R N l wt u u')
    (hi : ∀ d v c' u, u.kind = w.kind → OutCall (mkFrame w s a cv c) u d v c' → ¬ Inner T t l a d c') :
    Safe T t R N l wt w w' := by
  obtain ⟨hv, hb, hB⟩ := exec_body ih h
  refine (safe_enter (d := a) (c := c) hv hb).trans ?_
  have : Safe T t R N l wt (enterW w s a cv c) w' ∧ w'.kind = w.kind := by
    refine Body.elim (R := fun u u' => u.kind = w.kind → Safe T t R N l wt u u' ∧ u'.kind = w.kind) ?_ ?_ ?_ ?_ hB rfl
    · intro u hu; exact ⟨.refl u, hu⟩
    · intro u1 u2 u3 h1 h2 hu
      obtain ⟨h3, h4⟩ := h1 hu
      obtain ⟨h5, h6⟩ := h2 h4
      exact ⟨h3.trans h5, h6⟩
    · intro u u' hs hu
      exact ⟨hl u u' hu hs, by rw [hs.stable.kind, hu]⟩
    · rintro d v c' u u' ho ⟨hs, hq⟩ hu
      exact ⟨hq.resolve_left (hi d v c' u hu ho), by rw [hs.kind, hu]⟩
  exact this.1

theorem Cfg.congr {w w' : World} (h : Cfg T t R N l wt w) (hk : w'.kind = w.kind) (ho : (w'.own t).owner = (w.own t).owner)
    (hr : w'.reg R = w.reg R) (hcoin : w'.coin = w.coin) (h1 : (w'.conv T).token = (w.conv T).token)
    (h2 : (w'.conv T).registry = (w.conv T).registry) (h3 : (w'.conv T).connectorTokens = (w.conv T).connectorTokens)
    (h4 : ∀ a, ((w'.conv T).connectors a).isVirtual = ((w.conv T).connectors a).isVirtual)
    (h5 : ∀ a, ((w'.conv T).connectors a).weight = ((w.conv T).connectors a).weight)
    (h6 : ConvInv T (w'.conv T)) : Cfg T t R N l wt w' := by
  obtain ⟨⟨⟨c1, c2, c3, c4, c5, c6, c7, c8, c9⟩, h2', h3', h4', h5', h6'⟩, i, ws, nz⟩ := h
  refine ⟨⟨⟨by rw [hk]; exact c1, by rw [h1]; exact c2, by rw [hk]; exact c3, by rw [h2]; exact c4, by rw [hk]; exact c5, by rw [hr]; exact c6,
    by rw [hk]; exact c7, c8, by rw [hcoin]; exact c9⟩, by rw [ho]; exact h2', by rw [hr]; exact h3', by rw [h3]; exact h4', fun a ha => by rw [hk]; exact h5' a ha,
    fun a ha => by rw [h4]; exact h6' a ha⟩, h6, ?_, nz⟩
  rw [← ws]; unfold World.weights; funext a; exact h5 a.1

/-- Local steps of the converter. -/
theorem safe_convStep {f : Frame} {u u' : World} (hc0 : Cfg T t R N l wt w) (hk : u.kind = w.kind) (hto : f.to = T) (h : LocalStep f u u')
    (hr : ¬ Risky T t R l f.sender T f.call) (h1 : ∀ a v b, f.call ≠ .addConnector a v b) (h2 : f.call ≠ .updateRegistry)
    (h3 : ∀ g v d, f.call ≠ .tokenFallback g v d) (h4 : ∀ i, f.call ≠ .onInstall i) : Safe T t R N l wt u u' := by
  subst hto
  have hkc : u.kind f.to = .conv := by rw [hk]; exact hc0.tr.wired.conv
  have ht : t ≠ f.to := (hc0.neT hc0.flexTok).1
  have hR : R ≠ f.to := by rintro h; have := hc0.tr.wired.reg; rw [h, hc0.tr.wired.conv] at this; cases this
  have hls : ∀ a ∈ l, a ≠ f.to := fun a ha => (hc0.neT (hc0.tr.honest a ha)).1
  refine .same h.stable (by rw [(h.sameAt (Ne.symm ht)).tok]) (fun a ha => by rw [(h.sameAt (Ne.symm (hls a ha))).tok]) fun hc => ?_
  have ho : (u'.own t).owner = (u.own t).owner := by rw [(h.sameAt (Ne.symm ht)).own]
  have hreg := (h.sameAt (Ne.symm hR)).reg
  have hcoin : u'.coin = u.coin := h.coin
  have base := fun hcv : u'.conv f.to = u.conv f.to => Cfg.same (wt := wt) (w := u) h.stable.kind hcv ho hreg (by rw [hcoin]; exact hc.tr.wired.coin) hc
  cases h with
  | log => exact base rfl
  | store n h => rw [hkc] at h; cases h
  | transfer _ _ _ h => rw [hkc] at h; simp [Kind.isToken] at h
  | issue _ _ h => rw [hkc] at h; cases h
  | destroy _ _ h => rw [hkc] at h; cases h
  | deposit h => rw [hkc] at h; cases h
  | withdraw _ _ h => rw [hkc] at h; cases h
  | disableTransfer _ h => rw [hkc] at h; cases h
  | nominate => exact base rfl
  | accept => exact base rfl
  | register _ _ h => rw [hkc] at h; cases h
  | unregister _ h => rw [hkc] at h; cases h
  | registerIcx _ _ h => rw [hkc] at h; cases h
  | nominateManager m =>
    have e : (u.setConv f.to { u.conv f.to with newManager := some m }).conv f.to = { u.conv f.to with newManager := some m } := by simp
    refine hc.congr rfl rfl rfl rfl ?_ ?_ ?_ ?_ ?_ ?_ <;> rw [e] <;> try intros; rfl
    exact { hc.inv with }
  | acceptManager =>
    have e : (u.setConv f.to { u.conv f.to with manager := some f.sender, newManager := some ZERO }).conv f.to = { u.conv f.to with manager := some f.sender, newManager := some ZERO } := by simp
    refine hc.congr rfl rfl rfl rfl ?_ ?_ ?_ ?_ ?_ ?_ <;> rw [e] <;> try intros; rfl
    exact { hc.inv with }
  | conv c' _ hst =>
    have hinv := hc.inv.step hst
    have e : (u.setConv f.to c').conv f.to = c' := by simp
    have key : c'.token = (u.conv f.to).token → c'.registry = (u.conv f.to).registry → c'.connectorTokens = (u.conv f.to).connectorTokens →
        (∀ a, (c'.connectors a).isVirtual = ((u.conv f.to).connectors a).isVirtual) →
        (∀ a, (c'.connectors a).weight = ((u.conv f.to).connectors a).weight) → Cfg f.to t R N l wt (u.setConv f.to c') := by
      intro k1 k2 k3 k4 k5
      refine hc.congr rfl rfl rfl rfl ?_ ?_ ?_ ?_ ?_ ?_ <;> rw [e] <;> assumption
    cases hst with
    | addConnector _ _ _ hh =>
      rcases hh with ⟨hh, _⟩ | ⟨_, _, _, hh, _⟩
      · exact absurd hh (h1 _ _ _)
      · exact absurd hh (h4 _)
    | updateConnector _ _ _ _ hh => exact absurd (.inl ⟨rfl, .inl ⟨_, _, _, _, hh⟩⟩) hr
    | restoreRegistry hh => exact absurd (.inl ⟨rfl, .inr hh⟩) hr
    | updateRegistry _ hh => exact absurd hh h2
    | addVirtual _ _ _ hh => exact absurd hh (h3 _ _ _)
    | subVirtual _ _ _ _ _ _ hh => exact absurd hh (h3 _ _ _)
    | setPurchase b q =>
      refine key rfl rfl rfl ?_ ?_ <;>
      · intro a; simp only [upd]; split
        · next e => rw [e]
        · rfl
    | _ => exact key rfl rfl rfl (fun _ => rfl) (fun _ => rfl)

/-- Calls of the converter. -/
theorem safe_conv (ih : AllCalls orc n (SafeCall T t R N l wt)) (h : exec orc (n + 1) s T cv c w = .ok (x, w')) :
    SafeCall T t R N l wt s T cv c w w' := by
  by_cases hc : Cfg T t R N l wt w
  swap
  · exact .inr ⟨(exec_rel orc _ _ _ _ _ _ _ _ h).1, fun h => absurd h hc⟩
  by_cases hin : Inner T t l s T c
  · exact .inl hin
  right
  by_cases hr : Risky T t R l s T c
  · exact safe_risky h hr
  have hw := hc.tr.wired
  have hnA : ∀ a v b, c ≠ .addConnector a v b := by
    rintro b v b' rfl
    exact C22_inactive_only hw.conv hw.token (by rw [hw.flex]; simp [Kind.isOwned]) hc.tr.active _ _ _ _ h
  have hnF : ∀ g v d, c ≠ .tokenFallback g v d := by
    rintro g v d rfl
    obtain ⟨_, hh | ⟨_, _, _, b, m, _, _, htr⟩⟩ := C29_open_only hw h
    · exact hh.2.2 hc.act
    · apply hin
      refine .inr (.inr ⟨rfl, ?_, _, _, _, rfl⟩)
      obtain ⟨_, htr⟩ := htr
      rw [hw.token] at htr
      by_cases hb : t = b
      · rw [if_pos (by rw [hb])] at htr; exact .inl (hc.isSet.2 htr.1)
      · rw [if_neg (by simpa using hb)] at htr
        by_cases h2 : t = s
        · exact .inr h2.symm
        · rw [if_neg (by simpa using h2)] at htr
          exact .inl (hc.isSet.2 htr.1)
  have hnR : c ≠ .updateRegistry := by
    rintro rfl
    rw [ok_exec_updateRegistry hw.conv] at h
    obtain ⟨_, _, _, _, R', new, w1, h1, h2, _, h3, _⟩ := h
    rw [hw.registry] at h1; injection h1 with h1; subst h1
    cases n with
    | zero => exact exec_zero h2
    | succ n =>
      rw [ok_exec_getAddress (by rw [note_kind]; exact hw.reg)] at h2
      obtain ⟨_, _, h4, rfl⟩ := h2
      rw [note_reg, hc.tr.listed] at h4
      cases h4
      exact h3 hw.registry
  have hnI : ∀ i, c ≠ .onInstall i := by
    rintro i rfl
    exact exec_owned_noInstall (by rw [hw.conv]; simp [Kind.isOwned]) h
  have hnW : ∀ b dst v, c = .withdrawTokens b dst v → b ∉ l := by
    rintro b dst v rfl hb
    exact C34_reserves_locked hw hc.act (hc.isSet.1 hb) _ _ _ _ h
  refine safe_body ih h (fun u u' hu hs => safe_convStep hc hu rfl hs hr hnA hnR hnF hnI) ?_
  intro d v c' u hu ho hI
  have hkc : u.kind T = .conv := by rw [hu]; exact hw.conv
  have hTl : T ∉ l := fun hm => by have := hc.tr.honest T hm; rw [hw.conv] at this; simp [Kind.isToken] at this
  have hTt : T ≠ t := (hc.neT hc.flexTok).1.symm
  cases ho with
  | foreign _ _ _ h => rw [mkFrame_to, hkc] at h; cases h
  | fallback _ _ _ h => rw [mkFrame_to, hkc] at h; simp [Kind.isToken] at h
  | withdrawTokens tok dst _ _ hcl =>
    rcases hI with ⟨_, hd, _⟩ | ⟨_, _, hd⟩ | ⟨_, hd, _⟩
    · exact hnW _ _ _ hcl hd
    · rcases hd with ⟨_, _, hd⟩ | ⟨_, _, hd⟩ <;> cases hd
    · rcases hd with hd | hd
      · exact hTl hd
      · exact hTt hd
  | icxOut _ _ h => rw [mkFrame_to, hkc] at h; cases h
  | convView _ _ _ hcl =>
    rcases hI with ⟨_, _, hd⟩ | ⟨_, _, hd⟩ | ⟨_, hd, _⟩
    · rcases hcl with rfl | rfl | rfl | ⟨_, rfl⟩ <;> rcases hd with ⟨_, _, _, hd⟩ | ⟨_, _, hd⟩ | ⟨_, hd⟩ | ⟨_, _, hd⟩ <;> cases hd
    · rcases hcl with rfl | rfl | rfl | ⟨_, rfl⟩ <;> rcases hd with ⟨_, _, hd⟩ | ⟨_, _, hd⟩ <;> cases hd
    · rcases hd with hd | hd
      · exact hTl hd
      · exact hTt hd
  | convToken _ _ _ _ _ hcl =>
    rcases hI with ⟨_, _, hd⟩ | ⟨_, _, hd⟩ | ⟨_, hd, _⟩
    · rcases hcl with ⟨_, _, rfl⟩ | ⟨_, rfl⟩ | ⟨_, _, rfl⟩ | ⟨_, _, _, _, rfl⟩ <;> rcases hd with ⟨_, _, _, hd⟩ | ⟨_, _, hd⟩ | ⟨_, hd⟩ | ⟨_, _, hd⟩ <;> cases hd
    · rcases hcl with ⟨_, _, rfl⟩ | ⟨_, rfl⟩ | ⟨_, _, rfl⟩ | ⟨_, _, _, _, rfl⟩ <;> rcases hd with ⟨_, _, hd⟩ | ⟨_, _, hd⟩ <;> cases hd
    · rcases hd with hd | hd
      · exact hTl hd
      · exact hTt hd
  | convIssue _ _ _ _ _ _ _ _ hcl => exact hnF _ _ _ hcl
  | convDestroy _ _ _ _ _ hcl => exact hnF _ _ _ hcl
  | convPay _ _ _ _ _ _ _ hcl => exact hnF _ _ _ hcl
  | net _ _ _ h => rw [mkFrame_to, hkc] at h; cases h

/-- Calls of the registry. -/
theorem safe_reg (ih : AllCalls orc n (SafeCall T t R N l wt)) (h : exec orc (n + 1) s R cv c w = .ok (x, w')) :
    Safe T t R N l wt w w' := by
  by_cases hc : Cfg T t R N l wt w
  swap
  · exact ⟨(exec_rel orc _ _ _ _ _ _ _ _ h).1, fun h => absurd h hc⟩
  by_cases hr : Risky T t R l s R c
  · exact safe_risky h hr
  have hw := hc.tr.wired
  have hRT : R ≠ T := by rintro h; have := hw.reg; rw [h, hw.conv] at this; cases this
  have hRt : R ≠ t := (hc.neT hc.flexTok).2.2.symm
  have hRl : R ∉ l := fun hm => (hc.neT (hc.tr.honest R hm)).2.2 rfl
  refine safe_body ih h ?_ ?_
  · intro u u' hu hs
    have hkr : u.kind R = .reg := by rw [hu]; exact hw.reg
    refine .same hs.stable (by rw [(hs.sameAt hRt).tok]) (fun a ha => by rw [(hs.sameAt (T := a) (by rintro rfl; exact hRl ha)).tok]) fun hcu => ?_
    refine Cfg.same (w := u) hs.stable.kind (hs.sameAt hRT).conv (by rw [(hs.sameAt hRt).own]) ?_ (by rw [hs.coin]; exact hcu.tr.wired.coin) hcu
    cases hs with
    | register _ _ _ hh => exact absurd (.inr (.inl ⟨rfl, .inl ⟨_, _, hh.1⟩⟩)) hr
    | unregister _ _ hh => exact absurd (.inr (.inl ⟨rfl, .inr ⟨_, hh⟩⟩)) hr
    | _ => rfl
  · intro d v c' u hu ho hI
    rcases hI with ⟨hI, _⟩ | ⟨hI, _⟩ | ⟨_, hI | hI, _⟩
    · exact hRT hI
    · exact hRT hI
    · exact hRl hI
    · exact hRt hI

end
end Verif

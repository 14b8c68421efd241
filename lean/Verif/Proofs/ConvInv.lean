import Verif.Proofs.Machines
/-!
Invariants of converters, registries, ownership.
-/
set_option linter.unusedSimpArgs false
namespace Verif

open Relation

/-- Sum of weights over a list of connectors. -/
theorem sum_congr_list {l : List Addr} {g h : Addr → Int} (e : ∀ a ∈ l, g a = h a) : (l.map g).sum = (l.map h).sum := by
  rw [List.map_congr_left e]

theorem sum_upd_list {l : List Addr} (hn : l.Nodup) {t : Addr} (ht : t ∈ l) (g : Addr → Int) (n : Int) :
    (l.map fun a => if a = t then n else g a).sum = (l.map g).sum - g t + n := by
  induction l with
  | nil => cases ht
  | cons a l ih =>
    obtain ⟨h1, h2⟩ := List.nodup_cons.mp hn
    simp only [List.map_cons, List.sum_cons]
    rcases List.mem_cons.mp ht with rfl | ht
    · rw [if_pos rfl, sum_congr_list (h := g)]
      · omega
      · intro a ha
        rw [if_neg]
        rintro rfl
        exact h1 ha
    · rw [if_neg (by rintro rfl; exact h1 ht), ih h2 ht]
      omega

/-- Invariant of a converter's storage. -/
structure ConvInv (T : Addr) (c : ConvSt) : Prop where
  nodup : c.connectorTokens.Nodup
  mem : ∀ a, a ∈ c.connectorTokens ↔ (c.connectors a).isSet = true
  weight : ∀ a, (c.connectors a).isSet = true → 0 < (c.connectors a).weight ∧ (c.connectors a).weight ≤ 1000000
  total : c.totalWeight = (c.connectorTokens.map fun a => (c.connectors a).weight).sum
  bound : c.totalWeight ≤ 1000000
  zero : (c.connectors ZERO).isSet = false
  self : (c.connectors T).isSet = false
  token : ∀ t, c.token = some t → (c.connectors t).isSet = false
  fee : 0 ≤ c.fee ∧ c.fee ≤ c.maxFee ∧ c.maxFee ≤ 1000000
  blank : ∀ a, (c.connectors a).isSet = false → c.connectors a = {}

theorem ConvInv.default (T : Addr) : ConvInv T {} where
  nodup := List.nodup_nil
  mem a := by simp
  weight a h := by cases h
  total := rfl
  bound := by decide
  zero := rfl
  self := rfl
  token t h := by cases h
  fee := by decide
  blank a h := rfl

theorem ConvInv.step {f c c'} (hi : ConvInv f.to c) (h : ConvStep f c c') : ConvInv f.to c' := by
  cases h with
  | addConnector t wt b _ hz hs h1 h2 htk hset htot =>
    have hm : t ∉ c.connectorTokens := by rw [hi.mem]; simp [hset]
    refine { hi with nodup := ?_, mem := ?_, weight := ?_, total := ?_, bound := htot, zero := ?_, self := ?_, token := ?_, blank := ?_ }
    · simp only
      rw [List.nodup_append]
      refine ⟨hi.nodup, List.nodup_singleton _, ?_⟩
      rintro a ha b hb rfl
      rw [List.mem_singleton] at hb
      exact hm (hb ▸ ha)
    · intro a
      simp only [List.mem_append, List.mem_singleton, hi.mem, upd_apply]
      split <;> simp_all
    · intro a
      simp only [upd_apply]
      split
      · intro _; exact ⟨h1, h2⟩
      · exact hi.weight a
    · simp only [List.map_append, List.map_cons, List.map_nil, List.sum_append, List.sum_cons, List.sum_nil, hi.total, upd_apply,
        if_true]
      have e : (c.connectorTokens.map fun a => (if a = t then
          { virtualBalance := 0, weight := wt, isVirtual := b, isPurchaseEnabled := true, isSet := true }
          else c.connectors a : Connector).weight).sum = (c.connectorTokens.map fun a => (c.connectors a).weight).sum := by
        apply sum_congr_list
        intro a ha
        rw [if_neg]
        rintro rfl
        exact hm ha
      rw [e]; omega
    · simp only [upd_apply, if_neg (Ne.symm hz)]; exact hi.zero
    · simp only [upd_apply, if_neg (Ne.symm hs)]; exact hi.self
    · intro a ha
      simp only [upd_apply]
      rw [if_neg]
      · exact hi.token a ha
      · rintro rfl; exact htk ha
    · intro a
      simp only [upd_apply]
      split
      · intro h; cases h
      · exact hi.blank a
  | updateConnector t wt b vb _ _ hset h1 h2 htot =>
    refine { hi with mem := ?_, weight := ?_, total := ?_, bound := htot, zero := ?_, self := ?_, token := ?_, blank := ?_ }
    · intro a
      simp only [hi.mem, upd_apply]
      split <;> simp_all
    · intro a
      simp only [upd_apply]
      split
      · intro _; exact ⟨h1, h2⟩
      · exact hi.weight a
    · simp only [upd_apply]
      rw [show (fun a => (if a = t then { c.connectors t with weight := wt, isVirtual := b, virtualBalance := vb }
        else c.connectors a).weight) = fun a => if a = t then wt else (c.connectors a).weight by
          funext a; split <;> rfl]
      rw [sum_upd_list hi.nodup ((hi.mem t).mpr hset), ← hi.total]
    · simp only [upd_apply]; split
      · subst_vars; rw [hi.zero] at hset; cases hset
      · exact hi.zero
    · simp only [upd_apply]; split
      · rename_i e; rw [← e, hi.self] at hset; cases hset
      · exact hi.self
    · intro a ha
      simp only [upd_apply]; split
      · subst_vars; rw [hi.token _ ha] at hset; cases hset
      · exact hi.token a ha
    · intro a
      simp only [upd_apply]
      split
      · intro h; simp only at h; rw [hset] at h; cases h
      · exact hi.blank a
  | setPurchase t b _ _ hset =>
    refine { hi with mem := ?_, weight := ?_, total := ?_, zero := ?_, self := ?_, token := ?_, blank := ?_ }
    · intro a; simp only [hi.mem, upd_apply]; split <;> simp_all
    · intro a; simp only [upd_apply]; split
      · subst_vars; exact hi.weight _
      · exact hi.weight a
    · simp only [hi.total]
      apply sum_congr_list; intro a _; simp only [upd_apply]; split <;> simp_all
    · simp only [upd_apply]; split
      · rename_i e; rw [← e, hi.zero] at hset; cases hset
      · exact hi.zero
    · simp only [upd_apply]; split
      · rename_i e; rw [← e, hi.self] at hset; cases hset
      · exact hi.self
    · intro a ha
      simp only [upd_apply]; split
      · subst_vars; exact hi.token _ ha
      · exact hi.token a ha
    · intro a
      simp only [upd_apply]
      split
      · intro h; simp only at h; rw [hset] at h; cases h
      · exact hi.blank a
  | addVirtual from_ v d _ _ hv =>
    have hset : (c.connectors f.sender).isSet = true := by
      by_contra hne
      have := hi.blank f.sender (by simpa using hne)
      rw [this] at hv; cases hv
    refine { hi with mem := ?_, weight := ?_, total := ?_, zero := ?_, self := ?_, token := ?_, blank := ?_ }
    · intro a; simp only [hi.mem, upd_apply]; split <;> simp_all
    · intro a; simp only [upd_apply]; split
      · subst_vars; exact hi.weight _
      · exact hi.weight a
    · simp only [hi.total]
      apply sum_congr_list; intro a _; simp only [upd_apply]; split <;> simp_all
    · simp only [upd_apply]; split
      · rename_i e; rw [← e, hi.zero] at hset; cases hset
      · exact hi.zero
    · simp only [upd_apply]; split
      · rename_i e; rw [← e, hi.self] at hset; cases hset
      · exact hi.self
    · intro a ha
      simp only [upd_apply]; split
      · rename_i e; rw [← e, hi.token _ ha] at hset; cases hset
      · exact hi.token a ha
    · intro a
      simp only [upd_apply]
      split
      · intro h; simp only at h; rw [hset] at h; cases h
      · exact hi.blank a
  | subVirtual from_ v d t m r _ _ _ _ _ hv =>
    have hset : (c.connectors t).isSet = true := by
      by_contra hne
      have := hi.blank t (by simpa using hne)
      rw [this] at hv; cases hv
    refine { hi with mem := ?_, weight := ?_, total := ?_, zero := ?_, self := ?_, token := ?_, blank := ?_ }
    · intro a; simp only [hi.mem, upd_apply]; split <;> simp_all
    · intro a; simp only [upd_apply]; split
      · subst_vars; exact hi.weight _
      · exact hi.weight a
    · simp only [hi.total]
      apply sum_congr_list; intro a _; simp only [upd_apply]; split <;> simp_all
    · simp only [upd_apply]; split
      · rename_i e; rw [← e, hi.zero] at hset; cases hset
      · exact hi.zero
    · simp only [upd_apply]; split
      · rename_i e; rw [← e, hi.self] at hset; cases hset
      · exact hi.self
    · intro a ha
      simp only [upd_apply]; split
      · rename_i e; rw [← e, hi.token _ ha] at hset; cases hset
      · exact hi.token a ha
    · intro a
      simp only [upd_apply]
      split
      · intro h; simp only at h; rw [hset] at h; cases h
      · exact hi.blank a
  | setFee n _ _ h1 h2 => exact { hi with fee := ⟨h1, h2, hi.fee.2.2⟩ }
  | _ => exact { hi with }

theorem Reachable.convInv {w} (h : Reachable w) (T : Addr) : ConvInv T (w.conv T) := by
  refine (Reachable.inv (I := fun w => Inv w ∧ ∀ T, ConvInv T (w.conv T)) ?_ ?_ h).2 T
  · intro g hg
    exact ⟨Inv.genesis hg, fun T => by rw [hg.conv]; exact .default T⟩
  · rintro w w' ⟨hi, hc⟩ hs
    refine ⟨hi.step hs, fun T => ?_⟩
    cases hs with
    | enter => exact hc T
    | loc f w' _ hl =>
      by_cases e : f.to = T
      · subst e
        cases hl with
        | conv c' _ hcs => rw [setConv_conv_same]; exact (hc f.to).step hcs
        | nominateManager => rw [setConv_conv_same]; exact { hc f.to with }
        | acceptManager => rw [setConv_conv_same]; exact { hc f.to with }
        | _ => exact hc f.to
      · rw [(hl.sameAt e).conv]; exact hc T
    | deploy s a i w' _ _ _ hn _ hI =>
      by_cases e : a = T
      · subst e
        have h0 : w.conv a = {} := hi.conv a (by simp [hn])
        cases hI with
        | conv t r mf ct cw _ _ h1 h2 =>
          rw [setConv_conv_same]
          have h0' : (enterW (w.setKind a (Install.conv (some t) (some r) mf ct cw).kind) s a 0
            (.onInstall (.conv (some t) (some r) mf ct cw))).conv a = {} := h0
          rw [h0']
          exact { ConvInv.default a with token := fun _ _ => rfl, fee := ⟨Int.le_refl 0, h1, h2⟩ }
        | _ => exact hc a
      · rw [(installed_sameAt hI e).conv]; exact hc T

/-- Registered addresses are contracts under known names. -/
theorem Reachable.regInv {w} (h : Reachable w) (T : Addr) (n : String) (a : Addr) (hr : w.reg T n = some a) :
    a ≠ ZERO ∧ a.isContract = true ∧ (n = "ScoreRegistry" ∨ n = "Network") := by
  refine (Reachable.inv (I := fun w => ∀ T n a, w.reg T n = some a → a ≠ ZERO ∧ a.isContract = true ∧ (n = "ScoreRegistry" ∨ n = "Network")) ?_ ?_ h) T n a hr
  · intro g hg T n a hr
    rw [hg.reg] at hr; cases hr
  · intro w w' hc hs T n a hr
    cases hs with
    | enter => exact hc T n a hr
    | loc f w' _ hl =>
      cases hl with
      | register m b _ _ h1 h2 h3 =>
        rw [setReg_reg] at hr
        split at hr
        · rw [upd_apply] at hr
          split at hr
          · cases hr; subst_vars; exact ⟨h1, h2, mem_keys.mp h3⟩
          · exact hc _ _ _ hr
        · exact hc _ _ _ hr
      | unregister m _ _ _ =>
        rw [setReg_reg] at hr
        split at hr
        · rw [upd_apply] at hr
          split at hr
          · cases hr
          · exact hc _ _ _ hr
        · exact hc _ _ _ hr
      | _ => exact hc T n a hr
    | deploy s b i w' _ hb hz _ _ hI =>
      cases hI with
      | reg =>
        rw [addLog_reg, setReg_reg] at hr
        split at hr
        · rw [upd_apply] at hr
          split at hr
          · cases hr; subst_vars; exact ⟨hz, hb, .inl rfl⟩
          · exact hc _ _ _ hr
        · exact hc _ _ _ hr
      | _ => exact hc T n a hr

/-- What is known about callers and owners that are contracts. -/
structure OwnInv (w : World) : Prop where
  exist : ∀ f ∈ w.frames, f.sender.isContract = true → w.kind f.sender ≠ .none
  accept : ∀ f ∈ w.frames, f.call = .acceptOwnerShip → w.kind f.sender = .conv → (w.conv f.sender).token = some f.to
  owner : ∀ T o, (w.own T).owner = some o → (o.isContract = true → w.kind o ≠ .none) ∧
    (w.kind o = .conv → (w.conv o).token = some T)

theorem Reachable.ownInv {w} (h : Reachable w) : OwnInv w := by
  refine (Reachable.inv (I := fun w => Inv w ∧ OwnInv w) ?_ ?_ h).2
  · intro g hg
    refine ⟨Inv.genesis hg, ⟨?_, ?_, ?_⟩⟩
    · intro f hf; rw [hg.frames] at hf; cases hf
    · intro f hf; rw [hg.frames] at hf; cases hf
    · intro T o ho; rw [hg.own] at ho; cases ho
  · rintro w w' ⟨hi, ho⟩ hs
    refine ⟨hi.step hs, ?_⟩
    cases hs with
    | enter s t v c _ _ hc =>
      refine ⟨?_, ?_, ho.owner⟩
      · intro f hf
        rw [enterW_frames] at hf
        rcases List.mem_cons.mp hf with rfl | hf
        · intro hcon
          rcases hc with hc | ⟨f, _, hf, ho'⟩
          · rw [mkFrame_sender, hc] at hcon; cases hcon
          · rw [mkFrame_sender, ← hf]; exact ho'.kind_ne
        · exact ho.exist f hf
      · intro f hf
        rw [enterW_frames] at hf
        rcases List.mem_cons.mp hf with rfl | hf
        · intro hcall hk
          rw [mkFrame_call] at hcall
          subst hcall
          rw [mkFrame_sender, enterW_kind] at hk
          rcases hc with hc | ⟨f, _, hf, ho'⟩
          · have := hi.contract s (by rw [hk]; simp); rw [hc] at this; cases this
          · rw [mkFrame_sender, ← hf, mkFrame_to, enterW_conv]
            rw [← hf] at hk
            cases ho' with
            | convToken _ _ _ ht => exact ht
            | foreign _ _ _ hk' => rw [hk] at hk'; cases hk'
            | net _ _ _ hk' => rw [hk] at hk'; cases hk'
            | convView _ _ _ h => simp at h
        · exact ho.accept f hf
    | loc f w' hf hl =>
      have hst := hl.stable
      have key : ∀ T o, (w.own T).owner = some o → (o.isContract = true → w'.kind o ≠ .none) ∧
          (w'.kind o = .conv → (w'.conv o).token = some T) := by
        intro T o h
        rw [hst.kind, hst.token]
        exact ho.owner T o h
      refine ⟨?_, ?_, ?_⟩
      · rw [hl.frames, hst.kind]; exact ho.exist
      · rw [hl.frames, hst.kind]; intro f hf h1 h2; rw [hst.token]; exact ho.accept f hf h1 h2
      · intro T o hO
        cases hl with
        | nominate a =>
          rw [setOwn_own] at hO
          split at hO
          · subst_vars; exact key _ _ hO
          · exact key _ _ hO
        | accept hk hh hc hn =>
          rw [setOwn_own] at hO
          split at hO
          · cases hO
            subst_vars
            exact ⟨ho.exist f hf.mem, ho.accept f hf.mem hc⟩
          · exact key _ _ hO
        | _ => exact key _ _ hO
    | deploy s a i w' hs ha hz hn _ hI =>
      have hkk : ∀ b, w'.kind b = if b = a then i.kind else w.kind b := by intro b; rw [hI.kind]; rfl
      have hne : i.kind ≠ .none := by cases i <;> simp [Install.kind]
      have hks : w.kind s = .none := by
        by_contra hne; have := hi.contract s hne; rw [hs] at this; cases this
      have hconv : ∀ b, b ≠ a → w'.conv b = w.conv b := fun b hb => (installed_sameAt hI (Ne.symm hb)).conv
      have hsa : s ≠ a := by rintro rfl; rw [hs] at ha; cases ha
      refine ⟨?_, ?_, ?_⟩
      · intro f hf
        rw [hI.frames, enterW_frames] at hf
        rcases List.mem_cons.mp hf with rfl | hf
        · intro hcon; rw [mkFrame_sender, hs] at hcon; cases hcon
        · intro hcon
          rw [hkk]; split
          · exact hne
          · exact ho.exist f hf hcon
      · intro f hf
        rw [hI.frames, enterW_frames] at hf
        rcases List.mem_cons.mp hf with rfl | hf
        · intro hcall; cases hcall
        · intro hcall hk
          have hfa : f.sender ≠ a := by
            intro e
            exact ho.exist f hf (by rw [e]; exact ha) (by rw [e]; exact hn)
          rw [hkk, if_neg hfa] at hk
          rw [hconv _ hfa]
          exact ho.accept f hf hcall hk
      · intro T o hO
        by_cases e : T = a
        · subst e
          have hos : o = s := by
            have h0 : w.own T = {} := hi.own T (by simp [hn, Kind.isOwned])
            cases hI <;> (try simp at hO)
            all_goals first
              | exact hO.symm
              | (have : (w.own T).owner = some o := hO; rw [h0] at this; cases this)
          subst hos
          refine ⟨fun h => (by rw [hs] at h; cases h), ?_⟩
          rw [hkk, if_neg hsa, hks]; intro h; cases h
        · rw [(installed_sameAt hI (Ne.symm e)).own] at hO
          obtain ⟨h1, h2⟩ := ho.owner T o hO
          have hoa : o ≠ a := by
            rintro rfl; exact h1 ha hn
          rw [hkk, if_neg hoa, hconv _ hoa]
          exact ⟨h1, h2⟩

end Verif

import Verif.Proofs.LedgerTx
/-!
Storage that is a function of the sequence of calls.
-/
namespace Verif

open Relation

variable {σ : Type}

theorem replay_append (δ : Frame → σ → σ) (a b : List Frame) (s : σ) : replay δ (a ++ b) s = replay δ a (replay δ b s) := by
  simp [replay, List.foldr_append]

theorem eachCall_nil (δ : Frame → σ → σ) (L) (s : σ) : EachCall δ L [] s := by
  intro later f earlier h
  cases later <;> cases h

theorem eachCall_cons {δ : Frame → σ → σ} {L : Frame → σ → Prop} {l s f} (h : EachCall δ L l s) (hf : L f (replay δ l s)) :
    EachCall δ L (f :: l) s := by
  intro later g earlier e
  cases later with
  | nil => cases e; exact hf
  | cons x later =>
    have e' : l = later ++ g :: earlier := by
      have := congrArg List.tail e
      simpa using this
    exact h _ _ _ e'

theorem eachCall_append {δ : Frame → σ → σ} {L : Frame → σ → Prop} {a b s} (h : EachCall δ L b s)
    (h' : EachCall δ L a (replay δ b s)) : EachCall δ L (a ++ b) s := by
  induction a with
  | nil => exact h
  | cons f a ih =>
    refine eachCall_cons (ih ?_) ?_
    · intro later g earlier e
      exact h' (f :: later) g earlier (by rw [e]; rfl)
    · change L f (replay δ (a ++ b) s)
      rw [replay_append]
      exact h' [] f a rfl

/-- What is needed to know that part `π` of the storage of `T` is a function of the calls. -/
structure Machine (T : Addr) (K : Kind → Prop) (π : World → σ) (δ : Frame → σ → σ) (L : Frame → σ → Prop) (s0 : σ) : Prop where
  Kne : ¬ K .none
  same : ∀ u u', SameAt T u u' → π u' = π u
  other : ∀ f s, f.to ≠ T → δ f s = s ∧ L f s
  blank : ∀ w, Inv w → w.kind T = .none → π w = s0
  /-- Calls that do not concern `π`, or that do and have no nested calls. -/
  call : ∀ (c : Call), (∀ i, c ≠ .onInstall i) →
    ((∀ f u u', f.to = T → f.call = c → K (u.kind T) → LocalStep f u u' → π u' = π u) ∧
      ∀ orc n s v w x w', K (w.kind T) → exec orc (n + 1) s T v c w = .ok (x, w') →
        δ (mkFrame w s T v c) (π w) = π w ∧ L (mkFrame w s T v c) (π w)) ∨
    (∀ orc n s v w x w', K (w.kind T) → exec orc (n + 1) s T v c w = .ok (x, w') →
      w'.frames = mkFrame w s T v c :: w.frames ∧ π w' = δ (mkFrame w s T v c) (π w) ∧ L (mkFrame w s T v c) (π w))
  noInstall : ∀ orc n s v i w x w', K (w.kind T) → exec orc (n + 1) s T v (.onInstall i) w ≠ .ok (x, w')
  inst : ∀ f i u u', f.to = T → f.call = .onInstall i → K (u.kind T) → LocalStep f u u' → π u' = π u
  deployed : ∀ s w i w1, Inv w → w.kind T = .none → K i.kind →
    Installed s T (enterW (w.setKind T i.kind) s T 0 (.onInstall i)) i w1 →
    π w1 = δ (mkFrame (w.setKind T i.kind) s T 0 (.onInstall i)) s0 ∧
    L (mkFrame (w.setKind T i.kind) s T 0 (.onInstall i)) s0

variable {T : Addr} {K : Kind → Prop} {π : World → σ} {δ : Frame → σ → σ} {L : Frame → σ → Prop} {s0 : σ}

/-- `π` follows the calls from `w` to `w'`. -/
def Follows (T : Addr) (K : Kind → Prop) (π : World → σ) (δ : Frame → σ → σ) (L : Frame → σ → Prop) (w w' : World) : Prop :=
  K (w.kind T) → ∃ new, w'.frames = new ++ w.frames ∧ w'.kind T = w.kind T ∧ π w' = replay δ new (π w) ∧ EachCall δ L new (π w) ∧
    ∀ f ∈ new, f.to = T → ∀ i, f.call ≠ .onInstall i

theorem Follows.refl (w) : Follows T K π δ L w w := fun _ => ⟨[], rfl, rfl, rfl, eachCall_nil _ _ _, by simp⟩

theorem Follows.trans {a b c} (h : Follows T K π δ L a b) (h' : Follows T K π δ L b c) : Follows T K π δ L a c := by
  intro hk
  obtain ⟨l, h1, h2, h3, h4, h5⟩ := h hk
  obtain ⟨l', h1', h2', h3', h4', h5'⟩ := h' (by rw [h2]; exact hk)
  refine ⟨l' ++ l, by rw [h1', h1, List.append_assoc], h2'.trans h2, by rw [h3', h3, replay_append], ?_, ?_⟩
  · exact eachCall_append h4 (by rw [← h3]; exact h4')
  · intro f hf
    rcases List.mem_append.mp hf with hf | hf
    · exact h5' f hf
    · exact h5 f hf

theorem follows_same {w w'} (hf : w'.frames = w.frames) (hk : w'.kind T = w.kind T) (h : π w' = π w) :
    Follows T K π δ L w w' := fun _ => ⟨[], hf, hk, h, eachCall_nil _ _ _, by simp⟩

theorem follows_enter {w w' : World} {f : Frame} (hf : w'.frames = f :: w.frames) (hk : w'.kind T = w.kind T)
    (h : π w' = δ f (π w)) (hl : L f (π w)) (hi : f.to = T → ∀ i, f.call ≠ .onInstall i) : Follows T K π δ L w w' :=
  fun _ => ⟨[f], hf, hk, h, eachCall_cons (eachCall_nil _ _ _) hl, by simpa using hi⟩

theorem Machine.exec (m : Machine T K π δ L s0) (orc : Oracle) (n : Nat) :
    AllCalls orc n (fun _ _ _ _ => Follows T K π δ L) := by
  refine exec_hier orc T (P := Follows T K π δ L) Follows.refl (fun _ _ _ => Follows.trans) ?_ ?_ ?_ ?_ n
  · intro f w w' hf hl
    exact follows_same hl.frames (by rw [hl.kind]) (m.same _ _ (hl.sameAt hf))
  · intro f w t v c w' _ _ _ h; exact h
  · intro s t v c w w' ht _ _ _ h
    have ho := m.other (mkFrame w s t v c) (π w) ht
    have h1 : Follows T K π δ L w (enterW w s t v c) :=
      follows_enter (f := mkFrame w s t v c) rfl rfl ((m.same _ _ (.enter T w s t v c)).trans ho.1.symm) ho.2 (fun e => absurd e ht)
    exact h1.trans h
  · intro n s v c w x w' ih h hk
    by_cases hi : ∃ i, c = .onInstall i
    · obtain ⟨i, rfl⟩ := hi
      exact absurd h (m.noInstall _ _ _ _ _ _ _ _ hk)
    · rcases m.call c (fun i e => hi ⟨i, e⟩) with ⟨h1, h2⟩ | h1
      · obtain ⟨hv, hb, hB⟩ := exec_body ih h
        have h2 := h2 _ _ _ _ _ _ _ hk h
        have h3 : Follows T K π δ L w (enterW w s T v c) :=
          follows_enter (f := mkFrame w s T v c) rfl rfl ((m.same _ _ (.enter T w s T v c)).trans h2.1.symm) h2.2
            (fun _ i e => hi ⟨i, e⟩)
        refine (h3.trans ?_ : Follows T K π δ L w w') hk
        intro hk'
        refine (?_ : Follows T K π δ L (enterW w s T v c) w' ∧ w'.kind = w.kind).1 hk'
        refine Body.elim (R := fun u u' => u.kind = w.kind → Follows T K π δ L u u' ∧ u'.kind = w.kind) ?_ ?_ ?_ ?_ hB rfl
        · intro u hu; exact ⟨.refl _, hu⟩
        · intro a b c h1 h2 ha
          obtain ⟨h3, h4⟩ := h1 ha
          obtain ⟨h5, h6⟩ := h2 h4
          exact ⟨h3.trans h5, h6⟩
        · intro u u' hls hu
          refine ⟨follows_same hls.frames (by rw [hls.kind]) (h1 _ _ _ rfl rfl (by rw [hu]; exact hk) hls), by rw [hls.kind, hu]⟩
        · intro t' v' c' u u' ho hc hu
          exact ⟨hc.2, by rw [hc.1.kind, hu]⟩
      · obtain ⟨h2, h3, h4⟩ := h1 _ _ _ _ _ _ _ hk h
        exact follows_enter h2 (by rw [(exec_rel orc _ _ _ _ _ _ _ _ h).1.kind]) h3 h4 (fun _ i e => hi ⟨i, e⟩) hk

theorem Machine.deployBody (m : Machine T K π δ L s0) {f : Frame} {i w w'} (hc : f.call = .onInstall i)
    (hB : Body (WithStable fun _ _ _ _ => Follows T K π δ L) f w w') : Follows T K π δ L w w' := by
  intro hk
  refine (?_ : Follows T K π δ L w w' ∧ w'.kind = w.kind).1 hk
  refine Body.elim (R := fun u u' => u.kind = w.kind → Follows T K π δ L u u' ∧ u'.kind = w.kind) ?_ ?_ ?_ ?_ hB rfl
  · intro u hu; exact ⟨.refl _, hu⟩
  · intro a b c h1 h2 ha
    obtain ⟨h3, h4⟩ := h1 ha
    obtain ⟨h5, h6⟩ := h2 h4
    exact ⟨h3.trans h5, h6⟩
  · intro u u' hls hu
    refine ⟨follows_same hls.frames (by rw [hls.kind]) ?_, by rw [hls.kind, hu]⟩
    by_cases e : f.to = T
    · exact m.inst f i u u' e hc (by rw [hu]; exact hk) hls
    · exact m.same _ _ (hls.sameAt e)
  · intro t' v' c' u u' ho hc hu
    exact ⟨hc.2, by rw [hc.1.kind, hu]⟩

theorem Machine.tx (m : Machine T K π δ L s0) (orc : Oracle) (fuel : Nat) (tx : Tx) (w : World) :
    Follows T K π δ L w (tx.apply orc fuel w) := by
  rcases apply_cases orc fuel tx w with h | ⟨s, t, v, c, x, _, _, h⟩ | ⟨s, a, i, x, _, _, h⟩
  · rw [h]; exact .refl w
  · exact m.exec orc fuel _ _ _ _ _ _ _ h
  · intro hk
    obtain ⟨⟨_, _, hn, _⟩, w1, hI, hB⟩ := deploy_body orc fuel s a i (withStable fun _ _ _ _ => Follows T K π δ L)
      (fun t v c w x w' e => ⟨(exec_rel orc fuel a t v c w x w' e).1, m.exec orc fuel _ _ _ _ _ _ _ e⟩) h
    have hne : a ≠ T := by rintro rfl; rw [hn] at hk; exact m.Kne hk
    have hs := installed_sameAt hI hne
    have ho := m.other (mkFrame (w.setKind a i.kind) s a 0 (.onInstall i)) (π w) hne
    have h1 : Follows T K π δ L w w1 := follows_enter (f := mkFrame (w.setKind a i.kind) s a 0 (.onInstall i))
      (by rw [hI.frames]; rfl) hs.kind ((m.same _ _ hs).trans ho.1.symm) ho.2 (fun e => absurd e hne)
    exact (h1.trans (m.deployBody rfl hB)) hk

theorem replay_other (m : Machine T K π δ L s0) {l : List Frame} (h : ∀ f ∈ l, f.to ≠ T) (s : σ) :
    replay δ l s = s ∧ EachCall δ L l s := by
  induction l with
  | nil => exact ⟨rfl, eachCall_nil _ _ _⟩
  | cons f l ih =>
    obtain ⟨h1, h2⟩ := ih (fun g hg => h g (List.mem_cons_of_mem _ hg))
    have ho := fun s => m.other f s (h f List.mem_cons_self)
    refine ⟨?_, eachCall_cons h2 (ho _).2⟩
    change δ f (replay δ l s) = s
    rw [h1, (ho _).1]

/-- In every reachable ledger, `π` is what the calls of the history make of it, and every call was legal when made. -/
theorem Machine.reachable (m : Machine T K π δ L s0) {w : World} (h : Reachable w) (hk : K (w.kind T)) :
    π w = replay δ w.frames s0 ∧ EachCall δ L w.frames s0 := by
  induction h with
  | genesis hg => rw [hg.kind] at hk; exact absurd hk m.Kne
  | @step w orc fuel tx h ih =>
    have glue : ∀ w0 w', Follows T K π δ L w0 w' → K (w0.kind T) → π w0 = replay δ w0.frames s0 →
        EachCall δ L w0.frames s0 → π w' = replay δ w'.frames s0 ∧ EachCall δ L w'.frames s0 := by
      intro w0 w' hf hk0 h1 h2
      obtain ⟨l, e1, e2, e3, e4, _⟩ := hf hk0
      rw [e1]
      refine ⟨by rw [e3, replay_append, h1], eachCall_append h2 (by rw [← h1]; exact e4)⟩
    by_cases hk0 : K (w.kind T)
    · exact glue _ _ (m.tx orc fuel tx w) hk0 (ih hk0).1 (ih hk0).2
    · rcases apply_cases orc fuel tx w with e | ⟨s, t, v, c, x, _, _, e⟩ | ⟨s, a, i, x, _, _, e⟩
      · rw [e] at hk; exact absurd hk hk0
      · rw [(exec_rel orc fuel _ _ _ _ _ _ _ e).1.kind] at hk; exact absurd hk hk0
      · obtain ⟨⟨hac, _, hn, _⟩, w1, hI, hB⟩ := deploy_body orc fuel s a i (withStable fun _ _ _ _ => Follows T K π δ L)
          (fun t v c w x w' e => ⟨(exec_rel orc fuel a t v c w x w' e).1, m.exec orc fuel _ _ _ _ _ _ _ e⟩) e
        have hkk : (tx.apply orc fuel w).kind = w1.kind := (hB.stable (withStable _)).kind
        rw [hkk] at hk
        have hk1 := hk
        rw [hI.kind, enterW_kind, setKind_kind] at hk
        split at hk
        · rename_i haT
          subst haT
          obtain ⟨d1, d2⟩ := m.deployed s w i w1 h.basic hn hk hI
          obtain ⟨r1, r2⟩ := replay_other m (h.fresh T hac hn) s0
          have hfr : w1.frames = mkFrame (w.setKind T i.kind) s T 0 (.onInstall i) :: w.frames := by rw [hI.frames]; rfl
          refine glue w1 _ (m.deployBody rfl hB) hk1 ?_ ?_
          · rw [hfr, d1]; change δ _ s0 = δ _ (replay δ w.frames s0); rw [r1]
          · rw [hfr]; exact eachCall_cons r2 (by rw [r1]; exact d2)
        · exact absurd hk hk0

end Verif

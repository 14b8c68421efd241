import Verif.Proofs.Entry
/-!
Quotes along a path.
-/
set_option linter.unusedSimpArgs false
namespace Verif

variable {cx : Ctx} {w w' u : World} {orc : Oracle} {n : Nat} {T t a b N R s : Addr} {v m r : Int}

/-- The deposit of a connector that is not virtual is left out of account, so the formula sees the balances before it. -/
theorem curve_pay (hw : Wired w T t R N) (hab : a ≠ b)
    (hreal : a = t ∨ ((w.conv T).connectors a).isVirtual = false) :
    (w.pay a N T v).curve T a b v v = w.curve T a b v 0 := by
  have hNT : N ≠ T := by rintro rfl; have h1 := hw.net; rw [hw.conv] at h1; cases h1
  have hb : (w.pay a N T v).reserve T b = w.reserve T b := by
    unfold World.reserve World.pay; simp [setTok_tok, hab.symm]
  have hsup : ∀ z, ((w.pay a N T v).tok z).supply = (w.tok z).supply := by
    intro z; by_cases hz : z = a
    · subst hz; simp [World.pay]
    · simp [World.pay, setTok_tok, hz]
  unfold World.curve
  rw [pay_conv, hw.token, hb, hsup, hsup]
  have ha : a ≠ t → (w.pay a N T v).reserve T a - v = w.reserve T a - 0 := by
    intro hat
    have hr : ((w.conv T).connectors a).isVirtual = false := by rcases hreal with h | h; exacts [absurd h hat, h]
    unfold World.reserve World.pay; simp [hr, moveBal, hNT.symm]
  by_cases hbt : b = t
  · subst hbt; rw [if_pos rfl, if_pos rfl, ha hab]
  · have hne : ¬ (some t = some b) := by simpa using Ne.symm hbt
    rw [if_neg hne, if_neg hne]
    by_cases hat : a = t
    · subst hat; rw [if_pos rfl, if_pos rfl]
    · have hne : ¬ (some t = some a) := by simpa using Ne.symm hat
      rw [if_neg hne, if_neg hne, ha hat]

/-- The flexible tokens of a path, behind its first address. -/
def stops : List Addr → List Addr
  | ft :: _ :: rest => ft :: stops rest
  | _ => []

theorem oddPositions_cons : ∀ (rest : List Addr) (a : Addr), EvenTail rest → Network.oddPositions (a :: rest) = stops rest
  | [], _, _ => rfl
  | [_], _, h => h.elim
  | ft :: b :: rest, a, h => by rw [Network.oddPositions, oddPositions_cons rest b h, stops]

theorem LegalPath.stops {rest : List Addr} (h : LegalPath (a :: rest)) : EvenTail rest ∧ rest ≠ [] ∧ (stops rest).Nodup := by
  have he : EvenTail rest := by
    rw [evenTail_iff]; have := h.1; rw [List.length_cons] at this; omega
  refine ⟨he, ?_, ?_⟩
  · rintro rfl; have := h.2.1; simp at this
  · have h1 := validPath_iff.mpr h
    unfold Network.validPath at h1
    simp only [Bool.and_eq_true, decide_eq_true_eq] at h1
    rw [← Network.oddPositions_length, Network.setSize_eq_iff] at h1
    rw [← oddPositions_cons _ a he]; exact h1.2

/-- The loop of `getExpectedReturnByPath`. -/
theorem expectedLoop_quoted (hcall : cx.call = exec orc n N) :
    ∀ (rest : List Addr) {a : Addr} {v : Int} {u w w' : World} {r : Int}, EvenTail rest → u.Alike w → HonestPath u N a rest →
      Network.expectedLoop cx a rest v w = .ok (r, w') → Quoted u a rest v r ∧ u.Alike w'
  | [], a, v, u, w, w', r, _, hal, hp, h => by
    unfold Network.expectedLoop at h; cases h
    exact ⟨.done, hal⟩
  | [_], _, _, _, _, _, _, he, _, _, _ => he.elim
  | ft :: b :: rest, a, v, u, w, w', r, he, hal, hp, h => by
    obtain ⟨hka, ⟨T, R, hown, hw⟩, hp'⟩ := hp
    have hkb := hp'.head
    unfold Network.expectedLoop at h
    rw [hcall] at h
    rw [okk_bind] at h
    obtain ⟨x1, w1, h1, h⟩ := h
    have hk : ∃ k, n = k + 1 := by
      cases n with
      | zero => simp [ok_exec_zero] at h1
      | succ k => exact ⟨k, rfl⟩
    obtain ⟨k, hk⟩ := hk
    rw [hk, ok_exec_getOwner (by rw [hal.kind, hw.flex]; simp [Kind.isOwned]), hal.own, hown] at h1
    obtain ⟨_, rfl, rfl⟩ := h1
    rw [okk_bind] at h
    obtain ⟨T', w1, h1, h⟩ := h
    cases h1
    rw [okk_bind] at h
    obtain ⟨x2, w2, h2, h⟩ := h
    have hal1 : u.Alike (w.note N ft 0 .getOwner) := hal.note
    obtain ⟨_, _, h3, c, h4, h5, rfl, rfl⟩ := getReturn_effect (hal1.wired hw) (by rw [hal1.kind]; exact hka) (by rw [hal1.kind]; exact hkb) h2
    rw [okk_bind] at h
    obtain ⟨am, w2, h6, h⟩ := h
    cases h6
    rw [hal1.tradable] at h3
    rw [hal1.curve] at h4
    rw [hal1.afterFee, hal1.feeSteps] at h h5
    obtain ⟨h7, h8⟩ := expectedLoop_quoted hcall rest he (hal1.note.trans alike_readQuote) hp' h
    exact ⟨.hop hown h4 h3 h5 h7, h8⟩

/-- Two ledgers agree on all that matters for quotes at the converters of the flexible tokens `S`. -/
def Agree (w u : World) (S : List Addr) : Prop :=
  u.own = w.own ∧ ∀ ft ∈ S, ∀ T, (w.own ft).owner = some T →
    u.conv T = w.conv T ∧ (u.tok ft).supply = (w.tok ft).supply ∧ ∀ z, (u.tok z).bal T = (w.tok z).bal T

theorem Agree.refl (w : World) (S : List Addr) : Agree w w S := ⟨rfl, fun _ _ _ _ => ⟨rfl, rfl, fun _ => rfl⟩⟩

theorem Agree.curve {S : List Addr} (h : Agree w u S) (ht : t ∈ S) (hw : Wired w T t R N) (ho : (w.own t).owner = some T) (x : Int) :
    u.curve T a b v x = w.curve T a b v x := by
  obtain ⟨h1, h2, h3⟩ := h.2 t ht T ho
  have hr : ∀ z, u.reserve T z = w.reserve T z := by
    intro z; unfold World.reserve; rw [h1, h3]
  unfold World.curve
  rw [h1, hw.token, hr, hr]
  by_cases hb : b = t
  · subst hb; rw [if_pos rfl, if_pos rfl, h2]
  · have hne : ¬ (some t = some b) := by simpa using Ne.symm hb
    rw [if_neg hne, if_neg hne]
    by_cases ha : a = t
    · subst ha; rw [if_pos rfl, if_pos rfl, h2]
    · have hne : ¬ (some t = some a) := by simpa using Ne.symm ha
      rw [if_neg hne, if_neg hne]

theorem HonestPath.stop : ∀ {a : Addr} {rest : List Addr}, HonestPath w N a rest → ∀ ft ∈ stops rest,
    ∃ T R, (w.own ft).owner = some T ∧ Wired w T ft R N
  | _, [], _, ft, h => by cases h
  | _, [_], _, ft, h => by cases h
  | _, ft' :: b :: rest, hp, ft, h => by
    rcases List.mem_cons.mp h with rfl | h
    · exact hp.2.1
    · exact HonestPath.stop hp.2.2 ft h

/-- If the quote agrees with the ledger at the start, the route pays what was quoted. -/
theorem route_quoted : ∀ {rest : List Addr} {a : Addr} {v r r' : Int} {u u' : World}, Quoted w a rest v r → Route N m u a rest v u' r' →
    HonestPath w N a rest → RealPath w a rest → (stops rest).Nodup → HonestPath u N a rest → Agree w u (stops rest) → r' = r := by
  intro rest a v r r' u u' hq
  induction hq generalizing u with
  | done => intro hr; cases hr; intros; rfl
  | @hop a ft b rest v T c r own curve tradable fee next ih =>
    intro hr hp hreal hnd hpu hag
    cases hr with
    | @hop _ _ _ _ _ _ T' r1 _ _ own' pos bal move conv next' =>
      obtain ⟨hka, ⟨T1, R, h2, hw⟩, hp'⟩ := hp
      rw [own] at h2; cases h2
      have hT : T' = T := by rw [hag.1, own] at own'; cases own'; rfl
      subst hT
      obtain ⟨_, ⟨T2, R2, h2, hwu⟩, hpu'⟩ := hpu
      rw [own'] at h2; cases h2
      obtain ⟨hc1, hc2, hc3⟩ := hag.2 ft List.mem_cons_self T' own
      obtain ⟨c', hc, hr1, _⟩ := conv.curve
      have hab : a ≠ b := conv.tradable.1
      rw [curve_pay hwu hab (by rw [hc1]; exact hreal.1 T' own), hag.curve List.mem_cons_self hw own, curve] at hc
      injection hc with hc; subst hc
      have e : r1 = w.afterFee T' c (w.feeSteps T' a b) := by
        rw [hr1]
        unfold World.afterFee World.feeSteps
        rw [pay_conv, hc1]
      subst e
      have hnd' := List.nodup_cons.mp hnd
      refine ih next' hp' hreal.2 hnd'.2 hpu'.hopped ⟨by rw [hopped_own]; exact hag.1, ?_⟩
      intro ft2 hft2 T2 hown2
      obtain ⟨T3, R3, ho3, hw3⟩ := hp'.stop ft2 hft2
      rw [hown2] at ho3; cases ho3
      have hne : ft2 ≠ ft := by rintro rfl; exact hnd'.1 hft2
      have hTne : T2 ≠ T' := by
        rintro rfl
        have h1 := hw3.token; rw [hw.token] at h1; cases h1; exact hne rfl
      obtain ⟨g1, g2, g3⟩ := hag.2 ft2 (List.mem_cons_of_mem _ hft2) T2 hown2
      refine ⟨by rw [hopped_conv_other _ _ _ _ _ _ _ hTne]; exact g1, by rw [hopped_supply _ _ _ _ _ _ hne]; exact g2, ?_⟩
      intro z; rw [hopped_bal _ _ _ _ _ _ hw3.ne.symm hTne]; exact g3 z

/-- `getExpectedReturnByPath`. -/
theorem quote_path {p : List Char} {cv : Int} {x : Val} {path : List Addr} (hk : w.kind N = .net)
    (h : exec orc n s N cv (.getExpectedReturnByPath p v) w = .ok (x, w')) (hp : PathText p path) :
    cv = 0 ∧ 0 < v ∧ LegalPath path ∧ ∃ a rest, path = a :: rest ∧
      (HonestPath w N a rest → ∃ r, x = .int r ∧ Quoted w a rest v r ∧ w.Alike w') := by
  cases n with
  | zero => simp [ok_exec_zero] at h
  | succ n =>
    rw [ok_exec_net hk] at h
    have e : Network.dispatch { fr := mkFrame w s N cv (.getExpectedReturnByPath p v), call := exec orc n N } =
        runNonPayable { fr := mkFrame w s N cv (.getExpectedReturnByPath p v), call := exec orc n N }
          (some do return .int (← Network.getExpectedReturnByPath { fr := mkFrame w s N cv (.getExpectedReturnByPath p v), call := exec orc n N } p v)) := rfl
    rw [e, ok_runNonPayable, ok_view] at h
    obtain ⟨_, hcv, r, h, hx⟩ := h
    have hcv : cv = 0 := hcv
    subst hcv
    refine ⟨rfl, ?_⟩
    rw [enterW_zero] at h
    unfold Network.getExpectedReturnByPath at h
    rw [okk_bind] at h
    obtain ⟨path', w1, h1, h⟩ := h
    rw [readPath_ok] at h1
    obtain ⟨h1, h1'⟩ := h1
    have h1' : w1 = w.note s N 0 (.getExpectedReturnByPath p v) := h1'
    subst h1'
    have hpe : path' = path := by
      have e1 := pathText_iff.mpr h1; have e2 := pathText_iff.mpr hp; rw [e1] at e2; injection e2
    subst hpe
    simp only [Network.requireValidPath, okk] at h
    obtain ⟨h2, h3, h⟩ := h
    refine ⟨h3, validPath_iff.mp h2, ?_⟩
    cases path' with
    | nil => simp only [okk] at h
    | cons a rest =>
      refine ⟨a, rest, rfl, fun hh => ⟨r, hx, ?_⟩⟩
      exact expectedLoop_quoted rfl rest (LegalPath.stops (validPath_iff.mp h2)).1 (World.Alike.refl w).note hh h

end Verif

import Verif.Proofs.Route
import Verif.Proofs.Trace
import Mathlib.Data.List.Nodup
/-!
The network's entry points.
-/
set_option linter.unusedSimpArgs false
namespace Verif

variable {cx : Ctx} {w w' u : World} {orc : Oracle} {n : Nat} {T t a b N R s : Addr} {v m r : Int}

theorem pathText_iff {s : List Char} {as : List Addr} : Text.convertPath s = some as ↔ PathText s as := by
  rw [Text.convertPath_iff]
  constructor
  · rintro ⟨hne, ss, hp, rfl⟩
    induction hp with
    | nil => exact absurd rfl hne
    | @cons l r a ss as hl hr hp ih =>
      cases hp with
      | nil => simpa [List.intercalate] using PathText.one (a := a) hl hr
      | @cons l' r' a' ss' as' hl' hr' hp' =>
        have := PathText.more (a := a) hl hr (ih (by simp))
        simpa [List.intercalate, List.intersperse] using this
  · intro h
    induction h with
    | @one l r a hl hr =>
      exact ⟨by simp, _, .cons (a := a) hl hr .nil, by simp [List.intercalate]⟩
    | @more l r a s as hl hr _ ih =>
      obtain ⟨hne, ss, hp, rfl⟩ := ih
      refine ⟨by simp, _, .cons (a := a) hl hr hp, ?_⟩
      cases hp with
      | nil => exact absurd rfl hne
      | cons _ _ _ => simp [List.intercalate, List.intersperse]

theorem validPath_iff {p : List Addr} : Network.validPath p = true ↔ LegalPath p := by
  unfold Network.validPath LegalPath Network.MAX_CONVERSION_COUNT
  simp only [Bool.and_eq_true, decide_eq_true_eq]
  rw [← Network.oddPositions_length, Network.setSize_eq_iff, List.nodup_iff_getElem?_ne_getElem?]
  simp only [Network.oddPositions_getElem?, Network.oddPositions_length]
  constructor
  · rintro ⟨⟨⟨h1, h2⟩, h3⟩, h4⟩
    refine ⟨h3, by omega, by omega, ?_⟩
    intro i j hi hj e
    rcases Nat.lt_trichotomy i j with h | h | h
    · exact absurd e (h4 i j h (by omega))
    · exact h
    · exact absurd e.symm (h4 j i h (by omega))
  · rintro ⟨h1, h2, h3, h4⟩
    refine ⟨⟨⟨by omega, by omega⟩, h1⟩, ?_⟩
    intro i j hij hj e
    have := h4 i j (by omega) (by omega) e
    omega

theorem requests_iff {d : Data} {s f : Addr} {p : List Addr} {m : Int} :
    Network.convertBytesData d s = some (p, m, f) ↔ Requests d s p m f := by
  unfold Requests
  constructor
  · intro h
    cases d with
    | json fields =>
      simp only [Network.convertBytesData] at h
      generalize h1 : List.lookup "path" fields = x1 at h
      generalize h2 : List.lookup "minReturn" fields = x2 at h
      generalize h3 : List.lookup "for" fields = x3 at h
      cases x1 with
      | none => cases h
      | some j1 =>
        cases j1 <;> try cases h
        rename_i p'
        cases x2 with
        | none => cases h
        | some j =>
          simp only at h
          generalize h4 : Text.convertPath p' = x4 at h
          cases x4 with
          | none => cases h
          | some q =>
            refine ⟨fields, p', j, rfl, h1, ?_⟩
            rw [h2, h3]
            cases j <;> cases x3 with
            | none =>
              first
              | cases h; done
              | (cases h; exact ⟨pathText_iff.mp h4, rfl, by simp, .inl ⟨rfl, .inl rfl⟩⟩)
              | (rename_i q; cases q <;> cases h <;> exact ⟨pathText_iff.mp h4, rfl, by simp, .inl ⟨rfl, .inl rfl⟩⟩)
            | some j3 =>
              cases j3 with
              | null =>
                first
                | cases h; done
                | (cases h; exact ⟨pathText_iff.mp h4, rfl, by simp, .inl ⟨rfl, .inr rfl⟩⟩)
                | (rename_i q; cases q <;> cases h <;> exact ⟨pathText_iff.mp h4, rfl, by simp, .inl ⟨rfl, .inr rfl⟩⟩)
              | str t =>
                simp only at h
                generalize h5 : Text.toAddr t = x5 at h
                cases x5 with
                | none => cases h
                | some g =>
                  rw [Text.toAddr_iff] at h5
                  subst h5
                  first
                  | cases h; done
                  | (cases h; exact ⟨pathText_iff.mp h4, rfl, by simp, .inr rfl⟩)
                  | (rename_i q; cases q <;> cases h <;> exact ⟨pathText_iff.mp h4, rfl, by simp, .inr rfl⟩)
              | _ => cases h
    | _ => cases h
  · rintro ⟨fields, p', j, rfl, h1, h2, h3, h4, h5⟩
    simp only [Network.convertBytesData, h1, h3, pathText_iff.mpr h2]
    rcases h4 with rfl | ⟨rfl, rfl⟩ | ⟨rfl, rfl⟩ <;> rcases h5 with ⟨rfl, h5 | h5⟩ | h5 <;> simp [h5, Text.toAddr_ofAddr]

theorem requests_unique {d : Data} {s f f' : Addr} {p p' : List Addr} {m m' : Int} (h : Requests d s p m f)
    (h' : Requests d s p' m' f') : p = p' ∧ m = m' ∧ f = f' := by
  have e1 := requests_iff.mpr h
  have e2 := requests_iff.mpr h'
  rw [e1] at e2; cases e2; exact ⟨rfl, rfl, rfl⟩

/-- The final call of a conversion. -/
def payCall (w : World) (N z f : Addr) (r : Int) : Call :=
  if w.net N z = true then .withdrawTo r f else .transfer f r (some .noneBytes)

/-- A conversion along an honest path: the route, then the payment. -/
theorem internal_route (hknet : w.kind N = .net) (hcall : cx.call = exec orc n N) (hself : cx.self = N) (hN : N ≠ ZERO) {rest : List Addr} {f : Addr}
    (he : EvenTail rest) (hal : u.Alike w) (hp : HonestPath u N a rest) (hcoin : ∀ x, 0 ≤ u.coin x)
    (h : Network.convertForInternal cx (a :: rest) v m f w = .ok (r, w')) :
    ∃ u' w1 y, Route N m u a rest v u' r ∧ u'.Alike w1 ∧ w.frames <:+ w1.frames ∧
      exec orc n N (lastOf a rest) 0 (payCall u' N (lastOf a rest) f r) w1 = .ok (y, w') := by
  unfold Network.convertForInternal at h
  rw [okk_bind] at h
  obtain ⟨⟨z, r'⟩, w1, h1, h⟩ := h
  obtain ⟨rfl, u', hr, hal'⟩ := convertLoop_route hcall hself hN rest he hal hp hcoin h1
  have hfr : w.frames <:+ w1.frames := by
    have hC : CallOK ExecRel cx := by
      intro t' v' c' w0 x0 w0' e
      rw [hcall] at e; rw [hself]; exact exec_rel orc n N t' v' c' w0 x0 w0' e
    exact ((body_convertLoop hC execRel_stable m rest a v (by rw [hself]; exact hknet)) _ _ h1).stable execRel_stable |>.frames
  simp only [okk] at h
  simp only [hcall, hself, okk_ite, okk_bind (exec orc n N _ _ _), okk] at h
  rcases h with ⟨h2, y, w2, h3, h4⟩ | ⟨h2, y, w2, h3, h4⟩
  · cases h4
    refine ⟨u', w1, y, hr, hal', hfr, ?_⟩
    unfold payCall; rw [← hal'.net, if_pos h2]; exact h3
  · cases h4
    refine ⟨u', w1, y, hr, hal', hfr, ?_⟩
    unfold payCall; rw [← hal'.net, if_neg h2]; exact h3

/-- Tokens sent to the network with a request. -/
theorem ok_exec_netFallback {f : Addr} {cv : Int} {d : Data} {x : Val} (hk : w.kind N = .net)
    (h : exec orc (n + 1) s N cv (.tokenFallback f v d) w = .ok (x, w')) (hd : d ≠ .conversionResult) :
    cv = 0 ∧ ∃ path m g r, Requests d f path m g ∧ path.head? = some s ∧ 0 < m ∧ g ≠ ZERO ∧ LegalPath path ∧
      Network.convertForInternal { fr := mkFrame w s N 0 (.tokenFallback f v d), call := exec orc n N } path v m g
        (w.note s N 0 (.tokenFallback f v d)) = .ok (r, w') := by
  rw [ok_exec_net hk] at h
  have e : Network.dispatch { fr := mkFrame w s N cv (.tokenFallback f v d), call := exec orc n N } =
      runNonPayable { fr := mkFrame w s N cv (.tokenFallback f v d), call := exec orc n N }
        (some do Network.tokenFallback { fr := mkFrame w s N cv (.tokenFallback f v d), call := exec orc n N } f v d; return .unit) := rfl
  rw [e, ok_runNonPayable, ok_unit] at h
  obtain ⟨_, hcv, h, _⟩ := h
  have hcv : cv = 0 := hcv
  subst hcv
  refine ⟨rfl, ?_⟩
  rw [enterW_zero] at h
  unfold Network.tokenFallback at h
  rw [if_neg hd] at h
  cases hp : Network.convertBytesData d f with
  | none => rw [hp] at h; simp only [okk] at h
  | some q =>
    obtain ⟨path, m, g⟩ := q
    rw [hp] at h
    simp only [Network.requireValidPath, okk, okk_bind (Network.convertForInternal _ _ _ _ _)] at h
    obtain ⟨h1, h2, h3, h4, r, w2, h5, h6⟩ := h
    cases h6
    refine ⟨path, m, g, r, requests_iff.mp hp, h1, h2, valid_iff.mp h3, validPath_iff.mp h4, h5⟩

theorem readPath_ok {p : List Char} {q : List Addr × World} : Network.readPath p w = .ok q ↔ PathText p q.1 ∧ q.2 = w := by
  obtain ⟨as, w1⟩ := q
  unfold Network.readPath
  rw [← pathText_iff]
  cases Text.convertPath p with
  | none => simp [okk]
  | some x => simp only [okk, Except.ok.injEq, Prod.mk.injEq, Option.some.injEq, eq_comm (a := w)]

/-- `convertFor`. -/
theorem ok_exec_convertFor {f : Addr} {p : List Char} {x : Val} {c : Call} (hk : w.kind N = .net)
    (hc : c = .convertFor p m f ∨ (c = .convert p m ∧ f = s))
    (h : exec orc (n + 1) s N v c w = .ok (x, w')) :
    0 ≤ v ∧ v ≤ w.coin s ∧ ∃ path r y w1, x = .int r ∧ PathText p path ∧ LegalPath path ∧ 0 < m ∧ f ≠ ZERO ∧ f ≠ N ∧
      ∃ a rest, path = a :: rest ∧ w.net N a = true ∧ exec orc n N a v .fallback (enterW w s N v c) = .ok (y, w1) ∧
      Network.convertForInternal { fr := mkFrame w s N v c, call := exec orc n N } path v m f w1 = .ok (r, w') := by
  rw [ok_exec_net hk] at h
  obtain ⟨⟨hv, hb⟩, h⟩ := h
  refine ⟨hv, hb, ?_⟩
  have key : ∀ g, g = f → Network.dispatch { fr := mkFrame w s N v c, call := exec orc n N } =
      (do return .int (← Network.convertFor { fr := mkFrame w s N v c, call := exec orc n N } p m g)) →
      Network.dispatch { fr := mkFrame w s N v c, call := exec orc n N } (enterW w s N v c) = .ok (x, w') →
      ∃ path r y w1, x = .int r ∧ PathText p path ∧ LegalPath path ∧ 0 < m ∧ f ≠ ZERO ∧ f ≠ N ∧
      ∃ a rest, path = a :: rest ∧ w.net N a = true ∧ exec orc n N a v .fallback (enterW w s N v c) = .ok (y, w1) ∧
      Network.convertForInternal { fr := mkFrame w s N v c, call := exec orc n N } path v m f w1 = .ok (r, w') := by
    intro g hg e h
    subst hg
    rw [e, ok_view] at h
    obtain ⟨r, h, hx⟩ := h
    unfold Network.convertFor at h
    rw [okk_bind] at h
    obtain ⟨path, w1, h1, h⟩ := h
    rw [readPath_ok] at h1
    obtain ⟨h1, h1'⟩ := h1
    have h1' : w1 = enterW w s N v c := h1'
    subst h1'
    simp only [Network.requireValidPath, okk] at h
    obtain ⟨h2, h3, h4, h5, h⟩ := h
    cases path with
    | nil => simp only [okk] at h
    | cons a rest =>
      simp only [okk] at h
      obtain ⟨h6, h⟩ := h
      rw [okk_bind] at h
      obtain ⟨y, w1, h7, h8⟩ := h
      exact ⟨_, r, y, w1, hx, h1, validPath_iff.mp h2, h3, valid_iff.mp h4, Ne.symm h5, a, rest, rfl, h6, h7, h8⟩
  rcases hc with rfl | ⟨rfl, rfl⟩
  · exact key f rfl rfl h
  · exact key f rfl rfl h

/-! ### Along a route -/

theorem World.Alike.moveCoin {w w1 : World} (h : w.Alike w1) {a b : Addr} {v : Int} : (w.moveCoin a b v).Alike (w1.moveCoin a b v) := by
  obtain ⟨fs, l, rfl⟩ := h; exact ⟨_, _, rfl⟩

theorem Route.kind {rest : List Addr} (h : Route N m u a rest v w r) : w.kind = u.kind := by
  induction h with
  | done => rfl
  | hop _ _ _ _ _ _ ih => rw [ih, hopped_kind]
theorem Route.own {rest : List Addr} (h : Route N m u a rest v w r) : w.own = u.own := by
  induction h with
  | done => rfl
  | hop _ _ _ _ _ _ ih => rw [ih, hopped_own]
theorem Route.net {rest : List Addr} (h : Route N m u a rest v w r) : w.net = u.net := by
  induction h with
  | done => rfl
  | hop _ _ _ _ _ _ ih => rw [ih, hopped_net]
theorem Route.reg {rest : List Addr} (h : Route N m u a rest v w r) : w.reg = u.reg := by
  induction h with
  | done => rfl
  | hop _ _ _ _ _ _ ih => rw [ih, hopped_reg]
theorem Route.flex {rest : List Addr} (h : Route N m u a rest v w r) : w.flex = u.flex := by
  induction h with
  | done => rfl
  | hop _ _ _ _ _ _ ih => rw [ih, hopped_flex]
theorem Route.coin {rest : List Addr} (h : Route N m u a rest v w r) : w.coin = u.coin := by
  induction h with
  | done => rfl
  | hop _ _ _ _ _ _ ih => rw [ih, hopped_coin]

/-- The minimal return is met. -/
theorem Route.min {rest : List Addr} (h : Route N m u a rest v w r) (hne : rest ≠ []) : m ≤ r ∧ 0 < r ∧ 0 < v := by
  induction h with
  | done => exact absurd rfl hne
  | @hop w a ft b rest v T r1 w' r own pos bal move conv next ih =>
    by_cases hr : rest = []
    · subst hr
      cases next
      have h1 := conv.enough
      have h2 := conv.min
      simp only [if_true] at h1 h2
      exact ⟨h1, by omega, pos⟩
    · exact ⟨(ih hr).1, (ih hr).2.1, pos⟩

/-- The network passes on all it gets. -/
theorem Route.bal_net {rest : List Addr} (h : Route N m u a rest v w r) (hp : HonestPath u N a rest) (z : Addr) :
    (w.tok z).bal N = (u.tok z).bal N - (if z = a then v else 0) + (if z = lastOf a rest then r else 0) := by
  induction h with
  | @done w a v => rw [show lastOf a [] = a from rfl]; generalize (if z = a then v else 0) = x; omega
  | @hop w a ft b rest v T r1 w' r own pos bal move conv next ih =>
    obtain ⟨_, ⟨T', R, h2, h3⟩, h4⟩ := hp
    rw [own] at h2; cases h2
    rw [ih h4.hopped, hopped_bal_net _ _ _ _ _ _ h3.ne]
    have e : lastOf a (ft :: b :: rest) = lastOf b rest := rfl
    rw [e]
    generalize (if z = a then v else 0) = x1
    generalize (if z = b then r1 else 0) = x2
    generalize (if z = lastOf b rest then r else 0) = x3
    omega

/-- Nobody but the network and the converters gains or loses. -/
theorem Route.bal_other {rest : List Addr} (h : Route N m u a rest v w r) {y : Addr} (h1 : y ≠ N)
    (h2 : ∀ ft, ft ∈ rest → (u.own ft).owner ≠ some y) (z : Addr) : (w.tok z).bal y = (u.tok z).bal y := by
  induction h with
  | done => rfl
  | @hop w a ft b rest v T r1 w' r own pos bal move conv next ih =>
    have hy : y ≠ T := by rintro rfl; exact h2 ft List.mem_cons_self own
    rw [ih (by rw [hopped_own]; exact fun q hq => h2 q (List.mem_cons_of_mem _ (List.mem_cons_of_mem _ hq))), hopped_bal _ _ _ _ _ _ h1 hy]

theorem HonestPath.last {w : World} {N : Addr} : ∀ {a : Addr} {rest : List Addr}, EvenTail rest → HonestPath w N a rest → (w.kind (lastOf a rest)).isToken
  | _, [], _, h => h
  | _, [_], he, _ => he.elim
  | _, _ :: b :: rest, he, h => HonestPath.last (a := b) (rest := rest) he h.2.2

/-- Owners of the flexible tokens that are used are converters. -/
theorem HonestPath.owner : ∀ {a : Addr} {rest : List Addr}, HonestPath w N a rest → Route N m u a rest v w' r → u.own = w.own →
    ∀ {y : Addr}, y ≠ N → w.kind y ≠ .conv → ∀ z, (w'.tok z).bal y = (u.tok z).bal y := by
  intro a rest hp hr ho y hy hk z
  induction hr with
  | done => rfl
  | @hop u a ft b rest v T r1 w' r own pos bal move conv next ih =>
    obtain ⟨_, ⟨T', R, h2, h3⟩, h4⟩ := hp
    rw [ho] at own
    rw [own] at h2; cases h2
    have hy' : y ≠ T := by rintro rfl; exact hk h3.conv
    rw [ih h4 (by rw [hopped_own]; exact ho), hopped_bal _ _ _ _ _ _ hy hy']

/-- Payment to an ordinary account. -/
theorem deliver_plain {z f : Addr} {y : Val} {w1 : World} (hz : (u.kind z).isToken) (hf : f.isContract = false) (hkf : u.kind f = .none)
    (hal : u.Alike w1) (h : exec orc n N z 0 (payCall u N z f r) w1 = .ok (y, w')) :
    (u.delivered N z f r).Alike w' ∧ r ≤ (u.tok z).bal N ∧ (u.net N z = true → u.kind z = .icx) := by
  cases n with
  | zero => simp [ok_exec_zero] at h
  | succ n =>
    unfold payCall at h
    unfold World.delivered
    by_cases hnet : u.net N z = true
    · rw [if_pos hnet] at h ⊢
      have hk : w1.kind z = .icx := exec_icxOnly (by rw [hal.kind]; exact hz) h (.inr (.inr ⟨_, _, rfl⟩))
      rw [ok_exec_withdraw hk (.inl rfl)] at h
      obtain ⟨_, h2, h3, _, y', w2, h4, rfl⟩ := h
      rw [hal.kind] at hk
      refine ⟨?_, by rw [hal.tok] at h3; exact h3, fun _ => hk⟩
      cases n with
      | zero => simp [ok_exec_zero] at h4
      | succ n =>
        rw [ok_exec, ok_body] at h4
        obtain ⟨_, h4⟩ := h4
        have hkf' : (enterW ((w1.note N z 0 (.withdrawTo r f)).setTok z { w1.tok z with
            bal := gain (w1.tok z).bal N (-r), supply := (w1.tok z).supply - r }) z f r .fallback).kind f = .none := by
          rw [enterW_kind]; change w1.kind f = _; rw [hal.kind]; exact hkf
        simp only [Ctx.self, mkFrame_to, hkf', mkFrame_call, hf, and_self, if_true] at h4
        cases h4
        have e1 : (u.mint z N (-r)).Alike ((w1.note N z 0 (.withdrawTo r f)).setTok z { w1.tok z with
            bal := gain (w1.tok z).bal N (-r), supply := (w1.tok z).supply - r }) := hal.note.mint
        have e2 : ∀ {p q : World}, p.Alike q → (p.moveCoin z f r).Alike (enterW q z f r .fallback) := by
          rintro p q ⟨fs, l, rfl⟩; exact ⟨_, _, rfl⟩
        exact (e2 e1).addLog
    · rw [if_neg hnet] at h ⊢
      rw [ok_exec_transfer (by rw [hal.kind]; exact hz)] at h
      obtain ⟨_, _, _, _, h3, _, ⟨_, rfl⟩ | ⟨h4, _⟩⟩ := h
      · exact ⟨hal.note.pay.addLog, by rw [hal.tok] at h3; exact h3, fun h => absurd h hnet⟩
      · rw [hf] at h4; cases h4

end Verif

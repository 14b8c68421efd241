import Verif.Props.Liveness
import Verif.Props.Strategy
/-!
C67: there is always a way out (and in).
-/
set_option autoImplicit false
namespace Verif

variable {orc : Oracle} {n : Nat} {w w' : World} {s T t a b N R : Addr} {v : Int} {l : List Addr}

theorem afterFee_le (hr : Reachable w) {c : Int} (hc : 0 ≤ c) (k : Nat) : w.afterFee T c k ≤ c := by
  obtain ⟨h1, h2, h3⟩ := (hr.convInv T).fee
  unfold World.afterFee
  have h4 : (1000000 - (w.conv T).fee) ^ k ≤ (1000000 : Int) ^ k := pow_le_pow_left₀ (by omega) (by omega) k
  have h5 : (0 : Int) < 1000000 ^ k := by positivity
  exact le_trans (Int.ediv_le_ediv h5 (mul_le_mul_of_nonneg_left h4 hc)) (by rw [Int.mul_ediv_cancel _ h5.ne'])

/-- The text of a path. -/
theorem path_text : ∀ (a : Addr) (as : List Addr), ∃ p, PathText p (a :: as)
  | a, [] => ⟨_, .one (l := []) (r := []) nofun nofun⟩
  | _, b :: as => by
    obtain ⟨p, h⟩ := path_text b as
    exact ⟨_, .more (l := []) (r := []) nofun nofun h⟩

theorem legal_three (a b c : Addr) : LegalPath [a, b, c] := by
  refine ⟨by simp, by simp, by simp, fun i j hi hj _ => ?_⟩
  simp only [List.length_cons, List.length_nil] at hi hj
  omega

/-- One hop that is quoted can be had. -/
theorem hop_had {c : Int} (hr : Reachable w) (hk : w.kind N = .net) (hop : OpenPath w N a [t, b]) (hreg : w.net N b = true → w.kind b = .icx)
    (hown : (w.own t).owner = some T) (hc : w.curve T a b v 0 = .ok c) (hc0 : 0 ≤ c) (htr : w.tradable T a b) (hv : 0 < v) (hs : w.kind s = .none) :
    ∀ m f d, 0 < m → m ≤ w.afterFee T c (w.feeSteps T a b) → f.isContract = false → f ≠ ZERO →
      (Requests d s [a, t, b] m f → v ≤ (w.tok a).bal s → ∃ x w2, exec orc (n + 6) s a 0 (.transfer N v (some d)) w = .ok (x, w2) ∧
        Settled w w2 N s a b f v (w.afterFee T c (w.feeSteps T a b)) false) ∧
      (w.net N a = true → w.kind a = .icx → v ≤ w.coin s → ∀ p, PathText p [a, t, b] →
        ∃ w2, exec orc (n + 5) s N v (.convertFor p m f) w = .ok (.int (w.afterFee T c (w.feeSteps T a b)), w2) ∧
          Settled w w2 N s a b f v (w.afterFee T c (w.feeSteps T a b)) true) := by
  intro m f d hm hmq hf hf0
  obtain ⟨h1, h2⟩ := hop.serves
  obtain ⟨p, hp⟩ := path_text a [t, b]
  obtain ⟨w1, hq⟩ := (C35_quote_iff (orc := orc) (n := 0) (s := s) (x := .int (w.afterFee T c (w.feeSteps T a b))) hr hk hp h1).mpr
    ⟨legal_three a t b, hv, _, rfl, .hop hown hc htr (afterFee_le hr hc0 _) .done⟩
  exact ⟨fun hd hvs => C64_tokens hr hk h1 h2 hreg hp hq hd hf hf0 hs hm hmq hvs,
    fun hn hka hvs p' hp' => C64_coin hr hk h1 h2 hn hka hreg hp hq hp' (.inl rfl) hf hf0 hs hm hmq hvs⟩

/-- C67. There is always a way out. Take a converter open for business with something in every connector, conversions enabled and the
transfer of tokens not disabled. Whatever happens from then on, as long as nobody in office obstructs: everybody who holds `v`
flexible tokens is offered a price in each connector token by the formula, at most the reserve, and gets it, reduced by the fee (if
anything is left of it), for his tokens, for himself or anybody else. (While the supply is below `2^129`.) -/
theorem C67_exit (hr : Reachable w) (ht : Trading w T t R N l) (hen : (w.conv T).enabled = true) (hmov : (w.flex t).transferable = true)
    (hres : ∀ a ∈ l, 0 < (w.tok a).bal T) (hb : b ∈ l) (hmovb : w.kind b = .flex → (w.flex b).transferable = true)
    (h : Later w w') (hno : ∀ fr, Called w w' fr → ¬ Obstructs w t [t, b] fr) (hreg : w'.net N b = true → w'.kind b = .icx)
    (hs : w'.kind s = .none) (hv : 0 < v) (hvs : v ≤ (w'.tok t).bal s) (hsize : (w'.tok t).supply < 2 ^ 129) :
    ∃ c, w'.curve T t b v 0 = .ok c ∧ 0 ≤ c ∧ c ≤ (w'.tok b).bal T ∧
      ∀ m f d, 0 < m → m ≤ w'.afterFee T c 1 → f.isContract = false → f ≠ ZERO → Requests d s [t, t, b] m f →
        ∃ x w2, exec orc (n + 6) s t 0 (.transfer N v (some d)) w' = .ok (x, w2) ∧ Settled w' w2 N s t b f v (w'.afterFee T c 1) false := by
  have hct := ht.connectors
  have hop : OpenPath w N t [t, b] := ⟨⟨T, R, by rw [hct]; exact ht, hen, List.mem_cons_self, by rw [hct]; exact List.mem_cons_of_mem _ hb⟩,
    fun _ => hmov, ht.honest b hb, hmovb⟩
  have hno' : ∀ fr, Called w w' fr → ¬ Meddles T t R l fr := fun fr hc hm =>
    hno fr hc (.inl ⟨T, R, ht.active, ht.wired.registry, .inl (by rw [hct]; exact hm)⟩)
  have hr' := hr.later h
  have ht' := (C59_stays_open hr ht h hno').1
  have hop' := C64_stays_open hr h hop hno
  obtain ⟨hsum, hnn, _⟩ := C01_supply_is_sum hr' t
  have hle : (w'.tok t).bal s ≤ (w'.tok t).supply := by rw [hsum]; exact sum_ge _ hnn s
  have hS : 0 < (w'.tok t).supply := by omega
  have hB := C59_never_drained hr ht h hno' hres hS b hb
  have hbt := ht'.ne hr' hb
  have hwt := (hr'.convInv T).weight b ((ht'.cfg hr').isSet.1 hb)
  have hre : w'.reserve T b = (w'.tok b).bal T := by unfold World.reserve; rw [ht'.real b hb]; rfl
  have hcv := curve_sell (d := v) ht'.wired hbt
  rw [hre] at hcv
  have hok : ∃ c, w'.curve T t b v 0 = .ok c := by
    rw [hcv]
    cases hx : Formula.calculateSaleReturn (w'.tok t).supply ((w'.tok b).bal T) ((w'.conv T).connectors b).weight v with
    | ok c => exact ⟨c, rfl⟩
    | error e =>
      rw [Formula.C42_sale_total hv.le hx, Formula.C42_sale] at hx
      omega
  obtain ⟨c, hc⟩ := hok
  have hrange := Formula.C44_sale hv.le (by rw [← hcv]; exact hc)
  have hfs : w'.feeSteps T t b = 1 := by unfold World.feeSteps; rw [if_pos (.inr ht'.wired.token)]
  have htr : w'.tradable T t b := by
    refine ⟨Ne.symm hbt, ?_⟩
    rw [if_neg (by rw [ht'.wired.token]; simpa using Ne.symm hbt), if_pos ht'.wired.token]
    exact (ht'.cfg hr').isSet.1 hb
  refine ⟨c, hc, hrange.1, hrange.2.1, fun m f d hm hmq hf hf0 hd => ?_⟩
  have := (hop_had (orc := orc) (n := n) (s := s) hr' ht'.wired.net hop' hreg ht'.active hc hrange.1 htr hv hs m f d hm (by rw [hfs]; exact hmq) hf hf0).1 hd hvs
  rwa [hfs] at this

/-- C67. And a way in: as long as nobody obstructs or disables purchases with the connector, and there is supply left, everybody who has `v`
of a connector token is offered flexible tokens by the formula and gets them, reduced by the fee. (While the connector balance
stays below `2^129`.) -/
theorem C67_entry (hr : Reachable w) (ht : Trading w T t R N l) (hen : (w.conv T).enabled = true) (hmov : (w.flex t).transferable = true)
    (hres : ∀ a ∈ l, 0 < (w.tok a).bal T) (ha : a ∈ l) (hmova : w.kind a = .flex → (w.flex a).transferable = true)
    (h : Later w w') (hno : ∀ fr, Called w w' fr → ¬ Obstructs w a [t, t] fr) (hreg : w'.net N t = false)
    (hpur : ((w'.conv T).connectors a).isPurchaseEnabled = true) (hS : 0 < (w'.tok t).supply)
    (hs : w'.kind s = .none) (hv : 0 < v) (hsize : (w'.tok a).bal T + v < 2 ^ 129) :
    ∃ c, w'.curve T a t v 0 = .ok c ∧ 0 ≤ c ∧
      ∀ m f d, 0 < m → m ≤ w'.afterFee T c 1 → f.isContract = false → f ≠ ZERO →
        (Requests d s [a, t, t] m f → v ≤ (w'.tok a).bal s → ∃ x w2, exec orc (n + 6) s a 0 (.transfer N v (some d)) w' = .ok (x, w2) ∧
          Settled w' w2 N s a t f v (w'.afterFee T c 1) false) ∧
        (w'.net N a = true → w'.kind a = .icx → v ≤ w'.coin s → ∀ p, PathText p [a, t, t] →
          ∃ w2, exec orc (n + 5) s N v (.convertFor p m f) w' = .ok (.int (w'.afterFee T c 1), w2) ∧
            Settled w' w2 N s a t f v (w'.afterFee T c 1) true) := by
  have hct := ht.connectors
  have hop : OpenPath w N a [t, t] := ⟨⟨T, R, by rw [hct]; exact ht, hen, by rw [hct]; exact List.mem_cons_of_mem _ ha, List.mem_cons_self⟩,
    hmova, by rw [ht.wired.flex]; decide, fun _ => hmov⟩
  have hno' : ∀ fr, Called w w' fr → ¬ Meddles T t R l fr := fun fr hc hm =>
    hno fr hc (.inl ⟨T, R, ht.active, ht.wired.registry, .inl (by rw [hct]; exact hm)⟩)
  have hr' := hr.later h
  have ht' := (C59_stays_open hr ht h hno').1
  have hop' := C64_stays_open hr h hop hno
  have hB := C59_never_drained hr ht h hno' hres hS a ha
  have hat := ht'.ne hr' ha
  have hwt := (hr'.convInv T).weight a ((ht'.cfg hr').isSet.1 ha)
  have hre : w'.reserve T a = (w'.tok a).bal T := by unfold World.reserve; rw [ht'.real a ha]; rfl
  have hcv := curve_buy (a := a) (d := v) ht'.wired
  rw [hre] at hcv
  have hok : ∃ c, w'.curve T a t v 0 = .ok c := by
    rw [hcv]
    cases hx : Formula.calculatePurchaseReturn (w'.tok t).supply ((w'.tok a).bal T) ((w'.conv T).connectors a).weight v with
    | ok c => exact ⟨c, rfl⟩
    | error e =>
      have := Formula.C42_purchase.mp ⟨e, hx⟩
      omega
  obtain ⟨c, hc⟩ := hok
  have hrange := Formula.C44_purchase hv.le (by rw [← hcv]; exact hc)
  have hfs : w'.feeSteps T a t = 1 := by unfold World.feeSteps; rw [if_pos (.inl ht'.wired.token)]
  have htr : w'.tradable T a t := by
    refine ⟨hat, ?_⟩
    rw [if_pos ht'.wired.token]
    exact ⟨(ht'.cfg hr').isSet.1 ha, hpur⟩
  refine ⟨c, hc, hrange, fun m f d hm hmq hf hf0 => ?_⟩
  have := hop_had (orc := orc) (n := n) (s := s) hr' ht'.wired.net hop' (by rw [hreg]; nofun) ht'.active hc hrange htr hv hs m f d hm (by rw [hfs]; exact hmq) hf hf0
  rwa [hfs] at this

/-- C67. And from each connector to each other, as long as nobody obstructs or disables purchases of the one bought. -/
theorem C67_across (hr : Reachable w) (ht : Trading w T t R N l) (hen : (w.conv T).enabled = true)
    (hres : ∀ a ∈ l, 0 < (w.tok a).bal T) (ha : a ∈ l) (hmova : w.kind a = .flex → (w.flex a).transferable = true)
    (hb : b ∈ l) (hmovb : w.kind b = .flex → (w.flex b).transferable = true) (hab : a ≠ b)
    (h : Later w w') (hno : ∀ fr, Called w w' fr → ¬ Obstructs w a [t, b] fr) (hreg : w'.net N b = true → w'.kind b = .icx)
    (hpur : ((w'.conv T).connectors b).isPurchaseEnabled = true) (hS : 0 < (w'.tok t).supply)
    (hs : w'.kind s = .none) (hv : 0 < v) (hsize : (w'.tok a).bal T + v < 2 ^ 129) :
    ∃ c, w'.curve T a b v 0 = .ok c ∧ 0 ≤ c ∧ c < (w'.tok b).bal T ∧
      ∀ m f d, 0 < m → m ≤ w'.afterFee T c 2 → f.isContract = false → f ≠ ZERO →
        (Requests d s [a, t, b] m f → v ≤ (w'.tok a).bal s → ∃ x w2, exec orc (n + 6) s a 0 (.transfer N v (some d)) w' = .ok (x, w2) ∧
          Settled w' w2 N s a b f v (w'.afterFee T c 2) false) ∧
        (w'.net N a = true → w'.kind a = .icx → v ≤ w'.coin s → ∀ p, PathText p [a, t, b] →
          ∃ w2, exec orc (n + 5) s N v (.convertFor p m f) w' = .ok (.int (w'.afterFee T c 2), w2) ∧
            Settled w' w2 N s a b f v (w'.afterFee T c 2) true) := by
  have hct := ht.connectors
  have hop : OpenPath w N a [t, b] := ⟨⟨T, R, by rw [hct]; exact ht, hen, by rw [hct]; exact List.mem_cons_of_mem _ ha,
    by rw [hct]; exact List.mem_cons_of_mem _ hb⟩, hmova, ht.honest b hb, hmovb⟩
  have hno' : ∀ fr, Called w w' fr → ¬ Meddles T t R l fr := fun fr hc hm =>
    hno fr hc (.inl ⟨T, R, ht.active, ht.wired.registry, .inl (by rw [hct]; exact hm)⟩)
  have hr' := hr.later h
  have ht' := (C59_stays_open hr ht h hno').1
  have hop' := C64_stays_open hr h hop hno
  have hA := C59_never_drained hr ht h hno' hres hS a ha
  have hB := C59_never_drained hr ht h hno' hres hS b hb
  have hat := ht'.ne hr' ha
  have hbt := ht'.ne hr' hb
  have hwa := (hr'.convInv T).weight a ((ht'.cfg hr').isSet.1 ha)
  have hwb := (hr'.convInv T).weight b ((ht'.cfg hr').isSet.1 hb)
  have hra : w'.reserve T a = (w'.tok a).bal T := by unfold World.reserve; rw [ht'.real a ha]; rfl
  have hrb : w'.reserve T b = (w'.tok b).bal T := by unfold World.reserve; rw [ht'.real b hb]; rfl
  have hcv := curve_across (d := v) ht'.wired hat hbt
  rw [hra, hrb] at hcv
  have hok : ∃ c, w'.curve T a b v 0 = .ok c := by
    rw [hcv]
    cases hx : Formula.calculateCrossConnectorReturn ((w'.tok a).bal T) ((w'.conv T).connectors a).weight ((w'.tok b).bal T) ((w'.conv T).connectors b).weight v with
    | ok c => exact ⟨c, rfl⟩
    | error e =>
      rw [Formula.C42_cross_total hv.le hx, Formula.C42_cross] at hx
      omega
  obtain ⟨c, hc⟩ := hok
  have hrange := Formula.C44_cross hv.le (by rw [← hcv]; exact hc)
  have hfs : w'.feeSteps T a b = 2 := by
    unfold World.feeSteps; rw [if_neg]; rw [ht'.wired.token]
    rintro (e | e) <;> injection e with e
    · exact hbt e.symm
    · exact hat e.symm
  have htr : w'.tradable T a b := by
    refine ⟨hab, ?_⟩
    rw [if_neg (by rw [ht'.wired.token]; simpa using Ne.symm hbt), if_neg (by rw [ht'.wired.token]; simpa using Ne.symm hat)]
    exact ⟨(ht'.cfg hr').isSet.1 ha, (ht'.cfg hr').isSet.1 hb, hpur⟩
  refine ⟨c, hc, hrange.1, hrange.2, fun m f d hm hmq hf hf0 => ?_⟩
  have := hop_had (orc := orc) (n := n) (s := s) hr' ht'.wired.net hop' hreg ht'.active hc hrange.1 htr hv hs m f d hm (by rw [hfs]; exact hmq) hf hf0
  rwa [hfs] at this

/-! ### After a history of trades -/

open Scenario in
set_option maxRecDepth 100000 in
theorem busy_unobstructed : ∀ a ∈ [irc, icxt, flex], ∀ b ∈ [irc, icxt, flex], ∀ fr, Called ready busy fr → ¬ Obstructs ready a [flex, b] fr := by
  have key : (busy.frames.take (busy.frames.length - ready.frames.length)).all Frame.harmless = true := by decide +kernel
  have h1 : (ready.own flex).owner = some conv ∧ (ready.conv conv).registry = some registry ∧ (ready.conv conv).connectorTokens = [irc, icxt] := by
    decide +kernel
  intro a _ b _ f hc ho
  have hm := busy_plain f hc
  obtain ⟨new, h2, h3⟩ := hc
  have hmem : f ∈ busy.frames.take (busy.frames.length - ready.frames.length) := by
    rw [h2, List.length_append, Nat.add_sub_cancel, List.take_left]; exact h3
  have := List.all_eq_true.1 key f hmem
  unfold Frame.harmless at this
  rw [Bool.and_eq_true] at this
  rcases ho with ⟨T, R, h4, h5, h6 | ⟨_, _, h6⟩⟩ | ⟨_, _, h6⟩ | ⟨_, _, h6⟩
  · rw [h1.1] at h4; cases h4
    rw [h1.2.1] at h5; cases h5
    rw [h1.2.2] at h6
    exact hm h6
  all_goals (rw [h6] at this; exact absurd this.2 (by decide))

open Scenario in
theorem ready_stocked : ∀ a ∈ [irc, icxt], 0 < (ready.tok a).bal conv := by
  intro a ha
  simp only [List.mem_cons, List.not_mem_nil, or_false] at ha
  rcases ha with rfl | rfl
  · rw [busy_pool.2.2.1]; decide
  · rw [busy_pool.2.2.2.2.1]; decide

open Scenario in
set_option maxRecDepth 100000 in
/-- C67: alice can sell 1000 of her flexible tokens, whatever the history; here for exactly what the formula says. -/
example : ∃ c, busy.curve conv flex irc 1000 0 = .ok c ∧ 0 ≤ c ∧ c ≤ (busy.tok irc).bal conv ∧
    ∀ m f d, 0 < m → m ≤ busy.afterFee conv c 1 → f.isContract = false → f ≠ ZERO → Requests d alice [flex, flex, irc] m f →
      ∃ x w2, exec orc 10 alice flex 0 (.transfer network 1000 (some d)) busy = .ok (x, w2) ∧
        Settled busy w2 network alice flex irc f 1000 (busy.afterFee conv c 1) false := by
  have hf : (ready.conv conv).enabled = true ∧ (ready.flex flex).transferable = true ∧ (ready.kind irc = .flex → (ready.flex irc).transferable = true) ∧
    (busy.net network irc = true → busy.kind irc = .icx) ∧ busy.kind alice = .none ∧ 1000 ≤ (busy.tok flex).bal alice := by decide +kernel
  exact C67_exit (n := 4) ready_reachable ready_trading hf.1 hf.2.1 ready_stocked (by decide) hf.2.2.1 busy_later
    (busy_unobstructed _ (by decide) _ (by decide)) hf.2.2.2.1 hf.2.2.2.2.1 (by decide) hf.2.2.2.2.2 (by rw [busy_pool.2.1]; decide)

end Verif

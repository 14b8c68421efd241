import Verif.Proofs.TripPath
import Verif.Props.Conversion
import Verif.Props.Network
import Mathlib.Analysis.Convex.SpecificFunctions.Basic
/-!
# Round trips (C82)

Converting and converting straight back costs the fee of one conversion at least, whatever the pool; and buying the flexible token and selling it straight back costs the fees of two conversions at most,
but for rounding.
-/
set_option autoImplicit false
namespace Verif
open Formula

section
variable {s b w v c r c' fb fw tb tw : Int}

/-- Buying and selling everything bought, with a fee kept in between. -/
theorem trip_buy (hv : 0 ≤ v) (h1 : calculatePurchaseReturn s b w v = .ok c) (hr : 0 ≤ r) (hrc : r ≤ c)
    (h2 : calculateSaleReturn (s + r) (b + v) w r = .ok c') (hsize : b * 2 ≤ 2 ^ 104) : c' ≤ v := by
  obtain ⟨hs, hb, hw⟩ := purchase_input h1
  have hc' : 0 ≤ c' := (C44_sale hr h2).1
  have t1 := Curve.Trade.buy (weight := fun _ : Unit => w) ⟨s, fun _ => b⟩ () v c r hv h1 hr hrc
  have t2 := Curve.Trade.sell (weight := fun _ : Unit => w) ⟨s + r, Function.update (fun _ => b) () (b + v)⟩ () r c' c' hr (show r < s + r by omega) (by simpa using h2) hc' le_rfl
  have := C46_no_free_balance (i := ()) (fun _ => hw.1) hs (fun _ => hb) (((Curve.Trades.none _).more t1).more t2) (by simp) (by intro j hj; exact absurd rfl hj) (by simpa using hsize)
  simp at this
  omega

/-- Selling and buying back with everything received. -/
theorem trip_sell (hv : 0 ≤ v) (h1 : calculateSaleReturn s b w v = .ok c) (hr : 0 ≤ r) (hrc : r ≤ c)
    (h2 : calculatePurchaseReturn (s - v) (b - r) w r = .ok c') (hsize : s * 2 ≤ 2 ^ 120) : c' ≤ v := by
  obtain ⟨hs, hb, hw, _⟩ := sale_input h1
  obtain ⟨hsv, _, _⟩ := purchase_input h2
  have hc' : 0 ≤ c' := C44_purchase hr h2
  have t1 := Curve.Trade.sell (weight := fun _ : Unit => w) ⟨s, fun _ => b⟩ () v c r hv (show v < s by omega) h1 hr hrc
  have t2 := Curve.Trade.buy (weight := fun _ : Unit => w) ⟨s - v, Function.update (fun _ => b) () (b - r)⟩ () r c' c' hr (by simpa using h2) hc' le_rfl
  have := C46_no_free_supply (fun _ => hw.1) hs (fun _ => hb) (((Curve.Trades.none _).more t1).more t2) (by simp) (by simpa using hsize)
  simp at this
  omega

/-- Converting across two connectors and back. -/
theorem trip_cross (hv : 0 ≤ v) (h1 : calculateCrossConnectorReturn fb fw tb tw v = .ok c) (hr : 0 ≤ r) (hrc : r ≤ c)
    (h2 : calculateCrossConnectorReturn (tb - r) tw (fb + v) fw r = .ok c') (hsize : fb * 2 ≤ 2 ^ 104) : c' ≤ v := by
  obtain ⟨hf, hfw, ht, htw⟩ := cross_input h1
  have hc' : 0 ≤ c' := (C44_cross hr h2).1
  have t1 := Curve.Trade.cross (weight := fun x : Bool => if x then fw else tw) ⟨1, fun x => if x then fb else tb⟩ true false v c r (by decide) hv (by simpa using h1) hr hrc
  have t2 := Curve.Trade.cross (weight := fun x : Bool => if x then fw else tw)
    ⟨1, Function.update (Function.update (fun x => if x then fb else tb) true (fb + v)) false (tb - r)⟩ false true r c' c' (by decide) hr
    (by simpa [Function.update] using h2) hc' le_rfl
  have := C46_no_free_balance (i := true) (by intro x; cases x; exacts [htw.1, hfw.1]) (by simp) (by intro x; cases x; exacts [ht, hf])
    (((Curve.Trades.none _).more t1).more t2) (by simp) (by intro j hj; cases j; · simp [Function.update]
                                                            · exact absurd rfl hj) (by simpa using hsize)
  simp [Function.update] at this
  omega

end

section
variable {w w' : World} {N T t s a b : Addr} {v r p : Int}

theorem reserve_real {z : Addr} (h : ((w.conv T).connectors z).isVirtual = false) : w.reserve T z = (w.tok z).bal T := by
  unfold World.reserve; rw [h]; rfl

/-- What the two conversions of a round trip ask the formula: the second one sees the pool the first one left, and gives at most the first one's payment. -/
theorem RoundTrip.curves (h : RoundTrip w w' N T t s a b v r p) (hsize : a ≠ t → (w.tok a).bal T ≤ 2 ^ 103) (hsize' : a = t → (w.tok t).supply ≤ 2 ^ 119) :
    ∃ c c', 0 < v ∧ w.curve T a b v 0 = .ok c ∧ r = w.afterFee T c (w.feeSteps T a b) ∧ p = w.afterFee T c' (w.feeSteps T a b) ∧ c' ≤ v ∧ 0 ≤ c' ∧ 0 < r ∧ r ≤ c ∧
      (b = t → calculateSaleReturn ((w.tok t).supply + r) ((w.tok a).bal T + v) ((w.conv T).connectors a).weight r = .ok c') := by
  obtain ⟨R, hw⟩ := h.wired
  obtain ⟨hka, hkb⟩ := h.tokens
  obtain ⟨w1, e1, e2⟩ := h.trip
  obtain ⟨c, hab, hv, hr, hc, hrc, hle, hr1, hw1, ho1, hk1, hc1, hs1, hb1⟩ := exchanged h.reachable hw h.active hka hkb h.real h.plain e1
  obtain ⟨c', -, -, hp, hc', hpc, hle', -, -, -, -, -, -, -⟩ := exchanged hr1 hw1 (by rw [ho1]; exact h.active) (by rw [hk1]; exact hkb) (by rw [hk1]; exact hka)
    (by rw [hc1]; intro z hz; exact h.real z hz.symm) h.plain e2
  have hfs : w1.feeSteps T b a = w.feeSteps T a b := by unfold World.feeSteps; rw [hc1]; simp only [or_comm]
  have hpc' : p = w.afterFee T c' (w.feeSteps T a b) := by rw [hpc, hfs]; unfold World.afterFee; rw [hc1]
  have hreal := h.real
  have htok := hw.token
  refine ⟨c, c', hv, hc, hrc, hpc', ?_⟩
  have hc0 := hc
  unfold World.curve at hc hc'
  rw [hc1, htok] at hc'
  rw [htok] at hc
  by_cases hbt : b = t
  · subst hbt
    have hane : a ≠ b := hab
    rw [if_pos rfl, reserve_real (hreal a (.inl rfl) hane), Int.sub_zero] at hc
    rw [if_neg (by simpa using fun e : b = a => hane e.symm), if_pos rfl, reserve_real (by rw [hc1]; exact hreal a (.inl rfl) hane), hs1, hb1 a hane,
      if_pos rfl, if_neg hane, if_pos rfl, if_neg hane, Int.sub_zero, Int.sub_zero] at hc'
    have := hsize hane
    exact ⟨trip_buy hv.le hc hr.le hle hc' (by omega), (C44_sale hr.le hc').1, hr, hle, fun _ => hc'⟩
  · rw [if_neg (by simpa using fun e : t = b => hbt e.symm)] at hc
    by_cases hat : a = t
    · subst hat
      rw [if_pos rfl, reserve_real (hreal b (.inr rfl) hbt)] at hc
      rw [if_pos rfl, reserve_real (by rw [hc1]; exact hreal b (.inr rfl) hbt), hs1, hb1 b hbt, if_neg hbt, if_pos rfl, if_neg hbt, if_pos rfl, Int.add_zero, Int.add_zero, Int.sub_zero] at hc'
      have := hsize' rfl
      exact ⟨trip_sell hv.le hc hr.le hle hc' (by omega), C44_purchase hr.le hc', hr, hle, fun e => absurd e hbt⟩
    · have hta : ¬ (some t = some a) := by simpa using fun e : t = a => hat e.symm
      have htb : ¬ (some t = some b) := by simpa using fun e : t = b => hbt e.symm
      rw [if_neg hta, reserve_real (hreal a (.inl rfl) hat), reserve_real (hreal b (.inr rfl) hbt), Int.sub_zero] at hc
      rw [if_neg hta, if_neg htb, reserve_real (by rw [hc1]; exact hreal b (.inr rfl) hbt), reserve_real (by rw [hc1]; exact hreal a (.inl rfl) hat), hb1 a hat, hb1 b hbt,
        if_pos rfl, if_neg hab, if_neg hab.symm, if_pos rfl, Int.sub_zero, Int.sub_zero, Int.add_zero] at hc'
      have := hsize hat
      exact ⟨trip_cross hv.le hc hr.le hle hc' (by omega), (C44_cross hr.le hc').1, hr, hle, fun e => absurd e hbt⟩

/-- C82. A round trip through one converter never brings back more than was put in, less the fee of one conversion: whatever the pool, between any two of its tokens. -/
theorem C82_cost (h : RoundTrip w w' N T t s a b v r p) (hsize : a ≠ t → (w.tok a).bal T ≤ 2 ^ 103) (hsize' : a = t → (w.tok t).supply ≤ 2 ^ 119) :
    0 < v ∧ p * 1000000 ^ (w.feeSteps T a b) ≤ v * (1000000 - (w.conv T).fee) ^ (w.feeSteps T a b) ∧ p ≤ v := by
  obtain ⟨c, c', hv, -, -, hp, hle, h0, -⟩ := h.curves hsize hsize'
  obtain ⟨f1, f2⟩ := fee_range (T := T) h.reachable
  refine ⟨hv, ?_, ?_⟩
  · have h1 : p * 1000000 ^ (w.feeSteps T a b) ≤ c' * (1000000 - (w.conv T).fee) ^ (w.feeSteps T a b) := by
      rw [hp]; unfold World.afterFee; exact Int.ediv_mul_le _ (by positivity)
    exact h1.trans (mul_le_mul_of_nonneg_right hle (pow_nonneg f1 _))
  · have := (C24_range (T := T) h.reachable h0 (w.feeSteps T a b)).2
    omega

end

/-! ### Along a path -/

section
variable {s b w v c r x c' fb fw tb tw : Int}

/-- The same when only a part of what was bought is sold. -/
theorem part_buy (hv : 0 ≤ v) (h1 : calculatePurchaseReturn s b w v = .ok c) (hx : 0 ≤ x) (hxr : x ≤ r) (hrc : r ≤ c)
    (h2 : calculateSaleReturn (s + r) (b + v) w x = .ok c') (hsize : b * 2 ≤ 2 ^ 104) : c' ≤ v := by
  obtain ⟨hs, hb, hw⟩ := purchase_input h1
  have hc' : 0 ≤ c' := (C44_sale hx h2).1
  have t1 := Curve.Trade.buy (weight := fun _ : Unit => w) ⟨s, fun _ => b⟩ () v c r hv h1 (by omega) hrc
  have t2 := Curve.Trade.sell (weight := fun _ : Unit => w) ⟨s + r, Function.update (fun _ => b) () (b + v)⟩ () x c' c' hx (show x < s + r by omega) (by simpa using h2) hc' le_rfl
  have := C46_no_free_balance (i := ()) (fun _ => hw.1) hs (fun _ => hb) (((Curve.Trades.none _).more t1).more t2) (show s ≤ s + r - x by omega)
    (by intro j hj; exact absurd rfl hj) (by simpa using hsize)
  simp at this
  omega

theorem part_sell (hv : 0 ≤ v) (h1 : calculateSaleReturn s b w v = .ok c) (hx : 0 ≤ x) (hxr : x ≤ r) (hrc : r ≤ c)
    (h2 : calculatePurchaseReturn (s - v) (b - r) w x = .ok c') (hsize : s * 2 ≤ 2 ^ 120) : c' ≤ v := by
  obtain ⟨hs, hb, hw, _⟩ := sale_input h1
  obtain ⟨hsv, _, _⟩ := purchase_input h2
  have hc' : 0 ≤ c' := C44_purchase hx h2
  have t1 := Curve.Trade.sell (weight := fun _ : Unit => w) ⟨s, fun _ => b⟩ () v c r hv (show v < s by omega) h1 (by omega) hrc
  have t2 := Curve.Trade.buy (weight := fun _ : Unit => w) ⟨s - v, Function.update (fun _ => b) () (b - r)⟩ () x c' c' hx (by simpa using h2) hc' le_rfl
  have := C46_no_free_supply (fun _ => hw.1) hs (fun _ => hb) (((Curve.Trades.none _).more t1).more t2) (by simp; omega) (by simpa using hsize)
  simp at this
  omega

theorem part_cross (hv : 0 ≤ v) (h1 : calculateCrossConnectorReturn fb fw tb tw v = .ok c) (hx : 0 ≤ x) (hxr : x ≤ r) (hrc : r ≤ c)
    (h2 : calculateCrossConnectorReturn (tb - r) tw (fb + v) fw x = .ok c') (hsize : fb * 2 ≤ 2 ^ 104) : c' ≤ v := by
  obtain ⟨hf, hfw, ht, htw⟩ := cross_input h1
  have hc' : 0 ≤ c' := (C44_cross hx h2).1
  have t1 := Curve.Trade.cross (weight := fun x : Bool => if x then fw else tw) ⟨1, fun x => if x then fb else tb⟩ true false v c r (by decide) hv (by simpa using h1) (by omega) hrc
  have t2 := Curve.Trade.cross (weight := fun x : Bool => if x then fw else tw)
    ⟨1, Function.update (Function.update (fun x => if x then fb else tb) true (fb + v)) false (tb - r)⟩ false true x c' c' (by decide) hx
    (by simpa [Function.update] using h2) hc' le_rfl
  have := C46_no_free_balance (i := true) (by intro x; cases x; exacts [htw.1, hfw.1]) (by simp) (by intro x; cases x; exacts [ht, hf])
    (((Curve.Trades.none _).more t1).more t2) (by simp) (by intro j hj; cases j; · simp [Function.update]; omega
                                                            · exact absurd rfl hj) (by simpa using hsize)
  simp [Function.update] at this
  omega

end

section
variable {w w' w1 w2 : World} {N T t R s a b : Addr} {v r r1 p y c c' : Int} {rest : List Addr}

/-- One hop there, and a part of it back. -/
theorem hop_back (hw : Wired w T t R N) (hab : a ≠ b) (hv : 0 < v) (hreal : ∀ z, z = a ∨ z = b → z ≠ t → ((w.conv T).connectors z).isVirtual = false)
    (hc : w.curve T a b v 0 = .ok c) (hr : 0 < r1) (hle : r1 ≤ c) (hpool : PoolMove w w1 T t a b v r1) (hy : 0 ≤ y) (hyr : y ≤ r1)
    (hc' : w1.curve T b a y 0 = .ok c') (hsize : a ≠ t → (w.tok a).bal T ≤ 2 ^ 103) (hsize' : a = t → (w.tok t).supply ≤ 2 ^ 119) : c' ≤ v ∧ 0 ≤ c' := by
  obtain ⟨hc1, hs1, hb1⟩ := hpool
  have htok := hw.token
  unfold World.curve at hc hc'
  rw [hc1, htok] at hc'
  rw [htok] at hc
  by_cases hbt : b = t
  · subst hbt
    have hane : a ≠ b := hab
    rw [if_pos rfl, reserve_real (hreal a (.inl rfl) hane), Int.sub_zero] at hc
    rw [if_neg (by simpa using fun e : b = a => hane e.symm), if_pos rfl, reserve_real (by rw [hc1]; exact hreal a (.inl rfl) hane), hs1, hb1 a hane,
      if_pos rfl, if_neg hane, if_pos rfl, if_neg hane, Int.sub_zero, Int.sub_zero] at hc'
    have := hsize hane
    exact ⟨part_buy hv.le hc hy hyr hle hc' (by omega), (C44_sale hy hc').1⟩
  · rw [if_neg (by simpa using fun e : t = b => hbt e.symm)] at hc
    by_cases hat : a = t
    · subst hat
      rw [if_pos rfl, reserve_real (hreal b (.inr rfl) hbt)] at hc
      rw [if_pos rfl, reserve_real (by rw [hc1]; exact hreal b (.inr rfl) hbt), hs1, hb1 b hbt, if_neg hbt, if_pos rfl, if_neg hbt, if_pos rfl, Int.add_zero, Int.add_zero, Int.sub_zero] at hc'
      have := hsize' rfl
      exact ⟨part_sell hv.le hc hy hyr hle hc' (by omega), C44_purchase hy hc'⟩
    · have hta : ¬ (some t = some a) := by simpa using fun e : t = a => hat e.symm
      have htb : ¬ (some t = some b) := by simpa using fun e : t = b => hbt e.symm
      rw [if_neg hta, reserve_real (hreal a (.inl rfl) hat), reserve_real (hreal b (.inr rfl) hbt), Int.sub_zero] at hc
      rw [if_neg hta, if_neg htb, reserve_real (by rw [hc1]; exact hreal b (.inr rfl) hbt), reserve_real (by rw [hc1]; exact hreal a (.inl rfl) hat), hb1 a hat, hb1 b hbt,
        if_pos rfl, if_neg hab, if_neg hab.symm, if_pos rfl, Int.sub_zero, Int.sub_zero, Int.add_zero] at hc'
      have := hsize hat
      exact ⟨part_cross hv.le hc hy hyr hle hc' (by omega), (C44_cross hy hc').1⟩

/-- There, and a part of it back: at most the first payment comes back, less the fee of the first converter. -/
theorem Passed.back (h : Passed N w w1 a rest v r) : ∀ {x p : Int}, 0 < v → EvenTail rest → Reachable w → w1.own = w.own → MeasuredPath w a rest →
    Passed N w1 w2 (lastOf a rest) (wayBack a rest) x p → 0 ≤ x → x ≤ r → 0 ≤ p ∧ p ≤ v ∧
      ∀ t b rest' T, rest = t :: b :: rest' → (w.own t).owner = some T →
        p * 1000000 ^ (w.feeSteps T a b) ≤ v * (1000000 - (w.conv T).fee) ^ (w.feeSteps T a b) := by
  induction h with
  | done =>
    intro x p _ _ _ _ _ h2 hx hxr
    cases h2
    exact ⟨hx, hxr, fun _ _ _ _ h => nomatch h⟩
  | @hop a t b T R rest v c r1 r own wired ne pos pos1 real curve fee le pool next ih =>
    intro x p hv he hr ho hm h2 hx hxr
    simp only [wayBack, lastOf] at h2
    obtain ⟨y, h3, h4⟩ := h2.append wayBack_even
    obtain ⟨hy, hyr, -⟩ := ih pos1 he hr ho hm.2 h3 hx hxr
    rw [wayBack_last (rest := rest) (a := b) he] at h4
    cases h4 with
    | @hop _ _ _ T' R' _ _ c' q _ own' wired' ne' pos' pos1' real' curve' fee' le' pool' next' =>
      cases next'
      rw [ho, own] at own'; cases own'
      obtain ⟨-, hs1, hs2⟩ := hm.1 T own
      obtain ⟨h5, h6⟩ := hop_back wired ne pos real curve pos1 le pool hy hyr curve' hs1 hs2
      have hfs : w1.feeSteps T b a = w.feeSteps T a b := by unfold World.feeSteps; rw [pool.conv]; simp only [or_comm]
      have hp : p = w.afterFee T c' (w.feeSteps T a b) := by rw [fee', hfs]; unfold World.afterFee; rw [pool.conv]
      obtain ⟨f1, f2⟩ := fee_range (T := T) hr
      have hpr := C24_range (T := T) hr h6 (w.feeSteps T a b)
      rw [← hp] at hpr
      refine ⟨hpr.1, hpr.2.trans h5, ?_⟩
      rintro t2 b2 rest2 T2 e hT2
      injection e with e1 e; injection e with e2 e
      subst e1; subst e2
      rw [own] at hT2; cases hT2
      have h7 : p * 1000000 ^ (w.feeSteps T a b) ≤ c' * (1000000 - (w.conv T).fee) ^ (w.feeSteps T a b) := by
        rw [hp]; unfold World.afterFee; exact Int.ediv_mul_le _ (by positivity)
      exact h7.trans (mul_le_mul_of_nonneg_right h5 (pow_nonneg f1 _))

theorem MeasuredPath.real : ∀ {rest : List Addr} {a : Addr}, MeasuredPath w a rest → RealHops w a rest
  | [], _, _ => trivial
  | [_], _, _ => trivial
  | t :: b :: rest, a, h => ⟨fun T hT => (h.1 T hT).1, MeasuredPath.real (rest := rest) h.2⟩

/-- C82. Nor does a round trip along a path, through however many converters: at most what was put in comes back, less the fee of the first converter. -/
theorem C82_path (h : PathTrip w w' N s a rest v r p) :
    p ≤ v ∧ ∀ t b rest' T, rest = t :: b :: rest' → (w.own t).owner = some T →
      p * 1000000 ^ (w.feeSteps T a b) ≤ v * (1000000 - (w.conv T).fee) ^ (w.feeSteps T a b) := by
  obtain ⟨w1, e1, e2⟩ := h.trip
  have hks : w.kind s ≠ .conv := by
    intro h1; have := h.reachable.basic.contract s (by rw [h1]; nofun); rw [h.plain] at this; cases this
  have hend : ∀ {z : Addr}, (w.kind z).isToken → s ≠ z := by
    rintro z hz rfl; have := h.reachable.basic.contract s (by intro e; rw [e] at hz; exact absurd hz (by decide)); rw [h.plain] at this; cases this
  have hlast : ∀ {rest : List Addr} {a : Addr}, EvenTail rest → HonestPath w N a rest → (w.kind (lastOf a rest)).isToken := by
    intro rest a he hp; exact (hp.wayBack he).head
  have he : EvenTail rest := by
    obtain ⟨orc, k, tx, m, coins, x, ho, hx, hset⟩ := e1
    obtain ⟨_, _, _, _, _, _, _, _, _, hl, _⟩ := order_exact h.reachable.basic h.net h.honest ho h.plain (ne_net h.reachable h.net h.plain) h.plain hx
    exact (legal_iff_stops.mp hl).1
  obtain ⟨hpass, hr1, hk1, ho1, hp1, -, hkd⟩ := carried_passed h.reachable h.net h.honest h.measured.real h.plain e1 ⟨hks, hend (hlast he h.honest)⟩
  rw [reverse_path he] at e2
  have hlb : lastOf (lastOf a rest) (wayBack a rest) = a := wayBack_last he
  have e2' : Carried w1 w' N s (lastOf a rest :: wayBack a rest) (lastOf a rest) (lastOf (lastOf a rest) (wayBack a rest)) r p := by rw [hlb]; exact e2
  obtain ⟨hpass2, -⟩ := carried_passed hr1 hk1 (hp1.wayBack he) (hpass.realBack ho1 he) h.plain e2' ⟨by rw [hkd]; exact hks, by rw [hlb]; exact hend h.honest.head⟩
  have hv : 0 < v := by
    cases hpass with
    | done => 
      obtain ⟨orc, k, tx, m, coins, x, ho, hx, hset⟩ := e1
      obtain ⟨_, _, _, _, _, _, _, _, _, hl, _⟩ := order_exact h.reachable.basic h.net h.honest ho h.plain (ne_net h.reachable h.net h.plain) h.plain hx
      exact absurd rfl (legal_iff_stops.mp hl).2.1
    | hop own wired ne pos => exact pos
  have hr0 : 0 ≤ r := by
    obtain ⟨orc, k, tx, m, coins, x, ho, hx, hset⟩ := e1
    obtain ⟨u', r', hrt, hpu, hcoin, hal, hset', hreg, haff, hl, hm, -⟩ := order_exact h.reachable.basic h.net h.honest ho h.plain (ne_net h.reachable h.net h.plain) h.plain hx
    have hrr : r' = r := Settled.unique hset' hset rfl rfl (ne_net h.reachable h.net h.plain) hks (hend (hlast he h.honest))
    have := hrt.min (legal_iff_stops.mp hl).2.1
    omega
  exact (hpass.back hv he h.reachable ho1 h.measured hpass2 hr0 le_rfl).2

end

section
open Real

/-- The part of the reserve that stays falls, with the amount sold, at a falling rate. -/
theorem stays_convex {S P r α : ℝ} (hS : 0 < S) (hP : 0 < P) (hr : 0 ≤ r) (hrP : r ≤ P) (hα : 1 ≤ α) :
    (S / (S + r)) ^ α ≤ (1 - r / P) + r / P * (S / (S + P)) ^ α := by
  have h0 : 0 ≤ r / P := by positivity
  have h1 : r / P ≤ 1 := (div_le_one hP).mpr hrP
  have hy : 0 ≤ S / (S + P) := by positivity
  have hx : S / (S + r) ≤ (1 - r / P) * 1 + r / P * (S / (S + P)) := by
    have e : (1 - r / P) * 1 + r / P * (S / (S + P)) - S / (S + r) = r * (P - r) / ((S + r) * (S + P)) := by
      have : S + r ≠ 0 := by positivity
      field_simp
      ring
    have : 0 ≤ r * (P - r) / ((S + r) * (S + P)) := div_nonneg (mul_nonneg hr (by linarith)) (by positivity)
    linarith
  have h2 := (convexOn_rpow hα).2 (show (1 : ℝ) ∈ Set.Ici 0 by simp) (show S / (S + P) ∈ Set.Ici 0 from hy) (show 0 ≤ 1 - r / P by linarith) h0 (by ring)
  simp only [smul_eq_mul, Real.one_rpow, mul_one] at h2
  refine (Real.rpow_le_rpow (by positivity) hx (by linarith)).trans ?_
  simpa using h2

/-- On the exact curve: who buys for `d` and sells back a part of what he bought gets at least that part of `d`. -/
theorem sold_back {S B W d r : ℝ} (hS : 0 < S) (hB : 0 < B) (hW : 0 < W) (hW1 : W ≤ 1000000) (hd : 0 < d) (hr : 0 ≤ r) :
    min 1 (r / Curve.purchase S B W d) * d ≤ Curve.sale (S + r) (B + d) W r := by
  have hα : 1 ≤ 1 / (W / 1000000) := by rw [le_div_iff₀ (by positivity)]; linarith
  have hu : 1 < 1 + d / B := by have : 0 < d / B := by positivity
                                linarith
  have hP : 0 < Curve.purchase S B W d := by
    unfold Curve.purchase
    have := Real.one_lt_rpow hu (show 0 < W / 1000000 by positivity)
    exact mul_pos hS (by linarith)
  have hfull : (S / (S + Curve.purchase S B W d)) ^ (1 / (W / 1000000)) = B / (B + d) := by
    unfold Curve.purchase
    have e : S / (S + S * ((1 + d / B) ^ (W / 1000000) - 1)) = ((1 + d / B) ^ (W / 1000000))⁻¹ := by
      have : (1 + d / B) ^ (W / 1000000) ≠ 0 := by positivity
      have e2 : S + S * ((1 + d / B) ^ (W / 1000000) - 1) = S * (1 + d / B) ^ (W / 1000000) := by ring
      rw [e2]; field_simp
    rw [e, Real.inv_rpow (by positivity), ← Real.rpow_mul (by positivity), mul_one_div_cancel (by positivity), Real.rpow_one]
    field_simp
  generalize Curve.purchase S B W d = P at hP hfull
  unfold Curve.sale
  have e : 1 - r / (S + r) = S / (S + r) := by
    have : S + r ≠ 0 := by positivity
    field_simp; ring
  rw [e]
  have hBd : B / (B + d) * (B + d) = B := by field_simp
  rcases le_total r P with hrP | hrP
  · have h1 := stays_convex hS hP hr hrP hα
    rw [hfull] at h1
    have h2 := mul_le_mul_of_nonneg_right (min_le_right 1 (r / P)) hd.le
    have h3 := mul_le_mul_of_nonneg_right h1 (show 0 ≤ B + d by positivity)
    have e3 : ((1 - r / P) + r / P * (B / (B + d))) * (B + d) = (B + d) - r / P * d := by
      have : r / P * (B / (B + d)) * (B + d) = r / P * B := by rw [mul_assoc, hBd]
      rw [add_mul, this]; ring
    rw [e3] at h3
    nlinarith
  · have h1 : (S / (S + r)) ^ (1 / (W / 1000000)) ≤ (S / (S + P)) ^ (1 / (W / 1000000)) :=
      Real.rpow_le_rpow (by positivity) (div_le_div_of_nonneg_left hS.le (by positivity) (by linarith)) (by linarith)
    rw [hfull] at h1
    have h2 := mul_le_mul_of_nonneg_right (min_le_left 1 (r / P)) hd.le
    have h3 := mul_le_mul_of_nonneg_right h1 (show 0 ≤ B + d by positivity)
    rw [hBd] at h3
    nlinarith

/-- The part of the reserve that stays when what was bought for `d` is sold again. -/
theorem stays_back {s b w d c r : Int} (hd : 0 < d) (h : calculatePurchaseReturn s b w d = .ok c) (hr : 0 ≤ r) (hrc : r ≤ c) (hrange : b + d ≤ 2 ^ 21 * b) :
    ((b + d : Int) : ℝ) / 2 ^ 22 ≤ ((b + d : Int) : ℝ) - Curve.sale ((s + r : Int) : ℝ) ((b + d : Int) : ℝ) w r := by
  obtain ⟨hs, hb, hw⟩ := purchase_input h
  obtain ⟨hw1, hw2⟩ := weight_real hw
  have hs' : (0 : ℝ) < s := by exact_mod_cast hs
  have hb' : (0 : ℝ) < b := by exact_mod_cast hb
  have hd' : (0 : ℝ) < d := by exact_mod_cast hd
  have hr' : (0 : ℝ) ≤ r := by exact_mod_cast hr
  have hc := C45_purchase hd.le h
  have hrc' : (r : ℝ) ≤ c := by exact_mod_cast hrc
  have hα : 0 < 1 / ((w : ℝ) / 1000000) := by positivity
  unfold Curve.sale
  push_cast
  have e : (1 : ℝ) - r / (s + r) = s / (s + r) := by
    have : (s : ℝ) + r ≠ 0 := by positivity
    field_simp; ring
  rw [e]
  have hZ : (0 : ℝ) < (1 + (d : ℝ) / b) * exp (5 / 2 ^ 127) := by positivity
  have h1 : ((s : ℝ) + r) / s ≤ ((1 + (d : ℝ) / b) * exp (5 / 2 ^ 127)) ^ ((w : ℝ) / 1000000) := by
    rw [div_le_iff₀ hs']; rw [mul_sub, mul_one] at hc; linarith
  have h2 : (((s : ℝ) + r) / s) ^ (1 / ((w : ℝ) / 1000000)) ≤ (1 + (d : ℝ) / b) * exp (5 / 2 ^ 127) := by
    refine (Real.rpow_le_rpow (by positivity) h1 hα.le).trans ?_
    rw [← Real.rpow_mul hZ.le, mul_one_div_cancel (by positivity), Real.rpow_one]
  have h3 : exp ((5 : ℝ) / 2 ^ 127) ≤ 2 := (exp_small (by positivity) (by norm_num)).trans (by norm_num)
  have h4 : (1 + (d : ℝ) / b) * exp (5 / 2 ^ 127) ≤ 2 ^ 22 := by
    have h5 : (1 + (d : ℝ) / b) ≤ 2 ^ 21 := by
      have : (b : ℝ) + d ≤ 2 ^ 21 * b := by exact_mod_cast hrange
      rw [show (1 : ℝ) + d / b = (b + d) / b by field_simp, div_le_iff₀ hb']; exact this
    calc _ ≤ (2 : ℝ) ^ 21 * 2 := mul_le_mul h5 h3 (Real.exp_pos _).le (by norm_num)
      _ = _ := by norm_num
  have h6 : ((2 : ℝ) ^ 22)⁻¹ ≤ (s / ((s : ℝ) + r)) ^ (1 / ((w : ℝ) / 1000000)) := by
    rw [← inv_div ((s : ℝ) + r) s, Real.inv_rpow (by positivity)]
    exact inv_anti₀ (by positivity) (h2.trans h4)
  have hbd : (0 : ℝ) < b + d := by positivity
  have := mul_le_mul_of_nonneg_left h6 hbd.le
  rw [mul_sub, mul_one, div_eq_mul_inv]
  linarith

end

section
variable {w w' : World} {N T t s a b : Addr} {v r p : Int}

theorem afterFee_real {x : Int} : (x : ℝ) * (1 - ((w.conv T).fee : ℝ) / 1000000) - 1 < (w.afterFee T x 1 : ℝ) := by
  have h1 := lt_ediv_real (a := x * (1000000 - (w.conv T).fee)) (b := 1000000) (by norm_num)
  unfold World.afterFee
  rw [pow_one, pow_one]
  refine lt_of_eq_of_lt ?_ h1
  push_cast
  field_simp

/-- C82. Buying the flexible token with a connector and selling it straight back costs the fees of the two conversions at most, but for rounding: with `P` the flexible tokens the exact curve gives for
the payment `v`, at least `v (1 - fee) (1 - fee - 3/P) - 3` comes back, as long as the payment is at most 2^21 - 1 times the reserve and reserve and supply are below 2^94. -/
theorem C82_back (h : RoundTrip w w' N T t s a t v r p) (hrange : (w.tok a).bal T + v ≤ 2 ^ 21 * (w.tok a).bal T) (hsize : (w.tok a).bal T + v ≤ 2 ^ 94)
    (hsupply : (w.tok t).supply ≤ 2 ^ 94) :
    (v : ℝ) * ((1 - (w.conv T).fee / 1000000) *
      ((1 - (w.conv T).fee / 1000000) - 3 / Curve.purchase (w.tok t).supply ((w.tok a).bal T) ((w.conv T).connectors a).weight v)) - 3 < p := by
  obtain ⟨R, hw⟩ := h.wired
  obtain ⟨c, c', hv, hc, hr, hp, hle, h0, hr0, hrc, hback⟩ := h.curves (fun _ => by
    have : 0 < v := by
      obtain ⟨w1, e1, -⟩ := h.trip
      obtain ⟨_, -, hv, -⟩ := exchanged h.reachable hw h.active h.tokens.1 h.tokens.2 h.real h.plain e1
      exact hv
    have : (2 : Int) ^ 94 ≤ 2 ^ 103 := by norm_num
    omega) (fun _ => hsupply.trans (by norm_num))
  have hab : a ≠ t := by
    obtain ⟨w1, e1, -⟩ := h.trip
    obtain ⟨_, hab, -⟩ := exchanged h.reachable hw h.active h.tokens.1 h.tokens.2 h.real h.plain e1
    exact hab
  have hs := hback rfl
  have hfs : w.feeSteps T a t = 1 := by unfold World.feeSteps; rw [hw.token]; simp
  rw [hfs] at hr hp
  unfold World.curve at hc
  rw [hw.token, if_pos rfl, reserve_real (h.real a (.inl rfl) hab), Int.sub_zero] at hc
  obtain ⟨f1, f2⟩ := fee_range (T := T) h.reachable
  have hg1 := afterFee_real (w := w) (T := T) (x := c)
  have hg2 := afterFee_real (w := w) (T := T) (x := c')
  rw [← hr] at hg1
  rw [← hp] at hg2
  have hF0 : (0 : ℝ) ≤ 1 - ((w.conv T).fee : ℝ) / 1000000 := by
    have : ((w.conv T).fee : ℝ) ≤ 1000000 := by exact_mod_cast (by omega : (w.conv T).fee ≤ 1000000)
    rw [sub_nonneg, div_le_one (by norm_num)]; exact this
  have hF1 : 1 - ((w.conv T).fee : ℝ) / 1000000 ≤ 1 := by
    have : (0 : ℝ) ≤ (w.conv T).fee := by exact_mod_cast (by omega : 0 ≤ (w.conv T).fee)
    have : 0 ≤ ((w.conv T).fee : ℝ) / 1000000 := by positivity
    linarith
  generalize 1 - ((w.conv T).fee : ℝ) / 1000000 = F at hg1 hg2 hF0 hF1 ⊢
  obtain ⟨hS, hB, hW⟩ := purchase_input hc
  obtain ⟨hW1, hW2⟩ := weight_real hW
  generalize (w.tok t).supply = S at *
  generalize (w.tok a).bal T = B at *
  generalize ((w.conv T).connectors a).weight = W at *
  have hS' : (0 : ℝ) < S := by exact_mod_cast hS
  have hB' : (0 : ℝ) < B := by exact_mod_cast hB
  have hv' : (0 : ℝ) < v := by exact_mod_cast hv
  have hr' : (0 : ℝ) ≤ r := by exact_mod_cast hr0.le
  have hc1 : (0 : ℝ) ≤ c := by exact_mod_cast (by omega : 0 ≤ c)
  have hc1' : (0 : ℝ) ≤ c' := by exact_mod_cast h0
  have hgrow : (S : ℝ) + Curve.purchase S B W v ≤ 2 ^ 21 * S := by
    refine (purchase_bound hS'.le hB' hv'.le hW2).trans ?_
    have h5 : (1 + (v : ℝ) / B) ≤ 2 ^ 21 := by
      have : (B : ℝ) + v ≤ 2 ^ 21 * B := by exact_mod_cast hrange
      rw [show (1 : ℝ) + v / B = (B + v) / B by field_simp, div_le_iff₀ hB']; exact this
    calc _ ≤ (S : ℝ) * 2 ^ 21 := mul_le_mul_of_nonneg_left h5 hS'.le
      _ = _ := by ring
  have hS94 : (S : ℝ) ≤ 2 ^ 94 := by exact_mod_cast hsupply
  have hq := C47_purchase hv.le hc (hgrow.trans (by linarith [show (2 : ℝ) ^ 21 * S ≤ 2 ^ 22 * S by nlinarith])) (hgrow.trans (by nlinarith))
  have hstay := stays_back hv hc hr0.le hrc hrange
  have hq2 := C47_sale hr0.le hs hstay hsize
  have hlow := sold_back (r := (r : ℝ)) hS' hB' (by linarith) hW2 hv' hr'
  have hP : 0 < Curve.purchase S B W v := by
    unfold Curve.purchase
    have hu : (1 : ℝ) < 1 + v / B := by have : 0 < (v : ℝ) / B := by positivity
                                        linarith
    have := Real.one_lt_rpow hu (show 0 < (W : ℝ) / 1000000 by positivity)
    exact mul_pos hS' (by linarith)
  push_cast at hq2
  generalize Curve.purchase S B W v = P at *
  generalize Curve.sale ((S : ℝ) + r) (B + v) W r = g at *
  rw [abs_lt] at hq hq2
  have hl : F - 3 / P ≤ min 1 (r / P) := by
    refine le_min (by have : 0 < 3 / P := by positivity
                      linarith) ?_
    rw [le_div_iff₀ hP, sub_mul, div_mul_cancel₀ _ hP.ne']
    have : F * (P - 2) ≤ F * c := mul_le_mul_of_nonneg_left (by linarith) hF0
    nlinarith
  have h7 : (F - 3 / P) * v ≤ g := (mul_le_mul_of_nonneg_right hl hv'.le).trans hlow
  have h8 : F * ((F - 3 / P) * v) ≤ F * (c' + 2) := mul_le_mul_of_nonneg_left (by linarith) hF0
  have e : (v : ℝ) * (F * (F - 3 / P)) = F * ((F - 3 / P) * v) := by ring
  rw [e]
  nlinarith

end

/-! ### The hypotheses are met -/

section
variable {orc : Oracle} {k : Nat} {w : World} {N T t R s a b : Addr} {v m r : Int} {tx : Tx}

/-- A concrete order that was carried out is an exchange; what the sender got is read off his balance. -/
theorem exchanged_order (h : Reachable w) (hw : Wired w T t R N) (hown : (w.own t).owner = some T) (hka : (w.kind a).isToken) (hkb : (w.kind b).isToken) (hs : s.isContract = false)
    (hab : a ≠ b) (hnet : w.net N b = false) (ho : Order N s v m s false [a, t, b] tx) (hx : (tx.run orc k w).toOption.isSome = true)
    (hgot : ((tx.apply orc k w).tok b).bal s = (w.tok b).bal s + r) : Exchanged w (tx.apply orc k w) N t s a b v r := by
  cases hrun : tx.run orc k w with
  | error e => rw [hrun] at hx; cases hx
  | ok xw =>
    obtain ⟨x, w'⟩ := xw
    have he : tx.apply orc k w = w' := by unfold Tx.apply; rw [hrun]
    rw [he] at hgot ⊢
    have hsN := ne_net h hw.net hs
    have hks : w.kind s ≠ .conv := by
      intro h1; have := h.basic.contract s (by rw [h1]; nofun); rw [hs] at this; cases this
    have hp : HonestPath w N a [t, b] := ⟨hka, ⟨T, R, hown, hw⟩, hkb⟩
    obtain ⟨u', r', -, -, -, -, hset, -⟩ := order_exact h.basic hw.net hp ho hs hsN hs hrun
    have h1 := hset.tokens s hsN hks b
    simp only [lastOf, hnet, hab.symm, and_false, if_false, and_self, if_true] at h1
    have : r' = r := by omega
    subst this
    exact ⟨orc, k, tx, m, false, x, ho, hrun, hset⟩

end

section
open Scenario

/-- Alice buys flexible tokens for 5000 IRC2 tokens, and sells them back. -/
def there : Tx := .call alice irc 0 (.transfer network 5000 (some (request [irc, flex, flex] 1)))
def back : Tx := .call alice flex 0 (.transfer network 2408 (some (request [flex, flex, irc] 1)))
/-- Alice sells 2000 flexible tokens for IRC2 tokens, and buys flexible tokens back with them. -/
def down : Tx := .call alice flex 0 (.transfer network 2000 (some (request [flex, flex, irc] 1)))
def up : Tx := .call alice irc 0 (.transfer network 3877 (some (request [irc, flex, flex] 1)))

theorem tripOrder {a b : Addr} {v r m m' p : Int} {tx tx' : Tx}
    (hab : a ≠ b) (hta : (ready2.kind a).isToken) (htb : (ready2.kind b).isToken) (hna : (tx.apply Scenario.orc 20 ready2).net network a = false)
    (hnb : ready2.net network b = false)
    (hreal : ((ready2.conv conv).connectors a).isVirtual = false ∧ ((ready2.conv conv).connectors b).isVirtual = false)
    (ho : Order network alice v m alice false [a, flex, b] tx) (ho' : Order network alice r m' alice false [b, flex, a] tx')
    (hx : (tx.run Scenario.orc 20 ready2).toOption.isSome = true) (hx' : (tx'.run Scenario.orc 20 (tx.apply Scenario.orc 20 ready2)).toOption.isSome = true)
    (hr : ((tx.apply Scenario.orc 20 ready2).tok b).bal alice = (ready2.tok b).bal alice + r)
    (hp : ((tx'.apply Scenario.orc 20 (tx.apply Scenario.orc 20 ready2)).tok a).bal alice = ((tx.apply Scenario.orc 20 ready2).tok a).bal alice + p) :
    RoundTrip ready2 (tx'.apply Scenario.orc 20 (tx.apply Scenario.orc 20 ready2)) network conv flex alice a b v r p := by
  have hre : ∀ z, z = a ∨ z = b → z ≠ flex → ((ready2.conv conv).connectors z).isVirtual = false := by rintro z (rfl | rfl) _; exacts [hreal.1, hreal.2]
  have e1 := exchanged_order ready2_reachable ready2_wired1 ready2_facts.2.2.2.2.1 hta htb rfl hab hnb ho hx hr
  obtain ⟨c, -, -, -, -, -, -, hr1, hw1, ho1, hk1, -⟩ := exchanged ready2_reachable ready2_wired1 ready2_facts.2.2.2.2.1 hta htb hre rfl e1
  exact {
    reachable := ready2_reachable
    plain := rfl
    wired := ⟨_, ready2_wired1⟩
    active := ready2_facts.2.2.2.2.1
    tokens := ⟨hta, htb⟩
    real := hre
    trip := ⟨_, e1, exchanged_order hr1 hw1 (by rw [ho1]; exact ready2_facts.2.2.2.2.1) (by rw [hk1]; exact htb) (by rw [hk1]; exact hta) rfl hab.symm hna ho' hx' hp⟩ }

set_option maxRecDepth 100000 in
/-- She gets 2408 and 4988 back. -/
theorem tripBuy : RoundTrip ready2 (back.apply Scenario.orc 20 (there.apply Scenario.orc 20 ready2)) network conv flex alice irc flex 5000 2408 4988 :=
  tripOrder (by decide) (by decide +kernel) (by decide +kernel) (by decide +kernel) (by decide +kernel) (by decide +kernel)
    (.tokens (request_requests (by nofun))) (.tokens (request_requests (by nofun))) (by decide +kernel) (by decide +kernel) (by decide +kernel) (by decide +kernel)

set_option maxRecDepth 100000 in
/-- She gets 3877 and 1995 back. -/
theorem tripSell : RoundTrip ready2 (up.apply Scenario.orc 20 (down.apply Scenario.orc 20 ready2)) network conv flex alice flex irc 2000 3877 1995 :=
  tripOrder (by decide) (by decide +kernel) (by decide +kernel) (by decide +kernel) (by decide +kernel) (by decide +kernel)
    (.tokens (request_requests (by nofun))) (.tokens (request_requests (by nofun))) (by decide +kernel) (by decide +kernel) (by decide +kernel) (by decide +kernel)

theorem trip_pool : (ready2.tok irc).bal conv = 50000 ∧ (ready2.tok flex).supply = 100000 ∧ (ready2.conv conv).fee = 1000 ∧ ((ready2.conv conv).connectors irc).weight = 250000 ∧
    ready2.feeSteps conv irc flex = 1 ∧ ready2.feeSteps conv flex irc = 1 := by
  set_option maxRecDepth 100000 in decide +kernel

/-- C82: at a fee of 0.1%, whoever does the same with 5000 tokens, with whatever orders, gets between 4981 and 4995 back. -/
example {w' : World} {s : Addr} {r p : Int} (h : RoundTrip ready2 w' network conv flex s irc flex 5000 r p) : 4981 ≤ p ∧ p ≤ 4995 := by
  obtain ⟨p1, p2, p3, p4, p5, -⟩ := trip_pool
  have h1 := C82_cost h (fun _ => by rw [p1]; norm_num) (fun _ => by rw [p2]; norm_num)
  have h2 := C82_back h (by rw [p1]; norm_num) (by rw [p1]; norm_num) (by rw [p2]; norm_num)
  rw [p3, p5] at h1
  rw [p1, p2, p3, p4] at h2
  have h3 : |((2411 : Int) : ℝ) - Curve.purchase (100000 : Int) (50000 : Int) (250000 : Int) (5000 : Int)| < 2 :=
    C47_purchase (s := 100000) (b := 50000) (w := 250000) (d := 5000) (by decide) (by decide +kernel)
      ((purchase_bound (by norm_num) (by norm_num) (by norm_num) (by norm_num)).trans (by norm_num))
      ((purchase_bound (by norm_num) (by norm_num) (by norm_num) (by norm_num)).trans (by norm_num))
  generalize Curve.purchase (100000 : Int) (50000 : Int) (250000 : Int) (5000 : Int) = P at *
  rw [abs_lt] at h3
  have h4 : (2400 : ℝ) ≤ P := by push_cast at h3; linarith
  have h5 : 3 / P ≤ 3 / 2400 := div_le_div_of_nonneg_left (by norm_num) (by norm_num) h4
  have h6 : (4980 : ℝ) < (p : ℝ) := by push_cast at h2; linarith
  have h7 : (4980 : Int) < p := by exact_mod_cast h6
  have h8 := h1.2.1
  rw [pow_one, pow_one] at h8
  omega

/-- C82: of 2000 flexible tokens sold and bought back at most 1998 come back. -/
example {w' : World} {s : Addr} {r p : Int} (h : RoundTrip ready2 w' network conv flex s flex irc 2000 r p) : p ≤ 1998 := by
  obtain ⟨p1, p2, p3, p4, -, p6⟩ := trip_pool
  have h1 := C82_cost h (fun h => absurd rfl h) (fun _ => by rw [p2]; norm_num)
  rw [p3, p6] at h1
  have h8 := h1.2.1
  rw [pow_one, pow_one] at h8
  omega

/-- A concrete order along a path that was carried out; what the sender got is read off his balance. -/
theorem carried_order {k : Nat} {orc : Oracle} {w : World} {N s a : Addr} {v m r : Int} {rest : List Addr} {tx : Tx} (h : Reachable w) (hk : w.kind N = .net)
    (hp : HonestPath w N a rest) (hlast : (w.kind (lastOf a rest)).isToken) (hs : s.isContract = false) (hab : a ≠ lastOf a rest) (hnet : w.net N (lastOf a rest) = false)
    (ho : Order N s v m s false (a :: rest) tx) (hx : (tx.run orc k w).toOption.isSome = true)
    (hgot : ((tx.apply orc k w).tok (lastOf a rest)).bal s = (w.tok (lastOf a rest)).bal s + r) :
    Carried w (tx.apply orc k w) N s (a :: rest) a (lastOf a rest) v r := by
  cases hrun : tx.run orc k w with
  | error e => rw [hrun] at hx; cases hx
  | ok xw =>
    obtain ⟨x, w'⟩ := xw
    have he : tx.apply orc k w = w' := by unfold Tx.apply; rw [hrun]
    rw [he] at hgot ⊢
    have hsN := ne_net h hk hs
    have hks : w.kind s ≠ .conv := by
      intro h1; have := h.basic.contract s (by rw [h1]; nofun); rw [hs] at this; cases this
    obtain ⟨u', r', -, -, -, -, hset, -⟩ := order_exact h.basic hk hp ho hs hsN hs hrun
    have h1 := hset.tokens s hsN hks (lastOf a rest)
    simp only [hnet, hab.symm, and_false, if_false, and_self, if_true] at h1
    have : r' = r := by omega
    subst this
    exact ⟨orc, k, tx, m, false, x, ho, hrun, hset⟩

/-- Alice converts 5000 IRC2 tokens into the second flexible token, over the first, and what she gets back again. -/
def farThere : Tx := .call alice irc 0 (.transfer network 5000 (some (request [irc, flex, flex, flex2, flex2] 1)))
def farBack : Tx := .call alice flex2 0 (.transfer network 2339 (some (request [flex2, flex2, flex, flex, irc] 1)))

set_option maxRecDepth 100000 in
theorem farTrip : PathTrip ready2 (farBack.apply Scenario.orc 20 (farThere.apply Scenario.orc 20 ready2)) network alice irc [flex, flex, flex2, flex2] 5000 2339 4986 := by
  have hp : HonestPath ready2 network irc [flex, flex, flex2, flex2] :=
    ⟨by decide +kernel, ⟨_, _, ready2_facts.2.2.2.2.1, ready2_wired1⟩, ready2_facts.2.2.1, ⟨_, _, ready2_facts.2.2.2.2.2, ready2_wired2⟩, ready2_facts.2.2.2.1⟩
  have hm : MeasuredPath ready2 irc [flex, flex, flex2, flex2] := by
    refine ⟨fun T hT => ?_, fun T hT => ?_, trivial⟩
    · rw [ready2_facts.2.2.2.2.1] at hT; cases hT
      exact ⟨by rintro z (rfl | rfl) h; · decide +kernel
                exact absurd rfl h, fun _ => by decide +kernel, fun h => absurd h (by decide)⟩
    · rw [ready2_facts.2.2.2.2.2] at hT; cases hT
      exact ⟨by rintro z (rfl | rfl) h; · decide +kernel
                exact absurd rfl h, fun _ => by decide +kernel, fun h => absurd h (by decide)⟩
  have e1 := carried_order (k := 20) (orc := Scenario.orc) (r := 2339) (tx := farThere) ready2_reachable ready2_facts.1 hp ready2_facts.2.2.2.1 (s := alice) rfl (by decide) (by decide +kernel)
    (.tokens (request_requests (by nofun))) (by decide +kernel) (by decide +kernel)
  obtain ⟨-, hr1, hk1, ho1, hp1, -, hkd⟩ := carried_passed ready2_reachable ready2_facts.1 hp hm.real rfl e1
    ⟨by intro h; have : ready2.kind alice ≠ .conv := by decide +kernel
        exact this h, by decide⟩
  have hp2 : HonestPath (farThere.apply Scenario.orc 20 ready2) network flex2 [flex2, flex, flex, irc] := hp1.wayBack (show EvenTail [flex, flex, flex2, flex2] from trivial)
  exact {
    reachable := ready2_reachable
    plain := rfl
    net := ready2_facts.1
    honest := hp
    measured := hm
    trip := ⟨_, e1, carried_order (r := 4986) (a := flex2) (rest := [flex2, flex, flex, irc]) hr1 hk1 hp2 (by rw [hkd]; decide +kernel) rfl (by decide) (by decide +kernel)
      (.tokens (request_requests (by nofun))) (by decide +kernel) (by decide +kernel)⟩ }

/-- C82: whatever the orders and whoever does it, at most 4995 of the 5000 come back. -/
example {w' : World} {s : Addr} {r p : Int} (h : PathTrip ready2 w' network s irc [flex, flex, flex2, flex2] 5000 r p) : p ≤ 4995 := by
  obtain ⟨p1, p2, p3, p4, p5, -⟩ := trip_pool
  have h1 := (C82_path h).2 flex flex [flex2, flex2] conv rfl ready2_facts.2.2.2.2.1
  rw [p3, p5, pow_one, pow_one] at h1
  omega

end
end Verif

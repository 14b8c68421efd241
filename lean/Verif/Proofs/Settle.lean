import Verif.Proofs.Succeeds
/-!
Who has what after a conversion along a path.
-/
set_option linter.unusedSimpArgs false
namespace Verif

variable {w w' u u' : World} {orc : Oracle} {n : Nat} {T t a b N R s f z : Addr} {v m r : Int} {d : Data} {x : Val}

theorem pay_bal {q y : Addr} : ((w.pay a s f v).tok q).bal y =
    (w.tok q).bal y - (if y = s ∧ q = a then v else 0) + (if y = f ∧ q = a then v else 0) := by
  unfold World.pay; rw [setTok_tok]; split
  · subst q; simp [moveBal]
  · rename_i h; simp [h]

theorem mint_bal {q y : Addr} : ((w.mint a s v).tok q).bal y = (w.tok q).bal y + (if y = s ∧ q = a then v else 0) := by
  unfold World.mint; rw [setTok_tok]; split
  · subst q; simp [gain]
  · rename_i h; simp [h]

theorem delivered_bal {q y : Addr} : ((u.delivered N z f r).tok q).bal y =
    (u.tok q).bal y - (if y = N ∧ q = z then r else 0) + (if u.net N z = false ∧ y = f ∧ q = z then r else 0) := by
  unfold World.delivered
  cases hn : u.net N z
  · rw [if_neg (by simp), pay_bal]; simp
  · rw [if_pos rfl]
    change ((u.mint z N (-r)).tok q).bal y = _
    rw [mint_bal]
    simp only [Bool.true_eq_false, false_and, if_false]
    split <;> omega

theorem delivered_coin {y : Addr} : (u.delivered N z f r).coin y =
    u.coin y - (if u.net N z = true ∧ y = z then r else 0) + (if u.net N z = true ∧ y = f then r else 0) := by
  unfold World.delivered
  cases hn : u.net N z
  · rw [if_neg (by simp)]; simp [World.pay]
  · rw [if_pos rfl, moveCoin_coin]; simp [mint_coin]

theorem settled_tokens {rest : List Addr} (hr : Route N m (w.pay a s N v) a rest v u' r) (hp : HonestPath w N a rest)
    (hp' : HonestPath (w.pay a s N v) N a rest) (hs : s ≠ N) (hf : f ≠ N)
    (hal : (u'.delivered N (lastOf a rest) f r).Alike w') : Settled w w' N s a (lastOf a rest) f v r false where
  tokens y hy hk q := by
    rw [hal.tok, delivered_bal, hr.net, hp.owner hr rfl hy hk, pay_bal, pay_net]
    simp [hy]
  network q := by
    rw [hal.tok, delivered_bal, hr.bal_net hp', pay_bal]
    simp only [hs.symm, hf.symm, false_and, and_false, if_false, true_and]
    generalize (if q = a then v else 0) = x1
    generalize (if q = lastOf a rest then r else 0) = x2
    omega
  coin y := by
    rw [hal.coin, delivered_coin, hr.coin, hr.net, pay_coin, pay_net]; simp

theorem settled_coin {rest : List Addr} (hr : Route N m (w.staked a N s v) a rest v u' r) (hp : HonestPath w N a rest)
    (hp' : HonestPath (w.staked a N s v) N a rest) (hf : f ≠ N)
    (hal : (u'.delivered N (lastOf a rest) f r).Alike w') : Settled w w' N s a (lastOf a rest) f v r true where
  tokens y hy hk q := by
    rw [hal.tok, delivered_bal, hr.net, hp.owner hr rfl hy hk]
    unfold World.staked
    rw [mint_bal, mint_net]
    simp only [hy, false_and, if_false, Bool.true_eq_false]
    change (w.tok q).bal y + 0 - 0 + (if w.net N (lastOf a rest) = false ∧ y = f ∧ q = lastOf a rest then r else 0) = _
    omega
  network q := by
    rw [hal.tok, delivered_bal, hr.bal_net hp', staked_bal_net]
    simp only [hf.symm, false_and, and_false, if_false, true_and]
    generalize (if q = a then v else 0) = x1
    generalize (if q = lastOf a rest then r else 0) = x2
    omega
  coin y := by
    rw [hal.coin, delivered_coin, hr.coin, hr.net]
    unfold World.staked
    rw [mint_coin, mint_net, moveCoin_coin, moveCoin_coin]
    change w.coin y - (if y = s then v else 0) + (if y = N then v else 0) - (if y = N then v else 0) + (if y = a then v else 0)
      - (if w.net N (lastOf a rest) = true ∧ y = lastOf a rest then r else 0) + (if w.net N (lastOf a rest) = true ∧ y = f then r else 0) = _
    simp only [true_and]
    generalize (if y = N then v else 0) = x1
    generalize (if y = s then v else 0) = x2
    generalize (if y = a then v else 0) = x3
    omega

/-- Tokens converted for an ordinary account. -/
theorem sent_settled (hI : Inv w) (hk : w.kind N = .net) {rest : List Addr} (hp : HonestPath w N a rest)
    (hd : Requests d s (a :: rest) m f) (hf : f.isContract = false) (hs : s ≠ N)
    (h : exec orc n s a 0 (.transfer N v (some d)) w = .ok (x, w')) :
    ∃ u' r, Route N m (w.pay a s N v) a rest v u' r ∧ HonestPath (w.pay a s N v) N a rest ∧ rest ≠ [] ∧ (stops rest).Nodup ∧
      m ≤ r ∧ 0 < r ∧ Settled w w' N s a (lastOf a rest) f v r false := by
  obtain ⟨h1, h2, h3, h4, u', r, n', w1, y, w2, hr, hal, _, h5, hal2, _⟩ := sent_route hI hk hp hd h
  have hp' : HonestPath (w.pay a s N v) N a rest := HonestPath.of (w := w) (w' := w.pay a s N v) rfl rfl (fun _ => ⟨rfl, rfl⟩) rfl hI.coin_nonneg hp
  have he := LegalPath.stops h3
  have hNc := hI.contract N (by rw [hk]; nofun)
  have hfN : f ≠ N := by rintro rfl; rw [hf] at hNc; cases hNc
  have := deliver_plain (by rw [hr.kind]; exact hp'.last he.1) hf (by rw [hr.kind]; exact kind_of_plain (w := w) hI hf) hal h5
  have hm := hr.min he.2.1
  exact ⟨u', r, hr, hp', he.2.1, he.2.2, hm.1, hm.2.1, settled_tokens hr hp hp' hs hfN (this.1.trans hal2)⟩

/-- Coin converted for an ordinary account. -/
theorem staked_settled (hI : Inv w) (hk : w.kind N = .net) {rest : List Addr} {p : List Char} {c : Call} (hp : HonestPath w N a rest)
    (ht : PathText p (a :: rest)) (hc : c = .convertFor p m f ∨ (c = .convert p m ∧ f = s)) (hf : f.isContract = false) (hs : s ≠ N)
    (h : exec orc n s N v c w = .ok (x, w')) :
    ∃ u' r, x = .int r ∧ Route N m (w.staked a N s v) a rest v u' r ∧ HonestPath (w.staked a N s v) N a rest ∧ rest ≠ [] ∧ (stops rest).Nodup ∧
      m ≤ r ∧ 0 < r ∧ Settled w w' N s a (lastOf a rest) f v r true := by
  obtain ⟨h1, h2, h3, h4, h5, h6, h7, h8, u', r, n', w1, y, hx, hr, hal, _, h9⟩ := staked_route hI hk hp ht hc h
  have he := LegalPath.stops h4
  have hv : 0 < v := (hr.min he.2.1).2.2
  have hcoin : ∀ y, 0 ≤ (w.staked a N s v).coin y := by
    unfold World.staked
    rw [mint_coin]
    refine moveCoin_nonneg (moveCoin_nonneg hI.coin_nonneg (by omega) h7) (by omega) ?_
    rw [moveCoin_coin, if_neg hs.symm, if_pos rfl]
    have := hI.coin_nonneg N; omega
  have hp' : HonestPath (w.staked a N s v) N a rest := HonestPath.of (w := w) (w' := w.staked a N s v) rfl rfl (fun _ => ⟨rfl, rfl⟩) rfl hcoin hp
  have := deliver_plain (by rw [hr.kind]; exact hp'.last he.1) hf (by rw [hr.kind]; exact kind_of_plain (w := w) hI hf) hal h9
  have hm := hr.min he.2.1
  exact ⟨u', r, hx, hr, hp', he.2.1, he.2.2, hm.1, hm.2.1, settled_coin hr hp hp' h3 this.1⟩

end Verif

import Verif.Props.Compare
import Verif.Lemmas.Fair

/-!
# C58: the trader gets the curve's price up to rounding

The other curve properties bound trades from the pool's side. This one bounds them from the trader's side.
-/

/-- The exact amount of a token that the configured curve exchanges between two prices. -/
def Spec.amountBetween (c : Dbc.PoolConfig) : Spec.Token → Nat → Nat → ℚ
  | .base, x, y => Spec.baseTo (Spec.curve c) (max x y) - Spec.baseTo (Spec.curve c) (min x y)
  | .quote, x, y => Spec.quoteTo (Spec.curve c) (max x y) - Spec.quoteTo (Spec.curve c) (min x y)

namespace Props
open Dbc Spec

/-- `y` lies on the side of `x` to which a trade moves the price. -/
def Ahead : TradeDirection → Nat → Nat → Prop
  | .quoteToBase, x, y => x ≤ y
  | .baseToQuote, x, y => y ≤ x

theorem downs_length (p : Point) (ps : List Point) : (downs (p :: ps)).length + 1 = (p :: ps).length := by
  induction ps generalizing p with
  | nil => rfl
  | cons q rest ih =>
    have := ih q
    simp only [downs, List.length_append, List.length_cons, List.length_nil] at this ⊢
    omega

/-- C58: if what the reserve received covers moving the curve to price `y`, with one unit per curve point and one more to
spare, the trader was given at least what the curve releases on the way to `y`, less the same number of units. Amounts are
those booked in the pool's reserves: input after fees, output before fees. -/
theorem C58_fair {w w' : World} (h : Reachable w) {a : SwapArgs} (hs : w.step (.swap a) = .ok w') {y : Nat}
    (hlo : w.cfg.sqrtStartPrice ≤ y) (hhi : y ≤ w.cfg.migrationSqrtPrice) (hy : Ahead a.dir w.pool.sqrtPrice y)
    (hpaid : amountBetween w.cfg (inToken a.dir) w.pool.sqrtPrice y + ((stored w.cfg.curve).length + 1) ≤
      (reserve w' (inToken a.dir) : ℚ) - reserve w (inToken a.dir)) :
    amountBetween w.cfg (outToken a.dir) w.pool.sqrtPrice y ≤
      ((reserve w (outToken a.dir) : ℚ) - reserve w' (outToken a.dir)) + ((stored w.cfg.curve).length + 1) := by
  obtain ⟨ps, hc⟩ := h.core
  have hg := hc.good
  have hp := hg.curve.proper
  have hpos := Dbc.Proper.lo_pos hp
  have hmig := hg.curve.migHi
  have hlo0 := hc.lo
  have hhi0 := hc.hi
  rw [curve_stored hg.curve] at hpaid ⊢
  obtain ⟨cur, fm, r, v1, v2, s⟩ := swap_ok hs
  have hres := hc.result s
  have hw := processSwap_walk s.proc
  have hpc := onPiece_curve hp
  have hup := chainUp_of hpc
  obtain ⟨m, start, hms, hst⟩ : ∃ m start, m = w.cfg.migrationSqrtPrice ∧ start = w.cfg.sqrtStartPrice := ⟨_, _, rfl, rfl⟩
  cases hd : a.dir with
  | quoteToBase =>
    rw [hd] at hy hpaid hw
    obtain ⟨e1, e2⟩ := s.buyRes hd
    have e3 := (hres.buy hd).2
    simp only [Ahead] at hy
    simp only [inToken, outToken, reserve, amountBetween, max_eq_right hy, min_eq_left hy, curve_eq hg.curve] at hpaid ⊢
    rw [e1] at hpaid
    rw [← e2]
    push_cast at hpaid ⊢
    rcases hw with ⟨am, wk, k1, k2, k3, k4⟩ | ⟨wk, k1, k2, k3, k4⟩
    · simp only [walkIn, buyIn_loop hg.curve] at k1
      obtain ⟨b1, b2⟩ := buyIn_fair hup hp hlo0 hhi0 hmig k1
      have hy2 := b2 y hy hhi (by
        have : (r.excludedIn : ℚ) ≤ am := by exact_mod_cast k3
        linarith)
      rw [k2] at e3
      have := (chainUp_mono hup hp hlo hy2 (by omega)).1
      have hk : ((r.out : ℚ) + outFee fm r) = wk.out := by exact_mod_cast k4
      push_cast at b1
      linarith
    · simp only [walkOut] at k1
      obtain ⟨b1, b2⟩ := buyOut_fair hup hp hlo0 (buyOut_loop hg.curve k1)
      rw [k3] at hpaid
      by_contra hcon
      have hy2 := b2 y hy (by omega) (by push_cast; linarith)
      have hge : w.pool.sqrtPrice ≤ wk.next := (buyOutLoop_grow hp hlo0 (buyOut_loop hg.curve k1)).1
      have := (chainUp_mono hup hp (le_trans hlo0 hge) hy2 (by omega)).2
      push_cast at b1
      linarith
  | baseToQuote =>
    rw [hd] at hy hpaid hw
    obtain ⟨e1, e2⟩ := s.sellRes hd
    simp only [Ahead] at hy
    simp only [inToken, outToken, reserve, amountBetween, max_eq_left hy, min_eq_right hy, curve_eq hg.curve] at hpaid ⊢
    rw [e1] at hpaid
    rw [← e2]
    push_cast at hpaid ⊢
    obtain ⟨q, qs, rfl⟩ : ∃ q qs, ps = q :: qs := by
      cases ps with
      | nil => exact absurd rfl hg.curve.nonempty
      | cons q qs => exact ⟨q, qs, rfl⟩
    have hl0 : w.cfg.liq0 = q.liq := by
      obtain ⟨n, hn⟩ := hg.curve.stored
      unfold PoolConfig.liq0
      rw [hn]
      rfl
    have hdn := chainDown_of hp hpc
    have hlen : (((downs (q :: qs)).length : ℚ) + 1) = (q :: qs).length := by exact_mod_cast downs_length q qs
    have htop : w.pool.sqrtPrice ≤ topPrice w.cfg.sqrtStartPrice (q :: qs) := by omega
    rcases hw with ⟨am, wk, k1, k2, k3, k4⟩ | ⟨wk, k1, k2, k3, k4⟩
    · simp only [walkIn] at k1
      rw [sellIn_down hg.curve hhi0, hl0] at k1
      obtain ⟨b1, b2⟩ := sellIn_fair hdn (downs_ok hp) hpos hlo0 htop k1
      rw [hlen] at b1 b2
      have hy2 := b2 y hlo hy (by
        have : (r.excludedIn : ℚ) ≤ am := by exact_mod_cast k3
        linarith)
      have hge := (sellDown_grow (downs_ok hp) hlo0 k1).2.1
      have := (chainUp_mono hup hp hge hy2 (by omega)).2
      have hk : ((r.out : ℚ) + outFee fm r) = wk.out := by exact_mod_cast k4
      push_cast at b1
      linarith
    · simp only [walkOut] at k1
      rw [sellOut_down hg.curve hhi0, hl0] at k1
      obtain ⟨b1, b2⟩ := sellOut_fair hdn (downs_ok hp) hpos hlo0 htop k1
      rw [hlen] at b1 b2
      rw [k3] at hpaid
      by_contra hcon
      have hy2 := b2 y hlo hy (by push_cast; linarith)
      have hle := (sellDownOut_grow (downs_ok hp) hlo0 k1).1
      have := (chainUp_mono hup hp hlo hy2 (by omega)).1
      push_cast at b1
      linarith

/-- The hypotheses of `C58_fair` for one trade and one price. -/
def PaysFor (w : World) (a : SwapArgs) (y : Nat) : Prop :=
  w.cfg.sqrtStartPrice ≤ y ∧ y ≤ w.cfg.migrationSqrtPrice ∧ Ahead a.dir w.pool.sqrtPrice y ∧
  ∃ w', w.step (.swap a) = .ok w' ∧
    amountBetween w.cfg (inToken a.dir) w.pool.sqrtPrice y + ((stored w.cfg.curve).length + 1) ≤
      (reserve w' (inToken a.dir) : ℚ) - reserve w (inToken a.dir) ∧
    100000000 < amountBetween w.cfg (outToken a.dir) w.pool.sqrtPrice y

/-- In a pool on a curve of two pieces, a buy and a sell, each with a price close to where it ends. Both trades are worth
more than 100000000 units at that price. -/
theorem C58_example : Reachable (Ex.after Ex.paramsA Ex.trading) ∧
    PaysFor (Ex.after Ex.paramsA Ex.trading) ⟨0, 1000000000, 0, .quoteToBase, true, ⟨500, 1000400⟩, Ex.txSwap⟩
      1382225162582541044 ∧
    PaysFor (Ex.after Ex.paramsA Ex.trading) ⟨2, 1000000000, 130000000000001, .baseToQuote, true, ⟨500, 1000400⟩, Ex.txSwap⟩
      1381926023019592703 := by
  refine ⟨Ex.reachTradingA, ⟨by decide +kernel, by decide +kernel, by unfold Ahead; decide +kernel,
    Ex.after Ex.paramsA (Ex.trading ++ [.swap ⟨0, 1000000000, 0, .quoteToBase, true, ⟨500, 1000400⟩, Ex.txSwap⟩]), ?_⟩,
    ⟨by decide +kernel, by decide +kernel, by unfold Ahead; decide +kernel,
    Ex.after Ex.paramsA (Ex.trading ++
      [.swap ⟨2, 1000000000, 130000000000001, .baseToQuote, true, ⟨500, 1000400⟩, Ex.txSwap⟩]), ?_⟩⟩ <;>
  decide +kernel

end Props

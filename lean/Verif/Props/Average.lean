import Verif.Props.Keep
import Verif.Spec.Average
import Verif.Lemmas.Average

/-!
# The average price of a trade: C84

A trade happens at an average price between the price displayed before it and the price displayed after it.
-/

namespace Props
open Dbc Spec

theorem worth_le {p : Nat} {b q : ℚ} (h : b * (p : ℚ) ^ 2 ≤ q * 2 ^ 128) : worth p b ≤ q := by
  unfold worth
  rw [div_pow, ← mul_div_assoc, div_le_iff₀ (by positivity)]
  calc b * (p : ℚ) ^ 2 ≤ q * 2 ^ 128 := h
    _ = q * (2 ^ 64) ^ 2 := by norm_num

theorem le_worth {p : Nat} {b q : ℚ} (h : q * 2 ^ 128 ≤ b * (p : ℚ) ^ 2) : q ≤ worth p b := by
  unfold worth
  rw [div_pow, ← mul_div_assoc, le_div_iff₀ (by positivity)]
  calc q * (2 ^ 64) ^ 2 = q * 2 ^ 128 := by norm_num
    _ ≤ b * (p : ℚ) ^ 2 := h

theorem worth_mono {p : Nat} {b b' : ℚ} (h : b ≤ b') : worth p b ≤ worth p b' := by
  unfold worth
  exact mul_le_mul_of_nonneg_right h (by positivity)

/-- C84, what the pool books: a buyer puts into the reserve at least what the base taken from it is worth
at the price displayed before the buy; a seller takes at most what the base put into it is worth at the price displayed before
the sell. -/
theorem C84_booked {w w' : World} (h : Reachable w) {a : SwapArgs} (hs : w.step (.swap a) = .ok w') :
    (a.dir = .quoteToBase → worth w.pool.sqrtPrice ((reserve w .base : ℚ) - reserve w' .base) ≤
      (reserve w' .quote : ℚ) - reserve w .quote) ∧
    (a.dir = .baseToQuote → (reserve w .quote : ℚ) - reserve w' .quote ≤
      worth w.pool.sqrtPrice ((reserve w' .base : ℚ) - reserve w .base)) := by
  have h8 := C08_rounds_for_pool h hs
  obtain ⟨ps, hc⟩ := h.core
  have hg := hc.good
  have hp := hg.curve.proper
  have hmig := hg.curve.migHi
  have hlo0 := hc.lo
  have hhi0 := hc.hi
  rw [curve_eq hg.curve] at h8
  have hup := chainUp_of (onPiece_curve hp)
  obtain ⟨ps', hc'⟩ := (h.step hs).core
  have hcfg := step_cfg hs
  have hlo' := hc'.lo
  have hhi' := hc'.hi
  rw [hcfg] at hlo' hhi'
  have hdir := C07_price_direction h hs
  refine ⟨fun hd => ?_, fun hd => ?_⟩
  · obtain ⟨g1, g2⟩ := h8.1 hd
    have hle := hdir.1 a rfl hd
    refine (worth_mono g2).trans ((worth_le ?_).trans g1)
    exact (chainUp_value hup hp hlo0 hle (by omega)).1
  · obtain ⟨g1, g2⟩ := h8.2 hd
    have hle := hdir.2.1 a rfl hd
    refine g2.trans ((le_worth ?_).trans (worth_mono g1))
    exact (chainUp_value hup hp hlo' hle (by omega)).2

theorem worth_nonneg {p : Nat} {b : ℚ} (h : 0 ≤ b) : 0 ≤ worth p b := by
  unfold worth
  positivity

theorem worth_price {p p' : Nat} {b : ℚ} (h : 0 ≤ b) (hp : p ≤ p') : worth p b ≤ worth p' b := by
  unfold worth
  have hp' : (p : ℚ) ≤ p' := by exact_mod_cast hp
  gcongr

/-- C84, before the trade: nobody trades at a better price than the one displayed before the trade. A buyer pays, fees
included, at least what the base received is worth at that price; a seller receives at most what the base paid is worth at
it. -/
theorem C84_no_better {w w' : World} (h : Reachable w) {a : SwapArgs} (hs : w.step (.swap a) = .ok w') :
    (a.dir = .quoteToBase → worth w.pool.sqrtPrice ((traderOut w' .base : ℚ) - traderOut w .base) ≤
      (traderIn w' .quote : ℚ) - traderIn w .quote) ∧
    (a.dir = .baseToQuote → (traderOut w' .quote : ℚ) - traderOut w .quote ≤
      worth w.pool.sqrtPrice ((traderIn w' .base : ℚ) - traderIn w .base)) := by
  have hb := C84_booked h hs
  obtain ⟨cur, fm, r, v1, v2, s⟩ := swap_ok hs
  have o := SwapStep.observed s
  have o1 := o.paid
  have o2 := o.got
  have k := SwapStep.reserves s
  refine ⟨fun hd => ?_, fun hd => ?_⟩
  · have hb := hb.1 hd
    have p1 := o1 .quote
    have p2 := o2 .base
    have kb := k .base
    have kq := k .quote
    rw [hd] at p1 p2 kb kq
    simp only [inToken, outToken, inTok_self, inTok_bq, inTok_qb, tradeOf] at p1 p2 kb kq
    have e1 : (traderOut w' .base : ℚ) - traderOut w .base ≤ (reserve w .base : ℚ) - reserve w' .base := by
      have : traderOut w' .base + reserve w' .base ≤ reserve w .base + traderOut w .base := by omega
      have : (traderOut w' .base : ℚ) + reserve w' .base ≤ reserve w .base + traderOut w .base := by exact_mod_cast this
      linarith
    have e2 : (reserve w' .quote : ℚ) - reserve w .quote ≤ (traderIn w' .quote : ℚ) - traderIn w .quote := by
      have : reserve w' .quote + traderIn w .quote ≤ traderIn w' .quote + reserve w .quote := by omega
      have : (reserve w' .quote : ℚ) + traderIn w .quote ≤ traderIn w' .quote + reserve w .quote := by exact_mod_cast this
      linarith
    exact (worth_mono e1).trans (hb.trans e2)
  · have hb := hb.2 hd
    have p1 := o1 .base
    have p2 := o2 .quote
    have kb := k .base
    have kq := k .quote
    rw [hd] at p1 p2 kb kq
    simp only [inToken, outToken, inTok_self, inTok_bq, inTok_qb, tradeOf] at p1 p2 kb kq
    have e1 : (traderOut w' .quote : ℚ) - traderOut w .quote ≤ (reserve w .quote : ℚ) - reserve w' .quote := by
      have : traderOut w' .quote + reserve w' .quote ≤ reserve w .quote + traderOut w .quote := by omega
      have : (traderOut w' .quote : ℚ) + reserve w' .quote ≤ reserve w .quote + traderOut w .quote := by exact_mod_cast this
      linarith
    have e2 : (reserve w' .base : ℚ) - reserve w .base ≤ (traderIn w' .base : ℚ) - traderIn w .base := by
      have : reserve w' .base + traderIn w .base ≤ traderIn w' .base + reserve w .base := by omega
      have : (reserve w' .base : ℚ) + traderIn w .base ≤ traderIn w' .base + reserve w .base := by exact_mod_cast this
      linarith
    exact e1.trans (hb.trans (worth_mono e2))

/-- C84, after the trade: up to rounding, nobody trades at a worse price than the one displayed after the trade. With `n`
curve points, what a buyer puts into the reserve is at most what the base taken and `n` units more are worth at that price,
and `n + 1` units of quote; what a seller takes from the reserve is at least what the base put into it, less `n` units, is
worth, less `n + 2` units of quote. Fees are left out: the amounts are those booked in the reserves. -/
theorem C84_no_worse {w w' : World} (h : Reachable w) {a : SwapArgs} (hs : w.step (.swap a) = .ok w') :
    (a.dir = .quoteToBase → (reserve w' .quote : ℚ) - reserve w .quote ≤
      worth w'.pool.sqrtPrice ((reserve w .base : ℚ) - reserve w' .base + (stored w.cfg.curve).length) +
        ((stored w.cfg.curve).length + 1)) ∧
    (a.dir = .baseToQuote →
      worth w'.pool.sqrtPrice ((reserve w' .base : ℚ) - reserve w .base - (stored w.cfg.curve).length) ≤
        (reserve w .quote : ℚ) - reserve w' .quote + ((stored w.cfg.curve).length + 2)) := by
  have h67 := C67_swap h hs
  have hdir := C07_price_direction h hs
  obtain ⟨ps', hc'⟩ := (h.step hs).core
  have hcfg := step_cfg hs
  have hlo' := hc'.lo
  have hhi' := hc'.hi
  rw [hcfg] at hlo' hhi'
  obtain ⟨ps, hc⟩ := h.core
  have hg := hc.good
  have hp := hg.curve.proper
  have hpos := Dbc.Proper.lo_pos hp
  have hmig := hg.curve.migHi
  have hlo0 := hc.lo
  have hhi0 := hc.hi
  have h2 : 2 ≤ w.cfg.sqrtStartPrice := by have := hg.startMin; unfold MIN_SQRT_PRICE at this; omega
  rw [curve_stored hg.curve]
  rw [curve_stored hg.curve, curve_eq hg.curve] at h67
  obtain ⟨cur, fm, r, v1, v2, s⟩ := swap_ok hs
  have hw := processSwap_used s.proc
  have hpc := onPiece_curve hp
  have hup := chainUp_of hpc
  have hpr := s.price
  have hn0 : (0 : ℚ) ≤ ps.length := by positivity
  refine ⟨fun hd => ?_, fun hd => ?_⟩
  · have hle := hdir.1 a rfl hd
    rw [hd] at hw
    obtain ⟨e1, e2⟩ := s.buyRes hd
    have hout : (reserve w .base : ℚ) - reserve w' .base = (r.out : ℚ) + outFee fm r := by
      simp only [reserve]; rw [← e2]; push_cast; ring
    rw [hout]
    refine h67.trans ?_
    suffices hq : quoteTo (segs w.cfg.sqrtStartPrice ps) w'.pool.sqrtPrice - quoteTo (segs w.cfg.sqrtStartPrice ps) w.pool.sqrtPrice ≤
        worth w'.pool.sqrtPrice ((r.out : ℚ) + outFee fm r + ps.length) + 1 by linarith
    rcases hw with ⟨am, wk, k1, k2, k3, k4⟩ | ⟨wk, k1, k2, k3⟩
    · simp only [walkIn, buyIn_loop hg.curve] at k1
      obtain ⟨b1, -⟩ := buyIn_fair hup hp hlo0 hhi0 hmig k1
      rw [← k2, ← hpr] at b1
      have hk : ((r.out : ℚ) + outFee fm r) = wk.out := by exact_mod_cast k4
      rw [hk]
      push_cast at b1
      have v := le_worth (chainUp_value hup hp hlo0 hle (by omega)).2
      rw [sub_zero] at b1
      have := worth_mono (p := w'.pool.sqrtPrice) b1
      linarith
    · simp only [walkOut] at k1
      obtain ⟨-, b2⟩ := buyOut_fair hup hp hlo0 (buyOut_loop hg.curve k1)
      rw [← k2, ← hpr] at b2
      by_cases heq : w'.pool.sqrtPrice = w.pool.sqrtPrice
      · rw [heq, sub_self]
        have := worth_nonneg (p := w.pool.sqrtPrice) (show (0 : ℚ) ≤ (r.out : ℚ) + outFee fm r + ps.length by positivity)
        linarith
      · obtain ⟨y, hy⟩ : ∃ y, w'.pool.sqrtPrice = y + 1 := ⟨w'.pool.sqrtPrice - 1, by omega⟩
        rw [hy] at b2 hle hhi' heq ⊢
        have hb : baseTo (segs w.cfg.sqrtStartPrice ps) y - baseTo (segs w.cfg.sqrtStartPrice ps) w.pool.sqrtPrice ≤
            (r.out : ℚ) + outFee fm r + ps.length := by
          by_contra hcon
          have := b2 y (by omega) (by omega) (by push_cast; linarith)
          omega
        have v := le_worth (chainUp_value hup hp hlo0 (by omega : w.pool.sqrtPrice ≤ y) (by omega)).2
        have t := chainUp_tick hup hg.liqMax (y := y) (by omega) (by omega)
        have m1 := worth_mono (p := y) hb
        have m2 := worth_price (p := y) (p' := y + 1) (show (0 : ℚ) ≤ (r.out : ℚ) + outFee fm r + ps.length by positivity)
          (by omega)
        linarith
  · have hle := hdir.2.1 a rfl hd
    rw [hd] at hw
    obtain ⟨e1, e2⟩ := s.sellRes hd
    have hin : (reserve w' .base : ℚ) - reserve w .base = (r.excludedIn : ℚ) := by
      simp only [reserve]; rw [e1]; push_cast; ring
    rw [hin]
    obtain ⟨q, qs, rfl⟩ : ∃ q qs, ps = q :: qs := by
      cases ps with
      | nil => exact absurd rfl hg.curve.nonempty
      | cons q qs => exact ⟨q, qs, rfl⟩
    have hl0 : w.cfg.liq0 = q.liq := by
      obtain ⟨n, hn⟩ := hg.curve.stored
      unfold PoolConfig.liq0
      rw [hn]
      rfl
    have hdn := chainDown_of hp hpc
    have hlen : (((downs (q :: qs)).length : ℚ) + 1) = (q :: qs).length := by exact_mod_cast downs_length q qs
    have htop : w.pool.sqrtPrice ≤ topPrice w.cfg.sqrtStartPrice (q :: qs) := by omega
    have v := (chainUp_value hup hp hlo' hle htop).1
    have v' := worth_le v
    have hq : quoteTo (segs w.cfg.sqrtStartPrice (q :: qs)) w.pool.sqrtPrice -
        quoteTo (segs w.cfg.sqrtStartPrice (q :: qs)) w'.pool.sqrtPrice ≤
        (reserve w .quote : ℚ) - reserve w' .quote + (q :: qs).length := by linarith
    rcases hw with ⟨am, wk, k1, k2, k3, k4⟩ | ⟨wk, k1, k2, k3⟩
    · simp only [walkIn] at k1
      rw [sellIn_down hg.curve hhi0, hl0] at k1
      have b1 := sellIn_used hdn (downs_ok hp) (hg.liqMax q (by simp)) (downs_liq hg.liqMax) h2 hlo0 htop k1
      rw [hlen, ← k2, ← hpr] at b1
      have hk : (am : ℚ) - wk.left = r.excludedIn := by
        have : (r.excludedIn : ℚ) + wk.left = am := by exact_mod_cast k3
        linarith
      rw [hk] at b1
      refine worth_le ?_
      have hq' := mul_le_mul_of_nonneg_right hq (show (0 : ℚ) ≤ 2 ^ 128 by positivity)
      linarith
    · simp only [walkOut] at k1
      rw [sellOut_down hg.curve hhi0, hl0] at k1
      obtain ⟨b1, -⟩ := sellOut_fair hdn (downs_ok hp) hpos hlo0 htop k1
      rw [hlen, ← k2, ← hpr, ← k3] at b1
      push_cast at b1
      have := worth_mono (p := w'.pool.sqrtPrice) (show (r.excludedIn : ℚ) - (q :: qs).length ≤
        baseTo (segs w.cfg.sqrtStartPrice (q :: qs)) w.pool.sqrtPrice -
          baseTo (segs w.cfg.sqrtStartPrice (q :: qs)) w'.pool.sqrtPrice by push_cast; linarith)
      linarith

/-- A trade that goes through, moves the price and books more than 100000000 units on both sides. -/
def Moves (w : World) (a : SwapArgs) : Prop :=
  ∃ w', w.step (.swap a) = .ok w' ∧ w'.pool.sqrtPrice ≠ w.pool.sqrtPrice ∧
    100000000 < reserve w' (inToken a.dir) - reserve w (inToken a.dir) ∧
    100000000 < reserve w (outToken a.dir) - reserve w' (outToken a.dir)

/-- In a pool on a curve of two pieces, such a buy and such a sell. -/
theorem C84_example : Reachable (Ex.after Ex.paramsA Ex.trading) ∧
    Moves (Ex.after Ex.paramsA Ex.trading) ⟨0, 1000000000, 0, .quoteToBase, true, ⟨500, 1000400⟩, Ex.txSwap⟩ ∧
    Moves (Ex.after Ex.paramsA Ex.trading)
      ⟨2, 1000000000, 130000000000001, .baseToQuote, true, ⟨500, 1000400⟩, Ex.txSwap⟩ := by
  refine ⟨Ex.reachTradingA,
    ⟨Ex.after Ex.paramsA (Ex.trading ++ [.swap ⟨0, 1000000000, 0, .quoteToBase, true, ⟨500, 1000400⟩, Ex.txSwap⟩]), ?_⟩,
    ⟨Ex.after Ex.paramsA (Ex.trading ++
      [.swap ⟨2, 1000000000, 130000000000001, .baseToQuote, true, ⟨500, 1000400⟩, Ex.txSwap⟩]), ?_⟩⟩ <;>
  decide +kernel

end Props

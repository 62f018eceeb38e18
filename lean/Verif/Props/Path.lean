import Verif.Props.Sold
import Verif.Props.Direct

/-!
# Where a pool stands depends on what it has collected, not on how: C96
-/

namespace Props
open Dbc Spec

/-- C96: two histories of pools of one configuration (or of one pool), the second with `k` swaps, on a curve of `n` points. If the first
has collected no more quote than the second, its price is no higher, up to `k * n` quote units along the curve, and it
has sold no more base, up to `k * n` units and what `(2 + n) * k` quote units buy at the start price. -/
theorem C96_collected {v0 v w0 w : World} {opsv opsw : List Op} (hv : Genesis v0) (hw : Genesis w0) (hcfg : v0.cfg = w0.cfg)
    (rv : Run v0 opsv v) (rw' : Run w0 opsw w) (hq : reserve v .quote ≤ reserve w .quote) :
    quoteTo (Spec.curve w.cfg) v.pool.sqrtPrice ≤
      quoteTo (Spec.curve w.cfg) w.pool.sqrtPrice + (swaps opsw : ℚ) * (stored w.cfg.curve).length ∧
    worth w.cfg.sqrtStartPrice (((reserve v0 .base : ℚ) - reserve v .base) - ((reserve w0 .base : ℚ) - reserve w .base) -
        (swaps opsw : ℚ) * (stored w.cfg.curve).length) ≤
      (2 + (stored w.cfg.curve).length) * (swaps opsw : ℚ) := by
  have s1 := (C95_sold hv rv).1
  obtain ⟨-, s2⟩ := C95_sold hw rw'
  have q1 := (C67_tracks hv rv).1
  have q2 := (C67_tracks hw rw').2
  have ecfg : v.cfg = w.cfg := by
    rw [(backed_run hv.reachable rv).cfg, (backed_run hw.reachable rw').cfg, hcfg]
  have lov := start_le (hv.reachable.run rv)
  have hiv := (C07_price_range (hv.reachable.run rv)).2
  rw [ecfg] at s1 q1 lov hiv
  have hq' : (reserve v .quote : ℚ) ≤ reserve w .quote := by exact_mod_cast hq
  refine ⟨by linarith, ?_⟩
  obtain ⟨ps, hc⟩ := (hw.reachable.run rw').core
  have hg := hc.good
  have hp := hg.curve.proper
  have hup := chainUp_of (onPiece_curve hp)
  have hlo := hc.lo
  have hhi := hc.hi
  have htop := hg.curve.migHi
  rw [curve_eq hg.curve] at s1 s2 q1 q2
  have v' : worth w.cfg.sqrtStartPrice (baseTo (segs w.cfg.sqrtStartPrice ps) v.pool.sqrtPrice -
      baseTo (segs w.cfg.sqrtStartPrice ps) w.pool.sqrtPrice) ≤ (swaps opsw : ℚ) * (stored w.cfg.curve).length := by
    by_cases hle : v.pool.sqrtPrice ≤ w.pool.sqrtPrice
    · have m := (chainUp_mono hup hp lov hle (hhi.trans htop)).1
      refine (worth_mono (b' := 0) (by linarith)).trans ?_
      unfold worth
      rw [zero_mul]
      positivity
    · have := (chainUp_value hup hp hlo (Nat.le_of_not_le hle) (hiv.trans htop)).1
      exact worth_start hlo (by positivity) (this.trans (mul_le_mul_of_nonneg_right (by linarith) (by positivity)))
  have e := worth_add w.cfg.sqrtStartPrice
    (baseTo (segs w.cfg.sqrtStartPrice ps) v.pool.sqrtPrice - baseTo (segs w.cfg.sqrtStartPrice ps) w.pool.sqrtPrice)
    (baseTo (segs w.cfg.sqrtStartPrice ps) w.pool.sqrtPrice - ((reserve w0 .base : ℚ) - reserve w .base) -
      (swaps opsw : ℚ) * (stored w.cfg.curve).length)
  exact (worth_mono (by linarith)).trans ((e.le.trans (add_le_add v' s2)).trans (by linarith))

/-- C96, a fork: two ways in which the history of a pool can go on from any state, the second with `k` swaps. Only the swaps
since the fork count. -/
theorem C96_fork {w v u : World} {opsv opsu : List Op} (h : Reachable w) (rv : Run w opsv v) (ru : Run w opsu u)
    (hq : reserve v .quote ≤ reserve u .quote) :
    quoteTo (Spec.curve w.cfg) v.pool.sqrtPrice ≤
      quoteTo (Spec.curve w.cfg) u.pool.sqrtPrice + (swaps opsu : ℚ) * (stored w.cfg.curve).length ∧
    worth w.cfg.sqrtStartPrice ((reserve u .base : ℚ) - reserve v .base - (swaps opsu : ℚ) * (stored w.cfg.curve).length) ≤
      (2 + (stored w.cfg.curve).length) * (swaps opsu : ℚ) := by
  have s1 := (C95_history h rv).1
  obtain ⟨-, s2⟩ := C95_history h ru
  have q1 := (C67_history h rv).1
  have q2 := (C67_history h ru).2
  have ev := (backed_run h rv).cfg
  have eu := (backed_run h ru).cfg
  have lov := start_le (h.run rv)
  have lou := start_le (h.run ru)
  have hiv := (C07_price_range (h.run rv)).2
  have hiu := (C07_price_range (h.run ru)).2
  rw [ev] at lov hiv
  rw [eu] at lou hiu
  have hq' : (reserve v .quote : ℚ) ≤ reserve u .quote := by exact_mod_cast hq
  refine ⟨by linarith, ?_⟩
  obtain ⟨ps, hc⟩ := h.core
  have hg := hc.good
  have hp := hg.curve.proper
  have hup := chainUp_of (onPiece_curve hp)
  have htop := hg.curve.migHi
  rw [curve_eq hg.curve] at s1 s2 q1 q2
  have v' : worth w.cfg.sqrtStartPrice (baseTo (segs w.cfg.sqrtStartPrice ps) v.pool.sqrtPrice -
      baseTo (segs w.cfg.sqrtStartPrice ps) u.pool.sqrtPrice) ≤ (swaps opsu : ℚ) * (stored w.cfg.curve).length := by
    by_cases hle : v.pool.sqrtPrice ≤ u.pool.sqrtPrice
    · have m := (chainUp_mono hup hp lov hle (hiu.trans htop)).1
      refine (worth_mono (b' := 0) (by linarith)).trans ?_
      unfold worth
      rw [zero_mul]
      positivity
    · have := (chainUp_value hup hp lou (Nat.le_of_not_le hle) (hiv.trans htop)).1
      exact worth_start lou (by positivity) (this.trans (mul_le_mul_of_nonneg_right (by linarith) (by positivity)))
  have e := worth_add w.cfg.sqrtStartPrice
    (baseTo (segs w.cfg.sqrtStartPrice ps) v.pool.sqrtPrice - baseTo (segs w.cfg.sqrtStartPrice ps) u.pool.sqrtPrice)
    (baseTo (segs w.cfg.sqrtStartPrice ps) u.pool.sqrtPrice - baseTo (segs w.cfg.sqrtStartPrice ps) w.pool.sqrtPrice -
      ((reserve w .base : ℚ) - reserve u .base) - (swaps opsu : ℚ) * (stored w.cfg.curve).length)
  exact (worth_mono (by linarith)).trans ((e.le.trans (add_le_add v' s2)).trans (by linarith))

/-! ### Concrete cases -/

def firstBuy : SwapArgs := Ex.oneWay .quoteToBase 2000000000001 false 1001310
def secondBuy : SwapArgs := Ex.oneWay .quoteToBase 3000000000003 false 1001310
def wholeInOne : SwapArgs := Ex.oneWay .quoteToBase 5000000000004 false 1001310

/-- Two buys in either order, or made as one, from a pool that has been trading: the same quote is collected and the same base
sold, and the prices differ in the last digit at most. And two histories of one configuration, one of which has collected less. -/
theorem C96_example :
    (Reachable (sandwiched []) ∧
      Run (sandwiched []) [.swap firstBuy, .swap secondBuy] (sandwiched [firstBuy, secondBuy]) ∧
      Run (sandwiched []) [.swap secondBuy, .swap firstBuy] (sandwiched [secondBuy, firstBuy]) ∧
      Run (sandwiched []) [.swap wholeInOne] (sandwiched [wholeInOne])) ∧
    (∀ l ∈ [[firstBuy, secondBuy], [secondBuy, firstBuy], [wholeInOne]],
      reserve (sandwiched l) .quote = 6586159648132 ∧ reserve (sandwiched l) .base = 725795452100359) ∧
    (sandwiched [firstBuy, secondBuy]).pool.sqrtPrice + 1 = (sandwiched [wholeInOne]).pool.sqrtPrice ∧
    (Genesis (_root_.Ex.worldOf _root_.Ex.paramsA) ∧
      Run (_root_.Ex.worldOf _root_.Ex.paramsA) _root_.Ex.trading _root_.Ex.tradingA ∧
      Run (_root_.Ex.worldOf _root_.Ex.paramsA) _root_.Ex.churned _root_.Ex.pendingA ∧
      reserve _root_.Ex.tradingA .quote < reserve _root_.Ex.pendingA .quote) := by
  refine ⟨⟨_root_.Ex.reachTradingC, ?_, ?_, Run.single (by decide +kernel)⟩, by decide +kernel, by decide +kernel,
    _root_.Ex.genesisA, _root_.Ex.exec_run _root_.Ex.execTradingA, _root_.Ex.exec_run (by decide +kernel), by decide +kernel⟩
  · exact .cons (w1 := sandwiched [firstBuy]) (by decide +kernel) (Run.single (by decide +kernel))
  · exact .cons (w1 := sandwiched [secondBuy]) (by decide +kernel) (Run.single (by decide +kernel))

end Props

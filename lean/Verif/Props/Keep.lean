import Verif.Props.Extract
import Verif.Props.Fair
import Verif.Lemmas.Keep

/-!
# The quote reserve stays with the curve: C67

C10 says that the reserve is never less than the curve asks for. This is the other side.
-/

namespace Props
open Dbc Spec

/-- The number of swaps in a history. -/
def swaps (ops : List Op) : Nat := ops.countP isSwap

/-- One swap adds to the quote reserve at most what the curve asks for the price move and one unit per curve point; a sell takes
from it at least what the curve pays for the price move, less the same. -/
theorem C67_swap {w w' : World} (h : Reachable w) {a : SwapArgs} (hs : w.step (.swap a) = .ok w') :
    (reserve w' .quote : ℚ) - reserve w .quote ≤
      quoteTo (Spec.curve w.cfg) w'.pool.sqrtPrice - quoteTo (Spec.curve w.cfg) w.pool.sqrtPrice +
        (stored w.cfg.curve).length := by
  obtain ⟨ps, hc⟩ := h.core
  have hg := hc.good
  have hp := hg.curve.proper
  have hpos := Dbc.Proper.lo_pos hp
  have hmig := hg.curve.migHi
  have hlo0 := hc.lo
  have hhi0 := hc.hi
  rw [curve_stored hg.curve, curve_eq hg.curve]
  obtain ⟨cur, fm, r, v1, v2, s⟩ := swap_ok hs
  have hw := processSwap_used s.proc
  have hpc := onPiece_curve hp
  have hup := chainUp_of hpc
  rw [s.price]
  simp only [reserve]
  cases hd : a.dir with
  | quoteToBase =>
    rw [hd] at hw
    obtain ⟨e1, e2⟩ := s.buyRes hd
    rw [e1]
    push_cast
    rcases hw with ⟨am, wk, k1, k2, k3, k4⟩ | ⟨wk, k1, k2, k3⟩
    · simp only [walkIn, buyIn_loop hg.curve] at k1
      have b1 := buyIn_keep hup hp hg.liqMax hlo0 k1
      have hk : (r.excludedIn : ℚ) + wk.left = am := by exact_mod_cast k3
      rw [k2]
      linarith
    · simp only [walkOut] at k1
      obtain ⟨b1, -⟩ := buyOut_fair hup hp hlo0 (buyOut_loop hg.curve k1)
      rw [k2, k3]
      push_cast at b1
      linarith
  | baseToQuote =>
    rw [hd] at hw
    obtain ⟨e1, e2⟩ := s.sellRes hd
    rw [← e2]
    push_cast
    obtain ⟨q, qs, rfl⟩ : ∃ q qs, ps = q :: qs := by
      cases ps with
      | nil => exact absurd rfl hg.curve.nonempty
      | cons q qs => exact ⟨q, qs, rfl⟩
    have hl0 : w.cfg.liq0 = q.liq := by
      obtain ⟨n, hn⟩ := hg.curve.stored
      unfold PoolConfig.liq0
      rw [hn]
      rfl
    have hdn := chainDown_of hp hpc
    have hlen : (((downs (q :: qs)).length : ℚ) + 1) = (q :: qs).length := by exact_mod_cast downs_length q qs
    have htop : w.pool.sqrtPrice ≤ topPrice w.cfg.sqrtStartPrice (q :: qs) := by omega
    rcases hw with ⟨am, wk, k1, k2, k3, k4⟩ | ⟨wk, k1, k2, k3⟩
    · simp only [walkIn] at k1
      rw [sellIn_down hg.curve hhi0, hl0] at k1
      obtain ⟨b1, -⟩ := sellIn_fair hdn (downs_ok hp) hpos hlo0 htop k1
      rw [hlen] at b1
      have hk : ((r.out : ℚ) + outFee fm r) = wk.out := by exact_mod_cast k4
      rw [k2]
      push_cast at b1
      linarith
    · simp only [walkOut] at k1
      rw [sellOut_down hg.curve hhi0, hl0] at k1
      have b1 := sellOut_keep hdn (downs_ok hp) (hg.liqMax q (by simp)) (downs_liq hg.liqMax) hlo0 htop k1
      rw [hlen] at b1
      rw [k2]
      push_cast at b1
      linarith

/-- Over any history, the quote reserve grows by what the curve asks for the price move, and by at most one unit more per swap
and curve point. -/
theorem C67_history {w w' : World} {ops : List Op} (h : Reachable w) (hr : Run w ops w') :
    quoteTo (Spec.curve w.cfg) w'.pool.sqrtPrice - quoteTo (Spec.curve w.cfg) w.pool.sqrtPrice ≤
      (reserve w' .quote : ℚ) - reserve w .quote ∧
    (reserve w' .quote : ℚ) - reserve w .quote ≤
      quoteTo (Spec.curve w.cfg) w'.pool.sqrtPrice - quoteTo (Spec.curve w.cfg) w.pool.sqrtPrice +
        (swaps ops : ℚ) * (stored w.cfg.curve).length := by
  refine ⟨(backed_run h hr).quote, ?_⟩
  induction hr with
  | nil w => simp [swaps]
  | @cons w w1 w' op ops hs hr ih =>
    have ih := ih (h.step hs)
    have hcfg := step_cfg hs
    rw [hcfg] at ih
    unfold swaps at ih ⊢
    rw [List.countP_cons]
    rcases step_cases hs with ⟨a, rfl, _⟩ | hk
    · have := C67_swap h hs
      rw [if_pos (show isSwap (.swap a) = true from rfl)]
      push_cast
      linarith
    · obtain ⟨e0, _, e1, e2, e3, _⟩ := hk
      rw [e1] at ih
      simp only [reserve, e3] at ih ⊢
      have : (0 : ℚ) ≤ (stored w.cfg.curve).length := by positivity
      split
      · push_cast; linarith
      · simpa using ih

theorem quoteTo_start {lo : Nat} {ps : List Point} (h : Proper lo ps) : quoteTo (segs lo ps) lo = 0 := by
  suffices ∀ {P : Nat}, P ≤ lo → quoteTo (segs lo ps) P = 0 from this le_rfl
  unfold quoteTo
  induction ps generalizing lo with
  | nil => intro P _; exact total_nil _ lo P
  | cons p ps ih =>
    intro P hP
    simp only [Proper] at h
    rw [total_cons, ih h.2.2.2 (by omega), clamp_below (by exact hP)]
    simp [quoteSeg]

theorem quoteTo_le_up {lo : Nat} {ps : List Point} {P : Nat} :
    quoteTo (segs lo ps) P ≤ (quoteToUp (segs lo ps) P : Nat) := by
  unfold quoteTo quoteToUp
  induction ps generalizing lo with
  | nil => rw [total_nil, total_nil, Nat.cast_zero]
  | cons p ps ih =>
    rw [total_cons, total_cons, Nat.cast_add]
    refine add_le_add ?_ ih
    have hx : lo ≤ clamp ⟨lo, p.price, p.liq⟩ P := by unfold clamp; exact Nat.le_max_left ..
    generalize clamp ⟨lo, p.price, p.liq⟩ P = x at hx
    have := (cast_divCeil (a := p.liq * (x - lo)) (b := 2 ^ 128) (by positivity)).1
    unfold quoteSeg quoteSegUp
    rw [show (p.liq * (x - lo) + (2 ^ 128 - 1)) / 2 ^ 128 = divCeil (p.liq * (x - lo)) (2 ^ 128) from rfl]
    push_cast [Nat.cast_sub hx] at this
    exact_mod_cast this

/-- C67: in a pool created with a configuration of `n` points, after any history with `k` swaps the quote reserve is the exact
cost of moving the curve from its start to the current price, or more by at most `k * n` units. -/
theorem C67_tracks {w0 w : World} {ops : List Op} (h0 : Genesis w0) (hr : Run w0 ops w) :
    quoteTo (Spec.curve w.cfg) w.pool.sqrtPrice ≤ reserve w .quote ∧
    (reserve w .quote : ℚ) ≤ quoteTo (Spec.curve w.cfg) w.pool.sqrtPrice + (swaps ops : ℚ) * (stored w.cfg.curve).length := by
  have h := C67_history h0.reachable hr
  have hcfg := (backed_run h0.reachable hr).cfg
  obtain ⟨ps, hc⟩ := h0.core
  have e := quoteTo_start hc.good.curve.proper
  rw [← curve_eq hc.good.curve] at e
  obtain ⟨p, env, a, c, ht, hcr, hi⟩ := h0
  obtain ⟨supply, mint, upd, act, b, h1, h2, h3, h4, h5, h6, h7, h8, rfl⟩ := initPool_ok hi
  rw [hcfg]
  simp only [reserve, Pool.initial] at h e ⊢
  rw [e] at h
  simpa using h

/-- C67, at the end: however the curve was completed, the quote above the migration threshold, which partner, creator and
protocol share, is at most `k * n` units. -/
theorem C67_surplus {w0 w : World} {ops : List Op} (h0 : Genesis w0) (hr : Run w0 ops w) :
    surplus w ≤ swaps ops * (stored w.cfg.curve).length := by
  obtain ⟨-, h2⟩ := C67_tracks h0 hr
  obtain ⟨ps, hc⟩ := (h0.reachable.run hr).core
  have hg := hc.good
  have hup := quoteTo_le_up (lo := w.cfg.sqrtStartPrice) (ps := ps) (P := w.pool.sqrtPrice)
  have hm : quoteToUp (segs w.cfg.sqrtStartPrice ps) w.pool.sqrtPrice ≤ w.cfg.migrationQuoteThreshold := by
    rw [← hg.cost]
    exact quoteToUp_mono hg.curve.proper hc.hi
  rw [curve_eq hg.curve] at h2
  have hm' : ((quoteToUp (segs w.cfg.sqrtStartPrice ps) w.pool.sqrtPrice : Nat) : ℚ) ≤ w.cfg.migrationQuoteThreshold := by
    exact_mod_cast hm
  have : (reserve w .quote : ℚ) ≤ ((w.cfg.migrationQuoteThreshold + swaps ops * (stored w.cfg.curve).length : Nat) : ℚ) := by
    push_cast
    linarith
  have : reserve w .quote ≤ w.cfg.migrationQuoteThreshold + swaps ops * (stored w.cfg.curve).length := by exact_mod_cast this
  unfold surplus
  simp only [reserve] at this
  omega

/-- A history with buys and sells on a curve of two pieces, where the reserve holds more than the curve asks for; and one that
completes the curve and leaves a surplus. -/
theorem C67_example : Genesis (Ex.worldOf Ex.paramsA) ∧ Run (Ex.worldOf Ex.paramsA) Ex.trading Ex.tradingA ∧
    2 < swaps Ex.trading ∧ (stored Ex.tradingA.cfg.curve).length = 2 ∧
    quoteTo (Spec.curve Ex.tradingA.cfg) Ex.tradingA.pool.sqrtPrice < reserve Ex.tradingA .quote ∧
    Run (Ex.worldOf Ex.paramsA) Ex.churned Ex.pendingA ∧ 0 < surplus Ex.pendingA := by
  refine ⟨Ex.genesisA, Ex.exec_run Ex.execTradingA, ?_, ?_, ?_, Ex.exec_run (by decide +kernel), ?_⟩ <;> decide +kernel

end Props

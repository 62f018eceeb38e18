import Verif.Props.Better
import Verif.Props.Keep

/-!
# The curve sells what it promises: C95
-/

namespace Props
open Dbc Spec

theorem start_le {w : World} (h : Reachable w) : w.cfg.sqrtStartPrice ≤ w.pool.sqrtPrice := by
  obtain ⟨ps, hc⟩ := h.core
  exact hc.lo

/-- An amount worth at most `q` at some price is worth at most `q` at every lower price. -/
theorem worth_start {s p : Nat} {b q : ℚ} (hp : s ≤ p) (hq : 0 ≤ q) (h : b * (p : ℚ) ^ 2 ≤ q * 2 ^ 128) : worth s b ≤ q := by
  by_cases hb : 0 ≤ b
  · exact (worth_price hb hp).trans (worth_le h)
  · have : worth s b ≤ worth s 0 := worth_mono (by linarith)
    rw [show worth s 0 = 0 by unfold worth; ring] at this
    linarith

/-- C95, one swap: the base that leaves the reserve falls short of what the curve gives for the price move by at most one unit
per curve point and what two units of quote buy at the start price; a sale likewise puts in no more than that. -/
theorem C95_swap {w w' : World} (h : Reachable w) {a : SwapArgs} (hs : w.step (.swap a) = .ok w') :
    worth w.cfg.sqrtStartPrice (baseTo (Spec.curve w.cfg) w'.pool.sqrtPrice - baseTo (Spec.curve w.cfg) w.pool.sqrtPrice -
      ((reserve w .base : ℚ) - reserve w' .base) - (stored w.cfg.curve).length) ≤ 2 := by
  have hlo' := start_le (h.step hs)
  rw [step_cfg hs] at hlo'
  cases hd : a.dir with
  | baseToQuote =>
    have f := sell_end h hs hd
    refine worth_start hlo' (by norm_num) (le_trans (le_of_eq ?_) f)
    ring
  | quoteToBase =>
    have hle := (C07_price_direction h hs).1 a rfl hd
    obtain ⟨ps', hc'⟩ := (h.step hs).core
    have hcfg := step_cfg hs
    have hhi' := hc'.hi
    rw [hcfg] at hhi'
    obtain ⟨ps, hc⟩ := h.core
    have hg := hc.good
    have hp := hg.curve.proper
    have hmig := hg.curve.migHi
    have hlo0 := hc.lo
    have hhi0 := hc.hi
    rw [curve_stored hg.curve, curve_eq hg.curve]
    obtain ⟨cur, fm, r, v1, v2, s⟩ := swap_ok hs
    have hw := processSwap_used s.proc
    have hup := chainUp_of (onPiece_curve hp)
    have hpr := s.price
    rw [hd] at hw
    obtain ⟨e1, e2⟩ := s.buyRes hd
    have hout : (reserve w .base : ℚ) - reserve w' .base = (r.out : ℚ) + outFee fm r := by
      simp only [reserve]; rw [← e2]; push_cast; ring
    rw [hout]
    rcases hw with ⟨am, wk, k1, k2, k3, k4⟩ | ⟨wk, k1, k2, k3⟩
    · simp only [walkIn, buyIn_loop hg.curve] at k1
      obtain ⟨b1, -⟩ := buyIn_fair hup hp hlo0 hhi0 hmig k1
      rw [← k2, ← hpr] at b1
      have hk : ((r.out : ℚ) + outFee fm r) = wk.out := by exact_mod_cast k4
      rw [hk]
      push_cast at b1
      refine worth_start (p := w'.pool.sqrtPrice) hlo' (by norm_num) ?_
      refine (mul_nonpos_of_nonpos_of_nonneg (by linarith) (by positivity)).trans (by norm_num)
    · simp only [walkOut] at k1
      obtain ⟨-, b2⟩ := buyOut_fair hup hp hlo0 (buyOut_loop hg.curve k1)
      rw [← k2, ← hpr] at b2
      by_cases heq : w'.pool.sqrtPrice = w.pool.sqrtPrice
      · rw [heq, sub_self]
        refine worth_start (p := w'.pool.sqrtPrice) hlo' (by norm_num) ?_
        refine (mul_nonpos_of_nonpos_of_nonneg ?_ (by positivity)).trans (by norm_num)
        have : (0 : ℚ) ≤ (r.out : ℚ) + outFee fm r + ps.length := by positivity
        linarith
      · obtain ⟨y, hy⟩ : ∃ y, w'.pool.sqrtPrice = y + 1 := ⟨w'.pool.sqrtPrice - 1, by omega⟩
        rw [hy] at b2 hle hhi' heq hlo' ⊢
        have t := chainUp_tick hup hg.liqMax (y := y) (by omega) (by omega)
        have v := (chainUp_value hup hp (x := y) (y := y + 1) (by omega) (by omega) (by omega)).1
        have hby : baseTo (segs w.cfg.sqrtStartPrice ps) y - baseTo (segs w.cfg.sqrtStartPrice ps) w.pool.sqrtPrice ≤
            (r.out : ℚ) + outFee fm r + ps.length := by
          by_contra hcon
          have := b2 y (by omega) (by omega) (by push_cast; linarith)
          omega
        refine worth_start (p := y) (by omega) (by norm_num) ?_
        have h0 : (0 : ℚ) ≤ (y : ℚ) ^ 2 := by positivity
        have m := mul_le_mul_of_nonneg_right (show baseTo (segs w.cfg.sqrtStartPrice ps) (y + 1) -
          baseTo (segs w.cfg.sqrtStartPrice ps) w.pool.sqrtPrice - ((r.out : ℚ) + outFee fm r) - ps.length ≤
          baseTo (segs w.cfg.sqrtStartPrice ps) (y + 1) - baseTo (segs w.cfg.sqrtStartPrice ps) y by linarith) h0
        have t' := mul_le_mul_of_nonneg_right t (by positivity : (0 : ℚ) ≤ 2 ^ 128)
        linarith

theorem worth_add (p : Nat) (a b : ℚ) : worth p (a + b) = worth p a + worth p b := by unfold worth; ring

/-- C95, any history: the base that left the reserve is at most what the curve gives for the price move, and falls short of it
by at most one unit per swap and curve point and what two units of quote per swap buy at the start price. -/
theorem C95_history {w w' : World} {ops : List Op} (h : Reachable w) (hr : Run w ops w') :
    (reserve w .base : ℚ) - reserve w' .base ≤
      baseTo (Spec.curve w.cfg) w'.pool.sqrtPrice - baseTo (Spec.curve w.cfg) w.pool.sqrtPrice ∧
    worth w.cfg.sqrtStartPrice (baseTo (Spec.curve w.cfg) w'.pool.sqrtPrice - baseTo (Spec.curve w.cfg) w.pool.sqrtPrice -
      ((reserve w .base : ℚ) - reserve w' .base) - (swaps ops : ℚ) * (stored w.cfg.curve).length) ≤ 2 * (swaps ops : ℚ) := by
  refine ⟨by have := (backed_run h hr).base; linarith, ?_⟩
  induction hr with
  | nil w => simp [swaps, worth]
  | @cons w w1 w' op ops hs hr ih =>
    have ih := ih (h.step hs)
    have hcfg := step_cfg hs
    rw [hcfg] at ih
    unfold swaps at ih ⊢
    rw [List.countP_cons]
    rcases step_cases hs with ⟨a, rfl, _⟩ | hk
    · have k := C95_swap h hs
      rw [if_pos (show isSwap (.swap a) = true from rfl)]
      push_cast
      have e := worth_add w.cfg.sqrtStartPrice
        (baseTo (Spec.curve w.cfg) w1.pool.sqrtPrice - baseTo (Spec.curve w.cfg) w.pool.sqrtPrice -
          ((reserve w .base : ℚ) - reserve w1 .base) - (stored w.cfg.curve).length)
        (baseTo (Spec.curve w.cfg) w'.pool.sqrtPrice - baseTo (Spec.curve w.cfg) w1.pool.sqrtPrice -
          ((reserve w1 .base : ℚ) - reserve w' .base) - (List.countP isSwap ops : ℚ) * (stored w.cfg.curve).length)
      refine le_trans (le_of_eq ?_) ((e.le.trans (add_le_add k ih)).trans (by linarith))
      congr 1
      ring
    · obtain ⟨e0, _, e1, e2, e3, _⟩ := hk
      rw [e1] at ih
      simp only [reserve, e2] at ih ⊢
      have hn : (0 : ℚ) ≤ (stored w.cfg.curve).length := by positivity
      split
      · push_cast
        refine (worth_mono ?_).trans (ih.trans (by linarith))
        linarith
      · simpa using ih

theorem baseTo_start {lo : Nat} {ps : List Point} (h : Proper lo ps) : baseTo (segs lo ps) lo = 0 := by
  suffices ∀ {P : Nat}, P ≤ lo → baseTo (segs lo ps) P = 0 from this le_rfl
  unfold baseTo
  induction ps generalizing lo with
  | nil => intro P _; exact total_nil _ lo P
  | cons p ps ih =>
    intro P hP
    simp only [Proper] at h
    rw [total_cons, ih h.2.2.2 (by omega), clamp_below (by exact hP)]
    simp [baseSeg]

/-- C95: in a pool created with a configuration of `n` points, after any history with `k` swaps, the base sold so far (all that
left the reserve less all that was sold back to it) is at most what the curve gives between the start price and the current
one, and at most `k * n` units and what `2 * k` units of quote buy at the start price less. -/
theorem C95_sold {w0 w : World} {ops : List Op} (h0 : Genesis w0) (hr : Run w0 ops w) :
    (reserve w0 .base : ℚ) - reserve w .base ≤ baseTo (Spec.curve w.cfg) w.pool.sqrtPrice ∧
    worth w.cfg.sqrtStartPrice (baseTo (Spec.curve w.cfg) w.pool.sqrtPrice - ((reserve w0 .base : ℚ) - reserve w .base) -
      (swaps ops : ℚ) * (stored w.cfg.curve).length) ≤ 2 * (swaps ops : ℚ) := by
  have h := C95_history h0.reachable hr
  have hcfg := (backed_run h0.reachable hr).cfg
  obtain ⟨ps, hc⟩ := h0.core
  have e := baseTo_start hc.good.curve.proper
  rw [← curve_eq hc.good.curve] at e
  have hp : w0.pool.sqrtPrice = w0.cfg.sqrtStartPrice := by
    obtain ⟨p, env, a, c, ht, hcr, hi⟩ := h0
    obtain ⟨supply, mint, upd, act, b, h1, h2, h3, h4, h5, h6, h7, h8, rfl⟩ := initPool_ok hi
    rfl
  rw [hcfg]
  rw [hp, e, sub_zero] at h
  exact h

/-- C95, at the end: a pool that has completed has sold everything the curve offers up to the migration price, less at most
`k * n` units and what `(2 + n) * k` units of quote buy at the start price. -/
theorem C95_complete {w0 w : World} {ops : List Op} (h0 : Genesis w0) (hr : Run w0 ops w)
    (hfull : w.cfg.migrationQuoteThreshold ≤ reserve w .quote) :
    (reserve w0 .base : ℚ) - reserve w .base ≤ baseTo (Spec.curve w.cfg) w.cfg.migrationSqrtPrice ∧
    worth w.cfg.sqrtStartPrice (baseTo (Spec.curve w.cfg) w.cfg.migrationSqrtPrice -
        ((reserve w0 .base : ℚ) - reserve w .base) - (swaps ops : ℚ) * (stored w.cfg.curve).length) ≤
      (2 + (stored w.cfg.curve).length) * (swaps ops : ℚ) := by
  obtain ⟨s1, s2⟩ := C95_sold h0 hr
  have q := (C67_tracks h0 hr).2
  have hreach := h0.reachable.run hr
  obtain ⟨ps, hc⟩ := hreach.core
  have hg := hc.good
  have hp := hg.curve.proper
  have hup := chainUp_of (onPiece_curve hp)
  have hlo := hc.lo
  have hhi := hc.hi
  have htop := hg.curve.migHi
  have cost := quoteTo_le_up (lo := w.cfg.sqrtStartPrice) (ps := ps) (P := w.cfg.migrationSqrtPrice)
  rw [hg.cost] at cost
  have hfull' : (w.cfg.migrationQuoteThreshold : ℚ) ≤ reserve w .quote := by exact_mod_cast hfull
  have m := (chainUp_mono hup hp hlo hhi htop).1
  have v := (chainUp_value hup hp hlo hhi htop).1
  rw [curve_eq hg.curve] at s1 s2 q ⊢
  refine ⟨by linarith, ?_⟩
  have v' : worth w.cfg.sqrtStartPrice (baseTo (segs w.cfg.sqrtStartPrice ps) w.cfg.migrationSqrtPrice -
      baseTo (segs w.cfg.sqrtStartPrice ps) w.pool.sqrtPrice) ≤ (swaps ops : ℚ) * (stored w.cfg.curve).length := by
    refine worth_start hlo (by positivity) (v.trans (mul_le_mul_of_nonneg_right ?_ (by positivity)))
    linarith
  have e := worth_add w.cfg.sqrtStartPrice
    (baseTo (segs w.cfg.sqrtStartPrice ps) w.cfg.migrationSqrtPrice - baseTo (segs w.cfg.sqrtStartPrice ps) w.pool.sqrtPrice)
    (baseTo (segs w.cfg.sqrtStartPrice ps) w.pool.sqrtPrice - ((reserve w0 .base : ℚ) - reserve w .base) -
      (swaps ops : ℚ) * (stored w.cfg.curve).length)
  refine le_trans (le_of_eq ?_) ((e.le.trans (add_le_add v' s2)).trans (by linarith))
  congr 1
  ring

/-- A pool whose curve of two pieces was completed by 21 trades in both directions: three of the 1,109,375,000,000,000 units set
aside for the curve were not sold. -/
theorem C95_example : Genesis (Ex.worldOf Ex.paramsA) ∧ Run (Ex.worldOf Ex.paramsA) Ex.churned Ex.pendingA ∧
    Ex.pendingA.cfg.migrationQuoteThreshold ≤ reserve Ex.pendingA .quote ∧ swaps Ex.churned = 21 ∧
    (stored Ex.pendingA.cfg.curve).length = 2 ∧ Ex.pendingA.cfg.swapBaseAmount = 1109375000000000 ∧
    reserve Ex.pendingA .base + 1109374999999997 = reserve (Ex.worldOf Ex.paramsA) .base := by
  refine ⟨Ex.genesisA, Ex.exec_run (by decide +kernel), ?_, ?_, ?_, ?_, ?_⟩ <;> decide +kernel

end Props

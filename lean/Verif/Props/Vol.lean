import Verif.Lemmas.Vol
import Verif.Spec.Vol
import Verif.Spec.Fee
import Verif.Props.Examples

/-!
# The volatility tracker: C30
-/

namespace Props
open Dbc

theorem binDelta_eq (p q : Nat) : binDelta p q = Spec.distance p q := by
  unfold binDelta Spec.distance
  rw [show (2 ^ 64 / 10000 : Nat) = 1844674407370955 by decide +kernel, Nat.mul_comm]

/-- C30, bound: over any history the accumulator (and the reference volatility) never exceeds the configured maximum. -/
theorem C30_bounded {w : World} (h : Reachable w) :
    w.pool.vol.volAcc ≤ w.cfg.fees.dyn.maxVolAcc ∧ w.pool.vol.volRef ≤ w.cfg.fees.dyn.maxVolAcc :=
  ⟨h.volOK.acc, h.volOK.ref⟩

theorem vol_never_blocks {w : World} (h : Reachable w) {now next : Nat}
    (hclk : w.pool.vol.priceRef ≠ 0 ∨ w.cfg.fees.dyn.initialized = 0 ∨ w.cfg.fees.dyn.filterPeriod ≤ now)
    (hlo : 4295048016 ≤ next) (hhi : next ≤ 79226673521066979257578248091) :
    ∃ p1 fee, w.pool.updatePreSwap w.cfg now = .ok p1 ∧ variableFee w.cfg.fees.dyn p1.vol = .ok fee ∧
      ∀ p2 : Pool, p2.vol = p1.vol → p2.sqrtPrice = next →
        ∃ p3, p2.updatePostSwap w.cfg w.pool.sqrtPrice now = .ok p3 := by
  have hv := h.volOK
  by_cases hi : w.cfg.fees.dyn.initialized = 0
  · have e : w.pool.updatePreSwap w.cfg now = .ok w.pool := by
      unfold Pool.updatePreSwap
      rw [if_neg (by simp [hi])]
    refine ⟨w.pool, 0, e, by unfold variableFee; rw [if_pos hi], fun p2 _ _ => ⟨p2, ?_⟩⟩
    unfold Pool.updatePostSwap
    rw [if_neg (by simp [hi])]
  · have hd := h.dyn hi
    obtain ⟨ps, hc⟩ := h.core
    have hmin := hc.good.startMin
    have hmax := hc.good.migMax
    have hclo := hc.lo
    have hchi := hc.hi
    have hacc := refsOf_acc w.cfg.fees.dyn w.pool.vol w.pool.sqrtPrice now
    have href := refsOf_ref hd hv.acc hv.ref w.pool.sqrtPrice now
    have e : w.pool.updatePreSwap w.cfg now =
        .ok { w.pool with vol := refsOf w.cfg.fees.dyn w.pool.vol w.pool.sqrtPrice now } := by
      unfold Pool.updatePreSwap
      rw [if_pos hi, updateReferences_eq hd hv.acc]
      rfl
    obtain ⟨fee, hfee, _⟩ := variableFee_total (d := w.cfg.fees.dyn) (fun _ => hd)
      (v := refsOf w.cfg.fees.dyn w.pool.vol w.pool.sqrtPrice now) (by rw [hacc.1]; exact hv.acc)
    refine ⟨_, fee, e, hfee, fun p2 h2 h3 => ?_⟩
    have hpr : MIN_SQRT_PRICE ≤ (refsOf w.cfg.fees.dyn w.pool.vol w.pool.sqrtPrice now).priceRef ∧
        (refsOf w.cfg.fees.dyn w.pool.vol w.pool.sqrtPrice now).priceRef ≤ MAX_SQRT_PRICE := by
      have cur : MIN_SQRT_PRICE ≤ w.pool.sqrtPrice ∧ w.pool.sqrtPrice ≤ MAX_SQRT_PRICE :=
        ⟨hmin.trans hclo, (hchi.trans hmax.le)⟩
      unfold refsOf
      split
      · rename_i hlt
        rcases hv.price with ⟨h0, h1, h2⟩ | h0 | ⟨h0, h1⟩
        · exfalso
          rw [h1] at hlt
          rcases hclk with hc | hc | hc
          · exact hc h0
          · exact hi hc
          · omega
        · exact absurd h0 hi
        · exact ⟨hmin.trans h0, h1.trans hmax.le⟩
      · split <;> exact cur
    unfold Pool.updatePostSwap
    rw [if_pos hi, h2, h3, updateVolAcc_eq hd href hlo hhi hpr.1 hpr.2, hd.step128,
      (deltaBinId_eq (hmin.trans hclo) (hchi.trans hmax.le) hlo hhi).1]
    exact ⟨_, rfl⟩

theorem clock_fine {w : World} (h : Reachable w) {now : Nat}
    (hclk : w.pool.hasSwap = 1 ∨ w.cfg.fees.dyn.filterPeriod ≤ now) :
    w.pool.vol.priceRef ≠ 0 ∨ w.cfg.fees.dyn.initialized = 0 ∨ w.cfg.fees.dyn.filterPeriod ≤ now := by
  rcases hclk with hc | hc
  · rcases h.volOK.price with ⟨_, _, h2⟩ | h0 | ⟨h0, _⟩
    · exact absurd hc h2
    · exact .inr (.inl h0)
    · obtain ⟨ps, hco⟩ := h.core
      have := hco.good.startMin
      have e : 0 < MIN_SQRT_PRICE := by decide
      exact .inl (by omega)
  · exact .inr (.inr hc)

/-- C30, bookkeeping: in every reachable state the bookkeeping before a swap succeeds, the variable fee it leads to is
computed without overflow, and for whatever price inside the global bounds the trade moves to, the bookkeeping after it
succeeds too. The clock condition concerns only the pool's very first swap: the configured filter period is a 16-bit number
of seconds and the clock is Unix time, so it fails only before 1 January 1970 18:12:15. -/
theorem C30_never_blocks {w : World} (h : Reachable w) {now next : Nat}
    (hclk : w.pool.hasSwap = 1 ∨ w.cfg.fees.dyn.filterPeriod ≤ now)
    (hlo : 4295048016 ≤ next) (hhi : next ≤ 79226673521066979257578248091) :
    ∃ p1 fee, w.pool.updatePreSwap w.cfg now = .ok p1 ∧ variableFee w.cfg.fees.dyn p1.vol = .ok fee ∧
      ∀ p2 : Pool, p2.vol = p1.vol → p2.sqrtPrice = next →
        ∃ p3, p2.updatePostSwap w.cfg w.pool.sqrtPrice now = .ok p3 :=
  vol_never_blocks h (clock_fine h hclk) hlo hhi

/-- C30, off: with the dynamic fee disabled the variable fee is zero whatever the tracker holds, so the total rate is the
base rate. -/
theorem C30_disabled {d : DynamicFeeConfig} (hd : d.initialized = 0) (v : VolTracker) :
    variableFee d v = .ok 0 ∧ ∀ base, base ≤ Spec.maxRate → totalFee d v base = .ok base := by
  have e : variableFee d v = .ok 0 := by unfold variableFee; rw [if_pos hd]
  refine ⟨e, fun base hb => ?_⟩
  unfold totalFee
  rw [e]
  have hb' : base ≤ MAX_FEE_NUMERATOR := hb
  have h2 : 0 + base ≤ u128Max := by rw [Nat.zero_add]; exact hb.trans (by decide +kernel)
  simp only [bind_ok, safeAdd_ok, ok_inj]
  refine ⟨0, rfl, _, ⟨h2, rfl⟩, ?_⟩
  rw [if_neg (by omega), Nat.zero_add]

/-- C30, value: what the tracker holds after a swap. With the dynamic fee off it never changes. -/
theorem C30_value {w w' : World} {a : SwapArgs} (h : Reachable w) (hs : w.step (.swap a) = .ok w') :
    (w.cfg.fees.dyn.initialized = 0 → w'.pool.vol = w.pool.vol) ∧
    (w.cfg.fees.dyn.initialized ≠ 0 →
      let d := w.cfg.fees.dyn
      let old := w.pool.vol
      let new := w'.pool.vol
      let elapsed := a.clk.time - old.lastUpdate
      new.volRef = Spec.startVolatility d.filterPeriod d.decayPeriod d.reductionFactor elapsed old.volAcc old.volRef ∧
      new.priceRef = Spec.startPrice d.filterPeriod elapsed w.pool.sqrtPrice old.priceRef ∧
      new.volAcc = Spec.accumulated d.maxVolAcc new.volRef (Spec.distance w'.pool.sqrtPrice new.priceRef) ∧
      new.lastUpdate = if Spec.distance w.pool.sqrtPrice w'.pool.sqrtPrice = 0 then old.lastUpdate else a.clk.time) := by
  obtain ⟨cur, fm, r, v1, v2, s⟩ := swap_ok hs
  have hv := h.volOK
  have hv' := (h.step hs).volOK
  constructor
  · intro hi
    obtain ⟨rfl, rfl⟩ := s.preOff hi
    exact s.vol
  · intro hi
    have hd := h.dyn hi
    obtain ⟨ps, hc⟩ := h.core
    have hc' := hc.swap s
    have hlo' := hc'.lo
    have hhi' := hc'.hi
    have ecfg := s.cfg
    rw [ecfg] at hlo' hhi'
    have hmin := hc.good.startMin
    have hmax := hc.good.migMax
    have h1 := s.preOn hi
    rw [updateReferences_eq hd hv.acc, ok_inj] at h1
    obtain ⟨u, db, hu, hdb, hv2⟩ := s.postOn hi
    rw [hd.step128, (deltaBinId_eq (hmin.trans hc.lo) (hc.hi.trans hmax.le) (by rw [← s.price]; exact hmin.trans hlo')
      (by rw [← s.price]; exact hhi'.trans hmax.le)).1, ok_inj, binDelta_eq] at hdb
    have hacc := refsOf_acc w.cfg.fees.dyn w.pool.vol w.pool.sqrtPrice a.clk.time
    have href := refsOf_ref hd hv.acc hv.ref w.pool.sqrtPrice a.clk.time
    rw [h1] at hacc href
    -- the reference price is inside the bounds after the swap
    have hp' : w.cfg.sqrtStartPrice ≤ w'.pool.vol.priceRef ∧ w'.pool.vol.priceRef ≤ w.cfg.migrationSqrtPrice := by
      rcases hv'.price with ⟨_, _, h0⟩ | h0 | h0
      · exact absurd s.hasSwap h0
      · rw [ecfg] at h0; exact absurd h0 hi
      · rw [ecfg] at h0; exact h0
    have hu' := hu
    simp only [updateVolAcc, bind_ok, ok_inj] at hu'
    obtain ⟨dl, _, m, _, acc, _, eu⟩ := hu'
    have epr : w'.pool.vol.priceRef = v1.priceRef ∧ w'.pool.vol.volRef = v1.volRef ∧ w'.pool.vol.volAcc = u.volAcc ∧
        w'.pool.vol.lastUpdate = (if 0 < db then a.clk.time else v1.lastUpdate) := by
      rw [s.vol, hv2, ← eu]
      split <;> exact ⟨rfl, rfl, rfl, rfl⟩
    obtain ⟨p1, p2, p3, p4⟩ := epr
    rw [updateVolAcc_eq hd href (by rw [← s.price]; exact hmin.trans hlo') (by rw [← s.price]; exact hhi'.trans hmax.le)
      (by rw [← p1]; exact hmin.trans hp'.1) (by rw [← p1]; exact hp'.2.trans hmax.le), ok_inj] at hu
    refine ⟨?_, ?_, ?_, ?_⟩
    · rw [p2, ← h1]
      unfold refsOf Spec.startVolatility
      split
      · rfl
      · split <;> rfl
    · rw [p1, ← h1]
      unfold refsOf Spec.startPrice
      split
      · rfl
      · split <;> rfl
    · rw [p3, p2, p1, ← hu]
      show min (v1.volRef + binDelta r.next v1.priceRef * 10000) _ = _
      rw [binDelta_eq, s.price, Nat.mul_comm]
      rfl
    · rw [p4, s.price, hdb, hacc.2]
      by_cases h0 : db = 0
      · rw [if_neg (by omega), if_pos h0]
      · rw [if_pos (by omega), if_neg h0]

/-- Example history with the dynamic fee on: the accumulator became positive and stayed below its maximum, and a further
swap finds the hypotheses met. -/
theorem C30_example : Reachable Ex.tradingA ∧ Ex.tradingA.cfg.fees.dyn.initialized = 1 ∧ Ex.tradingA.pool.hasSwap = 1 ∧
    0 < Ex.tradingA.pool.vol.volAcc ∧ Ex.tradingA.pool.vol.volAcc ≤ Ex.tradingA.cfg.fees.dyn.maxVolAcc ∧
    0 < Spec.distance Ex.tradingA.pool.sqrtPrice (Ex.tradingA.pool.sqrtPrice + 2 ^ 60) := by
  refine ⟨Ex.genesisA.reachable.run (Ex.exec_run Ex.execTradingA), ?_, ?_, ?_, ?_, ?_⟩ <;> decide +kernel

end Props

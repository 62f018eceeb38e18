import Verif.Props.Claims
import Verif.Props.Vol

/-!
# How the volatility part of the fee fades: C66
-/

namespace Props
open Dbc Spec

/-- `Washed since w n w'`: from `w` to `w'` there were `n` swaps, mixed with any other instructions. Each of the swaps came at
least the filter period after the moment `since` and moved the price by less than one step. -/
inductive Washed (since : Nat) : World → Nat → World → Prop
  | done (w : World) : Washed since w 0 w
  | other {w w1 w2 : World} {op : Op} {n : Nat} : (∀ a, op ≠ .swap a) → w.step op = .ok w1 → Washed since w1 n w2 →
      Washed since w n w2
  | swap {w w1 w2 : World} {a : SwapArgs} {n : Nat} : since + w.cfg.fees.dyn.filterPeriod ≤ a.clk.time →
      w.step (.swap a) = .ok w1 → distance w1.pool.sqrtPrice w.pool.sqrtPrice = 0 → Washed since w1 n w2 →
      Washed since w (n + 1) w2

theorem vol_other {w w' : World} {op : Op} (hno : ∀ a, op ≠ .swap a) (h : w.step op = .ok w') :
    w'.pool.vol = w.pool.vol ∧ w'.cfg = w.cfg := by
  rcases step_cases h with ⟨a, rfl, -⟩ | h
  · exact absurd rfl (hno a)
  · exact ⟨h.2.2.2.2.2.1, h.1⟩

theorem vol_quiet {w w' : World} {ops : List Op} (hr : Run w ops w') (hno : ∀ a, Op.swap a ∉ ops) :
    w'.pool.vol = w.pool.vol ∧ w'.cfg = w.cfg := by
  induction hr with
  | nil w => exact ⟨rfl, rfl⟩
  | cons hs hr ih =>
    obtain ⟨e1, e2⟩ := vol_other (fun a e => hno a (by rw [← e]; exact List.mem_cons_self ..)) hs
    obtain ⟨e3, e4⟩ := ih (fun a hm => hno a (List.mem_cons_of_mem _ hm))
    exact ⟨e3.trans e1, e4.trans e2⟩

theorem distance_comm (p q : Nat) : distance p q = distance q p := by
  unfold distance
  rw [Nat.max_comm, Nat.min_comm]

/-- C66, the charge lags: whatever happens between two swaps, and however much time passes, the second one (unless it is an
eligible first swap) pays for the volatility recorded at the end of the first, on top of its base rate. -/
theorem C66_lags {w w1 w2 : World} {ops : List Op} {a : SwapArgs} (h : Reachable w) (hr : Run w ops w1)
    (hno : ∀ b, Op.swap b ∉ ops) (ha : a.amount0 ≤ u64Max) (hs : w1.step (.swap a) = .ok w2)
    (hf : ¬ EligibleFirst w1 a) :
    ∃ x base rate, Observed w1 w2 a.dir x ∧
      rate * x.bearing a.dir ≤ x.fee * Spec.unit ∧ x.fee * Spec.unit < rate * x.bearing a.dir + Spec.unit ∧
      Scheduled w.cfg.fees.base (moment w.cfg.activationType a.clk.slot a.clk.time - w.pool.activationPoint) a.dir x base ∧
      rate = min (base + volatilityPart w.cfg.fees.dyn w.pool.vol.volAcc) Spec.maxRate := by
  obtain ⟨e1, e2⟩ := vol_quiet hr hno
  have e3 : w1.pool.activationPoint = w.pool.activationPoint :=
    Run.induct (P := fun v => v.pool.activationPoint = w.pool.activationPoint)
      (fun v op v' hv hs => (step_activation hs).trans hv) hr rfl
  obtain ⟨x, floor, rate, ho, -, -, -, -, l1, l2, -, -, hx⟩ := C03_rate_bounds (h.run hr) ha hs
  obtain ⟨base, hb, hrate⟩ := hx hf
  rw [e2, e3] at hb
  rw [e2, e1] at hrate
  exact ⟨x, base, rate, ho, l1, l2, hb, hrate⟩

/-- C66, reset: after a swap that comes at least the decay period after the last price move on record, the record is that
swap's own price move, and nothing if it was less than one step. -/
theorem C66_reset {w w' : World} {a : SwapArgs} (h : Reachable w) (hi : w.cfg.fees.dyn.initialized ≠ 0)
    (hs : w.step (.swap a) = .ok w') (hq : w.pool.vol.lastUpdate + w.cfg.fees.dyn.decayPeriod ≤ a.clk.time) :
    w'.pool.vol.volAcc =
      min (10000 * distance w.pool.sqrtPrice w'.pool.sqrtPrice) w.cfg.fees.dyn.maxVolAcc := by
  obtain ⟨e1, e2, e3, -⟩ := (C30_value h hs).2 hi
  have hd := (h.dyn hi).periods
  rw [e3, e1, e2]
  unfold Spec.accumulated Spec.startVolatility Spec.startPrice
  rw [if_neg (by omega), if_neg (by omega), if_neg (by omega), Nat.zero_add, distance_comm]

/-- C66, washing out: swaps that move the price by less than one step do not restart the clock, and once the filter period has
passed each of them multiplies the volatility on record by the configured reduction factor, however quickly they follow each
other: after `n` of them at most the `n`-th power of the factor is left. -/
theorem C66_washed {w w' : World} {n : Nat} (h : Reachable w) (hi : w.cfg.fees.dyn.initialized ≠ 0)
    (hw : Washed w.pool.vol.lastUpdate w n w') :
    w'.pool.vol.volAcc * 10000 ^ n ≤ w.pool.vol.volAcc * w.cfg.fees.dyn.reductionFactor ^ n ∧
      w'.pool.vol.lastUpdate = w.pool.vol.lastUpdate := by
  suffices ∀ {t : Nat} {w w' : World} {n : Nat}, Washed t w n w' → Reachable w → w.cfg.fees.dyn.initialized ≠ 0 →
      w.pool.vol.lastUpdate = t →
      w'.pool.vol.volAcc * 10000 ^ n ≤ w.pool.vol.volAcc * w.cfg.fees.dyn.reductionFactor ^ n ∧
        w'.pool.vol.lastUpdate = w.pool.vol.lastUpdate from this hw h hi rfl
  intro t w w' n hw
  induction hw with
  | done w => intro _ _ _; exact ⟨by simp, rfl⟩
  | other hno hs hr ih =>
    intro h hi ht
    obtain ⟨e1, e2⟩ := vol_other hno hs
    have := ih (h.step hs) (by rw [e2]; exact hi) (by rw [e1]; exact ht)
    rw [e1, e2] at this
    exact this
  | @swap w w1 w2 a n ht0 hs hz hr ih =>
    intro h hi ht
    have ecfg := step_cfg hs
    obtain ⟨e1, e2, e3, e4⟩ := (C30_value h hs).2 hi
    rw [distance_comm, if_pos hz] at e4
    have := ih (h.step hs) (by rw [ecfg]; exact hi) (e4.trans ht)
    rw [ecfg, e4] at this
    refine ⟨?_, this.2⟩
    have b : w1.pool.vol.volAcc * 10000 ≤ w.pool.vol.volAcc * w.cfg.fees.dyn.reductionFactor := by
      have l : w1.pool.vol.volAcc ≤ w1.pool.vol.volRef := by
        rw [e3, e2]
        unfold Spec.accumulated Spec.startPrice
        rw [if_neg (by omega), hz]
        exact Nat.min_le_left _ _
      refine (Nat.mul_le_mul_right _ l).trans ?_
      rw [e1]
      unfold Spec.startVolatility
      rw [if_neg (by omega)]
      split
      · exact Nat.div_mul_le_self _ _
      · simp
    calc w2.pool.vol.volAcc * 10000 ^ (n + 1) = w2.pool.vol.volAcc * 10000 ^ n * 10000 := by rw [Nat.pow_succ, Nat.mul_assoc]
      _ ≤ w1.pool.vol.volAcc * w.cfg.fees.dyn.reductionFactor ^ n * 10000 := Nat.mul_le_mul_right _ this.1
      _ = w1.pool.vol.volAcc * 10000 * w.cfg.fees.dyn.reductionFactor ^ n := by
        rw [Nat.mul_assoc, Nat.mul_assoc, Nat.mul_comm (_ ^ n)]
      _ ≤ w.pool.vol.volAcc * w.cfg.fees.dyn.reductionFactor * w.cfg.fees.dyn.reductionFactor ^ n := Nat.mul_le_mul_right _ b
      _ = w.pool.vol.volAcc * w.cfg.fees.dyn.reductionFactor ^ (n + 1) := by
        rw [Nat.mul_assoc, Nat.pow_succ, Nat.mul_comm (_ ^ n)]

namespace Ex

/-- A buy of 1000 units at the given time. -/
def dust (t : Nat) : SwapArgs := ⟨0, 1000, 0, .quoteToBase, false, ⟨t - 999900, t⟩, _root_.Ex.txSwap⟩

/-- The world after some dust buys at the given times. -/
def dusted : List Nat → World
  | [] => _root_.Ex.tradingA
  | t :: ts => match (dusted ts).step (.swap (dust t)) with
    | .ok w => w
    | .error _ => dusted ts

end Ex

/-- A pool with a volatility on record that costs 336177 billionths. Sixteen minutes later the next trade still pays it, and
leaves nothing on record. Half a minute later, three dust trades in the same second leave an eighth of it. -/
theorem C66_example : Reachable Ex.tradingA ∧ Ex.tradingA.cfg.fees.dyn.initialized = 1 ∧
    volatilityPart Ex.tradingA.cfg.fees.dyn Ex.tradingA.pool.vol.volAcc = 336177 ∧
    Ex.tradingA.step (.swap (Ex.dust 1001300)) = .ok (Ex.dusted [1001300]) ∧
    ¬ EligibleFirst Ex.tradingA (Ex.dust 1001300) ∧
    Ex.tradingA.pool.vol.lastUpdate + Ex.tradingA.cfg.fees.dyn.decayPeriod ≤ 1001300 ∧
    (Ex.dusted [1001300]).pool.vol.volAcc = 0 ∧
    Washed Ex.tradingA.pool.vol.lastUpdate Ex.tradingA 3 (Ex.dusted [1000330, 1000330, 1000330]) ∧
    Ex.tradingA.pool.vol.volAcc = 5930000 ∧ (Ex.dusted [1000330, 1000330, 1000330]).pool.vol.volAcc = 741250 := by
  rw [← firstMin_iff]
  refine ⟨_root_.Ex.reachTradingA, ?_, ?_, ?_, ?_, ?_, ?_, ?_, ?_, ?_⟩
  case refine_7 =>
    refine .swap (a := Ex.dust 1000330) (w1 := Ex.dusted [1000330]) ?_ ?_ ?_
      (.swap (a := Ex.dust 1000330) (w1 := Ex.dusted [1000330, 1000330]) ?_ ?_ ?_
        (.swap (a := Ex.dust 1000330) (w1 := Ex.dusted [1000330, 1000330, 1000330]) ?_ ?_ ?_ (.done _)))
    all_goals decide +kernel
  all_goals decide +kernel

end Props

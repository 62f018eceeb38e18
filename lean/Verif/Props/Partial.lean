import Verif.Props.Compare
import Verif.Props.Tx

/-!
# Partial fills: C06
-/

namespace Props
open Dbc Spec

/-- Neither the size of this swap nor what is filled of it can change its fee rate: no rate limiter is configured, or the
limiter does not look at it (sells, buys after the window), or it is the creator's first swap at the minimum fee. -/
def SizeFree (w : World) (a : SwapArgs) : Prop := ¬ LimitedBuy w a ∨ w.firstMin a = true

theorem sizeFree_rate {w : World} {a : SwapArgs} {cur : Nat} (hr : Reachable w) (h : SizeFree w a)
    (hcur : currentPoint w.cfg.activationType a.clk = .ok cur) (p : Pool) (hp : p.activationPoint = w.pool.activationPoint)
    (m m' : Nat) :
    numeratorExcluded w.cfg p cur m a.dir (w.firstMin a) = numeratorIncluded w.cfg p cur m' a.dir (w.firstMin a) := by
  unfold numeratorExcluded numeratorIncluded
  rcases h with h | h
  · have hb : baseFeeFromExcluded w.cfg.fees.base cur p.activationPoint a.dir m =
        baseFeeFromIncluded w.cfg.fees.base cur p.activationPoint a.dir m' := by
      by_cases e0 : w.cfg.fees.base.mode = 0
      · simp only [baseFeeFromExcluded, baseFeeFromIncluded, e0]
      by_cases e1 : w.cfg.fees.base.mode = 1
      · simp only [baseFeeFromExcluded, baseFeeFromIncluded, e1]
      by_cases e2 : w.cfg.fees.base.mode = 2
      · have happ : limiterApplied w.cfg.fees.base cur p.activationPoint a.dir = false := by
          unfold limiterApplied
          by_cases hz : limiterZero w.cfg.fees.base
          · rw [if_pos hz]
          · rw [if_neg hz]
            by_cases hd : a.dir = .baseToQuote
            · rw [if_pos hd]
            · rw [if_neg hd, hp]
              have hd' : a.dir = .quoteToBase := by
                cases e : a.dir with
                | baseToQuote => exact absurd e hd
                | quoteToBase => rfl
              obtain ⟨q, env, -, hacc⟩ := hr.config
              rcases accepted_limiter hacc e2 with ⟨hz', -⟩ | l
              · exact absurd hz' hz
              · rw [if_pos]
                by_contra hle
                have hdur := l.dur
                exact h ⟨e2, by omega, hd', cur, hcur, by omega⟩
        simp only [baseFeeFromExcluded, baseFeeFromIncluded, e2, happ, Bool.false_eq_true, if_false]
      · obtain ⟨k, e⟩ : ∃ k, w.cfg.fees.base.mode = k + 3 := ⟨w.cfg.fees.base.mode - 3, by omega⟩
        simp only [baseFeeFromExcluded, baseFeeFromIncluded, e]
    unfold totalFeeFromExcluded totalFeeFromIncluded
    rw [hb]
  · rw [h, if_pos rfl, if_pos rfl]

/-- Adding the fee again to part of what was left after taking it gives at most the original amount. -/
theorem includedFee_le {num x net n inc f : Nat} {s : FeeSplit} {ref : Bool} (h1 : feeOnAmount num x ref = .ok (net, s))
    (hn : n ≤ net) (h2 : includedFeeAmount num n = .ok (inc, f)) : inc ≤ x := by
  obtain ⟨e1, e2, -⟩ := feeOnAmount_ok h1
  obtain ⟨a1, a2, a3, -, -⟩ := includedFeeAmount_ok h2
  have hD : 0 < FEE_DENOMINATOR := by decide
  rw [a3, divCeil_le_iff (by omega), Nat.mul_sub]
  have h3 := le_divCeil_mul (x * num) hD
  rw [← e2] at h3
  have h4 : n * FEE_DENOMINATOR ≤ net * FEE_DENOMINATOR := Nat.mul_le_mul_right _ hn
  have h5 : x * FEE_DENOMINATOR = net * FEE_DENOMINATOR + s.sum * FEE_DENOMINATOR := by
    rw [← Nat.add_mul]; congr 1; omega
  omega

/-- What a partial fill does with the input. -/
theorem partial_parts {c : PoolConfig} {p : Pool} {a : SwapArgs} {fm : FeeMode} {cur : Nat} {fst : Bool} {r : SwapResult}
    (hm : a.mode = 1) (h : processSwap c p a fm cur fst = .ok r) :
    ∃ num net f wk, numeratorIncluded c p cur a.amount0 a.dir fst = .ok num ∧
      (if fm.feesOnInput then feeOnAmount num a.amount0 fm.hasReferral else .ok (a.amount0, FeeSplit.zero)) = .ok (net, f) ∧
      walkIn c p a.dir net = .ok wk ∧ r.next = wk.next ∧ r.left = wk.left ∧ a.amount1 ≤ r.out ∧
      ((wk.left = 0 ∧ r.includedIn = a.amount0) ∨
        (wk.left ≠ 0 ∧ wk.left ≤ net ∧ fm.feesOnInput = false ∧ r.includedIn = net - wk.left) ∨
        (wk.left ≠ 0 ∧ wk.left ≤ net ∧ fm.feesOnInput = true ∧ ∃ num' g,
          numeratorExcluded c p cur (net - wk.left) a.dir fst = .ok num' ∧
          includedFeeAmount num' (net - wk.left) = .ok (r.includedIn, g))) := by
  unfold processSwap at h
  simp only [hm, partialIn, bind_ok, req_ok, ok_inj, Prod.exists] at h
  obtain ⟨_, ⟨num, hnum, net, f, hnet, wk, hwk, inc, ai, inf, hmid, ao, fo, hout, rfl⟩, _, hsl, rfl⟩ := h
  refine ⟨num, net, f, wk, hnum, hnet, hwk, rfl, rfl, hsl, ?_⟩
  rw [ite_ok] at hmid
  rcases hmid with ⟨m, hmid⟩ | ⟨m, hmid⟩
  · simp only [bind_ok, safeSub_ok, ite_ok, ok_inj, Prod.mk.injEq, Prod.exists] at hmid
    obtain ⟨_, ⟨hle, rfl⟩, ⟨g, num', hn', i', f', hif, s, hs, rfl, rfl, rfl⟩ | ⟨g, rfl, rfl, rfl⟩⟩ := hmid
    · exact .inr (.inr ⟨m, hle, g, num', f', hn', hif⟩)
    · exact .inr (.inl ⟨m, hle, by simpa using g, rfl⟩)
  · simp only [ok_inj, Prod.mk.injEq] at hmid
    exact .inl ⟨by omega, hmid.1.symm⟩

/-- The price at which a trade must stop. -/
def endPrice (w : World) : TradeDirection → Nat
  | .baseToQuote => w.cfg.sqrtStartPrice
  | .quoteToBase => w.cfg.migrationSqrtPrice

/-- C06, minimum and end of the curve: a partial fill gives at least the minimum asked for, and one that does not take
exactly the amount offered has brought the price to the end of the curve in its direction. -/
theorem C06_minimum_and_end {w w' : World} {a : SwapArgs} {x : Trade} (h : Reachable w) (hm : a.mode = 1)
    (hs : w.step (.swap a) = .ok w') (o : Observed w w' a.dir x) :
    a.amount1 ≤ x.got ∧ (x.paid ≠ a.amount0 → w'.pool.sqrtPrice = endPrice w a.dir) := by
  obtain ⟨ps, hc⟩ := h.core
  obtain ⟨cur, fm, r, v1, v2, s⟩ := swap_ok hs
  obtain ⟨num, net, f, wk, -, -, hwk, en, -, hsl, hin⟩ := partial_parts hm s.proc
  have g1 := o.paid (inToken a.dir)
  have g2 := (SwapStep.observed s).paid (inToken a.dir)
  have g3 := o.got (outToken a.dir)
  have g4 := (SwapStep.observed s).got (outToken a.dir)
  unfold tradeOf at g2 g4
  dsimp only at g2 g4
  rw [inTok_self] at g1 g2 g3 g4
  refine ⟨by omega, fun hne => ?_⟩
  have hl : wk.left ≠ 0 := by
    rcases hin with ⟨_, e⟩ | ⟨e, _⟩ | ⟨e, _⟩
    · exact absurd (by omega) hne
    · exact e
    · exact e
  rw [s.price, en]
  unfold walkIn at hwk
  cases hd : a.dir with
  | baseToQuote =>
    rw [hd] at hwk
    obtain ⟨i, -, -, k⟩ := sellIn_trace hc.good.curve hc.hi hwk
    exact k hl
  | quoteToBase =>
    rw [hd] at hwk
    obtain ⟨i, -, -, -, k⟩ := buyIn_trace hc.good.curve hc.lo hc.hi hwk
    exact k hl

/-- C06, amount taken, for every swap whose fee rate does not depend on its size. Missing: buys inside the window of a
rate limiter, for which the claim is false (`C06_overcharge`). -/
theorem C06_at_most_offered_partial {w w' : World} {a : SwapArgs} {x : Trade} (h : Reachable w) (hm : a.mode = 1)
    (hfree : SizeFree w a) (hs : w.step (.swap a) = .ok w') (o : Observed w w' a.dir x) : x.paid ≤ a.amount0 := by
  obtain ⟨cur, fm, r, v1, v2, s⟩ := swap_ok hs
  obtain ⟨num, net, f, wk, hnum, hnet, hwk, -, -, -, hin⟩ := partial_parts hm s.proc
  have g1 := o.paid (inToken a.dir)
  have g2 := (SwapStep.observed s).paid (inToken a.dir)
  unfold tradeOf at g2
  dsimp only at g2
  rw [inTok_self] at g1 g2
  have key : r.includedIn ≤ a.amount0 := by
    rcases hin with ⟨_, e⟩ | ⟨_, _, hf, e⟩ | ⟨_, hle, hf, num', g, hn', hi⟩
    · omega
    · rw [hf, if_neg (by simp), ok_inj, Prod.mk.injEq] at hnet
      omega
    · rw [hf, if_pos rfl] at hnet
      rw [sizeFree_rate h hfree s.hcur { w.pool with vol := v1 } rfl _ a.amount0, hnum, ok_inj] at hn'
      subst hn'
      exact includedFee_le hnet (by omega) hi
  omega

/-- C06, amount taken, for the swaps left out by `C06_at_most_offered_partial` (64-bit offers): inside the window of a rate
limiter a partial fill takes at most one part in a million and 30300 units more than was offered; with no dynamic fee, at most
one part in a million and 800 units. -/
theorem C06_overcharge_bounded {w w' : World} {a : SwapArgs} {x : Trade} (h : Reachable w) (hm : a.mode = 1)
    (hu : a.amount0 ≤ u64Max) (hs : w.step (.swap a) = .ok w') (o : Observed w w' a.dir x) :
    x.paid ≤ a.amount0 + a.amount0 / 1000000 + 30300 ∧
    (w.cfg.fees.dyn.initialized = 0 → x.paid ≤ a.amount0 + a.amount0 / 1000000 + 800) := by
  by_cases hfree : SizeFree w a
  · have := C06_at_most_offered_partial h hm hfree hs o
    exact ⟨by omega, fun _ => by omega⟩
  have hl : LimitedBuy w a := by
    by_contra hc
    exact hfree (.inl hc)
  have hf1 : w.firstMin a = false := by
    cases e : w.firstMin a with
    | false => rfl
    | true => exact absurd (.inr e) hfree
  obtain ⟨q, env, hty, hacc⟩ := h.config
  have l : Limiter w.cfg.fees.base := by
    rcases accepted_limiter hacc hl.limiter with ⟨hz, _⟩ | l
    · exact absurd hz.2.1 hl.configured
    · exact l
  have h3 : w.cfg.fees.base.third ≤ u64Max := by rw [(createConfig_ok hacc).eq]; exact hty.third
  obtain ⟨cur, fm, r, v1, v2, s⟩ := swap_ok hs
  have happ : limiterApplied w.cfg.fees.base cur w.pool.activationPoint a.dir = true := by
    obtain ⟨cur', hcur', hle⟩ := hl.inWindow
    rw [s.hcur, ok_inj] at hcur'
    subst hcur'
    exact limiterActive_applied ⟨l.x0.ne', hl.buy, hle⟩
  obtain ⟨num, net, f, wk, hnum, hnet, hwk, -, -, -, hin⟩ := partial_parts hm s.proc
  have g1 := o.paid (inToken a.dir)
  have g2 := (SwapStep.observed s).paid (inToken a.dir)
  unfold tradeOf at g2
  dsimp only at g2
  rw [inTok_self] at g1 g2
  have key : r.includedIn ≤ a.amount0 + a.amount0 / 1000000 + 30300 ∧
      (w.cfg.fees.dyn.initialized = 0 → r.includedIn ≤ a.amount0 + a.amount0 / 1000000 + 800) := by
    rcases hin with ⟨_, e⟩ | ⟨_, _, hf, e⟩ | ⟨hne, hle, hf, num', g, hn', hi⟩
    · exact ⟨by omega, fun _ => by omega⟩
    · rw [hf, if_neg (by simp), ok_inj, Prod.mk.injEq] at hnet
      exact ⟨by omega, fun _ => by omega⟩
    · rw [hf, if_pos rfl] at hnet
      obtain ⟨e1, e2, -⟩ := feeOnAmount_ok hnet
      simp only [numeratorIncluded, numeratorExcluded, hf1, Bool.false_eq_true, if_false, totalFeeFromIncluded,
        totalFeeFromExcluded, baseFeeFromIncluded, baseFeeFromExcluded, hl.limiter, happ, if_true, bind_ok] at hnum hn'
      obtain ⟨n, hn, htot⟩ := hnum
      obtain ⟨n', hn', htot'⟩ := hn'
      obtain ⟨V, hV, e⟩ := totalFee_min htot
      obtain ⟨V', hV', e'⟩ := totalFee_min htot'
      rw [hV, ok_inj] at hV'
      subst hV'
      have := limiter_over l h3 hu hn e e2 e1 (by omega : net - wk.left < net) hn' e' (includedFeeAmount_ok hi).2.2.1
      refine ⟨this.1, fun h0 => this.2 ?_⟩
      unfold variableFee at hV
      rw [if_pos h0, ok_inj] at hV
      exact hV.symm
  exact ⟨by omega, fun h0 => by have := key.2 h0; omega⟩

/-! Examples -/

/-- Configuration B with a steep rate limiter: 37.2% on the first unit, 7.41% more on each further one. -/
def exSteep : ConfigParams :=
  { Ex.paramsB with fees := ⟨⟨372132307, 741, 1000, 1, 2⟩, ⟨0, 0, 0, 0, 0, 0, 0, 0⟩⟩ }

/-- Configuration B with a rate limiter of ordinary size: 41.2% on the first 5.5 SOL, 0.35% more on each further 5.5. -/
def exMild : ConfigParams :=
  { Ex.paramsB with fees := ⟨⟨411746000, 35, 1000, 5516455697, 2⟩, ⟨0, 0, 0, 0, 0, 0, 0, 0⟩⟩ }

theorem genesisSteep : Genesis (Ex.worldOf exSteep) :=
  ⟨exSteep, Ex.env, Ex.initArgs 1, Ex.configOf exSteep, by
    constructor <;> first | decide | (intro pre post h; cases h; done) | (intro q hq; revert q hq; decide),
    by decide +kernel, by decide +kernel⟩

theorem genesisMild : Genesis (Ex.worldOf exMild) :=
  ⟨exMild, Ex.env, Ex.initArgs 1, Ex.configOf exMild, by
    constructor <;> first | decide | (intro pre post h; cases h; done) | (intro q hq; revert q hq; decide),
    by decide +kernel, by decide +kernel⟩

/-- Buys that leave 2, respectively 51699278707, quote units to the end of the curve. -/
def exAlmostSteep : List Op := [Ex.buy 0 999999999999900 0 10 false Ex.txSwap]
def exAlmostMild : List Op := [Ex.buy 0 968319328715884 0 10 false Ex.txSwap]

/-- The partial fills offered next. -/
def exOffer (amount : Nat) : SwapArgs := ⟨1, amount, 1, .quoteToBase, false, ⟨120, 1000020⟩, Ex.txSwap⟩

theorem reachSteep : Reachable (Ex.after exSteep exAlmostSteep) :=
  ⟨_, _, genesisSteep, Ex.exec_run (ops := exAlmostSteep) (by decide +kernel)⟩
theorem reachMild : Reachable (Ex.after exMild exAlmostMild) :=
  ⟨_, _, genesisMild, Ex.exec_run (ops := exAlmostMild) (by decide +kernel)⟩

/-- C06 is false inside the window of a rate limiter. In two reachable pools a partial fill takes more than was offered: 110
units instead of 15, and 92199299372 instead of 92199299210. -/
theorem C06_overcharge :
    (∃ w w' a x, Reachable w ∧ a.mode = 1 ∧ w.step (.swap a) = .ok w' ∧ Observed w w' a.dir x ∧ a.amount0 = 15 ∧
      x.paid = 110) ∧
    (∃ w w' a x, Reachable w ∧ a.mode = 1 ∧ w.step (.swap a) = .ok w' ∧ Observed w w' a.dir x ∧
      a.amount0 = 92199299210 ∧ x.paid = 92199299372) := by
  constructor
  · have hs : (Ex.after exSteep exAlmostSteep).step (.swap (exOffer 15)) =
        .ok (Ex.after exSteep (exAlmostSteep ++ [.swap (exOffer 15)])) := by decide +kernel
    obtain ⟨cur, fm, r, v1, v2, s⟩ := swap_ok hs
    have o := SwapStep.observed s
    refine ⟨_, _, exOffer 15, _, reachSteep, rfl, hs, o, rfl, ?_⟩
    have g := o.paid .quote
    rw [show inToken (exOffer 15).dir = .quote from rfl, inTok_self,
      show traderIn (Ex.after exSteep (exAlmostSteep ++ [.swap (exOffer 15)])) .quote = 1000000000000010 by decide +kernel,
      show traderIn (Ex.after exSteep exAlmostSteep) .quote = 999999999999900 by decide +kernel] at g
    omega
  · have hs : (Ex.after exMild exAlmostMild).step (.swap (exOffer 92199299210)) =
        .ok (Ex.after exMild (exAlmostMild ++ [.swap (exOffer 92199299210)])) := by decide +kernel
    obtain ⟨cur, fm, r, v1, v2, s⟩ := swap_ok hs
    have o := SwapStep.observed s
    refine ⟨_, _, exOffer 92199299210, _, reachMild, rfl, hs, o, rfl, ?_⟩
    have g := o.paid .quote
    rw [show inToken (exOffer 92199299210).dir = .quote from rfl, inTok_self,
      show traderIn (Ex.after exMild (exAlmostMild ++ [.swap (exOffer 92199299210)])) .quote = 968411528015256 by
        decide +kernel,
      show traderIn (Ex.after exMild exAlmostMild) .quote = 968319328715884 by decide +kernel] at g
    omega

/-- Partial fills of configurations A (fee on the output) and B (fee on the input, after the limiter window) that take less
than offered and bring the price to the migration price. -/
theorem C06_example :
    (∃ w', (Ex.after Ex.paramsB Ex.trading).step (.swap ⟨1, 40000000000000, 0, .quoteToBase, true, ⟨1400, 1001300⟩, Ex.txSwap⟩) =
        .ok w' ∧ SizeFree (Ex.after Ex.paramsB Ex.trading) ⟨1, 40000000000000, 0, .quoteToBase, true, ⟨1400, 1001300⟩, Ex.txSwap⟩ ∧
      traderIn w' .quote < traderIn (Ex.after Ex.paramsB Ex.trading) .quote + 40000000000000 ∧
      w'.pool.sqrtPrice = w'.cfg.migrationSqrtPrice) ∧
    (∃ w', (Ex.after Ex.paramsA Ex.trading).step (.swap ⟨1, 40000000000000, 0, .quoteToBase, true, ⟨1400, 1001300⟩, Ex.txSwap⟩) =
        .ok w' ∧ SizeFree (Ex.after Ex.paramsA Ex.trading) ⟨1, 40000000000000, 0, .quoteToBase, true, ⟨1400, 1001300⟩, Ex.txSwap⟩ ∧
      traderIn w' .quote < traderIn (Ex.after Ex.paramsA Ex.trading) .quote + 40000000000000 ∧
      w'.pool.sqrtPrice = w'.cfg.migrationSqrtPrice) := by
  constructor
  · refine ⟨Ex.after Ex.paramsB (Ex.trading ++ [Ex.buy 1 40000000000000 0 1300 true Ex.txSwap]), by decide +kernel,
      .inl ?_, by decide +kernel, by decide +kernel⟩
    rintro ⟨-, -, -, cur, h1, h2⟩
    have e1 : currentPoint (Ex.after Ex.paramsB Ex.trading).cfg.activationType ⟨1400, 1001300⟩ = .ok 1400 := by
      decide +kernel
    rw [e1, ok_inj] at h1
    subst h1
    exact absurd h2 (by decide +kernel)
  · refine ⟨Ex.after Ex.paramsA (Ex.trading ++ [Ex.buy 1 40000000000000 0 1300 true Ex.txSwap]), by decide +kernel,
      .inl ?_, by decide +kernel, by decide +kernel⟩
    rintro ⟨h1, -⟩
    exact absurd h1 (by decide +kernel)

end Props

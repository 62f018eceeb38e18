import Verif.Props.Life
import Verif.Lemmas.Mono

/-!
# No sequence of trades extracts value from the curve: C09
-/

namespace Props
open Dbc Spec

/-- What all traders and referral accounts together gained (or lost, if negative) of a token between two states. -/
def gained (w w' : World) (t : Token) : ℤ :=
  ((traderOut w' t : ℤ) + referrals w' t - traderIn w' t) - ((traderOut w t : ℤ) + referrals w t - traderIn w t)

/-- One instruction: the reserves gain at least what the exact curve asks for the price move, and nobody trading gets more
than the reserves lose. -/
structure Backed (w w' : World) : Prop where
  cfg : w'.cfg = w.cfg
  quote : quoteTo (Spec.curve w.cfg) w'.pool.sqrtPrice - quoteTo (Spec.curve w.cfg) w.pool.sqrtPrice
    ≤ (reserve w' .quote : ℚ) - reserve w .quote
  base : baseTo (Spec.curve w.cfg) w.pool.sqrtPrice - baseTo (Spec.curve w.cfg) w'.pool.sqrtPrice
    ≤ (reserve w' .base : ℚ) - reserve w .base
  gain : ∀ t, gained w w' t ≤ (reserve w t : ℤ) - reserve w' t

theorem backed_step {w w' : World} {op : Op} (h : Reachable w) (hs : w.step op = .ok w') : Backed w w' := by
  rcases step_cases hs with ⟨a, rfl, _⟩ | hk
  · obtain ⟨h1, h2⟩ := C08_rounds_for_pool h hs
    have hcfg := step_cfg hs
    obtain ⟨cur, fm, r, v1, v2, s⟩ := swap_ok hs
    have hgain : ∀ t, gained w w' t ≤ (reserve w t : ℤ) - reserve w' t := by
      intro t
      have o := SwapStep.observed s
      have e1 := o.paid t
      have e2 := o.got t
      have e3 := o.referral t
      have e4 := SwapStep.reserves s t
      have e5 : inTok (feeTok fm) t r.fee.referral ≤ inTok (feeTok fm) t r.fee.sum := by
        unfold inTok FeeSplit.sum
        split <;> omega
      unfold tradeOf at e1 e2 e3
      dsimp only at e1 e2 e3
      unfold gained
      omega
    cases hd : a.dir with
    | quoteToBase =>
      obtain ⟨q, b⟩ := h1 hd
      exact ⟨hcfg, q, by linarith, hgain⟩
    | baseToQuote =>
      obtain ⟨b, q⟩ := h2 hd
      exact ⟨hcfg, by linarith, b, hgain⟩
  · obtain ⟨e0, _, e1, e2, e3, _, _, _, _, _, _, _, e4, e5, e6, e7, e8, e9, _⟩ := hk
    refine ⟨e0, ?_, ?_, fun t => ?_⟩
    · rw [e1]; simp only [reserve, e3]; simp
    · rw [e1]; simp only [reserve, e2]; simp
    · cases t <;> simp only [gained, traderIn, traderOut, referrals, reserve, e2, e3, e4, e5, e6, e7, e8, e9] <;> omega

theorem backed_run {w w' : World} {ops : List Op} (h : Reachable w) (hr : Run w ops w') : Backed w w' := by
  refine Run.relReach (R := Backed) (fun w => ⟨rfl, by simp, by simp, fun t => by unfold gained; omega⟩) ?_
    (fun w op w' h hs => backed_step h hs) h hr
  intro a b c hab hbc
  have e := hab.cfg
  have q1 := hab.quote
  have q2 := hbc.quote
  have b1 := hab.base
  have b2 := hbc.base
  rw [e] at q2 b2
  refine ⟨hbc.cfg.trans e, by linarith, by linarith, fun t => ?_⟩
  have g1 := hab.gain t
  have g2 := hbc.gain t
  unfold gained at *
  omega

/-- C09: over any history, all traders together (even counting referral fees as theirs) cannot gain one token without
paying in the other: if they end with no less base they end with no more quote, and if they end with strictly more base they
end with strictly less quote; and the same with the tokens exchanged. -/
theorem C09_no_extraction {w w' : World} {ops : List Op} (h : Reachable w) (hr : Run w ops w') :
    (0 ≤ gained w w' .base → gained w w' .quote ≤ 0) ∧ (0 ≤ gained w w' .quote → gained w w' .base ≤ 0) ∧
    (0 < gained w w' .base → gained w w' .quote < 0) ∧ (0 < gained w w' .quote → gained w w' .base < 0) := by
  have hb := backed_run h hr
  have gb := hb.gain .base
  have gq := hb.gain .quote
  obtain ⟨ps, hc⟩ := h.core
  have hc' := h.run hr
  obtain ⟨lo', hi'⟩ := C07_price_range hc'
  rw [hb.cfg] at lo' hi'
  have q := hb.quote
  have b := hb.base
  rw [curve_eq hc.good.curve] at q b
  have hp := hc.good.curve.proper
  have hlo := hc.lo
  have hhi := hc.hi
  have htop := hc.good.curve.migHi
  have cast : ∀ x y : Nat, ((x : ℚ) - y < 0 → (x : ℤ) - y < 0) ∧ ((0 : ℚ) < x - y → 0 < (x : ℤ) - y) ∧
      ((0 : ℚ) ≤ x - y → 0 ≤ (x : ℤ) - y) := by
    intro x y
    refine ⟨fun h => ?_, fun h => ?_, fun h => ?_⟩
    · have : (x : ℚ) < y := by linarith
      have : x < y := by exact_mod_cast this
      omega
    · have : (y : ℚ) < x := by linarith
      have : y < x := by exact_mod_cast this
      omega
    · have : (y : ℚ) ≤ x := by linarith
      have : y ≤ x := by exact_mod_cast this
      omega
  have cb := cast (reserve w' .base) (reserve w .base)
  have cq := cast (reserve w' .quote) (reserve w .quote)
  rcases lt_trichotomy w.pool.sqrtPrice w'.pool.sqrtPrice with hlt | heq | hgt
  · have s1 := quoteTo_strict hp hlo hlt (hi'.trans htop)
    have := cq.2.1 (by linarith)
    refine ⟨?_, ?_, ?_, ?_⟩ <;> intro <;> omega
  · rw [heq] at q b
    have r1 := cq.2.2 (by linarith)
    have r2 := cb.2.2 (by linarith)
    refine ⟨?_, ?_, ?_, ?_⟩ <;> intro <;> omega
  · have s1 := baseTo_strict hp lo' hgt (hhi.trans htop)
    have := cb.2.1 (by linarith)
    refine ⟨?_, ?_, ?_, ?_⟩ <;> intro <;> omega

/-- Traders of the example history bought and sold; they ended with more base and less quote. -/
theorem C09_example : Reachable (Ex.worldOf Ex.paramsA) ∧ Run (Ex.worldOf Ex.paramsA) Ex.trading Ex.tradingA ∧
    0 < gained (Ex.worldOf Ex.paramsA) Ex.tradingA .base ∧ gained (Ex.worldOf Ex.paramsA) Ex.tradingA .quote < 0 ∧
    0 < traderOut Ex.tradingA .quote := by
  refine ⟨Ex.genesisA.reachable, Ex.exec_run Ex.execTradingA, ?_, ?_, ?_⟩ <;> decide +kernel

end Props

import Verif.Props.Route
import Verif.Lemmas.Modes

/-!
# Exact-in and exact-out swaps of the same size: C72
-/

namespace Props
open Dbc Spec

/-! ### The two fee computations are inverse to each other -/

/-- Adding the fee to an amount and then taking it off gives the amount back, whatever the rate and the amount. -/
theorem C72_fee_inverse {num x inc f ex : Nat} {ref : Bool} {s : FeeSplit} (h : includedFeeAmount num x = .ok (inc, f))
    (h' : feeOnAmount num inc ref = .ok (ex, s)) : ex = x := by
  obtain ⟨a1, a2, a3, -, -⟩ := includedFeeAmount_ok h
  obtain ⟨b1, b2, -⟩ := feeOnAmount_ok h'
  have hD : 0 < FEE_DENOMINATOR := by decide
  have hd : 0 < FEE_DENOMINATOR - num := by omega
  have k1 := le_divCeil_mul (x * FEE_DENOMINATOR) hd
  have k2 := divCeil_mul_lt (x * FEE_DENOMINATOR) hd
  have k3 := le_divCeil_mul (inc * num) hD
  have k4 := divCeil_mul_lt (inc * num) hD
  rw [← a3] at k1 k2
  rw [← b2] at k3 k4
  rw [Nat.mul_sub] at k1 k2
  have k5 : inc * num ≤ inc * FEE_DENOMINATOR := Nat.mul_le_mul_left _ a1
  have k6 : inc * FEE_DENOMINATOR = ex * FEE_DENOMINATOR + s.sum * FEE_DENOMINATOR := by rw [← b1, Nat.add_mul]
  have lo : x * FEE_DENOMINATOR < (ex + 1) * FEE_DENOMINATOR := by rw [Nat.add_mul, Nat.one_mul]; omega
  have hi : ex * FEE_DENOMINATOR < (x + 1) * FEE_DENOMINATOR := by rw [Nat.add_mul, Nat.one_mul]; omega
  have := Nat.lt_of_mul_lt_mul_right lo
  have := Nat.lt_of_mul_lt_mul_right hi
  omega

/-- Taking the fee off an amount and adding it to no more than what is left gives no more than the amount. -/
theorem include_exclude_le {num a ex x inc f : Nat} {ref : Bool} {s : FeeSplit} (h : feeOnAmount num a ref = .ok (ex, s))
    (h' : includedFeeAmount num x = .ok (inc, f)) (hx : x ≤ ex) : inc ≤ a := by
  obtain ⟨b1, b2, -⟩ := feeOnAmount_ok h
  obtain ⟨a1, a2, a3, -, -⟩ := includedFeeAmount_ok h'
  have hD : 0 < FEE_DENOMINATOR := by decide
  have k3 := le_divCeil_mul (a * num) hD
  rw [← b2] at k3
  have k5 : a * num ≤ a * FEE_DENOMINATOR := Nat.mul_le_mul_left _ a1
  have k6 : a * FEE_DENOMINATOR = ex * FEE_DENOMINATOR + s.sum * FEE_DENOMINATOR := by rw [← b1, Nat.add_mul]
  have k7 : x * FEE_DENOMINATOR ≤ ex * FEE_DENOMINATOR := Nat.mul_le_mul_right _ hx
  rw [a3, divCeil_le_iff (by omega), Nat.mul_sub]
  omega

/-- Adding the fee to strictly less than what is left gives strictly less than the amount. -/
theorem include_exclude_lt {num a ex x inc f : Nat} {ref : Bool} {s : FeeSplit} (h : feeOnAmount num a ref = .ok (ex, s))
    (h' : includedFeeAmount num x = .ok (inc, f)) (hx : x < ex) : inc < a := by
  obtain ⟨b1, b2, -⟩ := feeOnAmount_ok h
  obtain ⟨a1, a2, a3, -, -⟩ := includedFeeAmount_ok h'
  have hD : 0 < FEE_DENOMINATOR := by decide
  have k3 := le_divCeil_mul (a * num) hD
  rw [← b2] at k3
  have k6 : a * FEE_DENOMINATOR = ex * FEE_DENOMINATOR + s.sum * FEE_DENOMINATOR := by rw [← b1, Nat.add_mul]
  have k7 : (x + 1) * FEE_DENOMINATOR ≤ ex * FEE_DENOMINATOR := Nat.mul_le_mul_right _ hx
  rw [Nat.add_mul, Nat.one_mul] at k7
  have : inc ≤ a - 1 := by
    rw [a3, divCeil_le_iff (by omega), Nat.mul_sub, Nat.sub_mul, Nat.sub_mul, Nat.one_mul, Nat.one_mul]
    have k5 : a * num ≤ a * FEE_DENOMINATOR := Nat.mul_le_mul_left _ a1
    have k8 : num ≤ a * num := Nat.le_mul_of_pos_left _ (by omega)
    have k9 : FEE_DENOMINATOR ≤ a * FEE_DENOMINATOR := Nat.le_mul_of_pos_left _ (by omega)
    omega
  omega

/-- An amount that leaves less than `x` after the fee is less than what `x` becomes with the fee. -/
theorem lt_include {num a ex x inc f : Nat} {ref : Bool} {s : FeeSplit} (h : feeOnAmount num a ref = .ok (ex, s))
    (h' : includedFeeAmount num x = .ok (inc, f)) (hx : ex < x) : a < inc := by
  obtain ⟨b1, b2, -⟩ := feeOnAmount_ok h
  obtain ⟨a1, a2, a3, -, -⟩ := includedFeeAmount_ok h'
  have hD : 0 < FEE_DENOMINATOR := by decide
  have k1 := le_divCeil_mul (x * FEE_DENOMINATOR) (b := FEE_DENOMINATOR - num) (by omega)
  rw [← a3] at k1
  have k4 := divCeil_mul_lt (a * num) hD
  rw [← b2] at k4
  have k6 : a * FEE_DENOMINATOR = ex * FEE_DENOMINATOR + s.sum * FEE_DENOMINATOR := by rw [← b1, Nat.add_mul]
  have k7 : (ex + 1) * FEE_DENOMINATOR ≤ x * FEE_DENOMINATOR := Nat.mul_le_mul_right _ hx
  rw [Nat.add_mul, Nat.one_mul] at k7
  have : a * (FEE_DENOMINATOR - num) < inc * (FEE_DENOMINATOR - num) := by
    rw [Nat.mul_sub a]
    omega
  exact Nat.lt_of_mul_lt_mul_right this

/-! ### The rate is the same in both modes when it does not depend on size -/

theorem baseFee_flat_modes {b : BaseFeeConfig} {d : TradeDirection} (h : b.mode ≠ 2 ∨ d = .baseToQuote)
    (cur act m m' : Nat) : baseFeeFromIncluded b cur act d m = baseFeeFromExcluded b cur act d m' := by
  by_cases e0 : b.mode = 0
  · simp only [baseFeeFromIncluded, baseFeeFromExcluded, e0]
  by_cases e1 : b.mode = 1
  · simp only [baseFeeFromIncluded, baseFeeFromExcluded, e1]
  by_cases e2 : b.mode = 2
  · have hd : d = .baseToQuote := h.resolve_left (fun hn => hn e2)
    subst hd
    simp only [baseFeeFromIncluded, baseFeeFromExcluded, e2, limiterApplied_sell, Bool.false_eq_true, if_false]
  · obtain ⟨k, e⟩ : ∃ k, b.mode = k + 3 := ⟨b.mode - 3, by omega⟩
    simp only [baseFeeFromIncluded, baseFeeFromExcluded, e]

theorem FlatRate.modes {w : World} {a : SwapArgs} (h : FlatRate w a) (p : Pool) (cur m m' : Nat) (fst : Bool) :
    numeratorIncluded w.cfg p cur m a.dir fst = numeratorExcluded w.cfg p cur m' a.dir fst := by
  unfold numeratorIncluded numeratorExcluded totalFeeFromIncluded totalFeeFromExcluded
  rw [baseFee_flat_modes h cur p.activationPoint m m']

/-! ### The walks -/

theorem walkIn_covers {c : PoolConfig} {ps : List Point} (hg : Good c ps) {p : Pool} (h1 : c.sqrtStartPrice ≤ p.sqrtPrice)
    (h2 : p.sqrtPrice ≤ c.migrationSqrtPrice) {d : TradeDirection} {a o : Nat} {r : FromInput} {r' : FromOutput}
    (h : walkIn c p d a = .ok r) (h' : walkOut c p d o = .ok r') (hn : r'.next ≤ c.migrationSqrtPrice)
    (ha : r'.amountIn ≤ a) : o ≤ r.out := by
  have hp := hg.curve.proper
  cases d with
  | quoteToBase =>
    simp only [walkIn, buyIn_loop hg.curve] at h
    have := buyInLoop_covers hp h1 h (buyOut_loop hg.curve h') hn (by omega)
    omega
  | baseToQuote =>
    simp only [walkIn, sellIn_down hg.curve h2] at h
    simp only [walkOut, sellOut_down hg.curve h2] at h'
    have := sellDown_covers (downs_ok hp) (Dbc.Proper.lo_pos hp) h1 h h' (by omega)
    omega

/-- What an exact-output swap charges and where it ends. -/
theorem out_swap_end {c : PoolConfig} {p : Pool} {a : SwapArgs} {fm : FeeMode} {cur : Nat} {fst : Bool} {r : SwapResult}
    (hm : a.mode = 2) (h : processSwap c p a fm cur fst = .ok r) :
    ∃ gross wk, walkOut c p a.dir gross = .ok wk ∧ r.next = wk.next ∧ r.out = a.amount0 ∧
      ((fm.feesOnInput = true ∧ gross = a.amount0 ∧ ∃ num f, numeratorExcluded c p cur wk.amountIn a.dir fst = .ok num ∧
          includedFeeAmount num wk.amountIn = .ok (r.includedIn, f)) ∨
        (fm.feesOnInput = false ∧ r.includedIn = wk.amountIn ∧ ∃ num f,
          numeratorExcluded c p cur a.amount0 a.dir fst = .ok num ∧ includedFeeAmount num a.amount0 = .ok (gross, f))) := by
  unfold processSwap at h
  simp only [hm, exactOut, bind_ok, req_ok, ok_inj, Prod.exists] at h
  obtain ⟨_, ⟨gross, f, hg, wk, hwk, _, _, inc, f', hi, rfl⟩, _, _, rfl⟩ := h
  refine ⟨gross, wk, hwk, rfl, rfl, ?_⟩
  cases hf : fm.feesOnInput with
  | true =>
    rw [hf, if_pos rfl] at hg hi
    simp only [bind_ok, ok_inj, Prod.exists, Prod.mk.injEq] at hg hi
    obtain ⟨num, hn, i, g, hinc, _, _, rfl, _⟩ := hi
    exact .inl ⟨rfl, hg.1.symm, num, _, hn, hinc⟩
  | false =>
    rw [hf, if_neg (by simp)] at hg hi
    simp only [bind_ok, ok_inj, Prod.exists, Prod.mk.injEq] at hg hi
    obtain ⟨num, hn, i, g, hinc, _, _, rfl, _⟩ := hg
    exact .inr ⟨rfl, hi.1.symm, num, _, hn, hinc⟩

/-- C72, first part: of an exact-output swap and an exact-input swap that could be made in the same state (with the same
direction, referral, clock and transaction), if the second offers at least what the first costs, it yields at least what
the first yields; provided the fee rate does not depend on size. -/
theorem C72_offer_the_cost {w w1 w2 : World} {a a' : SwapArgs} {x x' : Trade} (h : Reachable w) (hm : a.mode = 2)
    (hm' : a'.mode ≤ 1) (hflat : FlatRate w a)
    (hsame : a' = { a with mode := a'.mode, amount0 := a'.amount0, amount1 := a'.amount1 })
    (h1 : w.step (.swap a) = .ok w1) (h2 : w.step (.swap a') = .ok w2) (o1 : Observed w w1 a.dir x)
    (o2 : Observed w w2 a.dir x') (hpay : x.paid ≤ a'.amount0) : x.got ≤ x'.got := by
  obtain ⟨ps, hc⟩ := h.core
  obtain ⟨cur, fm, r, v1, v2, s⟩ := swap_ok h1
  obtain ⟨cur', fm', r', v1', v2', s'⟩ := swap_ok h2
  have ed : a'.dir = a.dir := by rw [hsame]
  have ec : a'.clk = a.clk := by rw [hsame]
  have er : a'.referral = a.referral := by rw [hsame]
  have ef : w.firstMin a' = w.firstMin a := by rw [hsame]; rfl
  have e1 : cur' = cur := by
    have q1 := s.hcur; have q2 := s'.hcur
    rw [ec, q1, ok_inj] at q2; exact q2.symm
  have e2 : fm' = fm := by
    have q1 := s.hfm; have q2 := s'.hfm
    rw [ed, er, q1, ok_inj] at q2; exact q2.symm
  have e3 : ({ w.pool with vol := v1' } : Pool) = { w.pool with vol := v1 } := by
    have q1 := s.pre; have q2 := s'.pre
    rw [ec, q1, ok_inj] at q2; exact q2.symm
  have hend : r.next ≤ w.cfg.migrationSqrtPrice := by
    obtain ⟨ps', hc'⟩ := (h.step h1).core
    have := hc'.hi
    rw [s.price, step_cfg h1] at this
    exact this
  have p1 := s.proc
  have p2 := s'.proc
  rw [e1, e2, e3, ef] at p2
  obtain ⟨gross, wk, n1, n2, n3, n4⟩ := out_swap_end hm p1
  obtain ⟨num', net', f', wk', m1, m2, m3, m4⟩ := in_swap_out hm' p2
  rw [ed] at m1 m3
  have g1 := o1.paid (inToken a.dir)
  have g2 := (SwapStep.observed s).paid (inToken a.dir)
  have y1 := o1.got (outToken a.dir)
  have y2 := (SwapStep.observed s).got (outToken a.dir)
  have y3 := o2.got (outToken a.dir)
  have y4 := (SwapStep.observed s').got (outToken a.dir)
  rw [inTok_self] at g1 y1 y3
  rw [ed] at y4
  unfold tradeOf at g2 y2 y4
  dsimp only at g2 y2 y4
  rw [inTok_self] at g2 y2 y4
  have hcost : r.includedIn ≤ a'.amount0 := by omega
  have hout : r.out ≤ r'.out := by
    rw [n3]
    rcases n4 with ⟨k1, k2, num, f, k3, k4⟩ | ⟨k1, k2, num, f, k3, k4⟩
    · rw [k1, if_pos rfl] at m2
      rw [hflat.modes _ _ _ wk.amountIn, k3, ok_inj] at m1
      subst m1
      have hnet : wk.amountIn ≤ net' := by
        by_contra hn
        have := lt_include m2 k4 (by omega)
        omega
      have hwk := walkIn_covers hc.good (p := { w.pool with vol := v1 }) hc.lo hc.hi m3 n1 (by omega) hnet
      rcases m4 with ⟨l1, l2⟩ | ⟨l1, g', l2⟩
      · omega
      · rw [k1] at l1; cases l1
    · rw [k1, if_neg (by simp), ok_inj, Prod.mk.injEq] at m2
      rw [hflat.modes _ _ _ a.amount0, k3, ok_inj] at m1
      subst m1
      have hwk := walkIn_covers hc.good (p := { w.pool with vol := v1 }) hc.lo hc.hi m3 n1 (by omega) (by omega)
      rcases m4 with ⟨l1, l2⟩ | ⟨l1, g', l2⟩
      · rw [k1] at l1; cases l1
      · by_contra hn
        have := lt_include l2 k4 (by omega)
        omega
  omega

/-- C72, second part: of an exact-input swap and an exact-output swap that could be made in the same state, if the second
asks for less than the first yields it costs no more than the first offers; also if it asks for just as much and does not
end on a point of the configured curve. Again provided the fee rate does not depend on size. -/
theorem C72_ask_the_yield {w w1 w2 : World} {a a' : SwapArgs} {x x' : Trade} (h : Reachable w) (hm : a.mode ≤ 1)
    (hm' : a'.mode = 2) (hflat : FlatRate w a)
    (hsame : a' = { a with mode := a'.mode, amount0 := a'.amount0, amount1 := a'.amount1 })
    (h1 : w.step (.swap a) = .ok w1) (h2 : w.step (.swap a') = .ok w2) (o1 : Observed w w1 a.dir x)
    (o2 : Observed w w2 a.dir x')
    (hask : x'.got < x.got ∨ (x'.got ≤ x.got ∧ ∀ q ∈ stored w.cfg.curve, q.price ≠ w2.pool.sqrtPrice)) :
    x'.paid ≤ a.amount0 := by
  obtain ⟨ps, hc⟩ := h.core
  obtain ⟨cur, fm, r, v1, v2, s⟩ := swap_ok h1
  obtain ⟨cur', fm', r', v1', v2', s'⟩ := swap_ok h2
  have ed : a'.dir = a.dir := by rw [hsame]
  have ec : a'.clk = a.clk := by rw [hsame]
  have er : a'.referral = a.referral := by rw [hsame]
  have ef : w.firstMin a' = w.firstMin a := by rw [hsame]; rfl
  have e1 : cur' = cur := by
    have q1 := s.hcur; have q2 := s'.hcur
    rw [ec, q1, ok_inj] at q2; exact q2.symm
  have e2 : fm' = fm := by
    have q1 := s.hfm; have q2 := s'.hfm
    rw [ed, er, q1, ok_inj] at q2; exact q2.symm
  have e3 : ({ w.pool with vol := v1' } : Pool) = { w.pool with vol := v1 } := by
    have q1 := s.pre; have q2 := s'.pre
    rw [ec, q1, ok_inj] at q2; exact q2.symm
  have p1 := s.proc
  have p2 := s'.proc
  rw [e1, e2, e3, ef] at p2
  obtain ⟨num', net', f', wk', m1, m2, m3, m4⟩ := in_swap_out hm p1
  obtain ⟨gross, wk, n1, n2, n3, n4⟩ := out_swap_end hm' p2
  rw [ed] at n1 n4
  have g1 := o2.paid (inToken a.dir)
  have g2 := (SwapStep.observed s').paid (inToken a.dir)
  have y1 := o1.got (outToken a.dir)
  have y2 := (SwapStep.observed s).got (outToken a.dir)
  have y3 := o2.got (outToken a.dir)
  have y4 := (SwapStep.observed s').got (outToken a.dir)
  rw [inTok_self] at g1 y1 y3
  rw [ed] at g2 y4
  unfold tradeOf at g2 y2 y4
  dsimp only at g2 y2 y4
  rw [inTok_self] at g2 y2 y4
  have z1 : x.got = r.out := by omega
  have z2 : x'.got = a'.amount0 := by omega
  rw [z1, z2, s'.price, n2] at hask
  have hcost : r'.includedIn ≤ a.amount0 := by
    rcases n4 with ⟨k1, k2, num, f, k3, k4⟩ | ⟨k1, k2, num, f, k3, k4⟩
    · rw [k1, if_pos rfl] at m2
      rw [hflat.modes _ _ _ wk.amountIn, k3, ok_inj] at m1
      subst m1
      rcases m4 with ⟨l1, l2⟩ | ⟨l1, g', l2⟩
      · have := C47_not_dearer h (x := w.pool.sqrtPrice) hc.lo hc.hi (show walkIn w.cfg (atPrice w w.pool.sqrtPrice) a.dir net' =
            .ok wk' from m3) (show walkOut w.cfg (atPrice w w.pool.sqrtPrice) a.dir gross = .ok wk from n1) (by
            rw [k2, ← l2]; exact hask)
        exact include_exclude_le m2 k4 this
      · rw [k1] at l1; cases l1
    · rw [k1, if_neg (by simp), ok_inj, Prod.mk.injEq] at m2
      rw [hflat.modes _ _ _ a'.amount0, k3, ok_inj] at m1
      subst m1
      rcases m4 with ⟨l1, l2⟩ | ⟨l1, g', l2⟩
      · rw [k1] at l1; cases l1
      · have := C47_not_dearer h (x := w.pool.sqrtPrice) hc.lo hc.hi (show walkIn w.cfg (atPrice w w.pool.sqrtPrice) a.dir net' =
            .ok wk' from m3) (show walkOut w.cfg (atPrice w w.pool.sqrtPrice) a.dir gross = .ok wk from n1) (by
            rcases hask with hq | ⟨hq, hr⟩
            · exact .inl (include_exclude_lt l2 k4 hq)
            · exact .inr ⟨include_exclude_le l2 k4 hq, hr⟩)
        omega
  omega

/-! ### Concrete cases -/

/-- A buy and a sale by exact output in a reachable pool with a fee schedule and a volatility fee, and the swaps that offer
what they cost. -/
theorem C72_example : Reachable (Ex.after Ex.paramsA Ex.trading) ∧
    FlatRate (Ex.after Ex.paramsA Ex.trading) (exOut 123456789012) ∧
    (∃ w1 w2, (Ex.after Ex.paramsA Ex.trading).step (.swap (exOut 123456789012)) = .ok w1 ∧
      (Ex.after Ex.paramsA Ex.trading).step (.swap (exIn 711810443)) = .ok w2 ∧
      traderIn w1 .quote - traderIn (Ex.after Ex.paramsA Ex.trading) .quote = 711810443 ∧
      traderOut w2 .base - traderOut (Ex.after Ex.paramsA Ex.trading) .base = 123456789118 ∧
      ∀ q ∈ stored (Ex.after Ex.paramsA Ex.trading).cfg.curve, q.price ≠ w1.pool.sqrtPrice) ∧
    (∃ w1 w2, (Ex.after Ex.paramsA Ex.trading).step (.swap { exOut 123456789 with dir := .baseToQuote }) = .ok w1 ∧
      (Ex.after Ex.paramsA Ex.trading).step (.swap { exIn 22588449389 with dir := .baseToQuote }) = .ok w2 ∧
      traderIn w1 .base - traderIn (Ex.after Ex.paramsA Ex.trading) .base = 22588449389 ∧
      traderOut w2 .quote - traderOut (Ex.after Ex.paramsA Ex.trading) .quote = 123456789 ∧
      ∀ q ∈ stored (Ex.after Ex.paramsA Ex.trading).cfg.curve, q.price ≠ w1.pool.sqrtPrice) := by
  refine ⟨Ex.reachTradingA, .inl (by decide +kernel),
    ⟨((Ex.after Ex.paramsA Ex.trading).step (.swap (exOut 123456789012))).toOption.getD (Ex.worldOf Ex.paramsA),
      ((Ex.after Ex.paramsA Ex.trading).step (.swap (exIn 711810443))).toOption.getD (Ex.worldOf Ex.paramsA),
      by decide +kernel⟩,
    ⟨((Ex.after Ex.paramsA Ex.trading).step
        (.swap { exOut 123456789 with dir := .baseToQuote })).toOption.getD (Ex.worldOf Ex.paramsA),
      ((Ex.after Ex.paramsA Ex.trading).step
        (.swap { exIn 22588449389 with dir := .baseToQuote })).toOption.getD (Ex.worldOf Ex.paramsA),
      by decide +kernel⟩⟩

/-- Why the rate must not depend on size: under a rate limiter the rate an exact-output buy is charged is computed from the
amount without fee and can be lower than the rate computed from the amount with fee, so that offering what the exact-output
buy costs yields less. -/
theorem C72_limiter_exception : ∃ w1 w2, Reachable (Ex.worldOf punish) ∧
    (Ex.worldOf punish).step (.swap (exOut 133456789370)) = .ok w1 ∧
    (Ex.worldOf punish).step (.swap (exIn 3135037317)) = .ok w2 ∧
    traderIn w1 .quote - traderIn (Ex.worldOf punish) .quote = 3135037317 ∧
    traderOut w2 .base - traderOut (Ex.worldOf punish) .base = 133456788512 := by
  refine ⟨((Ex.worldOf punish).step (.swap (exOut 133456789370))).toOption.getD (Ex.worldOf punish),
    ((Ex.worldOf punish).step (.swap (exIn 3135037317))).toOption.getD (Ex.worldOf punish), ?_, by decide +kernel⟩
  exact Genesis.reachable ⟨punish, Ex.env, Ex.initArgs 1, Ex.configOf punish,
    by constructor <;> first | decide | (intro pre post h; cases h; done) | (intro q hq; revert q hq; decide),
    by decide +kernel, by decide +kernel⟩

end Props

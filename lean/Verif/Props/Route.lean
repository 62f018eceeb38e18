import Verif.Props.Split
import Verif.Props.Rate

/-!
# Size and result under a rate limiter: C43

`C43_swap_in` and `C43_swap_out` (Props/Compare) are about rates that do not depend on the size. Under a rate limiter a larger
buy pays a higher rate. Here it is shown that it still never pays to offer less, up to the rounding of the rate, as long as
there is no volatility fee, and that with one it can.
-/

namespace Props
open Dbc Spec

/-- What the limiter leaves of an amount, against the exact block rates. -/
theorem limiter_left {b : BaseFeeConfig} (l : Limiter b) {x nb e : Nat} {ref : Bool} {f : FeeSplit} (hu : x ≤ u64Max)
    (hr : limiterFromIncluded b x = .ok nb) (hf : feeOnAmount (min nb MAX_FEE_NUMERATOR) x ref = .ok (e, f)) :
    e * FEE_DENOMINATOR ≤ net b.third b.cliff (b.first * 100000) x ∧
      net b.third b.cliff (b.first * 100000) x < e * FEE_DENOMINATOR + 2 * FEE_DENOMINATOR + x := by
  obtain ⟨num, _, I⟩ := incl_total l hu
  have er := I.rate
  rw [hr, ok_inj] at er
  obtain ⟨a1, a2, -⟩ := feeOnAmount_ok hf
  have hD : 0 < FEE_DENOMINATOR := by decide
  have h1 := net_add b.third b.cliff (b.first * 100000) x
  have e1 : Spec.unit = FEE_DENOMINATOR := rfl
  rw [e1] at h1
  have b1 := le_divCeil_mul (x * min nb MAX_FEE_NUMERATOR) hD
  have b2 := divCeil_mul_lt (x * min nb MAX_FEE_NUMERATOR) hD
  rw [← a2] at b1 b2
  have c1 : blockFee b.third b.cliff (b.first * 100000) x ≤ x * min nb MAX_FEE_NUMERATOR := by
    rcases Nat.le_total nb MAX_FEE_NUMERATOR with k | k
    · rw [Nat.min_eq_left k, er]; exact I.feeLo
    · rw [Nat.min_eq_right k]; exact (blockFee_le _ _ _ _).trans (Nat.mul_le_mul_left _ (by decide))
  have c2 : x * min nb MAX_FEE_NUMERATOR ≤ x * num := Nat.mul_le_mul_left _ (by omega)
  have c3 := I.feeHi
  generalize x * min nb MAX_FEE_NUMERATOR = P at *
  have d : e * FEE_DENOMINATOR + f.sum * FEE_DENOMINATOR = x * FEE_DENOMINATOR := by rw [← Nat.add_mul, a1]
  omega

/-- The rate of a buy under a limiter when there is no volatility fee. -/
theorem limiter_rate_in {w : World} {v : VolTracker} {cur m n : Nat} {fst : Bool} (hm : w.cfg.fees.base.mode = 2)
    (hdyn : w.cfg.fees.dyn.initialized = 0)
    (h : numeratorIncluded w.cfg { w.pool with vol := v } cur m .quoteToBase fst = .ok n) :
    (∀ k, numeratorIncluded w.cfg { w.pool with vol := v } cur k .quoteToBase fst = .ok n) ∨
      (fst = false ∧ limiterApplied w.cfg.fees.base cur w.pool.activationPoint .quoteToBase = true ∧
        ∃ nb, limiterFromIncluded w.cfg.fees.base m = .ok nb ∧ n = min nb MAX_FEE_NUMERATOR) := by
  cases fst with
  | true =>
    left
    intro k
    unfold numeratorIncluded at h ⊢
    rw [if_pos rfl] at h ⊢
    exact h
  | false =>
    cases happ : limiterApplied w.cfg.fees.base cur w.pool.activationPoint .quoteToBase with
    | false =>
      left
      intro k
      unfold numeratorIncluded totalFeeFromIncluded at h ⊢
      rw [if_neg (by simp)] at h ⊢
      rw [show baseFeeFromIncluded w.cfg.fees.base cur w.pool.activationPoint .quoteToBase k = .ok w.cfg.fees.base.cliff by
        simp only [baseFeeFromIncluded, hm, happ, Bool.false_eq_true, if_false]]
      rw [show baseFeeFromIncluded w.cfg.fees.base cur w.pool.activationPoint .quoteToBase m = .ok w.cfg.fees.base.cliff by
        simp only [baseFeeFromIncluded, hm, happ, Bool.false_eq_true, if_false]] at h
      exact h
    | true =>
      right
      unfold numeratorIncluded at h
      rw [if_neg (by simp)] at h
      obtain ⟨nb, h1, h2⟩ := totalFee_off hdyn h
      unfold baseFeeFromIncluded at h1
      simp only [hm, happ, if_true] at h1
      exact ⟨rfl, rfl, nb, h1, h2⟩

theorem left_mono {x y N N' e e' : Nat} (hle : x + 201 + y / 10000000 ≤ y) (h1 : e * FEE_DENOMINATOR ≤ N)
    (h2 : N' < e' * FEE_DENOMINATOR + 2 * FEE_DENOMINATOR + y) (h3 : N + (y - x) * 10000000 ≤ N') : e ≤ e' := by
  have eD : FEE_DENOMINATOR = 1000000000 := rfl
  rw [eD] at h1 h2
  omega

/-- C43 under a rate limiter, exact input: of two buys that could be made in the same state and differ only in the amount
offered and the minimum asked for, the one offering more by at least 201 units and one part in 10⁷ receives no less, when
there is no volatility fee. -/
theorem C43_limiter_in {w w1 w2 : World} {a a' : SwapArgs} {x x' : Trade} (h : Reachable w) (hm : a.mode ≤ 1)
    (hdyn : w.cfg.fees.dyn.initialized = 0) (hle : a.amount0 + 201 + a'.amount0 / 10000000 ≤ a'.amount0)
    (hu : a'.amount0 ≤ u64Max) (hsame : a' = { a with amount0 := a'.amount0, amount1 := a'.amount1 })
    (h1 : w.step (.swap a) = .ok w1) (h2 : w.step (.swap a') = .ok w2) (o1 : Observed w w1 a.dir x)
    (o2 : Observed w w2 a.dir x') : x.got ≤ x'.got := by
  have hlt : a.amount0 < a'.amount0 := by omega
  by_cases hflat : FlatRate w a
  · exact C43_swap_in h hm hflat hlt.le hsame h1 h2 o1 o2
  have hmode : w.cfg.fees.base.mode = 2 := by
    by_contra hn
    exact hflat (.inl hn)
  have hdir : a.dir = .quoteToBase := by
    cases hd : a.dir with
    | baseToQuote => exact absurd (.inr hd) hflat
    | quoteToBase => rfl
  obtain ⟨ps, hc⟩ := h.core
  obtain ⟨p, env, ht, hcfg⟩ := h.config
  obtain ⟨cur, fm, r, v1, v2, s⟩ := swap_ok h1
  obtain ⟨cur', fm', r', v1', v2', s'⟩ := swap_ok h2
  have ed : a'.dir = a.dir := by rw [hsame]
  have em : a'.mode = a.mode := by rw [hsame]
  have ec : a'.clk = a.clk := by rw [hsame]
  have er : a'.referral = a.referral := by rw [hsame]
  have ef : w.firstMin a' = w.firstMin a := by rw [hsame]; rfl
  have e1 : cur' = cur := by
    have q1 := s.hcur; have q2 := s'.hcur
    rw [ec, q1, ok_inj] at q2; exact q2.symm
  have e2 : fm' = fm := by
    have q1 := s.hfm; have q2 := s'.hfm
    rw [ed, er, q1, ok_inj] at q2; exact q2.symm
  have e3 : ({ w.pool with vol := v1' } : Pool) = { w.pool with vol := v1 } := by
    have q1 := s.pre; have q2 := s'.pre
    rw [ec, q1, ok_inj] at q2; exact q2.symm
  have hin : fm.feesOnInput = true := limiter_onInput hcfg hmode hdir s.hfm
  have p1 := s.proc
  have p2 := s'.proc
  rw [e1, e2, e3, ef] at p2
  obtain ⟨num, left, f, wk, n1, n2, n3, n4⟩ := in_swap_out hm p1
  obtain ⟨num', left', f', wk', m1, m2, m3, m4⟩ := in_swap_out (em ▸ hm) p2
  rw [ed] at m1 m3
  rw [hin, if_pos rfl] at n2 m2
  have hnet : left ≤ left' := by
    rw [hdir] at n1 m1
    rcases limiter_rate_in hmode hdyn n1 with k | ⟨kf, kp, nb, k1, k2⟩
    · rw [k, ok_inj] at m1
      subst m1
      exact feeOnAmount_mono hlt.le n2 m2
    · rcases limiter_rate_in hmode hdyn m1 with k' | ⟨-, -, nb', k1', k2'⟩
      · rw [k', ok_inj] at n1
        subst n1
        exact feeOnAmount_mono hlt.le n2 m2
      · have l : Limiter w.cfg.fees.base := by
          rcases accepted_limiter hcfg hmode with ⟨hz, -⟩ | l
          · unfold limiterApplied at kp
            rw [if_pos hz] at kp
            cases kp
          · exact l
        rw [k2] at n2
        rw [k2'] at m2
        have i1 := (limiter_left l (hlt.le.trans hu) k1 n2).1
        have i2 := (limiter_left l hu k1' m2).2
        have i3 := net_grow w.cfg.fees.base.third w.cfg.fees.base.cliff (w.cfg.fees.base.first * 100000) a.amount0
          (a'.amount0 - a.amount0)
        rw [Nat.add_sub_cancel' hlt.le] at i3
        exact left_mono hle i1 i2 i3
  have hwk := (walkIn_mono hc.good (p := { w.pool with vol := v1 }) hc.lo hc.hi hnet n3 m3).1
  have hout : r.out ≤ r'.out := by
    rcases n4 with ⟨k1, k2⟩ | ⟨k1, g, k2⟩ <;> rcases m4 with ⟨l1, l2⟩ | ⟨l1, g', l2⟩
    · omega
    all_goals first
      | (rw [hin] at k1; exact absurd k1 (by decide))
      | (rw [hin] at l1; exact absurd l1 (by decide))
  have g1 := o1.got (outToken a.dir)
  have g2 := (SwapStep.observed s).got (outToken a.dir)
  have g3 := o2.got (outToken a.dir)
  have g4 := (SwapStep.observed s').got (outToken a.dir)
  rw [inTok_self] at g1 g3
  rw [ed] at g4
  unfold tradeOf at g2 g4
  dsimp only at g2 g4
  rw [inTok_self] at g2 g4
  omega

/-- The amount paid under a limiter when the trade is given by what must be left. -/
theorem limiter_rate_out {p : ConfigParams} {env : ConfigEnv} {w : World} {v : VolTracker} {cur m n : Nat} {fst : Bool}
    (hcfg : createConfig p env = .ok w.cfg) (hm : w.cfg.fees.base.mode = 2)
    (h : numeratorExcluded w.cfg { w.pool with vol := v } cur m .quoteToBase fst = .ok n) :
    (∀ k, numeratorExcluded w.cfg { w.pool with vol := v } cur k .quoteToBase fst = .ok n) ∨
      (LimiterActive w.cfg.fees.base cur w.pool.activationPoint .quoteToBase ∧
        totalFeeFromExcluded w.cfg.fees v cur w.pool.activationPoint m .quoteToBase = .ok n) := by
  cases fst with
  | true =>
    left
    intro k
    unfold numeratorExcluded at h ⊢
    rw [if_pos rfl] at h ⊢
    exact h
  | false =>
    cases happ : limiterApplied w.cfg.fees.base cur w.pool.activationPoint .quoteToBase with
    | false =>
      left
      intro k
      unfold numeratorExcluded totalFeeFromExcluded at h ⊢
      rw [if_neg (by simp)] at h ⊢
      rw [show baseFeeFromExcluded w.cfg.fees.base cur w.pool.activationPoint .quoteToBase k = .ok w.cfg.fees.base.cliff by
        simp only [baseFeeFromExcluded, hm, happ, Bool.false_eq_true, if_false]]
      rw [show baseFeeFromExcluded w.cfg.fees.base cur w.pool.activationPoint .quoteToBase m = .ok w.cfg.fees.base.cliff by
        simp only [baseFeeFromExcluded, hm, happ, Bool.false_eq_true, if_false]] at h
      exact h
    | true =>
      right
      unfold numeratorExcluded at h
      rw [if_neg (by simp)] at h
      refine ⟨?_, h⟩
      unfold limiterApplied at happ
      by_cases z1 : limiterZero w.cfg.fees.base
      · rw [if_pos z1] at happ; cases happ
      · rw [if_neg z1, if_neg (by decide)] at happ
        by_cases z2 : w.pool.activationPoint + w.cfg.fees.base.second < cur
        · rw [if_pos z2] at happ; cases happ
        · refine ⟨fun z3 => ?_, rfl, by omega⟩
          rcases accepted_limiter hcfg hm with ⟨z, -⟩ | l
          · exact z1 z
          · exact absurd z3 l.x0.ne'

/-- The arithmetic of `C43_limiter_out`. -/
theorem paid_mono {x x' ex ex' f f' R R' N N' : Nat} (hle : ex ≤ ex') (h1 : x = ex + f) (h2 : x' = ex' + f')
    (h3 : f ≤ divCeil R FEE_DENOMINATOR + 8 + divCeil (3 * x) FEE_DENOMINATOR) (h4 : divCeil R' FEE_DENOMINATOR ≤ f')
    (n1 : N + R = x * FEE_DENOMINATOR) (n2 : N' + R' = x' * FEE_DENOMINATOR)
    (hg : x' ≤ x → N' + (x - x') * 10000000 ≤ N) : x ≤ x' + 1000 + x / 1000000 := by
  by_contra hn
  have g := hg (by omega)
  have hD : 0 < FEE_DENOMINATOR := by decide
  have k1 := le_divCeil_mul R' hD
  have k2 := divCeil_mul_lt R hD
  have k3 := divCeil_mul_lt (3 * x) hD
  have eD : FEE_DENOMINATOR = 1000000000 := rfl
  generalize divCeil R FEE_DENOMINATOR = a at *
  generalize divCeil R' FEE_DENOMINATOR = b at *
  generalize divCeil (3 * x) FEE_DENOMINATOR = c at *
  rw [eD] at n1 n2 k1 k2 k3
  omega

/-- C43 under a rate limiter, exact output: of two swaps that could be made in the same state and differ only in the amount
asked for and the maximum to pay, the one asking for more pays no less, up to 1000 units and one part in a million, when
there is no volatility fee. -/
theorem C43_limiter_out {w w1 w2 : World} {a a' : SwapArgs} {x x' : Trade} (h : Reachable w) (hm : a.mode = 2)
    (hdyn : w.cfg.fees.dyn.initialized = 0) (hle : a.amount0 ≤ a'.amount0)
    (hsame : a' = { a with amount0 := a'.amount0, amount1 := a'.amount1 })
    (h1 : w.step (.swap a) = .ok w1) (h2 : w.step (.swap a') = .ok w2) (o1 : Observed w w1 a.dir x)
    (o2 : Observed w w2 a.dir x') : x.paid ≤ x'.paid + 1000 + x.paid / 1000000 := by
  by_cases hflat : FlatRate w a
  · exact (C43_swap_out h hm hflat hle hsame h1 h2 o1 o2).trans (by omega)
  have hmode : w.cfg.fees.base.mode = 2 := by
    by_contra hn
    exact hflat (.inl hn)
  have hdir : a.dir = .quoteToBase := by
    cases hd : a.dir with
    | baseToQuote => exact absurd (.inr hd) hflat
    | quoteToBase => rfl
  obtain ⟨ps, hc⟩ := h.core
  obtain ⟨p, env, ht, hcfg⟩ := h.config
  obtain ⟨cur, fm, r, v1, v2, s⟩ := swap_ok h1
  obtain ⟨cur', fm', r', v1', v2', s'⟩ := swap_ok h2
  have ed : a'.dir = a.dir := by rw [hsame]
  have em : a'.mode = a.mode := by rw [hsame]
  have ec : a'.clk = a.clk := by rw [hsame]
  have er : a'.referral = a.referral := by rw [hsame]
  have ef : w.firstMin a' = w.firstMin a := by rw [hsame]; rfl
  have e1 : cur' = cur := by
    have q1 := s.hcur; have q2 := s'.hcur
    rw [ec, q1, ok_inj] at q2; exact q2.symm
  have e2 : fm' = fm := by
    have q1 := s.hfm; have q2 := s'.hfm
    rw [ed, er, q1, ok_inj] at q2; exact q2.symm
  have e3 : ({ w.pool with vol := v1' } : Pool) = { w.pool with vol := v1 } := by
    have q1 := s.pre; have q2 := s'.pre
    rw [ec, q1, ok_inj] at q2; exact q2.symm
  have hin : fm.feesOnInput = true := limiter_onInput hcfg hmode hdir s.hfm
  have p1 := s.proc
  have p2 := s'.proc
  rw [e1, e2, e3, ef] at p2
  obtain ⟨gross, wk, n1, n2⟩ := out_swap_in hm p1
  obtain ⟨gross', wk', m1, m2⟩ := out_swap_in (em.trans hm) p2
  rw [ed] at m1 m2
  have hpaid : r.includedIn ≤ r'.includedIn + 1000 + r.includedIn / 1000000 := by
    rcases n2 with ⟨-, k2, num, f, k3, k4⟩ | ⟨k1, -⟩
    · rcases m2 with ⟨-, l2, num', f', l3, l4⟩ | ⟨l1, -⟩
      · subst k2 l2
        have hwk := (walkOut_mono hc.good (p := { w.pool with vol := v1 }) hc.lo hc.hi hle n1 m1).1
        rw [hdir] at k3 l3
        rcases limiter_rate_out hcfg hmode k3 with q | ⟨qa, q⟩
        · rw [q, ok_inj] at l3
          subst l3
          exact (includedFee_mono hwk k4 l4).trans (by omega)
        · rcases limiter_rate_out hcfg hmode l3 with q' | ⟨-, q'⟩
          · rw [q', ok_inj] at k3
            subst k3
            exact (includedFee_mono hwk k4 l4).trans (by omega)
          · obtain ⟨a1, -, a3⟩ := C29_limiter_added ht hcfg hmode hdyn qa v1 ⟨num, q, k4⟩
            obtain ⟨b1, b2, -⟩ := C29_limiter_added ht hcfg hmode hdyn qa v1 ⟨num', q', l4⟩
            rw [ceilDiv_unit, ceilDiv_unit] at a3
            rw [ceilDiv_unit] at b2
            exact paid_mono hwk a1 b1 a3 b2 (net_add _ _ _ _) (net_add _ _ _ _) fun hx => by
              have i := net_grow w.cfg.fees.base.third w.cfg.fees.base.cliff (w.cfg.fees.base.first * 100000) r'.includedIn
                (r.includedIn - r'.includedIn)
              rw [Nat.add_sub_cancel' hx] at i
              exact i
      · rw [hin] at l1; exact absurd l1 (by decide)
    · rw [hin] at k1; exact absurd k1 (by decide)
  have g1 := o1.paid (inToken a.dir)
  have g2 := (SwapStep.observed s).paid (inToken a.dir)
  have g3 := o2.paid (inToken a.dir)
  have g4 := (SwapStep.observed s').paid (inToken a.dir)
  rw [inTok_self] at g1 g3
  rw [ed] at g4
  unfold tradeOf at g2 g4
  dsimp only at g2 g4
  rw [inTok_self] at g2 g4
  have x1 : x.paid = r.includedIn := by omega
  have x2 : x'.paid = r'.includedIn := by omega
  rw [x1, x2]
  exact hpaid

/-! ### Concrete cases -/

/-- Two buys under a rate limiter without volatility fee, in each mode, both of which go through. -/
theorem C43_limiter_example : Reachable (Ex.after Ex.paramsB Ex.trading) ∧
    (Ex.after Ex.paramsB Ex.trading).cfg.fees.dyn.initialized = 0 ∧
    ¬ FlatRate (Ex.after Ex.paramsB Ex.trading) (plainBuy 400 3000000000) ∧
    (∃ w1 w2, (Ex.after Ex.paramsB Ex.trading).step (.swap (plainBuy 400 3000000000)) = .ok w1 ∧
      (Ex.after Ex.paramsB Ex.trading).step (.swap (plainBuy 400 3000001000)) = .ok w2 ∧
      traderOut w1 .base < traderOut w2 .base) ∧
    (∃ w1 w2, (Ex.after Ex.paramsB Ex.trading).step (.swap { plainBuy 400 1000000000000 with mode := 2, amount1 := u64Max }) =
        .ok w1 ∧
      (Ex.after Ex.paramsB Ex.trading).step (.swap { plainBuy 400 2000000000000 with mode := 2, amount1 := u64Max }) = .ok w2 ∧
      traderIn w1 .quote < traderIn w2 .quote) := by
  refine ⟨Ex.reachTradingB, by decide +kernel, ?_,
    ⟨((Ex.after Ex.paramsB Ex.trading).step (.swap (plainBuy 400 3000000000))).toOption.getD (Ex.worldOf Ex.paramsB),
      ((Ex.after Ex.paramsB Ex.trading).step (.swap (plainBuy 400 3000001000))).toOption.getD (Ex.worldOf Ex.paramsB),
      by decide +kernel⟩,
    ⟨((Ex.after Ex.paramsB Ex.trading).step
        (.swap { plainBuy 400 1000000000000 with mode := 2, amount1 := u64Max })).toOption.getD (Ex.worldOf Ex.paramsB),
      ((Ex.after Ex.paramsB Ex.trading).step
        (.swap { plainBuy 400 2000000000000 with mode := 2, amount1 := u64Max })).toOption.getD (Ex.worldOf Ex.paramsB),
      by decide +kernel⟩⟩
  rintro (h | h)
  · exact h (by decide +kernel)
  · cases h

/-- A rate limiter that starts at 50% and rises to 99% after one unit of the quote token, with a volatility fee of at most a
fifth of the base fee, and its pool after one large buy. -/
def punish : ConfigParams :=
  { Ex.paramsB with
    fees := ⟨⟨500000000, 4900, 600, 1000000000, 2⟩, ⟨1, 14460000, 47800, 1, 10, 120, 5000, 1844674407370955⟩⟩ }
def punishWorld : World := Ex.after punish [Ex.buy 0 4000000000000 1 0 false Ex.txInit]

theorem reachPunish : Reachable punishWorld :=
  ⟨_, _, ⟨punish, Ex.env, Ex.initArgs 1, Ex.configOf punish,
    by constructor <;> first | decide | (intro pre post h; cases h; done) | (intro q hq; revert q hq; decide),
    by decide +kernel, by decide +kernel⟩,
    Ex.exec_run (w := Ex.worldOf punish) (ops := [Ex.buy 0 4000000000000 1 0 false Ex.txInit]) (by decide +kernel)⟩

/-- Why there must be no volatility fee: it is added to the average of the block rates, so that an extra token in a block taxed
at 99% costs more than it is worth. Offering 2 quote tokens here buys less than offering 1. (A test of the program,
`test_rate_limiter_routing_friendly`, states the opposite for limiters alone.) -/
theorem C43_volatile_limiter_punishes : ∃ w1 w2, Reachable punishWorld ∧
    punishWorld.step (.swap (plainBuy 50 1000000000)) = .ok w1 ∧ punishWorld.step (.swap (plainBuy 50 2000000000)) = .ok w2 ∧
    traderOut w1 .base - traderOut punishWorld .base = 64917506675 ∧
    traderOut w2 .base - traderOut punishWorld .base = 50322305947 := by
  refine ⟨(punishWorld.step (.swap (plainBuy 50 1000000000))).toOption.getD punishWorld,
    (punishWorld.step (.swap (plainBuy 50 2000000000))).toOption.getD punishWorld, reachPunish, ?_⟩
  decide +kernel

end Props

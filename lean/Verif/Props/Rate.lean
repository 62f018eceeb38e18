import Verif.Props.Claims
import Verif.Props.Life
import Verif.Props.Examples

/-!
# The fee over the life of a pool: C56
-/

namespace Props
open Dbc Spec

/-- The fee taken is `rate` (in units of 10⁻⁹) of `amount`, rounded up. -/
structure ChargedAt (rate amount fee : Nat) : Prop where
  enough : rate * amount ≤ fee * Spec.unit
  roundedUp : fee * Spec.unit < rate * amount + Spec.unit

/-- C56: when `t` slots or seconds (as configured) have passed since the pool was created, a swap that is not an eligible
first swap pays the scheduled rate plus the volatility part, at most 99%, of the fee-bearing amount, rounded up. The scheduled
rate is: for a linear schedule, the first rate less the configured cut for every completed period; for an exponential one the
first rate with the configured percentage taken off for every completed period (to within 1.000004 units); with a rate limiter
the first rate for sales and for buys after the window, and for buys inside the window the average of the block rates over what
is paid (or over what would be paid for the same result without surcharge), at least the first rate, and without dynamic fee such that the fee is the sum of the block rates over what is paid, up to 8 units and 3 parts in 10⁹. -/
theorem C56_fee_over_time {p : ConfigParams} {env : ConfigEnv} {c : PoolConfig} {ia : InitArgs} {w0 w w' : World}
    {ops : List Op} {a : SwapArgs} {t : Nat} (ht : p.Typed) (hc : createConfig p env = .ok c) (hi : initPool c ia = .ok w0)
    (hr : Run w0 ops w) (ha : a.amount0 ≤ u64Max) (hs : w.step (.swap a) = .ok w')
    (hclk : moment p.activationType a.clk.slot a.clk.time = moment p.activationType ia.clk.slot ia.clk.time + t)
    (hfirst : ¬ (p.enableFirstSwapMinFee = true ∧ countOps isSwap ops = 0 ∧ SameTxInit w.key a)) :
    ∃ x base rate, Observed w w' a.dir x ∧ ChargedAt rate (x.bearing a.dir) x.fee ∧
      rate = min (base + volatilityPart p.fees.dyn w.pool.vol.volAcc) Spec.maxRate ∧
      (p.fees.base.mode = 0 →
        base + p.fees.base.third * periods p.fees.base.first p.fees.base.second t = p.fees.base.cliff) ∧
      (p.fees.base.mode = 1 →
        |(base : ℚ) - p.fees.base.cliff *
          (1 - (p.fees.base.third : ℚ) / 10000) ^ periods p.fees.base.first p.fees.base.second t| < 1 + 4 / 1000000) ∧
      (p.fees.base.mode = 2 → a.dir = .baseToQuote ∨ p.fees.base.third = 0 ∨ p.fees.base.second < t →
        base = p.fees.base.cliff) ∧
      (p.fees.base.mode = 2 → a.dir = .quoteToBase → p.fees.base.third ≠ 0 → t ≤ p.fees.base.second →
        p.fees.base.cliff ≤ base ∧
        BlockAverage p.fees.base.third p.fees.base.cliff (p.fees.base.first * 100000) base x.paid (x.paid - x.fee) ∧
        (p.fees.dyn.initialized = 0 → x.bearing a.dir = x.paid ∧
          Spec.ceilDiv (Spec.blockFee p.fees.base.third p.fees.base.cliff (p.fees.base.first * 100000) x.paid) Spec.unit ≤
            x.fee ∧
          x.fee ≤ Spec.ceilDiv (Spec.blockFee p.fees.base.third p.fees.base.cliff (p.fees.base.first * 100000) x.paid)
            Spec.unit + 8 + Spec.ceilDiv (3 * x.paid) Spec.unit)) := by
  have hp := (createConfig_ok hc).eq
  have ew0 : w0.cfg = c ∧ w0.pool.activationPoint = moment p.activationType ia.clk.slot ia.clk.time := by
    obtain ⟨supply, mint, upd, act, b, -, -, -, -, -, -, -, h6, rfl⟩ := initPool_ok hi
    refine ⟨rfl, ?_⟩
    have := currentPoint_moment h6
    rw [show c.activationType = p.activationType by rw [hp]; rfl] at this
    exact this
  obtain ⟨ecfg, eact⟩ : w.cfg = c ∧ w.pool.activationPoint = moment p.activationType ia.clk.slot ia.clk.time :=
    Run.induct (P := fun w => w.cfg = c ∧ w.pool.activationPoint = moment p.activationType ia.clk.slot ia.clk.time)
      (fun w op w' ⟨h1, h2⟩ hs => ⟨by rw [step_cfg hs, h1], by rw [step_activation hs, h2]⟩) hr ew0
  have hfirst : w.firstMin a = false := by
    cases hf : w.firstMin a with
    | false => rfl
    | true =>
      unfold World.firstMin at hf
      simp only [Bool.and_eq_true, decide_eq_true_eq] at hf
      refine absurd ⟨?_, (hasSwap_iff ⟨p, env, ia, c, ht, hc, hi⟩ hr).1 hf.1.2, initIxOk_iff hf.2⟩ hfirst
      have := hf.1.1
      rw [ecfg, show c.enableFirstSwapMinFee = if p.enableFirstSwapMinFee then 1 else 0 by rw [hp]; rfl] at this
      cases e : p.enableFirstSwapMinFee with
      | true => rfl
      | false => rw [e] at this; cases this
  obtain ⟨cur, fm, r, v1, v2, s⟩ := swap_ok hs
  have ecur := currentPoint_moment s.hcur
  rw [ecfg, show c.activationType = p.activationType by rw [hp]; rfl, hclk, ← eact] at ecur
  subst ecur
  have ch := processSwap_charge s.proc
  obtain ⟨num, hnum, hfee⟩ := ch.rate
  have hbear : (tradeOf w.cfg fm r).bearing a.dir =
      if fm.feesOnInput = true then r.includedIn else r.out + r.fee.sum := by
    unfold Trade.bearing
    rw [tradeOf_fee s]
    have := (getFeeMode_ok s.hfm).2.1
    by_cases g : fm.feesOnInput = true
    · rw [if_pos g, if_pos (show (tradeOf w.cfg fm r).feeToken = _ from this.1 g)]; rfl
    · rw [if_neg g, if_neg (show ¬ (tradeOf w.cfg fm r).feeToken = _ from fun e => g (this.2 e))]; rfl
  have hacc : v1.volAcc = w.pool.vol.volAcc := by
    by_cases hi : w.cfg.fees.dyn.initialized = 0
    · rw [(s.preOff hi).1]
    · exact updateReferences_acc (s.preOn hi)
  have hD : 0 < FEE_DENOMINATOR := by decide
  have b1 := le_divCeil_mul ((if fm.feesOnInput = true then r.includedIn else r.out + r.fee.sum) * num) hD
  have b2 := divCeil_mul_lt ((if fm.feesOnInput = true then r.includedIn else r.out + r.fee.sum) * num) hD
  rw [← hfee, Nat.mul_comm _ num] at b1 b2
  rw [hfirst] at hnum
  -- the base rate, and how it was looked up
  obtain ⟨base, hbase, hrate⟩ : ∃ base,
      ((a.mode ≤ 1 ∧ (fm.feesOnInput = true → r.includedIn = a.amount0) ∧
          baseFeeFromIncluded c.fees.base (w.pool.activationPoint + t) w.pool.activationPoint a.dir a.amount0 = .ok base ∧
          totalFeeFromIncluded c.fees v1 (w.pool.activationPoint + t) w.pool.activationPoint a.amount0 a.dir = .ok num) ∨
        (baseFeeFromExcluded c.fees.base (w.pool.activationPoint + t) w.pool.activationPoint a.dir
            (if fm.feesOnInput = true then r.excludedIn else r.out) = .ok base ∧
          totalFeeFromExcluded c.fees v1 (w.pool.activationPoint + t) w.pool.activationPoint
            (if fm.feesOnInput = true then r.excludedIn else r.out) a.dir = .ok num ∧
          includedFeeAmount num (if fm.feesOnInput = true then r.excludedIn else r.out) =
            .ok (if fm.feesOnInput = true then r.includedIn else r.out + r.fee.sum, r.fee.sum))) ∧
      num = min (base + volatilityPart c.fees.dyn w.pool.vol.volAcc) Spec.maxRate := by
    rw [ecfg] at hnum
    rcases hnum with ⟨hm, hp, hnum⟩ | ⟨hm, hnum, hinc⟩
    · simp only [numeratorIncluded, Bool.false_eq_true, if_false] at hnum
      have hk := hnum
      simp only [totalFeeFromIncluded, bind_ok] at hnum
      obtain ⟨b, hb, ht⟩ := hnum
      have ht := totalFee_ok ht
      rw [hacc] at ht
      exact ⟨b, .inl ⟨hm, hp, hb, hk⟩, ht⟩
    · simp only [numeratorExcluded, Bool.false_eq_true, if_false] at hnum
      have hk := hnum
      simp only [totalFeeFromExcluded, bind_ok] at hnum
      obtain ⟨b, hb, ht⟩ := hnum
      have ht := totalFee_ok ht
      rw [hacc] at ht
      exact ⟨b, .inr ⟨hb, hk, hinc⟩, ht⟩
  have ecf : c.fees = p.fees := by rw [hp]; rfl
  have sched : ∀ (_ : c.fees.base.mode = 0 ∨ c.fees.base.mode = 1),
      baseFeeFromIncluded c.fees.base (w.pool.activationPoint + t) w.pool.activationPoint a.dir a.amount0 = .ok base := by
    intro hm
    rcases hbase with ⟨-, -, h, -⟩ | ⟨h, -⟩
    · exact h
    · rcases hm with hm | hm <;> simp only [baseFeeFromIncluded, baseFeeFromExcluded, hm] at h ⊢ <;> exact h
  rw [← ecf]
  refine ⟨_, base, num, SwapStep.observed s, ⟨?_, ?_⟩, hrate, ?_, ?_, ?_, ?_⟩
  · rw [hbear, tradeOf_fee s]; exact b1
  · rw [hbear, tradeOf_fee s]; exact b2
  · intro hm
    obtain ⟨g, sc⟩ := accepted_scheduler hc (.inl hm)
    obtain ⟨fee, mn, hin, -, -, -, -, -, hmn, hle, -, hlin⟩ := C28_schedule hc (.inl hm) w.pool.activationPoint
    have e := hin t a.dir a.amount0
    rw [sched (.inl hm), ok_inj] at e
    have h1 := hlin hm t
    have h2 := hle t
    have : 0 < Spec.minRate := by decide
    unfold periods
    rcases sc.shape with ⟨z1, z2, z3⟩ | ⟨z1, z2, z3⟩
    · rw [z3, Nat.zero_mul] at h1
      rw [z3, Nat.zero_mul]
      omega
    · rw [if_neg (by omega)]
      omega
  · intro hm
    obtain ⟨g, sc⟩ := accepted_scheduler hc (.inr hm)
    obtain ⟨f, hf, u, l⟩ := C40_exponential_accurate hc hm w.pool.activationPoint t a.dir a.amount0
    rw [sched (.inr hm), ok_inj] at hf
    subst hf
    have e : periods c.fees.base.first c.fees.base.second t = min (t / c.fees.base.second) c.fees.base.first := by
      unfold periods
      split
      · next h => rw [h, Nat.div_zero, Nat.zero_min]
      · rfl
    rw [e, abs_lt]
    constructor <;> linarith
  · intro hm hd
    have happ : limiterApplied c.fees.base (w.pool.activationPoint + t) w.pool.activationPoint a.dir = false := by
      unfold limiterApplied
      split
      · rfl
      · next hz =>
        rcases hd with hd | hd | hd
        · rw [if_pos hd]
        · exfalso
          rcases accepted_limiter hc hm with ⟨h, -⟩ | l
          · exact hz h
          · have := l.x0; omega
        · split
          · rfl
          · rw [if_pos (by omega)]
    rcases hbase with ⟨-, -, h, -⟩ | ⟨h, -⟩
    · simp only [baseFeeFromIncluded, hm, happ, Bool.false_eq_true, if_false, ok_inj] at h; exact h.symm
    · simp only [baseFeeFromExcluded, hm, happ, Bool.false_eq_true, if_false, ok_inj] at h; exact h.symm
  · intro hm hdir hthird htime
    have hact : LimiterActive c.fees.base (w.pool.activationPoint + t) w.pool.activationPoint .quoteToBase :=
      ⟨hthird, rfl, by omega⟩
    have hcl := C29_limiter_rate hc hm (w.pool.activationPoint + t) w.pool.activationPoint a.dir
    have hon : fm.feesOnInput = true := by
      have := s.hfm
      rw [ecfg] at this
      exact limiter_onInput hc hm hdir this
    have hpaid : (tradeOf w.cfg fm r).paid = r.includedIn := rfl
    refine ⟨?_, ?_, fun hdyn => ?_⟩
    · rcases hbase with ⟨-, -, h, -⟩ | ⟨h, -, hinc⟩
      · exact (hcl a.amount0 ha).2.2.1 _ (.inl h)
      · refine (hcl _ ?_).2.2.1 _ (.inr h)
        obtain ⟨-, -, -, e1, e2⟩ := includedFeeAmount_ok hinc
        omega
    · have l : Limiter c.fees.base := by
        rcases accepted_limiter hc hm with ⟨hz, _⟩ | l
        · exact absurd hz.1 hthird
        · exact l
      have h3 : c.fees.base.third ≤ u64Max := by rw [ecf]; exact ht.third
      have happ := limiterActive_applied hact
      rw [hpaid, tradeOf_fee s]
      rw [hdir] at hbase
      simp only [hon, if_true] at hbase
      rcases hbase with ⟨-, hp1, h, -⟩ | ⟨h, -, hinc⟩
      · simp only [baseFeeFromIncluded, hm, happ, if_true] at h
        rw [hp1 trivial]
        exact average_included l s.pos ha h _
      · simp only [baseFeeFromExcluded, hm, happ, if_true] at h
        have : r.includedIn - r.fee.sum = r.excludedIn := by
          obtain ⟨-, -, -, e1, e2⟩ := includedFeeAmount_ok hinc
          omega
        rw [this]
        exact average_excluded l h3 h _
    · rw [hbear, tradeOf_fee s, hpaid, if_pos hon]
      refine ⟨rfl, ?_⟩
      rw [hdir] at hbase
      simp only [hon, if_true] at hbase
      rcases hbase with ⟨-, hp1, -, h⟩ | ⟨-, h, hinc⟩
      · have hx0 : 0 < a.amount0 := s.pos
        obtain ⟨fee, ⟨n', ex, h', hex⟩, lo, hi⟩ := C29_limiter_tokens hc hm hdyn hact v1 a.amount0 hx0 ha
        rw [h, ok_inj] at h'
        subst h'
        have hfee' : fee = r.fee.sum := by
          simp only [excludedFeeAmount, bind_ok, safeSub_ok, ok_inj, Prod.mk.injEq] at hex
          obtain ⟨f, hf, _, -, -, rfl⟩ := hex
          rw [hfee, if_pos hon, hp1 trivial]
          exact (mulDivU64_up' hf).2.1
        have hm3 : Spec.ceilDiv a.amount0 Spec.unit ≤ Spec.ceilDiv (3 * a.amount0) Spec.unit := by
          rw [ceilDiv_unit, ceilDiv_unit]
          exact divCeil_mono hD (by omega)
        rw [hp1 trivial, ← hfee']
        exact ⟨lo, by omega⟩
      · exact (C29_limiter_added ht hc hm hdyn hact v1 ⟨num, h, hinc⟩).2

/-- The hypotheses of `C56_fee_over_time`. -/
def Covered (p : ConfigParams) (ops : List Op) (a : SwapArgs) (t : Nat) : Prop :=
  ∃ env c ia w0 w w', p.Typed ∧ createConfig p env = .ok c ∧ initPool c ia = .ok w0 ∧ Run w0 ops w ∧ a.amount0 ≤ u64Max ∧
    w.step (.swap a) = .ok w' ∧
    moment p.activationType a.clk.slot a.clk.time = moment p.activationType ia.clk.slot ia.clk.time + t ∧
    ¬ (p.enableFirstSwapMinFee = true ∧ countOps isSwap ops = 0 ∧ SameTxInit w.key a)

/-- Three periods into a linear and an exponential schedule, and inside the window of a rate limiter, each after an earlier
swap. -/
theorem C56_example :
    Covered Ex.paramsA (Ex.trading.take 1) ⟨0, 1000000000, 0, .quoteToBase, true, ⟨170, 1000190⟩, Ex.txSwap⟩ 190 ∧
    periods Ex.paramsA.fees.base.first Ex.paramsA.fees.base.second 190 = 3 ∧
    Covered Ex.paramsC (Ex.trading.take 1) ⟨0, 1000000000, 0, .quoteToBase, true, ⟨135, 1000035⟩, Ex.txSwap⟩ 35 ∧
    periods Ex.paramsC.fees.base.first Ex.paramsC.fees.base.second 35 = 3 ∧
    Covered Ex.paramsB (Ex.trading.take 1) ⟨2, 1000000000000, 1000000000000000, .quoteToBase, true, ⟨135, 1000035⟩, Ex.txSwap⟩ 35 := by
  refine ⟨⟨Ex.env, Ex.configOf Ex.paramsA, Ex.initArgs 0, Ex.worldOf Ex.paramsA, Ex.after Ex.paramsA (Ex.trading.take 1),
      Ex.after Ex.paramsA (Ex.trading.take 1 ++ [.swap ⟨0, 1000000000, 0, .quoteToBase, true, ⟨170, 1000190⟩, Ex.txSwap⟩]),
      Ex.typedA, Ex.acceptedA, Ex.initA, Ex.exec_run ?_, ?_, ?_, ?_, ?_⟩, ?_,
    ⟨Ex.env, Ex.configOf Ex.paramsC, Ex.initArgs 1, Ex.worldOf Ex.paramsC, Ex.after Ex.paramsC (Ex.trading.take 1),
      Ex.after Ex.paramsC (Ex.trading.take 1 ++ [.swap ⟨0, 1000000000, 0, .quoteToBase, true, ⟨135, 1000035⟩, Ex.txSwap⟩]),
      Ex.typedC, Ex.acceptedC, Ex.initC, Ex.exec_run ?_, ?_, ?_, ?_, ?_⟩, ?_,
    ⟨Ex.env, Ex.configOf Ex.paramsB, Ex.initArgs 1, Ex.worldOf Ex.paramsB, Ex.after Ex.paramsB (Ex.trading.take 1),
      Ex.after Ex.paramsB (Ex.trading.take 1 ++
        [.swap ⟨2, 1000000000000, 1000000000000000, .quoteToBase, true, ⟨135, 1000035⟩, Ex.txSwap⟩]),
      Ex.typedB, Ex.acceptedB, Ex.initB, Ex.exec_run ?_, ?_, ?_, ?_, ?_⟩⟩
  all_goals first
    | decide +kernel
    | (rintro ⟨-, h, -⟩; revert h; decide +kernel)

end Props

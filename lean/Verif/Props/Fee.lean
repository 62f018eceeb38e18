import Verif.Lemmas.Config
import Verif.Lemmas.Inverse
import Verif.Props.Examples

/-!
# Fee schedules, rate limiter, square root: C28, C29, C39, C40
-/

namespace Props
open Dbc

/-! ### From an accepted configuration -/

theorem accepted_fees {p : ConfigParams} {env : ConfigEnv} {c : PoolConfig} (h : createConfig p env = .ok c) :
    ∃ a, poolFeesValidate c.fees c.collectFeeMode a = .ok () := by
  have ha := createConfig_ok h
  have hv := validate_ok ha.validated
  obtain ⟨a, _, hf⟩ := hv.act
  refine ⟨a, ?_⟩
  rw [ha.eq]; exact hf

theorem accepted_base {p : ConfigParams} {env : ConfigEnv} {c : PoolConfig} (h : createConfig p env = .ok c) :
    ∃ a, baseFeeValidate c.fees.base c.collectFeeMode a = .ok () := by
  obtain ⟨a, h⟩ := accepted_fees h
  simp only [poolFeesValidate, bind_ok] at h
  obtain ⟨_, h, _⟩ := h
  exact ⟨a, h⟩

theorem accepted_scheduler {p : ConfigParams} {env : ConfigEnv} {c : PoolConfig} (h : createConfig p env = .ok c)
    (hm : c.fees.base.mode = 0 ∨ c.fees.base.mode = 1) : ∃ g, Sched c.fees.base g := by
  obtain ⟨a, hb⟩ := accepted_base h
  rcases hm with hm | hm <;> simp only [baseFeeValidate, hm] at hb
  · exact scheduler_ok (.inl hm) hb
  · exact scheduler_ok (.inr hm) hb

theorem accepted_limiter {p : ConfigParams} {env : ConfigEnv} {c : PoolConfig} (h : createConfig p env = .ok c)
    (hm : c.fees.base.mode = 2) :
    (limiterZero c.fees.base ∧ MIN_FEE_NUMERATOR ≤ c.fees.base.cliff ∧ c.fees.base.cliff ≤ MAX_FEE_NUMERATOR) ∨
      Limiter c.fees.base := by
  obtain ⟨a, hb⟩ := accepted_base h
  simp only [baseFeeValidate, hm] at hb
  exact limiter_ok hb

theorem accepted_mode {p : ConfigParams} {env : ConfigEnv} {c : PoolConfig} (h : createConfig p env = .ok c) :
    c.fees.base.mode = 0 ∨ c.fees.base.mode = 1 ∨ c.fees.base.mode = 2 := by
  obtain ⟨a, hb⟩ := accepted_base h
  unfold baseFeeValidate at hb
  split at hb
  · left; assumption
  · right; left; assumption
  · right; right; assumption
  · cases hb

/-! ### C39 -/

/-- C39: the square root is exact for every 256-bit input. -/
theorem C39_sqrt_exact (n : Nat) (h : n < 2 ^ 256) :
    ∃ s, sqrtU256 n = some s ∧ s ^ 2 ≤ n ∧ n < (s + 1) ^ 2 := by
  have hu : u256Max = 2 ^ 256 - 1 := rfl
  obtain ⟨s, h1, h2, h3⟩ := sqrtU256_ok (n := n) (by rw [hu]; exact Nat.le_sub_one_of_lt h)
  exact ⟨s, h1, by rw [pow_two]; exact h2, by rw [pow_two]; exact h3⟩

/-- Cases at the ends of the range and one off a square. -/
theorem C39_example : sqrtU256 (2 ^ 256 - 1) = some (2 ^ 128 - 1) ∧ sqrtU256 0 = some 0 ∧
    sqrtU256 (12345678901234567 ^ 2 - 1) = some 12345678901234566 ∧
    sqrtU256 (12345678901234567 ^ 2) = some 12345678901234567 := by decide +kernel

/-! ### The schedule -/

theorem schedule_core {p : ConfigParams} {env : ConfigEnv} {c : PoolConfig} (h : createConfig p env = .ok c)
    (hm : c.fees.base.mode = 0 ∨ c.fees.base.mode = 1) (act : Nat) :
    ∃ (fee : Nat → Nat) (mn : Nat),
      (∀ t dir amount, baseFeeFromIncluded c.fees.base (act + t) act dir amount = .ok (fee t)) ∧
      (∀ t dir amount, baseFeeFromExcluded c.fees.base (act + t) act dir amount = .ok (fee t)) ∧
      fee 0 = c.fees.base.cliff ∧ fee 0 ≤ Spec.maxRate ∧
      (∀ s t, s ≤ t → fee t ≤ fee s) ∧
      minBaseFee c.fees.base = .ok mn ∧ Spec.minRate ≤ mn ∧ (∀ t, mn ≤ fee t) ∧
      (∀ t, c.fees.base.first * c.fees.base.second ≤ t → fee t = mn) ∧
      (c.fees.base.mode = 0 →
        ∀ t, fee t = c.fees.base.cliff - c.fees.base.third * min (t / c.fees.base.second) c.fees.base.first) := by
  obtain ⟨g, s⟩ := accepted_scheduler h hm
  have key : ∀ t dir amount, baseFeeFromIncluded c.fees.base (act + t) act dir amount =
      .ok (g (t / c.fees.base.second)) := by
    intro t dir amount
    have := s.numerator (cur := act + t) (act := act) (by omega)
    rw [Nat.add_sub_cancel_left] at this
    rcases hm with hm | hm <;> simp only [baseFeeFromIncluded, hm] <;> exact this
  have key' : ∀ t dir amount, baseFeeFromExcluded c.fees.base (act + t) act dir amount =
      .ok (g (t / c.fees.base.second)) := by
    intro t dir amount
    have := key t dir amount
    rcases hm with hm | hm <;> simp only [baseFeeFromIncluded, baseFeeFromExcluded, hm] at this ⊢ <;> exact this
  have hlow : ∀ n, g c.fees.base.first ≤ g n := by
    intro n
    rcases Nat.le_total n c.fees.base.first with hn | hn
    · exact s.anti _ _ hn
    · rw [s.last n hn]
  refine ⟨fun t => g (t / c.fees.base.second), g c.fees.base.first, key, key', ?_, ?_, ?_, s.min, s.floor, ?_, ?_, ?_⟩
  · simp only [Nat.zero_div]; exact s.zero
  · simp only [Nat.zero_div, s.zero]; exact s.cap
  · intro a b hab
    exact s.anti _ _ (Nat.div_le_div_right hab)
  · intro t; exact hlow _
  · intro t ht
    rcases s.shape with ⟨_, h2, _⟩ | ⟨h1, _, _⟩
    · exact s.last _ (by rw [h2]; exact Nat.zero_le _)
    · exact s.last _ ((Nat.le_div_iff_mul_le h1).2 ht)
  · intro hm0 t
    have := s.eq (t / c.fees.base.second)
    simp only [schedulerByPeriod, hm0, bind_ok, safeMul_ok, safeSub_ok] at this
    obtain ⟨_, ⟨_, rfl⟩, _, h⟩ := this
    exact h

/-! ### C40 -/

/-- C40: at every time after activation the base fee of an accepted exponential schedule is the exact real value
`cliff * (1 - r/10000)^n` up to rounding: less than 1.000004 units below it and less than 0.000004 units above it. -/
theorem C40_exponential_accurate {p : ConfigParams} {env : ConfigEnv} {c : PoolConfig}
    (h : createConfig p env = .ok c) (hm : c.fees.base.mode = 1) (act t : Nat) (dir : TradeDirection) (amount : Nat) :
    ∃ f : Nat, baseFeeFromIncluded c.fees.base (act + t) act dir amount = .ok f ∧
      (f : ℚ) < c.fees.base.cliff * (1 - (c.fees.base.third : ℚ) / 10000) ^ (min (t / c.fees.base.second) c.fees.base.first)
        + 4 / 1000000 ∧
      c.fees.base.cliff * (1 - (c.fees.base.third : ℚ) / 10000) ^ (min (t / c.fees.base.second) c.fees.base.first)
        - (1 + 4 / 1000000) < (f : ℚ) := by
  obtain ⟨g, s⟩ := accepted_scheduler h (.inr hm)
  have hnum := s.numerator (cur := act + t) (act := act) (by omega)
  rw [Nat.add_sub_cancel_left] at hnum
  refine ⟨g (t / c.fees.base.second), by simp only [baseFeeFromIncluded, hm]; exact hnum, ?_⟩
  have heq := s.eq (t / c.fees.base.second)
  rcases s.shape with ⟨h1, h2, h3⟩ | ⟨h1, h2, h3⟩
  · have e : g (t / c.fees.base.second) = c.fees.base.cliff := by
      rw [h1, Nat.div_zero]; exact s.zero
    rw [e, h2, h3]
    constructor <;> simp <;> norm_num
  · simp only [schedulerByPeriod, hm, ite_ok, reduceCtorEq, and_false, or_false] at heq
    obtain ⟨h16, heq⟩ := heq
    generalize min (t / c.fees.base.second) c.fees.base.first = n at *
    generalize g (t / c.fees.base.second) = f at *
    exact getFeeInPeriod_accurate h3 h16 s.cap heq

/-- The fixed-point fee can exceed the exact real value by a fraction of a unit, so "never exceeds" would be false:
an accepted schedule whose fee after three periods is above the exact value. -/
theorem C40_can_exceed : ∃ p env c f, ConfigParams.Typed p ∧ createConfig p env = .ok c ∧ c.fees.base.mode = 1 ∧
    baseFeeFromIncluded c.fees.base 1003 1000 .quoteToBase 1 = .ok f ∧
    c.fees.base.cliff * (10000 - c.fees.base.third) ^ 3 < f * 10000 ^ 3 := by
  refine ⟨{ Ex.paramsC with fees := ⟨⟨80344087, 3, 1, 321, 1⟩, ⟨0, 0, 0, 0, 0, 0, 0, 0⟩⟩ }, Ex.env,
    { Ex.configOf Ex.paramsC with fees := ⟨⟨80344087, 3, 1, 321, 1⟩, ⟨0, 0, 0, 0, 0, 0, 0, 0⟩⟩ }, 72852656, ?_, ?_, ?_, ?_, ?_⟩
  · constructor <;> first | decide | (intro pre post h; cases h; done) | (intro q hq; revert q hq; decide)
  all_goals decide +kernel

theorem C40_example : createConfig Ex.paramsC Ex.env = .ok (Ex.configOf Ex.paramsC) ∧
    (Ex.configOf Ex.paramsC).fees.base.mode = 1 := by
  refine ⟨Ex.acceptedC, ?_⟩; decide +kernel

/-- The rate at which a configured schedule ends. A linear schedule has then made all its cuts, an exponential one has taken
its percentage off once for every period (to within 1.000004 billionths), a rate limiter's base rate does not change. -/
structure LastRate (b : BaseFeeConfig) (rate : Nat) : Prop where
  linear : b.mode = 0 → rate + b.third * b.first = b.cliff
  exponential : b.mode = 1 →
    |(rate : ℚ) - b.cliff * (1 - (b.third : ℚ) / 10000) ^ b.first| < 1 + 4 / 1000000
  limiter : b.mode = 2 → rate = b.cliff

theorem minBaseFee_last {p : ConfigParams} {env : ConfigEnv} {c : PoolConfig} (h : createConfig p env = .ok c) {mn : Nat}
    (hmin : minBaseFee c.fees.base = .ok mn) : LastRate c.fees.base mn := by
  refine ⟨fun hm => ?_, fun hm => ?_, fun hm => ?_⟩
  · obtain ⟨g, s⟩ := accepted_scheduler h (.inl hm)
    have := s.eq c.fees.base.first
    rw [s.min, ok_inj] at hmin
    rw [hmin] at this
    simp only [schedulerByPeriod, hm, bind_ok, safeMul_ok, safeSub_ok, Nat.min_self] at this
    obtain ⟨_, ⟨_, rfl⟩, h1, h2⟩ := this
    omega
  · obtain ⟨g, s⟩ := accepted_scheduler h (.inr hm)
    obtain ⟨f, hf, u, l⟩ := C40_exponential_accurate h hm 0 (c.fees.base.first * c.fees.base.second) .quoteToBase 0
    have e : min (c.fees.base.first * c.fees.base.second / c.fees.base.second) c.fees.base.first = c.fees.base.first := by
      rcases s.shape with ⟨h1, h2, h3⟩ | ⟨h1, h2, h3⟩
      · rw [h2]; exact Nat.min_zero _
      · rw [Nat.mul_div_cancel _ h1, Nat.min_self]
    rw [e] at u l
    obtain ⟨fee, mn', hin, -, -, -, -, hmn', -, -, hend, -⟩ := schedule_core h (.inr hm) 0
    rw [hmn', ok_inj] at hmin
    rw [hin, ok_inj, hend _ le_rfl, hmin] at hf
    rw [hf, abs_lt]
    constructor <;> linarith
  · simp only [minBaseFee, hm, ok_inj] at hmin
    exact hmin.symm

/-! ### C28 -/

/-- C28: for every accepted fee-scheduler configuration and every activation point there is a schedule `fee` such that at
every time after activation the base fee of any trade is `fee` of the elapsed time. It starts at the cliff fee, never
increases, and is never below the configured minimum, which is at least 0.25% and is the final value. The linear schedule
is the cliff minus one reduction per elapsed period. -/
theorem C28_schedule {p : ConfigParams} {env : ConfigEnv} {c : PoolConfig} (h : createConfig p env = .ok c)
    (hm : c.fees.base.mode = 0 ∨ c.fees.base.mode = 1) (act : Nat) :
    ∃ (fee : Nat → Nat) (mn : Nat),
      (∀ t dir amount, baseFeeFromIncluded c.fees.base (act + t) act dir amount = .ok (fee t)) ∧
      (∀ t dir amount, baseFeeFromExcluded c.fees.base (act + t) act dir amount = .ok (fee t)) ∧
      fee 0 = c.fees.base.cliff ∧ fee 0 ≤ Spec.maxRate ∧
      (∀ s t, s ≤ t → fee t ≤ fee s) ∧
      LastRate c.fees.base mn ∧ Spec.minRate ≤ mn ∧ (∀ t, mn ≤ fee t) ∧
      (∀ t, c.fees.base.first * c.fees.base.second ≤ t → fee t = mn) ∧
      (c.fees.base.mode = 0 →
        ∀ t, fee t = c.fees.base.cliff - c.fees.base.third * min (t / c.fees.base.second) c.fees.base.first) := by
  obtain ⟨fee, mn, h1, h2, h3, h4, h5, h6, h7⟩ := schedule_core h hm act
  exact ⟨fee, mn, h1, h2, h3, h4, h5, minBaseFee_last h h6, h7⟩

/-- Both kinds of schedule are accepted. -/
theorem C28_example : createConfig Ex.paramsA Ex.env = .ok (Ex.configOf Ex.paramsA) ∧
    (Ex.configOf Ex.paramsA).fees.base.mode = 0 ∧ createConfig Ex.paramsC Ex.env = .ok (Ex.configOf Ex.paramsC) ∧
    (Ex.configOf Ex.paramsC).fees.base.mode = 1 ∧
    baseFeeFromIncluded (Ex.configOf Ex.paramsA).fees.base 1185 1000 .quoteToBase 5 = .ok 38000000 ∧
    baseFeeFromIncluded (Ex.configOf Ex.paramsC).fees.base 1035 1000 .quoteToBase 5 = .ok 456336499 := by
  refine ⟨Ex.acceptedA, ?_, Ex.acceptedC, ?_, ?_, ?_⟩ <;> decide +kernel

/-! ### C29 -/

theorem ceilDiv_unit (a : Nat) : Spec.ceilDiv a Spec.unit = divCeil a FEE_DENOMINATOR := by
  show (a + Spec.unit - 1) / Spec.unit = (a + (FEE_DENOMINATOR - 1)) / FEE_DENOMINATOR
  rw [show FEE_DENOMINATOR = Spec.unit from rfl, Nat.add_sub_assoc (by decide)]

/-- A buy inside the limiter window of a configured (non-zero) limiter. -/
def LimiterActive (b : BaseFeeConfig) (cur act : Nat) (dir : TradeDirection) : Prop :=
  b.third ≠ 0 ∧ dir = .quoteToBase ∧ cur ≤ act + b.second

/-- C29, rate: with an accepted rate limiter the base fee rate of every trade of a 64-bit amount is at least the cliff rate
(itself at least 0.25% and at most 99%); and sells, and buys after the window, pay exactly the cliff rate. -/
theorem C29_limiter_rate {p : ConfigParams} {env : ConfigEnv} {c : PoolConfig} (h : createConfig p env = .ok c)
    (hm : c.fees.base.mode = 2) (cur act : Nat) (dir : TradeDirection) (amount : Nat) (ha : amount ≤ u64Max) :
    Spec.minRate ≤ c.fees.base.cliff ∧ c.fees.base.cliff ≤ Spec.maxRate ∧
    (∀ num, baseFeeFromIncluded c.fees.base cur act dir amount = .ok num ∨
        baseFeeFromExcluded c.fees.base cur act dir amount = .ok num → c.fees.base.cliff ≤ num) ∧
    (dir = .baseToQuote ∨ act + c.fees.base.second < cur →
      baseFeeFromIncluded c.fees.base cur act dir amount = .ok c.fees.base.cliff ∧
      baseFeeFromExcluded c.fees.base cur act dir amount = .ok c.fees.base.cliff) := by
  have hl := accepted_limiter h hm
  simp only [baseFeeFromIncluded, baseFeeFromExcluded, hm]
  refine ⟨?_, ?_, ?_, ?_⟩
  · rcases hl with ⟨_, h1, _⟩ | l
    · exact h1
    · exact l.lo
  · rcases hl with ⟨_, _, h1⟩ | l
    · exact h1
    · exact l.hi
  · intro num hn
    by_cases happ : limiterApplied c.fees.base cur act dir = true
    · rcases hl with ⟨hz, _⟩ | l
      · unfold limiterApplied at happ; rw [if_pos hz] at happ; cases happ
      · simp only [happ, if_true] at hn
        rcases hn with hn | hn
        · exact limiterFromIncluded_ge l ha hn
        · exact limiterFromExcluded_ge l hn
    · simp only [happ, if_false, ok_inj, Bool.false_eq_true] at hn
      rcases hn with rfl | rfl <;> exact le_rfl
  · intro hd
    have happ : limiterApplied c.fees.base cur act dir = false := by
      unfold limiterApplied
      split
      · rfl
      · split
        · rfl
        · rename_i h1
          rcases hd with hd | hd
          · exact absurd hd h1
          · rw [if_pos hd]
    simp only [happ, Bool.false_eq_true, if_false, and_self]

theorem limiterActive_applied {b : BaseFeeConfig} {cur act : Nat} {dir : TradeDirection} (h : LimiterActive b cur act dir) :
    limiterApplied b cur act dir = true := by
  obtain ⟨h1, h2, h3⟩ := h
  unfold limiterApplied
  rw [if_neg (by unfold limiterZero; omega), if_neg (by rw [h2]; decide), if_neg (by omega)]

/-- The tokens charged on a buy of `x` inside the window, given the volatility state `v`. -/
def TokenFee (c : PoolConfig) (v : VolTracker) (cur act x fee : Nat) : Prop :=
  ∃ num ex, totalFeeFromIncluded c.fees v cur act x .quoteToBase = .ok num ∧ excludedFeeAmount num x = .ok (ex, fee)

theorem blockFee_small {x0 c i x : Nat} (h0 : 0 < x0) (hx : x ≤ x0) (hc : c ≤ Spec.maxRate) :
    Spec.blockFee x0 c i x = x * c := by
  have := blockFee_block x0 c i 0 x hx h0
  simp only [Nat.mul_zero, Nat.zero_add, Spec.blockFee] at this
  rw [this]
  congr 1
  unfold Spec.blockRate
  simp only [Nat.zero_mul, Nat.add_zero]
  exact min_eq_left hc

/-- C29, amount: while the limiter is active and there is no dynamic fee, the tokens charged on a buy of `x` are the sum over
the tokens of the block rates (each block of the reference size costs one increment more, up to 99%), rounded up, plus at
most the rounding of the rate to nine digits. -/
theorem C29_limiter_tokens {p : ConfigParams} {env : ConfigEnv} {c : PoolConfig} (h : createConfig p env = .ok c)
    (hm : c.fees.base.mode = 2) (hdyn : c.fees.dyn.initialized = 0) {cur act : Nat}
    (hact : LimiterActive c.fees.base cur act .quoteToBase) (v : VolTracker) (x : Nat) (hx : 0 < x) (hu : x ≤ u64Max) :
    ∃ fee, TokenFee c v cur act x fee ∧
      Spec.ceilDiv (Spec.blockFee c.fees.base.third c.fees.base.cliff (c.fees.base.first * 100000) x) Spec.unit ≤ fee ∧
      fee ≤ Spec.ceilDiv (Spec.blockFee c.fees.base.third c.fees.base.cliff (c.fees.base.first * 100000) x) Spec.unit +
        Spec.ceilDiv x Spec.unit := by
  have l : Limiter c.fees.base := by
    rcases accepted_limiter h hm with ⟨hz, _⟩ | l
    · exact absurd hz.1 hact.1
    · exact l
  have happ := limiterActive_applied hact
  have hD : 0 < FEE_DENOMINATOR := by decide
  -- the base numerator, with its effect
  obtain ⟨num, hnum, hlo, hhi⟩ : ∃ num, limiterFromIncluded c.fees.base x = .ok num ∧
      divCeil (Spec.blockFee c.fees.base.third c.fees.base.cliff (c.fees.base.first * 100000) x) FEE_DENOMINATOR ≤
        divCeil (x * num) FEE_DENOMINATOR ∧
      divCeil (x * num) FEE_DENOMINATOR ≤
        divCeil (Spec.blockFee c.fees.base.third c.fees.base.cliff (c.fees.base.first * 100000) x) FEE_DENOMINATOR +
          divCeil x FEE_DENOMINATOR := by
    by_cases hin : c.fees.base.third < x
    · refine ⟨_, limiterFromIncluded_eq l hin hu, ?_⟩
      exact limiter_charge_bounds hx
    · refine ⟨c.fees.base.cliff, ?_, ?_⟩
      · unfold limiterFromIncluded; rw [if_pos (by omega)]
      · rw [blockFee_small l.x0 (by omega) l.hi]
        exact ⟨le_rfl, Nat.le_add_right _ _⟩
  have hraw := blockFee_le c.fees.base.third c.fees.base.cliff (c.fees.base.first * 100000) x
  rw [ceilDiv_unit, ceilDiv_unit]
  generalize Spec.blockFee c.fees.base.third c.fees.base.cliff (c.fees.base.first * 100000) x = raw at *
  -- the capped numerator
  have hnumU : num ≤ u64Max := by
    have := hnum
    unfold limiterFromIncluded at this
    by_cases hin : x ≤ c.fees.base.third
    · rw [if_pos hin, ok_inj] at this
      have h1 : c.fees.base.cliff ≤ 990000000 := l.hi
      have h2 : 990000000 ≤ u64Max := by decide
      omega
    · rw [if_neg hin] at this
      simp only [bind_ok] at this
      obtain ⟨_, _, _, _, _, _, _, _, h⟩ := this
      exact (mulDivU64_up' h).2.2.1
  have htot : totalFeeFromIncluded c.fees v cur act x .quoteToBase =
      .ok (if MAX_FEE_NUMERATOR < num then MAX_FEE_NUMERATOR else num) := by
    have hu2 : u64Max ≤ u128Max := by decide
    simp only [totalFeeFromIncluded, baseFeeFromIncluded, hm, happ, if_true, totalFee, variableFee, hdyn, bind_ok, safeAdd_ok,
      ok_inj]
    exact ⟨num, hnum, 0, rfl, _, ⟨by omega, rfl⟩, by rw [Nat.zero_add]⟩
  have hcap : ∀ n, n ≤ MAX_FEE_NUMERATOR → ∃ ex, excludedFeeAmount n x = .ok (ex, divCeil (x * n) FEE_DENOMINATOR) := by
    intro n hn
    have hn' : n ≤ FEE_DENOMINATOR := hn.trans (by decide)
    have hle : divCeil (x * n) FEE_DENOMINATOR ≤ x := (divCeil_le_iff hD).2 (Nat.mul_le_mul_left _ hn')
    have hb : x * n + FEE_DENOMINATOR ≤ u128Max := by
      have h1 : x * n ≤ u64Max * FEE_DENOMINATOR := Nat.mul_le_mul hu hn'
      have h2 : u64Max * FEE_DENOMINATOR + FEE_DENOMINATOR ≤ u128Max := by decide
      omega
    refine ⟨x - divCeil (x * n) FEE_DENOMINATOR, ?_⟩
    simp only [excludedFeeAmount, bind_ok, safeSub_ok, ok_inj, Prod.mk.injEq]
    exact ⟨_, (mulDivU64_up hb).2 ⟨hD.ne', rfl, hle.trans hu⟩, _, ⟨hle, rfl⟩, rfl, rfl⟩
  by_cases hgt : MAX_FEE_NUMERATOR < num
  · rw [if_pos hgt] at htot
    obtain ⟨ex, hex⟩ := hcap MAX_FEE_NUMERATOR le_rfl
    refine ⟨_, ⟨_, ex, htot, hex⟩, divCeil_mono hD hraw, le_trans ?_ hhi⟩
    exact divCeil_mono hD (Nat.mul_le_mul_left _ hgt.le)
  · rw [if_neg hgt] at htot
    obtain ⟨ex, hex⟩ := hcap num (by omega)
    exact ⟨_, ⟨_, ex, htot, hex⟩, hlo, hhi⟩

/-- C29, monotonicity: a larger buy pays at least as many tokens, up to the rounding of the rate (one part in 10⁹ of the
smaller trade, rounded up). -/
theorem C29_limiter_monotone {p : ConfigParams} {env : ConfigEnv} {c : PoolConfig} (h : createConfig p env = .ok c)
    (hm : c.fees.base.mode = 2) (hdyn : c.fees.dyn.initialized = 0) {cur act : Nat}
    (hact : LimiterActive c.fees.base cur act .quoteToBase) (v : VolTracker) {x y fx fy : Nat} (hx : 0 < x) (hxy : x ≤ y)
    (hu : y ≤ u64Max) (h1 : TokenFee c v cur act x fx) (h2 : TokenFee c v cur act y fy) :
    fx ≤ fy + Spec.ceilDiv x Spec.unit := by
  obtain ⟨f1, ⟨n1, e1, a1, b1⟩, _, u1⟩ := C29_limiter_tokens h hm hdyn hact v x hx (by omega)
  obtain ⟨f2, ⟨n2, e2, a2, b2⟩, l2, _⟩ := C29_limiter_tokens h hm hdyn hact v y (by omega) hu
  obtain ⟨m1, g1, c1, d1⟩ := h1
  obtain ⟨m2, g2, c2, d2⟩ := h2
  rw [a1, ok_inj] at c1; subst c1
  rw [a2, ok_inj] at c2; subst c2
  rw [b1, ok_inj, Prod.mk.injEq] at d1
  rw [b2, ok_inj, Prod.mk.injEq] at d2
  obtain ⟨_, rfl⟩ := d1
  obtain ⟨_, rfl⟩ := d2
  have hmono : Spec.ceilDiv (Spec.blockFee c.fees.base.third c.fees.base.cliff (c.fees.base.first * 100000) x) Spec.unit ≤
      Spec.ceilDiv (Spec.blockFee c.fees.base.third c.fees.base.cliff (c.fees.base.first * 100000) y) Spec.unit := by
    rw [ceilDiv_unit, ceilDiv_unit]
    exact divCeil_mono (by decide) (blockFee_mono _ _ _ hxy)
  omega

/-- The tokens charged on a buy inside the window that must put `ex` on the curve, and the amount paid in all. -/
def AddedFee (c : PoolConfig) (v : VolTracker) (cur act ex paid fee : Nat) : Prop :=
  ∃ num, totalFeeFromExcluded c.fees v cur act ex .quoteToBase = .ok num ∧ includedFeeAmount num ex = .ok (paid, fee)

/-- C29, amount, when the trade is given by what must be left after the fee (exact-output buys, partial fills): while the
limiter is active and there is no dynamic fee, the fee on the amount paid is at least the sum of the block rates over it,
rounded up, and at most 8 units and 3 parts in 10⁹ more. -/
theorem C29_limiter_added {p : ConfigParams} {env : ConfigEnv} {c : PoolConfig} (ht : p.Typed)
    (h : createConfig p env = .ok c) (hm : c.fees.base.mode = 2) (hdyn : c.fees.dyn.initialized = 0) {cur act : Nat}
    (hact : LimiterActive c.fees.base cur act .quoteToBase) (v : VolTracker) {ex paid fee : Nat}
    (hf : AddedFee c v cur act ex paid fee) :
    paid = ex + fee ∧
    Spec.ceilDiv (Spec.blockFee c.fees.base.third c.fees.base.cliff (c.fees.base.first * 100000) paid) Spec.unit ≤ fee ∧
    fee ≤ Spec.ceilDiv (Spec.blockFee c.fees.base.third c.fees.base.cliff (c.fees.base.first * 100000) paid) Spec.unit +
      8 + Spec.ceilDiv (3 * paid) Spec.unit := by
  have l : Limiter c.fees.base := by
    rcases accepted_limiter h hm with ⟨hz, _⟩ | l
    · exact absurd hz.1 hact.1
    · exact l
  have h3 : c.fees.base.third ≤ u64Max := by rw [(createConfig_ok h).eq]; exact ht.third
  have happ := limiterActive_applied hact
  have hD : 0 < FEE_DENOMINATOR := by decide
  obtain ⟨num, hnum, hi⟩ := hf
  simp only [totalFeeFromExcluded, baseFeeFromExcluded, hm, happ, if_true, bind_ok] at hnum
  obtain ⟨n, hn, htot⟩ := hnum
  obtain ⟨V, hV, e⟩ := totalFee_min htot
  have hV0 : V = 0 := by
    unfold variableFee at hV
    rw [if_pos hdyn, ok_inj] at hV
    exact hV.symm
  rw [hV0, Nat.zero_add] at e
  obtain ⟨-, epaid, -⟩ := includedFeeAmount_ok' hi
  have hsum : paid = ex + fee := by
    simp only [includedFeeAmount, bind_ok, safeSub_ok, ok_inj, Prod.mk.injEq] at hi
    obtain ⟨_, _, _, _, _, ⟨_, rfl⟩, rfl, rfl⟩ := hi
    omega
  obtain ⟨t0, hE⟩ := limiterFromExcluded_facts l h3 hn
  obtain ⟨lo, hi'⟩ := hE.charge (t := paid) (by rw [epaid, e]; rfl)
  have hnet := net_add c.fees.base.third c.fees.base.cliff (c.fees.base.first * 100000) paid
  rw [ceilDiv_unit, ceilDiv_unit]
  rw [show Spec.unit = FEE_DENOMINATOR from rfl, hsum, Nat.add_mul, ← hsum] at hnet
  generalize Spec.blockFee c.fees.base.third c.fees.base.cliff (c.fees.base.first * 100000) paid = raw at *
  have g1 := le_divCeil_mul raw hD
  have g2 := le_divCeil_mul (3 * paid) hD
  refine ⟨hsum, (divCeil_le_iff hD).2 (by omega), ?_⟩
  refine Nat.le_of_mul_le_mul_right (c := FEE_DENOMINATOR) ?_ hD
  rw [Nat.add_mul, Nat.add_mul]
  omega

/-- C29, existence: inside the window every amount that some 64-bit payment can put on the curve has a rate. -/
theorem C29_limiter_added_exists {p : ConfigParams} {env : ConfigEnv} {c : PoolConfig} (ht : p.Typed)
    (h : createConfig p env = .ok c) (hm : c.fees.base.mode = 2) {cur act : Nat}
    (hact : LimiterActive c.fees.base cur act .quoteToBase) {ex y : Nat} (hy : y ≤ u64Max)
    (hex : (ex + 3) * Spec.unit + y +
      Spec.blockFee c.fees.base.third c.fees.base.cliff (c.fees.base.first * 100000) y ≤ y * Spec.unit) :
    ∃ n, baseFeeFromExcluded c.fees.base cur act .quoteToBase ex = .ok n ∧ c.fees.base.cliff ≤ n := by
  have l : Limiter c.fees.base := by
    rcases accepted_limiter h hm with ⟨hz, _⟩ | l
    · exact absurd hz.1 hact.1
    · exact l
  have h3 : c.fees.base.third ≤ u64Max := by rw [(createConfig_ok h).eq]; exact ht.third
  have happ := limiterActive_applied hact
  have hnet := net_add c.fees.base.third c.fees.base.cliff (c.fees.base.first * 100000) y
  rw [show Spec.unit = FEE_DENOMINATOR from rfl] at hnet hex
  rw [Nat.add_mul] at hex
  have hexu : ex ≤ u64Max := by
    refine le_trans (Nat.le_of_mul_le_mul_right (c := FEE_DENOMINATOR) ?_ (by decide)) hy
    omega
  obtain ⟨n, hn⟩ := limiterFromExcluded_total l h3 hexu hy (by omega)
  simp only [baseFeeFromExcluded, hm, happ, if_true]
  exact ⟨n, hn, limiterFromExcluded_ge l hn⟩

/-- An accepted limiter, active at some time; and a case showing that the rounding allowance in the monotonicity cannot be
dropped: one unit more of input lowers the fee by four units. -/
theorem C29_example : createConfig Ex.paramsB Ex.env = .ok (Ex.configOf Ex.paramsB) ∧
    (Ex.configOf Ex.paramsB).fees.base.mode = 2 ∧ (Ex.configOf Ex.paramsB).fees.dyn.initialized = 0 ∧
    LimiterActive (Ex.configOf Ex.paramsB).fees.base 500 100 .quoteToBase ∧
    TokenFee (Ex.configOf Ex.paramsB) ⟨0, 0, 0, 0⟩ 500 100 5000000499 150000035 ∧
    TokenFee (Ex.configOf Ex.paramsB) ⟨0, 0, 0, 0⟩ 500 100 5000000500 150000031 ∧
    AddedFee (Ex.configOf Ex.paramsB) ⟨0, 0, 0, 0⟩ 500 100 4850000464 5000000505 150000041 := by
  refine ⟨Ex.acceptedB, by decide +kernel, by decide +kernel, ?_, ?_, ?_, ?_⟩
  · unfold LimiterActive; decide +kernel
  · exact ⟨30000004, 5000000499 - 150000035, by decide +kernel, by decide +kernel⟩
  · exact ⟨30000003, 5000000500 - 150000031, by decide +kernel, by decide +kernel⟩
  · exact ⟨30000005, by decide +kernel, by decide +kernel⟩

end Props

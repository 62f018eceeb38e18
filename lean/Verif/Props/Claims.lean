import Verif.Lemmas.Cases
import Verif.Props.Swap

/-!
# Fee rate, fee claims, fee token: C03, C18, C32
-/

namespace Spec

/-- The moment at which something happens, on the time scale a configuration chooses: 0 counts slots, 1 seconds. -/
def moment (scale slot seconds : Nat) : Nat := if scale = 0 then slot else seconds

/-- Completed periods of length `every` after time `t`, at most `count`. A schedule without period never moves. -/
def periods (count every t : Nat) : Nat := if every = 0 then 0 else min (t / every) count

end Spec

namespace Props
open Dbc Spec

/-! ### C03 -/

/-- `floor` is the smallest base fee the configuration ever yields: some trade at some time pays it, and no trade at any
time, priced by the amount with or without fee, pays less. -/
structure BaseFloor (b : BaseFeeConfig) (floor : Nat) : Prop where
  attained : ∃ cur act dir amount, amount ≤ u64Max ∧ baseFeeFromIncluded b cur act dir amount = .ok floor
  included : ∀ cur act dir amount n, amount ≤ u64Max → baseFeeFromIncluded b cur act dir amount = .ok n → floor ≤ n
  excluded : ∀ cur act dir amount n, baseFeeFromExcluded b cur act dir amount = .ok n → floor ≤ n

theorem Sched.floor_le {b : BaseFeeConfig} {g : Nat → Nat} (s : Sched b g) (n : Nat) : g b.first ≤ g n := by
  rcases Nat.le_total n b.first with hn | hn
  · exact s.anti _ _ hn
  · rw [s.last n hn]

theorem Sched.any {b : BaseFeeConfig} {g : Nat → Nat} (s : Sched b g) {cur act n : Nat}
    (h : schedulerNumerator b cur act = .ok n) : g b.first ≤ n := by
  by_cases hc : act ≤ cur
  · rw [s.numerator hc, ok_inj] at h
    rw [← h]; exact Sched.floor_le s _
  · unfold schedulerNumerator at h
    rw [ite_ok] at h
    rcases h with ⟨_, h⟩ | ⟨_, h⟩
    · rw [ok_inj] at h
      rw [← h, ← s.zero]; exact Sched.floor_le s _
    · simp only [bind_ok, safeSub_ok] at h
      omega

theorem accepted_floor {p : ConfigParams} {env : ConfigEnv} {c : PoolConfig} (h : createConfig p env = .ok c) :
    ∃ floor, BaseFloor c.fees.base floor ∧ minBaseFee c.fees.base = .ok floor ∧ Spec.minRate ≤ floor ∧
      floor ≤ Spec.maxRate := by
  have sched : ∀ (_ : c.fees.base.mode = 0 ∨ c.fees.base.mode = 1), ∃ floor, BaseFloor c.fees.base floor ∧
      minBaseFee c.fees.base = .ok floor ∧ Spec.minRate ≤ floor ∧ floor ≤ Spec.maxRate := by
    intro hm
    obtain ⟨fee, mn, hin, hex, h0, hmx, hanti, hmin, hfl, hle, hend, _⟩ := schedule_core h hm 0
    obtain ⟨g, s⟩ := accepted_scheduler h hm
    have e : mn = g c.fees.base.first := by
      have := s.min; rw [hmin, ok_inj] at this; exact this
    refine ⟨mn, ⟨?_, ?_, ?_⟩, hmin, hfl, (hle 0).trans hmx⟩
    · refine ⟨0 + c.fees.base.first * c.fees.base.second, 0, .quoteToBase, 0, Nat.zero_le _, (hin _ .quoteToBase 0).trans ?_⟩
      rw [hend _ le_rfl]
    · intro cur act dir amount n _ hn
      rw [e]
      rcases hm with hm | hm <;> simp only [baseFeeFromIncluded, hm] at hn <;> exact Sched.any s hn
    · intro cur act dir amount n hn
      rw [e]
      rcases hm with hm | hm <;> simp only [baseFeeFromExcluded, hm] at hn <;> exact Sched.any s hn
  rcases accepted_mode h with hm | hm | hm
  · exact sched (.inl hm)
  · exact sched (.inr hm)
  · have hb : MIN_FEE_NUMERATOR ≤ c.fees.base.cliff ∧ c.fees.base.cliff ≤ MAX_FEE_NUMERATOR := by
      rcases accepted_limiter h hm with ⟨_, h1, h2⟩ | l
      · exact ⟨h1, h2⟩
      · exact ⟨l.lo, l.hi⟩
    refine ⟨c.fees.base.cliff, ⟨?_, ?_, ?_⟩, by simp only [minBaseFee, hm], hb.1, hb.2⟩
    · refine ⟨0, 0, .baseToQuote, 0, Nat.zero_le _, ?_⟩
      simp only [baseFeeFromIncluded, hm]
      rw [if_neg]
      unfold limiterApplied
      split <;> simp
    · intro cur act dir amount n hu hn
      simp only [baseFeeFromIncluded, hm, ite_ok, ok_inj] at hn
      rcases hn with ⟨ha, hn⟩ | ⟨_, hn⟩
      · rcases accepted_limiter h hm with ⟨hz, _⟩ | l
        · unfold limiterApplied at ha
          rw [if_pos hz] at ha
          cases ha
        · exact limiterFromIncluded_ge l hu hn
      · exact hn.le
    · intro cur act dir amount n hn
      simp only [baseFeeFromExcluded, hm, ite_ok, ok_inj] at hn
      rcases hn with ⟨ha, hn⟩ | ⟨_, hn⟩
      · rcases accepted_limiter h hm with ⟨hz, _⟩ | l
        · unfold limiterApplied at ha
          rw [if_pos hz] at ha
          cases ha
        · exact limiterFromExcluded_ge l hn
      · exact hn.le

/-- The volatility part of the rate under a configuration, zero when the dynamic fee is off. -/
def volatilityPart (d : DynamicFeeConfig) (acc : Nat) : Nat :=
  if d.initialized = 0 then 0 else volatilityRate acc d.binStep d.vfc

theorem totalFee_ok {d : DynamicFeeConfig} {v : VolTracker} {b n : Nat} (h : totalFee d v b = .ok n) :
    n = min (b + volatilityPart d v.volAcc) MAX_FEE_NUMERATOR := by
  simp only [totalFee, bind_ok, safeAdd_ok, ok_inj] at h
  obtain ⟨x, hx, _, ⟨_, rfl⟩, rfl⟩ := h
  have e : x = volatilityPart d v.volAcc := by
    unfold volatilityPart
    unfold variableFee at hx
    rw [ite_ok] at hx
    rcases hx with ⟨h, hx⟩ | ⟨h, hx⟩
    · rw [if_pos h]; exact (ok_inj.1 hx).symm
    · rw [if_neg h]
      simp only [bind_ok, safeMul_ok, safeAdd_ok, safeDiv_ok] at hx
      obtain ⟨_, ⟨-, rfl⟩, _, ⟨-, rfl⟩, _, ⟨-, rfl⟩, _, ⟨-, rfl⟩, -, rfl⟩ := hx
      unfold volatilityRate ceilDiv
      rw [Nat.pow_two]
      generalize v.volAcc * d.binStep * (v.volAcc * d.binStep) * d.vfc = y
      rw [show y + 99999999999 = y + 100000000000 - 1 by omega]
  rw [← e]
  split <;> omega

/-- `base` is the average, to within 3 units and 2 parts in 10⁹, of the block rates of a rate limiter over `y` tokens (`size` to a
block, the first at `cliff`, each block `inc` more), where `y` is what is paid, or else the amount that without any surcharge
would leave `left` after the fee, to within 3 units and one part in 10⁹. -/
def BlockAverage (size cliff inc base paid left : Nat) : Prop :=
  ∃ y, Spec.blockFee size cliff inc y ≤ base * y ∧ base * y < Spec.blockFee size cliff inc y + 3 * Spec.unit + 2 * y ∧
    (y = paid ∨
      (left * Spec.unit + Spec.blockFee size cliff inc y ≤ y * Spec.unit ∧
        y * Spec.unit < left * Spec.unit + Spec.blockFee size cliff inc y + 3 * Spec.unit + y))

/-- The rate for an amount offered. -/
theorem average_included {b : BaseFeeConfig} (l : Limiter b) {x n : Nat} (hx : 0 < x) (hu : x ≤ u64Max)
    (h : limiterFromIncluded b x = .ok n) (left : Nat) : BlockAverage b.third b.cliff (b.first * 100000) n x left := by
  have hD : 0 < FEE_DENOMINATOR := by decide
  refine ⟨x, ?_⟩
  rw [show Spec.unit = FEE_DENOMINATOR from rfl]
  by_cases hin : b.third < x
  · rw [limiterFromIncluded_eq l hin hu, ok_inj] at h
    subst h
    generalize Spec.blockFee b.third b.cliff (b.first * 100000) x = raw at *
    have g1 := le_divCeil_mul raw hD
    have g2 := divCeil_mul_lt raw hD
    have g3 := le_divCeil_mul (divCeil raw FEE_DENOMINATOR * FEE_DENOMINATOR) hx
    have g4 := divCeil_mul_lt (divCeil raw FEE_DENOMINATOR * FEE_DENOMINATOR) hx
    exact ⟨by omega, by omega, .inl rfl⟩
  · have e : n = b.cliff := by
      unfold limiterFromIncluded at h
      rw [if_pos (by omega), ok_inj] at h
      exact h.symm
    subst e
    have := blockFee_small (x := x) (i := b.first * 100000) l.x0 (by omega) (show b.cliff ≤ Spec.maxRate from l.hi)
    rw [this, Nat.mul_comm b.cliff]
    exact ⟨by omega, by omega, .inl rfl⟩

/-- The rate for an amount without fee. -/
theorem average_excluded {b : BaseFeeConfig} (l : Limiter b) (h3 : b.third ≤ u64Max) {ex n : Nat}
    (h : limiterFromExcluded b ex = .ok n) (paid : Nat) : BlockAverage b.third b.cliff (b.first * 100000) n paid ex := by
  obtain ⟨t, -, hle, lo, hi, avg, near⟩ := limiterFromExcluded_facts l h3 h
  have hn := net_add b.third b.cliff (b.first * 100000) t
  refine ⟨t, ?_⟩
  rw [show Spec.unit = FEE_DENOMINATOR from rfl] at *
  have e : t * (FEE_DENOMINATOR - n) + n * t = t * FEE_DENOMINATOR := by
    rw [Nat.mul_comm n, ← Nat.mul_add, Nat.sub_add_cancel hle]
  generalize Spec.blockFee b.third b.cliff (b.first * 100000) t = raw at *
  generalize net b.third b.cliff (b.first * 100000) t = nt at *
  exact ⟨by omega, by omega, .inr ⟨by omega, by omega⟩⟩

theorem currentPoint_moment {k : Nat} {clk : Clock} {cur : Nat} (h : currentPoint k clk = .ok cur) :
    cur = moment k clk.slot clk.time := by
  unfold currentPoint ActivationType.tryFrom at h
  unfold moment
  split at h
  · cases h
  · next e =>
    split at e
    · rw [ok_inj] at h; rw [if_pos rfl]; exact h.symm
    · cases e
    · cases e
  · next e =>
    split at e
    · cases e
    · rw [ok_inj] at h; rw [if_neg (by decide)]; exact h.symm
    · cases e

theorem limiter_onInput {p : ConfigParams} {env : ConfigEnv} {c : PoolConfig} (h : createConfig p env = .ok c)
    (hm : c.fees.base.mode = 2) {dir : TradeDirection} (hd : dir = .quoteToBase) {ref : Bool} {fm : FeeMode}
    (hf : getFeeMode c.collectFeeMode dir ref = .ok fm) : fm.feesOnInput = true := by
  obtain ⟨a, hb⟩ := accepted_base h
  simp only [baseFeeValidate, hm, limiterValidate] at hb
  subst hd
  split at hb
  · cases hb
  · next m e =>
    simp only [bind_ok, req_ok] at hb
    obtain ⟨_, rfl, _⟩ := hb
    unfold getFeeMode at hf
    rw [e] at hf
    simp only [ok_inj] at hf
    subst hf
    rfl

/-- The scheduled rate of a trade `x`, `t` slots or seconds after the start: for a linear schedule the first rate less the
configured cut for every completed period; for an exponential one the first rate with the configured percentage taken off for
every completed period, to within 1.000004 units; with a rate limiter the first rate for sales and for buys after the window, and
inside the window the average of the block rates, at least the first rate. -/
structure Scheduled (b : BaseFeeConfig) (t : Nat) (dir : TradeDirection) (x : Trade) (base : Nat) : Prop where
  linear : b.mode = 0 → base + b.third * periods b.first b.second t = b.cliff
  exponential : b.mode = 1 →
    |(base : ℚ) - b.cliff * (1 - (b.third : ℚ) / 10000) ^ periods b.first b.second t| < 1 + 4 / 1000000
  calm : b.mode = 2 → dir = .baseToQuote ∨ b.third = 0 ∨ b.second < t → base = b.cliff
  limited : b.mode = 2 → dir = .quoteToBase → b.third ≠ 0 → t ≤ b.second →
    b.cliff ≤ base ∧ BlockAverage b.third b.cliff (b.first * 100000) base x.paid (x.paid - x.fee)

/-- A schedule with periods has no rate before its start. -/
theorem sched_started {b : BaseFeeConfig} {cur act n : Nat} (h : schedulerNumerator b cur act = .ok n) (h0 : b.second ≠ 0) :
    act ≤ cur := by
  simp only [schedulerNumerator, h0, if_false, bind_ok, safeSub_ok] at h
  obtain ⟨_, ⟨h, -⟩, -⟩ := h
  exact h

theorem scheduled_of {p : ConfigParams} {env : ConfigEnv} {c : PoolConfig} (ht : p.Typed) (hc : createConfig p env = .ok c)
    {cur act amount base : Nat} {dir : TradeDirection} {x : Trade}
    (h : (baseFeeFromIncluded c.fees.base cur act dir amount = .ok base ∧ 0 < amount ∧ amount ≤ u64Max ∧
        (c.fees.base.mode = 2 → dir = .quoteToBase → x.paid = amount)) ∨
      ∃ left, baseFeeFromExcluded c.fees.base cur act dir left = .ok base ∧
        (c.fees.base.mode = 2 → dir = .quoteToBase → x.paid - x.fee = left)) :
    Scheduled c.fees.base (cur - act) dir x base := by
  have sched : ∀ (_ : c.fees.base.mode = 0 ∨ c.fees.base.mode = 1), schedulerNumerator c.fees.base cur act = .ok base := by
    intro hm
    rcases h with ⟨h, -⟩ | ⟨_, h, -⟩ <;> rcases hm with hm | hm <;>
      simp only [baseFeeFromIncluded, baseFeeFromExcluded, hm] at h <;> exact h
  have late : ∀ (_ : c.fees.base.mode = 0 ∨ c.fees.base.mode = 1), ∃ t, periods c.fees.base.first c.fees.base.second t =
      periods c.fees.base.first c.fees.base.second (cur - act) ∧
      baseFeeFromIncluded c.fees.base (act + t) act dir amount = .ok base := by
    intro hm
    have e := sched hm
    have e2 : baseFeeFromIncluded c.fees.base cur act dir amount = .ok base := by
      rcases hm with hm | hm <;> simp only [baseFeeFromIncluded, hm] <;> exact e
    by_cases h0 : c.fees.base.second = 0
    · refine ⟨0, by simp only [periods, h0, if_true], ?_⟩
      simp only [schedulerNumerator, h0, if_true] at e
      rcases hm with hm | hm <;> simp only [baseFeeFromIncluded, hm, schedulerNumerator, h0, if_true] <;> exact e
    · have := sched_started e h0
      exact ⟨cur - act, rfl, by rw [Nat.add_sub_cancel' this]; exact e2⟩
  refine ⟨fun hm => ?_, fun hm => ?_, fun hm hd => ?_, fun hm hd h3 ht' => ?_⟩
  · obtain ⟨t, et, hb⟩ := late (.inl hm)
    rw [← et]
    obtain ⟨g, sc⟩ := accepted_scheduler hc (.inl hm)
    obtain ⟨fee, mn, hin, -, -, -, -, -, hmn, hle, -, hlin⟩ := C28_schedule hc (.inl hm) act
    have e := hin t dir amount
    rw [hb, ok_inj] at e
    have h1 := hlin hm t
    have h2 := hle t
    have : 0 < Spec.minRate := by decide
    unfold periods
    rcases sc.shape with ⟨z1, z2, z3⟩ | ⟨z1, z2, z3⟩
    · rw [z3, Nat.zero_mul] at h1
      rw [z3, Nat.zero_mul]
      omega
    · rw [if_neg (by omega)]
      omega
  · obtain ⟨t, et, hb⟩ := late (.inr hm)
    rw [← et]
    obtain ⟨g, sc⟩ := accepted_scheduler hc (.inr hm)
    obtain ⟨f, hf, u, l⟩ := C40_exponential_accurate hc hm act t dir amount
    rw [hb, ok_inj] at hf
    subst hf
    have e : periods c.fees.base.first c.fees.base.second t = min (t / c.fees.base.second) c.fees.base.first := by
      unfold periods
      split
      · next h => rw [h, Nat.div_zero, Nat.zero_min]
      · rfl
    rw [e, abs_lt]
    constructor <;> linarith
  · have happ : limiterApplied c.fees.base cur act dir = false := by
      unfold limiterApplied
      split
      · rfl
      · next hz =>
        rcases hd with hd | hd | hd
        · rw [if_pos hd]
        · exfalso
          rcases accepted_limiter hc hm with ⟨h, -⟩ | l
          · exact hz h
          · have := l.x0; omega
        · split
          · rfl
          · rw [if_pos (by omega)]
    rcases h with ⟨h, -⟩ | ⟨_, h, -⟩
    · simp only [baseFeeFromIncluded, hm, happ, Bool.false_eq_true, if_false, ok_inj] at h; exact h.symm
    · simp only [baseFeeFromExcluded, hm, happ, Bool.false_eq_true, if_false, ok_inj] at h; exact h.symm
  · have hact : LimiterActive c.fees.base cur act .quoteToBase := ⟨h3, rfl, by omega⟩
    have hcl := C29_limiter_rate hc hm cur act dir
    have l : Limiter c.fees.base := by
      rcases accepted_limiter hc hm with ⟨hz, _⟩ | l
      · exact absurd hz.1 h3
      · exact l
    have hu3 : c.fees.base.third ≤ u64Max := by rw [(createConfig_ok hc).eq]; exact ht.third
    have happ := limiterActive_applied hact
    rcases h with ⟨h, hpos, ha, hx⟩ | ⟨left, h, hx⟩
    · refine ⟨(hcl amount ha).2.2.1 _ (.inl h), ?_⟩
      rw [hd] at h
      simp only [baseFeeFromIncluded, hm, happ, if_true] at h
      rw [hx hm hd]
      exact average_included l hpos ha h _
    · rw [hd] at h
      simp only [baseFeeFromExcluded, hm, happ, if_true] at h
      refine ⟨limiterFromExcluded_ge l h, ?_⟩
      rw [hx hm hd]
      exact average_excluded l hu3 h _

/-- C03, which rate is looked up: an eligible first swap is charged exactly the configuration's base-fee floor, and no trade at any
time is offered less. Any other swap is charged the current base fee plus the volatility part for the volatility on record, capped
at 99%. The base fee is that of the amount offered, if all of it is taken or the fee is taken from the output; otherwise that
of the amount without fee. -/
theorem C03_base_rate {w w' : World} {a : SwapArgs} (h : Reachable w) (ha : a.amount0 ≤ u64Max)
    (hs : w.step (.swap a) = .ok w') :
    ∃ x floor rate, Observed w w' a.dir x ∧
      (w.cfg.fees.base.mode = 2 → a.dir = .quoteToBase → x.feeToken = inToken a.dir) ∧
      (w.cfg.collectFeeMode = 0 ∧ x.feeToken = .quote ∨ w.cfg.collectFeeMode = 1 ∧ x.feeToken = outToken a.dir) ∧ BaseFloor w.cfg.fees.base floor ∧ LastRate w.cfg.fees.base floor ∧
      Spec.minRate ≤ floor ∧ floor ≤ rate ∧ rate ≤ Spec.maxRate ∧
      rate * x.bearing a.dir ≤ x.fee * Spec.unit ∧ x.fee * Spec.unit < rate * x.bearing a.dir + Spec.unit ∧
      (a.mode = 2 ∨ (x.feeToken = inToken a.dir ∧ x.paid ≠ a.amount0) →
        ∀ y, x.bearing a.dir - x.fee + Spec.ceilDiv (rate * y) Spec.unit ≤ y → x.bearing a.dir ≤ y) ∧
      (w.firstMin a = true → rate = floor) ∧
      (w.firstMin a = false → ∃ cur base, currentPoint w.cfg.activationType a.clk = .ok cur ∧
        ((a.mode ≤ 1 ∧ (x.feeToken = inToken a.dir → x.paid = a.amount0) ∧
            baseFeeFromIncluded w.cfg.fees.base cur w.pool.activationPoint a.dir a.amount0 = .ok base) ∨
          (a.mode ≠ 0 ∧
            baseFeeFromExcluded w.cfg.fees.base cur w.pool.activationPoint a.dir (x.bearing a.dir - x.fee) = .ok base)) ∧
        rate = min (base + volatilityPart w.cfg.fees.dyn w.pool.vol.volAcc) Spec.maxRate) := by
  obtain ⟨p, env, _, hc⟩ := h.config
  obtain ⟨floor, hf, hmin, hlo, hhi⟩ := accepted_floor hc
  obtain ⟨cur, fm, r, v1, v2, s⟩ := swap_ok hs
  have ch := processSwap_charge s.proc
  obtain ⟨num, hnum, hfee⟩ := ch.rate
  have hbear : (tradeOf w.cfg fm r).bearing a.dir =
      if fm.feesOnInput = true then r.includedIn else r.out + r.fee.sum := by
    unfold Trade.bearing
    rw [tradeOf_fee s]
    have := (getFeeMode_ok s.hfm).2.1
    by_cases g : fm.feesOnInput = true
    · rw [if_pos g, if_pos (show (tradeOf w.cfg fm r).feeToken = _ from this.1 g)]; rfl
    · rw [if_neg g, if_neg (show ¬ (tradeOf w.cfg fm r).feeToken = _ from fun e => g (this.2 e))]; rfl
  rw [← hbear] at hfee
  have hacc : v1.volAcc = w.pool.vol.volAcc := by
    by_cases hi : w.cfg.fees.dyn.initialized = 0
    · rw [(s.preOff hi).1]
    · exact updateReferences_acc (s.preOn hi)
  have hex : (tradeOf w.cfg fm r).bearing a.dir - (tradeOf w.cfg fm r).fee =
      if fm.feesOnInput = true then r.excludedIn else r.out := by
    rw [hbear, tradeOf_fee s]
    have := ch.input
    unfold inFee at this
    split
    · next g => rw [if_pos g] at this; omega
    · omega
  have hD : 0 < FEE_DENOMINATOR := by decide
  have b1 := le_divCeil_mul ((tradeOf w.cfg fm r).bearing a.dir * num) hD
  have b2 := divCeil_mul_lt ((tradeOf w.cfg fm r).bearing a.dir * num) hD
  rw [← hfee] at b1 b2
  rw [Nat.mul_comm _ num] at b1 b2
  refine ⟨_, floor, num, SwapStep.observed s, fun hm hd => (getFeeMode_ok s.hfm).2.1.1 (limiter_onInput hc hm hd s.hfm), ?_, hf,
    minBaseFee_last hc hmin, hlo, ?_, ?_, ?_, ?_, ?_, ?_, ?_⟩
  case refine_1 =>
    obtain ⟨-, -, m0, m1, m⟩ := getFeeMode_ok s.hfm
    exact m.imp (fun e => ⟨e, m0 e⟩) fun e => ⟨e, m1 e⟩
  case refine_4 => rw [tradeOf_fee s]; exact b1
  case refine_5 => rw [tradeOf_fee s]; exact b2
  case refine_6 =>
    intro hw y hy
    rcases hnum with ⟨hm, hp, -⟩ | ⟨-, -, hinc⟩
    · rcases hw with hw | ⟨hw, hne⟩
      · omega
      · exact absurd (hp ((getFeeMode_ok s.hfm).2.1.2 hw)) hne
    · obtain ⟨i1, i2, i3, -, -⟩ := includedFeeAmount_ok hinc
      rw [← hbear, ← hex] at i3
      rw [i3]
      rw [divCeil_le_iff (by omega)]
      have hc := ceilDiv_unit (num * y)
      have := le_divCeil_mul (num * y) hD
      rw [← hc] at this
      have e : FEE_DENOMINATOR = Spec.unit := rfl
      rw [e] at this ⊢
      have e2 := Nat.mul_le_mul_right Spec.unit hy
      rw [Nat.add_mul] at e2
      rw [Nat.mul_sub, Nat.mul_comm y num]
      omega
  all_goals
    cases hfm : w.firstMin a with
    | true =>
      have : num = floor := by
        rw [hfm] at hnum
        rcases hnum with ⟨-, -, hnum⟩ | ⟨-, hnum, -⟩
        · simp only [numeratorIncluded, if_true] at hnum
          rw [hmin, ok_inj] at hnum; exact hnum.symm
        · simp only [numeratorExcluded, if_true] at hnum
          rw [hmin, ok_inj] at hnum; exact hnum.symm
      first | exact this.ge | (rw [this]; exact hhi) | exact fun _ => this | (intro h; cases h)
    | false =>
      have : ∃ base, ((a.mode ≤ 1 ∧ ((tradeOf w.cfg fm r).feeToken = inToken a.dir → (tradeOf w.cfg fm r).paid = a.amount0) ∧
            baseFeeFromIncluded w.cfg.fees.base cur w.pool.activationPoint a.dir a.amount0 = .ok base) ∨
          (a.mode ≠ 0 ∧ baseFeeFromExcluded w.cfg.fees.base cur w.pool.activationPoint a.dir
            ((tradeOf w.cfg fm r).bearing a.dir - (tradeOf w.cfg fm r).fee) = .ok base)) ∧
          num = min (base + volatilityPart w.cfg.fees.dyn w.pool.vol.volAcc) Spec.maxRate := by
        rw [hfm] at hnum
        rcases hnum with ⟨hm, hp, hnum⟩ | ⟨hm, hnum, -⟩
        · simp only [numeratorIncluded, Bool.false_eq_true, if_false, totalFeeFromIncluded, bind_ok] at hnum
          obtain ⟨b, hb, ht⟩ := hnum
          have ht := totalFee_ok ht
          rw [hacc] at ht
          exact ⟨b, .inl ⟨hm, fun h => hp ((getFeeMode_ok s.hfm).2.1.2 h), hb⟩, ht⟩
        · simp only [numeratorExcluded, Bool.false_eq_true, if_false, totalFeeFromExcluded, bind_ok] at hnum
          obtain ⟨b, hb, ht⟩ := hnum
          have ht := totalFee_ok ht
          rw [hacc] at ht
          rw [← hex] at hb
          exact ⟨b, .inr ⟨hm, hb⟩, ht⟩
      obtain ⟨base, hb, hn⟩ := this
      have hbf : floor ≤ base := by
        rcases hb with ⟨-, -, hb⟩ | ⟨-, hb⟩
        · exact hf.included _ _ _ _ _ ha hb
        · exact hf.excluded _ _ _ _ _ hb
      first
        | (rw [hn]; exact Nat.le_min.2 ⟨by omega, hhi⟩)
        | (rw [hn]; exact Nat.min_le_right _ _)
        | exact fun _ => ⟨cur, base, s.hcur, hb, hn⟩
        | (intro h; cases h)

/-- What the rule requires of the transaction: no referral account, the swap itself is a top-level instruction of the
program, and an earlier top-level instruction of the same transaction initialised this very pool. -/
def SameTxInit (pool : Nat) (a : SwapArgs) : Prop :=
  a.referral = false ∧
  (∃ cur, a.tx.top[a.tx.idx]? = some cur ∧ cur.program = PROGRAM_ID) ∧
  ∃ i < a.tx.idx, ∃ ix, a.tx.top[i]? = some ix ∧ ix.program = PROGRAM_ID ∧ (ix.kind = .initSpl ∨ ix.kind = .init2022) ∧
    ix.accounts[5]? = some pool

theorem initIxOk_iff {pool : Nat} {a : SwapArgs} : initIxOk pool a.referral a.tx = true →
    SameTxInit pool a := by
  intro h
  unfold initIxOk at h
  simp only [Bool.and_eq_true, Bool.not_eq_true'] at h
  obtain ⟨⟨h1, h2⟩, h3⟩ := h
  split at h3
  · cases h3
  · rename_i cur hc
    simp only [Bool.and_eq_true, decide_eq_true_eq] at h3
    obtain ⟨h3, h4⟩ := h3
    unfold containsInit at h4
    rw [List.any_eq_true] at h4
    obtain ⟨ix, hm, h4⟩ := h4
    rw [decide_eq_true_eq] at h4
    obtain ⟨i, hi, e⟩ := List.mem_iff_getElem.1 hm
    rw [List.length_take] at hi
    rw [List.getElem_take] at e
    exact ⟨h1, ⟨cur, hc, h3⟩, i, by omega, ix, by rw [← e]; exact List.getElem?_eq_getElem _, h4⟩

theorem initIxOk_of {pool : Nat} {a : SwapArgs} (h : SameTxInit pool a) (hs : a.tx.sysvar = true) :
    initIxOk pool a.referral a.tx = true := by
  obtain ⟨h1, ⟨cur, h2, h3⟩, i, hi, ix, e, hix⟩ := h
  unfold initIxOk
  rw [h1, hs, h2]
  simp only [Bool.not_false, Bool.true_and, Bool.and_eq_true, decide_eq_true_eq]
  refine ⟨h3, ?_⟩
  unfold containsInit
  rw [List.any_eq_true]
  refine ⟨ix, ?_, by rw [decide_eq_true_eq]; exact hix⟩
  rw [List.mem_iff_getElem?]
  exact ⟨i, by rw [List.getElem?_take, if_pos hi]; exact e⟩

theorem initIxOk_sysvar {pool : Nat} {r : Bool} {t : TxCtx} (h : initIxOk pool r t = true) : t.sysvar = true := by
  unfold initIxOk at h
  simp only [Bool.and_eq_true] at h
  exact h.1.2

/-- A swap is eligible for the first-swap rule: the configuration enables it, the pool has not swapped yet, the transaction created
the pool earlier at top level, no referral is paid, and the caller hands over the list of the transaction's instructions. -/
def EligibleFirst (w : World) (a : SwapArgs) : Prop :=
  w.cfg.enableFirstSwapMinFee = 1 ∧ w.pool.hasSwap = 0 ∧ SameTxInit w.key a ∧ a.tx.sysvar = true

theorem firstMin_iff {w : World} {a : SwapArgs} : w.firstMin a = true ↔ EligibleFirst w a := by
  unfold World.firstMin EligibleFirst
  simp only [Bool.and_eq_true, decide_eq_true_eq]
  exact ⟨fun h => ⟨h.1.1, h.1.2, initIxOk_iff h.2, initIxOk_sysvar h.2⟩,
    fun h => ⟨⟨h.1, h.2.1⟩, initIxOk_of h.2.2.1 h.2.2.2⟩⟩

theorem step_activation {w w' : World} {op : Op} (h : w.step op = .ok w') :
    w'.pool.activationPoint = w.pool.activationPoint := by
  rcases step_cases h with ⟨a, rfl, h⟩ | ⟨_, _, _, _, _, _, _, e, _⟩
  · obtain ⟨cur, fm, r, v1, v2, s⟩ := swap_ok h
    rw [s.poolFrame]
  · exact e

/-- C03: every successful swap in every reachable state is charged at some rate that is at most 99% and at least the
configuration's base-fee floor, itself at least 0.25% and the rate at which the configured schedule ends; the fee is
the exact rate times the fee-bearing amount rounded up. Where the fee is added on top of an amount, the fee-bearing
amount is the least one that leaves that amount after the fee. An eligible first swap is charged exactly the floor;
any other swap is charged the rate scheduled for the time since the pool's start plus the volatility part for the volatility on
record, capped at 99%. -/
theorem C03_rate_bounds {w w' : World} {a : SwapArgs} (h : Reachable w) (ha : a.amount0 ≤ u64Max)
    (hs : w.step (.swap a) = .ok w') :
    ∃ x floor rate, Observed w w' a.dir x ∧ LastRate w.cfg.fees.base floor ∧
      Spec.minRate ≤ floor ∧ floor ≤ rate ∧ rate ≤ Spec.maxRate ∧
      rate * x.bearing a.dir ≤ x.fee * Spec.unit ∧ x.fee * Spec.unit < rate * x.bearing a.dir + Spec.unit ∧
      (a.mode = 2 ∨ (x.feeToken = inToken a.dir ∧ x.paid ≠ a.amount0) →
        ∀ y, x.bearing a.dir - x.fee + Spec.ceilDiv (rate * y) Spec.unit ≤ y → x.bearing a.dir ≤ y) ∧
      (EligibleFirst w a → rate = floor) ∧
      (¬ EligibleFirst w a → ∃ base,
        Scheduled w.cfg.fees.base (moment w.cfg.activationType a.clk.slot a.clk.time - w.pool.activationPoint) a.dir x base ∧
        rate = min (base + volatilityPart w.cfg.fees.dyn w.pool.vol.volAcc) Spec.maxRate) := by
  obtain ⟨p, env, ht, hc⟩ := h.config
  obtain ⟨x, floor, rate, ho, hin, -, -, h1, h2, h3, h4, h5, h6, h7, h8, h9⟩ := C03_base_rate h ha hs
  refine ⟨x, floor, rate, ho, h1, h2, h3, h4, h5, h6, h7, fun e => h8 (firstMin_iff.2 e), fun e => ?_⟩
  obtain ⟨cur, base, hcur, hb, hr⟩ := h9 (by rw [← Bool.not_eq_true, firstMin_iff]; exact e)
  refine ⟨base, ?_, hr⟩
  rw [← currentPoint_moment hcur]
  have bear : w.cfg.fees.base.mode = 2 → a.dir = .quoteToBase → x.bearing a.dir = x.paid := fun hm hd => by
    unfold Trade.bearing
    rw [if_pos (hin hm hd)]
  have hpos : 0 < a.amount0 := by
    obtain ⟨_, _, _, _, _, s⟩ := swap_ok hs
    exact s.pos
  refine scheduled_of (amount := a.amount0) ht hc ?_
  rcases hb with ⟨-, g1, g2⟩ | ⟨-, g⟩
  · exact .inl ⟨g2, hpos, ha, fun hm hd => g1 (hin hm hd)⟩
  · exact .inr ⟨_, g, fun hm hd => by rw [bear hm hd]⟩

/-- A sell with the dynamic fee on, and an eligible first swap. -/
theorem C03_example : ∃ a b wA wB, Reachable (Ex.w1 Ex.paramsA) ∧ a.amount0 ≤ u64Max ∧
    (Ex.w1 Ex.paramsA).step (.swap a) = .ok wA ∧ (Ex.w1 Ex.paramsA).cfg.fees.dyn.initialized = 1 ∧
    Reachable (Ex.worldOf Ex.paramsB) ∧ b.amount0 ≤ u64Max ∧ (Ex.worldOf Ex.paramsB).step (.swap b) = .ok wB ∧
    EligibleFirst (Ex.worldOf Ex.paramsB) b := by
  simp only [← firstMin_iff]
  refine ⟨⟨0, 10000000000000, 1, .baseToQuote, true, ⟨170, 1000070⟩, Ex.txSwap⟩,
    ⟨0, 1000000000000, 1, .quoteToBase, false, ⟨100, 1000000⟩, Ex.txInit⟩, Ex.after Ex.paramsA (Ex.trading.take 2),
    Ex.after Ex.paramsB (Ex.trading.take 1), ⟨_, _, Ex.genesisA, Ex.exec_run (ops := Ex.trading.take 1) ?_⟩, ?_, ?_, ?_,
    Ex.genesisB.reachable, ?_⟩
  all_goals decide +kernel

/-! ### C18 -/

/-- The cap given for each token. -/
def capOf (mb mq : Nat) : Token → Nat
  | .base => mb
  | .quote => mq

/-- Lifetime payments by the fee claim instructions. -/
def paidPartner (w : World) : Token → Nat
  | .base => w.led.paidPartnerBase
  | .quote => w.led.paidPartnerQuote
def paidCreator (w : World) : Token → Nat
  | .base => w.led.paidCreatorBase
  | .quote => w.led.paidCreatorQuote
def paidProtocol (w : World) : Token → Nat
  | .base => w.led.paidProtocolBase
  | .quote => w.led.paidProtocolQuote

/-- The protocol's share of the liquidity put into migration, not yet claimed. -/
def protocolMigFee (w : World) : Token → Nat
  | .base => w.pool.protocolMigBaseFee
  | .quote => w.pool.protocolMigQuoteFee

/-- C18, partner: a trading-fee claim pays per token exactly the smaller of the cap and the balance owed, lowers the balance
and the vault by that and changes nothing else. -/
theorem C18_partner_claim {w w' : World} {s mb mq : Nat} (h : w.step (.claimPartnerFee s mb mq) = .ok w') :
    (∀ t, paidPartner w' t = paidPartner w t + min (capOf mb mq t) (partnerFee w t) ∧
      partnerFee w' t + min (capOf mb mq t) (partnerFee w t) = partnerFee w t ∧
      vault w' t + min (capOf mb mq t) (partnerFee w t) = vault w t) ∧
    w' = { w with
      pool := { w.pool with partnerBaseFee := w'.pool.partnerBaseFee, partnerQuoteFee := w'.pool.partnerQuoteFee }
      baseVault := w'.baseVault, quoteVault := w'.quoteVault
      led := { w.led with paidPartnerBase := w'.led.paidPartnerBase, paidPartnerQuote := w'.led.paidPartnerQuote } } := by
  obtain ⟨_, a, b, ha, hb, h1, h2, rfl⟩ := claimPartnerFee_ok h
  refine ⟨fun t => ?_, rfl⟩
  cases t <;> simp only [paidPartner, partnerFee, vault, capOf] <;> omega

/-- C18, creator. -/
theorem C18_creator_claim {w w' : World} {s mb mq : Nat} (h : w.step (.claimCreatorFee s mb mq) = .ok w') :
    (∀ t, paidCreator w' t = paidCreator w t + min (capOf mb mq t) (creatorFee w t) ∧
      creatorFee w' t + min (capOf mb mq t) (creatorFee w t) = creatorFee w t ∧
      vault w' t + min (capOf mb mq t) (creatorFee w t) = vault w t) ∧
    w' = { w with
      pool := { w.pool with creatorBaseFee := w'.pool.creatorBaseFee, creatorQuoteFee := w'.pool.creatorQuoteFee }
      baseVault := w'.baseVault, quoteVault := w'.quoteVault
      led := { w.led with paidCreatorBase := w'.led.paidCreatorBase, paidCreatorQuote := w'.led.paidCreatorQuote } } := by
  obtain ⟨_, a, b, ha, hb, h1, h2, rfl⟩ := claimCreatorFee_ok h
  refine ⟨fun t => ?_, rfl⟩
  cases t <;> simp only [paidCreator, creatorFee, vault, capOf] <;> omega

/-- The protocol's part of the surplus, paid by the first protocol claim of quote tokens after completion. -/
def surplusDue (w : World) : Nat :=
  if w.pool.protocolSurplus = 0 ∧ w.cfg.migrationQuoteThreshold ≤ w.pool.quoteReserve then
    (w.pool.quoteReserve - w.cfg.migrationQuoteThreshold) - (w.pool.quoteReserve - w.cfg.migrationQuoteThreshold) * 80 / 100
  else 0

/-- The surplus is paid in quote tokens. -/
def surplusIn (w : World) : Token → Nat
  | .base => 0
  | .quote => surplusDue w

/-- What one protocol claim of token `t` with cap `cap` does: the balances shrink by exactly the part of the payment that is
capped, and the surplus is added at most once. -/
structure ProtocolPaid (w w' : World) (t : Token) (cap : Nat) : Prop where
  balance : protocolFee w' t + protocolMigFee w' t + min cap (protocolFee w t + protocolMigFee w t) =
    protocolFee w t + protocolMigFee w t
  fee : protocolFee w' t ≤ protocolFee w t
  mig : protocolMigFee w' t ≤ protocolMigFee w t
  paid : paidProtocol w' t = paidProtocol w t + (min cap (protocolFee w t + protocolMigFee w t) + surplusIn w t)
  vault : vault w' t + (min cap (protocolFee w t + protocolMigFee w t) + surplusIn w t) = vault w t
  once : surplusIn w' t = 0

/-- C18, protocol: the claim of both tokens. -/
theorem C18_protocol_claim {w w' : World} {s mb mq : Nat} (h : w.step (.claimProtocolFee s mb mq) = .ok w') :
    (∀ t, ProtocolPaid w w' t (capOf mb mq t)) ∧
    w' = { w with
      pool := { w.pool with
        protocolBaseFee := w'.pool.protocolBaseFee, protocolQuoteFee := w'.pool.protocolQuoteFee,
        protocolMigBaseFee := w'.pool.protocolMigBaseFee, protocolMigQuoteFee := w'.pool.protocolMigQuoteFee,
        protocolSurplus := w'.pool.protocolSurplus }
      baseVault := w'.baseVault, quoteVault := w'.quoteVault
      led := { w.led with paidProtocolBase := w'.led.paidProtocolBase, paidProtocolQuote := w'.led.paidProtocolQuote } } := by
  obtain ⟨_, a, b, c, d, e, f, ha, hb, hc, hd, hs, h1, h2, rfl⟩ := claimProtocolFee_ok h
  refine ⟨fun t => ?_, rfl⟩
  cases t
  · constructor <;> simp only [paidProtocol, protocolFee, protocolMigFee, Spec.vault, capOf, surplusIn] <;> omega
  · rcases hs with ⟨g1, g2, rfl, rfl⟩ | ⟨g, rfl, rfl⟩
    · have e : surplusDue w = protoPart (w.pool.quoteReserve - w.cfg.migrationQuoteThreshold) := if_pos ⟨g1, g2⟩
      constructor <;> simp only [paidProtocol, protocolFee, protocolMigFee, Spec.vault, capOf, surplusIn, e]
      case once => exact if_neg (fun h => by cases h.1)
      all_goals omega
    · have e : surplusDue w = 0 := if_neg g
      constructor <;> simp only [paidProtocol, protocolFee, protocolMigFee, Spec.vault, capOf, surplusIn, e]
      case once => exact if_neg g
      all_goals omega

/-- C18, protocol: the claim of one token together with a zap. -/
theorem C18_protocol_zap {w w' : World} {s mx : Nat} {isBase al zo : Bool}
    (h : w.step (.zapProtocolFee s mx isBase al zo) = .ok w') :
    ProtocolPaid w w' (if isBase = true then .base else .quote) mx ∧
    (let o := if isBase = true then Token.quote else .base
     vault w' o = vault w o ∧ protocolFee w' o = protocolFee w o ∧ protocolMigFee w' o = protocolMigFee w o ∧
      paidProtocol w' o = paidProtocol w o) ∧
    w' = { w with
      pool := { w.pool with
        protocolBaseFee := w'.pool.protocolBaseFee, protocolQuoteFee := w'.pool.protocolQuoteFee,
        protocolMigBaseFee := w'.pool.protocolMigBaseFee, protocolMigQuoteFee := w'.pool.protocolMigQuoteFee,
        protocolSurplus := w'.pool.protocolSurplus }
      baseVault := w'.baseVault, quoteVault := w'.quoteVault
      led := { w.led with paidProtocolBase := w'.led.paidProtocolBase, paidProtocolQuote := w'.led.paidProtocolQuote } } := by
  obtain ⟨_, _, _, ⟨rfl, a, b, ha, hb, _, h1, rfl⟩ | ⟨rfl, c, d, e, f, hc, hd, hs, _, h1, rfl⟩⟩ := zapProtocolFee_ok h
  · refine ⟨show ProtocolPaid w _ .base mx from ?_, ⟨rfl, rfl, rfl, rfl⟩, rfl⟩
    constructor <;> simp only [paidProtocol, protocolFee, protocolMigFee, Spec.vault, surplusIn] <;> omega
  · refine ⟨show ProtocolPaid w _ .quote mx from ?_, ⟨rfl, rfl, rfl, rfl⟩, rfl⟩
    rcases hs with ⟨g1, g2, rfl, rfl⟩ | ⟨g, rfl, rfl⟩
    · have e : surplusDue w = protoPart (w.pool.quoteReserve - w.cfg.migrationQuoteThreshold) := if_pos ⟨g1, g2⟩
      constructor <;> simp only [paidProtocol, protocolFee, protocolMigFee, Spec.vault, surplusIn, e]
      case once => exact if_neg (fun h => by cases h.1)
      all_goals omega
    · have e : surplusDue w = 0 := if_neg g
      constructor <;> simp only [paidProtocol, protocolFee, protocolMigFee, Spec.vault, surplusIn, e]
      case once => exact if_neg g
      all_goals omega

/-- Claims with a cap below the balance and with a cap above it; a protocol claim that includes the surplus; a zap. -/
theorem C18_example : ∃ w1 w2 w3 w4 w5 w6,
    w1.step (.claimPartnerFee 11 100 1000000000) = .ok w2 ∧ 1000000000 < partnerFee w1 .quote ∧
    w2.step (.claimCreatorFee 21 18446744073709551615 5) = .ok w3 ∧ 0 < creatorFee w2 .base ∧
    w4.step (.claimProtocolFee 31 5 18446744073709551615) = .ok w5 ∧ 0 < surplusDue w4 ∧ 5 < protocolFee w4 .base ∧
    0 < protocolMigFee w4 .quote ∧
    w4.step (.zapProtocolFee 11 1000 true true true) = .error .invalidPermission ∧
    (w5.step (.createOperator 40 32 2) >>= fun w => w.step (.zapProtocolFee 32 1000 true true true)) = .ok w6 := by
  refine ⟨Ex.after Ex.paramsA (Ex.trading.take 6), Ex.after Ex.paramsA (Ex.trading.take 7),
    Ex.after Ex.paramsA (Ex.trading.take 8), Ex.after Ex.paramsA (Ex.completing ++ Ex.finishA.take 5),
    Ex.after Ex.paramsA (Ex.completing ++ Ex.finishA.take 6),
    Ex.after Ex.paramsA (Ex.completing ++ Ex.finishA.take 6 ++ [.createOperator 40 32 2, .zapProtocolFee 32 1000 true true true]), ?_⟩
  decide +kernel

/-! ### C32 -/

/-- No base-token fee was ever accrued, is owed, was reported or was paid to a referral account. -/
structure NoBaseFee (w : World) : Prop where
  owed : fees w .base = 0
  referral : referrals w .base = 0
  accrued : w.led.accPartnerBase = 0 ∧ w.led.accCreatorBase = 0 ∧ w.led.accProtocolBase = 0
  metrics : w.pool.metrics.tradingBase = 0 ∧ w.pool.metrics.protocolBase = 0

theorem NoBaseFee.step {w w' : World} {op : Op} (hm : w.cfg.collectFeeMode = 0) (n : NoBaseFee w)
    (hs : w.step op = .ok w') : NoBaseFee w' := by
  obtain ⟨h1, h2, ⟨h3, h4, h5⟩, h6, h7⟩ := n
  simp only [fees, partnerFee, creatorFee, protocolFee, referrals] at h1 h2
  cases_step op hs
  case swap a =>
    obtain ⟨cur, fm, r, v1, v2, s⟩ := swap_ok hs
    have hq := (getFeeMode_ok s.hfm).2.2.1 hm
    have hb : fm.feesOnBase = false := by
      unfold feeTok at hq
      cases h : fm.feesOnBase with
      | true => rw [h] at hq; cases hq
      | false => rfl
    have o := SwapStep.observed s
    have z : inTok (tradeOf w.cfg fm r).feeToken .base = fun _ => 0 := by
      have : (tradeOf w.cfg fm r).feeToken = .quote := hq
      funext x; rw [this]; exact inTok_qb x
    have e1 := o.partner .base
    have e2 := o.creator .base
    have e3 := o.protocol .base
    have e4 := o.referral .base
    rw [z] at e1 e2 e3 e4
    simp only [partnerFee, creatorFee, protocolFee, referrals] at e1 e2 e3 e4
    have m1 := s.metTradingBase
    have m2 := s.metProtocolBase
    rw [hb] at m1 m2
    simp only [onlyIf_false] at m1 m2
    have el : w'.led = w.led.recordSwap w.cfg r fm a.dir (w.firstMin a) := by rw [s.frame]
    have hl : w'.led.accPartnerBase = w.led.accPartnerBase ∧ w'.led.accCreatorBase = w.led.accCreatorBase ∧
        w'.led.accProtocolBase = w.led.accProtocolBase := by
      rw [el]; unfold Ledger.recordSwap; rw [hb]; cases a.dir <;> exact ⟨rfl, rfl, rfl⟩
    refine ⟨?_, ?_, ?_, ?_⟩ <;> (try simp only [fees, partnerFee, creatorFee, protocolFee, referrals]) <;> omega
  all_goals
    refine ⟨?_, ?_, ?_, ?_⟩ <;> (try simp only [fees, partnerFee, creatorFee, protocolFee, referrals]) <;> omega

/-- C32, first part: with quote-only collection no base-token fee is accrued to anybody in any history. -/
theorem C32_quote_only {w : World} (h : Reachable w) (hm : w.cfg.collectFeeMode = 0) : NoBaseFee w := by
  revert hm
  refine Reachable.induct (P := fun w => w.cfg.collectFeeMode = 0 → NoBaseFee w) ?_ ?_ h
  · intro w ⟨p, env, a, c, ht, hc, hi⟩ _
    obtain ⟨supply, mint, upd, act, b, h1, h2, h3, h4, h5, h6, h7, h8, rfl⟩ := initPool_ok hi
    exact ⟨rfl, rfl, ⟨rfl, rfl, rfl⟩, rfl, rfl⟩
  · intro w op w' _ ih hs hm
    rw [step_cfg hs] at hm
    exact NoBaseFee.step hm (ih hm) hs

/-- C32, second part: with output-token collection the fee of every swap is taken in the token the trader receives; and every
accepted configuration collects in one of these two ways. -/
theorem C32_output_token {w w' : World} {a : SwapArgs} (hs : w.step (.swap a) = .ok w') :
    (w.cfg.collectFeeMode = 0 ∨ w.cfg.collectFeeMode = 1) ∧
    ∃ x, Observed w w' a.dir x ∧ (w.cfg.collectFeeMode = 1 → x.feeToken = outToken a.dir) ∧
      (w.cfg.collectFeeMode = 0 → x.feeToken = .quote) := by
  obtain ⟨cur, fm, r, v1, v2, s⟩ := swap_ok hs
  have := getFeeMode_ok s.hfm
  exact ⟨this.2.2.2.2, _, SwapStep.observed s, this.2.2.2.1, this.2.2.1⟩

/-- Reachable quote-only pool with quote fees; output-token pool whose buys accrued base fees and sells quote fees. -/
theorem C32_example : Reachable (Ex.after Ex.paramsB Ex.trading) ∧ (Ex.after Ex.paramsB Ex.trading).cfg.collectFeeMode = 0 ∧
    0 < fees (Ex.after Ex.paramsB Ex.trading) .quote ∧ Reachable (Ex.after Ex.paramsA Ex.trading) ∧
    (Ex.after Ex.paramsA Ex.trading).cfg.collectFeeMode = 1 ∧ 0 < fees (Ex.after Ex.paramsA Ex.trading) .base ∧
    0 < fees (Ex.after Ex.paramsA Ex.trading) .quote := by
  refine ⟨Ex.reachTradingB, ?_, ?_, Ex.reachTradingA, ?_⟩ <;> decide +kernel

end Props

import Verif.Spec.Curve
import Verif.Spec.Audit
import Verif.Spec.Vesting
import Mathlib.Algebra.Order.Field.Basic
import Mathlib.Data.Nat.Sqrt

/-!
# Specification of the rules a configuration must meet

Plain arithmetic over the parameters of `create_config`; nothing here calls the program's checks. Rates are in billionths.
-/

namespace Spec

open Dbc (Point ConfigParams ConfigEnv LiqVestingParams MigratedFee)

/-- Either all three numbers are zero or none is. -/
def AllOrNone (a b c : Nat) : Prop := (a = 0 ∧ b = 0 ∧ c = 0) ∨ (0 < a ∧ 0 < b ∧ 0 < c)

/-- A rate limiter's fee on the largest possible amount (`2^64 - 1`), in whole units, is at most 99% of it. Each block of `x0`
units pays one step `inc` more than the block before, from `cliff` up to 99%. With `x0` itself the largest amount there is only
the first block. -/
def TopFeeFits (x0 cliff inc : Nat) : Prop :=
  x0 = 2 ^ 64 - 1 ∨ ceilDiv (blockFee x0 cliff inc (2 ^ 64 - 1)) 1000000000 * 1000000000 ≤ 990000000 * (2 ^ 64 - 1)

/-- The trading fee: at most 99% at the start and at least 0.25% at the end. A linear schedule takes `third` off per period,
an exponential one `third` basis points of what is left. `slack` is a rounding allowance for the exponential one. A rate
limiter needs fees in the quote token; if it has steps, they are below 100%, last at most twelve hours (108000 slots or 43200
seconds), and the fee on the largest amount is at most 99% of it. -/
def BaseFeeRules (slack : ℚ) (p : ConfigParams) : Prop :=
  p.fees.base.cliff ≤ 990000000 ∧ AllOrNone p.fees.base.first p.fees.base.second p.fees.base.third ∧
  ((p.fees.base.mode = 0 ∧ 2500000 + p.fees.base.third * p.fees.base.first ≤ p.fees.base.cliff) ∨
   (p.fees.base.mode = 1 ∧ p.fees.base.third ≤ 10000 ∧
      2500000 + slack ≤ p.fees.base.cliff * (1 - (p.fees.base.third : ℚ) / 10000) ^ p.fees.base.first) ∨
   (p.fees.base.mode = 2 ∧ p.collectFeeMode = 0 ∧ 2500000 ≤ p.fees.base.cliff ∧
      (0 < p.fees.base.first → p.fees.base.first < 10000 ∧
        p.fees.base.second ≤ (if p.activationType = 0 then 108000 else 43200) ∧
        TopFeeFits p.fees.base.third p.fees.base.cliff (p.fees.base.first * 100000))))

/-- The optional volatility fee. -/
def DynFeeRules (p : ConfigParams) : Prop :=
  p.fees.dyn.initialized = 0 ∨
  (p.fees.dyn.binStep = 1 ∧ p.fees.dyn.binStepU128 = 1844674407370955 ∧ p.fees.dyn.filterPeriod < p.fees.dyn.decayPeriod ∧
    p.fees.dyn.reductionFactor ≤ 10000 ∧ p.fees.dyn.vfc < 2 ^ 24 ∧ p.fees.dyn.maxVolAcc < 2 ^ 24)

/-- A liquidity vesting that is used: a positive share, at most all of it released in periods, and over within two years. -/
def VestRules (v : LiqVestingParams) : Prop :=
  0 < v.pct ∧ v.bpsPerPeriod * v.numPeriods ≤ 10000 ∧ v.cliffDuration ≤ 63072000 ∧
  (0 < v.bpsPerPeriod * v.numPeriods → 0 < v.frequency ∧ v.cliffDuration + v.frequency * v.numPeriods ≤ 63072000)

/-- The fee settings chosen for the pool after migration: between 0.1% and 10%; a compounding share exactly when fees
compound; with a market-cap schedule (modes 3 and 4), all its numbers positive and a last rate of at least 0.01%. -/
def MigratedRules (slack : ℚ) (m : MigratedFee) : Prop :=
  10 ≤ m.poolFeeBps ∧ m.poolFeeBps ≤ 1000 ∧ m.collectFeeMode ≤ 2 ∧ m.dynamicFee ≤ 1 ∧
  (if m.collectFeeMode = 2 then 0 < m.compoundingBps ∧ m.compoundingBps ≤ 10000 else m.compoundingBps = 0) ∧
  ((m.baseFeeMode ≤ 1 ∧ m.numberOfPeriod = 0 ∧ m.sqrtPriceStepBps = 0 ∧ m.expiration = 0 ∧ m.reduction = 0) ∨
   (0 < m.numberOfPeriod ∧ 0 < m.sqrtPriceStepBps ∧ 0 < m.expiration ∧ 0 < m.reduction ∧
    ((m.baseFeeMode = 3 ∧ 100000 + m.reduction * m.numberOfPeriod ≤ m.poolFeeBps * 100000) ∨
     (m.baseFeeMode = 4 ∧ m.reduction ≤ 10000 ∧ m.numberOfPeriod < 2 ^ 16 ∧
      100000 + slack ≤ m.poolFeeBps * 100000 * (1 - (m.reduction : ℚ) / 10000) ^ m.numberOfPeriod))))

/-- No fee settings for the pool after migration. -/
def NoMigratedFee (m : MigratedFee) : Prop := m = ⟨0, 0, 0, 0, 0, 0, 0, 0, 0⟩

/-- No liquidity vesting. -/
def NoVesting (v : LiqVestingParams) : Prop := v = ⟨0, 0, 0, 0, 0⟩

/-- What depends on where the pool migrates to. The first AMM takes only tokens of the original token program, one of the six
fixed fees and no liquidity vesting. -/
def TargetRules (slack : ℚ) (p : ConfigParams) (env : ConfigEnv) : Prop :=
  (p.migrationOption = 0 ∧ p.tokenType = 0 ∧ env.quoteIsSpl = true ∧ p.migrationFeeOption ≤ 5 ∧ NoMigratedFee p.migratedFee ∧
    NoVesting p.partnerVesting ∧ NoVesting p.creatorVesting) ∨
  (p.migrationOption = 1 ∧ p.tokenType ≤ 1 ∧
    ((p.migrationFeeOption ≤ 5 ∧ NoMigratedFee p.migratedFee) ∨ (p.migrationFeeOption = 6 ∧ MigratedRules slack p.migratedFee)) ∧
    (NoVesting p.partnerVesting ∨ VestRules p.partnerVesting) ∧ (NoVesting p.creatorVesting ∨ VestRules p.creatorVesting))

/-- One to sixteen points, prices rising from the start price, all within the price range, and liquidity everywhere. -/
def CurveRules (p : ConfigParams) : Prop :=
  1 ≤ p.curve.length ∧ p.curve.length ≤ 16 ∧
  List.Pairwise (· < ·) (p.sqrtStartPrice :: p.curve.map Point.price) ∧ (∀ q ∈ p.curve, 0 < q.liq) ∧
  (∀ x ∈ p.sqrtStartPrice :: p.curve.map Point.price, 4295048016 ≤ x ∧ x ≤ 79226673521066979257578248091)

/-- The token vesting: none, or a positive amount that fits 64 bits, in periods of positive length. -/
def LockedRules (p : ConfigParams) : Prop :=
  p.lockedVesting = ⟨0, 0, 0, 0, 0⟩ ∨ (0 < p.lockedVesting.frequency ∧
    0 < p.lockedVesting.cliffUnlock + p.lockedVesting.amountPerPeriod * p.lockedVesting.numberOfPeriod ∧
    p.lockedVesting.cliffUnlock + p.lockedVesting.amountPerPeriod * p.lockedVesting.numberOfPeriod < 2 ^ 64)

/-- The price `P` on the curve at which exactly the threshold has been collected, the highest one if there are several. -/
def IsMigrationPrice (p : ConfigParams) (P : Nat) : Prop :=
  p.sqrtStartPrice ≤ P ∧ P ≤ topPrice p.sqrtStartPrice p.curve ∧
  quoteToUp (segs p.sqrtStartPrice p.curve) P = p.migrationQuoteThreshold ∧
  ∀ Q, Q ≤ topPrice p.sqrtStartPrice p.curve →
    quoteToUp (segs p.sqrtStartPrice p.curve) Q ≤ p.migrationQuoteThreshold → Q ≤ P

/-- Quote tokens that go into the new pool: the threshold without the migration fee, rounded up. -/
def poolQuote (p : ConfigParams) : Nat := ceilDiv (p.migrationQuoteThreshold * (100 - p.migrationFeePct)) 100

/-- The new pool has the whole price range at the same depth. -/
def Plain (p : ConfigParams) : Prop := p.migrationOption = 0 ∨ p.migratedFee.collectFeeMode = 2

instance (p : ConfigParams) : Decidable (Plain p) := by unfold Plain; infer_instance

/-- Liquidity of a pool over the price range that holds `q` quote tokens at price `P`. -/
def rangeLiq (q P : Nat) : Nat := q * 2 ^ 128 / (P - 4295048016)

/-- Base tokens that go with `q` quote tokens into a new pool at price `P`, rounded up. -/
def poolBase (p : ConfigParams) (P : Nat) : Nat :=
  if Plain p then ceilDiv (poolQuote p * 2 ^ 128) (P * P)
  else ceilDiv (rangeLiq (poolQuote p) P * (79226673521066979257578248091 - P)) (P * 79226673521066979257578248091)

/-- `x` without its 0.2% protocol share. -/
def afterShare (x : Nat) : Nat := x - x * 20 / 10000

/-- A pool opened with `b` base and `q` quote tokens: its price is in range and within one percent of `P`, and its liquidity
is enough to burn the first hundred units and still fits. -/
def SoundOpening (b q P : Nat) : Prop :=
  let price := Nat.sqrt (ceilDiv (q * 2 ^ 128) b)
  let liq := Nat.sqrt (q * 2 ^ 128 / b) * b
  0 < b ∧ 4295048016 ≤ price ∧ price ≤ 79226673521066979257578248091 ∧ 100 * 2 ^ 64 < liq ∧ liq < 2 ^ 128 ∧
  ((P - price) + (price - P)) * 100 ≤ max P price

/-- Total of the token vesting. -/
def promisedTotal (p : ConfigParams) : Nat :=
  p.lockedVesting.cliffUnlock + p.lockedVesting.amountPerPeriod * p.lockedVesting.numberOfPeriod

/-- What the curve may sell at most: a quarter more than it sells up to price `P`, or all it has. -/
def sellable (p : ConfigParams) (P : Nat) : Nat :=
  min (baseToUp (segs p.sqrtStartPrice p.curve) P * 25 / 100 + baseToUp (segs p.sqrtStartPrice p.curve) P)
    (baseToUp (segs p.sqrtStartPrice p.curve) 79226673521066979257578248091)

/-- A chosen supply covers what the curve may sell, the new pool and the vesting before migration, and what it does sell, the
new pool and the vesting after it; someone is named to receive what is left over. -/
def SupplyRules (p : ConfigParams) (env : ConfigEnv) (P : Nat) : Prop :=
  ∀ pre post, p.tokenSupply = some (pre, post) → env.leftoverReceiver ≠ 0 ∧ post ≤ pre ∧
    baseToUp (segs p.sqrtStartPrice p.curve) P + poolBase p P + promisedTotal p ≤ post ∧
    sellable p P + poolBase p P + promisedTotal p ≤ pre

/-- Liquidity released in each period out of `T`. -/
def perPeriod (v : LiqVestingParams) (T : Nat) : Nat := T * (v.bpsPerPeriod * v.numPeriods) / 10000 / v.numPeriods

/-- What a liquidity vesting still holds after one day, in hundredths of a percent of all liquidity (`2^128 - 1` units). With
nothing to release in periods, everything is released at the cliff, at the earliest after one second. -/
def heldAfterDay (v : LiqVestingParams) : Nat :=
  let T := (2 ^ 128 - 1) * v.pct / 100
  let gone := if perPeriod v T = 0 then released (max v.cliffDuration 1) T 0 0 0 86400
    else released v.cliffDuration (T - perPeriod v T * v.numPeriods) (perPeriod v T) v.frequency v.numPeriods 86400
  (T - gone) * 10000 / (2 ^ 128 - 1)

/-- At least a tenth of the liquidity is still locked one day after migration. -/
def DayLock (p : ConfigParams) : Prop :=
  1000 ≤ heldAfterDay p.partnerVesting + p.partnerPermLockedPct * 100 + heldAfterDay p.creatorVesting +
    p.creatorPermLockedPct * 100

/-- The rules for a configuration. `slack` is the rounding allowance for exponentially falling fees. -/
structure Lawful (slack : ℚ) (p : ConfigParams) (env : ConfigEnv) : Prop where
  quoteMint : env.quoteSupported = true
  activation : p.activationType ≤ 1
  collect : p.collectFeeMode ≤ 1
  authority : p.tokenUpdateAuthority ≤ 4
  decimals : 6 ≤ p.tokenDecimal ∧ p.tokenDecimal ≤ 9
  baseFee : BaseFeeRules slack p
  dynFee : DynFeeRules p
  creatorFee : p.creatorTradingFeePct ≤ 100
  migrationFee : p.migrationFeePct ≤ 99
  migrationCreator : p.creatorMigrationFeePct ≤ if p.migrationFeePct = 0 then 0 else 100
  creationFee : p.poolCreationFee = 0 ∨ (1000000 ≤ p.poolCreationFee ∧ p.poolCreationFee ≤ 100000000000)
  target : TargetRules slack p env
  shares : p.partnerLiqPct + p.partnerPermLockedPct + p.creatorLiqPct + p.creatorPermLockedPct + p.partnerVesting.pct +
    p.creatorVesting.pct = 100
  threshold : 0 < p.migrationQuoteThreshold
  locked : LockedRules p
  curve : CurveRules p
  dayLock : DayLock p
  /-- the threshold can be collected below the highest price, and the amounts that follow from it fit 64 bits -/
  price : ∃ P, IsMigrationPrice p P ∧ P < 79226673521066979257578248091 ∧
    0 < baseToUp (segs p.sqrtStartPrice p.curve) P ∧ baseToUp (segs p.sqrtStartPrice p.curve) P < 2 ^ 64 ∧
    0 < poolBase p P ∧ poolBase p P < 2 ^ 64 ∧ (Plain p ∨ rangeLiq (poolQuote p) P < 2 ^ 128) ∧
    (p.migrationOption = 1 → p.migratedFee.collectFeeMode = 2 →
      SoundOpening (afterShare (poolBase p P)) (afterShare (poolQuote p)) P) ∧
    SupplyRules p env P

end Spec

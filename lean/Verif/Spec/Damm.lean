import Verif.Spec.Vesting
import Verif.Spec.Migrate
import Verif.Spec.Fee
import Mathlib.Algebra.Order.Field.Basic
import Mathlib.Data.Rat.Cast.Order

/-!
# What a configuration promises about the pool migrated to
-/

namespace Spec

open Dbc

/-- The trading fee, in basis points, that each fixed migration fee option promises. -/
def promisedBps : Nat → Option Nat
  | 0 => some 25
  | 1 => some 30
  | 2 => some 100
  | 3 => some 200
  | 4 => some 400
  | 5 => some 600
  | _ => none

/-- The fraction `num / den` is at least `bps` basis points and less than one basis point more. -/
def WithinOneBp (bps num den : Nat) : Prop := bps * den ≤ num * 10000 ∧ num * 10000 < (bps + 1) * den

/-- A DAMM v1 configuration that may be used: reserved for this program, trading at once, no partner fee, no alpha vault, and
(to within one basis point) the promised fee. -/
structure FitV1 (opt : Nat) (d : DammV1Config) : Prop where
  reserved : d.poolCreatorAuthority = POOL_AUTHORITY
  fee : ∃ bps, promisedBps opt = some bps ∧ WithinOneBp bps d.tradeFeeNumerator d.tradeFeeDenominator
  noDelay : d.activationDuration = 0
  noPartnerFee : d.partnerFeeNumerator = 0
  noVault : d.vaultConfigKey = 0

/-- A DAMM v2 configuration that may be used for a fixed fee: reserved for this program, timestamps as clock, full price range,
no alpha vault, and (to within one basis point) the promised fee with no schedule. -/
structure FitV2 (opt : Nat) (d : DammV2Config) : Prop where
  reserved : d.poolCreatorAuthority = POOL_AUTHORITY
  fee : ∃ bps, promisedBps opt = some bps ∧ WithinOneBp bps d.cliffFeeNumerator unit
  noSchedule : (d.baseFeeMode = 0 ∨ d.baseFeeMode = 1) ∧ d.numberOfPeriod = 0 ∧ d.periodFrequency = 0 ∧ d.reductionFactor = 0
  fullRange : d.sqrtMinPrice = MIN_SQRT_PRICE ∧ d.sqrtMaxPrice = MAX_SQRT_PRICE
  noVault : d.vaultConfigKey = 0
  timestamps : d.activationType = 1

/-- The DAMM v2 configurations a pool may migrate with: for a custom fee any reserved one, else one with the promised fee. -/
def UsableV2 (opt : Nat) (d : DammV2Config) : Prop :=
  (opt = 6 ∧ d.poolCreatorAuthority = POOL_AUTHORITY) ∨ (FitV2 opt d ∧ d.cliffFeeNumerator < 2 ^ 64)

/-- The base fee sent to DAMM v2 is the configured one: a constant fee, or a fee falling with the market cap. -/
def BaseAsConfigured (m : MigratedFee) : DammBaseFee → Prop
  | .time mode cliff n freq red =>
    (m.baseFeeMode = 0 ∨ m.baseFeeMode = 1) ∧ mode = m.baseFeeMode ∧ cliff * 10000 = m.poolFeeBps * unit ∧ n = 0 ∧ freq = 0 ∧ red = 0
  | .marketCap mode cliff n step exp red =>
    (m.baseFeeMode = 3 ∨ m.baseFeeMode = 4) ∧ mode = m.baseFeeMode ∧ cliff * 10000 = m.poolFeeBps * unit ∧ n = m.numberOfPeriod ∧
      step = m.sqrtPriceStepBps ∧ exp = m.expiration ∧ red = m.reduction ∧ 0 < n ∧ 0 < step ∧ 0 < exp ∧ 0 < red

/-- The lowest base fee of the new pool, in billionths: the constant fee, the cliff fee less all reductions, or the cliff fee
reduced by a percentage in every period (to within 1.000004 units). -/
def IsLowestFee (m : MigratedFee) (low : Nat) : Prop :=
  ((m.baseFeeMode = 0 ∨ m.baseFeeMode = 1) ∧ low = m.poolFeeBps * 100000) ∨
  (m.baseFeeMode = 3 ∧ low + m.reduction * m.numberOfPeriod = m.poolFeeBps * 100000) ∨
  (m.baseFeeMode = 4 ∧
    (low : ℚ) < (m.poolFeeBps * 100000 : Nat) * (1 - (m.reduction : ℚ) / 10000) ^ m.numberOfPeriod + 4 / 1000000 ∧
    (m.poolFeeBps * 100000 : Nat) * (1 - (m.reduction : ℚ) / 10000) ^ m.numberOfPeriod - (1 + 4 / 1000000) < (low : ℚ))

/-- The dynamic part of a DAMM v2 fee at volatility `v`: `⌈(v · bin step)² · control / 10¹¹⌉`. -/
def dynamicPart (d : DammDynamicFee) (v : Nat) : Nat := volatilityRate v d.binStep d.variableFeeControl

/-- The dynamic fee sent to DAMM v2 is on exactly if configured; its largest value is at most 20% of the lowest base fee `low`,
and not more than 2092 billionths below that. -/
def DynamicAsConfigured (m : MigratedFee) (low : Nat) : Option DammDynamicFee → Prop
  | none => m.dynamicFee = 0
  | some d => m.dynamicFee = 1 ∧ (∀ v, v ≤ d.maxVolatility → dynamicPart d v ≤ low * 20 / 100) ∧
      low * 20 / 100 ≤ dynamicPart d d.maxVolatility + 2092

/-- The fee collection mode of DAMM v2 (0 both tokens, 1 quote only, 2 compounding) that matches the configured one (0 quote
only, 1 output token, 2 compounding). -/
def SameCollection (configured damm : Nat) : Prop :=
  (configured = 0 ∧ damm = 1) ∨ (configured = 1 ∧ damm = 0) ∨ (configured = 2 ∧ damm = 2)

/-- The pool asked for charges what the configuration promises. -/
def FeesAsPromised (c : PoolConfig) : NewPool → Prop
  | .v1 d _ _ => c.migrationOption = 0 ∧ FitV1 c.migrationFeeOption d
  | .fixed d _ _ => c.migrationOption = 1 ∧ FitV2 c.migrationFeeOption d
  | .custom fees mode activation lo hi _ _ =>
    c.migrationOption = 1 ∧ c.migrationFeeOption = 6 ∧ BaseAsConfigured c.migratedFee fees.base ∧
      fees.compoundingBps = c.migratedFee.compoundingBps ∧ SameCollection c.migratedFee.collectFeeMode mode ∧
      (∃ low, IsLowestFee c.migratedFee low ∧ 100000 ≤ low ∧ low ≤ c.migratedFee.poolFeeBps * 100000 ∧
        DynamicAsConfigured c.migratedFee low fees.dynamic) ∧
      activation = 1 ∧ lo = MIN_SQRT_PRICE ∧ hi = MAX_SQRT_PRICE

/-- Square-root price and liquidity a DAMM v2 pool is created with. -/
def opening : NewPool → Option (Nat × Nat)
  | .v1 .. => none
  | .fixed _ s l => some (s, l)
  | .custom _ _ _ _ _ s l => some (s, l)

/-- `quote` tokens are worth `base` tokens at square-root price `p` (Q64.64), up to one unit of quote and two of base. -/
def Balanced (p base quote : Nat) : Prop :=
  quote * 2 ^ 128 < base * p ^ 2 + 2 ^ 128 ∧ base * p ^ 2 < quote * 2 ^ 128 + 2 * p ^ 2

/-- The square-root price is the migration price: exactly for a concentrated pool, within 1% for a compounding one. -/
def PriceOk (c : PoolConfig) (s : Nat) : Prop :=
  if Compounds c then
    100 * (s - c.migrationSqrtPrice) ≤ max s c.migrationSqrtPrice ∧ 100 * (c.migrationSqrtPrice - s) ≤ max s c.migrationSqrtPrice
  else s = c.migrationSqrtPrice

/-- The pool asked for starts at the migration price. DAMM v1 takes its price from the amounts, so there it is the ratio of the
amounts. -/
def OpensAt (c : PoolConfig) : NewPool → Prop
  | .v1 _ base quote => Balanced c.migrationSqrtPrice base quote
  | .fixed _ s _ => PriceOk c s
  | .custom _ _ _ _ _ s _ => PriceOk c s

/-! ### Positions -/

/-- The two owners of the liquidity created at migration. -/
inductive Side
  | partner
  | creator
  deriving DecidableEq

def Side.other : Side → Side
  | .partner => .creator
  | .creator => .partner

/-- Who owns the position. -/
def ownerOf (w : World) : Side → Nat
  | .partner => w.cfg.feeClaimer
  | .creator => w.pool.creator

def permPct (c : PoolConfig) : Side → Nat
  | .partner => c.partnerPermLockedPct
  | .creator => c.creatorPermLockedPct

def vestingOf (c : PoolConfig) : Side → LiqVesting
  | .partner => c.partnerVesting
  | .creator => c.creatorVesting

/-- What each side is to get of `liq` units: unlocked, permanently locked, vested. Shares are rounded down; the creator's
unlocked share takes what is left. -/
structure Plan where
  unlocked : Nat
  permanent : Nat
  vested : Nat

def planned (c : PoolConfig) (liq : Nat) : Side → Plan
  | .partner => ⟨liq * c.partnerLiqPct / 100, liq * c.partnerPermLockedPct / 100, liq * c.partnerVesting.pct / 100⟩
  | .creator => ⟨liq - liq * c.partnerLiqPct / 100 - liq * c.partnerPermLockedPct / 100 - liq * c.partnerVesting.pct / 100 -
      liq * c.creatorPermLockedPct / 100 - liq * c.creatorVesting.pct / 100,
      liq * c.creatorPermLockedPct / 100, liq * c.creatorVesting.pct / 100⟩

def Plan.total (p : Plan) : Nat := p.unlocked + p.permanent + p.vested

/-- The schedule releases `amount` as configured: equal parts in every period, the rest at the cliff. If the parts would be
zero there are no periods and a cliff of at least one second. -/
structure Follows (v : LiqVesting) (amount now : Nat) (P : VestParams) : Prop where
  total : P.cliffUnlock + P.numPeriods * P.perPeriod = amount
  part : P.perPeriod = amount * (v.bpsPerPeriod * v.numPeriods) / 10000 / v.numPeriods
  periods : 0 < P.perPeriod → P.numPeriods = v.numPeriods ∧ P.frequency = v.frequency ∧ P.cliffPoint = now + v.cliffDuration
  none : P.perPeriod = 0 → P.numPeriods = 0 ∧ P.frequency = 0 ∧ P.cliffPoint = now + max v.cliffDuration 1

/-- A position with these amounts locked. -/
def LockedAs (v : LiqVesting) (permanent vested now : Nat) (q : DammPosition) : Prop :=
  q.permanent = permanent ∧ (vested = 0 → q.vesting = none) ∧ (0 < vested → ∃ P, q.vesting = some P ∧ Follows v vested now P)

/-- How `amount` units are divided for a side with this plan: unlocked first, the rest between vested and permanently locked
in proportion to the percentages. -/
def Redivided (plan : Plan) (permPct vestPct amount permanent vested : Nat) : Prop :=
  if permPct + vestPct = 0 then permanent = 0 ∧ vested = 0
  else vested = (amount - min amount plan.unlocked) * vestPct / (vestPct + permPct) ∧
    permanent + vested = amount - min amount plan.unlocked

/-- What of a position's liquidity cannot be withdrawn at time `t`: the permanently locked part, and what its schedule has not
yet released. -/
def stillLocked (q : DammPosition) (t : Nat) : Nat :=
  q.permanent + match q.vesting with
    | none => 0
    | some P => P.cliffUnlock + P.numPeriods * P.perPeriod -
        released P.cliffPoint P.cliffUnlock P.perPeriod P.frequency P.numPeriods t

end Spec

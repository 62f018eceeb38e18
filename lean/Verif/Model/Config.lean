import Verif.Model.Curve
import Verif.Model.Fee

/-!
# `state/config.rs`, `params/liquidity_distribution.rs`, `migration_handler/*`, `utils/damm_v2_utils.rs`
and `instructions/partner/ix_create_config.rs`
-/

namespace Dbc

/-- `LiquidityDistributionConfig` / `LiquidityDistributionParameters` (state/config.rs 681-684,
params/liquidity_distribution.rs 18-21). -/
structure Point where
  price : Nat
  liq : Nat
  deriving DecidableEq, Repr

/-- `LockedVestingParams` / `LockedVestingConfig` (ix_create_config.rs 252-258, state/config.rs 334-341). -/
structure LockedVesting where
  amountPerPeriod : Nat
  cliffDuration : Nat
  frequency : Nat
  numberOfPeriod : Nat
  cliffUnlock : Nat
  deriving DecidableEq, Repr

/-- `LockedVestingParams::default()`. [`LockedVestingParams::default()`, instructions/partner/ix_create_config.rs 251-258] -/
def LockedVesting.zero : LockedVesting := ⟨0, 0, 0, 0, 0⟩

/-- `get_total_amount` (ix_create_config.rs 290-295). -/
def LockedVesting.total (v : LockedVesting) : Res Nat := do
  let m ← safeMul u64Max v.amountPerPeriod v.numberOfPeriod
  safeAdd u64Max v.cliffUnlock m

/-- `has_vesting` (ix_create_config.rs 297-299). -/
def LockedVesting.has (v : LockedVesting) : Prop := v ≠ LockedVesting.zero
/-- Decidability of the definition above, whose citation covers it. -/
instance (v : LockedVesting) : Decidable v.has := by unfold LockedVesting.has; infer_instance

/-- `LockedVestingParams::validate` (ix_create_config.rs 300-309). -/
def LockedVesting.validate (v : LockedVesting) : Res Unit :=
  if v.has then do
    let t ← v.total
    req (v.frequency ≠ 0 ∧ t ≠ 0) .invalidVestingParameters
  else .ok ()

/-- `LiquidityVestingInfo` (state/config.rs 580-588); the parameters struct (ix_create_config.rs 315-321) is the
same without `is_initialized`. -/
structure LiqVesting where
  isInit : Nat
  pct : Nat
  bpsPerPeriod : Nat
  numPeriods : Nat
  frequency : Nat
  cliffDuration : Nat
  deriving DecidableEq, Repr

/-- DAMM v2 `VestingParameters` as built by state/config.rs 669-675 (`cliff_point` is always `Some`). -/
structure VestParams where
  cliffPoint : Nat
  perPeriod : Nat
  cliffUnlock : Nat
  frequency : Nat
  numPeriods : Nat
  deriving DecidableEq, Repr

/-- `get_damm_v2_vesting_parameters` (state/config.rs 629-676). -/
def LiqVesting.params (v : LiqVesting) (total now : Nat) : Res VestParams := do
  let totalBps ← safeMul u16Max v.bpsPerPeriod v.numPeriods
  let afterCliff ← safeMulDivCastU128 total totalBps MAX_BASIS_POINT .down
  let perPeriod ← (if 0 < v.numPeriods then safeDiv afterCliff v.numPeriods else .ok 0)
  let n := if perPeriod = 0 then 0 else v.numPeriods
  let freq := if perPeriod = 0 then 0 else v.frequency
  let cliffDur := if perPeriod = 0 then max v.cliffDuration 1 else v.cliffDuration
  let m ← safeMul u128Max perPeriod n
  let cliffUnlock ← safeSub total m
  let cliffPoint ← safeAdd u64Max now cliffDur
  .ok ⟨cliffPoint, perPeriod, cliffUnlock, freq, n⟩

/-- `get_max_unlocked_liquidity_at_current_point` (utils/damm_v2_utils.rs 54-80). -/
def VestParams.unlockedAt (p : VestParams) (now : Nat) : Res Nat :=
  if now < p.cliffPoint then .ok 0
  else if p.frequency = 0 then .ok p.cliffUnlock
  else do
    let d ← safeSub now p.cliffPoint
    let period ← safeDiv d p.frequency
    let m ← safeMul u128Max (min period p.numPeriods) p.perPeriod
    safeAdd u128Max p.cliffUnlock m

/-- `get_liquidity_locked_bps_at_n_seconds` (state/config.rs 593-627). -/
def LiqVesting.lockedBpsAt (v : LiqVesting) (n : Nat) : Res Nat :=
  if v.isInit = 0 then .ok 0
  else do
    let total ← safeMulDivCastU128 u128Max v.pct 100 .down
    let p ← v.params total 0
    let unlocked ← p.unlockedAt n
    let locked ← safeSub total unlocked
    let bps ← safeMulDivCastU128 locked MAX_BASIS_POINT u128Max .down
    castTo u16Max bps

/-- `validate_vesting_parameters` (utils/damm_v2_utils.rs 98-141) including `get_vesting_total_lock_amount`
(86-94). -/
def VestParams.validate (p : VestParams) (now maxDur : Nat) : Res Unit := do
  let _ ← req (now ≤ p.cliffPoint) .invalidVestingParameters
  let _ ← (if p.cliffPoint = now then req (0 < p.numPeriods) .invalidVestingParameters else .ok ())
  let _ ← (if 0 < p.numPeriods then req (0 < p.frequency ∧ 0 < p.perPeriod) .invalidVestingParameters else .ok ())
  let d ← safeSub p.cliffPoint now
  let m ← safeMul u64Max p.frequency p.numPeriods
  let dur ← safeAdd u64Max d m
  let _ ← req (dur ≤ maxDur) .invalidVestingParameters
  let lm ← safeMul u128Max p.perPeriod p.numPeriods
  let t ← safeAdd u128Max p.cliffUnlock lm
  req (0 < t) .invalidVestingParameters

/-- `LiquidityVestingInfoParams` (ix_create_config.rs 315-321). -/
structure LiqVestingParams where
  pct : Nat
  bpsPerPeriod : Nat
  numPeriods : Nat
  cliffDuration : Nat
  frequency : Nat
  deriving DecidableEq, Repr

/-- `is_zero` (ix_create_config.rs 326-328). -/
def LiqVestingParams.isZero (p : LiqVestingParams) : Prop := p = ⟨0, 0, 0, 0, 0⟩
/-- Decidability of the definition above, whose citation covers it. -/
instance (p : LiqVestingParams) : Decidable p.isZero := by unfold LiqVestingParams.isZero; infer_instance

/-- `to_liquidity_vesting_info` (ix_create_config.rs 355-366). -/
def LiqVestingParams.toInfo (p : LiqVestingParams) : LiqVesting :=
  ⟨if p.isZero then 0 else 1, p.pct, p.bpsPerPeriod, p.numPeriods, p.frequency, p.cliffDuration⟩

/-- `LiquidityVestingInfoParams::validate` (ix_create_config.rs 330-353). -/
def LiqVestingParams.validate (p : LiqVestingParams) (now : Nat) : Res Unit :=
  if p.isZero then .ok ()
  else do
    let total ← safeMulDivCastU128 u128Max p.pct 100 .down
    let v ← p.toInfo.params total now
    v.validate now MAX_LOCK_DURATION_IN_SECONDS

/-- Fee settings of the pool created at migration: `MigratedPoolFee`, `compounding_fee_bps`,
`migrated_pool_base_fee_mode` and `MigratedPoolMarketCapFeeSchedulerParams` (ix_create_config.rs 61, 66-69,
225-238), also the fields of `MigratedPoolFeeValidator` (103-113). -/
structure MigratedFee where
  collectFeeMode : Nat
  dynamicFee : Nat
  poolFeeBps : Nat
  compoundingBps : Nat
  baseFeeMode : Nat
  numberOfPeriod : Nat
  sqrtPriceStepBps : Nat
  expiration : Nat
  reduction : Nat
  deriving DecidableEq, Repr

/-- `MigratedPoolFeeValidator::is_none` (ix_create_config.rs 136-146). -/
def MigratedFee.isNone (m : MigratedFee) : Prop := m = ⟨0, 0, 0, 0, 0, 0, 0, 0, 0⟩
/-- Decidability of the definition above, whose citation covers it. -/
instance (m : MigratedFee) : Decidable m.isNone := by unfold MigratedFee.isNone; infer_instance

/-- DAMM v2 `MIN_FEE_NUMERATOR` (/repo/idls/damm_v2.json, constant table). -/
def DAMM_V2_MIN_FEE_NUMERATOR : Nat := 100000
/-- DAMM v2 `MAX_FEE_NUMERATOR_V1`, the value for `CURRENT_POOL_VERSION = 1` (/repo/idls/damm_v2.json). -/
def DAMM_V2_MAX_FEE_NUMERATOR : Nat := 990000000

/-- `get_base_fee_numerator_by_period` (utils/damm_v2_utils.rs 236-258). -/
def MigratedFee.marketCapFee (m : MigratedFee) (cliff period : Nat) : Res Nat :=
  match m.baseFeeMode with
  | 3 => do
    let red ← safeMul u64Max m.reduction (min period m.numberOfPeriod)
    safeSub cliff red
  | 4 =>
    if min period m.numberOfPeriod ≤ u16Max then getFeeInPeriod cliff m.reduction (min period m.numberOfPeriod)
    else .error .mathOverflow
  | _ => .error .undeterminedError

/-- `get_min_base_fee_numerator` (utils/damm_v2_utils.rs 232-234). -/
def MigratedFee.marketCapMinFee (m : MigratedFee) (cliff : Nat) : Res Nat := m.marketCapFee cliff m.numberOfPeriod

/-- `DammV2PodAlignedFeeMarketCapScheduler::validate` (utils/damm_v2_utils.rs 195-230). -/
def MigratedFee.marketCapValidate (m : MigratedFee) (cliff : Nat) : Res Unit := do
  let _ ← req (0 < m.reduction) .invalidFeeMarketCapScheduler
  let _ ← req (0 < m.sqrtPriceStepBps) .invalidFeeMarketCapScheduler
  let _ ← req (0 < m.expiration) .invalidFeeMarketCapScheduler
  let _ ← req (0 < m.numberOfPeriod) .invalidFeeMarketCapScheduler
  let mn ← m.marketCapMinFee cliff
  let _ ← validateFeeFraction mn FEE_DENOMINATOR
  let _ ← validateFeeFraction cliff FEE_DENOMINATOR
  req (DAMM_V2_MIN_FEE_NUMERATOR ≤ mn ∧ cliff ≤ DAMM_V2_MAX_FEE_NUMERATOR) .exceedMaxFeeBps

/-- `MigratedPoolFeeValidator::validate` (ix_create_config.rs 148-221). Collect fee modes 0,1,2
(migration_handler/mod.rs 31-35); DAMM v2 base fee modes 0-4 (utils/damm_v2_utils.rs 165-179), 2 is refused. -/
def MigratedFee.validate (m : MigratedFee) : Res Unit := do
  let _ ← req (MIN_MIGRATED_POOL_FEE_BPS ≤ m.poolFeeBps ∧ m.poolFeeBps ≤ MAX_MIGRATED_POOL_FEE_BPS)
    .invalidMigratedPoolFee
  let _ ← req (m.collectFeeMode ≤ 2) .invalidCollectFeeMode
  let _ ← (if m.collectFeeMode = 2 then
      req (0 < m.compoundingBps ∧ m.compoundingBps ≤ MAX_BASIS_POINT) .invalidMigratedPoolFee
    else req (m.compoundingBps = 0) .invalidMigratedPoolFee)
  let _ ← req (m.dynamicFee ≤ 1) .invalidMigratedPoolFee
  match m.baseFeeMode with
  | 0 => req (m.numberOfPeriod = 0 ∧ m.sqrtPriceStepBps = 0 ∧ m.expiration = 0 ∧ m.reduction = 0) .invalidMigratedPoolFee
  | 1 => req (m.numberOfPeriod = 0 ∧ m.sqrtPriceStepBps = 0 ∧ m.expiration = 0 ∧ m.reduction = 0) .invalidMigratedPoolFee
  | 2 => .error .invalidMigratedPoolFee
  | 3 => do
    let c ← toNumerator m.poolFeeBps
    m.marketCapValidate c
  | 4 => do
    let c ← toNumerator m.poolFeeBps
    m.marketCapValidate c
  | _ => .error .typeCastFailed

/-- `PoolConfig` (state/config.rs 488-574); padding dropped, public keys are numbers. `curve` has 20 entries. -/
structure PoolConfig where
  quoteMint : Nat
  feeClaimer : Nat
  leftoverReceiver : Nat
  fees : PoolFeesConfig
  partnerVesting : LiqVesting
  creatorVesting : LiqVesting
  collectFeeMode : Nat
  migrationOption : Nat
  activationType : Nat
  tokenDecimal : Nat
  tokenType : Nat
  quoteTokenFlag : Nat
  partnerPermLockedPct : Nat
  partnerLiqPct : Nat
  creatorPermLockedPct : Nat
  creatorLiqPct : Nat
  migrationFeeOption : Nat
  fixedSupplyFlag : Nat
  creatorTradingFeePct : Nat
  tokenUpdateAuthority : Nat
  migrationFeePct : Nat
  creatorMigrationFeePct : Nat
  swapBaseAmount : Nat
  migrationQuoteThreshold : Nat
  migrationBaseThreshold : Nat
  migrationSqrtPrice : Nat
  lockedVesting : LockedVesting
  preMigrationSupply : Nat
  postMigrationSupply : Nat
  migratedFee : MigratedFee
  enableFirstSwapMinFee : Nat
  poolCreationFee : Nat
  sqrtStartPrice : Nat
  curve : List Point
  deriving DecidableEq, Repr

/-- `ConfigParameters` (ix_create_config.rs 42-73) with the optional dynamic fee already in
`to_pool_fees_config` form (params/fee_parameters.rs 66-83). -/
structure ConfigParams where
  fees : PoolFeesConfig
  collectFeeMode : Nat
  migrationOption : Nat
  activationType : Nat
  tokenType : Nat
  tokenDecimal : Nat
  partnerLiqPct : Nat
  partnerPermLockedPct : Nat
  creatorLiqPct : Nat
  creatorPermLockedPct : Nat
  migrationQuoteThreshold : Nat
  sqrtStartPrice : Nat
  lockedVesting : LockedVesting
  migrationFeeOption : Nat
  /-- `Option<TokenSupplyParams>` (ix_create_config.rs 243-250): pre and post migration supply -/
  tokenSupply : Option (Nat × Nat)
  creatorTradingFeePct : Nat
  tokenUpdateAuthority : Nat
  /-- `MigrationFee` (ix_create_config.rs 76-79) -/
  migrationFeePct : Nat
  creatorMigrationFeePct : Nat
  migratedFee : MigratedFee
  poolCreationFee : Nat
  partnerVesting : LiqVestingParams
  creatorVesting : LiqVestingParams
  enableFirstSwapMinFee : Bool
  curve : List Point
  deriving DecidableEq, Repr

/-- What `create_config` reads from its accounts and the clock (ix_create_config.rs 538-569). -/
structure ConfigEnv where
  /-- result of `is_supported_quote_mint` (utils/token.rs) -/
  quoteSupported : Bool
  /-- quote mint is owned by the SPL token program -/
  quoteIsSpl : Bool
  now : Nat
  quoteMint : Nat
  feeClaimer : Nat
  leftoverReceiver : Nat
  deriving DecidableEq, Repr

/-! ## Migration amounts -/

/-- `get_migration_quote_amount` (state/config.rs 811-823): (quote_amount, fee). -/
def migrationQuoteAmount (threshold feePct : Nat) : Res (Nat × Nat) := do
  let pct ← safeSub 100 feePct
  let q ← safeMulDivCastU64 threshold pct 100 .up
  let fee ← safeSub threshold q
  .ok (q, fee)

/-- `get_initial_liquidity_from_delta_base` (migration_handler/concentrated_liquidity.rs 167-178). -/
def liqFromDeltaBase (base pmax p : Nat) : Res Nat := do
  let d ← safeSub pmax p
  let m ← safeMul u512Max base p
  let m ← safeMul u512Max m pmax
  safeDiv m d

/-- `get_initial_liquidity_from_delta_quote` (migration_handler/concentrated_liquidity.rs 181-192). -/
def liqFromDeltaQuote (quote pmin p : Nat) : Res Nat := do
  let d ← safeSub p pmin
  let q ← safeShl256 quote 128
  let l ← safeDiv q d
  castTo u128Max l

/-- `calculate_concentrated_initial_liquidity` (migration_handler/concentrated_liquidity.rs 148-164). -/
def concentratedLiquidity (base quote p : Nat) : Res Nat := do
  let lb ← liqFromDeltaBase base MAX_SQRT_PRICE p
  let lq ← liqFromDeltaQuote quote MIN_SQRT_PRICE p
  if lq < lb then .ok lq else castTo u128Max lb

/-- `get_constant_product_base_from_quote` (migration_handler/compounding_liquidity.rs 199-215). `div_rem` by
zero panics. -/
def constantProductBase (quote p : Nat) : Res Nat := do
  let price ← safeMul u256Max p p
  let q ← safeShl256 quote 128
  let _ ← req (price ≠ 0) .panic
  let base ← (if q % price ≠ 0 then safeAdd u256Max (q / price) 1 else .ok (q / price))
  let _ ← req (base ≤ u64Max) .mathOverflow
  castTo u64Max base

/-- DAMM_V2_COMPOUNDING_DEAD_LIQUIDITY (migration_handler/compounding_liquidity.rs 14) -/
def DEAD_LIQUIDITY : Nat := 100 * 2 ^ 64

/-- `calculate_compounding_initial_sqrt_price_and_liquidity` (migration_handler/compounding_liquidity.rs 170-197).
`div_ceil` by zero panics; `None` is mapped by both callers to `MathOverflow`. -/
def compoundingInitial (a b : Nat) : Res (Nat × Nat) := do
  let q ← safeShl256 b 128
  let _ ← req (a ≠ 0) .panic
  let s1 ← (match sqrtU256 (divCeil q a) with
    | some s => .ok s
    | none => .error .mathOverflow)
  let _ ← req (s1 ≤ u128Max) .mathOverflow
  let _ ← req (MIN_SQRT_PRICE ≤ s1 ∧ s1 ≤ MAX_SQRT_PRICE) .mathOverflow
  let s2 ← (match sqrtU256 (q / a) with
    | some s => .ok s
    | none => .error .mathOverflow)
  let _ ← req (s2 ≤ u128Max) .mathOverflow
  let l ← safeMul u128Max s2 a
  .ok (s1, l)

/-- `validate_initial_pool_information` (migration_handler/compounding_liquidity.rs 20-49). -/
def validateInitialPoolInformation (base quote p : Nat) : Res Unit := do
  let (sp, l) ← compoundingInitial base quote
  let _ ← req (MIN_SQRT_PRICE ≤ sp ∧ sp ≤ MAX_SQRT_PRICE) .invalidCompoundingParameters
  let _ ← req (DEAD_LIQUIDITY < l) .insufficientLiquidityForMigration
  let m ← safeMul u128Max ((p - sp) + (sp - p)) 100
  req (m ≤ max p sp) .invalidCurve

/-- Which `MigrationHandler` is used (migration_handler/mod.rs 90-111). -/
inductive Handler | compounding | concentrated
  deriving DecidableEq, Repr

/-- `get_migration_handler` (migration_handler/mod.rs 90-111); option 0 is DAMM v1 (state/config.rs 415-418),
collect fee mode 2 is compounding (migration_handler/mod.rs 31-35). -/
def migrationHandler (migrationOption collectFeeMode : Nat) : Handler :=
  if migrationOption = 0 then .compounding
  else if collectFeeMode = 2 then .compounding
  else .concentrated

/-- `get_migration_protocol_fees` (compounding_liquidity.rs 51-69, concentrated_liquidity.rs 36-61): (base, quote). -/
def migrationProtocolFees (h : Handler) (p base quote bps : Nat) : Res (Nat × Nat) :=
  match h with
  | .compounding => do
    let bf ← safeMulDivCastU64 base bps BASIS_POINT_MAX .down
    let qf ← safeMulDivCastU64 quote bps BASIS_POINT_MAX .down
    .ok (bf, qf)
  | .concentrated => do
    let qf ← safeMulDivCastU64 quote bps BASIS_POINT_MAX .down
    let l ← liqFromDeltaQuote qf MIN_SQRT_PRICE p
    let bf ← deltaBase p MAX_SQRT_PRICE l .down
    .ok (bf, qf)

/-- `get_included_protocol_fee_migration_amounts_1` (compounding_liquidity.rs 129-143,
concentrated_liquidity.rs 79-126, without the `local` feature block): (base, quote). -/
def migrationAmounts1 (h : Handler) (p threshold feePct : Nat) : Res (Nat × Nat) :=
  match h with
  | .compounding => do
    let (q, _) ← migrationQuoteAmount threshold feePct
    let b ← constantProductBase q p
    .ok (b, q)
  | .concentrated => do
    let (q, _) ← migrationQuoteAmount threshold feePct
    let l ← liqFromDeltaQuote q MIN_SQRT_PRICE p
    let b ← deltaBase256 p MAX_SQRT_PRICE l .up
    let _ ← req (b ≤ u64Max) .mathOverflow
    let b ← castTo u64Max b
    .ok (b, q)

/-- `get_included_protocol_fee_migration_amounts_2` (compounding_liquidity.rs 145-165,
concentrated_liquidity.rs 128-144): (base, quote). -/
def migrationAmounts2 (h : Handler) (baseThreshold threshold feePct baseReserve : Nat) : Res (Nat × Nat) :=
  match h with
  | .compounding => do
    let _ ← req (baseThreshold ≤ baseReserve) .undeterminedError
    let (q, _) ← migrationQuoteAmount threshold feePct
    .ok (baseThreshold, q)
  | .concentrated => do
    let (q, _) ← migrationQuoteAmount threshold feePct
    .ok (baseReserve, q)

/-- `get_initial_pool_information` (compounding_liquidity.rs 73-90, concentrated_liquidity.rs 19-34):
(price, distributable liquidity, dead liquidity). -/
def initialPoolInformation (h : Handler) (p base quote : Nat) : Res (Nat × Nat × Nat) :=
  match h with
  | .compounding => do
    let (sp, l) ← compoundingInitial base quote
    let d ← safeSub l DEAD_LIQUIDITY
    .ok (sp, d, DEAD_LIQUIDITY)
  | .concentrated => do
    let l ← concentratedLiquidity base quote p
    .ok (p, l, 0)

/-- `calculate_liquidity_delta` (compounding_liquidity.rs 105-128, concentrated_liquidity.rs 63-77). -/
def liquidityDelta (h : Handler) (p base quote poolBase poolQuote poolLiq : Nat) : Res Nat :=
  match h with
  | .compounding => do
    let lb ← safeMulDivCastU128 base poolLiq poolBase .down
    let lq ← safeMulDivCastU128 quote poolLiq poolQuote .down
    .ok (min lb lq)
  | .concentrated => concentratedLiquidity base quote p

/-! ## Curve totals (params/liquidity_distribution.rs) -/

/-- The loop of `get_base_token_for_swap` (params/liquidity_distribution.rs 37-63); `lower` is the previous price. -/
def baseTokenForSwapLoop (migrationPrice : Nat) : List Point → Nat → Nat → Res Nat
  | [], _, total => .ok total
  | p :: ps, lower, total =>
    if migrationPrice < p.price then do
      let d ← deltaBase256 lower migrationPrice p.liq .up
      safeAdd u256Max total d
    else do
      let d ← deltaBase256 lower p.price p.liq .up
      let total ← safeAdd u256Max total d
      baseTokenForSwapLoop migrationPrice ps p.price total

/-- `get_base_token_for_swap` (params/liquidity_distribution.rs 32-64). A migration price below the previous
point makes the plain subtraction in `curve.rs` panic. -/
def baseTokenForSwap (start migrationPrice : Nat) (curve : List Point) : Res Nat :=
  baseTokenForSwapLoop migrationPrice curve start 0

/-- The loop of `get_migration_threshold_price` (params/liquidity_distribution.rs 92-117): (amount left, price). -/
def thresholdPriceLoop : List Point → Nat → Nat → Res (Nat × Nat)
  | [], price, left => .ok (left, price)
  | p :: ps, price, left => do
    let mx ← deltaQuote256 price p.price p.liq .up
    if left < mx then do
      let next ← nextPriceFromInput price p.liq left false
      .ok (0, next)
    else do
      let m64 ← castTo u64Max mx
      let left ← safeSub left m64
      thresholdPriceLoop ps p.price left

/-- `get_migration_threshold_price` (params/liquidity_distribution.rs 66-120). Indexing an empty curve panics. -/
def migrationThresholdPrice (threshold start : Nat) (curve : List Point) : Res Nat :=
  match curve with
  | [] => .error .panic
  | p :: ps => do
    let total ← deltaQuote256 start p.price p.liq .up
    if threshold < total then nextPriceFromInput start p.liq threshold false
    else do
      let t64 ← castTo u64Max total
      let left ← safeSub threshold t64
      let (left, price) ← thresholdPriceLoop ps p.price left
      let _ ← req (left = 0) .notEnoughLiquidity
      .ok price

/-! ## Token supply -/

/-- `get_swap_amount_with_buffer` (state/config.rs 841-860). -/
def swapAmountWithBuffer (swapBase start : Nat) (curve : List Point) : Res Nat := do
  let m ← safeMul u128Max swapBase SWAP_BUFFER_PERCENTAGE
  let d ← safeDiv m 100
  let buffer ← safeAdd u128Max d swapBase
  let mx ← baseTokenForSwap start MAX_SQRT_PRICE curve
  if buffer < mx then (if buffer ≤ u64Max then .ok buffer else .error .mathOverflow)
  else (if mx ≤ u64Max then .ok mx else .error .mathOverflow)

/-- `get_total_token_supply` (state/config.rs 861-870). -/
def totalTokenSupply (swapBase baseThreshold : Nat) (v : LockedVesting) : Res Nat := do
  let c ← safeAdd u64Max swapBase baseThreshold
  let t ← v.total
  safeAdd u64Max c t

/-- The copy loop of `get_initial_base_supply` (state/config.rs 876-882): points up to the first one with zero
liquidity. -/
def usedCurve : List Point → List Point
  | [] => []
  | p :: ps => if p.liq = 0 then [] else p :: usedCurve ps

/-- `get_initial_base_supply` (state/config.rs 872-894). -/
def PoolConfig.initialBaseSupply (c : PoolConfig) : Res Nat :=
  if c.fixedSupplyFlag = 1 then .ok c.preMigrationSupply
  else do
    let s ← swapAmountWithBuffer c.swapBaseAmount c.sqrtStartPrice (usedCurve c.curve)
    totalTokenSupply s c.migrationBaseThreshold c.lockedVesting

/-- `get_burnable_amount_post_migration` (state/config.rs 896-910). -/
def PoolConfig.burnable (c : PoolConfig) (leftover : Nat) : Res Nat := do
  let mx ← (if c.fixedSupplyFlag = 1 then safeSub c.preMigrationSupply c.postMigrationSupply else .ok u64Max)
  .ok (min mx leftover)

/-- `get_total_liquidity_locked_bps_at_n_seconds` (state/config.rs 1011-1030). -/
def PoolConfig.lockedBpsAt (c : PoolConfig) (n : Nat) : Res Nat := do
  let pv ← c.partnerVesting.lockedBpsAt n
  let cv ← c.creatorVesting.lockedBpsAt n
  let pp ← safeMul u16Max c.partnerPermLockedPct 100
  let cp ← safeMul u16Max c.creatorPermLockedPct 100
  let s ← safeAdd u16Max pv pp
  let s ← safeAdd u16Max s cv
  safeAdd u16Max s cp

/-- `SECONDS_PER_DAY` (`anchor_lang::solana_program::clock`, used at ix_create_config.rs 750). -/
def SECONDS_PER_DAY : Nat := 86400

/-! ## Splits -/

/-- `split_partner_and_creator_fee` (state/config.rs 979-998): (partner, creator). -/
def PoolConfig.splitPartnerCreator (c : PoolConfig) (fee : Nat) : Res (Nat × Nat) :=
  if c.creatorTradingFeePct = 0 then .ok (fee, 0)
  else do
    let cr ← safeMulDivCastU64 fee c.creatorTradingFeePct 100 .down
    let pa ← safeSub fee cr
    .ok (pa, cr)

/-- `split_pool_creation_fee` (state/config.rs 1000-1009): (protocol, partner). -/
def PoolConfig.splitCreationFee (c : PoolConfig) : Res (Nat × Nat) := do
  let pr ← safeMulDivCastU64 c.poolCreationFee PROTOCOL_POOL_CREATION_FEE_PERCENT 100 .down
  let pa ← safeSub c.poolCreationFee pr
  .ok (pr, pa)

/-- `get_migration_fee_distribution` (state/config.rs 825-839): (partner, creator). -/
def PoolConfig.migrationFeeDistribution (c : PoolConfig) : Res (Nat × Nat) := do
  let (_, fee) ← migrationQuoteAmount c.migrationQuoteThreshold c.migrationFeePct
  let cr ← safeMulDivCastU64 fee c.creatorMigrationFeePct 100 .down
  let pa ← safeSub fee cr
  .ok (pa, cr)

/-- `LiquidityDistributionItem` (state/config.rs 1217-1223). -/
structure LiqItem where
  unlocked : Nat
  permanent : Nat
  vested : Nat
  permPct : Nat
  vesting : LiqVesting
  deriving DecidableEq, Repr

/-- `get_total_liquidity` (state/config.rs 1226-1231). -/
def LiqItem.total (i : LiqItem) : Res Nat := do
  let s ← safeAdd u128Max i.unlocked i.permanent
  safeAdd u128Max s i.vested

/-- `get_liquidity_distribution` (state/config.rs 916-977): (partner, creator). -/
def PoolConfig.liquidityDistribution (c : PoolConfig) (liq : Nat) : Res (LiqItem × LiqItem) := do
  let pl ← safeMulDivCastU128 liq c.partnerPermLockedPct 100 .down
  let pv ← safeMulDivCastU128 liq c.partnerVesting.pct 100 .down
  let pu ← safeMulDivCastU128 liq c.partnerLiqPct 100 .down
  let cl ← safeMulDivCastU128 liq c.creatorPermLockedPct 100 .down
  let cv ← safeMulDivCastU128 liq c.creatorVesting.pct 100 .down
  let r ← safeSub liq pu
  let r ← safeSub r pl
  let r ← safeSub r pv
  let r ← safeSub r cl
  let cu ← safeSub r cv
  .ok (⟨pu, pl, pv, c.partnerPermLockedPct, c.partnerVesting⟩, ⟨cu, cl, cv, c.creatorPermLockedPct, c.creatorVesting⟩)

/-- `adjust_liquidity` (state/config.rs 1247-1279). -/
def LiqItem.adjust (i : LiqItem) (adjusted : Nat) : Res LiqItem := do
  let totalPct ← safeAdd u8Max i.vesting.pct i.permPct
  if totalPct = 0 then .ok { i with unlocked := adjusted, permanent := 0, vested := 0 }
  else do
    let unlocked := min adjusted i.unlocked
    let lock ← safeSub adjusted unlocked
    let vested ← safeMulDivCastU128 lock i.vesting.pct totalPct .down
    let perm ← safeSub lock vested
    .ok { i with unlocked := unlocked, permanent := perm, vested := vested }

/-! ## Token authority (state/config.rs 369-402) -/

/-- `get_update_authority` (state/config.rs 384-393) for the raw option byte. -/
def updateAuthority (opt creator partner : Nat) : Option (Option Nat) :=
  match opt with
  | 0 => some (some creator)
  | 1 => some none
  | 2 => some (some partner)
  | 3 => some (some creator)
  | 4 => some (some partner)
  | _ => none

/-- `get_mint_authority` (state/config.rs 395-401) for the raw option byte. -/
def mintAuthority (opt creator partner : Nat) : Option (Option Nat) :=
  match opt with
  | 0 => some none
  | 1 => some none
  | 2 => some none
  | 3 => some (some creator)
  | 4 => some (some partner)
  | _ => none

/-! ## create_config -/

/-- `MigrationFee::validate` (ix_create_config.rs 83-100). -/
def validateMigrationFee (pct creatorPct : Nat) : Res Unit := do
  let _ ← req (pct ≤ MAX_MIGRATION_FEE_PERCENTAGE) .invalidMigratorFeePercentage
  if pct = 0 then req (creatorPct = 0) .invalidMigratorFeePercentage
  else req (creatorPct ≤ 100) .invalidMigratorFeePercentage

/-- The loop of lines 520-526 of ix_create_config.rs: strictly increasing prices and positive liquidity. -/
def validateCurveTail : Nat → List Point → Res Unit
  | _, [] => .ok ()
  | prev, p :: ps => do
    let _ ← req (prev < p.price ∧ 0 < p.liq) .invalidCurve
    validateCurveTail p.price ps

/-- Lines 503-532 of ix_create_config.rs. -/
def validateCurve (start : Nat) (curve : List Point) : Res Unit := do
  let _ ← req (MIN_SQRT_PRICE ≤ start ∧ start < MAX_SQRT_PRICE) .invalidCurve
  let _ ← req (0 < curve.length ∧ curve.length ≤ MAX_CURVE_POINT) .invalidCurve
  match curve with
  | [] => .error .panic
  | p :: ps => do
    let _ ← req (start < p.price ∧ 0 < p.liq ∧ p.price ≤ MAX_SQRT_PRICE) .invalidCurve
    let _ ← validateCurveTail p.price ps
    req ((List.getLast (p :: ps) (by simp)).price ≤ MAX_SQRT_PRICE) .invalidCurve

/-- Lines 419-460 of ix_create_config.rs: checks that depend on the migration option. Option bytes 0/1
(state/config.rs 415-418), token types 0/1 (431-434), migration fee option 6 is `Customizable` (447-455). -/
def validateMigrationOption (p : ConfigParams) (env : ConfigEnv) : Res Unit :=
  if p.migrationOption = 0 then do
    let _ ← req (p.tokenType = 0) .invalidTokenType
    let _ ← req (env.quoteIsSpl = true) .invalidQuoteMint
    let _ ← req (p.migrationFeeOption ≠ 6 ∧ p.migratedFee.isNone) .invalidMigrationFeeOption
    let _ ← req p.partnerVesting.isZero .invalidVestingParameters
    req p.creatorVesting.isZero .invalidVestingParameters
  else do
    let _ ← (if p.migrationFeeOption = 6 then p.migratedFee.validate
      else req p.migratedFee.isNone .invalidMigratedPoolFee)
    let _ ← p.partnerVesting.validate env.now
    p.creatorVesting.validate env.now

/-- Lines 474-484 of ix_create_config.rs. -/
def validatePercentages (p : ConfigParams) : Res Unit := do
  let s ← safeAdd u8Max p.partnerLiqPct p.partnerPermLockedPct
  let s ← safeAdd u8Max s p.creatorLiqPct
  let s ← safeAdd u8Max s p.creatorPermLockedPct
  let s ← safeAdd u8Max s p.partnerVesting.pct
  let s ← safeAdd u8Max s p.creatorVesting.pct
  req (s = 100) .invalidFeePercentage

/-- `ConfigParameters::validate` (ix_create_config.rs 370-535). -/
def ConfigParams.validate (p : ConfigParams) (env : ConfigEnv) : Res Unit := do
  let _ ← req (env.quoteSupported = true) .invalidQuoteMint
  match ActivationType.tryFrom p.activationType with
  | none => .error .typeCastFailed
  | some act => do
    let _ ← poolFeesValidate p.fees p.collectFeeMode act
    let _ ← req (p.creatorTradingFeePct ≤ 100) .invalidCreatorTradingFeePercentage
    let _ ← validateMigrationFee p.migrationFeePct p.creatorMigrationFeePct
    let _ ← req ((CollectFeeMode.tryFrom p.collectFeeMode).isSome) .invalidCollectFeeMode
    let _ ← req (p.migrationOption ≤ 1) .invalidMigrationOption
    let _ ← req (p.migrationFeeOption ≤ 6) .invalidMigrationFeeOption
    let _ ← req (p.tokenType ≤ 1) .invalidTokenType
    let _ ← validateMigrationOption p env
    let _ ← req (p.tokenUpdateAuthority ≤ 4) .invalidTokenAuthorityOption
    let _ ← req (6 ≤ p.tokenDecimal ∧ p.tokenDecimal ≤ 9) .invalidTokenDecimals
    let _ ← validatePercentages p
    let _ ← req (0 < p.migrationQuoteThreshold) .invalidQuoteThreshold
    let _ ← p.lockedVesting.validate
    let _ ← (if 0 < p.poolCreationFee then
        req (MIN_POOL_CREATION_FEE ≤ p.poolCreationFee ∧ p.poolCreationFee ≤ MAX_POOL_CREATION_FEE)
          .invalidPoolCreationFee
      else .ok ())
    validateCurve p.sqrtStartPrice p.curve

/-- Lines 636-659 of ix_create_config.rs: extra validation for a compounding DAMM v2 pool. -/
def validateCompounding (p : ConfigParams) (migrationPrice base quote : Nat) : Res Unit :=
  if p.migrationOption = 1 ∧ p.migratedFee.collectFeeMode = 2 then do
    let (bf, qf) ← migrationProtocolFees .compounding migrationPrice base quote PROTOCOL_LIQUIDITY_MIGRATION_FEE_BPS
    let b ← safeSub base bf
    let q ← safeSub quote qf
    validateInitialPoolInformation b q migrationPrice
  else .ok ()

/-- Lines 661-698 of ix_create_config.rs: (flag, pre, post). The default public key is 0. -/
def resolveTokenSupply (p : ConfigParams) (env : ConfigEnv) (swapBase base : Nat) : Res (Nat × Nat × Nat) :=
  match p.tokenSupply with
  | some (pre, post) => do
    let buf ← swapAmountWithBuffer swapBase p.sqrtStartPrice p.curve
    let minWith ← totalTokenSupply buf base p.lockedVesting
    let minWithout ← totalTokenSupply swapBase base p.lockedVesting
    let _ ← req (env.leftoverReceiver ≠ 0) .invalidLeftoverAddress
    let _ ← req (minWithout ≤ post ∧ post ≤ pre ∧ minWith ≤ pre) .invalidTokenSupply
    .ok (1, pre, post)
  | none => .ok (0, 0, 0)

/-- `PoolConfig::init`'s curve copy into a zeroed array of 20 points (state/config.rs 792-794). -/
def padCurve (curve : List Point) : List Point :=
  curve ++ List.replicate (MAX_CURVE_POINT_CONFIG - curve.length) ⟨0, 0⟩

/-- `PoolConfig::init` (state/config.rs 696-797) as called at ix_create_config.rs 707-746. The market-cap scheduler
parameters are kept structured instead of serialised into 16 bytes. -/
def PoolConfig.init (p : ConfigParams) (env : ConfigEnv) (migrationPrice swapBase base : Nat)
    (flag pre post : Nat) : PoolConfig where
  quoteMint := env.quoteMint
  feeClaimer := env.feeClaimer
  leftoverReceiver := env.leftoverReceiver
  fees := p.fees
  partnerVesting := p.partnerVesting.toInfo
  creatorVesting := p.creatorVesting.toInfo
  collectFeeMode := p.collectFeeMode
  migrationOption := p.migrationOption
  activationType := p.activationType
  tokenDecimal := p.tokenDecimal
  tokenType := p.tokenType
  quoteTokenFlag := if env.quoteIsSpl then 0 else 1
  partnerPermLockedPct := p.partnerPermLockedPct
  partnerLiqPct := p.partnerLiqPct
  creatorPermLockedPct := p.creatorPermLockedPct
  creatorLiqPct := p.creatorLiqPct
  migrationFeeOption := p.migrationFeeOption
  fixedSupplyFlag := flag
  creatorTradingFeePct := p.creatorTradingFeePct
  tokenUpdateAuthority := p.tokenUpdateAuthority
  migrationFeePct := p.migrationFeePct
  creatorMigrationFeePct := p.creatorMigrationFeePct
  swapBaseAmount := swapBase
  migrationQuoteThreshold := p.migrationQuoteThreshold
  migrationBaseThreshold := base
  migrationSqrtPrice := migrationPrice
  lockedVesting := p.lockedVesting
  preMigrationSupply := pre
  postMigrationSupply := post
  migratedFee := p.migratedFee
  enableFirstSwapMinFee := if p.enableFirstSwapMinFee then 1 else 0
  poolCreationFee := p.poolCreationFee
  sqrtStartPrice := p.sqrtStartPrice
  curve := padCurve p.curve

/-- `handle_create_config` (ix_create_config.rs 562-791); events are not modelled. -/
def createConfig (p : ConfigParams) (env : ConfigEnv) : Res PoolConfig := do
  let _ ← p.validate env
  let price ← migrationThresholdPrice p.migrationQuoteThreshold p.sqrtStartPrice p.curve
  let _ ← req (price < MAX_SQRT_PRICE) .invalidCurve
  let swap256 ← baseTokenForSwap p.sqrtStartPrice price p.curve
  let swapBase ← castTo u64Max swap256
  let _ ← req (p.migratedFee.collectFeeMode ≤ 2) .typeCastFailed
  let (base, quote) ← migrationAmounts1 (migrationHandler p.migrationOption p.migratedFee.collectFeeMode) price
    p.migrationQuoteThreshold p.migrationFeePct
  let _ ← req (0 < base ∧ 0 < swapBase) .invalidCurve
  let _ ← validateCompounding p price base quote
  let (flag, pre, post) ← resolveTokenSupply p env swapBase base
  let bps ← (PoolConfig.init p env price swapBase base flag pre post).lockedBpsAt SECONDS_PER_DAY
  let _ ← req (MIN_LOCKED_LIQUIDITY_BPS ≤ bps) .invalidMigrationLockedLiquidity
  .ok (PoolConfig.init p env price swapBase base flag pre post)

/-- The parameters as decoded from the instruction data: every field is within its Rust integer type
(ix_create_config.rs 42-73, 225-258, 315-321, params/fee_parameters.rs 13-27, 85-94). -/
structure ConfigParams.Typed (p : ConfigParams) : Prop where
  cliff : p.fees.base.cliff ≤ u64Max
  first : p.fees.base.first ≤ u16Max
  second : p.fees.base.second ≤ u64Max
  third : p.fees.base.third ≤ u64Max
  dynInit : p.fees.dyn.initialized ≤ 1
  filter : p.fees.dyn.filterPeriod ≤ u16Max
  decay : p.fees.dyn.decayPeriod ≤ u16Max
  threshold : p.migrationQuoteThreshold ≤ u64Max
  start : p.sqrtStartPrice ≤ u128Max
  lvAmount : p.lockedVesting.amountPerPeriod ≤ u64Max
  lvCliff : p.lockedVesting.cliffDuration ≤ u64Max
  lvFreq : p.lockedVesting.frequency ≤ u64Max
  lvNum : p.lockedVesting.numberOfPeriod ≤ u64Max
  lvUnlock : p.lockedVesting.cliffUnlock ≤ u64Max
  supply : ∀ pre post, p.tokenSupply = some (pre, post) → pre ≤ u64Max ∧ post ≤ u64Max
  creationFee : p.poolCreationFee ≤ u64Max
  pvPct : p.partnerVesting.pct ≤ u8Max
  pvBps : p.partnerVesting.bpsPerPeriod ≤ u16Max
  pvNum : p.partnerVesting.numPeriods ≤ u16Max
  pvCliff : p.partnerVesting.cliffDuration ≤ u32Max
  pvFreq : p.partnerVesting.frequency ≤ u32Max
  cvPct : p.creatorVesting.pct ≤ u8Max
  cvBps : p.creatorVesting.bpsPerPeriod ≤ u16Max
  cvNum : p.creatorVesting.numPeriods ≤ u16Max
  cvCliff : p.creatorVesting.cliffDuration ≤ u32Max
  cvFreq : p.creatorVesting.frequency ≤ u32Max
  curve : ∀ q ∈ p.curve, q.price ≤ u128Max ∧ q.liq ≤ u128Max

end Dbc

import Verif.Model.Config

/-!
# The pool migrated to: which DAMM configurations are accepted, and what is asked of DAMM v2

Byte serialisation of the parameters is not modelled: the two base-fee layouts of DAMM v2 (`BorshFeeTimeScheduler`,
`BorshFeeMarketCapScheduler`, /repo/idls/damm_v2.json) both take the 27 bytes `BaseFeeParameters` holds. Paths are relative to
`/repo/programs/dynamic-bonding-curve/src`; `migration/` is `instructions/migration/`.
-/

namespace Dbc

/-- The pool authority's address (`const_pda::pool_authority::ID`, src/const_pda.rs); an arbitrary number here. -/
def POOL_AUTHORITY : Nat := 1000

/-- `to_bps` (params/fee_parameters.rs 177-182). -/
def toBps (num den : Nat) : Res Nat := do
  let m ← safeMul u128Max num MAX_BASIS_POINT
  let b ← safeDiv m den
  castTo u64Max b

/-- `MigrationFeeOption::validate_base_fee` (state/config.rs 457-483), for the raw option byte; options are 0-6
(447-455). -/
def validateBaseFee (opt bps : Nat) : Res Unit :=
  match opt with
  | 0 => req (bps = 25) .invalidMigrationFeeOption
  | 1 => req (bps = 30) .invalidMigrationFeeOption
  | 2 => req (bps = 100) .invalidMigrationFeeOption
  | 3 => req (bps = 200) .invalidMigrationFeeOption
  | 4 => req (bps = 400) .invalidMigrationFeeOption
  | 5 => req (bps = 600) .invalidMigrationFeeOption
  | 6 => .ok ()
  | _ => .error .invalidMigrationFeeOption

/-- What `validate_config_key` reads of a DAMM v1 `Config` account (/repo/idls/dynamic_amm.json). -/
structure DammV1Config where
  tradeFeeNumerator : Nat
  tradeFeeDenominator : Nat
  poolCreatorAuthority : Nat
  activationDuration : Nat
  partnerFeeNumerator : Nat
  vaultConfigKey : Nat
  deriving DecidableEq, Repr

/-- `validate_config_key` (migration/meteora_damm/migrate_meteora_damm_initialize_pool.rs 119-144). -/
def DammV1Config.validate (d : DammV1Config) (opt : Nat) : Res Unit := do
  let bps ← toBps d.tradeFeeNumerator d.tradeFeeDenominator
  let _ ← validateBaseFee opt bps
  let _ ← req (d.poolCreatorAuthority = POOL_AUTHORITY) .invalidConfigAccount
  let _ ← req (d.activationDuration = 0) .invalidConfigAccount
  let _ ← req (d.partnerFeeNumerator = 0) .invalidConfigAccount
  req (d.vaultConfigKey = 0) .invalidConfigAccount

/-- What `validate_config_key` reads of a DAMM v2 `Config` account (/repo/idls/damm_v2.json); the base fee is read as a
`PodAlignedFeeTimeScheduler`. -/
structure DammV2Config where
  baseFeeMode : Nat
  cliffFeeNumerator : Nat
  numberOfPeriod : Nat
  periodFrequency : Nat
  reductionFactor : Nat
  sqrtMinPrice : Nat
  sqrtMaxPrice : Nat
  vaultConfigKey : Nat
  poolCreatorAuthority : Nat
  activationType : Nat
  deriving DecidableEq, Repr

/-- The fixed-fee branch of `validate_config_key` (migration/dynamic_amm_v2/migrate_damm_v2_initialize_pool.rs 426-486).
DAMM v2's `FEE_DENOMINATOR` is 10^9 (/repo/idls/damm_v2.json), the same as this program's. Base fee modes are 0-4
(utils/damm_v2_utils.rs 155-179), activation types 0 slot and 1 timestamp. -/
def DammV2Config.validateFixed (d : DammV2Config) (opt : Nat) : Res Unit := do
  let _ ← req (d.baseFeeMode ≤ 4) .typeCastFailed
  let _ ← req (d.baseFeeMode = 0 ∨ d.baseFeeMode = 1) .invalidConfigAccount
  let bps ← toBps d.cliffFeeNumerator FEE_DENOMINATOR
  let _ ← req (d.periodFrequency = 0 ∧ d.reductionFactor = 0 ∧ d.numberOfPeriod = 0) .invalidConfigAccount
  let _ ← validateBaseFee opt bps
  let _ ← req (d.sqrtMinPrice = MIN_SQRT_PRICE) .invalidConfigAccount
  let _ ← req (d.sqrtMaxPrice = MAX_SQRT_PRICE) .invalidConfigAccount
  let _ ← req (d.vaultConfigKey = 0) .invalidConfigAccount
  let _ ← req (d.activationType ≤ 1) .typeCastFailed
  req (d.activationType = 1) .invalidConfigAccount

/-- `validate_config_key` (migration/dynamic_amm_v2/migrate_damm_v2_initialize_pool.rs 417-495) with the conversion of the
option byte (502-503). -/
def DammV2Config.validate (d : DammV2Config) (opt : Nat) : Res Unit := do
  let _ ← req (opt ≤ 6) .invalidMigrationFeeOption
  let _ ← (if opt = 6 then .ok () else d.validateFixed opt)
  req (d.poolCreatorAuthority = POOL_AUTHORITY) .invalidConfigAccount

/-! ## Fees of a customizable pool -/

/-- `BIN_STEP_BPS_DEFAULT` (src/constants.rs 16) -/
def DAMM_BIN_STEP : Nat := 1
/-- `BIN_STEP_BPS_U128_DEFAULT` (src/constants.rs 19) -/
def DAMM_BIN_STEP_U128 : Nat := 1844674407370955
/-- `FILTER_PERIOD_DEFAULT` (src/constants.rs 21) -/
def DAMM_FILTER_PERIOD : Nat := 10
/-- `DECAY_PERIOD_DEFAULT` (src/constants.rs 23) -/
def DAMM_DECAY_PERIOD : Nat := 120
/-- `REDUCTION_FACTOR_DEFAULT` (src/constants.rs 25) -/
def DAMM_REDUCTION_FACTOR : Nat := 5000
/-- `MAX_DYNAMIC_FEE_PERCENT` (src/constants.rs 27) -/
def DAMM_MAX_DYNAMIC_FEE_PERCENT : Nat := 20
/-- `MAX_VOLATILITY_ACCUMULATOR` (src/constants.rs 30) -/
def DAMM_MAX_VOLATILITY : Nat := 14460000
/-- `SQUARE_VFA_BIN` (src/constants.rs 33) -/
def SQUARE_VFA_BIN : Nat := 209091600000000

/-- DAMM v2 `DynamicFeeParameters` (/repo/idls/damm_v2.json). -/
structure DammDynamicFee where
  binStep : Nat
  binStepU128 : Nat
  filterPeriod : Nat
  decayPeriod : Nat
  reductionFactor : Nat
  maxVolatility : Nat
  variableFeeControl : Nat
  deriving DecidableEq, Repr

/-- `calculate_dynamic_fee_params` (utils/damm_v2_utils.rs 30-51). -/
def dynamicFeeParams (baseFee : Nat) : Res DammDynamicFee := do
  let m ← safeMul u128Max baseFee DAMM_MAX_DYNAMIC_FEE_PERCENT
  let mx ← safeDiv m 100
  let v ← safeMul u128Max mx 100000000000
  let v ← safeSub v 99999999999
  let vfc ← safeDiv v SQUARE_VFA_BIN
  let vfc ← castTo u32Max vfc
  .ok ⟨DAMM_BIN_STEP, DAMM_BIN_STEP_U128, DAMM_FILTER_PERIOD, DAMM_DECAY_PERIOD, DAMM_REDUCTION_FACTOR,
    DAMM_MAX_VOLATILITY, vfc⟩

/-- The base fee sent to DAMM v2: a time scheduler without periods, or a market-cap scheduler
(`BorshFeeTimeScheduler`, `BorshFeeMarketCapScheduler`, /repo/idls/damm_v2.json). `mode` is the mode byte. -/
inductive DammBaseFee
  | time (mode cliff numberOfPeriod periodFrequency reduction : Nat)
  | marketCap (mode cliff numberOfPeriod sqrtPriceStepBps expiration reduction : Nat)
  deriving DecidableEq, Repr

/-- `build_damm_v2_base_fee_params` (state/config.rs 1054-1109). -/
def MigratedFee.buildBase (m : MigratedFee) : Res DammBaseFee := do
  let cliff ← toNumerator m.poolFeeBps
  match m.baseFeeMode with
  | 0 => .ok (.time m.baseFeeMode cliff 0 0 0)
  | 1 => .ok (.time m.baseFeeMode cliff 0 0 0)
  | 2 => .error .undeterminedError
  | 3 => .ok (.marketCap m.baseFeeMode cliff m.numberOfPeriod m.sqrtPriceStepBps m.expiration m.reduction)
  | 4 => .ok (.marketCap m.baseFeeMode cliff m.numberOfPeriod m.sqrtPriceStepBps m.expiration m.reduction)
  | _ => .error .typeCastFailed

/-- `get_damm_v2_migrated_pool_min_base_fee_numerator` (state/config.rs 1111-1162). -/
def MigratedFee.minBaseFee (m : MigratedFee) : Res Nat :=
  match m.baseFeeMode with
  | 0 => toNumerator m.poolFeeBps
  | 1 => toNumerator m.poolFeeBps
  | 2 => .error .undeterminedError
  | 3 => do
    let c ← toNumerator m.poolFeeBps
    m.marketCapMinFee c
  | 4 => do
    let c ← toNumerator m.poolFeeBps
    m.marketCapMinFee c
  | _ => .error .typeCastFailed

/-- `build_damm_v2_dynamic_fee_params` (state/config.rs 1032-1052): a failing computation falls back to no dynamic fee. -/
def MigratedFee.buildDynamic (m : MigratedFee) : Res (Option DammDynamicFee) := do
  let mn ← m.minBaseFee
  match m.dynamicFee with
  | 0 => .ok none
  | 1 => (match dynamicFeeParams mn with
    | .ok p => .ok (some p)
    | .error _ => .ok none)
  | _ => .error .typeCastFailed

/-- DAMM v2 `PoolFeeParameters` (/repo/idls/damm_v2.json). -/
structure DammFees where
  base : DammBaseFee
  compoundingBps : Nat
  dynamic : Option DammDynamicFee
  deriving DecidableEq, Repr

/-- `build_damm_v2_pool_fee_params` (state/config.rs 1164-1177). -/
def MigratedFee.buildFees (m : MigratedFee) : Res DammFees := do
  let b ← m.buildBase
  let d ← m.buildDynamic
  .ok ⟨b, m.compoundingBps, d⟩

/-- `to_dammv2_collect_fee_mode` (migration_handler/mod.rs 37-48), for the raw byte. -/
def dammCollectFeeMode (mode : Nat) : Res Nat :=
  match mode with
  | 0 => .ok 1
  | 1 => .ok 0
  | 2 => .ok 2
  | _ => .error .typeCastFailed

/-- What the migration asks DAMM to create: a DAMM v1 pool with these amounts, a DAMM v2 pool on a fixed-fee configuration,
or a DAMM v2 pool with its own fees. [the arguments passed at migrate_damm_v2_initialize_pool.rs 131-247 and migrate_meteora_damm_initialize_pool.rs 154-208] -/
inductive NewPool
  | v1 (config : DammV1Config) (base quote : Nat)
  | fixed (config : DammV2Config) (sqrtPrice liquidity : Nat)
  | custom (fees : DammFees) (collectFeeMode activationType sqrtMin sqrtMax sqrtPrice liquidity : Nat)
  deriving DecidableEq, Repr

/-- `create_pool` (migration/dynamic_amm_v2/migrate_damm_v2_initialize_pool.rs 131-247), up to the external call. -/
def createPoolV2 (opt : Nat) (m : MigratedFee) (d : DammV2Config) (liquidity sqrtPrice : Nat) : Res NewPool :=
  if opt = 6 then do
    let fees ← m.buildFees
    let mode ← dammCollectFeeMode m.collectFeeMode
    .ok (.custom fees mode 1 MIN_SQRT_PRICE MAX_SQRT_PRICE sqrtPrice liquidity)
  else .ok (.fixed d sqrtPrice liquidity)

end Dbc

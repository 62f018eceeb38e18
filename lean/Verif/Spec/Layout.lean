import Verif.Model.Layout

/-!
# Reading an account's bytes

What an explorer, an indexer or an SDK does: take so many bytes from a published offset (discriminator included) and read
them as a little-endian number.
-/

namespace Spec
open Dbc

/-- The number whose bytes these are, least significant first. -/
def littleEndian : List Nat → Nat
  | [] => 0
  | x :: xs => x + 256 * littleEndian xs

/-- The number held in the `n` bytes from offset `off`. -/
def numberAt (b : List Nat) (off n : Nat) : Nat := littleEndian ((b.drop off).take n)

/-- A pool account read at its published offsets. -/
def readPool (b : List Nat) : PoolKeys × Pool :=
  (⟨numberAt b 72 32, numberAt b 136 32, numberAt b 168 32, numberAt b 200 32⟩,
  { vol := ⟨numberAt b 8 8, numberAt b 24 16, numberAt b 40 16, numberAt b 56 16⟩
    creator := numberAt b 104 32
    baseReserve := numberAt b 232 8
    quoteReserve := numberAt b 240 8
    protocolBaseFee := numberAt b 248 8
    protocolQuoteFee := numberAt b 256 8
    partnerBaseFee := numberAt b 264 8
    partnerQuoteFee := numberAt b 272 8
    sqrtPrice := numberAt b 280 16
    activationPoint := numberAt b 296 8
    poolType := numberAt b 304 1
    isMigrated := numberAt b 305 1
    partnerSurplus := numberAt b 306 1
    protocolSurplus := numberAt b 307 1
    migrationProgress := numberAt b 308 1
    isWithdrawLeftover := numberAt b 309 1
    creatorSurplus := numberAt b 310 1
    migrationFeeStatus := numberAt b 311 1
    metrics := ⟨numberAt b 312 8, numberAt b 320 8, numberAt b 328 8, numberAt b 336 8⟩
    finishTimestamp := numberAt b 344 8
    creatorBaseFee := numberAt b 352 8
    creatorQuoteFee := numberAt b 360 8
    legacyCreationBits := numberAt b 368 1
    creationBits := numberAt b 369 1
    hasSwap := numberAt b 370 1
    migrationFeeBps := numberAt b 376 2
    protocolMigBaseFee := numberAt b 384 8
    protocolMigQuoteFee := numberAt b 392 8 })

/-- A configuration account read at its published offsets. The twenty curve slots start at byte 408. -/
def readConfig (b : List Nat) : PoolConfig :=
  { quoteMint := numberAt b 8 32
    feeClaimer := numberAt b 40 32
    leftoverReceiver := numberAt b 72 32
    fees :=
      { base := ⟨numberAt b 104 8, numberAt b 128 2, numberAt b 112 8, numberAt b 120 8, numberAt b 130 1⟩
        dyn := ⟨numberAt b 136 1, numberAt b 144 4, numberAt b 148 4, numberAt b 152 2, numberAt b 154 2,
            numberAt b 156 2, numberAt b 158 2, numberAt b 168 16⟩ }
    partnerVesting := ⟨numberAt b 184 1, numberAt b 185 1, numberAt b 188 2, numberAt b 190 2, numberAt b 192 4,
        numberAt b 196 4⟩
    creatorVesting := ⟨numberAt b 200 1, numberAt b 201 1, numberAt b 204 2, numberAt b 206 2, numberAt b 208 4,
        numberAt b 212 4⟩
    collectFeeMode := numberAt b 232 1
    migrationOption := numberAt b 233 1
    activationType := numberAt b 234 1
    tokenDecimal := numberAt b 235 1
    tokenType := numberAt b 237 1
    quoteTokenFlag := numberAt b 238 1
    partnerPermLockedPct := numberAt b 239 1
    partnerLiqPct := numberAt b 240 1
    creatorPermLockedPct := numberAt b 241 1
    creatorLiqPct := numberAt b 242 1
    migrationFeeOption := numberAt b 243 1
    fixedSupplyFlag := numberAt b 244 1
    creatorTradingFeePct := numberAt b 245 1
    tokenUpdateAuthority := numberAt b 246 1
    migrationFeePct := numberAt b 247 1
    creatorMigrationFeePct := numberAt b 248 1
    swapBaseAmount := numberAt b 256 8
    migrationQuoteThreshold := numberAt b 264 8
    migrationBaseThreshold := numberAt b 272 8
    migrationSqrtPrice := numberAt b 280 16
    lockedVesting := ⟨numberAt b 296 8, numberAt b 304 8, numberAt b 312 8, numberAt b 320 8, numberAt b 328 8⟩
    preMigrationSupply := numberAt b 344 8
    postMigrationSupply := numberAt b 352 8
    migratedFee := ⟨numberAt b 360 1, numberAt b 361 1, numberAt b 362 2, numberAt b 366 2, numberAt b 364 1,
        numberAt b 376 2, numberAt b 378 2, numberAt b 380 4, numberAt b 384 8⟩
    enableFirstSwapMinFee := numberAt b 365 1
    poolCreationFee := numberAt b 368 8
    sqrtStartPrice := numberAt b 392 16
    curve := (List.range 20).map fun i => ⟨numberAt b (408 + 32 * i) 16, numberAt b (424 + 32 * i) 16⟩ }

/-- Every number of a pool is within the type it is stored in. Addresses are apart. -/
structure PoolFits (p : Pool) : Prop where
  volLastUpdate : p.vol.lastUpdate < 2 ^ 64
  volPriceRef : p.vol.priceRef < 2 ^ 128
  volVolAcc : p.vol.volAcc < 2 ^ 128
  volVolRef : p.vol.volRef < 2 ^ 128
  baseReserve : p.baseReserve < 2 ^ 64
  quoteReserve : p.quoteReserve < 2 ^ 64
  protocolBaseFee : p.protocolBaseFee < 2 ^ 64
  protocolQuoteFee : p.protocolQuoteFee < 2 ^ 64
  partnerBaseFee : p.partnerBaseFee < 2 ^ 64
  partnerQuoteFee : p.partnerQuoteFee < 2 ^ 64
  sqrtPrice : p.sqrtPrice < 2 ^ 128
  activationPoint : p.activationPoint < 2 ^ 64
  poolType : p.poolType < 2 ^ 8
  isMigrated : p.isMigrated < 2 ^ 8
  partnerSurplus : p.partnerSurplus < 2 ^ 8
  protocolSurplus : p.protocolSurplus < 2 ^ 8
  migrationProgress : p.migrationProgress < 2 ^ 8
  isWithdrawLeftover : p.isWithdrawLeftover < 2 ^ 8
  creatorSurplus : p.creatorSurplus < 2 ^ 8
  migrationFeeStatus : p.migrationFeeStatus < 2 ^ 8
  metricsProtocolBase : p.metrics.protocolBase < 2 ^ 64
  metricsProtocolQuote : p.metrics.protocolQuote < 2 ^ 64
  metricsTradingBase : p.metrics.tradingBase < 2 ^ 64
  metricsTradingQuote : p.metrics.tradingQuote < 2 ^ 64
  finishTimestamp : p.finishTimestamp < 2 ^ 64
  creatorBaseFee : p.creatorBaseFee < 2 ^ 64
  creatorQuoteFee : p.creatorQuoteFee < 2 ^ 64
  legacyCreationBits : p.legacyCreationBits < 2 ^ 8
  creationBits : p.creationBits < 2 ^ 8
  hasSwap : p.hasSwap < 2 ^ 8
  migrationFeeBps : p.migrationFeeBps < 2 ^ 16
  protocolMigBaseFee : p.protocolMigBaseFee < 2 ^ 64
  protocolMigQuoteFee : p.protocolMigQuoteFee < 2 ^ 64

/-- Every number of a configuration is within the type it is stored in. Addresses are apart. -/
structure ConfigFits (c : PoolConfig) : Prop where
  feesBaseCliff : c.fees.base.cliff < 2 ^ 64
  feesBaseSecond : c.fees.base.second < 2 ^ 64
  feesBaseThird : c.fees.base.third < 2 ^ 64
  feesBaseFirst : c.fees.base.first < 2 ^ 16
  feesBaseMode : c.fees.base.mode < 2 ^ 8
  feesDynInitialized : c.fees.dyn.initialized < 2 ^ 8
  feesDynMaxVolAcc : c.fees.dyn.maxVolAcc < 2 ^ 32
  feesDynVfc : c.fees.dyn.vfc < 2 ^ 32
  feesDynBinStep : c.fees.dyn.binStep < 2 ^ 16
  feesDynFilterPeriod : c.fees.dyn.filterPeriod < 2 ^ 16
  feesDynDecayPeriod : c.fees.dyn.decayPeriod < 2 ^ 16
  feesDynReductionFactor : c.fees.dyn.reductionFactor < 2 ^ 16
  feesDynBinStepU128 : c.fees.dyn.binStepU128 < 2 ^ 128
  partnerVestingIsInit : c.partnerVesting.isInit < 2 ^ 8
  partnerVestingPct : c.partnerVesting.pct < 2 ^ 8
  partnerVestingBpsPerPeriod : c.partnerVesting.bpsPerPeriod < 2 ^ 16
  partnerVestingNumPeriods : c.partnerVesting.numPeriods < 2 ^ 16
  partnerVestingFrequency : c.partnerVesting.frequency < 2 ^ 32
  partnerVestingCliffDuration : c.partnerVesting.cliffDuration < 2 ^ 32
  creatorVestingIsInit : c.creatorVesting.isInit < 2 ^ 8
  creatorVestingPct : c.creatorVesting.pct < 2 ^ 8
  creatorVestingBpsPerPeriod : c.creatorVesting.bpsPerPeriod < 2 ^ 16
  creatorVestingNumPeriods : c.creatorVesting.numPeriods < 2 ^ 16
  creatorVestingFrequency : c.creatorVesting.frequency < 2 ^ 32
  creatorVestingCliffDuration : c.creatorVesting.cliffDuration < 2 ^ 32
  collectFeeMode : c.collectFeeMode < 2 ^ 8
  migrationOption : c.migrationOption < 2 ^ 8
  activationType : c.activationType < 2 ^ 8
  tokenDecimal : c.tokenDecimal < 2 ^ 8
  tokenType : c.tokenType < 2 ^ 8
  quoteTokenFlag : c.quoteTokenFlag < 2 ^ 8
  partnerPermLockedPct : c.partnerPermLockedPct < 2 ^ 8
  partnerLiqPct : c.partnerLiqPct < 2 ^ 8
  creatorPermLockedPct : c.creatorPermLockedPct < 2 ^ 8
  creatorLiqPct : c.creatorLiqPct < 2 ^ 8
  migrationFeeOption : c.migrationFeeOption < 2 ^ 8
  fixedSupplyFlag : c.fixedSupplyFlag < 2 ^ 8
  creatorTradingFeePct : c.creatorTradingFeePct < 2 ^ 8
  tokenUpdateAuthority : c.tokenUpdateAuthority < 2 ^ 8
  migrationFeePct : c.migrationFeePct < 2 ^ 8
  creatorMigrationFeePct : c.creatorMigrationFeePct < 2 ^ 8
  swapBaseAmount : c.swapBaseAmount < 2 ^ 64
  migrationQuoteThreshold : c.migrationQuoteThreshold < 2 ^ 64
  migrationBaseThreshold : c.migrationBaseThreshold < 2 ^ 64
  migrationSqrtPrice : c.migrationSqrtPrice < 2 ^ 128
  lockedVestingAmountPerPeriod : c.lockedVesting.amountPerPeriod < 2 ^ 64
  lockedVestingCliffDuration : c.lockedVesting.cliffDuration < 2 ^ 64
  lockedVestingFrequency : c.lockedVesting.frequency < 2 ^ 64
  lockedVestingNumberOfPeriod : c.lockedVesting.numberOfPeriod < 2 ^ 64
  lockedVestingCliffUnlock : c.lockedVesting.cliffUnlock < 2 ^ 64
  preMigrationSupply : c.preMigrationSupply < 2 ^ 64
  postMigrationSupply : c.postMigrationSupply < 2 ^ 64
  migratedFeeCollectFeeMode : c.migratedFee.collectFeeMode < 2 ^ 8
  migratedFeeDynamicFee : c.migratedFee.dynamicFee < 2 ^ 8
  migratedFeePoolFeeBps : c.migratedFee.poolFeeBps < 2 ^ 16
  migratedFeeBaseFeeMode : c.migratedFee.baseFeeMode < 2 ^ 8
  enableFirstSwapMinFee : c.enableFirstSwapMinFee < 2 ^ 8
  migratedFeeCompoundingBps : c.migratedFee.compoundingBps < 2 ^ 16
  poolCreationFee : c.poolCreationFee < 2 ^ 64
  migratedFeeNumberOfPeriod : c.migratedFee.numberOfPeriod < 2 ^ 16
  migratedFeeSqrtPriceStepBps : c.migratedFee.sqrtPriceStepBps < 2 ^ 16
  migratedFeeExpiration : c.migratedFee.expiration < 2 ^ 32
  migratedFeeReduction : c.migratedFee.reduction < 2 ^ 64
  sqrtStartPrice : c.sqrtStartPrice < 2 ^ 128
  curve : c.curve.length = 20 ∧ ∀ q ∈ c.curve, q.price < 2 ^ 128 ∧ q.liq < 2 ^ 128

/-- The addresses in a pool account are 32 bytes. -/
structure PoolKeysFit (k : PoolKeys) (p : Pool) : Prop where
  config : k.config < 2 ^ 256
  baseMint : k.baseMint < 2 ^ 256
  baseVault : k.baseVault < 2 ^ 256
  quoteVault : k.quoteVault < 2 ^ 256
  creator : p.creator < 2 ^ 256

/-- The addresses in a configuration account are 32 bytes. -/
structure ConfigKeysFit (c : PoolConfig) : Prop where
  quoteMint : c.quoteMint < 2 ^ 256
  feeClaimer : c.feeClaimer < 2 ^ 256
  leftoverReceiver : c.leftoverReceiver < 2 ^ 256

/-- The numbers of an instruction to create a configuration that `ConfigParams.Typed` leaves open are also within their
types (ix_create_config.rs 42-73, 225-238, params/fee_parameters.rs 13-27, 85-94). -/
structure Decoded (p : ConfigParams) : Prop where
  mode : p.fees.base.mode < 2 ^ 8
  maxVolAcc : p.fees.dyn.maxVolAcc < 2 ^ 32
  vfc : p.fees.dyn.vfc < 2 ^ 32
  binStep : p.fees.dyn.binStep < 2 ^ 16
  reduction : p.fees.dyn.reductionFactor < 2 ^ 16
  binStepU128 : p.fees.dyn.binStepU128 < 2 ^ 128
  collect : p.migratedFee.collectFeeMode < 2 ^ 8
  dynamic : p.migratedFee.dynamicFee < 2 ^ 8
  feeBps : p.migratedFee.poolFeeBps < 2 ^ 16
  compounding : p.migratedFee.compoundingBps < 2 ^ 16
  feeMode : p.migratedFee.baseFeeMode < 2 ^ 8
  periods : p.migratedFee.numberOfPeriod < 2 ^ 16
  step : p.migratedFee.sqrtPriceStepBps < 2 ^ 16
  expiration : p.migratedFee.expiration < 2 ^ 32
  migReduction : p.migratedFee.reduction < 2 ^ 64

/-- The chain's clock is within its 64-bit types. -/
def ClockFits (clk : Clock) : Prop := clk.time < 2 ^ 64 ∧ clk.slot < 2 ^ 64

/-- Every swap of a history saw a clock within its types. Only swaps read the clock into the pool. -/
def Timely (ops : List Op) : Prop := ∀ a, Op.swap a ∈ ops → ClockFits a.clk

end Spec

import Verif.Model.World

/-!
# How the two main accounts are stored

`VirtualPool` and `PoolConfig` are zero-copy accounts: an eight-byte discriminator followed by the fields of a `repr(C)`
struct in order, every number little endian, no gaps besides the declared padding (the sizes asserted at
state/virtual_pool.rs 163, 183, state/fee.rs 34 and state/config.rs 68, 238, 300, 343, 576, 590 leave none). Storing keeps
the low bytes of a number, as a fixed-width integer does.
-/

namespace Dbc

/-- A number in `n` bytes, least significant first (how a zero-copy account holds an integer on the chain's little-endian
machine; state/virtual_pool.rs 90, state/config.rs 486). -/
def fieldBytes : Nat → Nat → List Nat
  | 0, _ => []
  | n + 1, v => v % 256 :: fieldBytes n (v / 256)

/-- Fields one after the other; a field is its width in bytes and its value (`repr(C)` of state/virtual_pool.rs 92-161 and
state/config.rs 488-574). -/
def pack : List (Nat × Nat) → List Nat
  | [] => []
  | f :: fs => fieldBytes f.1 f.2 ++ pack fs

/-- The addresses a pool account records besides its creator (state/virtual_pool.rs 95-104). -/
structure PoolKeys where
  config : Nat
  baseMint : Nat
  baseVault : Nat
  quoteVault : Nat
  deriving DecidableEq, Repr

/-- The stored form of `VolatilityTracker` (state/fee.rs 26-32). -/
def VolTracker.fields (v : VolTracker) : List (Nat × Nat) :=
  [(8, v.lastUpdate), (8, 0), (16, v.priceRef), (16, v.volAcc), (16, v.volRef)]

/-- The stored form of `VirtualPool` (state/virtual_pool.rs 92-161), behind the discriminator `disc`. -/
def Pool.fields (disc : Nat) (k : PoolKeys) (p : Pool) : List (Nat × Nat) :=
  [(8, disc)] ++ p.vol.fields ++
  [(32, k.config), (32, p.creator), (32, k.baseMint), (32, k.baseVault), (32, k.quoteVault),
   (8, p.baseReserve), (8, p.quoteReserve), (8, p.protocolBaseFee), (8, p.protocolQuoteFee), (8, p.partnerBaseFee),
   (8, p.partnerQuoteFee), (16, p.sqrtPrice), (8, p.activationPoint), (1, p.poolType), (1, p.isMigrated),
   (1, p.partnerSurplus), (1, p.protocolSurplus), (1, p.migrationProgress), (1, p.isWithdrawLeftover),
   (1, p.creatorSurplus), (1, p.migrationFeeStatus), (8, p.metrics.protocolBase), (8, p.metrics.protocolQuote),
   (8, p.metrics.tradingBase), (8, p.metrics.tradingQuote), (8, p.finishTimestamp), (8, p.creatorBaseFee),
   (8, p.creatorQuoteFee), (1, p.legacyCreationBits), (1, p.creationBits), (1, p.hasSwap), (5, 0),
   (2, p.migrationFeeBps), (6, 0), (8, p.protocolMigBaseFee), (8, p.protocolMigQuoteFee), (24, 0)]

/-- The bytes of a pool account (state/virtual_pool.rs 90-161). -/
def Pool.bytes (disc : Nat) (k : PoolKeys) (p : Pool) : List Nat := pack (p.fields disc k)

/-- The stored form of `LiquidityVestingInfo` (state/config.rs 580-588). -/
def LiqVesting.fields (v : LiqVesting) : List (Nat × Nat) :=
  [(1, v.isInit), (1, v.pct), (2, 0), (2, v.bpsPerPeriod), (2, v.numPeriods), (4, v.frequency), (4, v.cliffDuration)]

/-- The stored form of `PoolFeesConfig` (state/config.rs 63-66, 227-236, 287-298). -/
def PoolFeesConfig.fields (f : PoolFeesConfig) : List (Nat × Nat) :=
  [(8, f.base.cliff), (8, f.base.second), (8, f.base.third), (2, f.base.first), (1, f.base.mode), (5, 0),
   (1, f.dyn.initialized), (7, 0), (4, f.dyn.maxVolAcc), (4, f.dyn.vfc), (2, f.dyn.binStep), (2, f.dyn.filterPeriod),
   (2, f.dyn.decayPeriod), (2, f.dyn.reductionFactor), (8, 0), (16, f.dyn.binStepU128)]

/-- The stored form of the curve array (state/config.rs 573, 681-685). -/
def curveFields : List Point → List (Nat × Nat)
  | [] => []
  | p :: ps => (16, p.price) :: (16, p.liq) :: curveFields ps

/-- The stored form of `PoolConfig` before the curve (state/config.rs 488-570). The market-cap scheduler settings are
serialised field by field into 16 bytes (state/config.rs 782-788, ix_create_config.rs 225-238); `version` is 0 (state/config.rs
737). -/
def PoolConfig.head (disc : Nat) (c : PoolConfig) : List (Nat × Nat) :=
  [(8, disc), (32, c.quoteMint), (32, c.feeClaimer), (32, c.leftoverReceiver)] ++ c.fees.fields ++
  c.partnerVesting.fields ++ c.creatorVesting.fields ++
  [(14, 0), (2, 0), (1, c.collectFeeMode), (1, c.migrationOption), (1, c.activationType), (1, c.tokenDecimal), (1, 0),
   (1, c.tokenType), (1, c.quoteTokenFlag), (1, c.partnerPermLockedPct), (1, c.partnerLiqPct),
   (1, c.creatorPermLockedPct), (1, c.creatorLiqPct), (1, c.migrationFeeOption), (1, c.fixedSupplyFlag),
   (1, c.creatorTradingFeePct), (1, c.tokenUpdateAuthority), (1, c.migrationFeePct), (1, c.creatorMigrationFeePct),
   (7, 0), (8, c.swapBaseAmount), (8, c.migrationQuoteThreshold), (8, c.migrationBaseThreshold),
   (16, c.migrationSqrtPrice), (8, c.lockedVesting.amountPerPeriod), (8, c.lockedVesting.cliffDuration),
   (8, c.lockedVesting.frequency), (8, c.lockedVesting.numberOfPeriod), (8, c.lockedVesting.cliffUnlock), (8, 0),
   (8, c.preMigrationSupply), (8, c.postMigrationSupply), (1, c.migratedFee.collectFeeMode),
   (1, c.migratedFee.dynamicFee), (2, c.migratedFee.poolFeeBps), (1, c.migratedFee.baseFeeMode),
   (1, c.enableFirstSwapMinFee), (2, c.migratedFee.compoundingBps), (8, c.poolCreationFee),
   (2, c.migratedFee.numberOfPeriod), (2, c.migratedFee.sqrtPriceStepBps), (4, c.migratedFee.expiration),
   (8, c.migratedFee.reduction), (16, c.sqrtStartPrice)]

/-- The bytes of a configuration account (state/config.rs 486-574). -/
def PoolConfig.bytes (disc : Nat) (c : PoolConfig) : List Nat := pack (c.head disc ++ curveFields c.curve)

end Dbc

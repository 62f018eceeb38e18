import Verif.Props.Examples

/-!
# Two pools from mainnet

The repository's SDK tests ship the configuration and pool accounts of two pools as they were on mainnet, written by earlier
releases of the program (`/repo/dynamic-bonding-curve-sdk/fixtures/fee_in_quote_{config,pool}.bin` and
`fee_in_both_{config,pool}.bin`). The values below are the stored ones; public keys are replaced by small numbers. Balances are
not part of the fixtures: the vaults are given exactly what the books require.
-/

namespace Ex
open Dbc

def mainnetConfigQ : PoolConfig where
  quoteMint := 7
  feeClaimer := 11
  leftoverReceiver := 12
  fees := ⟨⟨10000000, 0, 0, 0, 0⟩, ⟨0, 0, 0, 0, 0, 0, 0, 0⟩⟩
  partnerVesting := ⟨0, 0, 0, 0, 0, 0⟩
  creatorVesting := ⟨0, 0, 0, 0, 0, 0⟩
  collectFeeMode := 0
  migrationOption := 1
  activationType := 0
  tokenDecimal := 6
  tokenType := 1
  quoteTokenFlag := 0
  partnerPermLockedPct := 0
  partnerLiqPct := 100
  creatorPermLockedPct := 0
  creatorLiqPct := 0
  migrationFeeOption := 1
  fixedSupplyFlag := 1
  creatorTradingFeePct := 5
  tokenUpdateAuthority := 1
  migrationFeePct := 0
  creatorMigrationFeePct := 0
  swapBaseAmount := 809999989183482
  migrationQuoteThreshold := 87945796097
  migrationBaseThreshold := 190000002054552
  migrationSqrtPrice := 396872004136210017
  lockedVesting := ⟨0, 0, 0, 0, 0⟩
  preMigrationSupply := 1000000000000000
  postMigrationSupply := 1000000000000000
  migratedFee := ⟨0, 0, 0, 0, 0, 0, 0, 0, 0⟩
  enableFirstSwapMinFee := 0
  poolCreationFee := 0
  sqrtStartPrice := 93093434311777005
  curve := [⟨396872004136210017, 98513873687433501010784206652497⟩,
    ⟨79226673521066979257578248091, 3477379006610750852725436⟩] ++ List.replicate 18 ⟨0, 0⟩

def mainnetPoolQ : Pool where
  vol := ⟨0, 0, 0, 0⟩
  creator := 21
  baseReserve := 781359557863101
  quoteReserve := 7018473489
  protocolBaseFee := 0
  protocolQuoteFee := 1555532073
  partnerBaseFee := 0
  partnerQuoteFee := 204761889
  sqrtPrice := 117336341276038830
  activationPoint := 348731727
  poolType := 1
  isMigrated := 0
  partnerSurplus := 0
  protocolSurplus := 0
  migrationProgress := 0
  isWithdrawLeftover := 0
  creatorSurplus := 0
  migrationFeeStatus := 0
  metrics := ⟨0, 1555532073, 0, 7634913231⟩
  finishTimestamp := 0
  creatorBaseFee := 0
  creatorQuoteFee := 381745273
  legacyCreationBits := 0
  creationBits := 0
  hasSwap := 0
  migrationFeeBps := 0
  protocolMigBaseFee := 0
  protocolMigQuoteFee := 0

def mainnetConfigBoth : PoolConfig := { mainnetConfigQ with
  fees := ⟨⟨20000000, 0, 0, 0, 0⟩, ⟨0, 0, 0, 0, 0, 0, 0, 0⟩⟩
  collectFeeMode := 1
  activationType := 1
  tokenType := 0
  partnerPermLockedPct := 100
  partnerLiqPct := 0
  migrationFeeOption := 3
  creatorTradingFeePct := 0
  swapBaseAmount := 799999989592506
  migrationQuoteThreshold := 100000000000
  migrationBaseThreshold := 200000002081499
  migrationSqrtPrice := 412481737123559485
  sqrtStartPrice := 103120435622421629
  curve := [⟨412481737123559485, 109995130376604934626148314671099⟩,
    ⟨79226673521066979257578248091, 3434320880899950928465656⟩] ++ List.replicate 18 ⟨0, 0⟩ }

def mainnetPoolBoth : Pool := { mainnetPoolQ with
  baseReserve := 722427194010288
  quoteReserve := 11725382491
  protocolBaseFee := 11533551915842
  protocolQuoteFee := 1367436862
  partnerBaseFee := 46134207664366
  partnerQuoteFee := 6506421206
  sqrtPrice := 139394230708914577
  activationPoint := 1752686876
  poolType := 0
  metrics := ⟨11533551915842, 1367436862, 46134207664366, 6506421206⟩
  creatorQuoteFee := 0 }

/-- A pool with balances that cover its books exactly and the whole fixed supply in existence. -/
def mainnet (c : PoolConfig) (p : Pool) : World where
  key := 50
  cfg := c
  pool := p
  baseVault := p.baseReserve + p.partnerBaseFee + p.creatorBaseFee + p.protocolBaseFee
  quoteVault := p.quoteReserve + p.partnerQuoteFee + p.creatorQuoteFee + p.protocolQuoteFee
  lamports := 0
  supply := c.preMigrationSupply
  mintAuth := none
  updateAuth := none
  dammMeta := none
  lpVault := 0
  lpMinted := 0
  lpLog := []
  positions := []
  newPool := none
  escrow := none
  operators := [⟨31, 3⟩]
  admins := [40]
  led := {}

def mainnetQ : World := mainnet mainnetConfigQ mainnetPoolQ
def mainnetBoth : World := mainnet mainnetConfigBoth mainnetPoolBoth

/-- The parameters that reproduce the second configuration with today's `create_config`. -/
def mainnetParamsBoth : ConfigParams where
  fees := ⟨⟨20000000, 0, 0, 0, 0⟩, ⟨0, 0, 0, 0, 0, 0, 0, 0⟩⟩
  collectFeeMode := 1
  migrationOption := 1
  activationType := 1
  tokenType := 0
  tokenDecimal := 6
  partnerLiqPct := 0
  partnerPermLockedPct := 100
  creatorLiqPct := 0
  creatorPermLockedPct := 0
  migrationQuoteThreshold := 100000000000
  sqrtStartPrice := 103120435622421629
  lockedVesting := ⟨0, 0, 0, 0, 0⟩
  migrationFeeOption := 3
  tokenSupply := some (1000000000000000, 1000000000000000)
  creatorTradingFeePct := 0
  tokenUpdateAuthority := 1
  migrationFeePct := 0
  creatorMigrationFeePct := 0
  migratedFee := ⟨0, 0, 0, 0, 0, 0, 0, 0, 0⟩
  poolCreationFee := 0
  partnerVesting := ⟨0, 0, 0, 0, 0⟩
  creatorVesting := ⟨0, 0, 0, 0, 0⟩
  enableFirstSwapMinFee := false
  curve := [⟨412481737123559485, 109995130376604934626148314671099⟩,
    ⟨79226673521066979257578248091, 3434320880899950928465656⟩]

end Ex

import Verif.Spec.Layout
import Verif.Model.Wire

/-!
# The interface of the earlier releases

Transcribed from the interface files the repository keeps for its compatibility tests (scripts/idl/release_0.1.2.json,
release_0.1.3.json, release_0.1.4.json, release_0.1.6.json): which numbers a client of such a release sends, in which order
and width, and which numbers its accounts hold. A field is its width in bytes and its value.
-/

namespace Spec
open Dbc

/-- Every number is within the type it is sent or stored in. -/
def FieldsFit (fs : List (Nat × Nat)) : Prop := ∀ f ∈ fs, f.2 < 2 ^ (8 * f.1)

/-- The volatility fee a client may ask for (`DynamicFeeParameters`, the same in all releases). -/
structure AskedDynamic where
  binStep : Nat
  binStepU128 : Nat
  filterPeriod : Nat
  decayPeriod : Nat
  reductionFactor : Nat
  maxVolAcc : Nat
  vfc : Nat
  deriving DecidableEq, Repr

/-- What a client of the releases 0.1.2 to 0.1.4 sends to create a configuration (`ConfigParameters` at
release_0.1.2.json 4065, release_0.1.3.json 4080, release_0.1.4.json 4080). The three factors of the base fee are called number of
periods, period and reduction in 0.1.2. -/
structure EarlierParams where
  cliff : Nat
  first : Nat
  second : Nat
  third : Nat
  feeMode : Nat
  dynamic : Option AskedDynamic
  collectFeeMode : Nat
  migrationOption : Nat
  activationType : Nat
  tokenType : Nat
  tokenDecimal : Nat
  partnerLp : Nat
  partnerLockedLp : Nat
  creatorLp : Nat
  creatorLockedLp : Nat
  threshold : Nat
  startPrice : Nat
  vestingAmount : Nat
  vestingCliff : Nat
  vestingFrequency : Nat
  vestingPeriods : Nat
  vestingUnlock : Nat
  migrationFeeOption : Nat
  supply : Option (Nat × Nat)
  creatorTradingFee : Nat
  updateAuthority : Nat
  migrationFee : Nat
  creatorMigrationFee : Nat
  curve : List Point
  deriving DecidableEq, Repr

/-- A fixed supply (before and after migration) as it is sent: a tag, then the two numbers if there is one. -/
def supplySent : Option (Nat × Nat) → List (Nat × Nat)
  | none => [(1, 0)]
  | some s => [(1, 1), (8, s.1), (8, s.2)]

/-- The fields before the padding, in the order they are sent. -/
def EarlierParams.leading (p : EarlierParams) : List (Nat × Nat) :=
  [(8, p.cliff), (2, p.first), (8, p.second), (8, p.third), (1, p.feeMode)] ++
  (match p.dynamic with
   | none => [(1, 0)]
   | some d => [(1, 1), (2, d.binStep), (16, d.binStepU128), (2, d.filterPeriod), (2, d.decayPeriod),
       (2, d.reductionFactor), (4, d.maxVolAcc), (4, d.vfc)]) ++
  [(1, p.collectFeeMode), (1, p.migrationOption), (1, p.activationType), (1, p.tokenType), (1, p.tokenDecimal),
   (1, p.partnerLp), (1, p.partnerLockedLp), (1, p.creatorLp), (1, p.creatorLockedLp), (8, p.threshold),
   (16, p.startPrice), (8, p.vestingAmount), (8, p.vestingCliff), (8, p.vestingFrequency), (8, p.vestingPeriods),
   (8, p.vestingUnlock), (1, p.migrationFeeOption)] ++
  supplySent p.supply ++
  [(1, p.creatorTradingFee), (1, p.updateAuthority), (1, p.migrationFee), (1, p.creatorMigrationFee)]

/-- A curve as it is sent: its length, then price and liquidity of each point. -/
def curveSent (ps : List Point) : List (Nat × Nat) := (4, ps.length) :: ps.flatMap fun q => [(16, q.price), (16, q.liq)]

/-- The argument bytes of `create_config` from a client of 0.1.2 to 0.1.4: four padding bytes and seven padding words come
before the curve. -/
def EarlierParams.sent (p : EarlierParams) : List Nat :=
  pack (p.leading ++ [(1, 0), (1, 0), (1, 0), (1, 0)] ++ List.replicate 7 (8, 0) ++ curveSent p.curve)

/-- The argument bytes of `create_config` from a client of 0.1.6, which also names the fee collection, dynamic fee and base
points of the migrated pool (release_0.1.6.json 4252). -/
def EarlierParams.sent06 (p : EarlierParams) (collect dynamic bps : Nat) : List Nat :=
  pack (p.leading ++ [(1, collect), (1, dynamic), (2, bps)] ++ List.replicate 7 (8, 0) ++ curveSent p.curve)

/-- What those settings are today: each setting under its own name, and everything introduced later switched off. -/
def EarlierParams.meaning (p : EarlierParams) (collect dynamic bps : Nat) : ConfigParams where
  fees :=
    { base := { cliff := p.cliff, first := p.first, second := p.second, third := p.third, mode := p.feeMode }
      dyn := match p.dynamic with
        | none => ⟨0, 0, 0, 0, 0, 0, 0, 0⟩
        | some d =>
          { initialized := 1, maxVolAcc := d.maxVolAcc, vfc := d.vfc, binStep := d.binStep, filterPeriod := d.filterPeriod
            decayPeriod := d.decayPeriod, reductionFactor := d.reductionFactor, binStepU128 := d.binStepU128 } }
  collectFeeMode := p.collectFeeMode
  migrationOption := p.migrationOption
  activationType := p.activationType
  tokenType := p.tokenType
  tokenDecimal := p.tokenDecimal
  partnerLiqPct := p.partnerLp
  partnerPermLockedPct := p.partnerLockedLp
  creatorLiqPct := p.creatorLp
  creatorPermLockedPct := p.creatorLockedLp
  migrationQuoteThreshold := p.threshold
  sqrtStartPrice := p.startPrice
  lockedVesting :=
    { amountPerPeriod := p.vestingAmount, cliffDuration := p.vestingCliff, frequency := p.vestingFrequency
      numberOfPeriod := p.vestingPeriods, cliffUnlock := p.vestingUnlock }
  migrationFeeOption := p.migrationFeeOption
  tokenSupply := p.supply
  creatorTradingFeePct := p.creatorTradingFee
  tokenUpdateAuthority := p.updateAuthority
  migrationFeePct := p.migrationFee
  creatorMigrationFeePct := p.creatorMigrationFee
  migratedFee :=
    { collectFeeMode := collect, dynamicFee := dynamic, poolFeeBps := bps, compoundingBps := 0, baseFeeMode := 0
      numberOfPeriod := 0, sqrtPriceStepBps := 0, expiration := 0, reduction := 0 }
  poolCreationFee := 0
  partnerVesting := ⟨0, 0, 0, 0, 0⟩
  creatorVesting := ⟨0, 0, 0, 0, 0⟩
  enableFirstSwapMinFee := false
  curve := p.curve

/-- What a client of the present release sends (the order of the present interface): `p` with no dynamic fee, or with the
dynamic fee it names. -/
def nowSent (p : ConfigParams) : List (Nat × Nat) :=
  [(8, p.fees.base.cliff), (2, p.fees.base.first), (8, p.fees.base.second), (8, p.fees.base.third), (1, p.fees.base.mode)] ++
  (if p.fees.dyn.initialized = 0 then [(1, 0)]
   else [(1, 1), (2, p.fees.dyn.binStep), (16, p.fees.dyn.binStepU128), (2, p.fees.dyn.filterPeriod),
     (2, p.fees.dyn.decayPeriod), (2, p.fees.dyn.reductionFactor), (4, p.fees.dyn.maxVolAcc), (4, p.fees.dyn.vfc)]) ++
  [(1, p.collectFeeMode), (1, p.migrationOption), (1, p.activationType), (1, p.tokenType), (1, p.tokenDecimal),
   (1, p.partnerLiqPct), (1, p.partnerPermLockedPct), (1, p.creatorLiqPct), (1, p.creatorPermLockedPct),
   (8, p.migrationQuoteThreshold), (16, p.sqrtStartPrice), (8, p.lockedVesting.amountPerPeriod),
   (8, p.lockedVesting.cliffDuration), (8, p.lockedVesting.frequency), (8, p.lockedVesting.numberOfPeriod),
   (8, p.lockedVesting.cliffUnlock), (1, p.migrationFeeOption)] ++
  supplySent p.tokenSupply ++
  [(1, p.creatorTradingFeePct), (1, p.tokenUpdateAuthority), (1, p.migrationFeePct), (1, p.creatorMigrationFeePct),
   (1, p.migratedFee.collectFeeMode), (1, p.migratedFee.dynamicFee), (2, p.migratedFee.poolFeeBps), (8, p.poolCreationFee),
   (1, p.partnerVesting.pct), (2, p.partnerVesting.bpsPerPeriod), (2, p.partnerVesting.numPeriods),
   (4, p.partnerVesting.cliffDuration), (4, p.partnerVesting.frequency),
   (1, p.creatorVesting.pct), (2, p.creatorVesting.bpsPerPeriod), (2, p.creatorVesting.numPeriods),
   (4, p.creatorVesting.cliffDuration), (4, p.creatorVesting.frequency),
   (1, p.migratedFee.baseFeeMode), (2, p.migratedFee.numberOfPeriod), (2, p.migratedFee.sqrtPriceStepBps),
   (4, p.migratedFee.expiration), (8, p.migratedFee.reduction), (1, if p.enableFirstSwapMinFee then 1 else 0),
   (2, p.migratedFee.compoundingBps), (2, 0)] ++ curveSent p.curve

/-- A client asks for a dynamic fee or for none: without one there is nothing to say about it. -/
def DynamicAsked (d : DynamicFeeConfig) : Prop := d.initialized = 1 ∨ d = ⟨0, 0, 0, 0, 0, 0, 0, 0⟩

/-- A pool account as the releases 0.1.2 to 0.1.6 keep it (`VirtualPool` at release_0.1.2.json 5741, release_0.1.3.json 5756,
release_0.1.4.json 5756, release_0.1.6.json 6066): seven words of padding at the end. -/
def earlierPool (disc : Nat) (k : PoolKeys) (p : Pool) : List Nat :=
  pack ([(8, disc), (8, p.vol.lastUpdate), (8, 0), (16, p.vol.priceRef), (16, p.vol.volAcc), (16, p.vol.volRef),
   (32, k.config), (32, p.creator), (32, k.baseMint), (32, k.baseVault), (32, k.quoteVault),
   (8, p.baseReserve), (8, p.quoteReserve), (8, p.protocolBaseFee), (8, p.protocolQuoteFee), (8, p.partnerBaseFee),
   (8, p.partnerQuoteFee), (16, p.sqrtPrice), (8, p.activationPoint), (1, p.poolType), (1, p.isMigrated),
   (1, p.partnerSurplus), (1, p.protocolSurplus), (1, p.migrationProgress), (1, p.isWithdrawLeftover),
   (1, p.creatorSurplus), (1, p.migrationFeeStatus), (8, p.metrics.protocolBase), (8, p.metrics.protocolQuote),
   (8, p.metrics.tradingBase), (8, p.metrics.tradingQuote), (8, p.finishTimestamp), (8, p.creatorBaseFee),
   (8, p.creatorQuoteFee)] ++ List.replicate 7 (8, 0))

/-- A pool without anything introduced since: no creation fee charged or claimed, no swap marked, no migration fee for the
protocol. -/
def withoutLater (p : Pool) : Pool :=
  { p with legacyCreationBits := 0, creationBits := 0, hasSwap := 0, migrationFeeBps := 0, protocolMigBaseFee := 0
           protocolMigQuoteFee := 0 }

/-- A configuration account as the releases up to 0.1.6 keep it (`PoolConfig` at release_0.1.2.json 5259, release_0.1.3.json
5274, release_0.1.4.json 5274, release_0.1.6.json 5487): the shares of the protocol and the referrer end the fees, and `tail` is
the 32 bytes that are padding up to 0.1.4. -/
def earlierConfig (disc version protocolShare referralShare : Nat) (tail : List (Nat × Nat)) (c : PoolConfig) : List Nat :=
  pack ([(8, disc), (32, c.quoteMint), (32, c.feeClaimer), (32, c.leftoverReceiver),
   (8, c.fees.base.cliff), (8, c.fees.base.second), (8, c.fees.base.third), (2, c.fees.base.first), (1, c.fees.base.mode),
   (5, 0), (1, c.fees.dyn.initialized), (7, 0), (4, c.fees.dyn.maxVolAcc), (4, c.fees.dyn.vfc), (2, c.fees.dyn.binStep),
   (2, c.fees.dyn.filterPeriod), (2, c.fees.dyn.decayPeriod), (2, c.fees.dyn.reductionFactor), (8, 0),
   (16, c.fees.dyn.binStepU128)] ++
  List.replicate 5 (8, 0) ++ List.replicate 6 (1, 0) ++ [(1, protocolShare), (1, referralShare)] ++
  [(1, c.collectFeeMode), (1, c.migrationOption), (1, c.activationType), (1, c.tokenDecimal), (1, version),
   (1, c.tokenType), (1, c.quoteTokenFlag), (1, c.partnerPermLockedPct), (1, c.partnerLiqPct),
   (1, c.creatorPermLockedPct), (1, c.creatorLiqPct), (1, c.migrationFeeOption), (1, c.fixedSupplyFlag),
   (1, c.creatorTradingFeePct), (1, c.tokenUpdateAuthority), (1, c.migrationFeePct), (1, c.creatorMigrationFeePct)] ++
  List.replicate 7 (1, 0) ++
  [(8, c.swapBaseAmount), (8, c.migrationQuoteThreshold), (8, c.migrationBaseThreshold), (16, c.migrationSqrtPrice),
   (8, c.lockedVesting.amountPerPeriod), (8, c.lockedVesting.cliffDuration), (8, c.lockedVesting.frequency),
   (8, c.lockedVesting.numberOfPeriod), (8, c.lockedVesting.cliffUnlock), (8, 0), (8, c.preMigrationSupply),
   (8, c.postMigrationSupply)] ++ tail ++ [(16, c.sqrtStartPrice)] ++
  c.curve.flatMap fun q => [(16, q.price), (16, q.liq)])

/-- The 32 bytes in 0.1.2 to 0.1.4: two padding words of 128 bits. -/
def tail02 : List (Nat × Nat) := [(16, 0), (16, 0)]

/-- The 32 bytes in 0.1.6: three settings of the migrated pool, then padding. -/
def tail06 (collect dynamic bps : Nat) : List (Nat × Nat) :=
  [(1, collect), (1, dynamic), (2, bps)] ++ List.replicate 12 (1, 0) ++ [(16, 0)]

/-- A configuration without anything introduced since: no liquidity vesting, no creation fee, no minimal fee for the first
swap, and of the migrated pool's fees only what 0.1.6 could name. -/
def onlyEarlier (c : PoolConfig) (collect dynamic bps : Nat) : PoolConfig :=
  { c with
    partnerVesting := ⟨0, 0, 0, 0, 0, 0⟩
    creatorVesting := ⟨0, 0, 0, 0, 0, 0⟩
    migratedFee := ⟨collect, dynamic, bps, 0, 0, 0, 0, 0, 0⟩
    enableFirstSwapMinFee := 0
    poolCreationFee := 0 }

end Spec

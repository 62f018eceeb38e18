import Verif.Spec.Chain

/-!
# The terms of a pool: what is agreed when a configuration and a pool are made
-/

namespace Spec
open Dbc

/-- A vesting of migrated liquidity recorded in a configuration is the one asked for. -/
structure SameVesting (p : LiqVestingParams) (v : LiqVesting) : Prop where
  pct : v.pct = p.pct
  bpsPerPeriod : v.bpsPerPeriod = p.bpsPerPeriod
  numPeriods : v.numPeriods = p.numPeriods
  cliffDuration : v.cliffDuration = p.cliffDuration
  frequency : v.frequency = p.frequency

/-- A configuration records what its maker asked for: quote mint `q`, fee claimer `f`, leftover receiver `r` and the
parameters `p`. (What is computed from these, the two token thresholds and the final price, is not listed here.) -/
structure Agreed (q f r : Nat) (p : ConfigParams) (c : PoolConfig) : Prop where
  quoteMint : c.quoteMint = q
  feeClaimer : c.feeClaimer = f
  leftoverReceiver : c.leftoverReceiver = r
  fees : c.fees = p.fees
  collectFeeMode : c.collectFeeMode = p.collectFeeMode
  migrationOption : c.migrationOption = p.migrationOption
  activationType : c.activationType = p.activationType
  tokenType : c.tokenType = p.tokenType
  tokenDecimal : c.tokenDecimal = p.tokenDecimal
  partnerLiqPct : c.partnerLiqPct = p.partnerLiqPct
  partnerPermLockedPct : c.partnerPermLockedPct = p.partnerPermLockedPct
  creatorLiqPct : c.creatorLiqPct = p.creatorLiqPct
  creatorPermLockedPct : c.creatorPermLockedPct = p.creatorPermLockedPct
  threshold : c.migrationQuoteThreshold = p.migrationQuoteThreshold
  startPrice : c.sqrtStartPrice = p.sqrtStartPrice
  lockedVesting : c.lockedVesting = p.lockedVesting
  migrationFeeOption : c.migrationFeeOption = p.migrationFeeOption
  noSupply : p.tokenSupply = none → c.fixedSupplyFlag = 0
  supply : ∀ pre post, p.tokenSupply = some (pre, post) →
    c.fixedSupplyFlag = 1 ∧ c.preMigrationSupply = pre ∧ c.postMigrationSupply = post
  creatorTradingFeePct : c.creatorTradingFeePct = p.creatorTradingFeePct
  tokenUpdateAuthority : c.tokenUpdateAuthority = p.tokenUpdateAuthority
  migrationFeePct : c.migrationFeePct = p.migrationFeePct
  creatorMigrationFeePct : c.creatorMigrationFeePct = p.creatorMigrationFeePct
  migratedFee : c.migratedFee = p.migratedFee
  poolCreationFee : c.poolCreationFee = p.poolCreationFee
  partnerVesting : SameVesting p.partnerVesting c.partnerVesting
  creatorVesting : SameVesting p.creatorVesting c.creatorVesting
  firstSwap : c.enableFirstSwapMinFee = 1 ↔ p.enableFirstSwapMinFee = true
  /-- the curve asked for, followed only by empty points -/
  curve : ∃ n, c.curve = p.curve ++ List.replicate n ⟨0, 0⟩

/-- What a pool says about itself for good: the addresses it records, the kind of its token, when trading opens, the rate of
the protocol's migration fee, and who may change the token's description or mint more of it. -/
structure SameTerms (s s' : Chain) (pa pa' : PoolAcc) : Prop where
  addresses : SameAddresses pa pa'
  poolType : pa'.state.poolType = pa.state.poolType
  opening : pa'.state.activationPoint = pa.state.activationPoint
  migrationFeeBps : pa'.state.migrationFeeBps = pa.state.migrationFeeBps
  updateAuth : pa'.updateAuth = pa.updateAuth
  mintAuth : (s'.mints pa'.baseMint).map (·.auth) = (s.mints pa.baseMint).map (·.auth)

/-- Who is creator of pool `P` after these instructions, if it was `c`: the key named in the last transfer of the role. -/
def creatorAfter (P : Nat) (c : Nat) : List Instr → Nat
  | [] => c
  | .transferCreator Q _ _ _ n :: r => creatorAfter P (if Q = P then n else c) r
  | _ :: r => creatorAfter P c r

end Spec

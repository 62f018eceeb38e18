import Verif.Model.Chain

/-!
# The events of `create_config`
-/

namespace Dbc

/-- `EvtCreateConfig` (event.rs 26-53), without the configuration's address, which is kept beside it. -/
structure EvtCreateConfig where
  quoteMint : Nat
  feeClaimer : Nat
  owner : Nat
  fees : PoolFeesConfig
  collectFeeMode : Nat
  migrationOption : Nat
  activationType : Nat
  tokenDecimal : Nat
  tokenType : Nat
  partnerPermLockedPct : Nat
  partnerLiqPct : Nat
  creatorPermLockedPct : Nat
  creatorLiqPct : Nat
  swapBaseAmount : Nat
  migrationQuoteThreshold : Nat
  migrationBaseAmount : Nat
  sqrtStartPrice : Nat
  lockedVesting : LockedVesting
  migrationFeeOption : Nat
  fixedSupplyFlag : Nat
  preMigrationSupply : Nat
  postMigrationSupply : Nat
  curve : List Point
  deriving DecidableEq, Repr

/-- `EvtCreateConfigV2` (event.rs 55-62), without the configuration's address. -/
structure EvtCreateConfigV2 where
  quoteMint : Nat
  feeClaimer : Nat
  leftoverReceiver : Nat
  params : ConfigParams
  deriving DecidableEq, Repr

/-- The two events of `create_config` (instructions/partner/ix_create_config.rs 755-788), from the values the handler computes at
598-692. Of `env` only the three keys are read. -/
def createConfigEvents (p : ConfigParams) (env : ConfigEnv) : Res (EvtCreateConfig × EvtCreateConfigV2) := do
  let price ← migrationThresholdPrice p.migrationQuoteThreshold p.sqrtStartPrice p.curve
  let swap256 ← baseTokenForSwap p.sqrtStartPrice price p.curve
  let swapBase ← castTo u64Max swap256
  let (base, _) ← migrationAmounts1 (migrationHandler p.migrationOption p.migratedFee.collectFeeMode) price
    p.migrationQuoteThreshold p.migrationFeePct
  let (flag, pre, post) ← resolveTokenSupply p env swapBase base
  .ok ({ quoteMint := env.quoteMint
         feeClaimer := env.feeClaimer
         owner := env.leftoverReceiver
         fees := p.fees
         collectFeeMode := p.collectFeeMode
         migrationOption := p.migrationOption
         activationType := p.activationType
         tokenDecimal := p.tokenDecimal
         tokenType := p.tokenType
         partnerPermLockedPct := p.partnerPermLockedPct
         partnerLiqPct := p.partnerLiqPct
         creatorPermLockedPct := p.creatorPermLockedPct
         creatorLiqPct := p.creatorLiqPct
         swapBaseAmount := swapBase
         migrationQuoteThreshold := p.migrationQuoteThreshold
         migrationBaseAmount := base
         sqrtStartPrice := p.sqrtStartPrice
         lockedVesting := p.lockedVesting
         migrationFeeOption := p.migrationFeeOption
         fixedSupplyFlag := flag
         preMigrationSupply := pre
         postMigrationSupply := post
         curve := p.curve },
       { quoteMint := env.quoteMint, feeClaimer := env.feeClaimer, leftoverReceiver := env.leftoverReceiver, params := p })

/-- The events on configurations that an executed instruction writes, with the configuration they name
(ix_create_config.rs 755-788; no other instruction writes any). The failing case does not arise when the instruction is
executed. -/
def Instr.configLog : Instr → List (Nat × EvtCreateConfig × EvtCreateConfigV2)
  | .createConfig key quoteMint feeClaimer leftoverReceiver now p =>
    match createConfigEvents p
      { quoteSupported := true, quoteIsSpl := true, now, quoteMint, feeClaimer, leftoverReceiver } with
    | .error _ => []
    | .ok es => [(key, es)]
  | _ => []

end Dbc

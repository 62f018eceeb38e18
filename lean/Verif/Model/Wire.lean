import Verif.Model.Layout

/-!
# How instruction data is read

Anchor strips the eight discriminator bytes that select the instruction and reads the arguments with Borsh: the fields of a
struct in order, every integer little endian in its own width, an `Option` behind a tag byte, a `Vec` behind a four-byte
length. Bytes left over at the end are ignored (Anchor 0.31 calls `deserialize`, not `try_from_slice`). `none` is the error
`InstructionDidNotDeserialize`.
-/

namespace Dbc

/-- The number whose little-endian bytes these are (Borsh's `from_le_bytes`; used by lib.rs 58-186). -/
def wireNumber : List Nat → Nat
  | [] => 0
  | x :: xs => x + 256 * wireNumber xs

/-- Read an `n`-byte integer: its value and the bytes after it (Borsh integers, e.g. `u64` at
ix_create_config.rs 53). -/
def readNum (n : Nat) (b : List Nat) : Option (Nat × List Nat) :=
  if n ≤ b.length then some (wireNumber (b.take n), b.drop n) else none

/-- Read a `bool` (ix_create_config.rs 68): Borsh refuses a byte that is neither 0 nor 1. -/
def readBool (b : List Nat) : Option (Bool × List Nat) := do
  let (t, b) ← readNum 1 b
  match t with
  | 0 => some (false, b)
  | 1 => some (true, b)
  | _ => none

/-- Read an `Option` (params/fee_parameters.rs 17, ix_create_config.rs 57): Borsh refuses a tag that is neither 0 nor 1. -/
def readOption {α : Type} (f : List Nat → Option (α × List Nat)) (b : List Nat) : Option (Option α × List Nat) := do
  let (t, b) ← readBool b
  match t with
  | false => some (none, b)
  | true => do
    let (x, b) ← f b
    some (some x, b)

/-- Read `BaseFeeParameters` (params/fee_parameters.rs 21-27). -/
def readBaseFee (b : List Nat) : Option (BaseFeeConfig × List Nat) := do
  let (cliff, b) ← readNum 8 b
  let (first, b) ← readNum 2 b
  let (second, b) ← readNum 8 b
  let (third, b) ← readNum 8 b
  let (mode, b) ← readNum 1 b
  some (⟨cliff, first, second, third, mode⟩, b)

/-- Read `DynamicFeeParameters` (params/fee_parameters.rs 85-94), put into the form of `to_dynamic_fee_config` (97-109). -/
def readDynamicFee (b : List Nat) : Option (DynamicFeeConfig × List Nat) := do
  let (binStep, b) ← readNum 2 b
  let (binStepU128, b) ← readNum 16 b
  let (filterPeriod, b) ← readNum 2 b
  let (decayPeriod, b) ← readNum 2 b
  let (reductionFactor, b) ← readNum 2 b
  let (maxVolAcc, b) ← readNum 4 b
  let (vfc, b) ← readNum 4 b
  some ({ initialized := 1, maxVolAcc, vfc, binStep, filterPeriod, decayPeriod, reductionFactor, binStepU128 }, b)

/-- Read `PoolFeeParameters` (params/fee_parameters.rs 12-18), put into the form of `to_pool_fees_config` (66-83). -/
def readPoolFees (b : List Nat) : Option (PoolFeesConfig × List Nat) := do
  let (base, b) ← readBaseFee b
  let (dyn, b) ← readOption readDynamicFee b
  some (⟨base, dyn.getD ⟨0, 0, 0, 0, 0, 0, 0, 0⟩⟩, b)

/-- Read `LockedVestingParams` (ix_create_config.rs 251-258). -/
def readLockedVesting (b : List Nat) : Option (LockedVesting × List Nat) := do
  let (amountPerPeriod, b) ← readNum 8 b
  let (cliffDuration, b) ← readNum 8 b
  let (frequency, b) ← readNum 8 b
  let (numberOfPeriod, b) ← readNum 8 b
  let (cliffUnlock, b) ← readNum 8 b
  some ({ amountPerPeriod, cliffDuration, frequency, numberOfPeriod, cliffUnlock }, b)

/-- Read `TokenSupplyParams` (ix_create_config.rs 242-250). -/
def readSupply (b : List Nat) : Option ((Nat × Nat) × List Nat) := do
  let (pre, b) ← readNum 8 b
  let (post, b) ← readNum 8 b
  some ((pre, post), b)

/-- Read `LiquidityVestingInfoParams` (ix_create_config.rs 312-321). -/
def readLiqVesting (b : List Nat) : Option (LiqVestingParams × List Nat) := do
  let (pct, b) ← readNum 1 b
  let (bpsPerPeriod, b) ← readNum 2 b
  let (numPeriods, b) ← readNum 2 b
  let (cliffDuration, b) ← readNum 4 b
  let (frequency, b) ← readNum 4 b
  some ({ pct, bpsPerPeriod, numPeriods, cliffDuration, frequency }, b)

/-- Read `n` entries of the curve (`LiquidityDistributionParameters`, ix_create_config.rs 72, params/liquidity_distribution.rs
17-21). -/
def readPoints : Nat → List Nat → Option (List Point × List Nat)
  | 0, b => some ([], b)
  | n + 1, b => do
    let (price, b) ← readNum 16 b
    let (liq, b) ← readNum 16 b
    let (rest, b) ← readPoints n b
    some (⟨price, liq⟩ :: rest, b)

/-- Read the argument of `create_config` (`ConfigParameters`, ix_create_config.rs 42-73; lib.rs 86-91). The two bytes of
padding are read and dropped. -/
def readConfigParams (b : List Nat) : Option (ConfigParams × List Nat) := do
  let (fees, b) ← readPoolFees b
  let (collectFeeMode, b) ← readNum 1 b
  let (migrationOption, b) ← readNum 1 b
  let (activationType, b) ← readNum 1 b
  let (tokenType, b) ← readNum 1 b
  let (tokenDecimal, b) ← readNum 1 b
  let (partnerLiqPct, b) ← readNum 1 b
  let (partnerPermLockedPct, b) ← readNum 1 b
  let (creatorLiqPct, b) ← readNum 1 b
  let (creatorPermLockedPct, b) ← readNum 1 b
  let (migrationQuoteThreshold, b) ← readNum 8 b
  let (sqrtStartPrice, b) ← readNum 16 b
  let (lockedVesting, b) ← readLockedVesting b
  let (migrationFeeOption, b) ← readNum 1 b
  let (tokenSupply, b) ← readOption readSupply b
  let (creatorTradingFeePct, b) ← readNum 1 b
  let (tokenUpdateAuthority, b) ← readNum 1 b
  let (migrationFeePct, b) ← readNum 1 b
  let (creatorMigrationFeePct, b) ← readNum 1 b
  let (collect, b) ← readNum 1 b
  let (dynamic, b) ← readNum 1 b
  let (feeBps, b) ← readNum 2 b
  let (poolCreationFee, b) ← readNum 8 b
  let (partnerVesting, b) ← readLiqVesting b
  let (creatorVesting, b) ← readLiqVesting b
  let (baseFeeMode, b) ← readNum 1 b
  let (periods, b) ← readNum 2 b
  let (step, b) ← readNum 2 b
  let (expiration, b) ← readNum 4 b
  let (reduction, b) ← readNum 8 b
  let (enableFirstSwapMinFee, b) ← readBool b
  let (compounding, b) ← readNum 2 b
  let (_, b) ← readNum 2 b
  let (n, b) ← readNum 4 b
  let (curve, b) ← readPoints n b
  some (⟨fees, collectFeeMode, migrationOption, activationType, tokenType, tokenDecimal, partnerLiqPct,
    partnerPermLockedPct, creatorLiqPct, creatorPermLockedPct, migrationQuoteThreshold, sqrtStartPrice, lockedVesting,
    migrationFeeOption, tokenSupply, creatorTradingFeePct, tokenUpdateAuthority, migrationFeePct, creatorMigrationFeePct,
    ⟨collect, dynamic, feeBps, compounding, baseFeeMode, periods, step, expiration, reduction⟩,
    poolCreationFee, partnerVesting, creatorVesting, enableFirstSwapMinFee, curve⟩, b)

/-- `create_config` on its argument bytes: decode, then the handler (lib.rs 86-91, ix_create_config.rs 562-699). -/
def createConfigData (b : List Nat) (env : ConfigEnv) : Option (Res PoolConfig) := do
  let (p, _) ← readConfigParams b
  some (createConfig p env)

/-- The instruction `swap` on its argument bytes: `SwapParameters` become an exact-in request (ix_swap.rs 31-36, lib.rs
166-179). The rest of the request comes from the accounts and the clock. -/
def swapData (b : List Nat) (a : SwapArgs) : Option SwapArgs := do
  let (amountIn, b) ← readNum 8 b
  let (minimumOut, _) ← readNum 8 b
  some { a with mode := 0, amount0 := amountIn, amount1 := minimumOut }

/-- The instruction `swap2` on its argument bytes (ix_swap.rs 38-47, lib.rs 181-186). -/
def swap2Data (b : List Nat) (a : SwapArgs) : Option SwapArgs := do
  let (amount0, b) ← readNum 8 b
  let (amount1, b) ← readNum 8 b
  let (mode, _) ← readNum 1 b
  some { a with mode, amount0, amount1 }

/-- Two `u64` arguments: `claim_protocol_fee`, `claim_trading_fee`, `claim_creator_trading_fee` (lib.rs 58-64, 94-100,
139-145). -/
def readTwo (b : List Nat) : Option (Nat × Nat) := do
  let (x, b) ← readNum 8 b
  let (y, _) ← readNum 8 b
  some (x, y)

/-- One `u8` argument: `withdraw_migration_fee` (lib.rs 161-163). -/
def readFlag (b : List Nat) : Option Nat := do
  let (x, _) ← readNum 1 b
  some x

end Dbc

/-!
# Errors and checked arithmetic

Paths below are relative to `/repo/programs/dynamic-bonding-curve/src`.
-/

namespace Dbc

/-- The program errors the modelled code can return (`error.rs`, `PoolError`), plus `panic`, which stands for
a Rust panic (`assert!`, `unwrap`, unchecked arithmetic with `overflow-checks = true`, `/repo/Cargo.toml` 5-6),
and `external`, which stands for a failure inside a token transfer or another program. -/
inductive Err
  | mathOverflow | invalidFee | exceededSlippage | exceedMaxFeeBps | invalidAdmin | amountIsZero | typeCastFailed
  | invalidActivationType | invalidQuoteMint | invalidCollectFeeMode | invalidMigrationFeeOption | invalidInput
  | notEnoughLiquidity | poolIsCompleted | poolIsIncompleted | invalidMigrationOption | invalidTokenDecimals
  | invalidTokenType | invalidFeePercentage | invalidQuoteThreshold | invalidTokenSupply | invalidCurve
  | notPermitToDoThisAction | invalidOwnerAccount | surplusHasBeenWithdraw | leftoverHasBeenWithdraw
  | insufficientLiquidityForMigration | invalidVestingParameters | invalidLeftoverAddress | insufficientLiquidity
  | invalidFeeScheduler | invalidCreatorTradingFeePercentage | invalidNewCreator | invalidTokenAuthorityOption
  | invalidAccount | invalidMigratorFeePercentage | migrationFeeHasBeenWithdraw | invalidBaseFeeMode
  | invalidFeeRateLimiter | failToValidateSingleSwapInstruction | invalidMigratedPoolFee | undeterminedError
  | amountLeftIsNotZero | invalidMinBaseFee | invalidPoolCreationFee | poolCreationFeeHasBeenClaimed | unauthorized
  | zeroPoolCreationFee | invalidMigrationLockedLiquidity | invalidFeeMarketCapScheduler | firstSwapValidationFailed
  | invalidPermission | mintRestrictedFromZap | invalidCompoundingParameters | invalidParameters
  | insufficientPoolLamports | accountInvariantViolation | invalidConfigAccount
  | external | panic
  deriving DecidableEq, Repr

/-- `anchor_lang::Result` / `Option` after `ok_or`: a value or an error. An error aborts the instruction. [every handler returns it, e.g. lib.rs 33-240] -/
abbrev Res (α : Type) := Except Err α

/-- Largest `u8`. [Rust primitive; no line in the repository defines it] -/
def u8Max : Nat := 2 ^ 8 - 1
/-- Largest `u16`. [Rust primitive; no line in the repository defines it] -/
def u16Max : Nat := 2 ^ 16 - 1
/-- Largest `u32`. [Rust primitive; no line in the repository defines it] -/
def u32Max : Nat := 2 ^ 32 - 1
/-- Largest `u64`. [Rust primitive; no line in the repository defines it] -/
def u64Max : Nat := 2 ^ 64 - 1
/-- Largest `u128`. [Rust primitive; no line in the repository defines it] -/
def u128Max : Nat := 2 ^ 128 - 1
/-- Largest `U256` (ruint). [library type, used in math/u128x128_math.rs 74-90] -/
def u256Max : Nat := 2 ^ 256 - 1
/-- Largest `U512` (ruint). [library type, used in math/u128x128_math.rs 74-90] -/
def u512Max : Nat := 2 ^ 512 - 1

/-- `require!(c, e)` (anchor). [library macro, e.g. used at instructions/swap/ix_swap.rs 402-405] -/
def req (c : Prop) [Decidable c] (e : Err) : Res Unit := if c then .ok () else .error e

/-- `safe_add` (math/safe_math.rs 21-30) at the integer type whose maximum is `mx`. -/
def safeAdd (mx a b : Nat) : Res Nat := if a + b ≤ mx then .ok (a + b) else .error .mathOverflow
/-- `safe_sub` (math/safe_math.rs 33-42), any unsigned type. -/
def safeSub (a b : Nat) : Res Nat := if b ≤ a then .ok (a - b) else .error .mathOverflow
/-- `safe_mul` (math/safe_math.rs 45-54) at the integer type whose maximum is `mx`. -/
def safeMul (mx a b : Nat) : Res Nat := if a * b ≤ mx then .ok (a * b) else .error .mathOverflow
/-- `safe_div` (math/safe_math.rs 57-66). -/
def safeDiv (a b : Nat) : Res Nat := if b = 0 then .error .mathOverflow else .ok (a / b)
/-- `U256::safe_shl` (math/safe_math.rs 81-90): ruint's `checked_shl` fails when bits are lost. -/
def safeShl256 (a k : Nat) : Res Nat := if a * 2 ^ k ≤ u256Max then .ok (a * 2 ^ k) else .error .mathOverflow
/-- `try_into().map_err(TypeCastFailed)` / `safe_cast` (math/safe_math.rs 127-136) into the type with maximum `mx`. -/
def castTo (mx a : Nat) : Res Nat := if a ≤ mx then .ok a else .error .typeCastFailed
/-- Plain `a - b` on a primitive unsigned integer: panics on underflow (`overflow-checks = true`). [the flag is /repo/Cargo.toml 5-6] -/
def subPanic (a b : Nat) : Res Nat := if b ≤ a then .ok (a - b) else .error .panic

/-- `Rounding` (math/u128x128_math.rs 5-10). -/
inductive Rounding | up | down
  deriving DecidableEq, Repr

/-- ruint / std `div_ceil` for a positive divisor. [library function, used at math/u128x128_math.rs 53 and 86] -/
def divCeil (a b : Nat) : Nat := (a + (b - 1)) / b

/-- Division rounded as requested (positive divisor). [the `match rounding` of math/u128x128_math.rs 85-90] -/
def divRound (r : Rounding) (a b : Nat) : Nat :=
  match r with
  | .up => divCeil a b
  | .down => a / b

/-! ## Constants (constants.rs) -/

/-- constants.rs 3 -/
def MIN_SQRT_PRICE : Nat := 4295048016
/-- constants.rs 4 -/
def MAX_SQRT_PRICE : Nat := 79226673521066979257578248091
/-- constants.rs 6 -/
def BASIS_POINT_MAX : Nat := 10000
/-- constants.rs 8 -/
def U24_MAX : Nat := 0xffffff
/-- constants.rs 10 -/
def ONE_Q64 : Nat := 2 ^ 64
/-- constants.rs 12 -/
def FLASH_RENT_FUND : Nat := 1000000000
/-- constants.rs 16 -/
def BIN_STEP_BPS_DEFAULT : Nat := 1
/-- constants.rs 19 -/
def BIN_STEP_BPS_U128_DEFAULT : Nat := 1844674407370955
/-- constants.rs 41 -/
def MAX_CURVE_POINT : Nat := 16
/-- constants.rs 42 -/
def MAX_CURVE_POINT_CONFIG : Nat := 20
/-- constants.rs 38 -/
def MIN_MIGRATED_POOL_FEE_BPS : Nat := 10
/-- constants.rs 39 -/
def MAX_MIGRATED_POOL_FEE_BPS : Nat := 1000
/-- constants.rs 45 -/
def SWAP_BUFFER_PERCENTAGE : Nat := 25
/-- constants.rs 47 -/
def PARTNER_AND_CREATOR_SURPLUS_SHARE : Nat := 80
/-- constants.rs 51 -/
def MAX_RATE_LIMITER_DURATION_IN_SECONDS : Nat := 43200
/-- constants.rs 52 -/
def MAX_RATE_LIMITER_DURATION_IN_SLOTS : Nat := 108000
/-- constants.rs 58 -/
def MAX_MIGRATION_FEE_PERCENTAGE : Nat := 99
/-- constants.rs 60 -/
def MIN_LOCKED_LIQUIDITY_BPS : Nat := 1000
/-- constants.rs 64 -/
def MAX_LOCK_DURATION_IN_SECONDS : Nat := 63072000
/-- constants.rs 72 -/
def FEE_DENOMINATOR : Nat := 1000000000
/-- constants.rs 76 -/
def MAX_FEE_NUMERATOR : Nat := 990000000
/-- constants.rs 79 -/
def MAX_BASIS_POINT : Nat := 10000
/-- constants.rs 82 -/
def MIN_FEE_NUMERATOR : Nat := 2500000
/-- constants.rs 94 -/
def PROTOCOL_FEE_PERCENT : Nat := 20
/-- constants.rs 96 -/
def HOST_FEE_PERCENT : Nat := 20
/-- constants.rs 99 -/
def PROTOCOL_POOL_CREATION_FEE_PERCENT : Nat := 10
/-- constants.rs 102 -/
def MIN_POOL_CREATION_FEE : Nat := 1000000
/-- constants.rs 104 -/
def MAX_POOL_CREATION_FEE : Nat := 100000000000
/-- constants.rs 107 -/
def PROTOCOL_LIQUIDITY_MIGRATION_FEE_BPS : Nat := 20
/-- constants.rs 129 -/
def MAX_OPERATION : Nat := 2

end Dbc

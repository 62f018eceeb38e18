import Verif.Props.Fixture
import Verif.Model.Quote

/-!
# The repository's own test vectors, run on the model

These are not property theorems: each is one computation. They check that the model gives the answers the repository's tests
(which run the real code) assert, and so speak for the model's fidelity. Cited are the files under
`/repo/programs/dynamic-bonding-curve/src/tests` and `/repo/dynamic-bonding-curve-sdk/src/tests`.
-/

namespace Vectors
open Dbc

/-! ## SDK quotes on the mainnet accounts

The clocks are those of the SDK tests: timestamp 1750997303 and slot 327665017 for the pool with fees in quote, timestamp
1752714721 and slot 353797458 for the one with fees in both tokens. -/

/-- Does `f` succeed with a result satisfying `q`? -/
def gives {α : Type} (f : Res α) (q : α → Bool) : Bool :=
  match f with
  | .ok a => q a
  | .error _ => false

/-- Did `f` fail? -/
def fails {α : Type} (f : Res α) : Bool :=
  match f with
  | .ok _ => false
  | .error _ => true

/-- The assertions of the exact-out tests for selling (test_quote_exact_out.rs 9-44 and 100-143): asking for `n` quote and then
offering the input charged gives the same output, trading fee and protocol fee. -/
def sellAgrees (p : Pool) (c : PoolConfig) (now slot n : Nat) : Bool :=
  gives (quoteExactOut p c .baseToQuote now slot n false) fun r =>
    gives (quoteExactIn p c .baseToQuote now slot r.includedIn false false) fun s =>
      s.out == n && s.fee.trading == r.fee.trading && s.fee.protocol == r.fee.protocol

/-- The assertion of the exact-out tests for buying (test_quote_exact_out.rs 47-98 and 146-182). -/
def buyCovers (p : Pool) (c : PoolConfig) (now slot n : Nat) : Bool :=
  gives (quoteExactOut p c .quoteToBase now slot n false) fun r =>
    gives (quoteExactIn p c .quoteToBase now slot r.includedIn false false) fun s => decide (n ≤ s.out)

/-- The assertion of the partial-fill tests (test_quote_partial_fill.rs): the same result as exact in. -/
def partialAgrees (p : Pool) (c : PoolConfig) (d : TradeDirection) (now slot n : Nat) : Bool :=
  gives (quotePartialFill p c d now slot n false false) fun r =>
    gives (quoteExactIn p c d now slot n false false) fun s => r == s

theorem sdk_sell_quote : sellAgrees Ex.mainnetPoolQ Ex.mainnetConfigQ 1750997303 327665017 4005059 = true := by
  decide +kernel

theorem sdk_sell_both : sellAgrees Ex.mainnetPoolBoth Ex.mainnetConfigBoth 1752714721 353797458 4005059 = true := by
  decide +kernel

theorem sdk_buy_quote : buyCovers Ex.mainnetPoolQ Ex.mainnetConfigQ 1750997303 327665017 100000000000 = true := by
  decide +kernel

theorem sdk_buy_both : buyCovers Ex.mainnetPoolBoth Ex.mainnetConfigBoth 1752714721 353797458 100000000000 = true := by
  decide +kernel

theorem sdk_partial :
    partialAgrees Ex.mainnetPoolQ Ex.mainnetConfigQ .baseToQuote 1750997303 327665017 99999977131 = true ∧
    partialAgrees Ex.mainnetPoolQ Ex.mainnetConfigQ .quoteToBase 1750997303 327665017 4046480 = true ∧
    partialAgrees Ex.mainnetPoolBoth Ex.mainnetConfigBoth .baseToQuote 1752714721 353797458 99999977131 = true ∧
    partialAgrees Ex.mainnetPoolBoth Ex.mainnetConfigBoth .quoteToBase 1752714721 353797458 4046480 = true := by
  decide +kernel

/-! ## Rate limiter (test_rate_limiter.rs) -/

/-- The limiter of `test_rate_limiter_behavior` (80-91): 1%, one SOL, 1% more for each further one, for 60 points. -/
def limiter : BaseFeeConfig := ⟨10000000, 100, 60, 1000000000, 2⟩

/-- Basis points of a numerator, as `to_bps` (params/fee_parameters.rs). -/
def bps (f : Res Nat) : Option Nat := f.toOption.map fun n => n * 10000 / 1000000000

/-- 21-77: which limiters are accepted. -/
theorem limiter_validate :
    fails (limiterValidate ⟨2500000, 10, 60, 1000000000, 2⟩ 1 .slot) = true ∧
    fails (limiterValidate ⟨2500000, 10, 60, 1000000000, 2⟩ 0 .slot) = false ∧
    fails (limiterValidate ⟨2500000, 0, 0, 1, 2⟩ 0 .slot) = true ∧
    fails (limiterValidate ⟨2500000, 0, 1, 0, 2⟩ 0 .slot) = true ∧
    fails (limiterValidate ⟨2500000, 1, 0, 0, 2⟩ 0 .slot) = true ∧
    fails (limiterValidate ⟨MIN_FEE_NUMERATOR - 1, 10, 60, 1000000000, 2⟩ 0 .slot) = true ∧
    fails (limiterValidate ⟨MAX_FEE_NUMERATOR + 1, 10, 60, 1000000000, 2⟩ 0 .slot) = true ∧
    fails (limiterValidate limiter 0 .slot) = false := by
  decide +kernel

/-- 93-141: the rate at several sizes. -/
theorem limiter_rate :
    toNumerator 100 = .ok limiter.cliff ∧
    bps (limiterFromIncluded limiter 1000000000) = some 100 ∧
    bps (limiterFromIncluded limiter 1500000000) = some 133 ∧
    bps (limiterFromIncluded limiter 2000000000) = some 150 ∧
    bps (limiterFromIncluded limiter 3000000000) = some 200 ∧
    bps (limiterFromIncluded limiter 4000000000) = some 250 ∧
    bps (limiterFromIncluded limiter u64Max) = some 9899 := by
  decide +kernel

/-- 190-246: sells and late buys pay the cliff, the last point of the window still counts. -/
theorem limiter_window :
    baseFeeFromIncluded limiter 0 0 .baseToQuote 2000000000 = .ok limiter.cliff ∧
    baseFeeFromIncluded limiter 61 0 .quoteToBase 2000000000 = .ok limiter.cliff ∧
    gives (baseFeeFromIncluded limiter 60 0 .quoteToBase 2000000000) (fun n => decide (limiter.cliff < n)) = true := by
  decide +kernel

/-- What remains of an input after the limiter's fee (`calculate_output_amount`, 143-161). -/
def afterFee (n : Nat) : Option Nat :=
  (do let k ← baseFeeFromIncluded limiter 0 0 .quoteToBase n
      let f ← safeMulDivCastU64 n k FEE_DENOMINATOR .up
      safeSub n f).toOption

/-- 163-187: on the test's grid of 500 sizes a larger input leaves more. -/
theorem limiter_grid : ∀ i ∈ List.range 500, ∃ a b, afterFee (999999990 + 500000000 * i) = some a ∧
    afterFee (999999990 + 500000000 * (i + 1)) = some b ∧ a < b := by
  have h : ∀ i ∈ List.range 500,
      (match afterFee (999999990 + 500000000 * i), afterFee (999999990 + 500000000 * (i + 1)) with
        | some a, some b => decide (a < b)
        | _, _ => false) = true := by decide +kernel
  intro i hi
  have := h i hi
  split at this
  · next a b ha hb => exact ⟨a, b, ha, hb, of_decide_eq_true this⟩
  · cases this

/-! ## Vesting (test_dammv2_vesting_params.rs) -/

/-- 8-133: all at the cliff; half at the cliff and the rest in ten parts; nothing at the cliff. -/
theorem vesting_params :
    (⟨1, 100, 0, 0, 0, 10⟩ : LiqVesting).params 1000000000 0 = .ok ⟨10, 0, 1000000000, 0, 0⟩ ∧
    (⟨1, 100, 500, 10, 6, 10⟩ : LiqVesting).params 1000000000 0 = .ok ⟨10, 50000000, 500000000, 6, 10⟩ ∧
    (⟨1, 100, 1000, 10, 6, 10⟩ : LiqVesting).params 1000000000 0 = .ok ⟨10, 100000000, 0, 6, 10⟩ := by
  decide +kernel

/-- 135-190: what is locked after a day. -/
theorem vesting_locked :
    (⟨1, 40, 100, 50, 3600, 43200⟩ : LiqVesting).lockedBpsAt SECONDS_PER_DAY = .ok 1519 ∧
    ({ Ex.mainnetConfigQ with
        partnerPermLockedPct := 1, creatorPermLockedPct := 1,
        partnerVesting := ⟨1, 40, 100, 50, 3600, 43200⟩,
        creatorVesting := ⟨1, 40, 100, 50, 3600, 43200⟩ } : PoolConfig).lockedBpsAt SECONDS_PER_DAY = .ok 3238 := by
  decide +kernel

/-! ## Arithmetic (test_math_utils.rs, test_volitility_accumulate.rs, test_dynamic_fee_params.rs) -/

theorem square_roots : [0, 1, 2, 3, 4].map sqrtU256 = [some 0, some 1, some 1, some 1, some 2] := by
  decide +kernel

/-- `get_price_from_id` of the tests (price_math.rs 10-18) for ids that are not negative. -/
def priceOf (id binStep : Nat) : Option Nat := powQ64 (ONE_Q64 + binStep * 2 ^ 64 / 10000) id

/-- test_volitility_accumulate.rs 10-43 and 76-83. -/
theorem bins :
    ONE_Q64 * BIN_STEP_BPS_DEFAULT / BASIS_POINT_MAX = BIN_STEP_BPS_U128_DEFAULT ∧
    (match priceOf 100 BIN_STEP_BPS_DEFAULT, priceOf 20 BIN_STEP_BPS_DEFAULT with
      | some a, some b => decide (deltaBinId BIN_STEP_BPS_U128_DEFAULT a b = .ok 160)
      | _, _ => false) = true ∧
    deltaBinId BIN_STEP_BPS_U128_DEFAULT 1000000000 1000000000 = .ok 0 := by
  decide +kernel

/-- test_dynamic_fee_params.rs 31-59, with the square root of 1.15 in Q64.64 rounded down. -/
theorem max_volatility :
    (Nat.sqrt (115 * 2 ^ 128 / 100) - ONE_Q64) / DAMM_BIN_STEP_U128 * 2 * BASIS_POINT_MAX = DAMM_MAX_VOLATILITY ∧
    (DAMM_MAX_VOLATILITY * DAMM_BIN_STEP) ^ 2 = SQUARE_VFA_BIN := by
  decide +kernel

/-- test_dynamic_fee_params.rs 61-110: with a base fee of 10% the largest surcharge is 20% of it, less under 1% of that. -/
theorem max_surcharge :
    gives (toNumerator 1000) (fun base => gives (dynamicFeeParams base) fun d =>
      gives (variableFee ⟨1, d.maxVolatility, d.variableFeeControl, d.binStep, d.filterPeriod, d.decayPeriod, d.reductionFactor,
          d.binStepU128⟩ ⟨0, 0, d.maxVolatility, 0⟩) fun v =>
        decide (v ≤ base * 20 / 100) && decide ((base * 20 / 100 - v) * 100 / (base * 20 / 100) < 1)) = true := by
  decide +kernel

/-! ## Permissions and masks (test_operator_permission.rs, test_migration_fee_status.rs) -/

/-- test_operator_permission.rs: bit 0 claims protocol fees, bit 1 zaps them. -/
theorem permissions :
    (⟨0, 3⟩ : Operator).allows 1 = true ∧ (⟨0, 3⟩ : Operator).allows 0 = true ∧
    (⟨0, 1⟩ : Operator).allows 1 = false ∧ (⟨0, 2⟩ : Operator).allows 0 = false := by
  decide +kernel

/-- test_migration_fee_status.rs: each side's share can be taken once, in the test's order. -/
theorem masks :
    gives (takeBit 0 PARTNER_MIGRATION_FEE_MASK .panic) (fun s =>
      fails (takeBit s PARTNER_MIGRATION_FEE_MASK .panic) &&
      gives (takeBit s CREATOR_MIGRATION_FEE_MASK .panic) (fun t =>
        fails (takeBit t PARTNER_MIGRATION_FEE_MASK .panic) && fails (takeBit t CREATOR_MIGRATION_FEE_MASK .panic))) = true := by
  decide +kernel

end Vectors

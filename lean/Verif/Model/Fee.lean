import Verif.Model.Math

/-!
# Fees: `base_fee/*`, `state/fee.rs`, the fee part of `state/config.rs` and `params/fee_parameters.rs`
-/

namespace Dbc

/-- `TradeDirection` (params/swap.rs 6-11). -/
inductive TradeDirection | baseToQuote | quoteToBase
  deriving DecidableEq, Repr

/-- `ActivationType` (utils/activation_handler.rs 20-23). -/
inductive ActivationType | slot | timestamp
  deriving DecidableEq, Repr

/-- `ActivationType::try_from` (utils/activation_handler.rs 18-23). -/
def ActivationType.tryFrom : Nat → Option ActivationType
  | 0 => some .slot
  | 1 => some .timestamp
  | _ => none

/-- `CollectFeeMode` (state/virtual_pool.rs 43-48). -/
inductive CollectFeeMode | quoteToken | outputToken
  deriving DecidableEq, Repr

/-- `CollectFeeMode::try_from` (state/virtual_pool.rs 33-48). -/
def CollectFeeMode.tryFrom : Nat → Option CollectFeeMode
  | 0 => some .quoteToken
  | 1 => some .outputToken
  | _ => none

/-- `BaseFeeConfig` / `BaseFeeParameters` (state/config.rs 227-236, params/fee_parameters.rs 21-27); padding dropped. -/
structure BaseFeeConfig where
  /-- `cliff_fee_numerator: u64` -/
  cliff : Nat
  /-- `first_factor: u16` -/
  first : Nat
  /-- `second_factor: u64` -/
  second : Nat
  /-- `third_factor: u64` -/
  third : Nat
  /-- `base_fee_mode: u8` -/
  mode : Nat
  deriving DecidableEq, Repr

/-- `DynamicFeeConfig` (state/config.rs 287-298); padding dropped. -/
structure DynamicFeeConfig where
  initialized : Nat
  maxVolAcc : Nat
  vfc : Nat
  binStep : Nat
  filterPeriod : Nat
  decayPeriod : Nat
  reductionFactor : Nat
  binStepU128 : Nat
  deriving DecidableEq, Repr

/-- `PoolFeesConfig` (state/config.rs 63-66). -/
structure PoolFeesConfig where
  base : BaseFeeConfig
  dyn : DynamicFeeConfig
  deriving DecidableEq, Repr

/-- `VolatilityTracker` (state/fee.rs 26-32). -/
structure VolTracker where
  lastUpdate : Nat
  priceRef : Nat
  volAcc : Nat
  volRef : Nat
  deriving DecidableEq, Repr

/-- `FeeMode` (state/fee.rs 114-118). -/
structure FeeMode where
  feesOnInput : Bool
  feesOnBase : Bool
  hasReferral : Bool
  deriving DecidableEq, Repr

/-- `to_numerator` with `denominator = FEE_DENOMINATOR` (params/fee_parameters.rs 184-189). -/
def toNumerator (bps : Nat) : Res Nat := do
  let n ← safeMul u128Max bps FEE_DENOMINATOR
  let n ← safeDiv n MAX_BASIS_POINT
  castTo u64Max n

/-- `validate_fee_fraction` (params/fee_parameters.rs 168-174). -/
def validateFeeFraction (num den : Nat) : Res Unit :=
  if den = 0 ∨ den ≤ num then .error .invalidFee else .ok ()

/-! ## Amounts with and without fee (state/config.rs 137-217) -/

/-- `get_excluded_fee_amount` (state/config.rs 172-185): (excluded, fee). -/
def excludedFeeAmount (num included : Nat) : Res (Nat × Nat) := do
  let fee ← safeMulDivCastU64 included num FEE_DENOMINATOR .up
  let ex ← safeSub included fee
  .ok (ex, fee)

/-- `get_included_fee_amount` (state/config.rs 187-199): (included, fee). -/
def includedFeeAmount (num excluded : Nat) : Res (Nat × Nat) := do
  let d ← safeSub FEE_DENOMINATOR num
  let inc ← safeMulDivCastU64 excluded FEE_DENOMINATOR d .up
  let fee ← safeSub inc excluded
  .ok (inc, fee)

/-- The three parts of a fee. [`FeeOnAmountResult`, state/fee.rs 15-22] -/
structure FeeSplit where
  trading : Nat
  protocol : Nat
  referral : Nat
  deriving DecidableEq, Repr

/-- `split_fees` (state/config.rs 201-217). -/
def splitFees (fee : Nat) (hasReferral : Bool) : Res FeeSplit := do
  let protocol ← safeMulDivCastU64 fee PROTOCOL_FEE_PERCENT 100 .down
  let trading ← safeSub fee protocol
  let referral ← (if hasReferral then safeMulDivCastU64 protocol HOST_FEE_PERCENT 100 .down else .ok 0)
  let protocol ← safeSub protocol referral
  .ok ⟨trading, protocol, referral⟩

/-- `get_fee_on_amount` (state/config.rs 137-170): (amount without fee, split). The body after
`get_excluded_fee_amount` is textually the same as `split_fees`. -/
def feeOnAmount (num amount : Nat) (hasReferral : Bool) : Res (Nat × FeeSplit) := do
  let (ex, fee) ← excludedFeeAmount num amount
  let s ← splitFees fee hasReferral
  .ok (ex, s)

/-! ## Fee scheduler (base_fee/fee_scheduler.rs) -/

/-- `get_base_fee_numerator_by_period` (base_fee/fee_scheduler.rs 42-62). Mode 0 is linear, 1 exponential
(base_fee/fee_scheduler.rs 17-22). -/
def schedulerByPeriod (b : BaseFeeConfig) (period : Nat) : Res Nat :=
  let period := min period b.first
  match b.mode with
  | 0 => do
    let red ← safeMul u64Max b.third period
    safeSub b.cliff red
  | 1 =>
    if period ≤ u16Max then getFeeInPeriod b.cliff b.third period else .error .mathOverflow
  | _ => .error .typeCastFailed

/-- `get_base_fee_numerator` (base_fee/fee_scheduler.rs 64-74). -/
def schedulerNumerator (b : BaseFeeConfig) (cur act : Nat) : Res Nat :=
  if b.second = 0 then .ok b.cliff
  else do
    let d ← safeSub cur act
    let period ← safeDiv d b.second
    schedulerByPeriod b period

/-- `FeeScheduler::validate` (base_fee/fee_scheduler.rs 78-96). -/
def schedulerValidate (b : BaseFeeConfig) : Res Unit := do
  let _ ← (if b.second ≠ 0 ∨ b.first ≠ 0 ∨ b.third ≠ 0 then
      req (b.first ≠ 0 ∧ b.second ≠ 0 ∧ b.third ≠ 0) .invalidFeeScheduler
    else .ok ())
  let mn ← schedulerByPeriod b b.first
  let mx := b.cliff
  let _ ← validateFeeFraction mn FEE_DENOMINATOR
  let _ ← validateFeeFraction mx FEE_DENOMINATOR
  req (MIN_FEE_NUMERATOR ≤ mn ∧ mx ≤ MAX_FEE_NUMERATOR) .exceedMaxFeeBps

/-! ## Rate limiter (base_fee/fee_rate_limiter.rs) -/

/-- `is_zero_rate_limiter` (base_fee/fee_rate_limiter.rs 65-67). -/
def limiterZero (b : BaseFeeConfig) : Prop := b.third = 0 ∧ b.second = 0 ∧ b.first = 0
/-- Decidability of the definition above, whose citation covers it. -/
instance (b : BaseFeeConfig) : Decidable (limiterZero b) := by unfold limiterZero; infer_instance

/-- `is_non_zero_rate_limiter` (base_fee/fee_rate_limiter.rs 69-71). -/
def limiterNonZero (b : BaseFeeConfig) : Prop := b.third ≠ 0 ∧ b.second ≠ 0 ∧ b.first ≠ 0
/-- Decidability of the definition above, whose citation covers it. -/
instance (b : BaseFeeConfig) : Decidable (limiterNonZero b) := by unfold limiterNonZero; infer_instance

/-- `is_rate_limiter_applied` (base_fee/fee_rate_limiter.rs 42-63). The `u128` addition of two `u64` cannot
overflow. -/
def limiterApplied (b : BaseFeeConfig) (cur act : Nat) (dir : TradeDirection) : Bool :=
  if limiterZero b then false
  else if dir = .baseToQuote then false
  else if act + b.second < cur then false
  else true

/-- `get_max_index` (base_fee/fee_rate_limiter.rs 73-79). -/
def limiterMaxIndex (b : BaseFeeConfig) : Res Nat := do
  let delta ← safeSub MAX_FEE_NUMERATOR b.cliff
  let inc ← toNumerator b.first
  safeDiv delta inc

/-- The un-normalised fee (times `FEE_DENOMINATOR`) of lines 234-264 of base_fee/fee_rate_limiter.rs, for
`input > x0`: `x0` reference amount, `c` cliff, `i` increment, `m` max index. All `U256` operations stay below
`2^256` for `u64` arguments (lemma `limiterRawFee_lt`), so wrapping is not modelled. -/
def limiterRawFee (x0 c i m input : Nat) : Nat :=
  let a := (input - x0) / x0
  let b := (input - x0) % x0
  if a < m then
    x0 * (c + c * a + i * a * (a + 1) / 2) + b * (c + i * (a + 1))
  else
    x0 * (c + c * m + i * m * (m + 1) / 2) + ((a - m) * x0 + b) * MAX_FEE_NUMERATOR

/-- `get_fee_numerator_from_included_fee_amount` (base_fee/fee_rate_limiter.rs 230-281). `div_rem` by a zero
reference amount panics. -/
def limiterFromIncluded (b : BaseFeeConfig) (input : Nat) : Res Nat :=
  if input ≤ b.third then .ok b.cliff
  else do
    let _ ← req (b.third ≠ 0) .panic
    let m ← limiterMaxIndex b
    let i ← toNumerator b.first
    let fee ← castTo u64Max ((limiterRawFee b.third b.cliff i m input + FEE_DENOMINATOR - 1) / FEE_DENOMINATOR)
    safeMulDivCastU64 fee FEE_DENOMINATOR input .up

/-- `get_excluded_fee_amount` (base_fee/fee_rate_limiter.rs 223-228). -/
def limiterExcluded (b : BaseFeeConfig) (included : Nat) : Res Nat := do
  let num ← limiterFromIncluded b included
  let (ex, _) ← excludedFeeAmount num included
  .ok ex

/-- `get_checked_amounts` (base_fee/fee_rate_limiter.rs 85-101): (excluded, included, overflow). -/
def limiterChecked (b : BaseFeeConfig) : Res (Nat × Nat × Bool) := do
  let m ← limiterMaxIndex b
  if (m + 1) * b.third ≤ u64Max then do
    let ex ← limiterExcluded b ((m + 1) * b.third)
    .ok (ex, (m + 1) * b.third, false)
  else do
    let ex ← limiterExcluded b u64Max
    .ok (ex, u64Max, true)

/-- Wrapping `U256` subtraction (ruint operator `-`). [used at base_fee/fee_rate_limiter.rs 155-162] -/
def wsub256 (a b : Nat) : Nat := (a + 2 ^ 256 - b % 2 ^ 256) % 2 ^ 256

/-- Lines 127-162 of base_fee/fee_rate_limiter.rs: the root of the quadratic. `y`, `y*y`, `4xz` stay below `2^256`;
the two subtractions wrap in the code and are modelled as wrapping. Division by `2x = 0` would panic. -/
def limiterRoot (b : BaseFeeConfig) (i ex : Nat) : Res Nat := do
  let x0 := b.third
  let y := wsub256 (2 * FEE_DENOMINATOR * x0 + i * x0) (2 * b.cliff * x0)
  let z := 2 * ex * FEE_DENOMINATOR * x0
  let s ← (match sqrtU256 (wsub256 (y * y) (4 * i * z)) with
    | some s => .ok s
    | none => .error .mathOverflow)
  let _ ← req (2 * i ≠ 0) .panic
  .ok (wsub256 y s / (2 * i))

/-- `get_fee_numerator_from_excluded_fee_amount` (base_fee/fee_rate_limiter.rs 112-221). -/
def limiterFromExcluded (b : BaseFeeConfig) (ex : Nat) : Res Nat := do
  let exRef ← limiterExcluded b b.third
  if ex ≤ exRef then .ok b.cliff
  else do
    let (chkEx, chkIn, ovf) ← limiterChecked b
    if ex = chkEx then limiterFromIncluded b chkIn
    else do
      let included ← (if ex < chkEx then do
          let i ← toNumerator b.first
          let root ← limiterRoot b i ex
          let aPlusOne ← safeDiv root b.third
          let root64 ← castTo u64Max root
          let firstEx ← limiterExcluded b root64
          let rem ← safeSub ex firstEx
          let num ← castTo u64Max (b.cliff + i * aPlusOne)
          let (incRem, _) ← includedFeeAmount num rem
          let total ← safeAdd u256Max root incRem
          castTo u64Max total
        else if ovf then .error .mathOverflow
        else do
          let rem ← safeSub ex chkEx
          let (incRem, _) ← includedFeeAmount MAX_FEE_NUMERATOR rem
          safeAdd u64Max incRem chkIn)
      let fee ← safeSub included ex
      let num ← safeMulDivCastU64 fee FEE_DENOMINATOR included .up
      let _ ← req (b.cliff ≤ num) .undeterminedError
      .ok num

/-- `FeeRateLimiter::validate` (base_fee/fee_rate_limiter.rs 285-333). -/
def limiterValidate (b : BaseFeeConfig) (collectFeeMode : Nat) (act : ActivationType) : Res Unit :=
  match CollectFeeMode.tryFrom collectFeeMode with
  | none => .error .invalidCollectFeeMode
  | some m => do
    let _ ← req (m = .quoteToken) .invalidFeeRateLimiter
    let _ ← req (MIN_FEE_NUMERATOR ≤ b.cliff ∧ b.cliff ≤ MAX_FEE_NUMERATOR) .invalidFeeRateLimiter
    if limiterZero b then .ok ()
    else do
      let _ ← req (limiterNonZero b) .invalidFeeRateLimiter
      let maxDur := (match act with
        | .slot => MAX_RATE_LIMITER_DURATION_IN_SLOTS
        | .timestamp => MAX_RATE_LIMITER_DURATION_IN_SECONDS)
      let _ ← req (b.second ≤ maxDur) .invalidFeeRateLimiter
      let i ← toNumerator b.first
      let _ ← req (i < FEE_DENOMINATOR) .invalidFeeRateLimiter
      let mn ← limiterFromIncluded b 0
      let mx ← limiterFromIncluded b u64Max
      req (MIN_FEE_NUMERATOR ≤ mn ∧ mx ≤ MAX_FEE_NUMERATOR) .invalidFeeRateLimiter

/-! ## Base fee dispatch (base_fee/mod.rs 33-63) -/

/-- `get_base_fee_numerator_from_included_fee_amount` through `get_base_fee_handler`
(base_fee/mod.rs 33-63, fee_scheduler.rs 97-105, fee_rate_limiter.rs 335-347). -/
def baseFeeFromIncluded (b : BaseFeeConfig) (cur act : Nat) (dir : TradeDirection) (amount : Nat) : Res Nat :=
  match b.mode with
  | 0 => schedulerNumerator b cur act
  | 1 => schedulerNumerator b cur act
  | 2 => if limiterApplied b cur act dir then limiterFromIncluded b amount else .ok b.cliff
  | _ => .error .invalidBaseFeeMode

/-- `get_base_fee_numerator_from_excluded_fee_amount` through `get_base_fee_handler`
(base_fee/mod.rs 33-63, fee_scheduler.rs 107-115, fee_rate_limiter.rs 349-361). -/
def baseFeeFromExcluded (b : BaseFeeConfig) (cur act : Nat) (dir : TradeDirection) (amount : Nat) : Res Nat :=
  match b.mode with
  | 0 => schedulerNumerator b cur act
  | 1 => schedulerNumerator b cur act
  | 2 => if limiterApplied b cur act dir then limiterFromExcluded b amount else .ok b.cliff
  | _ => .error .invalidBaseFeeMode

/-- `get_min_base_fee_numerator` (state/config.rs 219-222; fee_scheduler.rs 127-129; fee_rate_limiter.rs 371-373). -/
def minBaseFee (b : BaseFeeConfig) : Res Nat :=
  match b.mode with
  | 0 => schedulerByPeriod b b.first
  | 1 => schedulerByPeriod b b.first
  | 2 => .ok b.cliff
  | _ => .error .invalidBaseFeeMode

/-- `BaseFeeParameters::validate` (params/fee_parameters.rs 30-40). -/
def baseFeeValidate (b : BaseFeeConfig) (collectFeeMode : Nat) (act : ActivationType) : Res Unit :=
  match b.mode with
  | 0 => schedulerValidate b
  | 1 => schedulerValidate b
  | 2 => limiterValidate b collectFeeMode act
  | _ => .error .invalidBaseFeeMode

/-- `BaseFeeConfig::validate_min_base_fee` (state/config.rs 277-282; fee_scheduler.rs 117-125;
fee_rate_limiter.rs 363-369). -/
def validateMinBaseFee (b : BaseFeeConfig) : Res Unit := do
  let mn ← minBaseFee b
  req (MIN_FEE_NUMERATOR ≤ mn) .invalidMinBaseFee

/-! ## Dynamic fee -/

/-- `get_variable_fee_numerator` (state/config.rs 307-329). -/
def variableFee (d : DynamicFeeConfig) (v : VolTracker) : Res Nat :=
  if d.initialized = 0 then .ok 0
  else do
    let m ← safeMul u128Max v.volAcc d.binStep
    let sq ← safeMul u128Max m m
    let vf ← safeMul u128Max sq d.vfc
    let s ← safeAdd u128Max vf 99999999999
    safeDiv s 100000000000

/-- `get_total_fee_numerator` (state/config.rs 117-135). The `unwrap` cannot fail: the value is at most
`MAX_FEE_NUMERATOR` on that branch. -/
def totalFee (d : DynamicFeeConfig) (v : VolTracker) (baseFee : Nat) : Res Nat := do
  let vf ← variableFee d v
  let t ← safeAdd u128Max vf baseFee
  .ok (if MAX_FEE_NUMERATOR < t then MAX_FEE_NUMERATOR else t)

/-- `get_total_fee_numerator_from_included_fee_amount` (state/config.rs 77-95). -/
def totalFeeFromIncluded (f : PoolFeesConfig) (v : VolTracker) (cur act amount : Nat) (dir : TradeDirection) :
    Res Nat := do
  let b ← baseFeeFromIncluded f.base cur act dir amount
  totalFee f.dyn v b

/-- `get_total_fee_numerator_from_excluded_fee_amount` (state/config.rs 97-115). -/
def totalFeeFromExcluded (f : PoolFeesConfig) (v : VolTracker) (cur act amount : Nat) (dir : TradeDirection) :
    Res Nat := do
  let b ← baseFeeFromExcluded f.base cur act dir amount
  totalFee f.dyn v b

/-- `get_delta_bin_id` (state/fee.rs 39-56). -/
def deltaBinId (binStepU128 a b : Nat) : Res Nat := do
  let upper := if b < a then a else b
  let lower := if b < a then b else a
  let ratio ← safeShlDivCastDown upper lower 64
  let d ← safeSub ratio ONE_Q64
  let d ← safeDiv d binStepU128
  safeMul u128Max d 2

/-- `update_volatility_accumulator` (state/fee.rs 58-79). -/
def updateVolAcc (d : DynamicFeeConfig) (v : VolTracker) (price : Nat) : Res VolTracker := do
  let delta ← deltaBinId d.binStepU128 price v.priceRef
  let m ← safeMul u128Max delta BASIS_POINT_MAX
  let acc ← safeAdd u128Max v.volRef m
  .ok { v with volAcc := min acc d.maxVolAcc }

/-- `update_references` (state/fee.rs 81-110). `saturating_sub` is truncated subtraction. -/
def updateReferences (d : DynamicFeeConfig) (v : VolTracker) (price now : Nat) : Res VolTracker :=
  let elapsed := now - v.lastUpdate
  if d.filterPeriod ≤ elapsed then
    if elapsed < d.decayPeriod then do
      let m ← safeMul u128Max v.volAcc d.reductionFactor
      let r ← safeDiv m BASIS_POINT_MAX
      .ok { v with priceRef := price, volRef := r }
    else .ok { v with priceRef := price, volRef := 0 }
  else .ok v

/-- `DynamicFeeParameters::validate` (params/fee_parameters.rs 111-145). -/
def dynFeeValidate (d : DynamicFeeConfig) : Res Unit := do
  let _ ← req (d.binStep = BIN_STEP_BPS_DEFAULT) .invalidInput
  let _ ← req (d.binStepU128 = BIN_STEP_BPS_U128_DEFAULT) .invalidInput
  let _ ← req (d.filterPeriod < d.decayPeriod) .invalidInput
  let _ ← req (d.reductionFactor ≤ BASIS_POINT_MAX) .invalidInput
  let _ ← req (d.vfc ≤ U24_MAX) .invalidInput
  req (d.maxVolAcc ≤ U24_MAX) .invalidInput

/-- `PoolFeeParameters::validate` (params/fee_parameters.rs 56-64). The optional dynamic fee is represented after
`to_pool_fees_config` (66-83): `initialized = 1` when present, all zero when absent. -/
def poolFeesValidate (f : PoolFeesConfig) (collectFeeMode : Nat) (act : ActivationType) : Res Unit := do
  let _ ← baseFeeValidate f.base collectFeeMode act
  if f.dyn.initialized = 0 then .ok () else dynFeeValidate f.dyn

/-- `get_fee_mode` (state/fee.rs 121-144). -/
def getFeeMode (collectFeeMode : Nat) (dir : TradeDirection) (hasReferral : Bool) : Res FeeMode :=
  match CollectFeeMode.tryFrom collectFeeMode with
  | none => .error .invalidCollectFeeMode
  | some .outputToken =>
    (match dir with
    | .baseToQuote => .ok ⟨false, false, hasReferral⟩
    | .quoteToBase => .ok ⟨false, true, hasReferral⟩)
  | some .quoteToken =>
    (match dir with
    | .baseToQuote => .ok ⟨false, false, hasReferral⟩
    | .quoteToBase => .ok ⟨true, false, hasReferral⟩)

end Dbc

import Verif.Model.Base

/-!
# `math/*`
-/

namespace Dbc

/-- `safe_mul_div_cast_u64::<u64>` (math/utils_math.rs 19-37). The product is formed in `u128`. -/
def safeMulDivCastU64 (x y d : Nat) (r : Rounding) : Res Nat := do
  let prod ← safeMul u128Max x y
  let result ← (match r with
    | .up => do
      let s ← safeAdd u128Max prod d
      let s ← safeSub s 1
      safeDiv s d
    | .down => safeDiv prod d)
  castTo u64Max result

/-- `safe_mul_div_cast_u128` (math/utils_math.rs 40-58). The product is formed in `U256`. -/
def safeMulDivCastU128 (x y d : Nat) (r : Rounding) : Res Nat := do
  let prod ← safeMul u256Max x y
  let result ← (match r with
    | .up => do
      let s ← safeAdd u256Max prod d
      let s ← safeSub s 1
      safeDiv s d
    | .down => safeDiv prod d)
  castTo u128Max result

/-- `mul_div_u256` (math/u128x128_math.rs 74-97): `None` becomes the error `e` chosen by the caller's `ok_or`.
The `U512` product of two `U256` never overflows. -/
def mulDivU256 (x y d : Nat) (r : Rounding) (e : Err) : Res Nat :=
  if d = 0 then .error e
  else if divRound r (x * y) d ≤ u256Max then .ok (divRound r (x * y) d)
  else .error e

/-- `shl_div` with `Rounding::Down` (math/u128x128_math.rs 46-59), `None` mapped to `MathOverflow` and the result
fitting `u128`, as used by `safe_shl_div_cast::<u128>` (math/utils_math.rs 61-69). -/
def safeShlDivCastDown (x y offset : Nat) : Res Nat :=
  if y = 0 then .error .mathOverflow
  else do
    let prod ← safeShl256 x offset
    if prod / y ≤ u128Max then .ok (prod / y) else .error .mathOverflow

/-- Position of the highest set bit (255 - `leading_zeros`) of a non-zero `U256`. [`leading_zeros`, math/utils_math.rs 78-80] -/
def highBit (n : Nat) : Nat := Nat.log2 n

/-- The loop of `sqrt_u256` (math/utils_math.rs 84-95). `bit = 4^k` before the step; the loop runs while
`bit ≠ 0`, i.e. `k+1` times. ruint's `checked_shr` fails when non-zero bits are shifted out; `checked_add` fails
above `U256::MAX`. -/
def sqrtLoop : Nat → Nat → Nat → Option Nat
  | 0, _, result => some result
  | k + 1, n, result =>
    let bit := 4 ^ k
    if result + bit ≤ u256Max then
      if result + bit ≤ n then
        if result % 2 = 0 then
          if result / 2 + bit ≤ u256Max then sqrtLoop k (n - (result + bit)) (result / 2 + bit) else none
        else none
      else
        if result % 2 = 0 then sqrtLoop k n (result / 2) else none
    else none

/-- `sqrt_u256` (math/utils_math.rs 74-96). `shift = (255 - leading_zeros) & !1`, so `bit = 4^(shift/2)`;
the `2^shift` never loses bits because `shift ≤ 255`. -/
def sqrtU256 (radicand : Nat) : Option Nat :=
  if radicand = 0 then some 0
  else sqrtLoop (highBit radicand / 2 + 1) radicand 0

/-- MAX_EXPONENTIAL (math/fee_math.rs 9) -/
def MAX_EXPONENTIAL : Nat := 0x80000

/-- The 19 conditional multiplications of `pow` (math/fee_math.rs 90-189) as a loop: `fuel` bits remain,
`exp` has already been shifted right. Every `checked_mul` is at `u128`. Between two bits `squared_base` is squared;
after the last bit it is not. -/
def powLoop : Nat → Nat → Nat → Nat → Option Nat
  | 0, _, _, result => some result
  | fuel + 1, sq, exp, result =>
    if exp % 2 = 1 then
      if result * sq ≤ u128Max then
        (if fuel = 0 then some (result * sq / 2 ^ 64)
         else if sq * sq ≤ u128Max then powLoop fuel (sq * sq / 2 ^ 64) (exp / 2) (result * sq / 2 ^ 64) else none)
      else none
    else
      (if fuel = 0 then some result
       else if sq * sq ≤ u128Max then powLoop fuel (sq * sq / 2 ^ 64) (exp / 2) result else none)

/-- `pow` (math/fee_math.rs 34-201) for the non-negative exponents the program uses (`passed_period: u16`). -/
def powQ64 (base exp : Nat) : Option Nat :=
  if exp = 0 then some (2 ^ 64)
  else if MAX_EXPONENTIAL ≤ exp then none
  else
    -- math/fee_math.rs 67-72: invert a base that is at least one
    let inv := decide (ONE_Q64 ≤ base)
    let sq := if ONE_Q64 ≤ base then u128Max / base else base
    match powLoop 19 sq exp ONE_Q64 with
    | none => none
    | some result =>
      if result = 0 then none
      else if inv then some (u128Max / result) else some result

/-- `get_fee_in_period` (math/fee_math.rs 13-32). `u128::safe_shl(64)` of a `u64` loses no bits. -/
def getFeeInPeriod (cliff rf passed : Nat) : Res Nat := do
  let bps ← safeDiv (rf * 2 ^ 64) BASIS_POINT_MAX
  let base ← safeSub ONE_Q64 bps
  let result ← (match powQ64 base passed with
    | some v => .ok v
    | none => .error .mathOverflow)
  let prod ← safeMul u128Max result cliff
  castTo u64Max (prod / 2 ^ 64)

end Dbc

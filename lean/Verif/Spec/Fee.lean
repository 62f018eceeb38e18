/-!
# Specification of fees, independent of the program's arithmetic

Rates are in units of 10⁻⁹ ("numerators").
-/

namespace Spec

/-- One billionth units in one. -/
def unit : Nat := 1000000000

/-- The largest rate any trade can be charged: 99%. -/
def maxRate : Nat := 990000000

/-- The smallest rate a configuration may fall to: 0.25%. -/
def minRate : Nat := 2500000

/-- The rate a rate limiter charges on block number `k` (each block is `x0` tokens): the cliff rate plus `k`
increments, at most 99%. -/
def blockRate (cliff inc k : Nat) : Nat := min (cliff + k * inc) maxRate

/-- The sum of the rates of the first `x` tokens, token `j` being in block `j / x0`. -/
def blockFee (x0 cliff inc : Nat) : Nat → Nat
  | 0 => 0
  | x + 1 => blockFee x0 cliff inc x + blockRate cliff inc (x / x0)

/-- `⌈a / b⌉` -/
def ceilDiv (a b : Nat) : Nat := (a + b - 1) / b

/-- The volatility part of the rate, for volatility `v`: `⌈(v · bin step)² · control / 10¹¹⌉`. -/
def volatilityRate (v binStep control : Nat) : Nat := ceilDiv ((v * binStep) ^ 2 * control) 100000000000

end Spec

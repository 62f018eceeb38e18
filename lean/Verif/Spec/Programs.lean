import Verif.Spec.Chain

/-!
# Which token programs a pool's tokens are under
-/

namespace Spec
open Dbc

/-- The mint exists and its token program is `n`: 0 the classic one, 1 Token-2022. -/
def RunsOn (s : Chain) (mint n : Nat) : Prop := (s.mints mint).map (·.program) = some n

/-- What a configuration says about the token programs is so. -/
structure SaysTrue (s : Chain) (c : PoolConfig) : Prop where
  /-- the stored flag of the quote token: 0 exactly if the quote mint is a classic token -/
  quote : ∃ n, RunsOn s c.quoteMint n ∧ (c.quoteTokenFlag = 0 ∧ n = 0 ∨ c.quoteTokenFlag = 1 ∧ n ≠ 0)
  base : c.tokenType ≤ 1
  /-- a pool bound for the first AMM has classic tokens only -/
  old : c.migrationOption = 0 → RunsOn s c.quoteMint 0 ∧ c.tokenType = 0

end Spec

import Verif.Spec.Accept

/-!
# Specification of the supply a pool is launched with
-/

namespace Spec

open Dbc (ConfigParams)

/-- Tokens a pool starts with when its curve migrates at price `P`: the chosen supply if there is one, otherwise what the curve
may sell, the base tokens of the new pool and the token vesting. -/
def launchSupply (p : ConfigParams) (P : Nat) : Nat :=
  match p.tokenSupply with
  | some (pre, _) => pre
  | none => sellable p P + poolBase p P + promisedTotal p

end Spec

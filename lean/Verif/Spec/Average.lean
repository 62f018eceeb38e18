import Verif.Spec.World
import Mathlib.Data.Rat.Cast.Order

/-!
# Amounts of base valued at a displayed price

Prices are square-root prices in Q64.64, as in the API: at `p` one unit of base is worth `(p / 2^64)^2` units of quote.
-/

namespace Spec

/-- What an amount of base is worth in quote at the displayed price `p`. -/
def worth (p : Nat) (base : ℚ) : ℚ := base * ((p : ℚ) / 2 ^ 64) ^ 2

end Spec

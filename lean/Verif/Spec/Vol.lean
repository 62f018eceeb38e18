/-!
# Specification of the volatility measure (used by C30)
-/

namespace Spec

/-- Distance between two square-root prices: twice the number of whole ten-thousandths by which the larger exceeds the
smaller, computed with 64 fractional bits. -/
def distance (p q : Nat) : Nat :=
  2 * ((max p q * 2 ^ 64 / min p q - 2 ^ 64) / (2 ^ 64 / 10000))

/-- The reference volatility with which a swap starts: kept when the last price move is more recent than the filter period,
a configured fraction of the accumulator within the decay period, zero afterwards. -/
def startVolatility (filter decay reductionBps elapsed acc ref : Nat) : Nat :=
  if elapsed < filter then ref else if elapsed < decay then acc * reductionBps / 10000 else 0

/-- The reference price with which a swap starts: the current price unless the last price move is too recent. -/
def startPrice (filter elapsed current ref : Nat) : Nat := if elapsed < filter then ref else current

/-- The accumulator after a swap: starting volatility plus the distance in basis points, up to the configured maximum. -/
def accumulated (cap ref distance : Nat) : Nat := min (ref + 10000 * distance) cap

end Spec

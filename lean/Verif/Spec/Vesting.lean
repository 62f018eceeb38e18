/-!
# Specification of a release schedule
-/

namespace Spec

/-- What a schedule has released at time `t`: nothing before the cliff, `cliffUnlock` from the cliff on, and `per` more for
each completed period of length `freq` after the cliff, for at most `n` periods. -/
def released (cliff cliffUnlock per freq n t : Nat) : Nat :=
  if t < cliff then 0
  else if freq = 0 then cliffUnlock
  else cliffUnlock + min ((t - cliff) / freq) n * per

end Spec

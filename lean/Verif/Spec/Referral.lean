import Verif.Spec.World

/-!
# The same trade with and without a referral account
-/

namespace Spec
open Dbc

/-- From the same pool, `w0` was reached by a trade without and `w1` by the same trade with a referral account, which was paid
`x` of token `f`. The trader pays and gets the same, the price and the reserves move the same, partner and creator earn the
same, and the protocol has `x` less to its name, in the same token; the vault has `x` less, and nothing else differs in what
the pool records about itself. -/
structure PaidByProtocol (w w0 w1 : World) (f : Token) (x : Nat) : Prop where
  paid : ∀ t, traderIn w1 t = traderIn w0 t
  got : ∀ t, traderOut w1 t = traderOut w0 t
  price : w1.pool.sqrtPrice = w0.pool.sqrtPrice
  reserves : ∀ t, reserve w1 t = reserve w0 t
  partner : ∀ t, partnerFee w1 t = partnerFee w0 t
  creator : ∀ t, creatorFee w1 t = creatorFee w0 t
  protocol : ∀ t, protocolFee w1 t + inTok f t x = protocolFee w0 t
  vaults : ∀ t, vault w1 t + inTok f t x = vault w0 t
  referral : ∀ t, referrals w1 t = referrals w t + inTok f t x
  noReferral : ∀ t, referrals w0 t = referrals w t
  volatility : w1.pool.vol = w0.pool.vol
  progress : w1.pool.migrationProgress = w0.pool.migrationProgress ∧ w1.pool.finishTimestamp = w0.pool.finishTimestamp
  /-- a fifth, rounded down, of what the protocol earns by the trade without referral -/
  share : ∀ t, inTok f t x = inTok f t ((protocolFee w0 t - protocolFee w t) * 20 / 100)

end Spec

import Verif.Spec.Curve
import Verif.Spec.Life

/-!
# What an auditor can check about a pool that is already trading

The pools on chain were created by several releases of the program, each with its own checks at creation. These conditions
mention only what is stored in the configuration and pool accounts and the balances of the pool's vaults, so they can be
checked for any pool, whoever created it and whatever happened to it before.
-/

namespace Spec

open Dbc

/-- Base released between the start and `P`, rounded up piece by piece. -/
def baseToUp (ss : List Seg) (P : Nat) : Nat := total (fun s x => ceilDiv (s.L * (x - s.lo)) (s.lo * x)) ss P

/-- The stored configuration is consistent: a proper curve, the amounts and the final price that belong to it, a supply
that covers them, and shares that are percentages. -/
structure Sound (c : PoolConfig) : Prop where
  rest : ∃ n, c.curve = stored c.curve ++ List.replicate n ⟨0, 0⟩
  some : stored c.curve ≠ []
  proper : Proper c.sqrtStartPrice (stored c.curve)
  liquidity : ∀ q ∈ stored c.curve, q.liq ≤ u128Max
  prices : MIN_SQRT_PRICE ≤ c.sqrtStartPrice ∧ topPrice c.sqrtStartPrice (stored c.curve) ≤ MAX_SQRT_PRICE
  final : c.sqrtStartPrice ≤ c.migrationSqrtPrice ∧
    c.migrationSqrtPrice ≤ topPrice c.sqrtStartPrice (stored c.curve) ∧ c.migrationSqrtPrice < MAX_SQRT_PRICE
  cost : quoteToUp (curve c) c.migrationSqrtPrice = c.migrationQuoteThreshold
  next : c.migrationSqrtPrice < topPrice c.sqrtStartPrice (stored c.curve) →
    c.migrationQuoteThreshold < quoteToUp (curve c) (c.migrationSqrtPrice + 1)
  sold : c.swapBaseAmount = baseToUp (curve c) c.migrationSqrtPrice
  amounts : 0 < c.swapBaseAmount ∧ c.swapBaseAmount ≤ u64Max ∧ 0 < c.migrationBaseThreshold ∧
    0 < c.migrationQuoteThreshold ∧ c.migrationQuoteThreshold ≤ u64Max ∧ c.poolCreationFee ≤ u64Max
  flag : c.fixedSupplyFlag = 0 ∨ c.fixedSupplyFlag = 1
  supply : c.fixedSupplyFlag = 1 → c.postMigrationSupply ≤ c.preMigrationSupply ∧ c.preMigrationSupply ≤ u64Max ∧
    c.swapBaseAmount + c.migrationBaseThreshold +
      (c.lockedVesting.cliffUnlock + c.lockedVesting.amountPerPeriod * c.lockedVesting.numberOfPeriod) ≤
        c.postMigrationSupply
  shares : c.creatorTradingFeePct ≤ 100 ∧ c.migrationFeePct ≤ 99 ∧ c.creatorMigrationFeePct ≤ 100

/-- Lamports a pool still has to pay: the two parts of the configured creation fee, and the fixed fee that earlier releases
charged (bit 1 of the second flag byte says it was charged, bit 2 that it was paid out). -/
def creationDue (w : World) : Nat :=
  (if w.pool.creationBits &&& 2 = 0 then partnerCreationFee w else 0) +
  (if w.pool.creationBits &&& 1 = 0 then protocolCreationFee w else 0) +
  (if w.pool.legacyCreationBits &&& 1 ≠ 0 ∧ w.pool.legacyCreationBits &&& 2 = 0 then 10000000 else 0)

/-- A pool that is still trading passes the audit: sound configuration, price on the curve and below its end, reserves that
pay for what the curve says was sold, nothing yet paid that is due only after completion, and balances that cover the books.
Lifetime totals are counted from here. -/
structure Audited (w : World) : Prop where
  config : Sound w.cfg
  trading : phase w = some .trading ∧ w.pool.isMigrated = 0 ∧ w.pool.partnerSurplus = 0 ∧ w.pool.creatorSurplus = 0 ∧
    w.pool.protocolSurplus = 0 ∧ w.pool.migrationFeeStatus = 0 ∧ w.pool.isWithdrawLeftover = 0 ∧
    w.pool.protocolMigBaseFee = 0 ∧ w.pool.protocolMigQuoteFee = 0 ∧ w.pool.hasSwap ≤ 1
  incomplete : ¬ Completed w
  price : w.cfg.sqrtStartPrice ≤ w.pool.sqrtPrice ∧ w.pool.sqrtPrice ≤ w.cfg.migrationSqrtPrice
  quote : quoteToUp (curve w.cfg) w.pool.sqrtPrice ≤ w.pool.quoteReserve
  base : ∃ s, w.cfg.initialBaseSupply = .ok s ∧ s ≤ w.pool.baseReserve + baseToDown (curve w.cfg) w.pool.sqrtPrice
  vaults : ∀ t, fees w t + reserve w t ≤ vault w t
  limits : w.pool.baseReserve ≤ u64Max ∧ w.baseVault ≤ w.supply ∧ w.supply ≤ u64Max ∧ w.quoteVault ≤ u64Max
  creation : w.pool.creationBits ≤ 3 ∧ w.pool.legacyCreationBits ≤ 3 ∧ creationDue w ≤ w.lamports
  fresh : w.led = {}

end Spec

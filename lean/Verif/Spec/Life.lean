import Verif.Spec.World
import Verif.Spec.Fee

/-!
# What a completed pool owes, and to whom

The shares are written out from the configuration's percentages; nothing here uses the program's own split functions.
-/

namespace Spec

open Dbc

/-- The curve is complete: the quote reserve has reached the migration threshold. -/
def Completed (w : World) : Prop := w.cfg.migrationQuoteThreshold ≤ w.pool.quoteReserve

instance (w : World) : Decidable (Completed w) := inferInstanceAs (Decidable (_ ≤ _))

/-- Quote collected above the threshold, and its three parts: partner and creator together get 80%. -/
def surplus (w : World) : Nat := w.pool.quoteReserve - w.cfg.migrationQuoteThreshold
def creatorSurplus (w : World) : Nat := surplus w * 80 / 100 * w.cfg.creatorTradingFeePct / 100
def partnerSurplus (w : World) : Nat := surplus w * 80 / 100 - creatorSurplus w
def protocolSurplus (w : World) : Nat := surplus w - surplus w * 80 / 100

/-- Quote set aside for the new pool, and the migration fee with its two parts. -/
def migrationQuote (w : World) : Nat := ceilDiv (w.cfg.migrationQuoteThreshold * (100 - w.cfg.migrationFeePct)) 100
def migrationFee (w : World) : Nat := w.cfg.migrationQuoteThreshold - migrationQuote w
def creatorMigrationFee (w : World) : Nat := migrationFee w * w.cfg.creatorMigrationFeePct / 100
def partnerMigrationFee (w : World) : Nat := migrationFee w - creatorMigrationFee w

/-- Parts of the creation fee: 10% for the protocol. -/
def protocolCreationFee (w : World) : Nat := w.cfg.poolCreationFee * 10 / 100
def partnerCreationFee (w : World) : Nat := w.cfg.poolCreationFee - protocolCreationFee w

/-- Tokens locked for the creator. -/
def vestingTotal (w : World) : Nat :=
  w.cfg.lockedVesting.cliffUnlock + w.cfg.lockedVesting.amountPerPeriod * w.cfg.lockedVesting.numberOfPeriod

/-- The four phases: trading, complete but vesting not yet funded, ready to migrate, migrated. -/
inductive Phase
  | trading
  | vestingPending
  | ready
  | migrated
  deriving DecidableEq, Repr

/-- The phase recorded in the pool account. -/
def phase (w : World) : Option Phase :=
  match w.pool.migrationProgress with
  | 0 => some .trading
  | 1 => some .vestingPending
  | 2 => some .ready
  | 3 => some .migrated
  | _ => none

/-- Quote tokens owed besides trading fees. Before completion the reserve; afterwards what each party has not yet received
of its surplus and migration fee, and the amount set aside for migration or, once migrated, the protocol's part of it. -/
def owedQuote (w : World) : Nat :=
  match phase w with
  | some .trading => w.pool.quoteReserve
  | some .migrated => rest + w.pool.protocolMigQuoteFee
  | _ => rest + migrationQuote w
where rest : Nat :=
  (partnerSurplus w - w.led.partnerSurplus) + (creatorSurplus w - w.led.creatorSurplus) +
  (if w.pool.protocolSurplus = 0 then protocolSurplus w else 0) +
  (partnerMigrationFee w - w.led.partnerMig) + (creatorMigrationFee w - w.led.creatorMig)

/-- Base tokens owed besides trading fees. -/
def owedBase (w : World) : Nat :=
  match phase w with
  | some .trading => w.pool.baseReserve
  | some .vestingPending => vestingTotal w + w.cfg.migrationBaseThreshold
  | some .ready => w.cfg.migrationBaseThreshold
  | some .migrated => w.pool.protocolMigBaseFee
  | none => 0

/-- Everything owed from the vault of a token. -/
def owed (w : World) : Token → Nat
  | .base => fees w .base + owedBase w
  | .quote => fees w .quote + owedQuote w

end Spec

import Verif.Spec.Life

/-!
# What a vault holds besides what is owed
-/

namespace Spec
open Dbc

/-- Quote tokens set aside for the new pool that neither the new pool nor the protocol got. -/
def unplaced (w : World) : Nat :=
  if phase w = some .migrated then migrationQuote w - (w.led.migQuote + w.led.protoMigQuote) else 0

/-- Tokens sent to a vault by outsiders. -/
def gifts (w : World) : Token → Nat
  | .base => w.led.donBase
  | .quote => w.led.donQuote

/-- The step after which no base token is set aside any more: the migration of a pool whose supply is not fixed, or the
withdrawal of the leftover. -/
def ClearsBase (w : World) : Op → Prop
  | .migrateV1 _ => w.cfg.fixedSupplyFlag ≠ 1
  | .migrateV2 _ => w.cfg.fixedSupplyFlag ≠ 1
  | .withdrawLeftover _ => True
  | _ => False

/-- The instructions by which a party fetches what it is owed. -/
def Fetches : Op → Prop
  | .claimProtocolFee .. => True
  | .claimPartnerFee .. => True
  | .claimCreatorFee .. => True
  | .partnerWithdrawSurplus .. => True
  | .creatorWithdrawSurplus .. => True
  | .withdrawMigrationFee .. => True
  | .withdrawLeftover .. => True
  | _ => False

end Spec

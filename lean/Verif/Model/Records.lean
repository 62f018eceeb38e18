import Verif.Model.Layout

/-!
# How the migration metadata and the operator accounts are stored

Both are zero-copy accounts like those of `Model/Layout.lean`.
-/

namespace Dbc

/-- The stored form of `MeteoraDammMigrationMetadata` (instructions/migration/meteora_damm/meteora_damm_metadata_state.rs 7-36),
behind the discriminator `disc`. `padding_0`, once the creator, is zero in accounts made by this version. -/
def DammMeta.fields (disc pool lpMint : Nat) (m : DammMeta) : List (Nat × Nat) :=
  [(8, disc), (32, pool), (32, 0), (32, m.partner), (32, lpMint), (8, m.partnerLocked), (8, m.partnerLiq), (8, m.creatorLocked),
   (8, m.creatorLiq), (1, 0), (1, m.creatorLockedStatus), (1, m.partnerLockedStatus), (1, m.creatorClaimStatus),
   (1, m.partnerClaimStatus), (107, 0)]

/-- The bytes of a migration metadata account (meteora_damm_metadata_state.rs 5-37; size asserted at 37). -/
def DammMeta.bytes (disc pool lpMint : Nat) (m : DammMeta) : List Nat := pack (m.fields disc pool lpMint)

/-- The stored form of `Operator` (state/operator.rs 25-29), behind the discriminator `disc`. -/
def Operator.fields (disc : Nat) (o : Operator) : List (Nat × Nat) :=
  [(8, disc), (32, o.address), (16, o.permission), (8, 0), (8, 0)]

/-- The bytes of an operator account (state/operator.rs 23-31; size asserted at 31). -/
def Operator.bytes (disc : Nat) (o : Operator) : List Nat := pack (o.fields disc)

end Dbc

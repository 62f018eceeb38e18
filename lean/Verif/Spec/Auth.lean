import Verif.Spec.World

/-!
# Who may do what
-/

namespace Spec
open Dbc

/-- The two operator permissions. -/
inductive Permission
  | claimProtocolFee
  | zapProtocolFee
  deriving DecidableEq, Repr

/-- The bit of a permission in an operator account's permission word. -/
def Permission.bit : Permission → Nat
  | .claimProtocolFee => 0
  | .zapProtocolFee => 1

/-- The permissions a word grants. -/
def grants (word : Nat) (p : Permission) : Prop := word.testBit p.bit = true

instance (word : Nat) (p : Permission) : Decidable (grants word p) := inferInstanceAs (Decidable (_ = true))

/-- Some operator account of this address grants the permission. -/
def Holds (w : World) (who : Nat) (p : Permission) : Prop := ∃ o ∈ w.operators, o.address = who ∧ grants o.permission p

/-- Who signed a withdrawal. -/
def signer : Op → Option Nat
  | .claimProtocolFee s _ _ => some s
  | .zapProtocolFee s _ _ _ _ => some s
  | .claimPartnerFee s _ _ => some s
  | .claimCreatorFee s _ _ => some s
  | .partnerWithdrawSurplus s => some s
  | .creatorWithdrawSurplus s => some s
  | .withdrawMigrationFee s _ => some s
  | .claimPartnerCreationFee s => some s
  | .claimProtocolCreationFee s => some s
  | _ => none

/-- Who holds an authority over the base token. -/
inductive Holder
  | nobody
  | creator
  | partner
  deriving DecidableEq, Repr

/-- The five token-authority options: creator updates, immutable, partner updates, creator updates and mints, partner
updates and mints. Result: who may change the metadata, who may mint. -/
def authorities : Nat → Option (Holder × Holder)
  | 0 => some (.creator, .nobody)
  | 1 => some (.nobody, .nobody)
  | 2 => some (.partner, .nobody)
  | 3 => some (.creator, .creator)
  | 4 => some (.partner, .partner)
  | _ => none

/-- The key of a holder. -/
def Holder.key (creator partner : Nat) : Holder → Option Nat
  | .nobody => none
  | .creator => some creator
  | .partner => some partner

end Spec

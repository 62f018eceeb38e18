import Verif.Model.Board

/-!
# The events of the two instructions that publish descriptions
-/

namespace Dbc

/-- `EvtPartnerMetadata` and `EvtVirtualPoolMetadata` (event.rs 12-24): the account made and the key described. -/
inductive NoticeEvt
  | partner (account feeClaimer : Nat)
  | project (account pool : Nat)
  deriving DecidableEq, Repr

/-- The events on descriptions that an executed instruction writes (instructions/partner/ix_create_partner_metadata.rs 49-52,
instructions/creator/ix_create_virtual_pool_metadata.rs 53-56; no other instruction writes any). -/
def SiteInstr.notices : SiteInstr → List NoticeEvt
  | .partnerMetadata account feeClaimer _ => [.partner account feeClaimer]
  | .poolMetadata account pool _ _ => [.project account pool]
  | _ => []

/-- `EvtCloseClaimFeeOperator` (event.rs 71-76), as written when a legacy operator account is closed: the account and the
operator it names (instructions/admin/ix_close_claim_protocol_fee_operator.rs 24-28). -/
def Site.closings (s : Site) : SiteInstr → List (Nat × Nat)
  | .closeClaimOperator _ account => (s.legacy.find? (fun o => decide (o.1 = account))).toList
  | _ => []

end Dbc

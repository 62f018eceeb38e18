import Verif.Model.Chain

/-!
# The remaining instructions: public descriptions of partners and projects, legacy operators

The two metadata instructions create an account of a computed size and let Anchor serialise a description into it when the
instruction ends. Accounts are therefore kept as bytes here. Rent is left out, and (as in `Verif.Model.Chain`) an address is
used for one kind of account only. Paths are relative to `/repo/programs/dynamic-bonding-curve/src`.
-/

namespace Dbc

/-- The three strings of a description, as bytes (`CreatePartnerMetadataParameters`,
instructions/partner/ix_create_partner_metadata.rs 6-13; `CreateVirtualPoolMetadataParameters`,
instructions/creator/ix_create_virtual_pool_metadata.rs 6-13). The padding of the parameters is not read. -/
structure Notice where
  name : List Nat
  website : List Nat
  logo : List Nat
  deriving DecidableEq, Repr

/-- `k` little-endian bytes of a number (borsh integers and, as everywhere in this model, public keys as numbers). [library encoding; no repository line of its own] -/
def leBytes : Nat → Nat → List Nat
  | 0, _ => []
  | k + 1, n => n % 256 :: leBytes k (n / 256)

/-- A borsh `String`: its length as `u32`, which must fit, and its bytes. -/
def borshString (s : List Nat) : Res (List Nat) := do
  let _ ← req (s.length ≤ u32Max) .external
  .ok (leBytes 4 s.length ++ s)

/-- Account data of a `PartnerMetadata` (state/partner_metadata.rs 4-17) or a `VirtualPoolMetadata`
(state/virtual_pool_metadata.rs 4-17), which have the same layout: discriminator, key, six zero `u128`s
(the padding is never set), three strings. -/
def noticeBytes (disc : List Nat) (key : Nat) (t : Notice) : Res (List Nat) := do
  let n ← borshString t.name
  let w ← borshString t.website
  let l ← borshString t.logo
  .ok (disc ++ leBytes 32 key ++ List.replicate 96 0 ++ n ++ w ++ l)

/-- `PartnerMetadata::space` (state/partner_metadata.rs 21-30) and `VirtualPoolMetadata::space`
(state/virtual_pool_metadata.rs 21-30). -/
def noticeSpace (t : Notice) : Nat := 32 + 16 * 6 + 4 + t.name.length + 4 + t.website.length + 4 + t.logo.length

/-- `init` with `space = 8 + space(&metadata)` (instructions/partner/ix_create_partner_metadata.rs 20-29,
instructions/creator/ix_create_virtual_pool_metadata.rs 22-31) followed by the serialisation at the end of the instruction
(Anchor's `exit`), which fails if the account is too small. -/
def newNotice (disc : List Nat) (key : Nat) (t : Notice) : Res (List Nat) := do
  let d ← noticeBytes disc key t
  let _ ← req (d.length ≤ 8 + noticeSpace t) .external
  .ok (d ++ List.replicate (8 + noticeSpace t - d.length) 0)

/-- Address derivations and account discriminators of the two kinds of description
(instructions/partner/ix_create_partner_metadata.rs 22-25, instructions/creator/ix_create_virtual_pool_metadata.rs 24-27). -/
structure BoardKeys where
  partnerPda : Nat → Nat
  projectPda : Nat → Nat
  partnerDisc : List Nat
  projectDisc : List Nat

/-- The chain with the accounts that hold descriptions, and the `ClaimFeeOperator` accounts left over from earlier versions
of the program (state/claim_fee_operator.rs 4-12; address and operator). -/
structure Site where
  chain : Chain
  partners : Nat → Option (List Nat)
  projects : Nat → Option (List Nat)
  legacy : List (Nat × Nat)

/-- The beginning: nothing exists except legacy operator accounts. [no repository counterpart: the state before the first instruction] -/
def Site.empty (admins : List Nat) (legacy : List (Nat × Nat)) : Site where
  chain := Chain.empty admins
  partners _ := none
  projects _ := none
  legacy := legacy

/-- `create_partner_metadata` (instructions/partner/ix_create_partner_metadata.rs 15-54): the fee claimer signs. -/
def Site.createPartnerMetadata (B : BoardKeys) (s : Site) (account feeClaimer : Nat) (t : Notice) : Res Site := do
  let _ ← req (account = B.partnerPda feeClaimer ∧ s.partners account = none) .external
  let d ← newNotice B.partnerDisc feeClaimer t
  .ok { s with partners := put s.partners account d }

/-- `create_virtual_pool_metadata` (lib.rs 130-136, access_control.rs 33-40,
instructions/creator/ix_create_virtual_pool_metadata.rs 15-58): the signer must be the pool's creator. -/
def Site.createPoolMetadata (B : BoardKeys) (s : Site) (account pool creator : Nat) (t : Notice) : Res Site := do
  let pa ← need (s.chain.pools pool)
  let _ ← req (account = B.projectPda pool ∧ s.projects account = none) .external
  let _ ← req (pa.state.creator = creator) .unauthorized
  let d ← newNotice B.projectDisc pool t
  .ok { s with projects := put s.projects account d }

/-- `close_claim_protocol_fee_operator` (lib.rs 50-55, instructions/admin/ix_close_claim_protocol_fee_operator.rs 5-31). -/
def Site.closeClaimOperator (s : Site) (signer account : Nat) : Res Site := do
  let _ ← req (signer ∈ s.chain.admins) .invalidAdmin
  let _ ← req (∃ o ∈ s.legacy, o.1 = account) .external
  .ok { s with legacy := s.legacy.filter (fun o => decide (o.1 ≠ account)) }

/-- All instructions: those of `Verif.Model.Chain` and the remaining ones of lib.rs. -/
inductive SiteInstr
  | chain (ix : Instr)
  | partnerMetadata (account feeClaimer : Nat) (t : Notice)
  | poolMetadata (account pool creator : Nat) (t : Notice)
  | dammV2Metadata
  | closeClaimOperator (signer account : Nat)

/-- Dispatch (lib.rs 33-240). `migration_damm_v2_create_metadata` does nothing
(instructions/migration/dynamic_amm_v2/migration_damm_v2_create_metadata.rs 20-24). -/
def Site.exec (K : Keys) (B : BoardKeys) (s : Site) : SiteInstr → Res Site
  | .chain ix => do
    let c ← s.chain.exec K ix
    .ok { s with chain := c }
  | .partnerMetadata a f t => s.createPartnerMetadata B a f t
  | .poolMetadata a p c t => s.createPoolMetadata B a p c t
  | .dammV2Metadata => .ok s
  | .closeClaimOperator g a => s.closeClaimOperator g a

/-- The parameters of `create_config` fit their integer types. [the Rust integer types of the arguments, lib.rs 33-240] -/
def SiteInstr.Typed : SiteInstr → Prop
  | .chain ix => ix.Typed
  | _ => True

/-- A history: the instructions that succeeded, each with the state it was executed in. [no repository counterpart: a history of instructions] -/
inductive SiteRun (K : Keys) (B : BoardKeys) : Site → List (Site × SiteInstr) → Site → Prop
  | nil (s : Site) : SiteRun K B s [] s
  | snoc {s s1 s2 : Site} {h : List (Site × SiteInstr)} {ix : SiteInstr} : SiteRun K B s h s1 → ix.Typed →
      s1.exec K B ix = .ok s2 → SiteRun K B s (h ++ [(s1, ix)]) s2

end Dbc

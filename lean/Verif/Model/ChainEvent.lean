import Verif.Model.Chain
import Verif.Model.Event

/-!
# The log of the chain

Which events the instructions of `Model/Chain.lean` write, each under the pool it names.
-/

namespace Dbc

/-- The pool an instruction reports on and what it asks of that pool, for the instructions that emit an event on an existing
pool. The `pool` (or `virtual_pool`) field of every event is the key of the pool account passed in
(instructions/swap/ix_swap.rs 284, 295, 337; operator/ix_claim_protocol_fee.rs 109;
operator/ix_claim_protocol_pool_creation_fee.rs 59; partner/ix_claim_partner_trading_fee.rs 93;
partner/ix_claim_partner_pool_creation_fee.rs 45; partner/ix_withdraw_partner_surplus.rs 79;
creator/ix_claim_creator_trading_fee.rs 87; creator/ix_withdraw_creator_surplus.rs 79; creator/ix_transfer_pool_creator.rs 88;
migration/withdraw_leftover.rs 95; migration/ix_withdraw_migration_fee.rs 128;
migration/meteora_damm/migration_meteora_damm_create_metadata.rs 53). The direction of a swap is read off the input account
(swap/ix_swap.rs 118-126). The instructions not listed emit nothing on a pool (see `World.log`); `create_config` emits events on
the configuration only (partner/ix_create_config.rs 755, 782), which `ConfigEvent.lean` models. -/
def Chain.asked (s : Chain) : Instr → Option (Nat × Op)
  | .swap a => (getTok s.tokens a.input).map fun t => (a.pool, .swap (a.args t.mint))
  | .claimProtocolFee a g b q => some (a.pool, .claimProtocolFee g b q)
  | .claimPartnerFee a g b q => some (a.pool, .claimPartnerFee g b q)
  | .claimCreatorFee a g b q => some (a.pool, .claimCreatorFee g b q)
  | .partnerWithdrawSurplus a g => some (a.pool, .partnerWithdrawSurplus g)
  | .creatorWithdrawSurplus a g => some (a.pool, .creatorWithdrawSurplus g)
  | .withdrawMigrationFee a g f => some (a.pool, .withdrawMigrationFee g f)
  | .claimPartnerCreationFee p _ _ g => some (p, .claimPartnerCreationFee g)
  | .claimProtocolCreationFee p _ _ g => some (p, .claimProtocolCreationFee g)
  | .withdrawLeftover p _ _ _ r _ => some (p, .withdrawLeftover r)
  | .createMeta p _ _ => some (p, .createMeta)
  | .transferCreator p _ _ g n => some (p, .transferCreator g n)
  | _ => none

/-- The events an instruction leading from `s` to `s'` emits, each with the pool it names: those of `World.log`, and
`EvtInitializePool` when a pool is created (initialize_pool/ix_initialize_virtual_pool_with_spl_token.rs 250-257,
ix_initialize_virtual_pool_with_token2022.rs 270-277). The cases without a view or with a failing `World.log` do not arise when
the instruction is executed. -/
def Chain.emitted (K : Keys) (s s' : Chain) (ix : Instr) : List (Nat × Event) :=
  match ix with
  | .initPool a =>
    match s'.view K a.pool with
    | none => []
    | some w => w.initLog.map (a.pool, ·)
  | _ =>
    match s.asked ix with
    | none => []
    | some (P, op) =>
      match s.view K P with
      | none => []
      | some w =>
        match w.log op with
        | .error _ => []
        | .ok es => es.map (P, ·)

/-- A history of the chain from `s` together with everything logged. [no repository counterpart: a history with the events it emits] -/
inductive ChainLog (K : Keys) : Chain → List (Nat × Event) → Chain → Prop
  | nil (s : Chain) : ChainLog K s [] s
  | snoc {s s1 s2 : Chain} {es : List (Nat × Event)} {ix : Instr} : ChainLog K s es s1 → ix.Typed → s1.exec K ix = .ok s2 →
      ChainLog K s (es ++ s1.emitted K s2 ix) s2

end Dbc

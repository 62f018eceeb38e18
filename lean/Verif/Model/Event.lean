import Verif.Model.World

/-!
# Events

What each instruction writes to the transaction's log with `emit_cpi!`. All events of one pool name the pool and most name
its configuration; both addresses are left out here. Values are those of the handler's local variables at the point where
the event is emitted, so each definition repeats the handler up to that point. An instruction that fails logs nothing
(the transaction is rolled back).
-/

namespace Dbc

/-- `EvtSwap` (src/event.rs 88-98). `paramIn` and `paramOut` are the `SwapParameters` the handler reports, the next six
fields the `SwapResult` (src/state/virtual_pool.rs 1207-1214). -/
structure EvtSwap where
  dir : TradeDirection
  hasReferral : Bool
  paramIn : Nat
  paramOut : Nat
  actualIn : Nat
  out : Nat
  next : Nat
  trading : Nat
  protocol : Nat
  referral : Nat
  amountIn : Nat
  time : Nat
  deriving DecidableEq, Repr

/-- `EvtSwap2` (src/event.rs 100-111): the instruction's own parameters and the full result. -/
structure EvtSwap2 where
  dir : TradeDirection
  hasReferral : Bool
  amount0 : Nat
  amount1 : Nat
  mode : Nat
  result : SwapResult
  quoteReserve : Nat
  threshold : Nat
  time : Nat
  deriving DecidableEq, Repr

/-- The events that concern one pool (src/event.rs 78-199). -/
inductive Event
  /-- `EvtInitializePool`, without the pool's, configuration's and mint's addresses -/
  | initializePool (creator poolType activationPoint : Nat)
  | swap (e : EvtSwap)
  | swap2 (e : EvtSwap2)
  | curveComplete (baseReserve quoteReserve : Nat)
  | claimProtocolFee (base quote : Nat)
  | claimTradingFee (base quote : Nat)
  | claimCreatorTradingFee (base quote : Nat)
  | createMigrationMetadata
  | partnerWithdrawSurplus (amount : Nat)
  | creatorWithdrawSurplus (amount : Nat)
  | withdrawLeftover (receiver amount : Nat)
  | updatePoolCreator (creator new : Nat)
  | withdrawMigrationFee (fee flag : Nat)
  /-- `EvtClaimPoolCreationFee`; the receiver is always the treasury and is left out -/
  | claimPoolCreationFee (fee : Nat)
  /-- `EvtPartnerClaimPoolCreationFee`, without the receiving account -/
  | partnerClaimPoolCreationFee (partner fee : Nat)
  deriving DecidableEq, Repr

/-- The `SwapParameters` reported in `EvtSwap` by mode: swap_exact_in.rs 36-39, swap_partial_fill.rs 39-42,
swap_exact_out.rs 39-42 (instructions/swap). -/
def reportedParams (a : SwapArgs) (r : SwapResult) : Nat × Nat :=
  match a.mode with
  | 0 => (a.amount0, a.amount1)
  | 1 => (r.includedIn, r.out)
  | _ => (r.includedIn, a.amount0)

/-- The `EvtSwap` of a swap (swap/ix_swap.rs 283-292), with `get_swap_result` (src/state/virtual_pool.rs 1245-1254). -/
def evtSwap (a : SwapArgs) (r : SwapResult) : EvtSwap where
  dir := a.dir
  hasReferral := a.referral
  paramIn := (reportedParams a r).1
  paramOut := (reportedParams a r).2
  actualIn := r.excludedIn
  out := r.out
  next := r.next
  trading := r.fee.trading
  protocol := r.fee.protocol
  referral := r.fee.referral
  amountIn := r.includedIn
  time := a.clk.time

/-- The `EvtSwap2` of a swap (swap/ix_swap.rs 294-304); `p` is the pool after `apply_swap_result`. -/
def evtSwap2 (c : PoolConfig) (p : Pool) (a : SwapArgs) (r : SwapResult) : EvtSwap2 where
  dir := a.dir
  hasReferral := a.referral
  amount0 := a.amount0
  amount1 := a.amount1
  mode := a.mode
  result := r
  quoteReserve := p.quoteReserve
  threshold := c.migrationQuoteThreshold
  time := a.clk.time

/-- The events of `handle_swap_wrapper` (swap/ix_swap.rs 283-342). -/
def World.swapLog (w : World) (a : SwapArgs) : Res (List Event) := do
  let cur ← currentPoint w.cfg.activationType a.clk
  let p1 ← w.pool.updatePreSwap w.cfg a.clk.time
  let fm ← getFeeMode w.cfg.collectFeeMode a.dir a.referral
  let r ← processSwap w.cfg p1 a fm cur (w.firstMin a)
  let p2 ← p1.apply w.cfg r fm a.dir a.clk.time
  let (b, _) ← swapTransfers w r fm a.dir
  let p3 ← completeSwap w.cfg p2 b a.clk.time
  .ok ([.swap (evtSwap a r), .swap2 (evtSwap2 w.cfg p2 a r)] ++
    (if p2.complete w.cfg.migrationQuoteThreshold then [.curveComplete p3.baseReserve p3.quoteReserve] else []))

/-- The event of `handle_claim_protocol_fee` (operator/ix_claim_protocol_fee.rs 69-112). -/
def World.claimProtocolFeeLog (w : World) (maxBase maxQuote : Nat) : Res (List Event) := do
  let (b, p1) ← w.pool.claimProtocolBase maxBase
  let (q, _) ← p1.claimProtocolQuoteAndSurplus maxQuote w.cfg.migrationQuoteThreshold
  .ok [.claimProtocolFee b q]

/-- The event of `handle_claim_trading_fee` (partner/ix_claim_partner_trading_fee.rs 69-96). -/
def World.claimPartnerFeeLog (w : World) (maxBase maxQuote : Nat) : Res (List Event) := do
  let (b, q, _) ← w.pool.claimPartner maxBase maxQuote
  .ok [.claimTradingFee b q]

/-- The event of `handle_claim_creator_trading_fee` (creator/ix_claim_creator_trading_fee.rs 63-90). -/
def World.claimCreatorFeeLog (w : World) (maxBase maxQuote : Nat) : Res (List Event) := do
  let (b, q, _) ← w.pool.claimCreator maxBase maxQuote
  .ok [.claimCreatorTradingFee b q]

/-- The event of `handle_partner_withdraw_surplus` (partner/ix_withdraw_partner_surplus.rs 62-81). -/
def World.partnerSurplusLog (w : World) : Res (List Event) := do
  let t ← w.pool.totalSurplus w.cfg.migrationQuoteThreshold
  let x ← partnerSurplusOf w.cfg t
  .ok [.partnerWithdrawSurplus x]

/-- The event of `handle_creator_withdraw_surplus` (creator/ix_withdraw_creator_surplus.rs 62-81). -/
def World.creatorSurplusLog (w : World) : Res (List Event) := do
  let t ← w.pool.totalSurplus w.cfg.migrationQuoteThreshold
  let x ← creatorSurplusOf w.cfg t
  .ok [.creatorWithdrawSurplus x]

/-- The event of `handle_withdraw_migration_fee` (migration/ix_withdraw_migration_fee.rs 84-131). -/
def World.migrationFeeLog (w : World) (flag : Nat) : Res (List Event) := do
  let (pa, cr) ← w.cfg.migrationFeeDistribution
  .ok [.withdrawMigrationFee (match flag with | 0 => pa | _ => cr) flag]

/-- The event of `handle_claim_partner_pool_creation_fee` (partner/ix_claim_partner_pool_creation_fee.rs 22-49). -/
def World.partnerCreationFeeLog (w : World) (signer : Nat) : Res (List Event) := do
  let (_, pa) ← w.cfg.splitCreationFee
  .ok [.partnerClaimPoolCreationFee signer pa]

/-- The event of `handle_claim_protocol_pool_creation_fee` (operator/ix_claim_protocol_pool_creation_fee.rs 36-62). -/
def World.protocolCreationFeeLog (w : World) : Res (List Event) := do
  let (fee, _) ← w.pool.takeProtocolCreationFee w.cfg
  .ok [.claimPoolCreationFee fee]

/-- The event of `handle_withdraw_leftover` (migration/withdraw_leftover.rs 70-98). -/
def World.leftoverLog (w : World) (receiver : Nat) : Res (List Event) := do
  let fees ← w.pool.baseFees
  let x ← safeSub w.baseVault fees
  let x ← safeSub x w.pool.protocolMigBaseFee
  .ok [.withdrawLeftover receiver x]

/-- The event of pool creation (initialize_pool/ix_initialize_virtual_pool_with_spl_token.rs 250-257,
ix_initialize_virtual_pool_with_token2022.rs 270-277). -/
def World.initLog (w : World) : List Event :=
  [.initializePool w.pool.creator w.pool.poolType w.pool.activationPoint]

/-- What an instruction on the pool logs. `zap_protocol_fee`, `create_locker`, the two migrations, the LP locks and claims
and the current operator instructions emit nothing (operator/ix_zap_protocol_fee.rs, migration/create_locker.rs,
migration/meteora_damm/*.rs, migration/dynamic_amm_v2/*.rs, admin/ix_create_operator_account.rs,
admin/ix_close_operator_account.rs contain no `emit_cpi!`); donations, minting and burning are not instructions of the
program. `EvtCreateMeteoraMigrationMetadata`: migration_meteora_damm_create_metadata.rs 52-54;
`EvtUpdatePoolCreator`: creator/ix_transfer_pool_creator.rs 87-91. -/
def World.log (w : World) : Op → Res (List Event)
  | .swap a => w.swapLog a
  | .claimProtocolFee _ b q => w.claimProtocolFeeLog b q
  | .claimPartnerFee _ b q => w.claimPartnerFeeLog b q
  | .claimCreatorFee _ b q => w.claimCreatorFeeLog b q
  | .partnerWithdrawSurplus _ => w.partnerSurplusLog
  | .creatorWithdrawSurplus _ => w.creatorSurplusLog
  | .withdrawMigrationFee _ f => w.migrationFeeLog f
  | .claimPartnerCreationFee s => w.partnerCreationFeeLog s
  | .claimProtocolCreationFee _ => w.protocolCreationFeeLog
  | .withdrawLeftover r => w.leftoverLog r
  | .createMeta => .ok [.createMigrationMetadata]
  | .transferCreator s n => .ok [.updatePoolCreator s n]
  | .zapProtocolFee _ _ _ _ _ => .ok []
  | .createLocker => .ok []
  | .migrateV1 _ => .ok []
  | .migrateV2 _ => .ok []
  | .lockLp _ => .ok []
  | .claimLp _ => .ok []
  | .createOperator _ _ _ => .ok []
  | .closeOperator _ _ => .ok []
  | .donate _ _ _ => .ok []
  | .mintMore _ _ => .ok []
  | .burnOwn _ => .ok []

/-- A history together with everything it logged, in order. [no repository counterpart: a history with the events it emits] -/
inductive LogRun : World → List Op → List Event → World → Prop
  | nil (w : World) : LogRun w [] [] w
  | cons {w w1 w2 : World} {op : Op} {ops : List Op} {es es' : List Event} : w.step op = .ok w1 → w.log op = .ok es →
      LogRun w1 ops es' w2 → LogRun w (op :: ops) (es ++ es') w2

end Dbc

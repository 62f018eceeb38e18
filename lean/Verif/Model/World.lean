import Verif.Model.Pool
import Verif.Model.Tx
import Verif.Model.Damm

/-!
# Instruction handlers over one pool and its vaults

A world is one configuration, one pool created from it, and the accounts the pool's instructions touch. Every
handler is a function `World → Res World`; an error means the transaction had no effect. Paths are relative to
`/repo/programs/dynamic-bonding-curve/src/instructions` unless they start with `src/`.
-/

namespace Dbc

/-- The `Clock` sysvar fields the program reads. [`Clock::get`, utils/activation_handler.rs 29-30] -/
structure Clock where
  slot : Nat
  time : Nat
  deriving DecidableEq, Repr

/-- `get_current_point` (src/utils/activation_handler.rs 25-33). -/
def currentPoint (activationType : Nat) (clk : Clock) : Res Nat :=
  match ActivationType.tryFrom activationType with
  | none => .error .invalidActivationType
  | some .slot => .ok clk.slot
  | some .timestamp => .ok clk.time

/-- `Operator` account (src/state/operator.rs 24-30). -/
structure Operator where
  address : Nat
  permission : Nat
  deriving DecidableEq, Repr

/-- `MeteoraDammMigrationMetadata` (migration/meteora_damm/meteora_damm_metadata_state.rs 7-37); the pool key is
implied by the account's address, `lp_mint` is not modelled. -/
structure DammMeta where
  partner : Nat
  partnerLocked : Nat
  partnerLiq : Nat
  creatorLocked : Nat
  creatorLiq : Nat
  creatorLockedStatus : Nat
  partnerLockedStatus : Nat
  creatorClaimStatus : Nat
  partnerClaimStatus : Nat
  deriving DecidableEq, Repr

/-- One hand-out of LP tokens: to whom, whether locked (or claimed), how much. [meteora_damm_lock_lp_token.rs 79-137, meteora_damm_claim_lp_token.rs 55-98] -/
structure LpEvent where
  owner : Nat
  lock : Bool
  amount : Nat
  deriving DecidableEq, Repr

/-- A planned DAMM v2 position: its owner and its liquidity parts. [migrate_damm_v2_initialize_pool.rs 591-635] -/
structure Position where
  owner : Nat
  item : LiqItem
  deriving DecidableEq, Repr

/-- A DAMM v2 position created at migration: its owner, its liquidity, and the two locks requested of DAMM v2 (permanent
lock and vesting schedule). [migrate_damm_v2_initialize_pool.rs 591-635, 698-714] -/
structure DammPosition where
  owner : Nat
  liquidity : Nat
  permanent : Nat
  vesting : Option VestParams
  deriving DecidableEq, Repr

/-- The vesting escrow created by the locker program (migration/create_locker.rs 96-122,
partner/ix_create_config.rs 272-288). -/
structure Escrow where
  recipient : Nat
  start : Nat
  cliffTime : Nat
  frequency : Nat
  cliffUnlock : Nat
  amountPerPeriod : Nat
  numberOfPeriod : Nat
  deriving DecidableEq, Repr

/-- Ghost totals of what moved over the life of the pool. They are written by the handlers below next to the transfer
they record and are never read by them. [ghost totals, no repository counterpart] -/
structure Ledger where
  /-- paid by traders into the vaults, and received by them -/
  tradeBaseIn : Nat := 0
  tradeQuoteIn : Nat := 0
  tradeBaseOut : Nat := 0
  tradeQuoteOut : Nat := 0
  /-- paid to referral accounts -/
  refBase : Nat := 0
  refQuote : Nat := 0
  /-- trading fees accrued to each party by swaps -/
  accPartnerBase : Nat := 0
  accPartnerQuote : Nat := 0
  accCreatorBase : Nat := 0
  accCreatorQuote : Nat := 0
  accProtocolBase : Nat := 0
  accProtocolQuote : Nat := 0
  /-- paid by the fee claim instructions (the protocol's quote payments include its surplus and migration fee) -/
  paidPartnerBase : Nat := 0
  paidPartnerQuote : Nat := 0
  paidCreatorBase : Nat := 0
  paidCreatorQuote : Nat := 0
  paidProtocolBase : Nat := 0
  paidProtocolQuote : Nat := 0
  /-- paid as surplus and as migration fee -/
  partnerSurplus : Nat := 0
  creatorSurplus : Nat := 0
  partnerMig : Nat := 0
  creatorMig : Nat := 0
  /-- sent to the locker, deposited into the new pool, burnt, sent to the leftover receiver -/
  locker : Nat := 0
  migBase : Nat := 0
  migQuote : Nat := 0
  burnt : Nat := 0
  leftover : Nat := 0
  /-- kept back for the protocol out of the amounts set aside for migration -/
  protoMigBase : Nat := 0
  protoMigQuote : Nat := 0
  /-- received from outsiders -/
  donBase : Nat := 0
  donQuote : Nat := 0
  /-- base tokens minted after pool creation by a mint authority -/
  minted : Nat := 0
  /-- base tokens burnt by their holders -/
  burntByHolders : Nat := 0
  /-- lamports: donated, paid to partner and protocol -/
  donLamports : Nat := 0
  lamportsPartner : Nat := 0
  lamportsProtocol : Nat := 0
  /-- number of swaps charged the minimum fee by the first-swap rule -/
  firstMin : Nat := 0
  deriving DecidableEq, Repr

/-- The state of one pool and everything around it. [no single repository counterpart: the accounts of one pool] -/
structure World where
  /-- address of the pool account -/
  key : Nat
  cfg : PoolConfig
  pool : Pool
  baseVault : Nat
  quoteVault : Nat
  /-- lamports of the pool account above its rent-exempt minimum -/
  lamports : Nat
  supply : Nat
  mintAuth : Option Nat
  updateAuth : Option Nat
  /-- DAMM v1 migration metadata, once created -/
  dammMeta : Option DammMeta
  /-- LP tokens of the new pool held by the pool authority -/
  lpVault : Nat
  lpMinted : Nat
  lpLog : List LpEvent
  /-- DAMM v2 positions created at migration -/
  positions : List DammPosition
  /-- the pool the migration asked DAMM to create -/
  newPool : Option NewPool
  escrow : Option Escrow
  operators : List Operator
  admins : List Nat
  led : Ledger
  deriving DecidableEq, Repr

/-! ## Pool creation -/

/-- What `initialize_virtual_pool_with_*` reads from its accounts. `tokenType` is 0 for the SPL instruction and 1 for
the Token-2022 instruction; `donated` are lamports already on the pool address above rent. -/
structure InitArgs where
  key : Nat
  creator : Nat
  tokenType : Nat
  clk : Clock
  donated : Nat
  operators : List Operator
  admins : List Nat
  deriving DecidableEq, Repr

/-- `VirtualPool::initialize` (src/state/virtual_pool.rs 205-230): everything not listed is zero. -/
def Pool.initial (creator price poolType activation baseReserve : Nat) : Pool where
  vol := ⟨0, 0, 0, 0⟩
  creator := creator
  baseReserve := baseReserve
  quoteReserve := 0
  protocolBaseFee := 0
  protocolQuoteFee := 0
  partnerBaseFee := 0
  partnerQuoteFee := 0
  sqrtPrice := price
  activationPoint := activation
  poolType := poolType
  isMigrated := 0
  partnerSurplus := 0
  protocolSurplus := 0
  migrationProgress := 0
  isWithdrawLeftover := 0
  creatorSurplus := 0
  migrationFeeStatus := 0
  metrics := ⟨0, 0, 0, 0⟩
  finishTimestamp := 0
  creatorBaseFee := 0
  creatorQuoteFee := 0
  legacyCreationBits := 0
  creationBits := 0
  hasSwap := 0
  migrationFeeBps := PROTOCOL_LIQUIDITY_MIGRATION_FEE_BPS
  protocolMigBaseFee := 0
  protocolMigQuoteFee := 0

/-- `handle_initialize_virtual_pool_with_spl_token` (initialize_pool/ix_initialize_virtual_pool_with_spl_token.rs
140-259) and `.._token2022` (initialize_pool/ix_initialize_virtual_pool_with_token2022.rs 119-279): the two differ in
the token program and in how metadata is written. Metadata contents and events are not modelled; the update authority
is (initialize_pool/process_create_token_metadata.rs). -/
def initPool (c : PoolConfig) (a : InitArgs) : Res World := do
  let bps ← c.lockedBpsAt SECONDS_PER_DAY
  let _ ← req (MIN_LOCKED_LIQUIDITY_BPS ≤ bps) .invalidMigrationLockedLiquidity
  let _ ← validateMinBaseFee c.fees.base
  let supply ← c.initialBaseSupply
  let _ ← req (c.tokenType = a.tokenType) .invalidTokenType
  match mintAuthority c.tokenUpdateAuthority a.creator c.feeClaimer,
      updateAuthority c.tokenUpdateAuthority a.creator c.feeClaimer with
  | some mint, some upd => do
    let act ← currentPoint c.activationType a.clk
    .ok { key := a.key, cfg := c, pool := Pool.initial a.creator c.sqrtStartPrice a.tokenType act supply,
          baseVault := supply, quoteVault := 0, lamports := a.donated + c.poolCreationFee, supply := supply,
          mintAuth := mint, updateAuth := upd, dammMeta := none, lpVault := 0, lpMinted := 0, lpLog := [],
          positions := [], newPool := none, escrow := none, operators := a.operators, admins := a.admins,
          led := { donLamports := a.donated } }
  | _, _ => .error .invalidTokenAuthorityOption

/-! ## Token transfers -/

/-- A transfer of `a` into a token account holding `v`, where at most `most` tokens exist: the payer owns at most
`most - v`, and the SPL token program rejects an overdraft of the payer's account. -/
def vaultIn (most v a : Nat) : Res Nat := if v + a ≤ most then .ok (v + a) else .error .external
/-- A transfer of `a` out of a token account holding `v`: the SPL token program rejects an overdraft. -/
def vaultOut (v a : Nat) : Res Nat := if a ≤ v then .ok (v - a) else .error .external

/-! ## Swap -/

/-- Inputs of a swap (swap/ix_swap.rs 40-65, 128-145): `referral` is whether a referral account is given. -/
structure SwapArgs where
  mode : Nat
  amount0 : Nat
  amount1 : Nat
  dir : TradeDirection
  referral : Bool
  clk : Clock
  tx : TxCtx
  deriving DecidableEq, Repr

/-- Mode dispatch and slippage checks (swap/ix_swap.rs 222-229, swap_exact_in.rs 7-41, swap_partial_fill.rs 7-44,
swap_exact_out.rs 7-44). -/
def processSwap (c : PoolConfig) (p : Pool) (a : SwapArgs) (fm : FeeMode) (cur : Nat) (firstMin : Bool) :
    Res SwapResult :=
  match a.mode with
  | 0 => do
    let r ← exactIn c p a.amount0 fm a.dir cur firstMin
    let _ ← req (a.amount1 ≤ r.out) .exceededSlippage
    .ok r
  | 1 => do
    let r ← partialIn c p a.amount0 fm a.dir cur firstMin
    let _ ← req (a.amount1 ≤ r.out) .exceededSlippage
    .ok r
  | _ => do
    let r ← exactOut c p a.amount0 fm a.dir cur firstMin
    let _ ← req (r.includedIn ≤ a.amount1) .exceededSlippage
    .ok r

/-- Whether the first-swap minimum fee applies (swap/ix_swap.rs 190-197). -/
def World.firstMin (w : World) (a : SwapArgs) : Bool :=
  decide (w.cfg.enableFirstSwapMinFee = 1) && decide (w.pool.hasSwap = 0) && initIxOk w.key a.referral a.tx

/-- Lines 306-342 of swap/ix_swap.rs: completion of the curve, given the vault balance after the transfers. -/
def completeSwap (c : PoolConfig) (p : Pool) (baseVault now : Nat) : Res Pool :=
  if p.complete c.migrationQuoteThreshold then do
    let fees ← p.baseFees
    let s ← safeAdd u64Max c.migrationBaseThreshold fees
    let t ← c.lockedVesting.total
    let required ← safeAdd u64Max s t
    let _ ← req (required ≤ baseVault) .insufficientLiquidityForMigration
    .ok { p with finishTimestamp := now, migrationProgress := if c.lockedVesting.has then 1 else 2 }
  else .ok p

/-- Lines 241-281 of swap/ix_swap.rs: token transfers; (base vault, quote vault). At most `supply` base tokens and at most
`u64::MAX` quote tokens exist. -/
def swapTransfers (w : World) (r : SwapResult) (fm : FeeMode) (dir : TradeDirection) : Res (Nat × Nat) :=
  match dir with
  | .baseToQuote => do
    let b ← vaultIn w.supply w.baseVault r.includedIn
    let q ← vaultOut w.quoteVault r.out
    if fm.hasReferral then
      (if fm.feesOnBase then do
        let b ← vaultOut b r.fee.referral
        .ok (b, q)
      else do
        let q ← vaultOut q r.fee.referral
        .ok (b, q))
    else .ok (b, q)
  | .quoteToBase => do
    let q ← vaultIn u64Max w.quoteVault r.includedIn
    let b ← vaultOut w.baseVault r.out
    if fm.hasReferral then
      (if fm.feesOnBase then do
        let b ← vaultOut b r.fee.referral
        .ok (b, q)
      else do
        let q ← vaultOut q r.fee.referral
        .ok (b, q))
    else .ok (b, q)

/-- Ghost record of a swap: what the trader and the referral account paid and received, and the fee accrued to each
party, the creator's part being the configured percentage of the trading fee rounded down. [ghost update, no repository counterpart] -/
def Ledger.recordSwap (l : Ledger) (c : PoolConfig) (r : SwapResult) (fm : FeeMode) (dir : TradeDirection)
    (firstMin : Bool) : Ledger :=
  let l := match dir with
    | .baseToQuote => { l with tradeBaseIn := l.tradeBaseIn + r.includedIn, tradeQuoteOut := l.tradeQuoteOut + r.out }
    | .quoteToBase => { l with tradeQuoteIn := l.tradeQuoteIn + r.includedIn, tradeBaseOut := l.tradeBaseOut + r.out }
  let cr := r.fee.trading * c.creatorTradingFeePct / 100
  let l := if fm.feesOnBase then
      { l with
        refBase := l.refBase + r.fee.referral
        accPartnerBase := l.accPartnerBase + (r.fee.trading - cr)
        accCreatorBase := l.accCreatorBase + cr
        accProtocolBase := l.accProtocolBase + r.fee.protocol }
    else
      { l with
        refQuote := l.refQuote + r.fee.referral
        accPartnerQuote := l.accPartnerQuote + (r.fee.trading - cr)
        accCreatorQuote := l.accCreatorQuote + cr
        accProtocolQuote := l.accProtocolQuote + r.fee.protocol }
  { l with firstMin := l.firstMin + (if firstMin then 1 else 0) }

/-- Lines 179-188 of swap/ix_swap.rs: single-swap validation while the rate limiter is active
(`get_fee_rate_limiter` is `Ok` exactly in base fee mode 2, src/state/config.rs 250-263). -/
def World.checkLimiter (w : World) (a : SwapArgs) (cur : Nat) : Res Unit :=
  if w.cfg.fees.base.mode = 2 ∧ limiterApplied w.cfg.fees.base cur w.pool.activationPoint a.dir = true then
    validateSingleSwap w.key a.tx
  else .ok ()

/-- `handle_swap_wrapper` (swap/ix_swap.rs 128-345); its events are `World.swapLog` in Verif/Model/Event.lean. -/
def World.swap (w : World) (a : SwapArgs) : Res World := do
  let _ ← req (a.mode ≤ 2) .typeCastFailed
  let _ ← req (0 < a.amount0) .amountIsZero
  let cur ← currentPoint w.cfg.activationType a.clk
  let _ ← w.checkLimiter a cur
  let _ ← req (¬ w.pool.complete w.cfg.migrationQuoteThreshold) .poolIsCompleted
  let p1 ← w.pool.updatePreSwap w.cfg a.clk.time
  let fm ← getFeeMode w.cfg.collectFeeMode a.dir a.referral
  let r ← processSwap w.cfg p1 a fm cur (w.firstMin a)
  let p2 ← p1.apply w.cfg r fm a.dir a.clk.time
  let (b, q) ← swapTransfers w r fm a.dir
  let p3 ← completeSwap w.cfg p2 b a.clk.time
  .ok { w with pool := p3, baseVault := b, quoteVault := q,
               led := w.led.recordSwap w.cfg r fm a.dir (w.firstMin a) }

/-! ## Fee claims -/

/-- `is_permission_allow` (src/state/operator.rs 38-44). -/
def Operator.allows (o : Operator) (perm : Nat) : Bool := decide (o.permission &&& (1 <<< perm) ≠ 0)

/-- `is_valid_operator_role` (src/access_control.rs 42-54); permission 0 is ClaimProtocolFee, 1 is ZapProtocolFee
(src/state/operator.rs 18-21). The operator account passed may be any existing one. -/
def World.checkOperator (w : World) (signer perm : Nat) : Res Unit :=
  req (∃ o ∈ w.operators, o.address = signer ∧ o.allows perm = true) .invalidPermission

/-- `handle_claim_protocol_fee` (operator/ix_claim_protocol_fee.rs 61-115) with the access control of src/lib.rs. -/
def World.claimProtocolFee (w : World) (signer maxBase maxQuote : Nat) : Res World := do
  let _ ← w.checkOperator signer 0
  let (b, p1) ← w.pool.claimProtocolBase maxBase
  let bv ← vaultOut w.baseVault b
  let (q, p2) ← p1.claimProtocolQuoteAndSurplus maxQuote w.cfg.migrationQuoteThreshold
  let qv ← vaultOut w.quoteVault q
  .ok { w with pool := p2, baseVault := bv, quoteVault := qv,
               led := { w.led with paidProtocolBase := w.led.paidProtocolBase + b
                                   paidProtocolQuote := w.led.paidProtocolQuote + q } }

/-- `handle_zap_protocol_fee` (operator/ix_zap_protocol_fee.rs 85-161). `allowed` is the outcome of the disallowed-mint
list and `zapOk` of the zap-out introspection, both outside the model. -/
def World.zapProtocolFee (w : World) (signer mx : Nat) (isBase allowed zapOk : Bool) : Res World := do
  let _ ← w.checkOperator signer 1
  let _ ← req (allowed = true) .mintRestrictedFromZap
  if isBase then do
    let (b, p1) ← w.pool.claimProtocolBase mx
    let _ ← req (0 < b) .amountIsZero
    let _ ← req (zapOk = true) .external
    let bv ← vaultOut w.baseVault b
    .ok { w with pool := p1, baseVault := bv,
                 led := { w.led with paidProtocolBase := w.led.paidProtocolBase + b } }
  else do
    let (q, p1) ← w.pool.claimProtocolQuoteAndSurplus mx w.cfg.migrationQuoteThreshold
    let _ ← req (0 < q) .amountIsZero
    let _ ← req (zapOk = true) .external
    let qv ← vaultOut w.quoteVault q
    .ok { w with pool := p1, quoteVault := qv,
                 led := { w.led with paidProtocolQuote := w.led.paidProtocolQuote + q } }

/-- `handle_claim_trading_fee` (partner/ix_claim_partner_trading_fee.rs 65-98), access control src/lib.rs and
src/access_control.rs 24-31. -/
def World.claimPartnerFee (w : World) (signer maxBase maxQuote : Nat) : Res World := do
  let _ ← req (w.cfg.feeClaimer = signer) .unauthorized
  let (b, q, p1) ← w.pool.claimPartner maxBase maxQuote
  let bv ← vaultOut w.baseVault b
  let qv ← vaultOut w.quoteVault q
  .ok { w with pool := p1, baseVault := bv, quoteVault := qv,
               led := { w.led with paidPartnerBase := w.led.paidPartnerBase + b
                                   paidPartnerQuote := w.led.paidPartnerQuote + q } }

/-- `handle_claim_creator_trading_fee` (creator/ix_claim_creator_trading_fee.rs 59-92), access control
src/access_control.rs 33-40. -/
def World.claimCreatorFee (w : World) (signer maxBase maxQuote : Nat) : Res World := do
  let _ ← req (w.pool.creator = signer) .unauthorized
  let (b, q, p1) ← w.pool.claimCreator maxBase maxQuote
  let bv ← vaultOut w.baseVault b
  let qv ← vaultOut w.quoteVault q
  .ok { w with pool := p1, baseVault := bv, quoteVault := qv,
               led := { w.led with paidCreatorBase := w.led.paidCreatorBase + b
                                   paidCreatorQuote := w.led.paidCreatorQuote + q } }

/-! ## Surplus, migration fee, creation fee -/

/-- `handle_partner_withdraw_surplus` (partner/ix_withdraw_partner_surplus.rs 48-83). -/
def World.partnerWithdrawSurplus (w : World) (signer : Nat) : Res World := do
  let _ ← req (w.cfg.feeClaimer = signer) .unauthorized
  let _ ← req (w.pool.complete w.cfg.migrationQuoteThreshold) .notPermitToDoThisAction
  let _ ← req (w.pool.partnerSurplus = 0) .surplusHasBeenWithdraw
  let t ← w.pool.totalSurplus w.cfg.migrationQuoteThreshold
  let x ← partnerSurplusOf w.cfg t
  let qv ← vaultOut w.quoteVault x
  .ok { w with pool := { w.pool with partnerSurplus := 1 }, quoteVault := qv,
               led := { w.led with partnerSurplus := w.led.partnerSurplus + x } }

/-- `handle_creator_withdraw_surplus` (creator/ix_withdraw_creator_surplus.rs 48-83). -/
def World.creatorWithdrawSurplus (w : World) (signer : Nat) : Res World := do
  let _ ← req (w.pool.creator = signer) .unauthorized
  let _ ← req (w.pool.complete w.cfg.migrationQuoteThreshold) .notPermitToDoThisAction
  let _ ← req (w.pool.creatorSurplus = 0) .surplusHasBeenWithdraw
  let t ← w.pool.totalSurplus w.cfg.migrationQuoteThreshold
  let x ← creatorSurplusOf w.cfg t
  let qv ← vaultOut w.quoteVault x
  .ok { w with pool := { w.pool with creatorSurplus := 1 }, quoteVault := qv,
               led := { w.led with creatorSurplus := w.led.creatorSurplus + x } }

/-- `eligible_to_withdraw_migration_fee` / `update_withdraw_migration_fee` (src/state/virtual_pool.rs 1141-1146) and the
same pattern for the creation fee bits (1158-1197): test a bit, then XOR it. -/
def takeBit (bits mask : Nat) (e : Err) : Res Nat := do
  let _ ← req (bits &&& mask = 0) e
  .ok (bits ^^^ mask)

/-- `handle_withdraw_migration_fee` (migration/ix_withdraw_migration_fee.rs 70-133); flag 0 partner, 1 creator. -/
def World.withdrawMigrationFee (w : World) (signer flag : Nat) : Res World := do
  let _ ← req (w.pool.complete w.cfg.migrationQuoteThreshold) .notPermitToDoThisAction
  let (pa, cr) ← w.cfg.migrationFeeDistribution
  match flag with
  | 0 => do
    let _ ← req (signer = w.cfg.feeClaimer) .notPermitToDoThisAction
    let s ← takeBit w.pool.migrationFeeStatus PARTNER_MIGRATION_FEE_MASK .migrationFeeHasBeenWithdraw
    let qv ← vaultOut w.quoteVault pa
    .ok { w with pool := { w.pool with migrationFeeStatus := s }, quoteVault := qv,
                 led := { w.led with partnerMig := w.led.partnerMig + pa } }
  | 1 => do
    let _ ← req (signer = w.pool.creator) .notPermitToDoThisAction
    let s ← takeBit w.pool.migrationFeeStatus CREATOR_MIGRATION_FEE_MASK .migrationFeeHasBeenWithdraw
    let qv ← vaultOut w.quoteVault cr
    .ok { w with pool := { w.pool with migrationFeeStatus := s }, quoteVault := qv,
                 led := { w.led with creatorMig := w.led.creatorMig + cr } }
  | _ => .error .typeCastFailed

/-- `transfer_lamports_from_pool_account` (src/utils/token.rs 173-189) on the lamports above the rent minimum. -/
def lamportsOut (v a : Nat) : Res Nat := if a ≤ v then .ok (v - a) else .error .insufficientPoolLamports

/-- `handle_claim_partner_pool_creation_fee` (partner/ix_claim_partner_pool_creation_fee.rs 19-52). -/
def World.claimPartnerCreationFee (w : World) (signer : Nat) : Res World := do
  let _ ← req (w.cfg.feeClaimer = signer) .unauthorized
  let (_, pa) ← w.cfg.splitCreationFee
  let _ ← req (0 < pa) .zeroPoolCreationFee
  let bits ← takeBit w.pool.creationBits PARTNER_CREATION_FEE_CLAIMED_MASK .poolCreationFeeHasBeenClaimed
  let l ← lamportsOut w.lamports pa
  .ok { w with pool := { w.pool with creationBits := bits }, lamports := l,
               led := { w.led with lamportsPartner := w.led.lamportsPartner + pa } }

/-- TOKEN_2022_POOL_WITH_OUTPUT_FEE_COLLECTION_CREATION_FEE (operator/ix_claim_protocol_pool_creation_fee.rs 7): the legacy flat fee in lamports. -/
def LEGACY_CREATION_FEE : Nat := 10000000

/-- Lines 36-53 of operator/ix_claim_protocol_pool_creation_fee.rs: (amount, new pool). -/
def Pool.takeProtocolCreationFee (p : Pool) (c : PoolConfig) : Res (Nat × Pool) := do
  let (fee, p1) ← (if p.creationBits &&& PROTOCOL_CREATION_FEE_CLAIMED_MASK = 0 then do
      let (pr, _) ← c.splitCreationFee
      .ok (pr, { p with creationBits := p.creationBits ^^^ PROTOCOL_CREATION_FEE_CLAIMED_MASK })
    else .ok (0, p))
  if p1.legacyCreationBits &&& LEGACY_CREATION_FEE_CHARGED_MASK ≠ 0 ∧
      p1.legacyCreationBits &&& LEGACY_CREATION_FEE_CLAIMED_MASK = 0 then do
    let fee ← safeAdd u64Max fee LEGACY_CREATION_FEE
    .ok (fee, { p1 with legacyCreationBits := p1.legacyCreationBits ^^^ LEGACY_CREATION_FEE_CLAIMED_MASK })
  else .ok (fee, p1)

/-- `handle_claim_protocol_pool_creation_fee` (operator/ix_claim_protocol_pool_creation_fee.rs 31-65). -/
def World.claimProtocolCreationFee (w : World) (signer : Nat) : Res World := do
  let _ ← w.checkOperator signer 0
  let (fee, p) ← w.pool.takeProtocolCreationFee w.cfg
  let l ← (if 0 < fee then lamportsOut w.lamports fee else .ok w.lamports)
  .ok { w with pool := p, lamports := l,
               led := { w.led with lamportsProtocol := w.led.lamportsProtocol + fee } }

/-! ## Locker, migration, leftover -/

/-- `handle_create_locker` (migration/create_locker.rs 73-136). The locker program pulls the escrow's total
(cliff amount + periods * amount per period) from the base vault. Callable by anyone. -/
def World.createLocker (w : World) : Res World := do
  let _ ← req (w.pool.migrationProgress = 1) .notPermitToDoThisAction
  let v := w.cfg.lockedVesting
  let amount := v.cliffUnlock + v.amountPerPeriod * v.numberOfPeriod
  let bv ← vaultOut w.baseVault amount
  .ok { w with
        pool := { w.pool with migrationProgress := 2 }
        baseVault := bv
        escrow := some ⟨w.pool.creator, w.pool.finishTimestamp,
          min (w.pool.finishTimestamp + v.cliffDuration) u64Max, v.frequency, v.cliffUnlock, v.amountPerPeriod,
          v.numberOfPeriod⟩
        led := { w.led with locker := w.led.locker + amount } }

/-- Amounts set aside for migration, shared by both migrations (migrate_meteora_damm_initialize_pool.rs 240-273,
migrate_damm_v2_initialize_pool.rs 531-577). -/
structure MigAmounts where
  base : Nat
  quote : Nat
  baseFee : Nat
  quoteFee : Nat
  exBase : Nat
  exQuote : Nat
  deriving DecidableEq, Repr

/-- migrate_meteora_damm_initialize_pool.rs 244-273 and migrate_damm_v2_initialize_pool.rs 534-577. -/
def World.migAmounts (w : World) (h : Handler) : Res MigAmounts := do
  let fees ← w.pool.baseFees
  let avail ← safeSub w.baseVault fees
  let (b, q) ← migrationAmounts2 h w.cfg.migrationBaseThreshold w.cfg.migrationQuoteThreshold w.cfg.migrationFeePct avail
  let (bf, qf) ← migrationProtocolFees h w.cfg.migrationSqrtPrice b q w.pool.migrationFeeBps
  let exb ← safeSub b bf
  let exq ← safeSub q qf
  .ok ⟨b, q, bf, qf, exb, exq⟩

/-- Burn of the rest of the base vault (migrate_meteora_damm_initialize_pool.rs 283-309,
migrate_damm_v2_initialize_pool.rs 717-748): the amount burnt. `fees` are the unclaimed base trading fees. -/
def burnAmount (c : PoolConfig) (fees migFee vault : Nat) : Res Nat := do
  let nb ← safeAdd u64Max fees migFee
  let left ← safeSub vault nb
  c.burnable left

/-- What DAMM v1 does during `migrate_meteora_damm` (outside the model): the tokens it takes and the LP it mints.
`config` is the DAMM configuration account passed. [migrate_meteora_damm_initialize_pool.rs 14] -/
structure V1Args where
  config : DammV1Config
  baseTaken : Nat
  quoteTaken : Nat
  lpMinted : Nat
  deriving DecidableEq, Repr

/-- `to_liquidity_distribution_damm_v1` (src/state/config.rs 1202-1215) and `set_liquidity_token_minted`
(migration/meteora_damm/meteora_damm_metadata_state.rs 41-58). -/
def DammMeta.setLiquidity (m : DammMeta) (pa cr : LiqItem) : Res DammMeta := do
  let pl ← castTo u64Max pa.permanent
  let pu ← castTo u64Max pa.unlocked
  let cl ← castTo u64Max cr.permanent
  let cu ← castTo u64Max cr.unlocked
  .ok { m with partnerLocked := pl, partnerLiq := pu, creatorLocked := cl, creatorLiq := cu }

/-- `handle_migrate_meteora_damm` (migration/meteora_damm/migrate_meteora_damm_initialize_pool.rs 212-320). The DAMM v1
program is assumed to take at most the amounts it is given (`external` otherwise). -/
def World.migrateV1 (w : World) (a : V1Args) : Res World := do
  let _ ← a.config.validate w.cfg.migrationFeeOption
  let _ ← req (w.pool.migrationProgress = 2) .notPermitToDoThisAction
  match w.dammMeta with
  | none => .error .external
  | some md => do
    let _ ← req (w.pool.complete w.cfg.migrationQuoteThreshold) .poolIsIncompleted
    let _ ← req (w.cfg.migrationOption = 0) .invalidMigrationOption
    let m ← w.migAmounts .compounding
    let _ ← req (a.baseTaken ≤ m.exBase ∧ a.quoteTaken ≤ m.exQuote) .external
    let bv ← vaultOut w.baseVault a.baseTaken
    let qv ← vaultOut w.quoteVault a.quoteTaken
    let fees ← w.pool.baseFees
    let burn ← burnAmount w.cfg fees m.baseFee bv
    let bv ← vaultOut bv burn
    let _ ← req (a.lpMinted ≤ u64Max) .external
    let (pa, cr) ← w.cfg.liquidityDistribution a.lpMinted
    let md ← md.setLiquidity pa cr
    .ok { w with
          pool := { w.pool with protocolMigBaseFee := m.baseFee, protocolMigQuoteFee := m.quoteFee,
                                isMigrated := 1, migrationProgress := 3 }
          baseVault := bv
          quoteVault := qv
          supply := w.supply - burn
          dammMeta := some md
          lpVault := a.lpMinted
          lpMinted := a.lpMinted
          newPool := some (.v1 a.config m.exBase m.exQuote)
          led := { w.led with migBase := w.led.migBase + a.baseTaken, migQuote := w.led.migQuote + a.quoteTaken,
                              protoMigBase := w.led.protoMigBase + m.baseFee,
                              protoMigQuote := w.led.protoMigQuote + m.quoteFee,
                              burnt := w.led.burnt + burn } }

/-- What DAMM v2 does during `migration_damm_v2` (outside the model): tokens taken for the first and second position, and
the new pool's amounts and liquidity read in between. `config` is the DAMM configuration account passed. [migrate_damm_v2_initialize_pool.rs 34] -/
structure V2Args where
  config : DammV2Config
  base1 : Nat
  quote1 : Nat
  poolBase : Nat
  poolQuote : Nat
  poolLiq : Nat
  base2 : Nat
  quote2 : Nat
  now : Nat
  deriving DecidableEq, Repr

/-- The most DAMM v2 may take for adding `liq` to a pool (assumption about that program): for a concentrated position on
the full range, the two curve amounts rounded up; for a compounding pool, the pro-rata amounts rounded up. [no repository line: DAMM v2 is another program] -/
def dammNeeds (h : Handler) (p liq poolBase poolQuote poolLiq : Nat) : Nat × Nat :=
  match h with
  | .concentrated =>
    (divCeil (liq * (MAX_SQRT_PRICE - p)) (p * MAX_SQRT_PRICE), divCeil (liq * (p - MIN_SQRT_PRICE)) (2 ^ 128))
  | .compounding => (divCeil (liq * poolBase) poolLiq, divCeil (liq * poolQuote) poolLiq)

/-- Lines 591-614 of migrate_damm_v2_initialize_pool.rs: the larger share gets the first position. -/
def orderPositions (partner creator : Nat) (pa cr : LiqItem) : Res (Position × Position) := do
  let tp ← pa.total
  let tc ← cr.total
  .ok (if tc < tp then (⟨partner, pa⟩, ⟨creator, cr⟩) else (⟨creator, cr⟩, ⟨partner, pa⟩))

/-- `lock_liquidity_position` (migrate_damm_v2_initialize_pool.rs 250-323) with the checks around it (628-635, 698-705): the
liquidity locked permanently and the vesting schedule requested, if any. -/
def lockItem (i : LiqItem) (now : Nat) : Res (Nat × Option VestParams) := do
  let locked ← safeAdd u128Max i.permanent i.vested
  if 0 < locked then do
    let v ← (if 0 < i.vested then do
        let p ← i.vesting.params i.vested now
        .ok (some p)
      else .ok none)
    .ok (i.permanent, v)
  else .ok (0, none)

/-- Lines 660-714 of migrate_damm_v2_initialize_pool.rs: the second position, if any liquidity is left for it. Returns the
positions created. The amounts taken are bounded by `dammNeeds` (assumption about DAMM v2). The optional accounts of the
second position are taken to be present when needed; the code unwraps them (lines 340-400). -/
def secondPosition (h : Handler) (p : Nat) (a : V2Args) (second : Position) (liq2 : Nat) : Res (List DammPosition) :=
  if 0 < liq2 then do
    let item ← second.item.adjust liq2
    let _ ← req (a.base2 ≤ (dammNeeds h p liq2 a.poolBase a.poolQuote a.poolLiq).1 ∧
      a.quote2 ≤ (dammNeeds h p liq2 a.poolBase a.poolQuote a.poolLiq).2) .external
    let lock ← lockItem item a.now
    .ok [⟨second.owner, liq2, lock.1, lock.2⟩]
  else do
    let _ ← req (a.base2 = 0 ∧ a.quote2 = 0) .external
    .ok []

/-- `handle_migrate_damm_v2` (migration/dynamic_amm_v2/migrate_damm_v2_initialize_pool.rs 497-753). -/
def World.migrateV2 (w : World) (a : V2Args) : Res World := do
  let _ ← a.config.validate w.cfg.migrationFeeOption
  let _ ← req (w.pool.migrationProgress = 2) .notPermitToDoThisAction
  let _ ← req (w.pool.complete w.cfg.migrationQuoteThreshold) .poolIsIncompleted
  let _ ← req (w.cfg.migrationOption = 1) .invalidMigrationOption
  let fees ← w.pool.baseFees
  let _ ← req (w.cfg.migratedFee.collectFeeMode ≤ 2) .typeCastFailed
  let h := migrationHandler 1 w.cfg.migratedFee.collectFeeMode
  let m ← w.migAmounts h
  let (price, liq, dead) ← initialPoolInformation h w.cfg.migrationSqrtPrice m.exBase m.exQuote
  let (pa, cr) ← w.cfg.liquidityDistribution liq
  let (first, second) ← orderPositions w.cfg.feeClaimer w.pool.creator pa cr
  let t1 ← first.item.total
  let total ← safeAdd u128Max t1 dead
  let np ← createPoolV2 w.cfg.migrationFeeOption w.cfg.migratedFee a.config total price
  let bv ← vaultOut w.baseVault a.base1
  let qv ← vaultOut w.quoteVault a.quote1
  let lock ← lockItem first.item a.now
  let lb ← safeSub m.exBase a.base1
  let lq ← safeSub m.exQuote a.quote1
  let liq2 ← liquidityDelta h w.cfg.migrationSqrtPrice lb lq a.poolBase a.poolQuote a.poolLiq
  let rest ← secondPosition h price a second liq2
  let bv ← vaultOut bv a.base2
  let qv ← vaultOut qv a.quote2
  let burn ← burnAmount w.cfg fees m.baseFee bv
  let bv ← vaultOut bv burn
  .ok { w with
        pool := { w.pool with protocolMigBaseFee := m.baseFee, protocolMigQuoteFee := m.quoteFee,
                              isMigrated := 1, migrationProgress := 3 }
        baseVault := bv
        quoteVault := qv
        supply := w.supply - burn
        positions := ⟨first.owner, t1, lock.1, lock.2⟩ :: rest
        newPool := some np
        led := { w.led with migBase := w.led.migBase + (a.base1 + a.base2),
                            migQuote := w.led.migQuote + (a.quote1 + a.quote2),
                            protoMigBase := w.led.protoMigBase + m.baseFee,
                            protoMigQuote := w.led.protoMigQuote + m.quoteFee,
                            burnt := w.led.burnt + burn } }

/-- `handle_withdraw_leftover` (migration/withdraw_leftover.rs 55-100). The tokens go to the associated token account of
the `leftover_receiver` account, which must be the configured one (`has_one`, withdraw_leftover.rs 22-38). Callable by
anyone. -/
def World.withdrawLeftover (w : World) (receiver : Nat) : Res World := do
  let _ ← req (receiver = w.cfg.leftoverReceiver) .external
  let _ ← req (w.pool.migrationProgress = 3) .notPermitToDoThisAction
  let _ ← req (w.cfg.fixedSupplyFlag = 1) .notPermitToDoThisAction
  let _ ← req (w.pool.isWithdrawLeftover = 0) .leftoverHasBeenWithdraw
  let fees ← w.pool.baseFees
  let x ← safeSub w.baseVault fees
  let x ← safeSub x w.pool.protocolMigBaseFee
  let bv ← vaultOut w.baseVault x
  .ok { w with pool := { w.pool with isWithdrawLeftover := 1 }, baseVault := bv,
               led := { w.led with leftover := w.led.leftover + x } }

/-! ## DAMM v1 metadata, LP tokens, creator transfer -/

/-- `handle_migration_meteora_damm_create_metadata`
(migration/meteora_damm/migration_meteora_damm_create_metadata.rs): once per pool (`init`), DAMM v1 only. -/
def World.createMeta (w : World) : Res World := do
  let _ ← req (w.dammMeta = none) .external
  let _ ← req (w.cfg.migrationOption = 0) .invalidMigrationOption
  .ok { w with dammMeta := some ⟨w.cfg.feeClaimer, 0, 0, 0, 0, 0, 0, 0, 0⟩ }

/-- `lock_as_partner`, `lock_as_creator`, `lock_as_self_partnered_creator`
(meteora_damm_metadata_state.rs 64-121), selected as in meteora_damm_lock_lp_token.rs 125-133. -/
def DammMeta.lock (m : DammMeta) (isPartner isCreator : Bool) : Res (Nat × DammMeta) :=
  match isPartner, isCreator with
  | true, true => do
    let _ ← req (m.creatorLockedStatus ≠ 1 ∧ m.partnerLockedStatus ≠ 1) .notPermitToDoThisAction
    let s ← safeAdd u64Max m.partnerLocked m.creatorLocked
    let _ ← req (s ≠ 0) .notPermitToDoThisAction
    .ok (s, { m with creatorLockedStatus := 1, partnerLockedStatus := 1 })
  | true, false => do
    let _ ← req (m.partnerLockedStatus ≠ 1) .notPermitToDoThisAction
    let _ ← req (m.partnerLocked ≠ 0) .notPermitToDoThisAction
    .ok (m.partnerLocked, { m with partnerLockedStatus := 1 })
  | false, true => do
    let _ ← req (m.creatorLockedStatus ≠ 1) .notPermitToDoThisAction
    let _ ← req (m.creatorLocked ≠ 0) .notPermitToDoThisAction
    .ok (m.creatorLocked, { m with creatorLockedStatus := 1 })
  | false, false => .error .invalidOwnerAccount

/-- `claim_as_partner`, `claim_as_creator`, `claim_as_self_partnered_creator`
(meteora_damm_metadata_state.rs 127-179), selected as in meteora_damm_claim_lp_token.rs 86-94. -/
def DammMeta.claim (m : DammMeta) (isPartner isCreator : Bool) : Res (Nat × DammMeta) :=
  match isPartner, isCreator with
  | true, true => do
    let _ ← req (m.creatorClaimStatus ≠ 1 ∧ m.partnerClaimStatus ≠ 1) .notPermitToDoThisAction
    let s ← safeAdd u64Max m.partnerLiq m.creatorLiq
    let _ ← req (s ≠ 0) .notPermitToDoThisAction
    .ok (s, { m with creatorClaimStatus := 1, partnerClaimStatus := 1 })
  | true, false => do
    let _ ← req (m.partnerClaimStatus ≠ 1) .notPermitToDoThisAction
    let _ ← req (m.partnerLiq ≠ 0) .notPermitToDoThisAction
    .ok (m.partnerLiq, { m with partnerClaimStatus := 1 })
  | false, true => do
    let _ ← req (m.creatorClaimStatus ≠ 1) .notPermitToDoThisAction
    let _ ← req (m.creatorLiq ≠ 0) .notPermitToDoThisAction
    .ok (m.creatorLiq, { m with creatorClaimStatus := 1 })
  | false, false => .error .invalidOwnerAccount

/-- `handle_migrate_meteora_damm_lock_lp_token` (meteora_damm_lock_lp_token.rs 113-137). `owner` need not sign; the
escrow that receives the tokens belongs to `owner` (account constraints). -/
def World.lockLp (w : World) (owner : Nat) : Res World := do
  let _ ← req (w.pool.migrationProgress = 3) .notPermitToDoThisAction
  match w.dammMeta with
  | none => .error .external
  | some m => do
    let (x, m) ← m.lock (decide (owner = m.partner)) (decide (owner = w.pool.creator))
    let v ← vaultOut w.lpVault x
    .ok { w with dammMeta := some m, lpVault := v, lpLog := ⟨owner, true, x⟩ :: w.lpLog }

/-- `handle_migrate_meteora_damm_claim_lp_token` (meteora_damm_claim_lp_token.rs 74-98). `owner` need not sign; the
destination is the owner's associated token account. -/
def World.claimLp (w : World) (owner : Nat) : Res World := do
  let _ ← req (w.pool.migrationProgress = 3) .notPermitToDoThisAction
  match w.dammMeta with
  | none => .error .external
  | some m => do
    let (x, m) ← m.claim (decide (owner = m.partner)) (decide (owner = w.pool.creator))
    let v ← vaultOut w.lpVault x
    .ok { w with dammMeta := some m, lpVault := v, lpLog := ⟨owner, false, x⟩ :: w.lpLog }

/-- Lines 38-80 of creator/ix_transfer_pool_creator.rs: whether the phase allows the transfer. -/
def World.transferAllowed (w : World) : Res Unit :=
  match w.pool.migrationProgress with
  | 0 => .ok ()
  | 3 =>
    if w.cfg.migrationOption = 0 then
      match w.dammMeta with
      | none => .error .invalidAccount
      | some m => do
        let _ ← req (m.partnerLocked = 0 ∨ m.partnerLockedStatus = 1) .notPermitToDoThisAction
        let _ ← req (m.creatorLocked = 0 ∨ m.creatorLockedStatus = 1) .notPermitToDoThisAction
        let _ ← req (m.creatorLiq = 0 ∨ m.creatorClaimStatus = 1) .notPermitToDoThisAction
        req (m.partnerLiq = 0 ∨ m.partnerClaimStatus = 1) .notPermitToDoThisAction
    else .ok ()
  | _ => .error .notPermitToDoThisAction

/-- `handle_transfer_pool_creator` (creator/ix_transfer_pool_creator.rs 29-93) with the account constraint
`new_creator != creator` (lines 21-25). -/
def World.transferCreator (w : World) (signer new : Nat) : Res World := do
  let _ ← req (w.pool.creator = signer) .unauthorized
  let _ ← req (new ≠ signer) .invalidNewCreator
  let _ ← w.transferAllowed
  .ok { w with pool := { w.pool with creator := new } }

/-! ## Operators, outsiders -/

/-- `handle_create_operator_account` (admin/ix_create_operator_account.rs 32-47), `is_admin`
(src/access_control.rs 7-10). The account is a PDA of the whitelisted address, so at most one exists per address. -/
def World.createOperator (w : World) (signer address permission : Nat) : Res World := do
  let _ ← req (signer ∈ w.admins) .invalidAdmin
  let _ ← req (0 < permission ∧ permission < 1 <<< MAX_OPERATION) .invalidPermission
  let _ ← req (∀ o ∈ w.operators, o.address ≠ address) .external
  .ok { w with operators := ⟨address, permission⟩ :: w.operators }

/-- `close_operator_account` (src/lib.rs 44-47, admin/ix_close_operator_account.rs). -/
def World.closeOperator (w : World) (signer address : Nat) : Res World := do
  let _ ← req (signer ∈ w.admins) .invalidAdmin
  .ok { w with operators := w.operators.filter (fun o => decide (o.address ≠ address)) }

/-- Anybody may send tokens to the vaults or lamports to the pool account. [no repository line: anyone may transfer tokens in] -/
def World.donate (w : World) (base quote lamports : Nat) : Res World := do
  let b ← vaultIn w.supply w.baseVault base
  let q ← vaultIn u64Max w.quoteVault quote
  .ok { w with baseVault := b, quoteVault := q, lamports := w.lamports + lamports,
               led := { w.led with donBase := w.led.donBase + base, donQuote := w.led.donQuote + quote,
                                   donLamports := w.led.donLamports + lamports } }

/-- The holder of the mint authority may mint base tokens (SPL token program). -/
def World.mintMore (w : World) (signer amount : Nat) : Res World := do
  let _ ← req (w.mintAuth = some signer) .external
  let _ ← req (w.supply + amount ≤ u64Max) .external
  .ok { w with supply := w.supply + amount, led := { w.led with minted := w.led.minted + amount } }

/-- Holders may burn base tokens they own outside the vault (SPL token program). -/
def World.burnOwn (w : World) (amount : Nat) : Res World := do
  let _ ← req (w.baseVault + amount ≤ w.supply) .external
  .ok { w with supply := w.supply - amount, led := { w.led with burntByHolders := w.led.burntByHolders + amount } }

/-! ## Histories -/

/-- Every instruction that can touch the world. [lib.rs 33-240] -/
inductive Op
  | swap (a : SwapArgs)
  | claimProtocolFee (signer maxBase maxQuote : Nat)
  | zapProtocolFee (signer mx : Nat) (isBase allowed zapOk : Bool)
  | claimPartnerFee (signer maxBase maxQuote : Nat)
  | claimCreatorFee (signer maxBase maxQuote : Nat)
  | partnerWithdrawSurplus (signer : Nat)
  | creatorWithdrawSurplus (signer : Nat)
  | withdrawMigrationFee (signer flag : Nat)
  | claimPartnerCreationFee (signer : Nat)
  | claimProtocolCreationFee (signer : Nat)
  | createLocker
  | migrateV1 (a : V1Args)
  | migrateV2 (a : V2Args)
  | withdrawLeftover (receiver : Nat)
  | createMeta
  | lockLp (owner : Nat)
  | claimLp (owner : Nat)
  | transferCreator (signer new : Nat)
  | createOperator (signer address permission : Nat)
  | closeOperator (signer address : Nat)
  | donate (base quote lamports : Nat)
  | mintMore (signer amount : Nat)
  | burnOwn (amount : Nat)
  deriving DecidableEq, Repr

/-- Dispatch (src/lib.rs 33-240). -/
def World.step (w : World) : Op → Res World
  | .swap a => w.swap a
  | .claimProtocolFee s b q => w.claimProtocolFee s b q
  | .zapProtocolFee s m b x y => w.zapProtocolFee s m b x y
  | .claimPartnerFee s b q => w.claimPartnerFee s b q
  | .claimCreatorFee s b q => w.claimCreatorFee s b q
  | .partnerWithdrawSurplus s => w.partnerWithdrawSurplus s
  | .creatorWithdrawSurplus s => w.creatorWithdrawSurplus s
  | .withdrawMigrationFee s f => w.withdrawMigrationFee s f
  | .claimPartnerCreationFee s => w.claimPartnerCreationFee s
  | .claimProtocolCreationFee s => w.claimProtocolCreationFee s
  | .createLocker => w.createLocker
  | .migrateV1 a => w.migrateV1 a
  | .migrateV2 a => w.migrateV2 a
  | .withdrawLeftover r => w.withdrawLeftover r
  | .createMeta => w.createMeta
  | .lockLp o => w.lockLp o
  | .claimLp o => w.claimLp o
  | .transferCreator s n => w.transferCreator s n
  | .createOperator s a p => w.createOperator s a p
  | .closeOperator s a => w.closeOperator s a
  | .donate b q l => w.donate b q l
  | .mintMore s x => w.mintMore s x
  | .burnOwn x => w.burnOwn x

/-- A history: the instructions that succeeded, in order. Failed instructions change nothing and are left out. [no repository counterpart: a history of instructions] -/
inductive Run : World → List Op → World → Prop
  | nil (w : World) : Run w [] w
  | cons {w w1 w2 : World} {op : Op} {ops : List Op} : w.step op = .ok w1 → Run w1 ops w2 → Run w (op :: ops) w2

/-- A world right after pool creation from a configuration that `create_config` accepted. [no repository counterpart: the state before the first instruction] -/
def Genesis (w : World) : Prop :=
  ∃ p env a c, ConfigParams.Typed p ∧ createConfig p env = .ok c ∧ initPool c a = .ok w

/-- Reachable worlds. [no repository counterpart: states some history reaches] -/
def Reachable (w : World) : Prop := ∃ w0 ops, Genesis w0 ∧ Run w0 ops w

end Dbc

import Verif.Model.World

/-!
# Accounts: many pools, named token accounts, attacker-chosen account lists

The instruction handlers of `Verif.Model.World` work on one pool. This file models what surrounds them on chain: all pools,
configurations, token accounts and mints live in one store, all vaults of all pools are owned by one pool authority, and
the caller of an instruction chooses every account it is given. Each instruction loads the accounts named by the caller,
runs the checks of its `#[derive(Accounts)]` struct, runs the handler on what the accounts hold, writes the result back to
the same accounts and credits the token accounts named by the caller, which may be vaults.

Simplifications: a signer is the owner of the token account it spends (a delegate acts for the owner, a mint authority's
successor acts for it); token program ids, rent, and freezing are left out; an account address is used for one kind of
account only; the LP tokens of a migrated pool are kept with the pool, since DAMM v1 gives every pool its own LP mint; wrapping and
unwrapping SOL is minting by a mint authority and burning by the holder.
Paths are relative to `/repo/programs/dynamic-bonding-curve/src`.
-/

namespace Dbc

/-! ## Addresses -/

/-- Fixed addresses and address derivations. `authority` is const_pda.rs 4-14, `treasury` instructions/admin/auth.rs 12-17,
`native2022` the wrapped-SOL mint of Token-2022 (utils/token.rs 122), `ata` the associated token address of (owner, mint)
(utils/token.rs 198), `poolPda` and `vaultPda` the seeds of
instructions/initialize_pool/ix_initialize_virtual_pool_with_spl_token.rs 75-80, 90-94, `metaPda` those of
instructions/migration/meteora_damm/migration_meteora_damm_create_metadata.rs 23-26, `noZap` the list
`MINTS_DISALLOWED_TO_ZAP_OUT` of the crate `protocol_zap`. `fee m a` is what a mint with the transfer-fee extension withholds
of a transfer of `a`. -/
structure Keys where
  authority : Nat
  treasury : Nat
  native2022 : Nat
  ata : Nat → Nat → Nat
  poolPda : Nat → Nat → Nat → Nat
  vaultPda : Nat → Nat → Nat
  metaPda : Nat → Nat
  noZap : List Nat
  fee : Nat → Nat → Nat

/-! ## Accounts -/

/-- A token account (SPL token or Token-2022). -/
structure TokenAcc where
  mint : Nat
  owner : Nat
  amount : Nat
  deriving DecidableEq, Repr

/-- Token-2022 mint extensions: the two the program accepts, two that matter for custody, and all others. [the extension types tested at utils/token.rs 132-137] -/
inductive Ext
  | metadataPointer
  | tokenMetadata
  | transferFee
  | permanentDelegate
  | other (code : Nat)
  deriving DecidableEq, Repr

/-- A mint. `program` is 0 for the SPL token program and 1 for Token-2022 (`TokenProgramFlags`, utils/token.rs 24-32). -/
structure MintAcc where
  program : Nat
  exts : List Ext
  supply : Nat
  auth : Option Nat
  deriving DecidableEq, Repr

/-- Only Token-2022 mints have extensions. [get_extension_types, utils/token.rs 131-137] -/
def MintAcc.has (m : MintAcc) (e : Ext) : Bool := decide (m.program ≠ 0) && decide (e ∈ m.exts)

/-- The `VirtualPool` account (state/virtual_pool.rs 80-185): the addresses it records, its state, its lamports above rent,
and next to it what other programs hold for this pool (fields as in `World`). -/
structure PoolAcc where
  config : Nat
  baseMint : Nat
  baseVault : Nat
  quoteVault : Nat
  state : Pool
  lamports : Nat
  updateAuth : Option Nat
  lpVault : Nat
  lpMinted : Nat
  lpLog : List LpEvent
  positions : List DammPosition
  newPool : Option NewPool
  escrow : Option Escrow
  led : Ledger
  deriving DecidableEq, Repr

/-- The `MeteoraDammMigrationMetadata` account (instructions/migration/meteora_damm/meteora_damm_metadata_state.rs 7-37). -/
structure MetaAcc where
  pool : Nat
  data : DammMeta
  deriving DecidableEq, Repr

/-- Everything on chain that the program can touch. [no single repository counterpart: the accounts the contexts under instructions/ load] -/
structure Chain where
  configs : Nat → Option PoolConfig
  pools : Nat → Option PoolAcc
  metas : Nat → Option MetaAcc
  mints : Nat → Option MintAcc
  tokens : List (Nat × TokenAcc)
  operators : List Operator
  admins : List Nat

/-- The chain before anything exists (no repository counterpart: the initial state of every execution). -/
def Chain.empty (admins : List Nat) : Chain where
  configs _ := none
  pools _ := none
  metas _ := none
  mints _ := none
  tokens := []
  operators := []
  admins := admins

/-- The value at one address replaced (no repository counterpart: an account write). -/
def put {α : Type} (f : Nat → Option α) (k : Nat) (v : α) : Nat → Option α := fun x => if x = k then some v else f x

/-- Token account lookup by address. [token-account loading by the contexts, e.g. instructions/swap/ix_swap.rs 68-116] -/
def getTok : List (Nat × TokenAcc) → Nat → Option TokenAcc
  | [], _ => none
  | (k, t) :: r, x => if k = x then some t else getTok r x

/-- Token account write by address. [no repository line: the token program writes the account] -/
def setTok : List (Nat × TokenAcc) → Nat → TokenAcc → List (Nat × TokenAcc)
  | [], _, _ => []
  | (k, t) :: r, x, v => if k = x then (k, v) :: r else (k, t) :: setTok r x v

/-- Loading an account that does not exist fails (Anchor's `AccountLoader` and `InterfaceAccount`). -/
def need {α : Type} (o : Option α) : Res α :=
  match o with
  | some a => .ok a
  | none => .error .external

/-! ## Token program -/

/-- What the token program withholds of a transfer of `a` (Token-2022 transfer-fee extension). -/
def MintAcc.short (K : Keys) (m : MintAcc) (key a : Nat) : Nat := if m.has .transferFee then min a (K.fee key a) else 0

/-- Ghost record of `a` tokens arriving at account `dst`: a pool that has `dst` as a vault books them as received from
outside. -/
def PoolAcc.note (pa : PoolAcc) (dst a : Nat) : PoolAcc :=
  { pa with led := { pa.led with
      donBase := pa.led.donBase + (if pa.baseVault = dst then a else 0)
      donQuote := pa.led.donQuote + (if pa.quoteVault = dst then a else 0) } }

/-- The same for all pools. [ghost, no repository counterpart] -/
def noteIn (pools : Nat → Option PoolAcc) (dst a : Nat) : Nat → Option PoolAcc := fun P => (pools P).map (·.note dst a)

/-- Tokens of `mint` added to account `dst`; the token program requires the account to be of that mint. -/
def Chain.give (s : Chain) (mint dst a : Nat) : Res Chain := do
  let t ← need (getTok s.tokens dst)
  let _ ← req (t.mint = mint) .external
  .ok { s with tokens := setTok s.tokens dst { t with amount := t.amount + a }, pools := noteIn s.pools dst a }

/-- The receiving half of `transfer_checked` (utils/token.rs 54-118): `dst` gets `a` less the mint's transfer fee. -/
def Chain.credit (K : Keys) (s : Chain) (mint dst a : Nat) : Res Chain := do
  let m ← need (s.mints mint)
  s.give mint dst (a - m.short K mint a)

/-- The paying half of a transfer signed by a user: the account must belong to the signer and hold enough. The pool
authority is a program address: it signs only inside this program. [no repository line: inside the token program] -/
def Chain.debit (K : Keys) (s : Chain) (signer mint src a : Nat) : Res Chain := do
  let t ← need (getTok s.tokens src)
  let _ ← req (t.mint = mint) .external
  let _ ← req (t.owner = signer ∧ signer ≠ K.authority) .external
  let _ ← req (a ≤ t.amount) .external
  .ok { s with tokens := setTok s.tokens src { t with amount := t.amount - a } }

/-- What the transfer fee of `mint` withholds from the `a` tokens just paid into `vault`. [no repository line: inside the Token-2022 program] -/
def Chain.withhold (K : Keys) (s : Chain) (mint vault a : Nat) : Res Chain := do
  let m ← need (s.mints mint)
  let t ← need (getTok s.tokens vault)
  .ok { s with tokens := setTok s.tokens vault { t with amount := t.amount - m.short K mint a } }

/-- `validate_ata_token` (utils/token.rs 191-205). -/
def Chain.validateAta (K : Keys) (s : Chain) (acc owner mint : Nat) : Res Unit := do
  let _ ← req (acc = K.ata owner mint) .external
  let t ← need (getTok s.tokens acc)
  req (t.owner = owner) .external

/-- Lamports added to address `dst`; if a pool account lives there it books them as received from outside. [no repository line: inside the system program] -/
def Chain.giveLamports (s : Chain) (dst a : Nat) : Chain :=
  { s with pools := fun P => (s.pools P).map fun pa =>
      if P = dst then { pa with lamports := pa.lamports + a,
                                led := { pa.led with donLamports := pa.led.donLamports + a } } else pa }

/-! ## Running a handler on loaded accounts -/

/-- The world a handler sees: pool `P` with account `pa`, the configuration, the base mint and the two vault balances as
loaded from the accounts the caller named, and the DAMM v1 metadata. [no repository counterpart: gathers the loaded accounts] -/
def Chain.world (s : Chain) (P : Nat) (pa : PoolAcc) (c : PoolConfig) (bm : MintAcc) (bv qv : Nat)
    (md : Option DammMeta) : World where
  key := P
  cfg := c
  pool := pa.state
  baseVault := bv
  quoteVault := qv
  lamports := pa.lamports
  supply := bm.supply
  mintAuth := bm.auth
  updateAuth := pa.updateAuth
  dammMeta := md
  lpVault := pa.lpVault
  lpMinted := pa.lpMinted
  lpLog := pa.lpLog
  positions := pa.positions
  newPool := pa.newPool
  escrow := pa.escrow
  operators := s.operators
  admins := s.admins
  led := pa.led

/-- The metadata account of pool `P` at its derived address. [the address check of instructions/migration/meteora_damm/migration_meteora_damm_create_metadata.rs 20-30] -/
def Chain.ownMeta (K : Keys) (s : Chain) (P : Nat) : Option DammMeta :=
  match s.metas (K.metaPda P) with
  | some m => if m.pool = P then some m.data else none
  | none => none

/-- What an instruction has loaded: the pool account, the configuration, the two vaults and the world they make up. [no repository counterpart: the accounts a context has loaded] -/
structure Loaded where
  pa : PoolAcc
  c : PoolConfig
  bv : TokenAcc
  qv : TokenAcc
  w : World

/-- Loading the pool, configuration and vault accounts named by the caller. The base mint is the one of the base vault
given. [`pool.load_mut()` / `config.load()` and the `has_one` constraints, e.g. instructions/swap/ix_swap.rs 68-116] -/
def Chain.load (s : Chain) (P config baseVault quoteVault : Nat) (md : Option DammMeta) : Res Loaded := do
  let pa ← need (s.pools P)
  let c ← need (s.configs config)
  let bv ← need (getTok s.tokens baseVault)
  let qv ← need (getTok s.tokens quoteVault)
  let bm ← need (s.mints bv.mint)
  .ok ⟨pa, c, bv, qv, s.world P pa c bm bv.amount qv.amount md⟩

/-- Writing the handler's result back to the pool, the vaults and the base mint. [no repository line: Anchor writes accounts back on exit] -/
def Chain.save (s : Chain) (P baseVault quoteVault : Nat) (l : Loaded) (w : World) : Chain :=
  { s with
    pools := put s.pools P { l.pa with
      state := w.pool, lamports := w.lamports, updateAuth := w.updateAuth, lpVault := w.lpVault, lpMinted := w.lpMinted,
      lpLog := w.lpLog, positions := w.positions, newPool := w.newPool, escrow := w.escrow, led := w.led }
    tokens := setTok (setTok s.tokens baseVault { l.bv with amount := w.baseVault }) quoteVault
      { l.qv with amount := w.quoteVault }
    mints := match s.mints l.bv.mint with
      | some m => put s.mints l.bv.mint { m with supply := w.supply }
      | none => s.mints }

/-! ## Configurations and pools -/

/-- `is_supported_quote_mint` (utils/token.rs 120-139). -/
def isSupportedQuoteMint (K : Keys) (key : Nat) (m : MintAcc) : Res Bool :=
  if m.program = 0 then .ok true
  else if key = K.native2022 then .error .external
  else .ok (m.exts.all fun e => decide (e = .metadataPointer) || decide (e = .tokenMetadata))

/-- `handle_create_config` with its accounts (instructions/partner/ix_create_config.rs 372-379, 539-560): the configuration
account is new, the quote mint must be supported. -/
def Chain.createConfig (K : Keys) (s : Chain) (key quoteMint feeClaimer leftoverReceiver now : Nat) (p : ConfigParams) :
    Res Chain := do
  let _ ← req (s.configs key = none) .external
  let m ← need (s.mints quoteMint)
  let ok ← isSupportedQuoteMint K quoteMint m
  let c ← Dbc.createConfig p
    { quoteSupported := ok, quoteIsSpl := decide (m.program = 0), now := now, quoteMint := quoteMint,
      feeClaimer := feeClaimer, leftoverReceiver := leftoverReceiver }
  .ok { s with configs := put s.configs key c }

/-- Accounts and inputs of `initialize_virtual_pool_with_*`; `tokenType` tells the two instructions apart. [instructions/initialize_pool/ix_initialize_virtual_pool_with_spl_token.rs 27 and 44, ix_initialize_virtual_pool_with_token2022.rs 29] -/
structure InitIx where
  config : Nat
  quoteMint : Nat
  baseMint : Nat
  pool : Nat
  baseVault : Nat
  quoteVault : Nat
  creator : Nat
  tokenType : Nat
  clk : Clock
  donated : Nat
  deriving DecidableEq, Repr

/-- Pool creation with its accounts (instructions/initialize_pool/ix_initialize_virtual_pool_with_spl_token.rs 43-138,
ix_initialize_virtual_pool_with_token2022.rs 28-117): the configuration must name the quote mint; base mint, pool and both
vaults are created (`init` fails on an existing account) at derived addresses; both vaults belong to the pool authority;
the new base mint carries at most the metadata extensions. -/
def Chain.initPool (K : Keys) (s : Chain) (a : InitIx) : Res Chain := do
  let c ← need (s.configs a.config)
  let _ ← req (c.quoteMint = a.quoteMint) .external
  let _ ← need (s.mints a.quoteMint)
  let _ ← req (s.mints a.baseMint = none) .external
  let _ ← req (a.pool = K.poolPda a.config a.baseMint a.quoteMint ∧ s.pools a.pool = none) .external
  let _ ← req (a.baseVault = K.vaultPda a.baseMint a.pool ∧ getTok s.tokens a.baseVault = none) .external
  let _ ← req (a.quoteVault = K.vaultPda a.quoteMint a.pool ∧ getTok s.tokens a.quoteVault = none ∧
    a.quoteVault ≠ a.baseVault) .external
  let w ← Dbc.initPool c ⟨a.pool, a.creator, a.tokenType, a.clk, a.donated, s.operators, s.admins⟩
  .ok { s with
        pools := put s.pools a.pool
          ⟨a.config, a.baseMint, a.baseVault, a.quoteVault, w.pool, w.lamports, w.updateAuth, w.lpVault, w.lpMinted, w.lpLog,
            w.positions, w.newPool, w.escrow, w.led⟩
        mints := put s.mints a.baseMint
          ⟨a.tokenType, if a.tokenType = 0 then [] else [.metadataPointer, .tokenMetadata], w.supply, w.mintAuth⟩
        tokens := (a.quoteVault, ⟨a.quoteMint, K.authority, w.quoteVault⟩) ::
          (a.baseVault, ⟨a.baseMint, K.authority, w.baseVault⟩) :: s.tokens }

/-! ## Swap -/

/-- Accounts and inputs of `swap`/`swap2` (instructions/swap/ix_swap.rs 40-65, 67-116). -/
structure SwapIx where
  pool : Nat
  config : Nat
  baseVault : Nat
  quoteVault : Nat
  baseMint : Nat
  quoteMint : Nat
  input : Nat
  output : Nat
  referral : Option Nat
  payer : Nat
  mode : Nat
  amount0 : Nat
  amount1 : Nat
  clk : Clock
  tx : TxCtx
  deriving DecidableEq, Repr

/-- The computation of a swap before anything is written (instructions/swap/ix_swap.rs 164-229): its result and fee mode. -/
def World.swapResult (w : World) (a : SwapArgs) : Res (SwapResult × FeeMode) := do
  let cur ← currentPoint w.cfg.activationType a.clk
  let p1 ← w.pool.updatePreSwap w.cfg a.clk.time
  let fm ← getFeeMode w.cfg.collectFeeMode a.dir a.referral
  let r ← processSwap w.cfg p1 a fm cur (w.firstMin a)
  .ok (r, fm)

/-- `get_trade_direction` (instructions/swap/ix_swap.rs 118-126): read off the mint of the input account. -/
def swapDir (inputMint baseMint : Nat) : TradeDirection := if inputMint = baseMint then .baseToQuote else .quoteToBase

/-- The swap as the handler of `World` takes it. [instructions/swap/ix_swap.rs 33-47] -/
def SwapIx.args (a : SwapIx) (inputMint : Nat) : SwapArgs :=
  ⟨a.mode, a.amount0, a.amount1, swapDir inputMint a.baseMint, a.referral.isSome, a.clk, a.tx⟩

/-- Transfers of a swap (instructions/swap/ix_swap.rs 241-281) after the input has been taken from the payer and the vault
balances written: output, then referral fee. -/
def Chain.swapPay (K : Keys) (s : Chain) (a : SwapIx) (dir : TradeDirection) (r : SwapResult) (fm : FeeMode) : Res Chain := do
  let s ← s.credit K (match dir with | .baseToQuote => a.quoteMint | .quoteToBase => a.baseMint) a.output r.out
  match a.referral with
  | none => .ok s
  | some k => s.credit K (if fm.feesOnBase then a.baseMint else a.quoteMint) k r.fee.referral

/-- `handle_swap_wrapper` with its accounts (instructions/swap/ix_swap.rs 67-345). The completion check reads the base vault
before an output sent back to that same vault is counted. -/
def Chain.swap (K : Keys) (s : Chain) (a : SwapIx) : Res Chain := do
  let l ← s.load a.pool a.config a.baseVault a.quoteVault (s.ownMeta K a.pool)
  let tin ← need (getTok s.tokens a.input)
  let _ ← req (l.pa.baseVault = a.baseVault ∧ l.pa.quoteVault = a.quoteVault ∧ l.pa.config = a.config) .external
  let _ ← req (l.bv.mint = a.baseMint ∧ l.qv.mint = a.quoteMint) .external
  let dir := swapDir tin.mint a.baseMint
  let (r, fm) ← l.w.swapResult (a.args tin.mint)
  let w ← l.w.swap (a.args tin.mint)
  let inMint := match dir with | .baseToQuote => a.baseMint | .quoteToBase => a.quoteMint
  let inVault := match dir with | .baseToQuote => a.baseVault | .quoteToBase => a.quoteVault
  let s ← s.debit K a.payer inMint a.input r.includedIn
  let s ← (s.save a.pool a.baseVault a.quoteVault l w).withhold K inMint inVault r.includedIn
  s.swapPay K a dir r fm

/-! ## Claims -/

/-- Accounts of a fee claim: pool, configuration, vaults, mints, and the accounts to be paid. [instructions/partner/ix_claim_partner_trading_fee.rs 14, instructions/creator/ix_claim_creator_trading_fee.rs 12, instructions/operator/ix_claim_protocol_fee.rs 14] -/
structure ClaimIx where
  pool : Nat
  config : Nat
  baseVault : Nat
  quoteVault : Nat
  baseMint : Nat
  quoteMint : Nat
  toBase : Nat
  toQuote : Nat
  deriving DecidableEq, Repr

/-- `claim_protocol_fee` with its accounts (instructions/operator/ix_claim_protocol_fee.rs 13-59, 61-115): each payment goes
to the treasury's associated token account, which is only looked at when there is something to pay. -/
def Chain.claimProtocolFee (K : Keys) (s : Chain) (a : ClaimIx) (signer maxBase maxQuote : Nat) : Res Chain := do
  let l ← s.load a.pool a.config a.baseVault a.quoteVault (s.ownMeta K a.pool)
  let _ ← req (l.c.quoteMint = a.quoteMint) .external
  let _ ← req (l.pa.baseVault = a.baseVault ∧ l.pa.quoteVault = a.quoteVault ∧ l.pa.baseMint = a.baseMint ∧
    l.pa.config = a.config) .external
  let _ ← req (l.bv.mint = a.baseMint ∧ l.qv.mint = a.quoteMint) .external
  let w ← l.w.claimProtocolFee signer maxBase maxQuote
  let s := s.save a.pool a.baseVault a.quoteVault l w
  let b := l.w.baseVault - w.baseVault
  let q := l.w.quoteVault - w.quoteVault
  let s ← (if 0 < b then do
      let _ ← s.validateAta K a.toBase K.treasury a.baseMint
      s.credit K a.baseMint a.toBase b
    else .ok s)
  if 0 < q then do
    let _ ← s.validateAta K a.toQuote K.treasury a.quoteMint
    s.credit K a.quoteMint a.toQuote q
  else .ok s

/-- The zap-out introspection `validate_zap_out_to_treasury` of the crate `protocol_zap` (its source is not in /repo), as
instructions/operator/ix_zap_protocol_fee.rs 139-148 calls it, given the transaction around the instruction: an arbitrary
function of amount, receiver token account, treasury and destination token account. -/
abbrev ZapCheck := Nat → Nat → Nat → Nat → Bool

/-- `zap_protocol_fee` with its accounts (instructions/operator/ix_zap_protocol_fee.rs 16-50, 52-161): one vault is given and
must be the pool's vault for the mint given; the receiver is the operator's associated token account. The zap-out introspection
is given the amount, the receiver, the treasury and the treasury's associated token account for the pool's other mint. -/
def Chain.zapProtocolFee (K : Keys) (s : Chain) (pool config vault mint receiver signer mx : Nat) (zap : ZapCheck) :
    Res Chain := do
  let pa ← need (s.pools pool)
  let c ← need (s.configs config)
  let tv ← need (getTok s.tokens vault)
  let _ ← need (s.mints mint)
  let _ ← req (pa.config = config) .external
  let _ ← req (mint = pa.baseMint ∨ mint = c.quoteMint) .external
  if mint = pa.baseMint then do
    let _ ← req (vault = pa.baseVault) .external
    let l ← s.load pool config vault pa.quoteVault (s.ownMeta K pool)
    let w ← l.w.zapProtocolFee signer mx true (decide (mint ∉ K.noZap)) true
    let _ ← s.validateAta K receiver signer mint
    let _ ← req (zap (l.w.baseVault - w.baseVault) receiver K.treasury (K.ata K.treasury c.quoteMint) = true) .external
    let _ ← req (tv.mint = mint) .external
    (s.save pool vault pa.quoteVault l w).credit K mint receiver (l.w.baseVault - w.baseVault)
  else do
    let _ ← req (vault = pa.quoteVault) .external
    let l ← s.load pool config pa.baseVault vault (s.ownMeta K pool)
    let w ← l.w.zapProtocolFee signer mx false (decide (mint ∉ K.noZap)) true
    let _ ← s.validateAta K receiver signer mint
    let _ ← req (zap (l.w.quoteVault - w.quoteVault) receiver K.treasury (K.ata K.treasury pa.baseMint) = true) .external
    let _ ← req (tv.mint = mint) .external
    (s.save pool pa.baseVault vault l w).credit K mint receiver (l.w.quoteVault - w.quoteVault)

/-- `claim_trading_fee` with its accounts (instructions/partner/ix_claim_partner_trading_fee.rs 13-62). -/
def Chain.claimPartnerFee (K : Keys) (s : Chain) (a : ClaimIx) (signer maxBase maxQuote : Nat) : Res Chain := do
  let l ← s.load a.pool a.config a.baseVault a.quoteVault (s.ownMeta K a.pool)
  let _ ← req (l.c.quoteMint = a.quoteMint) .external
  let _ ← req (l.pa.baseVault = a.baseVault ∧ l.pa.quoteVault = a.quoteVault ∧ l.pa.baseMint = a.baseMint ∧
    l.pa.config = a.config) .external
  let _ ← req (l.bv.mint = a.baseMint ∧ l.qv.mint = a.quoteMint) .external
  let w ← l.w.claimPartnerFee signer maxBase maxQuote
  let s ← (s.save a.pool a.baseVault a.quoteVault l w).credit K a.baseMint a.toBase (l.w.baseVault - w.baseVault)
  s.credit K a.quoteMint a.toQuote (l.w.quoteVault - w.quoteVault)

/-- `claim_creator_trading_fee` with its accounts (instructions/creator/ix_claim_creator_trading_fee.rs 11-56): no
configuration account is given and none is read; the world is completed with the pool's own. -/
def Chain.claimCreatorFee (K : Keys) (s : Chain) (a : ClaimIx) (signer maxBase maxQuote : Nat) : Res Chain := do
  let pa ← need (s.pools a.pool)
  let l ← s.load a.pool pa.config a.baseVault a.quoteVault (s.ownMeta K a.pool)
  let _ ← req (l.pa.baseVault = a.baseVault ∧ l.pa.quoteVault = a.quoteVault ∧ l.pa.baseMint = a.baseMint) .external
  let _ ← req (l.bv.mint = a.baseMint ∧ l.qv.mint = a.quoteMint) .external
  let w ← l.w.claimCreatorFee signer maxBase maxQuote
  let s ← (s.save a.pool a.baseVault a.quoteVault l w).credit K a.baseMint a.toBase (l.w.baseVault - w.baseVault)
  s.credit K a.quoteMint a.toQuote (l.w.quoteVault - w.quoteVault)

/-- Accounts of a quote withdrawal: pool, configuration, quote vault, quote mint, and the account to be paid. [instructions/partner/ix_withdraw_partner_surplus.rs 14, instructions/creator/ix_withdraw_creator_surplus.rs 14, instructions/migration/ix_withdraw_migration_fee.rs 18] -/
structure QuoteIx where
  pool : Nat
  config : Nat
  quoteVault : Nat
  quoteMint : Nat
  toQuote : Nat
  deriving DecidableEq, Repr

/-- The shape shared by `partner_withdraw_surplus`, `creator_withdraw_surplus` and `withdraw_migration_fee`
(instructions/partner/ix_withdraw_partner_surplus.rs 13-46, instructions/creator/ix_withdraw_creator_surplus.rs 13-46,
instructions/migration/ix_withdraw_migration_fee.rs 17-50): same account checks, different handler `f`. -/
def Chain.quoteOut (K : Keys) (s : Chain) (a : QuoteIx) (f : World → Res World) : Res Chain := do
  let pa ← need (s.pools a.pool)
  let l ← s.load a.pool a.config pa.baseVault a.quoteVault (s.ownMeta K a.pool)
  let _ ← req (l.c.quoteMint = a.quoteMint) .external
  let _ ← req (l.pa.quoteVault = a.quoteVault ∧ l.pa.config = a.config) .external
  let _ ← req (l.qv.mint = a.quoteMint) .external
  let w ← f l.w
  (s.save a.pool pa.baseVault a.quoteVault l w).credit K a.quoteMint a.toQuote (l.w.quoteVault - w.quoteVault)

/-- The shape shared by the two creation fee claims (instructions/partner/ix_claim_partner_pool_creation_fee.rs 5-17,
instructions/operator/ix_claim_protocol_pool_creation_fee.rs 11-29): lamports of the pool account go to `receiver`. -/
def Chain.lamportsOut (K : Keys) (s : Chain) (pool config receiver : Nat) (f : World → Res World) : Res Chain := do
  let pa ← need (s.pools pool)
  let l ← s.load pool config pa.baseVault pa.quoteVault (s.ownMeta K pool)
  let _ ← req (l.pa.config = config) .external
  let w ← f l.w
  .ok ((s.save pool pa.baseVault pa.quoteVault l w).giveLamports receiver (l.w.lamports - w.lamports))

/-- `claim_protocol_pool_creation_fee` with its accounts (instructions/operator/ix_claim_protocol_pool_creation_fee.rs
11-29): the receiver must be the treasury. -/
def Chain.claimProtocolCreationFee (K : Keys) (s : Chain) (pool config receiver signer : Nat) : Res Chain := do
  let _ ← req (receiver = K.treasury) .external
  s.lamportsOut K pool config receiver (fun w => w.claimProtocolCreationFee signer)

/-! ## Locker, migration, leftover -/

/-- The escrow is opened for the account named as creator (create_locker.rs 110). -/
def World.escrowFor (w : World) (recipient : Nat) : World :=
  { w with escrow := w.escrow.map fun e => { e with recipient := recipient } }

/-- `create_locker` with its accounts (instructions/migration/create_locker.rs 11-71): the tokens go to the escrow's token
account `to`, chosen by the locker program. -/
def Chain.createLocker (K : Keys) (s : Chain) (pool config baseVault baseMint creator to : Nat) : Res Chain := do
  let pa ← need (s.pools pool)
  let l ← s.load pool config baseVault pa.quoteVault (s.ownMeta K pool)
  let _ ← req (l.pa.config = config ∧ l.pa.state.creator = creator ∧ l.pa.baseVault = baseVault ∧
    l.pa.baseMint = baseMint) .external
  let _ ← req (l.bv.mint = baseMint) .external
  let w ← l.w.createLocker
  let w := w.escrowFor creator
  (s.save pool baseVault pa.quoteVault l w).credit K baseMint to (l.w.baseVault - w.baseVault)

/-- Accounts of a migration: `toBase` and `toQuote` are the token accounts into which DAMM takes the deposits. [instructions/migration/meteora_damm/migrate_meteora_damm_initialize_pool.rs 14, dynamic_amm_v2/migrate_damm_v2_initialize_pool.rs 34] -/
structure MigrateIx where
  pool : Nat
  config : Nat
  baseVault : Nat
  quoteVault : Nat
  baseMint : Nat
  quoteMint : Nat
  toBase : Nat
  toQuote : Nat
  deriving DecidableEq, Repr

/-- `migrate_meteora_damm` with its accounts (instructions/migration/meteora_damm/migrate_meteora_damm_initialize_pool.rs
13-116). The mints are not checked against the vaults by the program; DAMM v1 and the burn (lines 283-309) need the mint of
the vault, so they are taken from the vaults. The metadata account must name the pool (`has_one`). -/
def Chain.migrateV1 (K : Keys) (s : Chain) (a : MigrateIx) (metaKey : Nat) (x : V1Args) : Res Chain := do
  let m ← need (s.metas metaKey)
  let l ← s.load a.pool a.config a.baseVault a.quoteVault (some m.data)
  let _ ← req (l.pa.baseVault = a.baseVault ∧ l.pa.quoteVault = a.quoteVault ∧ l.pa.config = a.config) .external
  let _ ← req (m.pool = a.pool) .external
  let w ← l.w.migrateV1 x
  let md ← need w.dammMeta
  let s := s.save a.pool a.baseVault a.quoteVault l w
  let s := { s with metas := put s.metas metaKey ⟨m.pool, md⟩ }
  let s ← s.credit K l.bv.mint a.toBase x.baseTaken
  s.credit K l.qv.mint a.toQuote x.quoteTaken

/-- `migration_damm_v2` with its accounts
(instructions/migration/dynamic_amm_v2/migrate_damm_v2_initialize_pool.rs 33-129). -/
def Chain.migrateV2 (K : Keys) (s : Chain) (a : MigrateIx) (x : V2Args) : Res Chain := do
  let l ← s.load a.pool a.config a.baseVault a.quoteVault (s.ownMeta K a.pool)
  let _ ← req (l.pa.baseVault = a.baseVault ∧ l.pa.quoteVault = a.quoteVault ∧ l.pa.config = a.config) .external
  let _ ← req (l.bv.mint = a.baseMint ∧ l.qv.mint = a.quoteMint) .external
  let w ← l.w.migrateV2 x
  let s := s.save a.pool a.baseVault a.quoteVault l w
  let s ← s.credit K a.baseMint a.toBase (x.base1 + x.base2)
  s.credit K a.quoteMint a.toQuote (x.quote1 + x.quote2)

/-- `withdraw_leftover` with its accounts (instructions/migration/withdraw_leftover.rs 14-53): paid to the associated token
account of the receiver named, which must be the configured one (checked by the handler of `World`). -/
def Chain.withdrawLeftover (K : Keys) (s : Chain) (pool config baseVault baseMint receiver to : Nat) : Res Chain := do
  let pa ← need (s.pools pool)
  let l ← s.load pool config baseVault pa.quoteVault (s.ownMeta K pool)
  let _ ← req (l.pa.baseMint = baseMint ∧ l.pa.baseVault = baseVault ∧ l.pa.config = config) .external
  let _ ← s.validateAta K to receiver baseMint
  let _ ← req (l.bv.mint = baseMint) .external
  let w ← l.w.withdrawLeftover receiver
  (s.save pool baseVault pa.quoteVault l w).credit K baseMint to (l.w.baseVault - w.baseVault)

/-! ## DAMM v1 metadata, LP tokens, creator transfer -/

/-- `migration_meteora_damm_create_metadata` with its accounts
(instructions/migration/meteora_damm/migration_meteora_damm_create_metadata.rs 13-36): the metadata account is created at the
address derived from the pool. -/
def Chain.createMeta (K : Keys) (s : Chain) (pool config metaKey : Nat) : Res Chain := do
  let pa ← need (s.pools pool)
  let _ ← req (metaKey = K.metaPda pool ∧ s.metas metaKey = none) .external
  let l ← s.load pool config pa.baseVault pa.quoteVault none
  let _ ← req (l.pa.config = config) .external
  let w ← l.w.createMeta
  let md ← need w.dammMeta
  .ok { s with metas := put s.metas metaKey ⟨pool, md⟩ }

/-- The shape shared by the lock and claim of LP tokens
(instructions/migration/meteora_damm/meteora_damm_lock_lp_token.rs 13-76, meteora_damm_claim_lp_token.rs 10-52): the metadata
account must name the pool; no configuration is given and none is read. -/
def Chain.lpOut (s : Chain) (pool metaKey : Nat) (f : World → Res World) : Res Chain := do
  let pa ← need (s.pools pool)
  let m ← need (s.metas metaKey)
  let l ← s.load pool pa.config pa.baseVault pa.quoteVault (some m.data)
  let _ ← req (m.pool = pool) .external
  let w ← f l.w
  let md ← need w.dammMeta
  let s := s.save pool pa.baseVault pa.quoteVault l w
  .ok { s with metas := put s.metas metaKey ⟨m.pool, md⟩ }

/-- `transfer_pool_creator` with its accounts (instructions/creator/ix_transfer_pool_creator.rs 10-27, 47-59): the metadata
account, if given, is only believed if it names the pool. -/
def Chain.transferCreator (s : Chain) (pool config : Nat) (metaKey : Option Nat) (signer new : Nat) : Res Chain := do
  let pa ← need (s.pools pool)
  let md := match metaKey with
    | none => none
    | some k => match s.metas k with
      | none => none
      | some m => if m.pool = pool then some m.data else none
  let l ← s.load pool config pa.baseVault pa.quoteVault md
  let _ ← req (l.pa.config = config) .external
  let w ← l.w.transferCreator signer new
  .ok (s.save pool pa.baseVault pa.quoteVault l w)

/-! ## Operators -/

/-- `create_operator_account` (as `World.createOperator`, instructions/admin/ix_create_operator_account.rs 9-47). -/
def Chain.createOperator (s : Chain) (signer address permission : Nat) : Res Chain := do
  let _ ← req (signer ∈ s.admins) .invalidAdmin
  let _ ← req (0 < permission ∧ permission < 1 <<< MAX_OPERATION) .invalidPermission
  let _ ← req (∀ o ∈ s.operators, o.address ≠ address) .external
  .ok { s with operators := ⟨address, permission⟩ :: s.operators }

/-- `close_operator_account` (as `World.closeOperator`, instructions/admin/ix_close_operator_account.rs 4-17). -/
def Chain.closeOperator (s : Chain) (signer address : Nat) : Res Chain := do
  let _ ← req (signer ∈ s.admins) .invalidAdmin
  .ok { s with operators := s.operators.filter (fun o => decide (o.address ≠ address)) }

/-! ## What users do without the program -/

/-- Somebody creates a mint (token programs; no repository counterpart). -/
def Chain.newMint (s : Chain) (key program : Nat) (exts : List Ext) (auth : Option Nat) : Res Chain := do
  let _ ← req (s.mints key = none) .external
  .ok { s with mints := put s.mints key ⟨program, exts, 0, auth⟩ }

/-- Somebody creates a token account with any owner, also the pool authority (token programs; no repository counterpart). -/
def Chain.newAccount (s : Chain) (key mint owner : Nat) : Res Chain := do
  let _ ← req (getTok s.tokens key = none) .external
  let _ ← need (s.mints mint)
  .ok { s with tokens := (key, ⟨mint, owner, 0⟩) :: s.tokens }

/-- Somebody sends tokens they own (token programs; no repository counterpart). -/
def Chain.transfer (K : Keys) (s : Chain) (signer mint src dst a : Nat) : Res Chain := do
  let s ← s.debit K signer mint src a
  s.credit K mint dst a

/-- The permanent delegate of a Token-2022 mint moves tokens out of any account of that mint (no repository counterpart). -/
def Chain.seize (K : Keys) (s : Chain) (mint src dst a : Nat) : Res Chain := do
  let m ← need (s.mints mint)
  let _ ← req (m.has .permanentDelegate = true) .external
  let t ← need (getTok s.tokens src)
  let _ ← req (t.mint = mint ∧ a ≤ t.amount) .external
  ({ s with tokens := setTok s.tokens src { t with amount := t.amount - a } } : Chain).credit K mint dst a

/-- A mint authority mints (token programs; no repository counterpart). -/
def Chain.mintTo (s : Chain) (signer mint dst a : Nat) : Res Chain := do
  let m ← need (s.mints mint)
  let _ ← req (m.auth = some signer) .external
  let _ ← req (m.supply + a ≤ u64Max) .external
  ({ s with
      mints := put s.mints mint { m with supply := m.supply + a }
      pools := fun P => (s.pools P).map fun pa =>
        if pa.baseMint = mint then { pa with led := { pa.led with minted := pa.led.minted + a } } else pa } : Chain).give
    mint dst a

/-- A holder burns tokens they own (token programs; no repository counterpart). -/
def Chain.burn (K : Keys) (s : Chain) (signer mint src a : Nat) : Res Chain := do
  let m ← need (s.mints mint)
  let s ← s.debit K signer mint src a
  .ok { s with
    mints := put s.mints mint { m with supply := m.supply - a }
    pools := fun P => (s.pools P).map fun pa =>
      if pa.baseMint = mint then { pa with led := { pa.led with burntByHolders := pa.led.burntByHolders + a } } else pa }

/-- An owner hands a token account to somebody else, or, once it is empty, closes it and has it opened anew for another mint
(token programs; no repository counterpart). -/
def Chain.reassign (K : Keys) (s : Chain) (signer key mint owner : Nat) : Res Chain := do
  let t ← need (getTok s.tokens key)
  let _ ← req (t.owner = signer ∧ signer ≠ K.authority) .external
  let _ ← need (s.mints mint)
  let _ ← req (mint = t.mint ∨ t.amount = 0) .external
  .ok { s with tokens := setTok s.tokens key ⟨mint, owner, t.amount⟩ }

/-! ## Instructions -/

/-- Everything that can happen on chain, with every account chosen by the caller. [lib.rs 33-240] -/
inductive Instr
  | createConfig (key quoteMint feeClaimer leftoverReceiver now : Nat) (p : ConfigParams)
  | initPool (a : InitIx)
  | swap (a : SwapIx)
  | claimProtocolFee (a : ClaimIx) (signer maxBase maxQuote : Nat)
  | zapProtocolFee (pool config vault mint receiver signer mx : Nat) (zap : ZapCheck)
  | claimPartnerFee (a : ClaimIx) (signer maxBase maxQuote : Nat)
  | claimCreatorFee (a : ClaimIx) (signer maxBase maxQuote : Nat)
  | partnerWithdrawSurplus (a : QuoteIx) (signer : Nat)
  | creatorWithdrawSurplus (a : QuoteIx) (signer : Nat)
  | withdrawMigrationFee (a : QuoteIx) (signer flag : Nat)
  | claimPartnerCreationFee (pool config receiver signer : Nat)
  | claimProtocolCreationFee (pool config receiver signer : Nat)
  | createLocker (pool config baseVault baseMint creator to : Nat)
  | migrateV1 (a : MigrateIx) (metaKey : Nat) (x : V1Args)
  | migrateV2 (a : MigrateIx) (x : V2Args)
  | withdrawLeftover (pool config baseVault baseMint receiver to : Nat)
  | createMeta (pool config metaKey : Nat)
  | lockLp (pool metaKey owner : Nat)
  | claimLp (pool metaKey owner : Nat)
  | transferCreator (pool config : Nat) (metaKey : Option Nat) (signer new : Nat)
  | createOperator (signer address permission : Nat)
  | closeOperator (signer address : Nat)
  | newMint (key program : Nat) (exts : List Ext) (auth : Option Nat)
  | newAccount (key mint owner : Nat)
  | transfer (signer mint src dst a : Nat)
  | seize (mint src dst a : Nat)
  | mintTo (signer mint dst a : Nat)
  | burn (signer mint src a : Nat)
  | reassign (signer key mint owner : Nat)
  | sendLamports (dst a : Nat)

/-- Dispatch (lib.rs 33-240). -/
def Chain.exec (K : Keys) (s : Chain) : Instr → Res Chain
  | .createConfig k q f r n p => s.createConfig K k q f r n p
  | .initPool a => s.initPool K a
  | .swap a => s.swap K a
  | .claimProtocolFee a g b q => s.claimProtocolFee K a g b q
  | .zapProtocolFee p c v m r g x z => s.zapProtocolFee K p c v m r g x z
  | .claimPartnerFee a g b q => s.claimPartnerFee K a g b q
  | .claimCreatorFee a g b q => s.claimCreatorFee K a g b q
  | .partnerWithdrawSurplus a g => s.quoteOut K a (fun w => w.partnerWithdrawSurplus g)
  | .creatorWithdrawSurplus a g => s.quoteOut K a (fun w => w.creatorWithdrawSurplus g)
  | .withdrawMigrationFee a g f => s.quoteOut K a (fun w => w.withdrawMigrationFee g f)
  | .claimPartnerCreationFee p c r g => s.lamportsOut K p c r (fun w => w.claimPartnerCreationFee g)
  | .claimProtocolCreationFee p c r g => s.claimProtocolCreationFee K p c r g
  | .createLocker p c v m r t => s.createLocker K p c v m r t
  | .migrateV1 a m x => s.migrateV1 K a m x
  | .migrateV2 a x => s.migrateV2 K a x
  | .withdrawLeftover p c v m r t => s.withdrawLeftover K p c v m r t
  | .createMeta p c m => s.createMeta K p c m
  | .lockLp p m o => s.lpOut p m (fun w => w.lockLp o)
  | .claimLp p m o => s.lpOut p m (fun w => w.claimLp o)
  | .transferCreator p c m g n => s.transferCreator p c m g n
  | .createOperator g a p => s.createOperator g a p
  | .closeOperator g a => s.closeOperator g a
  | .newMint k p e a => s.newMint k p e a
  | .newAccount k m o => s.newAccount k m o
  | .transfer g m x y a => s.transfer K g m x y a
  | .seize m x y a => s.seize K m x y a
  | .mintTo g m d a => s.mintTo g m d a
  | .burn g m x a => s.burn K g m x a
  | .reassign g k m o => s.reassign K g k m o
  | .sendLamports d a => .ok (s.giveLamports d a)

/-- The parameters of `create_config` fit their integer types. [the Rust integer types of the arguments, lib.rs 33-240] -/
def Instr.Typed : Instr → Prop
  | .createConfig _ _ _ _ _ p => p.Typed
  | _ => True

/-- A history of the chain: the instructions that succeeded, in order. [no repository counterpart: a history of instructions] -/
inductive ChainRun (K : Keys) : Chain → List Instr → Chain → Prop
  | nil (s : Chain) : ChainRun K s [] s
  | snoc {s s1 s2 : Chain} {ixs : List Instr} {ix : Instr} : ChainRun K s ixs s1 → ix.Typed → s1.exec K ix = .ok s2 →
      ChainRun K s (ixs ++ [ix]) s2

/-- The pool at address `P` with its vaults, mint and metadata, as a world of its own. [no repository counterpart: what an observer reads] -/
def Chain.view (K : Keys) (s : Chain) (P : Nat) : Option World :=
  match s.pools P with
  | none => none
  | some pa =>
    match s.configs pa.config, getTok s.tokens pa.baseVault, getTok s.tokens pa.quoteVault, s.mints pa.baseMint with
    | some c, some bv, some qv, some bm => some (s.world P pa c bm bv.amount qv.amount (s.ownMeta K P))
    | _, _, _, _ => none

end Dbc

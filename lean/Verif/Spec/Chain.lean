import Verif.Model.Chain
import Verif.Spec.World

/-!
# Speaking about many pools
-/

namespace Spec
open Dbc

/-- How many tokens of a mint exist in token accounts. -/
def held (mint : Nat) : List (Nat × TokenAcc) → Nat
  | [] => 0
  | (_, t) :: r => (if t.mint = mint then t.amount else 0) + held mint r

/-- The balance of a token account, if it exists. -/
def balance (s : Chain) (key : Nat) : Option Nat := (getTok s.tokens key).map (·.amount)

/-- The pool an instruction of the program is addressed to. -/
def addressee : Instr → Option Nat
  | .swap a => some a.pool
  | .claimProtocolFee a _ _ _ => some a.pool
  | .zapProtocolFee p _ _ _ _ _ _ _ => some p
  | .claimPartnerFee a _ _ _ => some a.pool
  | .claimCreatorFee a _ _ _ => some a.pool
  | .partnerWithdrawSurplus a _ => some a.pool
  | .creatorWithdrawSurplus a _ => some a.pool
  | .withdrawMigrationFee a _ _ => some a.pool
  | .claimPartnerCreationFee p _ _ _ => some p
  | .claimProtocolCreationFee p _ _ _ => some p
  | .createLocker p _ _ _ _ _ => some p
  | .migrateV1 a _ _ => some a.pool
  | .migrateV2 a _ => some a.pool
  | .withdrawLeftover p _ _ _ _ _ => some p
  | .createMeta p _ _ => some p
  | .lockLp p _ _ => some p
  | .claimLp p _ _ => some p
  | .transferCreator p _ _ _ _ => some p
  | _ => none

/-- What an instruction asks of the pool it is addressed to, without the accounts: who signs and the amounts. Only the
direction of a swap is left open. -/
inductive Asks : Instr → Op → Prop
  | swap (a : SwapIx) (x : SwapArgs) : x.mode = a.mode → x.amount0 = a.amount0 → x.amount1 = a.amount1 →
      x.referral = a.referral.isSome → x.clk = a.clk → x.tx = a.tx → Asks (.swap a) (.swap x)
  | claimProtocolFee (a s b q) : Asks (.claimProtocolFee a s b q) (.claimProtocolFee s b q)
  | zapProtocolFee (p c v m r s x z) (isBase ok : Bool) :
      Asks (.zapProtocolFee p c v m r s x z) (.zapProtocolFee s x isBase ok true)
  | claimPartnerFee (a s b q) : Asks (.claimPartnerFee a s b q) (.claimPartnerFee s b q)
  | claimCreatorFee (a s b q) : Asks (.claimCreatorFee a s b q) (.claimCreatorFee s b q)
  | partnerWithdrawSurplus (a s) : Asks (.partnerWithdrawSurplus a s) (.partnerWithdrawSurplus s)
  | creatorWithdrawSurplus (a s) : Asks (.creatorWithdrawSurplus a s) (.creatorWithdrawSurplus s)
  | withdrawMigrationFee (a s f) : Asks (.withdrawMigrationFee a s f) (.withdrawMigrationFee s f)
  | claimPartnerCreationFee (p c r s) : Asks (.claimPartnerCreationFee p c r s) (.claimPartnerCreationFee s)
  | claimProtocolCreationFee (p c r s) : Asks (.claimProtocolCreationFee p c r s) (.claimProtocolCreationFee s)
  | createLocker (p c v m r t) : Asks (.createLocker p c v m r t) .createLocker
  | migrateV1 (a m x) : Asks (.migrateV1 a m x) (.migrateV1 x)
  | migrateV2 (a x) : Asks (.migrateV2 a x) (.migrateV2 x)
  | withdrawLeftover (p c v m r t) : Asks (.withdrawLeftover p c v m r t) (.withdrawLeftover r)
  | createMeta (p c m) : Asks (.createMeta p c m) .createMeta
  | lockLp (p m o) : Asks (.lockLp p m o) (.lockLp o)
  | claimLp (p m o) : Asks (.claimLp p m o) (.claimLp o)
  | transferCreator (p c m s n) : Asks (.transferCreator p c m s n) (.transferCreator s n)

/-- What outsiders can do to a pool: send it tokens or lamports. -/
def Gift : Op → Prop
  | .donate _ _ _ => True
  | _ => False

/-- What can happen to a pool by an instruction not addressed to it: gifts, minting and burning of its base token outside
the vault by those entitled to, and changes to the operators. -/
def Outside : Op → Prop
  | .donate _ _ _ => True
  | .mintMore _ _ => True
  | .burnOwn _ => True
  | .createOperator _ _ _ => True
  | .closeOperator _ _ => True
  | _ => False

/-- A pool on chain seen as a single pool: the world `w` shows what the pool account at `P`, the configuration and vaults
recorded in it and its base mint hold. -/
structure Shows (s : Chain) (P : Nat) (w : World) : Prop where
  key : w.key = P
  acc : ∃ pa, s.pools P = some pa ∧ w.pool = pa.state ∧ w.lamports = pa.lamports ∧ w.led = pa.led ∧
    s.configs pa.config = some w.cfg ∧
    balance s pa.baseVault = some w.baseVault ∧ balance s pa.quoteVault = some w.quoteVault ∧
    (s.mints pa.baseMint).map (·.supply) = some w.supply ∧ (s.mints pa.baseMint).map (·.auth) = some w.mintAuth ∧
    w.updateAuth = pa.updateAuth ∧ w.lpVault = pa.lpVault ∧ w.lpMinted = pa.lpMinted ∧ w.lpLog = pa.lpLog ∧
    w.positions = pa.positions ∧ w.newPool = pa.newPool ∧ w.escrow = pa.escrow
  operators : w.operators = s.operators
  admins : w.admins = s.admins

/-- The DAMM v1 metadata of `w` is what the account derived for the pool at `P` holds. -/
def ShowsMeta (K : Keys) (s : Chain) (P : Nat) (w : World) : Prop :=
  ∀ md, w.dammMeta = some md ↔ s.metas (K.metaPda P) = some ⟨P, md⟩

/-- States of the chain that can arise: by any instructions, with any accounts and signers, from the empty chain. -/
def Arises (K : Keys) (s : Chain) : Prop := ∃ admins ixs, ChainRun K (Chain.empty admins) ixs s

/-- One movement of tokens; `dst = none` is a burn. -/
structure Move where
  src : Option Nat
  dst : Option Nat
  amount : Nat

/-- `a` if the account named is `x`. -/
def here (k : Option Nat) (x a : Nat) : Nat := if k = some x then a else 0

/-- What a list of movements takes out of account `x`. -/
def outOf : List Move → Nat → Nat
  | [], _ => 0
  | m :: r, x => here m.src x m.amount + outOf r x

/-- What a list of movements puts into account `x`. -/
def into : List Move → Nat → Nat
  | [], _ => 0
  | m :: r, x => here m.dst x m.amount + into r x

/-- From `s` to `s'` exactly these tokens moved: no other balance changed, no token account changed its mint or owner, and
none appeared or disappeared. -/
structure Moved (s s' : Chain) (l : List Move) : Prop where
  none : ∀ x, getTok s.tokens x = none → getTok s'.tokens x = none
  some : ∀ x t, getTok s.tokens x = some t → ∃ t', getTok s'.tokens x = some t' ∧ t'.mint = t.mint ∧ t'.owner = t.owner ∧
    t'.amount + outOf l x = t.amount + into l x

/-- The token account at `k` is of this mint and owner. -/
def IsAccount (s : Chain) (k mint owner : Nat) : Prop :=
  ∃ t, getTok s.tokens k = some t ∧ t.mint = mint ∧ t.owner = owner

/-- A mint whose transfers arrive in full and whose tokens only their owner can move. -/
def FreeOfFees (s : Chain) (mint : Nat) : Prop :=
  ∃ m, s.mints mint = some m ∧ (m.program = 0 ∨ Ext.transferFee ∉ m.exts ∧ Ext.permanentDelegate ∉ m.exts)

/-- A vault of a pool. -/
def vaultAt (pa : PoolAcc) : Token → Nat
  | .base => pa.baseVault
  | .quote => pa.quoteVault

/-- The addresses recorded in a pool account. -/
def SameAddresses (pa pa' : PoolAcc) : Prop :=
  pa'.config = pa.config ∧ pa'.baseMint = pa.baseMint ∧ pa'.baseVault = pa.baseVault ∧ pa'.quoteVault = pa.quoteVault

/-- Who signs the withdrawal of tokens from account `x` that is not a vault: the instruction and its signer. -/
inductive Spends : Instr → Nat → Nat → Prop
  | swap (a : SwapIx) : Spends (.swap a) a.input a.payer
  | transfer (g m x y a : Nat) : Spends (.transfer g m x y a) x g
  | burn (g m x a : Nat) : Spends (.burn g m x a) x g

/-- The token account at `k` can receive tokens of this mint. -/
def Takes (s : Chain) (k mint : Nat) : Prop := ∃ owner, IsAccount s k mint owner

/-- The mint of a token of a pool. -/
def mintOf (pa : PoolAcc) (c : PoolConfig) : Token → Nat
  | .base => pa.baseMint
  | .quote => c.quoteMint

/-- The other token of a pool. -/
def other : Token → Token
  | .base => .quote
  | .quote => .base

/-- The token in which a configuration takes its trading fee: always the quote token, or the token the trader gets. -/
def feeIn (c : PoolConfig) (dir : TradeDirection) : Token := if c.collectFeeMode = 0 then .quote else outToken dir

/-- The instruction asks the pool at `P`, with pool account `pa`, for `op` and is made out correctly: it names the
configuration, vaults and mints recorded for the pool, the receiving accounts exist and are of the right mint (and, where the
program prescribes the receiver, the ones prescribed), the metadata account is the pool's, and in a swap the payer's account
holds what the trade costs. `w` is the pool before, `w1` what the operation makes of it. -/
inductive Correct (K : Keys) (s : Chain) (P : Nat) (pa : PoolAcc) (w w1 : World) : Op → Instr → Prop
  | swap (x : SwapArgs) (src dst payer n : Nat) (ref : Option Nat) :
      payer ≠ K.authority → IsAccount s src (mintOf pa w.cfg (inToken x.dir)) payer →
      balance s src = some n → traderIn w1 (inToken x.dir) ≤ traderIn w (inToken x.dir) + n →
      Takes s dst (mintOf pa w.cfg (outToken x.dir)) →
      x.referral = ref.isSome → (∀ k, ref = some k → Takes s k (mintOf pa w.cfg (feeIn w.cfg x.dir))) →
      Correct K s P pa w w1 (.swap x) (.swap ⟨P, pa.config, pa.baseVault, pa.quoteVault, pa.baseMint, w.cfg.quoteMint, src, dst,
        ref, payer, x.mode, x.amount0, x.amount1, x.clk, x.tx⟩)
  | claimProtocolFee (g b q : Nat) :
      (vault w1 .base < vault w .base → IsAccount s (K.ata K.treasury pa.baseMint) pa.baseMint K.treasury) →
      (vault w1 .quote < vault w .quote → IsAccount s (K.ata K.treasury w.cfg.quoteMint) w.cfg.quoteMint K.treasury) →
      Correct K s P pa w w1 (.claimProtocolFee g b q) (.claimProtocolFee ⟨P, pa.config, pa.baseVault, pa.quoteVault, pa.baseMint,
        w.cfg.quoteMint, K.ata K.treasury pa.baseMint, K.ata K.treasury w.cfg.quoteMint⟩ g b q)
  | zapProtocolFee (g x : Nat) (z : ZapCheck) (ok : Bool) (t : Token) : (ok = true ↔ mintOf pa w.cfg t ∉ K.noZap) →
      IsAccount s (K.ata g (mintOf pa w.cfg t)) (mintOf pa w.cfg t) g →
      z (vault w t - vault w1 t) (K.ata g (mintOf pa w.cfg t)) K.treasury (K.ata K.treasury (mintOf pa w.cfg (other t))) = true →
      Correct K s P pa w w1 (.zapProtocolFee g x (decide (t = .base)) ok true)
        (.zapProtocolFee P pa.config (vaultAt pa t) (mintOf pa w.cfg t) (K.ata g (mintOf pa w.cfg t)) g x z)
  | claimPartnerFee (g b q x y : Nat) : Takes s x pa.baseMint → Takes s y w.cfg.quoteMint →
      Correct K s P pa w w1 (.claimPartnerFee g b q) (.claimPartnerFee ⟨P, pa.config, pa.baseVault, pa.quoteVault, pa.baseMint,
        w.cfg.quoteMint, x, y⟩ g b q)
  | claimCreatorFee (g b q x y : Nat) : Takes s x pa.baseMint → Takes s y w.cfg.quoteMint →
      Correct K s P pa w w1 (.claimCreatorFee g b q) (.claimCreatorFee ⟨P, pa.config, pa.baseVault, pa.quoteVault, pa.baseMint,
        w.cfg.quoteMint, x, y⟩ g b q)
  | partnerWithdrawSurplus (g y : Nat) : Takes s y w.cfg.quoteMint →
      Correct K s P pa w w1 (.partnerWithdrawSurplus g) (.partnerWithdrawSurplus ⟨P, pa.config, pa.quoteVault,
        w.cfg.quoteMint, y⟩ g)
  | creatorWithdrawSurplus (g y : Nat) : Takes s y w.cfg.quoteMint →
      Correct K s P pa w w1 (.creatorWithdrawSurplus g) (.creatorWithdrawSurplus ⟨P, pa.config, pa.quoteVault,
        w.cfg.quoteMint, y⟩ g)
  | withdrawMigrationFee (g f y : Nat) : Takes s y w.cfg.quoteMint →
      Correct K s P pa w w1 (.withdrawMigrationFee g f) (.withdrawMigrationFee ⟨P, pa.config, pa.quoteVault,
        w.cfg.quoteMint, y⟩ g f)
  | claimPartnerCreationFee (g r : Nat) :
      Correct K s P pa w w1 (.claimPartnerCreationFee g) (.claimPartnerCreationFee P pa.config r g)
  | claimProtocolCreationFee (g : Nat) :
      Correct K s P pa w w1 (.claimProtocolCreationFee g) (.claimProtocolCreationFee P pa.config K.treasury g)
  | createLocker (x : Nat) : Takes s x pa.baseMint →
      Correct K s P pa w w1 .createLocker (.createLocker P pa.config pa.baseVault pa.baseMint w.pool.creator x)
  | migrateV1 (v : V1Args) (x y : Nat) : Takes s x pa.baseMint → Takes s y w.cfg.quoteMint →
      Correct K s P pa w w1 (.migrateV1 v) (.migrateV1 ⟨P, pa.config, pa.baseVault, pa.quoteVault, pa.baseMint, w.cfg.quoteMint,
        x, y⟩ (K.metaPda P) v)
  | migrateV2 (v : V2Args) (x y : Nat) : Takes s x pa.baseMint → Takes s y w.cfg.quoteMint →
      Correct K s P pa w w1 (.migrateV2 v) (.migrateV2 ⟨P, pa.config, pa.baseVault, pa.quoteVault, pa.baseMint, w.cfg.quoteMint,
        x, y⟩ v)
  | withdrawLeftover (r : Nat) : IsAccount s (K.ata r pa.baseMint) pa.baseMint r →
      Correct K s P pa w w1 (.withdrawLeftover r) (.withdrawLeftover P pa.config pa.baseVault pa.baseMint r (K.ata r pa.baseMint))
  | createMeta : Correct K s P pa w w1 .createMeta (.createMeta P pa.config (K.metaPda P))
  | lockLp (o : Nat) : Correct K s P pa w w1 (.lockLp o) (.lockLp P (K.metaPda P) o)
  | claimLp (o : Nat) : Correct K s P pa w w1 (.claimLp o) (.claimLp P (K.metaPda P) o)
  | transferCreator (g n : Nat) :
      Correct K s P pa w w1 (.transferCreator g n) (.transferCreator P pa.config (some (K.metaPda P)) g n)

/-- Instructions that nobody has to authorise. -/
def Anyones : Instr → Prop
  | .newAccount _ _ _ => True
  | .createLocker _ _ _ _ _ _ => True
  | .createMeta _ _ _ => True
  | .migrateV1 _ _ _ => True
  | .migrateV2 _ _ => True
  | _ => False

end Spec

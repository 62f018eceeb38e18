import Verif.Spec.Chain
import Verif.Spec.Launch

/-!
# A launch from beginning to end
-/

namespace Spec
open Dbc

/-- A token that pools may be quoted in: of the SPL token program, or of Token-2022 with at most the metadata extensions and
not the wrapped native token. -/
def QuoteFine (K : Keys) (key : Nat) (m : MintAcc) : Prop :=
  m.program = 0 ∨ (key ≠ K.native2022 ∧ ∀ e ∈ m.exts, e = .metadataPointer ∨ e = .tokenMetadata)

/-- What the program learns from the chain about a configuration to be created. -/
def envOf (m : MintAcc) (quoteMint feeClaimer leftoverReceiver now : Nat) : ConfigEnv :=
  { quoteSupported := true, quoteIsSpl := decide (m.program = 0), now := now, quoteMint := quoteMint,
    feeClaimer := feeClaimer, leftoverReceiver := leftoverReceiver }

/-- The accounts to be created in a launch do not exist yet and are at their derived addresses. -/
structure Fresh (K : Keys) (s : Chain) (a : InitIx) : Prop where
  mint : s.mints a.baseMint = none
  poolAt : a.pool = K.poolPda a.config a.baseMint a.quoteMint
  pool : s.pools a.pool = none
  baseAt : a.baseVault = K.vaultPda a.baseMint a.pool
  base : getTok s.tokens a.baseVault = none
  quoteAt : a.quoteVault = K.vaultPda a.quoteMint a.pool
  quote : getTok s.tokens a.quoteVault = none
  distinct : a.quoteVault ≠ a.baseVault

/-- A transaction that consists of one swap in the pool at `P`. -/
def soleSwap (P : Nat) : TxCtx := ⟨true, [⟨PROGRAM_ID, .swap2, [0, 0, P]⟩], 0, 1, []⟩

/-- The buy of the whole curve at the moment of the launch: a partial fill that offers a hundred times the threshold. -/
def wholeBuy (a : InitIx) (threshold src dst payer : Nat) : Instr :=
  .swap ⟨a.pool, a.config, a.baseVault, a.quoteVault, a.baseMint, a.quoteMint, src, dst, none, payer, 1, 100 * threshold, 0,
    a.clk, soleSwap a.pool⟩

end Spec

import Verif.Model.Base

/-!
# Transaction introspection used by the swap handler (`instructions/swap/ix_swap.rs` 347-483)
-/

namespace Dbc

/-- The program's own address (`declare_id!`, lib.rs 31); public keys are numbers. -/
def PROGRAM_ID : Nat := 1

/-- First eight bytes of the instruction data, as far as the checks distinguish them (ix_swap.rs 411-419, 464-468):
`swap`, `swap2`, the two pool initialisers, anything else. Data shorter than eight bytes is not modelled: such an
instruction of this program fails in Anchor's dispatcher, and with it the transaction. -/
inductive IxKind | swap | swap2 | initSpl | init2022 | other
  deriving DecidableEq, Repr

/-- `solana_program::instruction::Instruction`, as read by the checks. [what `load_instruction_at_checked` returns, instructions/swap/ix_swap.rs 358-361] -/
structure Ix where
  program : Nat
  kind : IxKind
  accounts : List Nat
  deriving DecidableEq, Repr

/-- What a running instruction can observe about its transaction: whether `remaining_accounts[0]` is the instructions
sysvar, the top-level instructions, the index of the current one, the stack height, and the processed siblings. [what instructions/swap/ix_swap.rs 347-410 reads] -/
structure TxCtx where
  sysvar : Bool
  top : List Ix
  idx : Nat
  height : Nat
  siblings : List Ix
  deriving DecidableEq, Repr

/-- `is_instruction_include_pool_swap` (ix_swap.rs 411-419). Indexing `accounts[2]` panics on a short list. -/
def isPoolSwap (pool : Nat) (ix : Ix) : Res Bool :=
  if ix.kind = .swap ∨ ix.kind = .swap2 then
    match ix.accounts[2]? with
    | some a => .ok (decide (a = pool))
    | none => .error .panic
  else .ok false

/-- Lines 370-383 of ix_swap.rs: no processed sibling is a swap of this pool. -/
def checkSiblings (pool : Nat) : List Ix → Res Unit
  | [] => .ok ()
  | s :: ss =>
    if s.program = PROGRAM_ID then do
      let b ← isPoolSwap pool s
      let _ ← req (b = false) .failToValidateSingleSwapInstruction
      checkSiblings pool ss
    else checkSiblings pool ss

/-- Lines 389-406 of ix_swap.rs: no earlier top-level instruction can have swapped this pool. -/
def checkEarlier (pool : Nat) : List Ix → Res Unit
  | [] => .ok ()
  | i :: is =>
    if i.program ≠ PROGRAM_ID then do
      let _ ← req (pool ∉ i.accounts) .failToValidateSingleSwapInstruction
      checkEarlier pool is
    else do
      let b ← isPoolSwap pool i
      let _ ← req (b = false) .failToValidateSingleSwapInstruction
      checkEarlier pool is

/-- `validate_single_swap_instruction` (ix_swap.rs 347-409). A missing or wrong sysvar account is one error here. -/
def validateSingleSwap (pool : Nat) (t : TxCtx) : Res Unit :=
  if t.sysvar then
    match t.top[t.idx]? with
    | none => .error .external
    | some cur => do
      let _ ← (if cur.program ≠ PROGRAM_ID then do
          let _ ← req (t.height ≤ 2) .failToValidateSingleSwapInstruction
          checkSiblings pool t.siblings
        else .ok ())
      checkEarlier pool (t.top.take t.idx)
  else .error .failToValidateSingleSwapInstruction

/-- Lines 455-480 of ix_swap.rs: an earlier top-level instruction of this program initialises this pool
(account index 5). -/
def containsInit (pool : Nat) (is : List Ix) : Bool :=
  is.any fun i => decide (i.program = PROGRAM_ID ∧ (i.kind = .initSpl ∨ i.kind = .init2022) ∧ i.accounts[5]? = some pool)

/-- `validate_contain_initialize_pool_ix_and_no_cpi(..).is_ok()` (ix_swap.rs 422-483). -/
def initIxOk (pool : Nat) (referral : Bool) (t : TxCtx) : Bool :=
  !referral && t.sysvar &&
    (match t.top[t.idx]? with
    | none => false
    | some cur => decide (cur.program = PROGRAM_ID) && containsInit pool (t.top.take t.idx))

end Dbc

import Verif.Model.Base

/-!
# Calls into other programs

The accounts of a transaction as far as the two wrappers around external calls look at them. What a called program does is
a parameter: any function from the accounts before to an error or the accounts after.
-/

namespace Dbc

/-- The parts of a Solana account read by `cpi_with_account_lamport_and_owner_checking` (utils/cpi_checker.rs 8-10). -/
structure Acct where
  lamports : Nat
  owner : Nat
  dataLen : Nat
  deriving DecidableEq, Repr

/-- The accounts of a transaction by address. [no repository counterpart: the account table] -/
abbrev Accts := Nat → Acct

/-- A called program: any outcome is possible. [no repository counterpart: the called program] -/
abbrev Callee := Accts → Res Accts

/-- `cpi_with_account_lamport_and_owner_checking` (utils/cpi_checker.rs 4-32) around the call `f`, watching account `a`. -/
def cpiChecked (f : Callee) (a : Nat) : Callee := fun s => do
  let s' ← f s
  let _ ← req ((s a).lamports ≤ (s' a).lamports) .accountInvariantViolation
  let _ ← req ((s a).owner = (s' a).owner) .accountInvariantViolation
  let _ ← req ((s a).dataLen = (s' a).dataLen) .accountInvariantViolation
  .ok s'

/-- Lamports of one account set to a value. [no repository line: inside the runtime] -/
def Accts.setLamports (s : Accts) (a x : Nat) : Accts := fun k => if k = a then { s a with lamports := x } else s k

/-- The system program's transfer invoked in flash_rent.rs 18-22: refused when the payer has too little (the system program's
other reasons to refuse are `allowed = false`). -/
def systemTransfer (allowed : Bool) (src dst amount : Nat) : Callee := fun s => do
  let _ ← req (allowed = true) .external
  let x ← (if amount ≤ (s src).lamports then .ok ((s src).lamports - amount) else .error .external)
  let s1 := s.setLamports src x
  .ok (s1.setLamports dst ((s1 dst).lamports + amount))

/-- `flash_rent` (instructions/migration/flash_rent.rs 6-25). `saturating_sub` is truncated subtraction. -/
def flashRent (allowed : Bool) (lender borrower : Nat) (op : Callee) : Callee := fun s => do
  let s' ← op s
  let consumed := (s lender).lamports - (s' lender).lamports
  if 0 < consumed then systemTransfer allowed borrower lender consumed s' else .ok s'

/-- Several calls one after the other, stopping at the first error (the loop over `called_functions`,
migrate_damm_v2_initialize_pool.rs 309-312). -/
def callAll : List Callee → Callee
  | [], s => .ok s
  | f :: fs, s => do
    let s' ← f s
    callAll fs s'

/-- A step of this program that lends rent: `create_locker` (create_locker.rs 93-130), the pool creation of both
migrations (migrate_meteora_damm_initialize_pool.rs 154-208, migrate_damm_v2_initialize_pool.rs 144-247) and
`lock_liquidity_position` (migrate_damm_v2_initialize_pool.rs 303-320); `ops` are the calls made inside. -/
def rentStep (allowed : Bool) (authority payer : Nat) (ops : List Callee) : Callee :=
  cpiChecked (flashRent allowed authority payer (callAll ops)) authority

/-- A step that only guards the call: creation of the token metadata (ix_initialize_virtual_pool_with_spl_token.rs 168-187),
`lock` (meteora_damm_lock_lp_token.rs 82-109) and the second position's `add_liquidity`
(migrate_damm_v2_initialize_pool.rs 376-411). -/
def guardedStep (authority : Nat) (op : Callee) : Callee := cpiChecked op authority

/-- Either kind of step. [no repository counterpart: one step of a called program] -/
inductive CpiStep
  | rent (allowed : Bool) (payer : Nat) (ops : List Callee)
  | guarded (op : Callee)

/-- The step as a function of the accounts (see `rentStep`, `guardedStep`). [no repository counterpart: one step of a called program] -/
def CpiStep.run (authority : Nat) : CpiStep → Callee
  | .rent allowed payer ops => rentStep allowed authority payer ops
  | .guarded op => guardedStep authority op

end Dbc

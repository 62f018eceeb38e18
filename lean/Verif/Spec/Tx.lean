import Verif.Model.Tx

/-!
# Transactions, as seen by an instruction that runs in them
-/

namespace Spec

open Dbc

/-- The swaps of this program that the transaction lists as already run carry the accounts that running them requires
(Anchor refuses a swap with fewer than 14 accounts, and a failed instruction aborts its transaction). -/
def Executed (t : TxCtx) : Prop :=
  ∀ i, i ∈ t.siblings ∨ i ∈ t.top.take t.idx → i.program = PROGRAM_ID → i.kind = .swap ∨ i.kind = .swap2 →
    3 ≤ i.accounts.length

/-! ## Call trees -/

/-- An instruction together with the instructions it invokes, in order. A transaction is a list of these. -/
inductive Call
  | mk (ix : Ix) (subs : List Call)

/-- The instruction of a call. -/
def Call.ix : Call → Ix
  | .mk ix _ => ix

/-- What a call invokes. -/
def Call.subs : Call → List Call
  | .mk _ subs => subs

/-- The instruction at a position of the tree, with the instructions already run under the same parent, latest first. The
position `[i, j, k]` is the `k`th call of the `j`th call of the `i`th top-level instruction. -/
def locate : List Call → List Nat → Option (Ix × List Ix)
  | _, [] => none
  | cs, [i] => cs[i]?.map fun c => (c.ix, ((cs.take i).map Call.ix).reverse)
  | cs, i :: j :: rest => cs[i]?.bind fun c => locate c.subs (j :: rest)

/-- What the Solana runtime guarantees about a transaction that runs to its end, and the one fact about this program it
needs: a call only gets accounts its caller has; and beneath an instruction of this program there is no swap of this
program (re-entry through another program is refused by the runtime, and the only call this program makes to itself is the
one that logs an event). -/
structure ValidTx (tx : List Call) : Prop where
  accounts : ∀ p j ix ix' ss ss', locate tx p = some (ix, ss) → locate tx (p ++ [j]) = some (ix', ss') →
    ∀ k ∈ ix'.accounts, k ∈ ix.accounts
  noReentry : ∀ p q ix ix' ss ss', q ≠ [] → locate tx p = some (ix, ss) → ix.program = PROGRAM_ID →
    locate tx (p ++ q) = some (ix', ss') → ix'.program = PROGRAM_ID → ix'.kind ≠ .swap ∧ ix'.kind ≠ .swap2

/-- What an instruction at position `p` of the transaction observes, if `siblings` ran before it under the same parent. -/
def ctxAt (tx : List Call) (p : List Nat) (siblings : List Ix) (sysvar : Bool) : TxCtx :=
  ⟨sysvar, tx.map Call.ix, p.headD 0, p.length, siblings⟩

/-- The instruction is a swap of this program on the given pool (the pool is account number 2 of both swap
instructions). -/
def SwapsPool (ix : Ix) (pool : Nat) : Prop :=
  ix.program = PROGRAM_ID ∧ (ix.kind = .swap ∨ ix.kind = .swap2) ∧ ix.accounts[2]? = some pool

end Spec

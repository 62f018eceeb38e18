import Verif.Model.Chain
import Verif.Props.Examples

/-!
# A history with two pools
-/

namespace Ex
open Dbc

/-- Concrete addresses. -/
def keys : Keys where
  authority := 1
  treasury := 2
  native2022 := 3
  ata o m := 100000 + 1000 * o + m
  poolPda _ b _ := 200000 + b
  vaultPda m p := 1000 * p + m
  metaPda p := p + 50000
  noZap := [8]
  fee _ a := a / 100

/-- Run a list of instructions. -/
def play (s : Chain) : List Instr → Res Chain
  | [] => .ok s
  | ix :: r => do
    let s1 ← s.exec keys ix
    play s1 r

theorem play_snoc {s s' : Chain} {ixs l : List Instr} {s0 : Chain} (r : ChainRun keys s0 l s) (h : play s ixs = .ok s')
    (ht : ∀ ix ∈ ixs, ix.Typed) : ChainRun keys s0 (l ++ ixs) s' := by
  induction ixs generalizing s l with
  | nil => cases h; rw [List.append_nil]; exact r
  | cons ix ixs ih =>
    unfold play at h
    cases hs : s.exec keys ix with
    | error e => rw [hs] at h; cases h
    | ok s1 =>
      rw [hs] at h
      have := ih (.snoc r (ht ix (List.mem_cons_self ..)) hs) h (fun y hy => ht y (List.mem_cons_of_mem _ hy))
      rw [List.append_assoc] at this
      exact this

def txOf (P : Nat) : TxCtx := ⟨true, [⟨1, .swap2, [0, 9, P]⟩], 0, 1, []⟩

/-- A buy or sell by holder 21 in the pool with base mint `b`; `i` and `o` are the accounts paying and paid. -/
def trade (b i o : Nat) (r : Option Nat) (mode a0 a1 t : Nat) : Instr :=
  .swap ⟨200000 + b, b - 220, 1000 * (200000 + b) + b, 1000 * (200000 + b) + 7, b, 7, i, o, r, 21, mode, a0, a1,
    ⟨100 + t, 1000000 + t⟩, txOf (200000 + b)⟩

def newPool (b ty : Nat) : Instr :=
  .initPool ⟨b - 220, 7, b, 200000 + b, 1000 * (200000 + b) + b, 1000 * (200000 + b) + 7, 21, ty, ⟨100, 1000000⟩, 5⟩

/-- Two pools, at 200300 with configuration A and at 200301 with configuration B, both quoted in mint 7. Mint 9 takes a fee
on every transfer and has a permanent delegate. -/
def setUp : List Instr :=
  [.newMint 7 0 [] (some 60), .newMint 9 1 [.transferFee, .permanentDelegate] (some 60),
   .newAccount 71 7 21, .mintTo 60 7 71 1000000000000000,
   .createConfig 80 7 11 12 1000000 paramsA, .createConfig 81 7 11 12 1000000 paramsB, .createOperator 40 31 3,
   newPool 300 0, newPool 301 1,
   .newAccount 73 300 21, .newAccount 74 301 21, .newAccount 75 7 23, .newAccount 76 7 11, .newAccount 77 300 11,
   .newAccount 78 9 21, .newAccount 79 9 22, .mintTo 60 9 78 5000,
   .newAccount (keys.ata 2 7) 7 2, .newAccount (keys.ata 2 300) 300 2, .newAccount (keys.ata 31 7) 7 31,
   .newAccount (keys.ata 12 300) 300 12]

/-- Trading in both; a sale in the first pool names the quote vault of the second as referral account. -/
def dealing : List Instr :=
  [trade 300 71 73 none 0 1000000000000 1 50, trade 301 71 74 none 0 1000000000 1 60,
   trade 300 73 71 (some 200301007) 0 10000000000000 1 70, trade 301 74 71 (some 75) 0 100000000000 1 80,
   trade 300 71 200300300 none 0 1000000000 1 90,
   .transfer 21 7 71 75 5000, .seize 9 78 79 1000, .burn 21 300 73 12345, .sendLamports 200301 42]

def ownClaim (toBase toQuote : Nat) : ClaimIx := ⟨200300, 80, 200300300, 200300007, 300, 7, toBase, toQuote⟩
def ownQuote (toQuote : Nat) : QuoteIx := ⟨200300, 80, 200300007, 7, toQuote⟩

/-- The first pool is completed, migrated and emptied. Accounts 77 and 76 stand for those of the locker and of DAMM. -/
def finishing : List Instr :=
  [trade 300 71 73 none 1 40000000000000 0 1300, .createLocker 200300 80 200300300 300 21 77,
   .createMeta 200300 80 250300, .migrateV1 ⟨200300, 80, 200300300, 200300007, 300, 7, 77, 76⟩ 250300
      ⟨dammA, 350859375000001, 8982000000000, 56000000000000⟩,
   .claimProtocolFee (ownClaim (keys.ata 2 300) (keys.ata 2 7)) 31 5 1000000, .zapProtocolFee 200300 80 200300007 7 (keys.ata 31 7) 31 1000 fun a r t d => decide (a = 1000 ∧ r = keys.ata 31 7 ∧ t = 2 ∧ d = keys.ata 2 300),
   .claimPartnerFee (ownClaim 77 76) 11 1000 2000, .claimCreatorFee (ownClaim 73 71) 21 1000 2000,
   .partnerWithdrawSurplus (ownQuote 76) 11, .creatorWithdrawSurplus (ownQuote 71) 21,
   .withdrawMigrationFee (ownQuote 76) 11 0, .withdrawMigrationFee (ownQuote 71) 21 1,
   .withdrawLeftover 200300 80 200300300 300 12 (keys.ata 12 300), .lockLp 200300 250300 11, .lockLp 200300 250300 21,
   .claimLp 200300 250300 11, .claimLp 200300 250300 21,
   .claimPartnerCreationFee 200300 80 11 11, .claimProtocolCreationFee 200300 80 2 31,
   .transferCreator 200300 80 (some 250300) 21 22]

/-- The state reached by a list of instructions (the empty chain if some instruction is refused). -/
def chainOf (ixs : List Instr) : Chain :=
  match play (Chain.empty [40]) ixs with
  | .ok s => s
  | .error _ => Chain.empty [40]

theorem chainRun {ixs : List Instr} (h : (play (Chain.empty [40]) ixs).isOk = true) (ht : ∀ ix ∈ ixs, ix.Typed) :
    ChainRun keys (Chain.empty [40]) ixs (chainOf ixs) := by
  unfold chainOf
  cases hp : play (Chain.empty [40]) ixs with
  | error e => rw [hp] at h; cases h
  | ok s =>
    exact play_snoc (.nil _) hp ht

end Ex

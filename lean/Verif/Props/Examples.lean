import Verif.Model.World

/-!
# Concrete configurations and histories

Used to show that the hypotheses of the property theorems are met by non-trivial cases.
-/

namespace Ex
open Dbc

deriving instance DecidableEq for Except

/-- A fixed-supply configuration that migrates to DAMM v1, with a linear fee schedule, a dynamic fee, output-token fee
collection, a migration fee, a creation fee and locked vesting. -/
def paramsA : ConfigParams where
  fees := ⟨⟨50000000, 10, 60, 4000000, 0⟩, ⟨1, 14460000, 956, 1, 10, 120, 5000, 1844674407370955⟩⟩
  collectFeeMode := 1
  migrationOption := 0
  activationType := 1
  tokenType := 0
  tokenDecimal := 6
  partnerLiqPct := 20
  partnerPermLockedPct := 30
  creatorLiqPct := 25
  creatorPermLockedPct := 25
  migrationQuoteThreshold := 10000000000000
  sqrtStartPrice := 2 ^ 60
  lockedVesting := ⟨1000000000000, 100, 3600, 50, 10000000000000⟩
  migrationFeeOption := 2
  tokenSupply := some (3000000000000000, 2000000000000000)
  creatorTradingFeePct := 30
  tokenUpdateAuthority := 1
  migrationFeePct := 10
  creatorMigrationFeePct := 40
  migratedFee := ⟨0, 0, 0, 0, 0, 0, 0, 0, 0⟩
  poolCreationFee := 1000000000
  partnerVesting := ⟨0, 0, 0, 0, 0⟩
  creatorVesting := ⟨0, 0, 0, 0, 0⟩
  enableFirstSwapMinFee := true
  curve := [⟨2 ^ 61, 2 ^ 61 * 1000000000000000⟩, ⟨2 ^ 62, 2 ^ 60 * 1000000000000000⟩]

/-- A dynamic-supply configuration that migrates to a concentrated DAMM v2 pool, with a rate limiter, quote-only fees and
liquidity vesting. -/
def paramsB : ConfigParams where
  fees := ⟨⟨10000000, 100, 1000, 1000000000, 2⟩, ⟨0, 0, 0, 0, 0, 0, 0, 0⟩⟩
  collectFeeMode := 0
  migrationOption := 1
  activationType := 0
  tokenType := 1
  tokenDecimal := 9
  partnerLiqPct := 20
  partnerPermLockedPct := 10
  creatorLiqPct := 25
  creatorPermLockedPct := 15
  migrationQuoteThreshold := 10000000000000
  sqrtStartPrice := 2 ^ 60
  lockedVesting := ⟨0, 0, 0, 0, 0⟩
  migrationFeeOption := 6
  tokenSupply := none
  creatorTradingFeePct := 0
  tokenUpdateAuthority := 3
  migrationFeePct := 0
  creatorMigrationFeePct := 0
  migratedFee := ⟨1, 1, 100, 0, 0, 0, 0, 0, 0⟩
  poolCreationFee := 0
  partnerVesting := ⟨10, 100, 50, 86400, 3600⟩
  creatorVesting := ⟨20, 50, 100, 0, 86400⟩
  enableFirstSwapMinFee := true
  curve := [⟨2 ^ 61, 2 ^ 61 * 1000000000000000⟩, ⟨2 ^ 62, 2 ^ 60 * 1000000000000000⟩]

/-- A dynamic-supply configuration that migrates to a compounding DAMM v2 pool, with an exponential fee schedule. -/
def paramsC : ConfigParams :=
  { paramsB with
    fees := ⟨⟨500000000, 100, 10, 300, 1⟩, ⟨0, 0, 0, 0, 0, 0, 0, 0⟩⟩
    collectFeeMode := 1
    migratedFee := ⟨2, 0, 100, 5000, 0, 0, 0, 0, 0⟩
    enableFirstSwapMinFee := false
    creatorTradingFeePct := 50 }

def env : ConfigEnv where
  quoteSupported := true
  quoteIsSpl := true
  now := 1000000
  quoteMint := 7
  feeClaimer := 11
  leftoverReceiver := 12

/-- The configuration account created from parameters (a dummy if they are refused). -/
def configOf (p : ConfigParams) : PoolConfig :=
  match createConfig p env with
  | .ok c => c
  | .error _ => PoolConfig.init p env 0 0 0 0 0 0

theorem acceptedA : createConfig paramsA env = .ok (configOf paramsA) := by decide +kernel
theorem acceptedB : createConfig paramsB env = .ok (configOf paramsB) := by decide +kernel
theorem acceptedC : createConfig paramsC env = .ok (configOf paramsC) := by decide +kernel

theorem typedA : paramsA.Typed := by
  constructor <;> first | decide | (intro pre post h; cases h; decide) | (intro q hq; revert q hq; decide)
theorem typedB : paramsB.Typed := by
  constructor <;> first | decide | (intro pre post h; cases h; done) | (intro q hq; revert q hq; decide)
theorem typedC : paramsC.Typed := by
  constructor <;> first | decide | (intro pre post h; cases h; done) | (intro q hq; revert q hq; decide)

/-- Run a list of instructions. -/
def exec (w : World) : List Op → Res World
  | [] => .ok w
  | op :: ops => do
    let w1 ← w.step op
    exec w1 ops

theorem exec_run {w w' : World} {ops : List Op} (h : exec w ops = .ok w') : Run w ops w' := by
  induction ops generalizing w with
  | nil => cases h; exact .nil _
  | cons op ops ih =>
    unfold exec at h
    cases hs : w.step op with
    | error e => rw [hs] at h; cases h
    | ok w1 => rw [hs] at h; exact .cons hs (ih h)

def initArgs (tokenType : Nat) : InitArgs where
  key := 50
  creator := 21
  tokenType := tokenType
  clk := ⟨100, 1000000⟩
  donated := 5
  operators := [⟨31, 3⟩]
  admins := [40]

/-- The world created from accepted parameters (a dummy if creation is refused). -/
def worldOf (p : ConfigParams) : World :=
  match initPool (configOf p) (initArgs p.tokenType) with
  | .ok w => w
  | .error _ => ⟨0, configOf p, Pool.initial 0 0 0 0 0, 0, 0, 0, 0, none, none, none, 0, 0, [], [], none, none, [], [], {}⟩

theorem initA : initPool (configOf paramsA) (initArgs 0) = .ok (worldOf paramsA) := by decide +kernel
theorem initB : initPool (configOf paramsB) (initArgs 1) = .ok (worldOf paramsB) := by decide +kernel
theorem initC : initPool (configOf paramsC) (initArgs 1) = .ok (worldOf paramsC) := by decide +kernel

theorem genesisA : Genesis (worldOf paramsA) := ⟨_, _, _, _, typedA, acceptedA, initA⟩
theorem genesisB : Genesis (worldOf paramsB) := ⟨_, _, _, _, typedB, acceptedB, initB⟩
theorem genesisC : Genesis (worldOf paramsC) := ⟨_, _, _, _, typedC, acceptedC, initC⟩

/-- A transaction that only swaps, and one that creates the pool and then swaps. -/
def txSwap : TxCtx := ⟨true, [⟨1, .swap2, [0, 9, 50]⟩], 0, 1, []⟩
def txInit : TxCtx := ⟨true, [⟨1, .initSpl, [0, 9, 21, 4, 5, 50]⟩, ⟨1, .swap2, [0, 9, 50]⟩], 1, 1, []⟩

def buy (mode a0 a1 t : Nat) (referral : Bool) (tx : TxCtx) : Op :=
  .swap ⟨mode, a0, a1, .quoteToBase, referral, ⟨100 + t, 1000000 + t⟩, tx⟩
def sell (mode a0 a1 t : Nat) (referral : Bool) : Op :=
  .swap ⟨mode, a0, a1, .baseToQuote, referral, ⟨100 + t, 1000000 + t⟩, txSwap⟩

/-- Trading in a pool: buys and sells in all modes, up to but not including completion. -/
def trading : List Op :=
  [buy 0 1000000000000 1 0 false txInit, sell 0 10000000000000 1 70 true, buy 2 20000000000000 10000000000000 200 true txSwap,
   sell 2 1000000000 1000000000000000 210 false, buy 1 500000000000 0 300 false txSwap, sell 1 30000000000 0 310 false,
   .claimPartnerFee 11 100 1000000000, .claimCreatorFee 21 18446744073709551615 5, .donate 77 88 99]


def completing : List Op := trading ++ [buy 1 40000000000000 0 1300 true txSwap]

/-- The same with many small sales first, whose rounding leaves a larger surplus. -/
def churned : List Op :=
  trading ++ (List.range 14).map (fun i => sell 0 (1000000007 + 1013 * i) 0 (400 + i) false) ++
    [buy 1 40000000000000 0 1300 true txSwap]

/-- A DAMM v1 configuration with a fee of 1%, reserved for this program. -/
def dammA : DammV1Config := ⟨1000, 100000, POOL_AUTHORITY, 0, 0, 0⟩
/-- DAMM v2 configurations reserved for this program; with a custom fee nothing else is read. -/
def dammB : DammV2Config := ⟨2, 5, 4, 3, 2, 1, 0, 77, POOL_AUTHORITY, 0⟩
def dammC : DammV2Config := ⟨0, 0, 0, 0, 0, 0, 0, 0, POOL_AUTHORITY, 0⟩

/-- Everything after completion, for a DAMM v1 migration. -/
def finishA : List Op :=
  [.partnerWithdrawSurplus 11, .createLocker, .createMeta, .withdrawMigrationFee 21 1,
   .migrateV1 ⟨dammA, 350859375000001, 8982000000000, 56000000000000⟩, .claimProtocolFee 31 5 18446744073709551615,
   .creatorWithdrawSurplus 21, .withdrawMigrationFee 11 0, .withdrawLeftover 12, .lockLp 11, .lockLp 21, .claimLp 11, .claimLp 21,
   .transferCreator 21 22, .claimPartnerCreationFee 11, .claimProtocolCreationFee 31, .createOperator 40 32 2,
   .zapProtocolFee 32 1000 true true true, .claimPartnerFee 11 18446744073709551615 18446744073709551615,
   .claimCreatorFee 22 18446744073709551615 18446744073709551615]

/-- The same for DAMM v2, with the amounts taken by the new pool. -/
def finishV2 (a : V2Args) : List Op :=
  [.partnerWithdrawSurplus 11, .migrateV2 a, .claimProtocolFee 31 18446744073709551615 18446744073709551615,
   .creatorWithdrawSurplus 21, .withdrawMigrationFee 11 0, .withdrawMigrationFee 21 1,
   .transferCreator 21 22, .claimProtocolCreationFee 31,
   .claimPartnerFee 11 18446744073709551615 18446744073709551615, .claimCreatorFee 22 18446744073709551615 18446744073709551615]

def v2B : V2Args := ⟨dammB, 233906250331671, 5988000000001, 0, 0, 0, 155937500221000, 3991999999990, 2000000⟩
def v2C : V2Args :=
  ⟨dammC, 233906249991540, 5987999991300, 233906249991540, 5987999991300, 690369396957474050005664753017725 + 100 * 2 ^ 64,
    155937499990000, 3991999990000, 2000000⟩

/-- The world after a list of instructions (the initial one if some instruction is refused). -/
def after (p : ConfigParams) (ops : List Op) : World :=
  match exec (worldOf p) ops with
  | .ok w => w
  | .error _ => worldOf p

theorem execTradingA : exec (worldOf paramsA) trading = .ok (after paramsA trading) := by decide +kernel
theorem execTradingB : exec (worldOf paramsB) trading = .ok (after paramsB trading) := by decide +kernel
theorem execTradingC : exec (worldOf paramsC) trading = .ok (after paramsC trading) := by decide +kernel
theorem execCompleteA : exec (worldOf paramsA) completing = .ok (after paramsA completing) := by decide +kernel
theorem execCompleteB : exec (worldOf paramsB) completing = .ok (after paramsB completing) := by decide +kernel
theorem execCompleteC : exec (worldOf paramsC) completing = .ok (after paramsC completing) := by decide +kernel
theorem execFinishA : exec (worldOf paramsA) (completing ++ finishA) = .ok (after paramsA (completing ++ finishA)) := by
  decide +kernel
theorem execFinishB :
    exec (worldOf paramsB) (completing ++ finishV2 v2B) = .ok (after paramsB (completing ++ finishV2 v2B)) := by
  decide +kernel
theorem execFinishC :
    exec (worldOf paramsC) (completing ++ finishV2 v2C) = .ok (after paramsC (completing ++ finishV2 v2C)) := by
  decide +kernel

theorem reachTradingA : Reachable (after paramsA trading) := ⟨_, _, genesisA, exec_run execTradingA⟩
theorem reachTradingB : Reachable (after paramsB trading) := ⟨_, _, genesisB, exec_run execTradingB⟩
theorem reachTradingC : Reachable (after paramsC trading) := ⟨_, _, genesisC, exec_run execTradingC⟩
theorem reachCompleteA : Reachable (after paramsA completing) := ⟨_, _, genesisA, exec_run execCompleteA⟩
theorem reachCompleteB : Reachable (after paramsB completing) := ⟨_, _, genesisB, exec_run execCompleteB⟩
theorem reachCompleteC : Reachable (after paramsC completing) := ⟨_, _, genesisC, exec_run execCompleteC⟩
theorem reachFinishA : Reachable (after paramsA (completing ++ finishA)) := ⟨_, _, genesisA, exec_run execFinishA⟩
theorem reachFinishB : Reachable (after paramsB (completing ++ finishV2 v2B)) := ⟨_, _, genesisB, exec_run execFinishB⟩
theorem reachFinishC : Reachable (after paramsC (completing ++ finishV2 v2C)) := ⟨_, _, genesisC, exec_run execFinishC⟩

/-- Worlds of configuration A after more and more of the same history. -/
def tradingA : World := after paramsA trading
def pendingA : World := after paramsA churned
def readyA : World := after paramsA (churned ++ finishA.take 4)
def migratedA : World := after paramsA (churned ++ finishA.take 5)
def finishedA : World := after paramsA (churned ++ finishA)
def readyB : World := after paramsB completing
def migratedB : World := after paramsB (completing ++ (finishV2 v2B).take 2)
def readyC : World := after paramsC completing
def migratedC : World := after paramsC (completing ++ (finishV2 v2C).take 2)

theorem reachPendingA : Reachable pendingA :=
  ⟨_, _, genesisA, exec_run (ops := churned) (by decide +kernel)⟩
theorem reachReadyA : Reachable readyA :=
  ⟨_, _, genesisA, exec_run (ops := churned ++ finishA.take 4) (by decide +kernel)⟩
theorem reachMigratedA : Reachable migratedA :=
  ⟨_, _, genesisA, exec_run (ops := churned ++ finishA.take 5) (by decide +kernel)⟩
theorem reachFinishedA : Reachable finishedA :=
  ⟨_, _, genesisA, exec_run (ops := churned ++ finishA) (by decide +kernel)⟩
theorem reachMigratedB : Reachable migratedB :=
  ⟨_, _, genesisB, exec_run (ops := completing ++ (finishV2 v2B).take 2) (by decide +kernel)⟩
theorem reachMigratedC : Reachable migratedC :=
  ⟨_, _, genesisC, exec_run (ops := completing ++ (finishV2 v2C).take 2) (by decide +kernel)⟩

end Ex

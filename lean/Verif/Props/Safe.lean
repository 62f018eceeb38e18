import Verif.Lemmas.SafeConfig
import Verif.Props.Examples

/-!
# No instruction panics, and swaps do not get stuck at the end of the curve (C11, C45)
-/

namespace Props

open Dbc Spec

/-- The creator's locked vesting: the cliff amount and all periods. -/
def lockedTotal (c : PoolConfig) : Nat :=
  c.lockedVesting.cliffUnlock + c.lockedVesting.amountPerPeriod * c.lockedVesting.numberOfPeriod

/-- C11: no swap is ever refused because the vault could not cover the migration. -/
theorem C11_never_refused {w : World} (h : Reachable w) (a : SwapArgs) (ha : a.amount0 ≤ u64Max) (ht : Executed a.tx) :
    w.step (.swap a) ≠ .error .insufficientLiquidityForMigration := fun e =>
  nomatch Fine.swap h ha ht _ e

/-- C11: when a swap completes the curve, the base vault holds the migration amount, all unclaimed base fees and the
creator's locked vesting. -/
theorem C11_vault_covers {w w' : World} {a : SwapArgs} (hs : w.step (.swap a) = .ok w')
    (hd : w'.cfg.migrationQuoteThreshold ≤ w'.pool.quoteReserve) :
    w'.cfg.migrationBaseThreshold + fees w' .base + lockedTotal w'.cfg ≤ vault w' .base := by
  obtain ⟨cur, fm, r, v1, v2, s⟩ := swap_ok hs
  have e := s.cfg
  rw [e] at hd ⊢
  obtain ⟨-, -, t, ht, hle⟩ := s.done hd
  obtain ⟨-, -, ht⟩ := vesting_total_ok.1 ht
  unfold lockedTotal fees vault partnerFee creatorFee protocolFee
  dsimp only
  omega

/-- C11: at every moment before completion the vault holds all that, and on top of it everything the rest of the curve can
still sell. -/
theorem C11_always_covered {w : World} (h : Reachable w) (hi : w.pool.quoteReserve < w.cfg.migrationQuoteThreshold) :
    w.cfg.migrationBaseThreshold + fees w .base + lockedTotal w.cfg + baseToDown (curve w.cfg) w.cfg.migrationSqrtPrice ≤
      vault w .base + baseToDown (curve w.cfg) w.pool.sqrtPrice := by
  obtain ⟨ps, hc⟩ := h.core
  rw [curve_eq hc.good.curve]
  obtain ⟨sup, hsup, hbase⟩ := hc.base
  obtain ⟨t, ht, hle, -⟩ := hc.good.supply sup hsup
  obtain ⟨-, -, ht⟩ := vesting_total_ok.1 ht
  have d3 : baseToDown (segs w.cfg.sqrtStartPrice ps) w.cfg.migrationSqrtPrice ≤ w.cfg.swapBaseAmount := by
    rw [hc.good.swap]; exact total_le_total baseSegDown_le_up _ _
  have d4 := h.solvent.base0 (h.life.start.2 hi)
  unfold World.baseFees at d4
  unfold lockedTotal fees vault partnerFee creatorFee protocolFee
  dsimp only
  omega

/-- A buy that completes the curve of configuration A, which has locked vesting and collects fees in both tokens. -/
def lastBuy : SwapArgs := ⟨1, 40000000000000, 0, .quoteToBase, true, ⟨1400, 1001300⟩, Ex.txSwap⟩

theorem C11_example : Reachable Ex.tradingA ∧ lastBuy.amount0 ≤ u64Max ∧ Executed lastBuy.tx ∧
    Ex.tradingA.pool.quoteReserve < Ex.tradingA.cfg.migrationQuoteThreshold ∧
    ∃ w', Ex.tradingA.step (.swap lastBuy) = .ok w' ∧ w'.cfg.migrationQuoteThreshold ≤ w'.pool.quoteReserve ∧
      0 < fees w' .base ∧ 0 < lockedTotal w'.cfg ∧ 0 < w'.cfg.migrationBaseThreshold := by
  refine ⟨Ex.reachTradingA, by decide, ?_, by decide +kernel, ?_⟩
  · intro i hi
    rcases hi with hi | hi <;> cases hi
  · have e : Ex.tradingA.step (.swap lastBuy) = .ok (Ex.after Ex.paramsA Ex.completing) := by decide +kernel
    exact ⟨_, e, by decide +kernel⟩

/-- C45: no instruction ever panics, whoever sends it and in whatever state the pool is. For a swap the amount is a 64-bit
number, and the swaps that the transaction lists as executed carry at least three accounts. -/
theorem C45_no_panic {w : World} (h : Reachable w) (op : Op)
    (hs : ∀ a, op = .swap a → a.amount0 ≤ u64Max ∧ Executed a.tx) : w.step op ≠ .error .panic := fun e =>
  nomatch Fine.step h op hs _ e

/-- C45: creating a configuration never panics, whatever parameters are sent. -/
theorem C45_config {p : ConfigParams} (h : p.Typed) (env : ConfigEnv) : createConfig p env ≠ .error .panic :=
  Calm.createConfig h env

/-- C45: creating a pool from an accepted configuration never panics. -/
theorem C45_pool {p : ConfigParams} {env : ConfigEnv} {c : PoolConfig} (h : p.Typed) (hc : createConfig p env = .ok c)
    (a : InitArgs) : initPool c a ≠ .error .panic := fun e =>
  nomatch Fine.initPool h hc a _ e

/-- A transaction whose earlier instructions include a swap in another pool (account 60). -/
def txOther : TxCtx := ⟨true, [⟨1, .swap2, [0, 9, 60]⟩, ⟨1, .swap2, [0, 9, 50]⟩], 1, 1, []⟩

/-- The hypotheses hold both for requests that succeed and for requests refused with an error, including in a pool with a
rate limiter, where the transaction is inspected. -/
theorem C45_example : Executed txOther ∧
    Reachable (Ex.after Ex.paramsB (Ex.trading.take 1)) ∧
    (∃ w', (Ex.after Ex.paramsB (Ex.trading.take 1)).step (Ex.buy 0 1000000 0 10 false txOther) = .ok w') ∧
    (Ex.after Ex.paramsB (Ex.trading.take 1)).step (Ex.buy 0 u64Max 0 10 false txOther) = .error .insufficientLiquidity := by
  refine ⟨?_, ⟨_, _, Ex.genesisB, Ex.exec_run (ops := Ex.trading.take 1) (by decide +kernel)⟩, ?_, by decide +kernel⟩
  · intro i hi _ _
    rcases hi with hi | hi
    · cases hi
    · have : i = ⟨1, .swap2, [0, 9, 60]⟩ := by simpa [txOther] using hi
      subst this; decide
  · have : ((Ex.after Ex.paramsB (Ex.trading.take 1)).step (Ex.buy 0 1000000 0 10 false txOther)).toOption.isSome = true := by
      decide +kernel
    cases e : (Ex.after Ex.paramsB (Ex.trading.take 1)).step (Ex.buy 0 1000000 0 10 false txOther) with
    | ok w' => exact ⟨w', rfl⟩
    | error x => rw [e] at this; cases this

/-- Requests that would divide by zero or index an empty curve if unchecked: a migration for which DAMM v2 reports an empty pool,
and a configuration without curve points. Both are refused with an error. -/
theorem C45_refusals : Reachable Ex.readyC ∧
    (∃ w', Ex.readyC.step (.migrateV2 Ex.v2C) = .ok w') ∧
    Ex.readyC.step (.migrateV2 { Ex.v2C with poolBase := 0 }) = .error .mathOverflow ∧
    ({ Ex.paramsA with curve := [] } : ConfigParams).Typed ∧
    createConfig { Ex.paramsA with curve := [] } Ex.env = .error .invalidCurve ∧
    (∃ c, createConfig Ex.paramsA Ex.env = .ok c ∧ ∃ w, initPool c (Ex.initArgs 0) = .ok w) := by
  refine ⟨Ex.reachCompleteC, ⟨(Ex.readyC.step (.migrateV2 Ex.v2C)).toOption.getD Ex.readyC, by decide +kernel⟩, by decide +kernel,
    { Ex.typedA with curve := fun q hq => nomatch hq }, by decide +kernel, _, Ex.acceptedA, _, Ex.initA⟩

end Props

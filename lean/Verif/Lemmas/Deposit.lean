import Verif.Lemmas.Total
import Verif.Lemmas.Payable
import Verif.Lemmas.Migration

/-!
# The migration amounts of a completed pool can be computed
-/

namespace Dbc

theorem liqFromDeltaQuote_ok {q m p l : Nat} : liqFromDeltaQuote q m p = .ok l ↔
    m ≤ p ∧ p - m ≠ 0 ∧ q * 2 ^ 128 ≤ u256Max ∧ l = q * 2 ^ 128 / (p - m) ∧ l ≤ u128Max := by
  simp only [liqFromDeltaQuote, bind_ok, safeSub_ok, safeShl256_ok, safeDiv_ok, castTo_ok]
  constructor
  · rintro ⟨_, ⟨h1, rfl⟩, _, ⟨h2, rfl⟩, _, ⟨h3, rfl⟩, h4, rfl⟩
    exact ⟨h1, h3, h2, rfl, h4⟩
  · rintro ⟨h1, h3, h2, rfl, h4⟩
    exact ⟨_, ⟨h1, rfl⟩, _, ⟨h2, rfl⟩, _, ⟨h3, rfl⟩, h4, rfl⟩

theorem liqFromDeltaQuote_mono {q q' m p l : Nat} (h : liqFromDeltaQuote q m p = .ok l) (hq : q' ≤ q) :
    ∃ l', liqFromDeltaQuote q' m p = .ok l' ∧ l' ≤ l := by
  rw [liqFromDeltaQuote_ok] at h
  obtain ⟨h1, h2, h3, rfl, h5⟩ := h
  have e : q' * 2 ^ 128 ≤ q * 2 ^ 128 := Nat.mul_le_mul_right _ hq
  have d : q' * 2 ^ 128 / (p - m) ≤ q * 2 ^ 128 / (p - m) := Nat.div_le_div_right e
  exact ⟨_, liqFromDeltaQuote_ok.2 ⟨h1, h2, e.trans h3, rfl, d.trans h5⟩, d⟩

/-- Liquidity from both amounts is computable when it is from a larger quote amount. -/
theorem concentratedLiquidity_total {b q q' p l : Nat} (h : liqFromDeltaQuote q MIN_SQRT_PRICE p = .ok l) (hq : q' ≤ q)
    (hp : p < MAX_SQRT_PRICE) (hb : b ≤ u64Max) : ∃ l', concentratedLiquidity b q' p = .ok l' := by
  obtain ⟨lq, hlq, -⟩ := liqFromDeltaQuote_mono h hq
  have hlq' := (liqFromDeltaQuote_ok.1 hlq).2.2.2.2
  have h1 : b * p ≤ u64Max * MAX_SQRT_PRICE := Nat.mul_le_mul hb hp.le
  have h2 : b * p * MAX_SQRT_PRICE ≤ u64Max * MAX_SQRT_PRICE * MAX_SQRT_PRICE := Nat.mul_le_mul_right _ h1
  have hlb : liqFromDeltaBase b MAX_SQRT_PRICE p = .ok (b * p * MAX_SQRT_PRICE / (MAX_SQRT_PRICE - p)) := by
    simp only [liqFromDeltaBase, bind_ok, safeSub_ok, safeMul_ok, safeDiv_ok]
    exact ⟨_, ⟨hp.le, rfl⟩, _, ⟨h1.trans (by decide +kernel), rfl⟩, _, ⟨h2.trans (by decide +kernel), rfl⟩,
      by omega, rfl⟩
  unfold concentratedLiquidity
  rw [hlb, ok_bind, hlq, ok_bind]
  split
  · exact ⟨_, rfl⟩
  · rename_i hc
    exact ⟨_, castTo_eq (by omega)⟩

theorem divCeil_of_mod {a b : Nat} (hb : 0 < b) :
    (a % b ≠ 0 → a / b + 1 = divCeil a b) ∧ (a % b = 0 → a / b = divCeil a b) := by
  have e := Nat.div_add_mod a b
  have hm := Nat.mod_lt a hb
  rw [Nat.mul_comm] at e
  constructor
  · intro hn
    refine le_antisymm ((lt_divCeil_iff hb).2 (by omega)) ((divCeil_le_iff hb).2 ?_)
    rw [Nat.add_mul, Nat.one_mul]; omega
  · intro hn
    exact le_antisymm (div_le_divCeil _ _) ((divCeil_le_iff hb).2 (by omega))

/-- What an accepted configuration guarantees about its migration. -/
structure MigCfg (c : PoolConfig) : Prop where
  option : c.migrationOption ≤ 1
  mode : c.migratedFee.collectFeeMode ≤ 2
  pct : c.migrationFeePct ≤ 99
  threshold : c.migrationQuoteThreshold ≤ u64Max
  price : c.migrationSqrtPrice < MAX_SQRT_PRICE
  base : c.migrationBaseThreshold ≤ u64Max
  basePos : 0 < c.migrationBaseThreshold
  concentrated : migrationHandler c.migrationOption c.migratedFee.collectFeeMode = .concentrated →
    ∃ l, liqFromDeltaQuote (migQuote c) MIN_SQRT_PRICE c.migrationSqrtPrice = .ok l ∧
      divCeil (l * (MAX_SQRT_PRICE - c.migrationSqrtPrice)) (c.migrationSqrtPrice * MAX_SQRT_PRICE) = c.migrationBaseThreshold
  compounding : c.migrationOption = 1 → c.migratedFee.collectFeeMode = 2 →
    ∃ s l, compoundingInitial
        (c.migrationBaseThreshold - c.migrationBaseThreshold * PROTOCOL_LIQUIDITY_MIGRATION_FEE_BPS / BASIS_POINT_MAX)
        (migQuote c - migQuote c * PROTOCOL_LIQUIDITY_MIGRATION_FEE_BPS / BASIS_POINT_MAX) = .ok (s, l) ∧ DEAD_LIQUIDITY < l ∧
      ((c.migrationSqrtPrice - s) + (s - c.migrationSqrtPrice)) * 100 ≤ max c.migrationSqrtPrice s
  product : migrationHandler c.migrationOption c.migratedFee.collectFeeMode = .compounding →
    0 < c.migrationSqrtPrice ∧
      c.migrationBaseThreshold = divCeil (migQuote c * 2 ^ 128) (c.migrationSqrtPrice * c.migrationSqrtPrice)

theorem Reachable.migCfg {w : World} (h : Reachable w) : MigCfg w.cfg := by
  obtain ⟨p, env, ht, hc⟩ := h.config
  obtain ⟨ps, core⟩ := h.core
  have hg := core.good
  have ha := createConfig_ok hc
  have hv := validate_ok ha.validated
  have e1 : w.cfg.migrationOption = p.migrationOption := by rw [ha.eq]; rfl
  have e2 : w.cfg.migratedFee = p.migratedFee := by rw [ha.eq]; rfl
  have e3 : w.cfg.migrationQuoteThreshold = p.migrationQuoteThreshold := by rw [ha.eq]; rfl
  have e4 : w.cfg.migrationFeePct = p.migrationFeePct := by rw [ha.eq]; rfl
  obtain ⟨q, hq, hcomp⟩ := ha.amounts
  rw [← e1, ← e2, ← e3, ← e4] at hq
  have hpct : w.cfg.migrationFeePct ≤ 100 := by have := hg.migFee; omega
  have hmq := migrationQuoteAmount_fits hpct hg.thresholdMax
  unfold validateCompounding at hcomp
  rw [← e1, ← e2] at hcomp
  have common : q = migQuote w.cfg ∧ w.cfg.migrationBaseThreshold ≤ u64Max ∧
      (migrationHandler w.cfg.migrationOption w.cfg.migratedFee.collectFeeMode = .concentrated →
      ∃ l, liqFromDeltaQuote (migQuote w.cfg) MIN_SQRT_PRICE w.cfg.migrationSqrtPrice = .ok l ∧
        divCeil (l * (MAX_SQRT_PRICE - w.cfg.migrationSqrtPrice)) (w.cfg.migrationSqrtPrice * MAX_SQRT_PRICE) =
          w.cfg.migrationBaseThreshold) ∧
      (migrationHandler w.cfg.migrationOption w.cfg.migratedFee.collectFeeMode = .compounding → 0 < w.cfg.migrationSqrtPrice ∧
        w.cfg.migrationBaseThreshold =
          divCeil (migQuote w.cfg * 2 ^ 128) (w.cfg.migrationSqrtPrice * w.cfg.migrationSqrtPrice)) := by
    cases hh : migrationHandler w.cfg.migrationOption w.cfg.migratedFee.collectFeeMode with
    | compounding =>
      rw [hh] at hq
      unfold migrationAmounts1 at hq
      simp only [hmq, ok_bind, bind_ok, ok_inj, Prod.mk.injEq] at hq
      obtain ⟨b, hb, rfl, rfl⟩ := hq
      simp only [constantProductBase, bind_ok, req_ok, castTo_ok] at hb
      obtain ⟨pr, hpr, q2, hq2, _, hne, b, hb, _, hle, _, rfl⟩ := hb
      refine ⟨rfl, hle, (fun h => nomatch h), fun _ => ?_⟩
      rw [safeMul_ok] at hpr
      rw [safeShl256_ok] at hq2
      obtain ⟨-, rfl⟩ := hpr
      obtain ⟨-, rfl⟩ := hq2
      have hp0 : 0 < w.cfg.migrationSqrtPrice := Nat.pos_of_ne_zero fun h0 => hne (by rw [h0])
      refine ⟨hp0, ?_⟩
      rw [ite_ok, safeAdd_ok, ok_inj] at hb
      have hd := Nat.pos_of_ne_zero hne
      rcases hb with ⟨hn, _, e⟩ | ⟨hn, e⟩
      · rw [e]; exact (divCeil_of_mod hd).1 hn
      · rw [← e]; exact (divCeil_of_mod hd).2 (by omega)
    | concentrated =>
      rw [hh] at hq
      unfold migrationAmounts1 at hq
      simp only [hmq, ok_bind, bind_ok, ok_inj, Prod.mk.injEq, req_ok, castTo_ok] at hq
      obtain ⟨l, hl, b, hb, _, hle, _, ⟨_, rfl⟩, rfl, rfl⟩ := hq
      refine ⟨rfl, hle, fun _ => ⟨l, hl, ?_⟩, fun h => nomatch h⟩
      exact (deltaBase256_ok.1 hb).2.2.2.2.symm
  obtain ⟨rfl, hbase, hconc, hprod⟩ := common
  have hqle : migQuote w.cfg ≤ u64Max := by
    have := (migrationQuoteAmount_ok hmq).2.2
    have := hg.thresholdMax
    omega
  refine ⟨by rw [e1]; exact hv.option, by rw [e2]; exact ha.mode, hg.migFee, hg.thresholdMax, hg.migMax, hbase, hg.basePos,
    hconc, fun o1 o2 => ?_, hprod⟩
  rw [if_pos ⟨o1, o2⟩] at hcomp
  simp only [migrationProtocolFees, validateInitialPoolInformation, mulDivU64_pct hbase (d := BASIS_POINT_MAX)
    (y := PROTOCOL_LIQUIDITY_MIGRATION_FEE_BPS) (by decide) (by decide) (by decide),
    mulDivU64_pct hqle (d := BASIS_POINT_MAX) (y := PROTOCOL_LIQUIDITY_MIGRATION_FEE_BPS) (by decide) (by decide) (by decide),
    bind_ok, ok_inj, Prod.exists, Prod.mk.injEq, safeSub_ok, req_ok] at hcomp
  obtain ⟨_, _, ⟨_, rfl, _, rfl, rfl, rfl⟩, _, ⟨_, rfl⟩, _, ⟨_, rfl⟩, s, l, hsl, _, _, _, hd, m, hm, hle⟩ := hcomp
  rw [safeMul_ok] at hm
  exact ⟨s, l, hsl, hd, by rw [← hm.2]; exact hle⟩

theorem bps_le (x : Nat) : x * PROTOCOL_LIQUIDITY_MIGRATION_FEE_BPS / BASIS_POINT_MAX ≤ x := by
  apply Nat.div_le_of_le_mul
  rw [Nat.mul_comm BASIS_POINT_MAX]
  exact Nat.mul_le_mul_left _ (by decide)

/-- The protocol's share of the quote amount put into migration. -/
def migProto (c : PoolConfig) : Nat := migQuote c * PROTOCOL_LIQUIDITY_MIGRATION_FEE_BPS / BASIS_POINT_MAX

/-- The amounts of a pool ready to migrate, and the initial information of the pool it migrates to. -/
theorem migAmounts_total {w : World} (hr : Reachable w) (h2 : w.pool.migrationProgress = 2) {h : Handler}
    (hh : h = migrationHandler w.cfg.migrationOption w.cfg.migratedFee.collectFeeMode) :
    ∃ m, w.migAmounts h = .ok m ∧ m.quoteFee = migProto w.cfg ∧
      (w.cfg.migrationOption = 1 → ∃ r, initialPoolInformation h w.cfg.migrationSqrtPrice m.exBase m.exQuote = .ok r) := by
  have hm := hr.migCfg
  have hs := hr.solvent
  have hl := hr.life
  have hb2 := hs.base2 h2
  have hbm := hs.baseMax
  have hsm := hs.supMax
  have hmq := migrationQuoteAmount_fits (by have := hm.pct; omega) hm.threshold
  have hqle : migQuote w.cfg ≤ u64Max := by
    have := (migrationQuoteAmount_ok hmq).2.2
    have := hm.threshold
    omega
  have hqf := mulDivU64_pct hqle (d := BASIS_POINT_MAX) (y := PROTOCOL_LIQUIDITY_MIGRATION_FEE_BPS) (by decide) (by decide)
    (by decide)
  have hfee := baseFees_fits (w := w) (by omega)
  unfold World.migAmounts
  rw [hfee, ok_bind, safeSub_eq (by omega), ok_bind, hl.bps]
  cases hcase : h with
  | compounding =>
    have hbf := mulDivU64_pct hm.base (d := BASIS_POINT_MAX) (y := PROTOCOL_LIQUIDITY_MIGRATION_FEE_BPS) (by decide) (by decide)
      (by decide)
    simp only [migrationAmounts2, migrationProtocolFees, hmq, req_ok, bind_ok, ok_inj, Prod.exists, Prod.mk.injEq, hqf, hbf,
      safeSub_ok]
    refine ⟨_, ⟨_, _, ⟨(), by omega, _, _, ⟨rfl, rfl⟩, rfl, rfl⟩, _, _, ⟨_, hbf, _, hqf, rfl, rfl⟩, _, ⟨bps_le _, rfl⟩, _,
      ⟨bps_le _, rfl⟩, rfl⟩, rfl, fun ho => ?_⟩
    have hmode : w.cfg.migratedFee.collectFeeMode = 2 := by
      rw [hcase] at hh
      unfold migrationHandler at hh
      rw [if_neg (by omega)] at hh
      by_contra hne
      rw [if_neg hne] at hh
      cases hh
    obtain ⟨s, l, hsl, hd, -⟩ := hm.compounding ho hmode
    unfold initialPoolInformation
    dsimp only
    rw [hsl, ok_bind]
    dsimp only
    rw [safeSub_eq (by omega), ok_bind]
    exact ⟨_, _, _, rfl⟩
  | concentrated =>
    obtain ⟨l, hlq, hlb⟩ := hm.concentrated (by rw [← hh, hcase])
    obtain ⟨lf, hlf, hle⟩ := liqFromDeltaQuote_mono hlq (bps_le (migQuote w.cfg))
    have hlf' := (liqFromDeltaQuote_ok.1 hlf)
    have hp0 : 0 < w.cfg.migrationSqrtPrice := by omega
    have hbf : lf * (MAX_SQRT_PRICE - w.cfg.migrationSqrtPrice) / (w.cfg.migrationSqrtPrice * MAX_SQRT_PRICE) ≤
        w.cfg.migrationBaseThreshold := by
      rw [← hlb]
      exact (Nat.div_le_div_right (Nat.mul_le_mul_right _ hle)).trans (div_le_divCeil _ _)
    have hdb := deltaBase_eq .down hp0 hm.price.le le_rfl hlf'.2.2.2.2 (by simp only [divRound]; have := hm.base; omega)
    simp only [divRound] at hdb
    simp only [migrationAmounts2, migrationProtocolFees, hmq, bind_ok, ok_inj, Prod.exists, Prod.mk.injEq, hqf, safeSub_ok]
    refine ⟨_, ⟨_, _, ⟨_, _, ⟨rfl, rfl⟩, rfl, rfl⟩, _, _, ⟨_, hqf, _, hlf, _, hdb, rfl, rfl⟩, _, ⟨by omega, rfl⟩, _,
      ⟨bps_le _, rfl⟩, rfl⟩, rfl, fun ho => ?_⟩
    obtain ⟨l', hl'⟩ := concentratedLiquidity_total (b := w.baseVault - w.baseFees -
      lf * (MAX_SQRT_PRICE - w.cfg.migrationSqrtPrice) / (w.cfg.migrationSqrtPrice * MAX_SQRT_PRICE)) hlq
      (Nat.sub_le _ (migProto w.cfg)) hm.price
      (((Nat.sub_le _ _).trans (Nat.sub_le _ _)).trans (hbm.trans hsm))
    unfold initialPoolInformation
    dsimp only
    unfold migProto at hl'
    rw [hl', ok_bind]
    exact ⟨_, _, _, rfl⟩

end Dbc

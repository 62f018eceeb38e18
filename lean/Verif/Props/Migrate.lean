import Verif.Lemmas.Live
import Verif.Props.Life
import Verif.Props.Examples

/-!
# Migration amounts, deposits and liveness: C21, C44, C52
-/

namespace Props
open Dbc Spec

/-! ### C44 -/

/-- C44: the initial liquidity of a concentrated pool fits in the two amounts, and one unit more would not. -/
theorem C44_concentrated {p b q s l d : Nat} (h : initialPoolInformation .concentrated p b q = .ok (s, l, d)) :
    s = p ∧ d = 0 ∧ Fits (concentratedNeeds s l) b q ∧ ¬Fits (concentratedNeeds s (l + 1)) b q := by
  simp only [initialPoolInformation, bind_ok, ok_inj, Prod.mk.injEq] at h
  obtain ⟨l, hcl, rfl, rfl, rfl⟩ := h
  obtain ⟨b1, b2, b3, b4, b5⟩ := concentratedLiquidity_ok hcl
  have hp : p * MAX_SQRT_PRICE ≠ 0 := Nat.mul_ne_zero (by omega) (by omega)
  unfold Fits concentratedNeeds
  rw [ceilDiv_eq hp, ceilDiv_eq hp, ceilDiv_eq (by positivity), ceilDiv_eq (by positivity)]
  refine ⟨rfl, rfl, ⟨divCeil_le_of (by rw [← Nat.mul_assoc]; exact b4), divCeil_le_of b5⟩, ?_⟩
  dsimp only
  rw [divCeil_le_iff (Nat.pos_of_ne_zero hp), divCeil_le_iff (by positivity)]
  rintro ⟨n1, n2⟩
  simp only [concentratedLiquidity, liqFromDeltaBase, liqFromDeltaQuote, bind_ok, safeSub_ok, safeMul_ok, safeDiv_ok,
    safeShl256_ok, castTo_ok] at hcl
  generalize 2 ^ 128 = K at *
  generalize MAX_SQRT_PRICE = M at *
  generalize MIN_SQRT_PRICE = m at *
  obtain ⟨lb, ⟨_, ⟨h1, d1⟩, _, ⟨_, d2⟩, _, ⟨_, d3⟩, h2, d4⟩, lq, ⟨_, ⟨h3, d5⟩, _, ⟨_, d6⟩, _, ⟨h4, d7⟩, h5, d8⟩, h⟩ := hcl
  subst d1 d2 d3 d4 d5 d6 d7 d8
  rw [← Nat.mul_assoc, ← Nat.le_div_iff_mul_le (by omega)] at n1
  rw [← Nat.le_div_iff_mul_le (by omega)] at n2
  rw [ite_ok] at h
  rcases h with ⟨g, h⟩ | ⟨g, h⟩
  · rw [ok_inj] at h; omega
  · rw [castTo_ok] at h; omega

/-- C44: the initial liquidity of a compounding pool, dead liquidity included, fits in the two amounts. It is within one part
in 2^32 of the most that fits: `b + 1` units more, with `b` the base amount, would not. -/
theorem C44_compounding {p b q s l d : Nat} (h : initialPoolInformation .compounding p b q = .ok (s, l, d)) :
    Fits (compoundingNeeds s (l + d)) b q ∧ ¬Fits (compoundingNeeds s (l + d + b + 1)) b q ∧ 2 ^ 32 * b ≤ l + d := by
  simp only [initialPoolInformation, bind_ok, Prod.exists, safeSub_ok, ok_inj, Prod.mk.injEq] at h
  obtain ⟨s', l', hsl, l0, ⟨hle, d1⟩, d0, d2, d3⟩ := h
  rw [← d0, ← d2, ← d3, d1]
  obtain ⟨-, hs0, -, -⟩ := compoundingInitial_ok hsl
  obtain ⟨s2, e, -, g1, g2, -, g3, -⟩ := compoundingInitial_full hsl
  rw [Nat.sub_add_cancel hle]
  unfold Fits compoundingNeeds
  rw [ceilDiv_eq (by omega), ceilDiv_eq (by positivity), ceilDiv_eq (by omega), ceilDiv_eq (by positivity)]
  refine ⟨compounding_fits hsl, ?_, ?_⟩
  · rintro ⟨n1, -⟩
    dsimp only at n1
    rw [divCeil_le_iff hs0] at n1
    have : b * s' ≤ b * (s2 + 1) := Nat.mul_le_mul_left _ g2
    rw [Nat.mul_add, Nat.mul_comm b s2] at this
    omega
  · rw [e]
    refine Nat.mul_le_mul_right _ ?_
    have : 2 ^ 32 + 1 ≤ MIN_SQRT_PRICE := by decide
    omega

/-- C44: liquidity computed from leftovers fits in the leftovers. -/
theorem C44_second_concentrated {p b q pb pq pl l : Nat} (h : liquidityDelta .concentrated p b q pb pq pl = .ok l) :
    Fits (concentratedNeeds p l) b q ∧ ¬Fits (concentratedNeeds p (l + 1)) b q := by
  have h' : initialPoolInformation .concentrated p b q = .ok (p, l, 0) := by
    simp only [initialPoolInformation, bind_ok, ok_inj]; exact ⟨l, h, rfl⟩
  exact ⟨(C44_concentrated h').2.2.1, (C44_concentrated h').2.2.2⟩

theorem C44_second_compounding {p b q pb pq pl l : Nat} (hpl : 0 < pl)
    (h : liquidityDelta .compounding p b q pb pq pl = .ok l) :
    Fits (proRataNeeds pb pq pl l) b q ∧ ¬Fits (proRataNeeds pb pq pl (l + 1)) b q := by
  have hn := needs_le h
  unfold Fits proRataNeeds
  rw [ceilDiv_eq (by omega), ceilDiv_eq (by omega), ceilDiv_eq (by omega), ceilDiv_eq (by omega)]
  refine ⟨hn, ?_⟩
  dsimp only
  rw [divCeil_le_iff hpl, divCeil_le_iff hpl]
  rintro ⟨n1, n2⟩
  simp only [liquidityDelta, bind_ok, ok_inj] at h
  obtain ⟨x, hx, y, hy, rfl⟩ := h
  obtain ⟨-, k1, rfl, -⟩ := mulDivU128_down.1 hx
  obtain ⟨-, k2, rfl, -⟩ := mulDivU128_down.1 hy
  rw [← Nat.le_div_iff_mul_le (by omega)] at n1 n2
  omega

/-- The amounts of the example configurations meet the hypotheses of the C44 theorems. -/
theorem C44_example :
    initialPoolInformation .concentrated 2951479051793528258 530468750552866 9980000000000 =
      .ok (2951479051793528258, 1150615663272030909690427527021194, 0) ∧
    initialPoolInformation .compounding 2951479051793528258 389843750000001 9980000000000 =
      .ok (2951479051793524473, 1150615661595790083342774588362873, 1844674407370955161600) ∧
    liquidityDelta .concentrated 2951479051793528258 155937500221111 3992000000000 0 0 0 =
      .ok 460246265308803629057816439121372 ∧
    liquidityDelta .compounding 2951479051793528258 1000 3001 7000 20011 1000007 = .ok 142858 ∧
    (Ex.readyB.migAmounts .concentrated).toOption.map (fun m => (m.exBase, m.exQuote)) =
      some (530468750552866, 9980000000000) ∧
    (Ex.readyC.migAmounts .compounding).toOption.map (fun m => (m.exBase, m.exQuote)) =
      some (389843750000001, 9980000000000) := by
  decide +kernel

/-! ### C21 -/

theorem amounts_fees {w : World} (hr : Reachable w) (h2 : w.pool.migrationProgress = 2) {m : MigAmounts} {h : Handler}
    (hh : h = migrationHandler w.cfg.migrationOption w.cfg.migratedFee.collectFeeMode) (hma : w.migAmounts h = .ok m) :
    m.quoteFee = protocolCut (migrationQuote w) ∧ m.exQuote + m.quoteFee = migrationQuote w ∧
    (h = .compounding → m.baseFee = protocolCut w.cfg.migrationBaseThreshold ∧
      m.exBase + m.baseFee = w.cfg.migrationBaseThreshold) ∧
    10000 * m.baseFee ≤ 20 * (w.cfg.migrationBaseThreshold + 1) ∧ m.exBase + m.baseFee + fees w .base ≤ vault w .base := by
  obtain ⟨m', hma', hq, -⟩ := migAmounts_total hr h2 hh
  rw [hma, ok_inj] at hma'
  subst hma'
  obtain ⟨f, hf, hfv, hfm, g1, g2, e1, e2, e3, e4, -⟩ := migAmounts_ok hma
  have hm := hr.migCfg
  have hcomp : h = .compounding → m.baseFee = protocolCut w.cfg.migrationBaseThreshold ∧
      m.exBase + m.baseFee = w.cfg.migrationBaseThreshold := by
    rintro rfl
    simp only [migrationAmounts2, bind_ok, req_ok, Prod.exists, ok_inj, Prod.mk.injEq] at g1
    obtain ⟨_, _, _, _, _, e5, _⟩ := g1
    simp only [migrationProtocolFees, bind_ok, ok_inj, Prod.mk.injEq] at g2
    obtain ⟨x, hx, y, hy, rfl, rfl⟩ := g2
    obtain ⟨-, -, hx, -⟩ := mulDivU64_down.1 hx
    rw [hr.life.bps, ← e5] at hx
    exact ⟨hx, by omega⟩
  refine ⟨by rw [hq, migrationQuote_eq]; rfl, by rw [migrationQuote_eq]; omega, hcomp, ?_, ?_⟩
  · cases hc : h with
    | compounding =>
      rw [(hcomp hc).1]
      have := Nat.div_mul_le_self (w.cfg.migrationBaseThreshold * 20) 10000
      unfold protocolCut
      omega
    | concentrated =>
      subst hc
      obtain ⟨l, hlq, hlb⟩ := hm.concentrated hh.symm
      simp only [migrationProtocolFees, bind_ok, ok_inj, Prod.mk.injEq] at g2
      obtain ⟨qf, hqf, lf, hlf, bf, hbf, e5, e6⟩ := g2
      obtain ⟨-, -, hqf, -⟩ := mulDivU64_down.1 hqf
      rw [hr.life.bps, e3] at hqf
      obtain ⟨c1, c2, -, c3, -⟩ := liqFromDeltaQuote_ok.1 hlq
      obtain ⟨-, -, -, c4, -⟩ := liqFromDeltaQuote_ok.1 hlf
      have hbf' : bf = lf * (MAX_SQRT_PRICE - w.cfg.migrationSqrtPrice) / (w.cfg.migrationSqrtPrice * MAX_SQRT_PRICE) := by
        simp only [deltaBase, bind_ok, req_ok, castTo_ok] at hbf
        obtain ⟨_, h1, _, _, _, rfl⟩ := hbf
        exact (deltaBase256_ok.1 h1).2.2.2.2
      rw [← e5]
      clear hlq hlf hbf e5 e6 hq e1 e2 e3 e4 g1 hh hma
      have hp0 : 0 < w.cfg.migrationSqrtPrice := by omega
      have hM0 : 0 < MAX_SQRT_PRICE := by decide
      have hpm : 0 < w.cfg.migrationSqrtPrice - MIN_SQRT_PRICE := by omega
      have hb20 : PROTOCOL_LIQUIDITY_MIGRATION_FEE_BPS = 20 := rfl
      have hbmax : BASIS_POINT_MAX = 10000 := rfl
      rw [hb20, hbmax] at hqf
      generalize w.cfg.migrationSqrtPrice = p at *
      generalize w.cfg.migrationBaseThreshold = T at *
      generalize migQuote w.cfg = q at *
      generalize hD : p - MIN_SQRT_PRICE = D at *
      have hle1 : MAX_SQRT_PRICE - p ≤ MAX_SQRT_PRICE := Nat.sub_le _ _
      generalize MAX_SQRT_PRICE - p = N at *
      generalize MAX_SQRT_PRICE = M at *
      generalize (2 : Nat) ^ 128 = K at *
      -- lf * 10000 ≤ 20 * (l + 1)
      have k1 : qf * 10000 ≤ q * 20 := by rw [hqf]; exact Nat.div_mul_le_self _ _
      have k2 : lf * D ≤ qf * K := by rw [c4]; exact Nat.div_mul_le_self _ _
      have k3 : q * K < (l + 1) * D := by
        rw [c3, Nat.add_mul, Nat.one_mul]; exact Nat.lt_div_mul_add hpm
      have k4 : lf * 10000 ≤ 20 * (l + 1) := by
        have : lf * 10000 * D ≤ 20 * (l + 1) * D := by
          calc lf * 10000 * D = lf * D * 10000 := by ring
            _ ≤ qf * K * 10000 := Nat.mul_le_mul_right _ k2
            _ = qf * 10000 * K := by ring
            _ ≤ q * 20 * K := Nat.mul_le_mul_right _ k1
            _ = 20 * (q * K) := by ring
            _ ≤ 20 * ((l + 1) * D) := Nat.mul_le_mul_left _ k3.le
            _ = 20 * (l + 1) * D := by ring
        exact Nat.le_of_mul_le_mul_right this hpm
      have k5 : bf * (p * M) ≤ lf * N := by rw [hbf']; exact Nat.div_mul_le_self _ _
      have hPM : 0 < p * M := Nat.mul_pos hp0 hM0
      have k6 : l * N ≤ T * (p * M) := by rw [← hlb]; exact le_divCeil_mul _ hPM
      have k7 : N ≤ p * M := hle1.trans (Nat.le_mul_of_pos_left _ hp0)
      have : 10000 * bf * (p * M) ≤ 20 * (T + 1) * (p * M) := by
        calc 10000 * bf * (p * M) = 10000 * (bf * (p * M)) := by ring
          _ ≤ 10000 * (lf * N) := Nat.mul_le_mul_left _ k5
          _ = lf * 10000 * N := by ring
          _ ≤ 20 * (l + 1) * N := Nat.mul_le_mul_right _ k4
          _ = 20 * (l * N + N) := by ring
          _ ≤ 20 * (T * (p * M) + p * M) := Nat.mul_le_mul_left _ (Nat.add_le_add k6 k7)
          _ = 20 * (T + 1) * (p * M) := by ring
      exact Nat.le_of_mul_le_mul_right this hPM
  · unfold fees vault partnerFee creatorFee protocolFee
    dsimp only
    omega

/-- C21: every migration leaves the protocol exactly 0.2% (rounded down) of the quote amount put into it, which is
`threshold * (100 - fee%) / 100` rounded up, and deposits at most the rest. For a constant-product pool the same holds for the
base amount set aside by the configuration. For a concentrated one the base tokens not owed as fees are put in, and the
protocol's part is at most 0.2% of the configured amount (plus one unit). -/
theorem C21_migration {w w' : World} (h : Reachable w) {op : Op} (hop : isMigrate op = true) (hs : w.step op = .ok w') :
    w'.pool.protocolMigQuoteFee = protocolCut (migrationQuote w) ∧
    w'.led.migQuote + w'.pool.protocolMigQuoteFee ≤ migrationQuote w ∧
    (Compounds w.cfg → w'.pool.protocolMigBaseFee = protocolCut w.cfg.migrationBaseThreshold ∧
      w'.led.migBase + w'.pool.protocolMigBaseFee ≤ w.cfg.migrationBaseThreshold) ∧
    10000 * w'.pool.protocolMigBaseFee ≤ 20 * (w.cfg.migrationBaseThreshold + 1) ∧
    w'.led.migBase + w'.pool.protocolMigBaseFee + fees w .base ≤ vault w .base := by
  rcases isMigrate_iff.1 hop with ⟨a, rfl⟩ | ⟨a, rfl⟩
  · obtain ⟨md, m, md', burn, f, h1, h2, h3, h4, hma, h5, h6, h7, h8, -, -, -, -, -, e⟩ := migrateV1_ok hs
    have hny := h.life.notYet (by omega)
    obtain ⟨q1, q2, q3, q4, q5⟩ := amounts_fees h h2 (by rw [h4]; rfl) hma
    have q3 := q3 rfl
    rw [e]
    dsimp only
    exact ⟨q1, by omega, fun _ => ⟨q3.1, by omega⟩, q4, by omega⟩
  · obtain ⟨hd, m, burn, f, price, liq, dead, pa, cr, first, second, liq2, rest, rfl, h1, h2, h3, h4, hma, h5, h6, h7, h8, h9,
      h10, h11, h12, h13, h14, -, -, -, -, e⟩ := migrateV2_ok hs
    have hny := h.life.notYet (by omega)
    obtain ⟨_, _, _, h14, -⟩ := h14
    obtain ⟨k1, k2⟩ := second_taken h6 h13 h14
    obtain ⟨q1, q2, q3, q4, q5⟩ := amounts_fees h h2 (by rw [h4]) hma
    rw [e]
    dsimp only
    refine ⟨q1, by omega, fun hc => ?_, q4, by omega⟩
    have q3 := q3 ((handler_eq h4).1 hc)
    exact ⟨q3.1, by omega⟩

/-- Migrations of the three example pools (DAMM v1, concentrated and compounding DAMM v2), with what they leave. -/
theorem C21_example :
    (∃ op w', Reachable Ex.readyA ∧ isMigrate op = true ∧ Ex.readyA.step op = .ok w' ∧ Compounds Ex.readyA.cfg ∧
      0 < w'.pool.protocolMigBaseFee ∧ 0 < w'.led.migBase ∧ 0 < fees Ex.readyA .base) ∧
    (∃ w', Reachable Ex.readyB ∧ Ex.readyB.step (.migrateV2 Ex.v2B) = .ok w' ∧ ¬Compounds Ex.readyB.cfg ∧
      w'.pool.protocolMigQuoteFee = 20000000000 ∧ w'.pool.protocolMigBaseFee = 781250001107 ∧ 0 < w'.led.migQuote) ∧
    (∃ w', Reachable Ex.readyC ∧ Ex.readyC.step (.migrateV2 Ex.v2C) = .ok w' ∧ Compounds Ex.readyC.cfg ∧
      w'.pool.protocolMigQuoteFee = 20000000000 ∧ w'.pool.protocolMigBaseFee = 781250000000 ∧ 0 < w'.led.migQuote) := by
  refine ⟨⟨.migrateV1 ⟨Ex.dammA, 350859375000001, 8982000000000, 56000000000000⟩, Ex.migratedA, Ex.reachReadyA, rfl, ?_⟩,
    ⟨(Ex.readyB.step (.migrateV2 Ex.v2B)).toOption.getD Ex.readyB, Ex.reachCompleteB, ?_⟩,
    ⟨(Ex.readyC.step (.migrateV2 Ex.v2C)).toOption.getD Ex.readyC, Ex.reachCompleteC, ?_⟩⟩ <;> decide +kernel

/-! ### C52 -/

/-- C52, DAMM v2: for a pool ready to migrate there are a price and an initial liquidity that the amounts set aside pay for,
such that, with every usable DAMM v2 configuration, whenever DAMM v2 creates the pool with them, the leftovers pay for a second position, and if DAMM v2 also adds that
one the migration succeeds. -/
theorem C52_migrates_v2 {w : World} (h : Reachable w) (h2 : phase w = some .ready) (ho : w.cfg.migrationOption = 1) :
    ∃ s L1, ∀ a : V2Args, UsableV2 w.cfg.migrationFeeOption a.config → a.now + 63072000 < 2 ^ 64 → CreatesPool w.cfg s L1 a →
      ∃ L2, AddsLiquidity w.cfg s L2 a → ∃ w', w.step (.migrateV2 a) = .ok w' := by
  obtain ⟨m, s, liq, dead, X, Y, -, -, -, k⟩ := migrateV2_succeeds h ((phase_eq h .ready).1 h2) ho
  refine ⟨s, _, fun a hu => k a ?_⟩
  rcases hu with ⟨h6, hu⟩ | ⟨hu, hn⟩
  · rw [h6]; exact v2Custom_ok hu
  · exact v2Validate_of hu (Nat.le_of_lt_succ hn)

/-- C52, DAMM v1: once its metadata account exists the migration succeeds with every fitting DAMM v1 configuration, provided DAMM v1 takes no more than the amounts set
aside without the protocol's share and mints a 64-bit amount of LP tokens. -/
theorem C52_migrates_v1 {w : World} (h : Reachable w) (h2 : phase w = some .ready) (ho : w.cfg.migrationOption = 0)
    (hmd : w.dammMeta ≠ none) (a : V1Args) (hc : FitV1 w.cfg.migrationFeeOption a.config)
    (hn : a.config.tradeFeeNumerator < 2 ^ 64)
    (hb : a.baseTaken ≤ w.cfg.migrationBaseThreshold - protocolCut w.cfg.migrationBaseThreshold)
    (hq : a.quoteTaken ≤ migrationQuote w - protocolCut (migrationQuote w)) (hl : a.lpMinted < 2 ^ 64) :
    ∃ w', w.step (.migrateV1 a) = .ok w' := by
  have h2' := (phase_eq h .ready).1 h2
  obtain ⟨m, hma, k⟩ := migrateV1_succeeds h h2' ho hmd
  obtain ⟨q1, q2, q3, -, -⟩ := amounts_fees h h2' (by rw [ho]; rfl) hma
  have q3 := q3 rfl
  exact k a (v1Validate_of hc (Nat.le_of_lt_succ hn)) (by omega) (by omega) (Nat.le_of_lt_succ hl)

theorem migrated_of {w w' : World} {op : Op} (h : Reachable w) (hop : isMigrate op = true) (hs : w.step op = .ok w') :
    phase w' = some .migrated := by
  rw [phase_eq (h.step hs) .migrated]
  rcases isMigrate_iff.1 hop with ⟨a, rfl⟩ | ⟨a, rfl⟩
  · obtain ⟨_, _, _, _, _, _, _, _, _, _, _, _, _, _, _, _, _, _, _, e⟩ := migrateV1_ok hs
    rw [e]; rfl
  · obtain ⟨_, _, _, _, _, _, _, _, _, _, _, _, _, _, _, _, _, _, _, _, _, _, _, _, _, _, _, _, _, _, _, _, _, e⟩ :=
      migrateV2_ok hs
    rw [e]; rfl

/-- There is a configuration fitting each fee option. -/
theorem fitting_exists {opt : Nat} (h : opt ≤ 6) :
    (∃ d, UsableV2 opt d) ∧ (opt ≠ 6 → ∃ d, FitV1 opt d ∧ d.tradeFeeNumerator < 2 ^ 64) := by
  by_cases h6 : opt = 6
  · exact ⟨⟨⟨0, 0, 0, 0, 0, 0, 0, 0, POOL_AUTHORITY, 0⟩, .inl ⟨h6, rfl⟩⟩, fun h => absurd h6 h⟩
  · obtain ⟨bps, hb, hle⟩ : ∃ bps, promisedBps opt = some bps ∧ bps ≤ 600 := by
      rcases (by omega : opt = 0 ∨ opt = 1 ∨ opt = 2 ∨ opt = 3 ∨ opt = 4 ∨ opt = 5) with e | e | e | e | e | e <;> subst e <;>
        exact ⟨_, rfl, by decide⟩
    refine ⟨⟨⟨0, bps * 100000, 0, 0, 0, MIN_SQRT_PRICE, MAX_SQRT_PRICE, 0, POOL_AUTHORITY, 1⟩, .inr ⟨⟨rfl, ⟨bps, hb, ?_⟩,
      ⟨.inl rfl, rfl, rfl, rfl⟩, ⟨rfl, rfl⟩, rfl, rfl⟩, ?_⟩⟩, fun _ => ⟨⟨bps * 10, 100000, POOL_AUTHORITY, 0, 0, 0⟩,
      ⟨rfl, ⟨bps, hb, ?_⟩, rfl, rfl, rfl⟩, ?_⟩⟩
    · have : unit = 1000000000 := rfl
      unfold WithinOneBp
      rw [this]
      constructor <;> dsimp only <;> omega
    · show bps * 100000 < 2 ^ 64
      omega
    · unfold WithinOneBp
      constructor <;> dsimp only <;> omega
    · show bps * 10 < 2 ^ 64
      omega

theorem ready_v2 {w : World} (h : Reachable w) (h2 : phase w = some .ready) (h1 : w.cfg.migrationOption = 1) :
    ∃ a w', w.step (.migrateV2 a) = .ok w' := by
  obtain ⟨s, L1, k⟩ := C52_migrates_v2 h h2 h1
  obtain ⟨d, hd⟩ := (fitting_exists h.poolCfg.feeOption).1
  let n := if Compounds w.cfg then compoundingNeeds s L1 else concentratedNeeds s L1
  have hcp : ∀ x y : Nat, CreatesPool w.cfg s L1 ⟨d, n.1, n.2, n.1, n.2, L1, x, y, 0⟩ := by
    intro x y
    unfold CreatesPool
    by_cases hc : Compounds w.cfg
    · simp only [n, if_pos hc, and_self]
    · simp only [n, if_neg hc]
  obtain ⟨L2, k2⟩ := k ⟨d, n.1, n.2, n.1, n.2, L1, 0, 0, 0⟩ hd (show 0 + 63072000 < 2 ^ 64 by decide) (hcp 0 0)
  obtain ⟨w', hw⟩ := k2 ⟨Nat.zero_le _, Nat.zero_le _⟩
  exact ⟨_, w', hw⟩

theorem ready_v1 {w : World} (h : Reachable w) (h2 : phase w = some .ready) (h0 : w.cfg.migrationOption = 0)
    (hmd : w.dammMeta ≠ none) : ∃ a w', w.step (.migrateV1 a) = .ok w' := by
  obtain ⟨d, hd, hn⟩ := (fitting_exists h.poolCfg.feeOption).2 (h.poolCfg.fixed h0)
  obtain ⟨w', hw⟩ := C52_migrates_v1 h h2 h0 hmd ⟨d, 0, 0, 0⟩ hd hn (Nat.zero_le _) (Nat.zero_le _) (show 0 < 2 ^ 64 by decide)
  exact ⟨_, w', hw⟩

theorem ready_meta {w : World} (h0 : w.cfg.migrationOption = 0) (hmd : w.dammMeta = none) :
    ∃ w1, w.step .createMeta = .ok w1 := by
  show ∃ w1, w.createMeta = .ok w1
  simp only [World.createMeta, bind_ok, req_ok, ok_inj]
  exact ⟨_, (), hmd, (), h0, rfl⟩

theorem ready_migrates {w : World} (h : Reachable w) (h2 : phase w = some .ready) :
    ∃ ops w', Run w ops w' ∧ phase w' = some .migrated := by
  have ho := h.migCfg.option
  by_cases h1 : w.cfg.migrationOption = 1
  · obtain ⟨a, w', hw⟩ := ready_v2 h h2 h1
    exact ⟨_, w', .single hw, migrated_of h rfl hw⟩
  · have h0 : w.cfg.migrationOption = 0 := by omega
    by_cases hmd : w.dammMeta = none
    · obtain ⟨w1, hw1⟩ := ready_meta h0 hmd
      obtain ⟨_, _, e⟩ := createMeta_ok hw1
      obtain ⟨a, w', hw⟩ := ready_v1 (h.step hw1) (by rw [e]; exact h2) (by rw [e]; exact h0) (by rw [e]; simp)
      exact ⟨_, w', .cons hw1 (.single hw), migrated_of (h.step hw1) rfl hw⟩
    · obtain ⟨a, w', hw⟩ := ready_v1 h h2 h0 hmd
      exact ⟨_, w', .single hw, migrated_of h rfl hw⟩

/-- C52: from every reachable state in which the curve is complete some instructions lead to a migrated pool. -/
theorem C52_never_stuck {w : World} (h : Reachable w) (hc : Completed w) :
    ∃ ops w', Run w ops w' ∧ phase w' = some .migrated := by
  have hp := h.life.prog
  have hc := (completed_iff h).1 hc
  have : w.pool.migrationProgress = 1 ∨ w.pool.migrationProgress = 2 ∨ w.pool.migrationProgress = 3 := by omega
  rcases this with h1 | h2 | h3
  · obtain ⟨w1, hw1⟩ := createLocker_succeeds h.solvent h1
    have hs : w.step .createLocker = .ok w1 := hw1
    obtain ⟨-, -, e⟩ := createLocker_ok hw1
    obtain ⟨ops, w', hr, hp⟩ := ready_migrates (h.step hs) ((phase_eq (h.step hs) .ready).2 (by rw [e]; rfl))
    exact ⟨_, w', .cons hs hr, hp⟩
  · exact ready_migrates h ((phase_eq h .ready).2 h2)
  · exact ⟨[], w, .nil _, (phase_eq h .migrated).2 h3⟩

/-- Pools ready for each kind of migration, and one whose locked vesting is still to be set up. For the DAMM v2 ones, amounts
that DAMM v2 takes under the assumptions. -/
theorem C52_example :
    (Reachable Ex.readyA ∧ phase Ex.readyA = some .ready ∧ Ex.readyA.cfg.migrationOption = 0 ∧ Ex.readyA.dammMeta ≠ none ∧
      FitV1 Ex.readyA.cfg.migrationFeeOption Ex.dammA ∧
      350859375000001 ≤ Ex.readyA.cfg.migrationBaseThreshold - protocolCut Ex.readyA.cfg.migrationBaseThreshold ∧
      8982000000000 ≤ migrationQuote Ex.readyA - protocolCut (migrationQuote Ex.readyA)) ∧
    (Reachable Ex.readyB ∧ phase Ex.readyB = some .ready ∧ Ex.readyB.cfg.migrationOption = 1 ∧ ¬Compounds Ex.readyB.cfg ∧
      UsableV2 Ex.readyB.cfg.migrationFeeOption Ex.v2B.config ∧
      CreatesPool Ex.readyB.cfg 2951479051793528258 690369397963218545814256516212717 Ex.v2B ∧
      AddsLiquidity Ex.readyB.cfg 2951479051793528258 460246265308697071725542550797486 Ex.v2B ∧
      ∃ w', Ex.readyB.step (.migrateV2 Ex.v2B) = .ok w') ∧
    (Reachable Ex.readyC ∧ phase Ex.readyC = some .ready ∧ Ex.readyC.cfg.migrationOption = 1 ∧ Compounds Ex.readyC.cfg) ∧
    (Reachable Ex.pendingA ∧ Completed Ex.pendingA ∧ phase Ex.pendingA = some .vestingPending) := by
  refine ⟨⟨Ex.reachReadyA, ?_, ?_, ?_, ⟨rfl, ⟨100, ?_, ?_⟩, rfl, rfl, rfl⟩, ?_⟩,
    ⟨Ex.reachCompleteB, ?_, ?_, ?_, .inl ⟨?_, rfl⟩, ?_, ?_, ?_⟩, ⟨Ex.reachCompleteC, ?_⟩, Ex.reachPendingA, ?_⟩
  · decide +kernel
  · decide +kernel
  · decide +kernel
  · decide +kernel
  · unfold WithinOneBp; decide +kernel
  · decide +kernel
  · decide +kernel
  · decide +kernel
  · decide +kernel
  · decide +kernel
  · unfold CreatesPool; rw [if_neg (by decide +kernel)]; decide +kernel
  · unfold AddsLiquidity Fits; rw [if_neg (by decide +kernel)]; decide +kernel
  · exact ⟨(Ex.readyB.step (.migrateV2 Ex.v2B)).toOption.getD Ex.readyB, by decide +kernel⟩
  · decide +kernel
  · decide +kernel

end Props

import Verif.Lemmas.AcceptCurve

/-!
# When the checks of `create_config` pass: the new pool and the liquidity locked in it
-/

namespace Dbc

open Spec

/-! ### Amounts for the new pool -/

theorem poolQuote_le {p : ConfigParams} : poolQuote p ≤ p.migrationQuoteThreshold := by
  unfold poolQuote
  rw [ceil_up, divCeil_le_iff (by decide)]
  exact Nat.mul_le_mul_left _ (Nat.sub_le _ _)

theorem migrationQuote_eq {p : ConfigParams} (ht : p.Typed) (hp : p.migrationFeePct ≤ 99) :
    ∃ f, migrationQuoteAmount p.migrationQuoteThreshold p.migrationFeePct = .ok (poolQuote p, f) := by
  have h1 := ht.threshold
  have h2 : p.migrationQuoteThreshold * (100 - p.migrationFeePct) ≤ u64Max * 100 := Nat.mul_le_mul h1 (Nat.sub_le _ _)
  have h3 : u64Max * 100 + 100 ≤ u128Max := by decide
  have hle := poolQuote_le (p := p)
  unfold migrationQuoteAmount
  rw [safeSub_ok.2 ⟨by omega, rfl⟩, ok_bind, (mulDivU64_up (by omega)).2 ⟨by decide, rfl, by
    rw [← ceil_up]; exact hle.trans h1⟩, ok_bind, ← ceil_up]
  change ∃ f, (safeSub p.migrationQuoteThreshold (poolQuote p) >>= fun fee => .ok (poolQuote p, fee)) = _
  rw [safeSub_ok.2 ⟨hle, rfl⟩, ok_bind]
  exact ⟨_, rfl⟩

theorem handler_plain {p : ConfigParams} : (Plain p → migrationHandler p.migrationOption p.migratedFee.collectFeeMode =
    .compounding) ∧ (¬ Plain p → migrationHandler p.migrationOption p.migratedFee.collectFeeMode = .concentrated) := by
  unfold Plain migrationHandler
  constructor
  · intro h
    split
    · rfl
    · rw [if_pos (by tauto)]
  · intro h
    rw [if_neg (by tauto), if_neg (by tauto)]

/-- The amounts for the new pool are those of the specification. -/
theorem amounts_iff {p : ConfigParams} {P b q : Nat} (ht : p.Typed) (hp : p.migrationFeePct ≤ 99) (h1 : MIN_SQRT_PRICE < P)
    (h2 : P < MAX_SQRT_PRICE) :
    migrationAmounts1 (migrationHandler p.migrationOption p.migratedFee.collectFeeMode) P p.migrationQuoteThreshold
      p.migrationFeePct = .ok (b, q) ↔
    b = poolBase p P ∧ q = poolQuote p ∧ poolBase p P < 2 ^ 64 ∧ (Plain p ∨ rangeLiq (poolQuote p) P < 2 ^ 128) := by
  obtain ⟨f, hf⟩ := migrationQuote_eq ht hp
  have hq : poolQuote p ≤ u64Max := poolQuote_le.trans ht.threshold
  have hu : u64Max = 2 ^ 64 - 1 := rfl
  have hu2 : u128Max = 2 ^ 128 - 1 := rfl
  have hmul : poolQuote p * 2 ^ 128 ≤ u256Max :=
    (Nat.mul_le_mul_right (2 ^ 128) hq).trans (by decide)
  have e1 : MIN_SQRT_PRICE = 4295048016 := rfl
  have e2 : MAX_SQRT_PRICE = 79226673521066979257578248091 := rfl
  have hPP : P * P ≤ u256Max := (Nat.mul_le_mul h2.le h2.le).trans (by decide)
  have hPM : P * MAX_SQRT_PRICE ≤ u256Max := (Nat.mul_le_mul_right _ h2.le).trans (by decide)
  have hP0 : 0 < P := by omega
  have h11 : u64Max + 1 ≤ u256Max := by decide
  by_cases hpl : Plain p
  · rw [handler_plain.1 hpl]
    have hd : 0 < P * P := Nat.mul_pos hP0 hP0
    have eb : poolBase p P = divCeil (poolQuote p * 2 ^ 128) (P * P) := by
      unfold poolBase; rw [if_pos hpl, ceil_up]
    have hdl : poolQuote p * 2 ^ 128 / (P * P) + 1 ≤ u256Max := by
      have h5 : poolQuote p * 2 ^ 128 / (P * P) ≤ poolQuote p * 2 ^ 128 := Nat.div_le_self _ _
      have h6 : poolQuote p * 2 ^ 128 ≤ u64Max * 2 ^ 128 := Nat.mul_le_mul_right _ hq
      have h7 : u64Max * 2 ^ 128 + 1 ≤ u256Max := by decide
      exact (Nat.succ_le_succ (h5.trans h6)).trans h7
    have hstep : (if poolQuote p * 2 ^ 128 % (P * P) ≠ 0 then safeAdd u256Max (poolQuote p * 2 ^ 128 / (P * P)) 1
        else (.ok (poolQuote p * 2 ^ 128 / (P * P)) : Res Nat)) = .ok (poolBase p P) := by
      rw [eb]
      split
      · rename_i hn
        rw [safeAdd_ok]
        exact ⟨hdl, ((divCeil_of_mod hd).1 hn).symm⟩
      · rename_i hn
        rw [(divCeil_of_mod hd).2 (by omega)]
    have hcb : constantProductBase (poolQuote p) P = .ok b ↔ b = poolBase p P ∧ poolBase p P < 2 ^ 64 := by
      unfold constantProductBase
      rw [safeMul_ok.2 ⟨hPP, rfl⟩, ok_bind, safeShl256_ok.2 ⟨hmul, rfl⟩, ok_bind, (req_ok (u := ())).2 hd.ne', ok_bind, hstep,
        ok_bind]
      simp only [bind_ok, req_ok, castTo_ok]
      constructor
      · rintro ⟨_, h3, _, rfl⟩; exact ⟨rfl, by omega⟩
      · rintro ⟨rfl, h3⟩; exact ⟨(), by omega, by omega, rfl⟩
    unfold migrationAmounts1
    simp only [hf, ok_bind, bind_ok, ok_inj, Prod.mk.injEq]
    constructor
    · rintro ⟨b', h3, rfl, rfl⟩
      obtain ⟨h3, h4⟩ := hcb.1 h3
      exact ⟨h3, rfl, h4, .inl hpl⟩
    · rintro ⟨h3, rfl, h4, _⟩; exact ⟨b, hcb.2 ⟨h3, h4⟩, rfl, rfl⟩
  · rw [handler_plain.2 hpl]
    have hd : 0 < P * MAX_SQRT_PRICE := Nat.mul_pos hP0 (by omega)
    have eb : poolBase p P = divCeil (rangeLiq (poolQuote p) P * (MAX_SQRT_PRICE - P)) (P * MAX_SQRT_PRICE) := by
      unfold poolBase; rw [if_neg hpl, ceil_up, e2]
    unfold migrationAmounts1
    simp only [hf, ok_bind, bind_ok, liqFromDeltaQuote_ok, deltaBase256_ok, req_ok, castTo_ok, ok_inj, Prod.mk.injEq, divRound]
    constructor
    · rintro ⟨l, ⟨_, _, _, rfl, hl⟩, b', ⟨_, _, _, _, rfl⟩, _, hb, _, ⟨_, rfl⟩, rfl, rfl⟩
      rw [eb]
      refine ⟨rfl, rfl, ?_, .inr ?_⟩
      · exact Nat.lt_of_le_of_lt hb (by decide)
      · exact Nat.lt_of_le_of_lt hl (by decide)
    · rintro ⟨rfl, rfl, h3, h4⟩
      rcases h4 with h4 | h4
      · exact absurd h4 hpl
      · rw [eb] at h3 ⊢
        have h3' : divCeil (rangeLiq (poolQuote p) P * (MAX_SQRT_PRICE - P)) (P * MAX_SQRT_PRICE) ≤ u64Max := by omega
        exact ⟨_, ⟨h1.le, by omega, hmul, rfl, Nat.le_sub_one_of_lt h4⟩, _, ⟨h2.le, hPM, hd, h3'.trans (by decide), rfl⟩, (), h3', _,
          ⟨h3', rfl⟩, rfl, rfl⟩

theorem sqrtU256_eq {n : Nat} (h : n ≤ u256Max) : sqrtU256 n = some (Nat.sqrt n) := by
  obtain ⟨s, h1, h2, h3⟩ := sqrtU256_ok h
  rw [h1, Nat.eq_sqrt.2 ⟨h2, h3⟩]

/-- The check of a pool opened with given amounts is the one of the specification. -/
theorem opening_iff {b q P : Nat} (hq : q ≤ u64Max) (hP : P < MAX_SQRT_PRICE) :
    validateInitialPoolInformation b q P = .ok () ↔ SoundOpening b q P := by
  have e1 : MIN_SQRT_PRICE = 4295048016 := rfl
  have e2 : MAX_SQRT_PRICE = 79226673521066979257578248091 := rfl
  have e3 : DEAD_LIQUIDITY = 100 * 2 ^ 64 := rfl
  have hu2 : u128Max = 2 ^ 128 - 1 := rfl
  have hm : MAX_SQRT_PRICE * 100 ≤ u128Max := by decide
  have hmul : q * 2 ^ 128 ≤ u256Max := (Nat.mul_le_mul_right (2 ^ 128) hq).trans (by decide)
  unfold SoundOpening
  rcases Nat.eq_zero_or_pos b with rfl | hb
  · constructor
    · intro h
      simp only [validateInitialPoolInformation, compoundingInitial, bind_ok, req_ok] at h
      obtain ⟨_, ⟨_, _, _, h, _⟩, _⟩ := h
      exact absurd rfl h
    · rintro ⟨h, _⟩
      exact absurd h (by omega)
  · have hc : divCeil (q * 2 ^ 128) b ≤ q * 2 ^ 128 := by
      rw [divCeil_le_iff hb]
      exact Nat.le_mul_of_pos_right _ hb
    have hs1 := sqrtU256_eq (hc.trans hmul)
    have hs2 := sqrtU256_eq ((Nat.div_le_self (q * 2 ^ 128) b).trans hmul)
    have hle : Nat.sqrt (q * 2 ^ 128 / b) ≤ Nat.sqrt (divCeil (q * 2 ^ 128) b) := Nat.sqrt_le_sqrt (div_le_divCeil _ _)
    rw [ceil_up]
    unfold validateInitialPoolInformation compoundingInitial
    rw [safeShl256_ok.2 ⟨hmul, rfl⟩, ok_bind, (req_ok (u := ())).2 hb.ne', ok_bind, hs1, hs2, ok_bind]
    generalize Nat.sqrt (q * 2 ^ 128 / b) = s2 at hle ⊢
    generalize Nat.sqrt (divCeil (q * 2 ^ 128) b) = s1 at hle ⊢
    simp only [bind_ok, req_ok, ok_inj, safeMul_ok, Prod.exists, Prod.mk.injEq, e1, e2, e3]
    constructor
    · rintro ⟨_, _, ⟨_, _, _, ⟨h1, h2⟩, _, rfl, _, _, _, ⟨h3, rfl⟩, rfl, rfl⟩, _, _, _, h4, _, ⟨_, rfl⟩, h5⟩
      exact ⟨hb, h1, h2, h4, Nat.lt_of_le_of_lt h3 (by decide), h5⟩
    · rintro ⟨_, h1, h2, h3, h4, h5⟩
      have hP' : P < 79226673521066979257578248091 := hP
      have hm' : 79226673521066979257578248091 * 100 ≤ u128Max := hm
      have hl : s2 * b ≤ u128Max := by rw [hu2]; exact Nat.le_sub_one_of_lt h4
      exact ⟨_, _, ⟨(), by omega, (), ⟨h1, h2⟩, _, rfl, (), by omega, _, ⟨hl, rfl⟩, rfl, rfl⟩, (), ⟨h1, h2⟩, (), h3, _,
        ⟨by omega, rfl⟩, h5⟩

theorem compounding_iff {p : ConfigParams} {P : Nat} (ht : p.Typed) (hP : P < MAX_SQRT_PRICE) (hb : poolBase p P ≤ u64Max) :
    validateCompounding p P (poolBase p P) (poolQuote p) = .ok () ↔
      (p.migrationOption = 1 → p.migratedFee.collectFeeMode = 2 →
        SoundOpening (afterShare (poolBase p P)) (afterShare (poolQuote p)) P) := by
  have hq : poolQuote p ≤ u64Max := poolQuote_le.trans ht.threshold
  have e1 : PROTOCOL_LIQUIDITY_MIGRATION_FEE_BPS = 20 := rfl
  have e2 : BASIS_POINT_MAX = 10000 := rfl
  have key : ∀ x, x ≤ u64Max → safeMulDivCastU64 x PROTOCOL_LIQUIDITY_MIGRATION_FEE_BPS BASIS_POINT_MAX .down =
      .ok (x * 20 / 10000) := by
    intro x hx
    have : u64Max * 20 ≤ u128Max := by decide
    rw [mulDivU64_down, e1, e2]
    exact ⟨by omega, by decide, rfl, by omega⟩
  unfold validateCompounding
  by_cases h : p.migrationOption = 1 ∧ p.migratedFee.collectFeeMode = 2
  · rw [if_pos h]
    unfold migrationProtocolFees
    dsimp only
    rw [key _ hb, ok_bind, key _ hq, ok_bind, ok_bind]
    dsimp only
    rw [safeSub_ok.2 ⟨by omega, rfl⟩, ok_bind, safeSub_ok.2 ⟨by omega, rfl⟩, ok_bind, opening_iff (by omega) hP]
    exact ⟨fun k _ _ => k, fun k => k h.1 h.2⟩
  · rw [if_neg h]
    exact ⟨fun _ a b => absurd ⟨a, b⟩ h, fun _ => rfl⟩

/-! ### Locked liquidity after one day -/

theorem lockedBps_eq {v : LiqVestingParams} (hp : v.pct ≤ 100) (hc : v.cliffDuration ≤ u32Max) (h : NoVesting v ∨ VestRules v) :
    v.toInfo.lockedBpsAt SECONDS_PER_DAY = .ok (heldAfterDay v) ∧ heldAfterDay v ≤ v.pct * 100 := by
  have hu : u128Max = 2 ^ 128 - 1 := rfl
  have hT : u128Max * v.pct / 100 ≤ u128Max := by
    apply Nat.div_le_of_le_mul
    rw [Nat.mul_comm 100]
    exact Nat.mul_le_mul_left _ hp
  rcases h with h | h
  · unfold NoVesting at h
    subst h
    exact ⟨by decide +kernel, by decide +kernel⟩
  · obtain ⟨h1, h2, h3, h4⟩ := h
    have hz : ¬ v.isZero := by
      intro hz
      have hz : v = ⟨0, 0, 0, 0, 0⟩ := hz
      rw [hz] at h1
      exact absurd h1 (by decide)
    have hi : v.toInfo.isInit ≠ 0 := by
      unfold LiqVestingParams.toInfo
      rw [if_neg hz]
      exact Nat.one_ne_zero
    have hm := v.toInfo.per_mul_le (u128Max * v.pct / 100) h2
    have hs := v.toInfo.sched_total _ 0 hm
    have hpr := LiqVesting.params_some (v := v.toInfo) (now := 0) hT h2 (by
      have : u32Max + 1 ≤ u64Max := by decide
      have : v.toInfo.cliffDuration = v.cliffDuration := rfl
      omega)
    have hun := VestParams.unlockedAt_ok (P := v.toInfo.sched (u128Max * v.pct / 100) 0) (t := 86400)
      (by rw [hs]; exact hT)
    have hgone : released (v.toInfo.sched (u128Max * v.pct / 100) 0).cliffPoint (v.toInfo.sched (u128Max * v.pct / 100) 0).cliffUnlock
        (v.toInfo.sched (u128Max * v.pct / 100) 0).perPeriod (v.toInfo.sched (u128Max * v.pct / 100) 0).frequency
        (v.toInfo.sched (u128Max * v.pct / 100) 0).numPeriods 86400 ≤ u128Max * v.pct / 100 := by
      unfold released
      split
      · exact Nat.zero_le _
      · split
        · omega
        · refine le_trans (Nat.add_le_add_left (Nat.mul_le_mul_right _ (Nat.min_le_right _ _)) _) hs.le
    have hh : heldAfterDay v = (u128Max * v.pct / 100 - released (v.toInfo.sched (u128Max * v.pct / 100) 0).cliffPoint
        (v.toInfo.sched (u128Max * v.pct / 100) 0).cliffUnlock
        (v.toInfo.sched (u128Max * v.pct / 100) 0).perPeriod (v.toInfo.sched (u128Max * v.pct / 100) 0).frequency
        (v.toInfo.sched (u128Max * v.pct / 100) 0).numPeriods 86400) * 10000 / u128Max := by
      unfold heldAfterDay
      rw [← hu]
      have ep : perPeriod v (u128Max * v.pct / 100) = v.toInfo.per (u128Max * v.pct / 100) := rfl
      dsimp only
      rw [ep]
      by_cases hz : v.toInfo.per (u128Max * v.pct / 100) = 0
      · simp only [hz, if_true, LiqVesting.sched, Nat.zero_add, Nat.mul_zero, Nat.sub_zero]
        rfl
      · simp only [hz, if_false, LiqVesting.sched, Nat.zero_add]
        rfl
    generalize released (v.toInfo.sched (u128Max * v.pct / 100) 0).cliffPoint (v.toInfo.sched (u128Max * v.pct / 100) 0).cliffUnlock
        (v.toInfo.sched (u128Max * v.pct / 100) 0).perPeriod (v.toInfo.sched (u128Max * v.pct / 100) 0).frequency
        (v.toInfo.sched (u128Max * v.pct / 100) 0).numPeriods 86400 = gone at hun hgone hh
    have hU : 0 < u128Max := by decide
    have hb : heldAfterDay v ≤ v.pct * 100 := by
      rw [hh]
      apply Nat.div_le_of_le_mul
      have h5 : (u128Max * v.pct / 100 - gone) * 10000 ≤ u128Max * v.pct / 100 * 100 * 100 := by omega
      have h6 := Nat.div_mul_le_self (u128Max * v.pct) 100
      calc _ ≤ u128Max * v.pct / 100 * 100 * 100 := h5
        _ ≤ u128Max * v.pct * 100 := Nat.mul_le_mul_right _ h6
        _ = u128Max * (v.pct * 100) := Nat.mul_assoc ..
    refine ⟨?_, hb⟩
    have hpc : v.toInfo.pct = v.pct := rfl
    have h256 : u128Max * 10000 ≤ u256Max := by decide
    have h16 : (10000 : Nat) ≤ u16Max := by decide
    have h1628 : (10000 : Nat) ≤ u128Max := by decide
    unfold LiqVesting.lockedBpsAt
    rw [show MAX_BASIS_POINT = 10000 from rfl, if_neg hi, hpc, mulDivU128_down.2 ⟨(Nat.mul_le_mul_left _ hp).trans (by decide), by decide, rfl, hT⟩, ok_bind, hpr, ok_bind]
    rw [show SECONDS_PER_DAY = 86400 from rfl, hun, ok_bind, safeSub_ok.2 ⟨hgone, rfl⟩, ok_bind, mulDivU128_down.2
      ⟨(Nat.mul_le_mul_right _ ((Nat.sub_le _ _).trans hT)).trans h256, hU.ne', rfl, ?_⟩, ok_bind, castTo_ok]
    · rw [← hh]
      exact ⟨by omega, rfl⟩
    · rw [← hh]
      omega

theorem dayLock_iff {p : ConfigParams} {c : PoolConfig} (ht : p.Typed) (h1 : c.partnerVesting = p.partnerVesting.toInfo)
    (h2 : c.creatorVesting = p.creatorVesting.toInfo) (h3 : c.partnerPermLockedPct = p.partnerPermLockedPct)
    (h4 : c.creatorPermLockedPct = p.creatorPermLockedPct) (hp : NoVesting p.partnerVesting ∨ VestRules p.partnerVesting)
    (hc : NoVesting p.creatorVesting ∨ VestRules p.creatorVesting)
    (hsum : p.partnerLiqPct + p.partnerPermLockedPct + p.creatorLiqPct + p.creatorPermLockedPct + p.partnerVesting.pct +
      p.creatorVesting.pct = 100) :
    (∃ b, c.lockedBpsAt SECONDS_PER_DAY = .ok b ∧ MIN_LOCKED_LIQUIDITY_BPS ≤ b) ↔ DayLock p := by
  obtain ⟨a1, a2⟩ := lockedBps_eq (by omega) ht.pvCliff hp
  obtain ⟨b1, b2⟩ := lockedBps_eq (by omega) ht.cvCliff hc
  have h16 : (10000 : Nat) ≤ u16Max := by decide
  unfold PoolConfig.lockedBpsAt DayLock
  rw [h1, h2, h3, h4, a1, ok_bind, b1, ok_bind, safeMul_ok.2 ⟨by omega, rfl⟩, ok_bind, safeMul_ok.2 ⟨by omega, rfl⟩, ok_bind,
    safeAdd_ok.2 ⟨by omega, rfl⟩, ok_bind, safeAdd_ok.2 ⟨by omega, rfl⟩, ok_bind, safeAdd_ok.2 ⟨by omega, rfl⟩]
  simp only [ok_inj, show MIN_LOCKED_LIQUIDITY_BPS = 1000 from rfl]
  constructor
  · rintro ⟨b, rfl, h⟩; exact h
  · intro h; exact ⟨_, rfl, h⟩

end Dbc

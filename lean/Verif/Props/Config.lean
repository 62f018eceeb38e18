import Verif.Lemmas.Vesting
import Verif.Lemmas.History
import Verif.Props.Fee

/-!
# Accepted configurations and liquidity distribution: C22, C23, C24, C25, C26, C27
-/

namespace Props
open Dbc

/-! ### Reading the stored curve -/

theorem stored_pad {lo : Nat} {ps : List Point} (h : Spec.Proper lo ps) (n : Nat) :
    Spec.stored (ps ++ List.replicate n ⟨0, 0⟩) = ps := by
  unfold Spec.stored
  induction ps generalizing lo with
  | nil => cases n <;> simp [List.replicate_succ]
  | cons p ps ih =>
    simp only [Spec.Proper] at h
    rw [List.cons_append, List.takeWhile_cons, if_pos (by simp; omega), ih h.2.2.2]

theorem curve_stored {c : PoolConfig} {ps : List Point} (h : CurveOK c ps) : Spec.stored c.curve = ps := by
  obtain ⟨n, hn⟩ := h.stored
  rw [hn, stored_pad h.proper]

theorem curve_eq {c : PoolConfig} {ps : List Point} (h : CurveOK c ps) : Spec.curve c = Spec.segs c.sqrtStartPrice ps := by
  unfold Spec.curve; rw [curve_stored h]

theorem proper_pairwise {lo : Nat} {ps : List Point} (h : Spec.Proper lo ps) :
    List.Pairwise (· < ·) (lo :: ps.map Point.price) ∧ (∀ q ∈ ps, 0 < q.liq ∧ q.price ≤ Spec.topPrice lo ps) := by
  induction ps generalizing lo with
  | nil => simp
  | cons p ps ih =>
    simp only [Spec.Proper] at h
    obtain ⟨h1, h2⟩ := ih h.2.2.2
    have ht := Proper.lo_le_top h.2.2.2
    refine ⟨?_, ?_⟩
    · rw [List.map_cons, List.pairwise_cons]
      refine ⟨?_, h1⟩
      intro a ha
      rw [List.mem_cons] at ha
      rcases ha with rfl | ha
      · exact h.2.1
      · exact h.2.1.trans ((List.pairwise_cons.1 h1).1 a ha)
    · intro q hq
      simp only [Spec.topPrice]
      rw [List.mem_cons] at hq
      rcases hq with rfl | hq
      · exact ⟨h.2.2.1, ht⟩
      · exact h2 q hq

/-! ### C25 -/

/-- C25: what `create_config` accepts, and that the stored array gives back exactly the given curve. -/
theorem C25_accepted {p : ConfigParams} {env : ConfigEnv} {c : PoolConfig} (ht : p.Typed)
    (h : createConfig p env = .ok c) :
    -- liquidity percentages
    p.partnerLiqPct + p.partnerPermLockedPct + p.creatorLiqPct + p.creatorPermLockedPct + p.partnerVesting.pct +
      p.creatorVesting.pct = 100 ∧
    -- the curve
    1 ≤ p.curve.length ∧ p.curve.length ≤ 16 ∧
    List.Pairwise (· < ·) (p.sqrtStartPrice :: p.curve.map Point.price) ∧
    (∀ q ∈ p.curve, 0 < q.liq) ∧
    (∀ x ∈ p.sqrtStartPrice :: p.curve.map Point.price, 4295048016 ≤ x ∧ x ≤ 79226673521066979257578248091) ∧
    0 < p.migrationQuoteThreshold ∧
    -- fees
    (∃ last, LastRate p.fees.base last ∧ Spec.minRate ≤ last ∧ last ≤ p.fees.base.cliff ∧
      p.fees.base.cliff ≤ Spec.maxRate) ∧
    (p.fees.dyn.initialized = 0 ∨ (p.fees.dyn.filterPeriod < p.fees.dyn.decayPeriod ∧
      p.fees.dyn.reductionFactor ≤ 10000 ∧ p.fees.dyn.vfc < 2 ^ 24 ∧ p.fees.dyn.maxVolAcc < 2 ^ 24 ∧
      p.fees.dyn.binStep = 1)) ∧
    p.creatorTradingFeePct ≤ 100 ∧ p.migrationFeePct ≤ 99 ∧ p.creatorMigrationFeePct ≤ 100 ∧
    (p.poolCreationFee = 0 ∨ (1000000 ≤ p.poolCreationFee ∧ p.poolCreationFee ≤ 100000000000)) ∧
    -- vesting of tokens and of liquidity
    (p.lockedVesting = ⟨0, 0, 0, 0, 0⟩ ∨ (0 < p.lockedVesting.frequency ∧
      0 < p.lockedVesting.cliffUnlock + p.lockedVesting.amountPerPeriod * p.lockedVesting.numberOfPeriod ∧
      p.lockedVesting.cliffUnlock + p.lockedVesting.amountPerPeriod * p.lockedVesting.numberOfPeriod < 2 ^ 64)) ∧
    (∀ v, v = p.partnerVesting ∨ v = p.creatorVesting → v = ⟨0, 0, 0, 0, 0⟩ ∨
      (p.migrationOption = 1 ∧ 0 < v.pct ∧ v.bpsPerPeriod * v.numPeriods ≤ 10000 ∧ v.cliffDuration ≤ 63072000 ∧
        (0 < v.bpsPerPeriod * v.numPeriods → 0 < v.frequency ∧ v.cliffDuration + v.frequency * v.numPeriods ≤ 63072000))) ∧
    -- options
    p.collectFeeMode ≤ 1 ∧ p.migrationOption ≤ 1 ∧ p.tokenType ≤ 1 ∧ p.tokenUpdateAuthority ≤ 4 ∧
    6 ≤ p.tokenDecimal ∧ p.tokenDecimal ≤ 9 ∧
    -- the stored array
    c.sqrtStartPrice = p.sqrtStartPrice ∧ c.curve.length = 20 ∧ Spec.stored c.curve = p.curve ∧
    c.curve.take p.curve.length = p.curve ∧ (∀ q ∈ c.curve.drop p.curve.length, q = ⟨0, 0⟩) := by
  have ha := createConfig_ok h
  have hv := validate_ok ha.validated
  have hg := createConfig_good ht h
  obtain ⟨c1, c2, c3, c4, c5, c6⟩ := validateCurve_ok hv.curve
  have c4 : p.curve.length ≤ 16 := c4
  have hc6 : Spec.topPrice p.sqrtStartPrice p.curve ≤ 79226673521066979257578248091 := c6
  have hc1 : 4295048016 ≤ p.sqrtStartPrice := c1
  obtain ⟨k1, k2⟩ := proper_pairwise c5
  obtain ⟨e1, e2⟩ := createConfig_curve h
  have ef : c.fees = p.fees := by rw [ha.eq]; rfl
  refine ⟨hv.pct, ?_, c4, k1, fun q hq => (k2 q hq).1, ?_, hv.threshold, ?_, ?_, hv.creatorPct, hv.migFee, hv.migCreator,
    hv.creationFee, ?_, ?_, ?_, hv.option, hv.tokenType, hv.authority, hv.decimals.1, hv.decimals.2, e2, ?_,
    curve_stored hg.curve, ?_, ?_⟩
  · cases hcv : p.curve with
    | nil => exact absurd hcv c3
    | cons a b => simp
  · intro x hx
    rw [List.mem_cons] at hx
    rcases hx with rfl | hx
    · exact ⟨hc1, (Proper.lo_le_top c5).trans hc6⟩
    · have hlt := (List.pairwise_cons.1 k1).1 x hx
      rw [List.mem_map] at hx
      obtain ⟨q, hq, rfl⟩ := hx
      exact ⟨by omega, (k2 q hq).2.trans hc6⟩
  · rw [← ef]
    rcases accepted_mode h with hm | hm | hm
    · obtain ⟨g, s⟩ := accepted_scheduler h (.inl hm)
      exact ⟨_, minBaseFee_last h s.min, s.floor, by rw [← s.zero]; exact s.anti _ _ (Nat.zero_le _), s.cap⟩
    · obtain ⟨g, s⟩ := accepted_scheduler h (.inr hm)
      exact ⟨_, minBaseFee_last h s.min, s.floor, by rw [← s.zero]; exact s.anti _ _ (Nat.zero_le _), s.cap⟩
    · refine ⟨c.fees.base.cliff, minBaseFee_last h (by simp only [minBaseFee, hm]), ?_⟩
      rcases accepted_limiter h hm with ⟨_, h1, h2⟩ | l
      · exact ⟨h1, le_rfl, h2⟩
      · exact ⟨l.lo, le_rfl, l.hi⟩
  · obtain ⟨a, _, hf⟩ := hv.act
    simp only [poolFeesValidate, bind_ok, ite_ok] at hf
    obtain ⟨_, _, ⟨h0, _⟩ | ⟨_, hd⟩⟩ := hf
    · exact .inl h0
    · right
      simp only [dynFeeValidate, bind_ok, req_ok] at hd
      obtain ⟨_, d1, _, d2, _, d3, _, d4, _, d5, d6⟩ := hd
      have d5 : p.fees.dyn.vfc ≤ 16777215 := d5
      have d6 : p.fees.dyn.maxVolAcc ≤ 16777215 := d6
      exact ⟨d3, d4, by omega, by omega, d1⟩
  · have hlv := hv.vesting
    unfold LockedVesting.validate at hlv
    by_cases hh : p.lockedVesting.has
    · rw [if_pos hh] at hlv
      simp only [bind_ok, vesting_total_ok, req_ok] at hlv
      obtain ⟨t, ⟨_, t2, rfl⟩, t3, t4⟩ := hlv
      have hu : u64Max < 2 ^ 64 := by decide
      exact .inr ⟨by omega, by omega, by omega⟩
    · left
      simpa [LockedVesting.has, LockedVesting.zero] using hh
  · intro v hvv
    by_cases hz : v.isZero
    · exact .inl hz
    · right
      have ho := hv.optionOk
      unfold validateMigrationOption at ho
      by_cases h0 : p.migrationOption = 0
      · rw [if_pos h0] at ho
        simp only [bind_ok, req_ok] at ho
        obtain ⟨_, _, _, _, _, _, _, z1, z2⟩ := ho
        rcases hvv with rfl | rfl
        · exact absurd z1 hz
        · exact absurd z2 hz
      · rw [if_neg h0] at ho
        simp only [bind_ok] at ho
        obtain ⟨_, _, _, z1, z2⟩ := ho
        have hvo : VestOK v := by
          rcases hvv with rfl | rfl
          · exact .of_validate z1 hz ht.pvNum
          · exact .of_validate z2 hz ht.cvNum
        have hcl : max v.cliffDuration 1 ≤ 63072000 := hvo.cliff
        exact ⟨by have := hv.option; omega, hvo.pctPos, hvo.bps, by omega, fun hp => ⟨hvo.freq hp, hvo.dur hp⟩⟩
  · have := hv.collect
    unfold CollectFeeMode.tryFrom at this
    split at this <;> first | omega | simp at this
  · rw [e1]; simp only [padCurve, List.length_append, List.length_replicate]
    have : MAX_CURVE_POINT_CONFIG = 20 := rfl
    omega
  · rw [e1]; simp [padCurve]
  · rw [e1]
    intro q hq
    simp only [padCurve, List.drop_left] at hq
    exact (List.mem_replicate.1 hq).2

/-- The three example configurations are accepted; together they cover all fee modes, both migration targets and vesting. -/
theorem C25_example : Ex.paramsA.Typed ∧ createConfig Ex.paramsA Ex.env = .ok (Ex.configOf Ex.paramsA) ∧
    Ex.paramsB.Typed ∧ createConfig Ex.paramsB Ex.env = .ok (Ex.configOf Ex.paramsB) ∧
    Ex.paramsB.partnerVesting.bpsPerPeriod * Ex.paramsB.partnerVesting.numPeriods = 5000 ∧
    Ex.paramsA.lockedVesting.frequency = 3600 ∧ Ex.paramsA.fees.dyn.initialized = 1 :=
  ⟨Ex.typedA, Ex.acceptedA, Ex.typedB, Ex.acceptedB, rfl, rfl, rfl⟩

/-! ### C26 -/

/-- C26: the migration price lies on the curve, collecting up to it costs exactly the threshold (rounded up piece by piece),
and every higher price on the curve costs more than the threshold. -/
theorem C26_migration_price {p : ConfigParams} {env : ConfigEnv} {c : PoolConfig} (ht : p.Typed)
    (h : createConfig p env = .ok c) :
    p.sqrtStartPrice ≤ c.migrationSqrtPrice ∧
    c.migrationSqrtPrice ≤ Spec.topPrice p.sqrtStartPrice p.curve ∧
    Spec.quoteToUp (Spec.segs p.sqrtStartPrice p.curve) c.migrationSqrtPrice = p.migrationQuoteThreshold ∧
    (∀ Q, c.migrationSqrtPrice < Q → Q ≤ Spec.topPrice p.sqrtStartPrice p.curve →
      p.migrationQuoteThreshold < Spec.quoteToUp (Spec.segs p.sqrtStartPrice p.curve) Q) := by
  have hg := createConfig_good ht h
  have ha := createConfig_ok h
  have es : c.sqrtStartPrice = p.sqrtStartPrice := by rw [ha.eq]; rfl
  have et : c.migrationQuoteThreshold = p.migrationQuoteThreshold := by rw [ha.eq]; rfl
  rw [← es, ← et]
  refine ⟨hg.curve.migLo, hg.curve.migHi, hg.cost, ?_⟩
  intro Q h1 h2
  by_contra h3
  have := hg.highest Q h2 (by omega)
  omega

/-- In the example the migration price is inside the second piece of the curve. -/
theorem C26_example : Ex.paramsA.Typed ∧ createConfig Ex.paramsA Ex.env = .ok (Ex.configOf Ex.paramsA) ∧
    (Ex.configOf Ex.paramsA).migrationSqrtPrice < 2 ^ 62 ∧ 2 ^ 61 < (Ex.configOf Ex.paramsA).migrationSqrtPrice := by
  refine ⟨Ex.typedA, Ex.acceptedA, ?_, ?_⟩ <;> decide +kernel

/-! ### C27 -/

theorem baseTo_le_up {lo : Nat} {ps : List Point} (h : Spec.Proper lo ps) (P : Nat) :
    Spec.baseTo (Spec.segs lo ps) P ≤ ((Spec.total baseSegUp (Spec.segs lo ps) P : Nat) : ℚ) := by
  have key : ∀ ss : List Spec.Seg, (∀ s ∈ ss, 0 < s.lo ∧ s.lo < s.hi) →
      Spec.baseTo ss P ≤ ((Spec.total baseSegUp ss P : Nat) : ℚ) := by
    intro ss hss
    unfold Spec.baseTo Spec.total
    induction ss with
    | nil => simp
    | cons s ss ih =>
      simp only [List.map_cons, List.sum_cons, Nat.cast_add]
      have hs := hss s (by simp)
      have hx : s.lo ≤ Spec.clamp s P := by unfold Spec.clamp; omega
      refine add_le_add ?_ (ih fun t ht => hss t (by simp [ht]))
      have e := baseSeg_step (s := s) (x := s.lo) (y := Spec.clamp s P) hs.1 hx
      have e0 : Spec.baseSeg s s.lo = 0 := by unfold Spec.baseSeg; simp
      rw [e0, sub_zero] at e
      rw [e]
      have hpos : 0 < s.lo * Spec.clamp s P := Nat.mul_pos hs.1 (by omega)
      rw [div_le_iff₀ (by exact_mod_cast hpos)]
      exact_mod_cast le_divCeil_mul (s.L * (Spec.clamp s P - s.lo)) hpos
  exact key _ fun s hs => ⟨(segs_bounds h hs).2.2.1, (segs_bounds h hs).2.1⟩

/-- C27: the vault of a new pool holds the whole supply, which covers the exact amount the curve releases between the start
and the migration price, plus the migration amount, plus the creator's vesting. -/
theorem C27_supply {p : ConfigParams} {env : ConfigEnv} {c : PoolConfig} {a : InitArgs} {w : World} (ht : p.Typed)
    (h : createConfig p env = .ok c) (hw : initPool c a = .ok w) :
    Spec.baseTo (Spec.segs p.sqrtStartPrice p.curve) c.migrationSqrtPrice + c.migrationBaseThreshold +
      (p.lockedVesting.cliffUnlock + p.lockedVesting.amountPerPeriod * p.lockedVesting.numberOfPeriod) ≤ w.baseVault ∧
    w.baseVault = w.supply ∧ w.baseVault < 2 ^ 64 ∧
    (∀ pre post, p.tokenSupply = some (pre, post) → w.baseVault = pre) := by
  have hg := createConfig_good ht h
  have ha := createConfig_ok h
  have es : c.sqrtStartPrice = p.sqrtStartPrice := by rw [ha.eq]; rfl
  have ev : c.lockedVesting = p.lockedVesting := by rw [ha.eq]; rfl
  obtain ⟨supply, mint, upd, act, b, _, _, _, h4, _, _, _, _, rfl⟩ := initPool_ok hw
  obtain ⟨t, ht1, ht2, ht3⟩ := hg.supply supply h4
  obtain ⟨_, _, rfl⟩ := vesting_total_ok.1 ht1
  have hu : u64Max < 2 ^ 64 := by decide
  refine ⟨?_, rfl, by dsimp only; omega, ?_⟩
  · have h5 := baseTo_le_up hg.curve.proper c.migrationSqrtPrice
    rw [← hg.swap, es] at h5
    rw [ev] at ht2
    have h6 : ((c.swapBaseAmount + c.migrationBaseThreshold + (p.lockedVesting.cliffUnlock +
      p.lockedVesting.amountPerPeriod * p.lockedVesting.numberOfPeriod) : Nat) : ℚ) ≤ (supply : ℚ) := Nat.cast_le.2 ht2
    push_cast at h6
    dsimp only
    linarith
  · intro pre post hts
    have hr := ha.supply
    simp only [resolveTokenSupply, hts, bind_ok, req_ok, ok_inj, Prod.mk.injEq] at hr
    obtain ⟨_, _, _, _, _, _, _, _, _, _, e1, e2, _⟩ := hr
    rw [PoolConfig.initialBaseSupply, if_pos e1.symm, ok_inj] at h4
    dsimp only
    omega

/-- Pools of the three example configurations, with fixed and with computed supply. -/
theorem C27_example : initPool (Ex.configOf Ex.paramsA) (Ex.initArgs 0) = .ok (Ex.worldOf Ex.paramsA) ∧
    (Ex.worldOf Ex.paramsA).baseVault = 3000000000000000 ∧
    initPool (Ex.configOf Ex.paramsB) (Ex.initArgs 1) = .ok (Ex.worldOf Ex.paramsB) ∧
    (Ex.worldOf Ex.paramsB).baseVault = 1640625000553893 := by
  refine ⟨Ex.initA, ?_, Ex.initB, ?_⟩ <;> decide +kernel

/-! ### C23 -/

/-- The two liquidity vestings of an accepted configuration. -/
theorem accepted_vesting {p : ConfigParams} {env : ConfigEnv} {c : PoolConfig} (ht : p.Typed)
    (h : createConfig p env = .ok c) {v : LiqVesting} (hv : v = c.partnerVesting ∨ v = c.creatorVesting) :
    v.bpsPerPeriod * v.numPeriods ≤ 10000 ∧ max v.cliffDuration 1 ≤ 63072000 ∧ v.pct ≤ 100 ∧
    (0 < v.bpsPerPeriod * v.numPeriods → 0 < v.frequency ∧ v.cliffDuration + v.frequency * v.numPeriods ≤ 63072000) ∧
    (v.isInit = 0 → v.pct = 0 ∧ v.bpsPerPeriod * v.numPeriods = 0) := by
  have ha := createConfig_ok h
  obtain ⟨hp, _, _, _, _, _, _, _, _, _, _, _, _, _, hvs, _⟩ := C25_accepted ht h
  have e1 : c.partnerVesting = p.partnerVesting.toInfo := by rw [ha.eq]; rfl
  have e2 : c.creatorVesting = p.creatorVesting.toInfo := by rw [ha.eq]; rfl
  have key : ∀ u : LiqVestingParams, (u = p.partnerVesting ∨ u = p.creatorVesting) → u.pct ≤ 100 →
      u.toInfo.bpsPerPeriod * u.toInfo.numPeriods ≤ 10000 ∧ max u.toInfo.cliffDuration 1 ≤ 63072000 ∧ u.toInfo.pct ≤ 100 ∧
      (0 < u.toInfo.bpsPerPeriod * u.toInfo.numPeriods → 0 < u.toInfo.frequency ∧
        u.toInfo.cliffDuration + u.toInfo.frequency * u.toInfo.numPeriods ≤ 63072000) ∧
      (u.toInfo.isInit = 0 → u.toInfo.pct = 0 ∧ u.toInfo.bpsPerPeriod * u.toInfo.numPeriods = 0) := by
    intro u hu hpct
    rcases hvs u hu with rfl | ⟨_, k1, k2, k3, k4⟩
    · simp [LiqVestingParams.toInfo]
    · refine ⟨k2, ?_, hpct, k4, ?_⟩
      · have : u.toInfo.cliffDuration ≤ 63072000 := k3
        omega
      · intro hi
        exfalso
        have hnz : ¬ u.isZero := by intro hz; unfold LiqVestingParams.isZero at hz; rw [hz] at k1; simp at k1
        simp only [LiqVestingParams.toInfo, if_neg hnz] at hi
        omega
  rcases hv with rfl | rfl
  · rw [e1]; exact key _ (.inl rfl) (by omega)
  · rw [e2]; exact key _ (.inr rfl) (by omega)

/-- C23: for either liquidity vesting of an accepted configuration, every vested amount and every migration time, a schedule
is built. It releases in total exactly the vested amount: nothing before its cliff, which is not before the migration, never
less later than earlier, never more than the total, and everything from the last period on, at most two years after the
migration. The schedule's own evaluation by the program (used for the locked-liquidity check) is that release function. -/
theorem C23_vesting {p : ConfigParams} {env : ConfigEnv} {c : PoolConfig} (ht : p.Typed) (h : createConfig p env = .ok c)
    {v : LiqVesting} (hv : v = c.partnerVesting ∨ v = c.creatorVesting) (total now : Nat) (htot : total < 2 ^ 128)
    (hnow : now + 63072000 < 2 ^ 64) :
    ∃ P : VestParams, v.params total now = .ok P ∧
      P.cliffUnlock + P.numPeriods * P.perPeriod = total ∧ now ≤ P.cliffPoint ∧
      P.cliffPoint + P.frequency * P.numPeriods ≤ now + 63072000 ∧
      (∀ t, P.unlockedAt t = .ok (Spec.released P.cliffPoint P.cliffUnlock P.perPeriod P.frequency P.numPeriods t)) ∧
      (∀ t, t < P.cliffPoint →
        Spec.released P.cliffPoint P.cliffUnlock P.perPeriod P.frequency P.numPeriods t = 0) ∧
      (∀ s t, s ≤ t → Spec.released P.cliffPoint P.cliffUnlock P.perPeriod P.frequency P.numPeriods s ≤
        Spec.released P.cliffPoint P.cliffUnlock P.perPeriod P.frequency P.numPeriods t) ∧
      (∀ t, Spec.released P.cliffPoint P.cliffUnlock P.perPeriod P.frequency P.numPeriods t ≤ total) ∧
      (∀ t, P.cliffPoint + P.frequency * P.numPeriods ≤ t →
        Spec.released P.cliffPoint P.cliffUnlock P.perPeriod P.frequency P.numPeriods t = total) := by
  obtain ⟨k1, k2, _, k4, _⟩ := accepted_vesting ht h hv
  have hu : u128Max = 2 ^ 128 - 1 := rfl
  have hu64 : u64Max = 2 ^ 64 - 1 := rfl
  have htot' : total ≤ u128Max := by rw [hu]; exact Nat.le_sub_one_of_lt htot
  have hm := v.per_mul_le total k1
  have hs := v.sched_total total now hm
  have hfreq : (v.sched total now).frequency = 0 → (v.sched total now).numPeriods * (v.sched total now).perPeriod = 0 := by
    intro hf
    by_cases hp : v.per total = 0
    · simp [LiqVesting.sched, hp]
    · simp only [LiqVesting.sched, hp, if_false] at hf
      have : 0 < v.bpsPerPeriod * v.numPeriods := by
        rcases Nat.eq_zero_or_pos (v.bpsPerPeriod * v.numPeriods) with h0 | h0
        · exfalso; apply hp; unfold LiqVesting.per; rw [h0]; simp
        · exact h0
      have := (k4 this).1
      omega
  have hlast : (v.sched total now).cliffPoint + (v.sched total now).frequency * (v.sched total now).numPeriods ≤
      now + 63072000 := by
    by_cases hp : v.per total = 0
    · simp only [LiqVesting.sched, hp, if_true]; omega
    · simp only [LiqVesting.sched, hp, if_false]
      have : 0 < v.bpsPerPeriod * v.numPeriods := by
        rcases Nat.eq_zero_or_pos (v.bpsPerPeriod * v.numPeriods) with h0 | h0
        · exfalso; apply hp; unfold LiqVesting.per; rw [h0]; simp
        · exact h0
      have := (k4 this).2
      omega
  have hcl : now ≤ (v.sched total now).cliffPoint := by simp [LiqVesting.sched]
  refine ⟨v.sched total now, LiqVesting.params_some htot' k1 (by omega), hs, hcl, hlast, ?_, ?_, ?_, ?_, ?_⟩
  · intro t
    exact VestParams.unlockedAt_ok (by rw [hs]; exact htot')
  all_goals generalize v.sched total now = P at *
  all_goals obtain ⟨cl, per, cu, fr, n⟩ := P
  all_goals dsimp only at *
  · intro t ht; unfold Spec.released; rw [if_pos ht]
  · intro s t hst
    unfold Spec.released
    by_cases h1 : s < cl
    · rw [if_pos h1]; exact Nat.zero_le _
    · rw [if_neg h1, if_neg (show ¬ t < cl by omega)]
      by_cases h2 : fr = 0
      · rw [if_pos h2, if_pos h2]
      · rw [if_neg h2, if_neg h2]
        have h3 : (s - cl) / fr ≤ (t - cl) / fr := Nat.div_le_div_right (by omega)
        apply Nat.add_le_add_left
        apply Nat.mul_le_mul_right
        exact min_le_min_right _ h3
  · intro t
    unfold Spec.released
    split
    · exact Nat.zero_le _
    · split
      · omega
      · have : min ((t - cl) / fr) n * per ≤ n * per := Nat.mul_le_mul_right _ (Nat.min_le_right _ _)
        omega
  · intro t ht'
    have hge : cl ≤ t := (Nat.le_add_right _ _).trans ht'
    unfold Spec.released
    rw [if_neg (by omega)]
    split
    · rename_i h0; have := hfreq h0; omega
    · rename_i h0
      have : n ≤ (t - cl) / fr := by
        rw [Nat.le_div_iff_mul_le (by omega), Nat.mul_comm]
        omega
      rw [Nat.min_eq_right this]
      exact hs

/-- A vesting of 1000003 units in 50 periods after a one-day cliff, half of it released at the cliff. -/
theorem C23_example : createConfig Ex.paramsB Ex.env = .ok (Ex.configOf Ex.paramsB) ∧
    (Ex.configOf Ex.paramsB).partnerVesting.params 1000003 5000 = .ok ⟨91400, 10000, 500003, 3600, 50⟩ ∧
    Spec.released 91400 500003 10000 3600 50 (91400 + 7300) = 520003 := by
  refine ⟨Ex.acceptedB, ?_, ?_⟩ <;> decide +kernel

/-! ### C22 -/

/-- C22, first part: the liquidity created at migration is divided without loss or gain. Every share but the creator's
unlocked one is its exact percentage rounded down; that one takes what is left, so it is at least its percentage, and less
than five units above it. -/
theorem C22_distribution {p : ConfigParams} {env : ConfigEnv} {c : PoolConfig} (ht : p.Typed)
    (h : createConfig p env = .ok c) (liq : Nat) (hl : liq < 2 ^ 128) :
    ∃ pa cr : LiqItem, c.liquidityDistribution liq = .ok (pa, cr) ∧
      pa.unlocked + pa.permanent + pa.vested + (cr.unlocked + cr.permanent + cr.vested) = liq ∧
      pa.unlocked = liq * p.partnerLiqPct / 100 ∧ pa.permanent = liq * p.partnerPermLockedPct / 100 ∧
      pa.vested = liq * p.partnerVesting.pct / 100 ∧ cr.permanent = liq * p.creatorPermLockedPct / 100 ∧
      cr.vested = liq * p.creatorVesting.pct / 100 ∧
      liq * p.creatorLiqPct ≤ 100 * cr.unlocked ∧ 100 * cr.unlocked < liq * p.creatorLiqPct + 500 ∧
      pa.total = .ok (pa.unlocked + pa.permanent + pa.vested) ∧ cr.total = .ok (cr.unlocked + cr.permanent + cr.vested) := by
  have ha := createConfig_ok h
  have hv := validate_ok ha.validated
  have hpct := hv.pct
  have hu : u128Max = 2 ^ 128 - 1 := rfl
  have hl' : liq ≤ u128Max := by rw [hu]; exact Nat.le_sub_one_of_lt hl
  have e1 : c.partnerLiqPct = p.partnerLiqPct := by rw [ha.eq]; rfl
  have e2 : c.partnerPermLockedPct = p.partnerPermLockedPct := by rw [ha.eq]; rfl
  have e3 : c.partnerVesting.pct = p.partnerVesting.pct := by rw [ha.eq]; rfl
  have e4 : c.creatorPermLockedPct = p.creatorPermLockedPct := by rw [ha.eq]; rfl
  have e5 : c.creatorVesting.pct = p.creatorVesting.pct := by rw [ha.eq]; rfl
  have hmul : ∀ x, x ≤ 100 → safeMulDivCastU128 liq x 100 .down = .ok (liq * x / 100) := fun x hx =>
    mulDivU128_pct hl' hx (by decide) (by decide)
  have hsum : liq * p.partnerLiqPct + liq * p.partnerPermLockedPct + liq * p.creatorLiqPct +
      liq * p.creatorPermLockedPct + liq * p.partnerVesting.pct + liq * p.creatorVesting.pct = 100 * liq := by
    rw [← hpct]; ring
  simp only [PoolConfig.liquidityDistribution, e1, e2, e3, e4, e5, bind_ok, safeSub_ok, ok_inj, Prod.mk.injEq]
  generalize hA : liq * p.partnerLiqPct = A at *
  generalize hB : liq * p.partnerPermLockedPct = B at *
  generalize hC : liq * p.creatorLiqPct = C at *
  generalize hD : liq * p.creatorPermLockedPct = D at *
  generalize hE : liq * p.partnerVesting.pct = E at *
  generalize hF : liq * p.creatorVesting.pct = F at *
  refine ⟨_, _, ⟨_, hmul _ (by omega), _, hmul _ (by omega), _, hmul _ (by omega), _, hmul _ (by omega), _,
    hmul _ (by omega), _, ⟨?_, rfl⟩, _, ⟨?_, rfl⟩, _, ⟨?_, rfl⟩, _, ⟨?_, rfl⟩, _, ⟨?_, rfl⟩, rfl, rfl⟩, ?_, ?_, ?_, ?_, ?_, ?_,
    ?_, ?_, ?_, ?_⟩
  all_goals simp only [LiqItem.total, bind_ok, safeAdd_ok, hA, hB, hC, hD, hE, hF]
  all_goals first | omega | skip
  · exact ⟨_, ⟨by omega, rfl⟩, by omega, rfl⟩
  · exact ⟨_, ⟨by omega, rfl⟩, by omega, rfl⟩

/-- C22, second part: when the second position gets a different amount than planned, its parts sum exactly to that amount.
Without locked shares all of it is unlocked. Otherwise the unlocked part is the planned one, or everything if there is less,
and the rest is divided between vested and permanently locked in proportion to their percentages, rounding to the latter. If
the amount is no more than planned, no part exceeds its plan, but for one unit of rounding in the permanently locked part. -/
theorem C22_adjust {p : ConfigParams} {env : ConfigEnv} {c : PoolConfig} (ht : p.Typed)
    (h : createConfig p env = .ok c) {liq : Nat} (hl : liq < 2 ^ 128) {pa cr i : LiqItem}
    (hd : c.liquidityDistribution liq = .ok (pa, cr)) (hi : i = pa ∨ i = cr) (adjusted : Nat) (hadj : adjusted < 2 ^ 128) :
    ∃ j : LiqItem, i.adjust adjusted = .ok j ∧ j.unlocked + j.permanent + j.vested = adjusted ∧
      (i.permPct + i.vesting.pct = 0 → j.unlocked = adjusted) ∧
      (0 < i.permPct + i.vesting.pct → j.unlocked = min adjusted i.unlocked ∧
        j.vested = (adjusted - j.unlocked) * i.vesting.pct / (i.vesting.pct + i.permPct)) ∧
      (adjusted ≤ i.unlocked + i.permanent + i.vested → 0 < i.permPct + i.vesting.pct →
        j.unlocked ≤ i.unlocked ∧ j.vested ≤ i.vested ∧ j.permanent ≤ i.permanent + 1) := by
  have ha := createConfig_ok h
  have hv := validate_ok ha.validated
  have hpct := hv.pct
  have hu : u128Max = 2 ^ 128 - 1 := rfl
  have hadj' : adjusted ≤ u128Max := by rw [hu]; exact Nat.le_sub_one_of_lt hadj
  obtain ⟨pa', cr', hd', hs, k1, k2, k3, k4, k5, _⟩ := C22_distribution ht h liq hl
  rw [hd, ok_inj, Prod.mk.injEq] at hd'
  obtain ⟨rfl, rfl⟩ := hd'
  have e2 : c.partnerPermLockedPct = p.partnerPermLockedPct := by rw [ha.eq]; rfl
  have e3 : c.partnerVesting.pct = p.partnerVesting.pct := by rw [ha.eq]; rfl
  have e4 : c.creatorPermLockedPct = p.creatorPermLockedPct := by rw [ha.eq]; rfl
  have e5 : c.creatorVesting.pct = p.creatorVesting.pct := by rw [ha.eq]; rfl
  have hfld : pa.permPct = p.partnerPermLockedPct ∧ pa.vesting.pct = p.partnerVesting.pct ∧
      cr.permPct = p.creatorPermLockedPct ∧ cr.vesting.pct = p.creatorVesting.pct := by
    simp only [PoolConfig.liquidityDistribution, bind_ok, ok_inj, Prod.mk.injEq] at hd
    obtain ⟨_, _, _, _, _, _, _, _, _, _, _, _, _, _, _, _, _, _, _, _, rfl, rfl⟩ := hd
    exact ⟨e2, e3, e4, e5⟩
  have key : i.permPct + i.vesting.pct ≤ 100 ∧ i.permanent = liq * i.permPct / 100 ∧ i.vested = liq * i.vesting.pct / 100 := by
    rcases hi with rfl | rfl
    · rw [hfld.1, hfld.2.1]; exact ⟨by omega, k2, k3⟩
    · rw [hfld.2.2.1, hfld.2.2.2]; exact ⟨by omega, k4, k5⟩
  clear hs k1 k2 k3 k4 k5 hd e2 e3 e4 e5 hi hfld
  obtain ⟨a1, a2, a3⟩ := key
  obtain ⟨un, pe, ve, pp, vst⟩ := i
  dsimp only at *
  generalize hvp : vst.pct = vp at *
  have hu8 : u8Max = 255 := rfl
  have hadd : safeAdd u8Max vp pp = .ok (vp + pp) := by rw [safeAdd_ok]; exact ⟨by omega, rfl⟩
  by_cases h0 : vp + pp = 0
  · refine ⟨{ unlocked := adjusted, permanent := 0, vested := 0, permPct := pp, vesting := vst }, ?_, ?_, ?_, ?_, ?_⟩
    · simp only [LiqItem.adjust, hvp, hadd, ok_bind]; rw [if_pos h0]
    · simp
    · intro _; rfl
    · intro hc; omega
    · intro _ hc; omega
  · have hlock : adjusted - min adjusted un ≤ u128Max := by omega
    have hmul := mulDivU128_pct (x := adjusted - min adjusted un) (y := vp) (d := vp + pp) hlock (by omega) h0
      (by have : (100 : Nat) ≤ u128Max := by decide
          omega)
    have hle : (adjusted - min adjusted un) * vp / (vp + pp) ≤ adjusted - min adjusted un := by
      apply Nat.div_le_of_le_mul
      rw [Nat.mul_comm (vp + pp)]
      exact Nat.mul_le_mul_left _ (by omega)
    refine ⟨{ unlocked := min adjusted un,
              permanent := adjusted - min adjusted un - (adjusted - min adjusted un) * vp / (vp + pp),
              vested := (adjusted - min adjusted un) * vp / (vp + pp), permPct := pp, vesting := vst }, ?_, ?_, ?_, ?_, ?_⟩
    · simp only [LiqItem.adjust, hvp, hadd, ok_bind]
      rw [if_neg h0]
      simp only [bind_ok, safeSub_ok, ok_inj]
      exact ⟨_, ⟨Nat.min_le_left _ _, rfl⟩, _, hmul, _, ⟨hle, rfl⟩, rfl⟩
    · dsimp only
      generalize (adjusted - min adjusted un) * vp / (vp + pp) = q at *
      omega
    · intro hc; omega
    · intro _; exact ⟨rfl, rfl⟩
    · intro hle2 _
      dsimp only
      have hl1 : adjusted - min adjusted un ≤ liq * pp / 100 + liq * vp / 100 := by omega
      generalize adjusted - min adjusted un = lock at *
      have b1 := Nat.div_mul_le_self (liq * pp) 100
      have b2 := Nat.div_mul_le_self (liq * vp) 100
      have hT : 0 < vp + pp := by omega
      have hlT : lock * 100 ≤ liq * (vp + pp) := by rw [Nat.mul_add]; omega
      refine ⟨Nat.min_le_right _ _, ?_, ?_⟩
      · rw [a3, Nat.le_div_iff_mul_le (by decide)]
        have c1 := Nat.div_mul_le_self (lock * vp) (vp + pp)
        have c2 : lock * vp / (vp + pp) * 100 * (vp + pp) ≤ liq * vp * (vp + pp) := by
          calc lock * vp / (vp + pp) * 100 * (vp + pp) = lock * vp / (vp + pp) * (vp + pp) * 100 := by ring
            _ ≤ lock * vp * 100 := Nat.mul_le_mul_right _ c1
            _ = lock * 100 * vp := by ring
            _ ≤ liq * (vp + pp) * vp := Nat.mul_le_mul_right _ hlT
            _ = liq * vp * (vp + pp) := by ring
        exact Nat.le_of_mul_le_mul_right c2 hT
      · rw [a2]
        have c1 := Nat.lt_div_mul_add (a := lock * vp) hT
        have c3 := Nat.lt_div_mul_add (a := liq * pp) (b := 100) (by decide)
        generalize lock * vp / (vp + pp) = q at *
        generalize liq * pp / 100 = r at *
        -- (lock - q) * T < lock * pp + T and 100 * lock * pp ≤ liq * pp * T
        have hq : q ≤ lock := hle
        by_contra hlt
        have h6 : r + 2 ≤ lock - q := by omega
        have h7 : (r + 2) * (vp + pp) + q * (vp + pp) ≤ lock * (vp + pp) := by
          rw [← Nat.add_mul]; exact Nat.mul_le_mul_right _ (by omega)
        have h8 : lock * (vp + pp) = lock * vp + lock * pp := Nat.mul_add _ _ _
        have h9 : (r + 2) * (vp + pp) < lock * pp + (vp + pp) := by omega
        have h10 : (r + 1) * (vp + pp) < lock * pp := by
          have : (r + 2) * (vp + pp) = (r + 1) * (vp + pp) + (vp + pp) := by ring
          omega
        have h11 : 100 * (r + 1) * (vp + pp) < liq * pp * (vp + pp) := by
          calc 100 * (r + 1) * (vp + pp) = 100 * ((r + 1) * (vp + pp)) := by ring
            _ < 100 * (lock * pp) := by omega
            _ = lock * 100 * pp := by ring
            _ ≤ liq * (vp + pp) * pp := Nat.mul_le_mul_right _ hlT
            _ = liq * pp * (vp + pp) := by ring
        have h12 := Nat.lt_of_mul_lt_mul_right h11
        omega

/-- The split of an amount that is not a multiple of 100, and a second position reduced to a fraction of its plan. -/
theorem C22_example : createConfig Ex.paramsB Ex.env = .ok (Ex.configOf Ex.paramsB) ∧
    (Ex.configOf Ex.paramsB).liquidityDistribution 1000007 =
      .ok (⟨200001, 100000, 100000, 10, (Ex.configOf Ex.paramsB).partnerVesting⟩,
        ⟨250004, 150001, 200001, 15, (Ex.configOf Ex.paramsB).creatorVesting⟩) ∧
    LiqItem.adjust ⟨250004, 150001, 200001, 15, (Ex.configOf Ex.paramsB).creatorVesting⟩ 599999 =
      .ok ⟨250004, 149998, 199997, 15, (Ex.configOf Ex.paramsB).creatorVesting⟩ := by
  refine ⟨Ex.acceptedB, ?_, ?_⟩ <;> decide +kernel

/-! ### C24 -/

/-- C24: for every accepted configuration, every amount of liquidity and every migration time, the split succeeds, the two
vesting schedules are built, and the permanently locked shares together with what the schedules have not yet released one
day after the migration are at least a tenth of the liquidity, less 40002 units of rounding (a unit is `2^-64` of a token). -/
theorem C24_locked {p : ConfigParams} {env : ConfigEnv} {c : PoolConfig} (ht : p.Typed) (h : createConfig p env = .ok c)
    (liq now : Nat) (hl : liq < 2 ^ 128) (hnow : now + 63072000 < 2 ^ 64) :
    ∃ (pa cr : LiqItem) (P Q : VestParams), c.liquidityDistribution liq = .ok (pa, cr) ∧
      pa.vesting.params pa.vested now = .ok P ∧ cr.vesting.params cr.vested now = .ok Q ∧
      liq ≤ 10 * (pa.permanent + cr.permanent +
        (pa.vested - Spec.released P.cliffPoint P.cliffUnlock P.perPeriod P.frequency P.numPeriods (now + 86400)) +
        (cr.vested - Spec.released Q.cliffPoint Q.cliffUnlock Q.perPeriod Q.frequency Q.numPeriods (now + 86400)) +
        40002) := by
  have ha := createConfig_ok h
  obtain ⟨pa, cr, hd, hs, k1, k2, k3, k4, k5, _⟩ := C22_distribution ht h liq hl
  have e2 : c.partnerPermLockedPct = p.partnerPermLockedPct := by rw [ha.eq]; rfl
  have e3 : c.partnerVesting.pct = p.partnerVesting.pct := by rw [ha.eq]; rfl
  have e4 : c.creatorPermLockedPct = p.creatorPermLockedPct := by rw [ha.eq]; rfl
  have e5 : c.creatorVesting.pct = p.creatorVesting.pct := by rw [ha.eq]; rfl
  have hfld : pa.vesting = c.partnerVesting ∧ cr.vesting = c.creatorVesting := by
    have hd' := hd
    simp only [PoolConfig.liquidityDistribution, bind_ok, ok_inj, Prod.mk.injEq] at hd'
    obtain ⟨_, _, _, _, _, _, _, _, _, _, _, _, _, _, _, _, _, _, _, _, rfl, rfl⟩ := hd'
    exact ⟨rfl, rfl⟩
  have hu : u128Max = 2 ^ 128 - 1 := rfl
  have hu64 : u64Max = 2 ^ 64 - 1 := rfl
  have hl' : liq ≤ u128Max := by rw [hu]; exact Nat.le_sub_one_of_lt hl
  obtain ⟨pT, pC, pP, _, pZ⟩ := accepted_vesting ht h (v := c.partnerVesting) (.inl rfl)
  obtain ⟨cT, cC, cP, _, cZ⟩ := accepted_vesting ht h (v := c.creatorVesting) (.inr rfl)
  refine ⟨pa, cr, c.partnerVesting.sched pa.vested now, c.creatorVesting.sched cr.vested now, hd, ?_, ?_, ?_⟩
  · rw [hfld.1]; exact LiqVesting.params_some (by omega) pT (by omega)
  · rw [hfld.2]; exact LiqVesting.params_some (by omega) cT (by omega)
  · have hP : c.partnerVesting.held pa.vested now (now + 86400) = pa.vested -
        Spec.released (c.partnerVesting.sched pa.vested now).cliffPoint (c.partnerVesting.sched pa.vested now).cliffUnlock
          (c.partnerVesting.sched pa.vested now).perPeriod (c.partnerVesting.sched pa.vested now).frequency
          (c.partnerVesting.sched pa.vested now).numPeriods (now + 86400) := rfl
    have hQ : c.creatorVesting.held cr.vested now (now + 86400) = cr.vested -
        Spec.released (c.creatorVesting.sched cr.vested now).cliffPoint (c.creatorVesting.sched cr.vested now).cliffUnlock
          (c.creatorVesting.sched cr.vested now).perPeriod (c.creatorVesting.sched cr.vested now).frequency
          (c.creatorVesting.sched cr.vested now).numPeriods (now + 86400) := rfl
    rw [← hP, ← hQ]
    obtain ⟨b, hb, hb1⟩ := ha.locked
    have hb1 : 1000 ≤ b := hb1
    simp only [PoolConfig.lockedBpsAt, bind_ok, safeMul_ok, safeAdd_ok] at hb
    obtain ⟨pv, hpv, cv, hcv, _, ⟨_, rfl⟩, _, ⟨_, rfl⟩, _, ⟨_, rfl⟩, _, ⟨_, rfl⟩, _, rfl⟩ := hb
    have hday : SECONDS_PER_DAY = 86400 := rfl
    rw [hday] at hpv hcv
    have s1 : pv * liq ≤ 10000 * (c.partnerVesting.held pa.vested now (now + 86400) + 20000) := by
      by_cases hi : c.partnerVesting.isInit = 0
      · simp only [LiqVesting.lockedBpsAt, hi, if_true, ok_inj] at hpv
        rw [← hpv, Nat.zero_mul]; exact Nat.zero_le _
      · have := LiqVesting.locked_scales hi hpv pP pT hl' now
        rw [k3, ← e3]; exact this
    have s2 : cv * liq ≤ 10000 * (c.creatorVesting.held cr.vested now (now + 86400) + 20000) := by
      by_cases hi : c.creatorVesting.isInit = 0
      · simp only [LiqVesting.lockedBpsAt, hi, if_true, ok_inj] at hcv
        rw [← hcv, Nat.zero_mul]; exact Nat.zero_le _
      · have := LiqVesting.locked_scales hi hcv cP cT hl' now
        rw [k5, ← e5]; exact this
    have s3 : 1000 * liq ≤ (pv + c.partnerPermLockedPct * 100 + cv + c.creatorPermLockedPct * 100) * liq :=
      Nat.mul_le_mul_right _ hb1
    have s4 : (pv + c.partnerPermLockedPct * 100 + cv + c.creatorPermLockedPct * 100) * liq =
        pv * liq + cv * liq + 100 * (liq * p.partnerPermLockedPct) + 100 * (liq * p.creatorPermLockedPct) := by
      rw [e2, e4]; ring
    generalize liq * p.partnerPermLockedPct = A at *
    generalize liq * p.creatorPermLockedPct = B at *
    generalize c.partnerVesting.held pa.vested now (now + 86400) = X at *
    generalize c.creatorVesting.held cr.vested now (now + 86400) = Y at *
    omega

/-- Configuration B locks 25% permanently and vests 30%, of which part is released within a day. -/
theorem C24_example : Ex.paramsB.Typed ∧ createConfig Ex.paramsB Ex.env = .ok (Ex.configOf Ex.paramsB) ∧
    (Ex.configOf Ex.paramsB).lockedBpsAt 86400 = .ok 3988 := by
  refine ⟨Ex.typedB, Ex.acceptedB, ?_⟩; decide +kernel

end Props

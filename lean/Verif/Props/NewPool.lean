import Verif.Props.Migrate
import Verif.Lemmas.Once

/-!
# The pool migrated to: C22 (positions), C54, C55
-/

namespace Props
open Dbc Spec

/-! ### C54 -/

theorem sameCollection_ok {m d : Nat} (h : dammCollectFeeMode m = .ok d) : SameCollection m d := by
  unfold dammCollectFeeMode at h
  unfold SameCollection
  split at h
  · rw [ok_inj] at h; exact .inl ⟨rfl, h.symm⟩
  · rw [ok_inj] at h; exact .inr (.inl ⟨rfl, h.symm⟩)
  · rw [ok_inj] at h; exact .inr (.inr ⟨rfl, h.symm⟩)
  · exact nomatch h

theorem migrate_fees {w w' : World} {op : Op} (h : Reachable w) (hop : isMigrate op = true) (hs : w.step op = .ok w') :
    ∃ np, w'.newPool = some np ∧ FeesAsPromised w.cfg np := by
  have hp := h.poolCfg
  rcases isMigrate_iff.1 hop with ⟨a, rfl⟩ | ⟨a, rfl⟩
  · obtain ⟨md, m, md', burn, f, h1, h2, h3, h4, hma, h5, h6, h7, h8, -, -, -, -, ⟨_, _, _, _, hv⟩, e⟩ := migrateV1_ok hs
    rw [e]
    exact ⟨_, rfl, h4, v1Validate_ok hv (hp.fixed h4)⟩
  · obtain ⟨hd, m, burn, f, price, liq, dead, pa, cr, first, second, liq2, out, rfl, h1, h2, h3, h4, hma, h5, h6, h7, h8, h9,
      h10, h11, h12, h13, ⟨_, t1, _, _, _, _, _, _, hcp, hv⟩, -, -, -, -, e⟩ := migrateV2_ok hs
    rw [e]
    refine ⟨_, rfl, ?_⟩
    unfold createPoolV2 at hcp
    split at hcp
    · next h6' =>
      obtain ⟨fees, low, hf⟩ := buildFees_ok (hp.custom h4 h6')
      simp only [bind_ok, ok_inj, hf.built] at hcp
      obtain ⟨_, rfl, mode, hmode, hcp⟩ := hcp
      rw [← hcp]
      exact ⟨h4, h6', hf.base, hf.compounding, sameCollection_ok hmode, ⟨low, hf.lowest, hf.range.1, hf.range.2.1, hf.dynamic⟩,
        rfl, rfl, rfl⟩
    · next h6' =>
      rw [ok_inj] at hcp
      rw [← hcp]
      exact ⟨h4, v2Fixed_ok hv h6'⟩

/-! ### C55 -/

theorem balanced_cut {P T Q : Nat} (hP : 0 < P) (hT : T = divCeil (Q * 2 ^ 128) (P * P)) {b q : Nat}
    (hb : b + T * 20 / 10000 = T) (hq : q + Q * 20 / 10000 = Q) : Balanced P b q := by
  have hPP : 0 < P * P := Nat.mul_pos hP hP
  have t1 := le_divCeil_mul (Q * 2 ^ 128) hPP
  have t2 := divCeil_mul_lt (Q * 2 ^ 128) hPP
  rw [← hT] at t1 t2
  unfold Balanced
  rw [sq]
  generalize P * P = X at *
  have hK : 0 < 2 ^ 128 := by decide
  generalize 2 ^ 128 = K at *
  have b1 := Nat.div_mul_le_self (T * 20) 10000
  have b2 := Nat.lt_div_mul_add (a := T * 20) (b := 10000) (by decide)
  have q1 := Nat.div_mul_le_self (Q * 20) 10000
  have q2 := Nat.lt_div_mul_add (a := Q * 20) (b := 10000) (by decide)
  generalize T * 20 / 10000 = x at *
  generalize Q * 20 / 10000 = y at *
  have hb' : 9980 * T ≤ 10000 * b := by omega
  have hb'' : 10000 * b < 9980 * T + 10000 := by omega
  have hq' : 9980 * Q ≤ 10000 * q := by omega
  have hq'' : 10000 * q < 9980 * Q + 10000 := by omega
  have k1 : 9980 * (T * X) ≤ 10000 * (b * X) := by
    rw [← Nat.mul_assoc, ← Nat.mul_assoc]; exact Nat.mul_le_mul_right _ hb'
  have k2 : 10000 * (b * X) + X ≤ 9980 * (T * X) + 10000 * X := by
    have := Nat.mul_le_mul_right X (show 10000 * b + 1 ≤ 9980 * T + 10000 from hb'')
    rw [Nat.add_mul, Nat.add_mul, Nat.one_mul, Nat.mul_assoc, Nat.mul_assoc] at this
    exact this
  have k3 : 9980 * (Q * K) ≤ 10000 * (q * K) := by
    rw [← Nat.mul_assoc, ← Nat.mul_assoc]; exact Nat.mul_le_mul_right _ hq'
  have k4 : 10000 * (q * K) + K ≤ 9980 * (Q * K) + 10000 * K := by
    have := Nat.mul_le_mul_right K (show 10000 * q + 1 ≤ 9980 * Q + 10000 from hq'')
    rw [Nat.add_mul, Nat.add_mul, Nat.one_mul, Nat.mul_assoc, Nat.mul_assoc] at this
    exact this
  constructor <;> omega

/-- C54/C55 at the migration itself. -/
theorem migrate_price {w w' : World} {op : Op} (h : Reachable w) (hop : isMigrate op = true) (hs : w.step op = .ok w')
    {np : NewPool} (hnp : w'.newPool = some np) : OpensAt w.cfg np := by
  have hm := h.migCfg
  rcases isMigrate_iff.1 hop with ⟨a, rfl⟩ | ⟨a, rfl⟩
  · obtain ⟨md, m, md', burn, f, h1, h2, h3, h4, hma, -, -, -, -, -, -, -, -, -, e⟩ := migrateV1_ok hs
    rw [e, Option.some.injEq] at hnp
    rw [← hnp]
    obtain ⟨hP, hT⟩ := hm.product (by rw [h4]; rfl)
    obtain ⟨q1, q2, q3, -, -⟩ := amounts_fees h h2 (by rw [h4]; rfl) hma
    obtain ⟨q3, q4⟩ := q3 rfl
    rw [q1, migrationQuote_eq] at q2
    rw [q3] at q4
    exact balanced_cut hP hT q4 q2
  · obtain ⟨hd, m, burn, f, price, liq, dead, pa, cr, first, second, liq2, out, rfl, h1, h2, h3, h4, hma, -, hi, -, -, -,
      -, -, -, -, ⟨_, t1, _, _, _, _, _, _, hcp, -⟩, -, -, -, -, e⟩ := migrateV2_ok hs
    rw [e, Option.some.injEq] at hnp
    rw [← hnp]
    have hprice : PriceOk w.cfg price := by
      unfold PriceOk
      by_cases hc : Compounds w.cfg
      · rw [if_pos hc]
        obtain ⟨q1, q2, q3, -, -⟩ := amounts_fees h h2 (by rw [h4]) hma
        have hh := (handler_eq h4).1 hc
        obtain ⟨q3, q4⟩ := q3 hh
        rw [hh] at hi
        have hmode : w.cfg.migratedFee.collectFeeMode = 2 := by unfold Compounds at hc; omega
        obtain ⟨s, l, hsl, -, hle⟩ := hm.compounding h4 hmode
        rw [migrationQuote_eq] at q1 q2
        have eb : m.exBase = w.cfg.migrationBaseThreshold -
            w.cfg.migrationBaseThreshold * PROTOCOL_LIQUIDITY_MIGRATION_FEE_BPS / BASIS_POINT_MAX := by
          have : protocolCut w.cfg.migrationBaseThreshold =
            w.cfg.migrationBaseThreshold * PROTOCOL_LIQUIDITY_MIGRATION_FEE_BPS / BASIS_POINT_MAX := rfl
          omega
        have eq : m.exQuote = migQuote w.cfg - migQuote w.cfg * PROTOCOL_LIQUIDITY_MIGRATION_FEE_BPS / BASIS_POINT_MAX := by
          have : protocolCut (migQuote w.cfg) =
            migQuote w.cfg * PROTOCOL_LIQUIDITY_MIGRATION_FEE_BPS / BASIS_POINT_MAX := rfl
          omega
        rw [← eb, ← eq] at hsl
        simp only [initialPoolInformation, hsl, ok_bind, bind_ok, ok_inj, Prod.mk.injEq] at hi
        obtain ⟨_, -, rfl, -⟩ := hi
        rw [Nat.max_comm]
        constructor <;> omega
      · rw [if_neg hc]
        exact initialPrice hi ((handler_eq h4).2 hc)
    unfold createPoolV2 at hcp
    split at hcp
    · simp only [bind_ok, ok_inj] at hcp
      obtain ⟨_, -, _, -, hcp⟩ := hcp
      rw [← hcp]
      exact hprice
    · rw [ok_inj] at hcp
      rw [← hcp]
      exact hprice

theorem step_newPool {w w' : World} {op : Op} (h : w.step op = .ok w') (hn : isMigrate op = false) :
    w'.newPool = w.newPool ∧ w'.positions = w.positions := by
  have hk := h
  cases_step op h
  case swap a =>
    obtain ⟨cur, fm, r, v1, v2, s⟩ := swap_ok hk
    rw [s.frame]
    exact ⟨rfl, rfl⟩
  case migrateV1 => exact nomatch hn
  case migrateV2 => exact nomatch hn
  all_goals exact ⟨rfl, rfl⟩

/-- What the history says about the new pool. -/
theorem newPool_ok {w : World} (h : Reachable w) :
    (w.pool.migrationProgress = 3 ↔ w.newPool ≠ none) ∧
    ∀ np, w.newPool = some np → FeesAsPromised w.cfg np ∧ OpensAt w.cfg np := by
  refine Reachable.induct (P := fun w => (w.pool.migrationProgress = 3 ↔ w.newPool ≠ none) ∧
    ∀ np, w.newPool = some np → FeesAsPromised w.cfg np ∧ OpensAt w.cfg np) ?_ ?_ h
  · rintro w ⟨p, env, a, c, -, -, hi⟩
    obtain ⟨_, _, _, _, _, -, -, -, -, -, -, -, -, e⟩ := initPool_ok hi
    rw [e]
    exact ⟨⟨fun h => (nomatch h), fun h => absurd rfl h⟩, fun np h => nomatch h⟩
  · intro w op w' hr ih hs
    by_cases hm : isMigrate op = true
    · obtain ⟨np, e, hf⟩ := migrate_fees hr hm hs
      refine ⟨⟨fun _ => by rw [e]; simp, fun _ => ?_⟩, fun np' e' => ?_⟩
      · exact (phase_eq (hr.step hs) .migrated).1 (migrated_of hr hm hs)
      · rw [step_cfg hs]
        rw [e, Option.some.injEq] at e'
        subst e'
        exact ⟨hf, migrate_price hr hm hs e⟩
    · have hm' : isMigrate op = false := by simpa using hm
      rw [(step_newPool hs hm').1, step_cfg hs]
      refine ⟨?_, ih.2⟩
      rw [← ih.1]
      rcases step_progress hr hs with ⟨a, rfl, h0, h⟩ | ⟨rfl, h1, h2⟩ | ⟨h, -⟩ | ⟨h, -⟩
      · constructor <;> intro _ <;> omega
      · constructor <;> intro _ <;> omega
      · exact absurd (isMigrate_iff.2 h) hm
      · rw [h]

/-- C54: exactly the migrated pools have asked DAMM for a pool, and it charges what the configuration promises. -/
theorem C54_fees {w : World} (h : Reachable w) :
    (phase w = some .migrated ↔ ∃ np, w.newPool = some np) ∧ ∀ np, w.newPool = some np → FeesAsPromised w.cfg np := by
  obtain ⟨h1, h2⟩ := newPool_ok h
  refine ⟨?_, fun np e => (h2 np e).1⟩
  rw [phase_eq h .migrated, ← Option.ne_none_iff_exists']
  exact h1

/-- C54: nothing done later changes the pool asked for or its positions. -/
theorem C54_final {w w' : World} {ops : List Op} (h : Reachable w) (hp : phase w = some .migrated) (hr : Run w ops w') :
    w'.newPool = w.newPool ∧ w'.positions = w.positions := by
  induction hr with
  | nil => exact ⟨rfl, rfl⟩
  | cons s r ih =>
    rename_i w w1 w2 op ops
    have hm : isMigrate op = false := by
      by_contra hm
      have := (C20_migrate_when h (by simpa using hm) s).2.1
      rw [hp] at this
      exact nomatch this
    obtain ⟨e1, e2⟩ := step_newPool s hm
    have h3 : w1.pool.migrationProgress = 3 := by
      rw [(newPool_ok (h.step s)).1, e1, ← (newPool_ok h).1]
      exact (phase_eq h .migrated).1 hp
    obtain ⟨i1, i2⟩ := ih (h.step s) ((phase_eq (h.step s) .migrated).2 h3)
    exact ⟨i1.trans e1, i2.trans e2⟩

/-- C55: the pool asked for starts at the migration price of the configuration. -/
theorem C55_price {w : World} (h : Reachable w) {np : NewPool} (hn : w.newPool = some np) : OpensAt w.cfg np :=
  ((newPool_ok h).2 np hn).2

/-! ### C22 -/

theorem follows_ok {v : LiqVesting} {amount now : Nat} {P : VestParams} (h : v.params amount now = .ok P) :
    Follows v amount now P := by
  obtain ⟨h1, h2, h3, rfl⟩ := LiqVesting.params_ok h
  have e : v.per amount = amount * (v.bpsPerPeriod * v.numPeriods) / 10000 / v.numPeriods := rfl
  refine ⟨?_, e, fun h => ?_, fun h => ?_⟩
  · simp only [LiqVesting.sched]
    split
    · rename_i h0; rw [h0]; omega
    · rw [Nat.mul_comm v.numPeriods]; omega
  · have h' : v.per amount ≠ 0 := by
      have : 0 < v.per amount := h
      omega
    simp only [LiqVesting.sched, if_neg h', and_self]
  · have h' : v.per amount = 0 := h
    simp only [LiqVesting.sched, if_pos h', and_self]

/-- C23: the schedule is the configured one. `g` is what was given to create_config for this side. -/
theorem C23_configured {p : ConfigParams} {env : ConfigEnv} {c : PoolConfig} (h : createConfig p env = .ok c) (s : Side)
    {g : LiqVestingParams} (hg : g = match s with | .partner => p.partnerVesting | .creator => p.creatorVesting)
    {total now : Nat} {P : VestParams} (hP : (vestingOf c s).params total now = .ok P) :
    (0 < P.perPeriod → P.numPeriods = g.numPeriods ∧ P.frequency = g.frequency ∧ P.cliffPoint = now + g.cliffDuration) ∧
    (P.perPeriod = 0 → P.numPeriods = 0 ∧ P.cliffUnlock = total ∧ P.cliffPoint = now + max g.cliffDuration 1) ∧
    P.perPeriod = total * (g.bpsPerPeriod * g.numPeriods) / 10000 / g.numPeriods := by
  have ha := createConfig_ok h
  have e : vestingOf c s = g.toInfo := by
    rw [hg]
    cases s
    · show c.partnerVesting = _; rw [ha.eq]; rfl
    · show c.creatorVesting = _; rw [ha.eq]; rfl
  rw [e] at hP
  obtain ⟨f1, f2, f3, f4⟩ := follows_ok hP
  refine ⟨f3, fun h0 => ?_, f2⟩
  obtain ⟨g1, -, g3⟩ := f4 h0
  exact ⟨g1, by rw [g1] at f1; omega, g3⟩

theorem C23_configured_example : createConfig Ex.paramsB Ex.env = .ok (Ex.configOf Ex.paramsB) ∧
    (vestingOf (Ex.configOf Ex.paramsB) .partner).params 1000003 5000 = .ok ⟨91400, 10000, 500003, 3600, 50⟩ ∧
    Ex.paramsB.partnerVesting = ⟨10, 100, 50, 86400, 3600⟩ :=
  ⟨Ex.acceptedB, by decide +kernel, rfl⟩

theorem locked_ok {i : LiqItem} {now : Nat} {lock : Nat × Option VestParams} (h : lockItem i now = .ok lock) (o l : Nat) :
    LockedAs i.vesting i.permanent i.vested now ⟨o, l, lock.1, lock.2⟩ := by
  simp only [lockItem, bind_ok, safeAdd_ok] at h
  obtain ⟨_, ⟨-, rfl⟩, h⟩ := h
  unfold LockedAs
  split at h
  · split at h
    · next hv =>
      simp only [bind_ok, ok_inj] at h
      obtain ⟨_, ⟨P, hP, rfl⟩, rfl⟩ := h
      exact ⟨rfl, fun h => by omega, fun _ => ⟨P, rfl, follows_ok hP⟩⟩
    · next hv =>
      rw [ok_bind, ok_inj] at h
      rw [← h]
      exact ⟨rfl, fun _ => rfl, fun h => absurd h hv⟩
  · rw [ok_inj] at h
    rw [← h]
    exact ⟨by dsimp only; omega, fun _ => rfl, fun h => by omega⟩

/-- The item planned for a side. -/
def itemOf (c : PoolConfig) (liq : Nat) (s : Side) : LiqItem :=
  ⟨(planned c liq s).unlocked, (planned c liq s).permanent, (planned c liq s).vested, permPct c s, vestingOf c s⟩

theorem distribution_planned {c : PoolConfig} {liq : Nat} {pa cr : LiqItem} (h : c.liquidityDistribution liq = .ok (pa, cr)) :
    pa = itemOf c liq .partner ∧ cr = itemOf c liq .creator ∧ (planned c liq .partner).total + (planned c liq .creator).total = liq := by
  simp only [PoolConfig.liquidityDistribution, bind_ok, mulDivU128_down, safeSub_ok, ok_inj, Prod.mk.injEq] at h
  obtain ⟨_, ⟨-, -, rfl, -⟩, _, ⟨-, -, rfl, -⟩, _, ⟨-, -, rfl, -⟩, _, ⟨-, -, rfl, -⟩, _, ⟨-, -, rfl, -⟩, _, ⟨h1, rfl⟩, _, ⟨h2, rfl⟩, _,
    ⟨h3, rfl⟩, _, ⟨h4, rfl⟩, _, ⟨h5, rfl⟩, rfl, rfl⟩ := h
  refine ⟨rfl, rfl, ?_⟩
  simp only [planned, Plan.total]
  omega

theorem total_ok {i : LiqItem} {t : Nat} (h : i.total = .ok t) : t = i.unlocked + i.permanent + i.vested := by
  simp only [LiqItem.total, bind_ok, safeAdd_ok] at h
  obtain ⟨_, ⟨-, rfl⟩, -, rfl⟩ := h
  rfl

theorem order_planned {w : World} {liq : Nat} {first second : Position}
    (h : orderPositions w.cfg.feeClaimer w.pool.creator (itemOf w.cfg liq .partner) (itemOf w.cfg liq .creator) =
      .ok (first, second)) :
    ∃ f : Side, first = ⟨ownerOf w f, itemOf w.cfg liq f⟩ ∧ second = ⟨ownerOf w f.other, itemOf w.cfg liq f.other⟩ ∧
      (planned w.cfg liq f.other).total ≤ (planned w.cfg liq f).total ∧
      (f = .partner → (planned w.cfg liq f.other).total < (planned w.cfg liq f).total) := by
  simp only [orderPositions, bind_ok, ok_inj] at h
  obtain ⟨tp, hp, tc, hc, h⟩ := h
  have ep : tp = (planned w.cfg liq .partner).total := total_ok hp
  have ec : tc = (planned w.cfg liq .creator).total := total_ok hc
  rw [ep, ec] at h
  split at h
  · next hlt =>
    simp only [Prod.mk.injEq] at h
    exact ⟨.partner, h.1.symm, h.2.symm, hlt.le, fun _ => hlt⟩
  · next hlt =>
    simp only [Prod.mk.injEq] at h
    exact ⟨.creator, h.1.symm, h.2.symm, Nat.le_of_not_lt hlt, fun h => nomatch h⟩

theorem adjust_redivided {i j : LiqItem} {x : Nat} (h : i.adjust x = .ok j) (p : Plan) (hp : p.unlocked = i.unlocked) :
    Redivided p i.permPct i.vesting.pct x j.permanent j.vested ∧ j.vesting = i.vesting := by
  refine ⟨?_, adjust_vesting h⟩
  simp only [LiqItem.adjust, bind_ok, safeAdd_ok] at h
  obtain ⟨_, ⟨-, rfl⟩, h⟩ := h
  unfold Redivided
  split at h
  · next h0 =>
    rw [ok_inj] at h
    rw [if_pos (by omega), ← h]
    exact ⟨rfl, rfl⟩
  · next h0 =>
    simp only [bind_ok, safeSub_ok, mulDivU128_down, ok_inj] at h
    obtain ⟨_, ⟨-, rfl⟩, _, ⟨-, -, rfl, -⟩, _, ⟨hle, rfl⟩, rfl⟩ := h
    rw [if_neg (by omega), hp]
    dsimp only
    exact ⟨rfl, Nat.sub_add_cancel hle⟩

theorem ceilDiv_mono {a b c : Nat} (h : a ≤ b) : ceilDiv a c ≤ ceilDiv b c :=
  Nat.div_le_div_right (by omega)

theorem largest_of {needs : Nat → Nat × Nat} {b q l : Nat} (hm : ∀ x y, x ≤ y → (needs x).1 ≤ (needs y).1 ∧ (needs x).2 ≤ (needs y).2)
    (h : Fits (needs l) b q ∧ ¬Fits (needs (l + 1)) b q) : Largest needs b q l := by
  refine ⟨h.1, fun y hy hf => h.2 ?_⟩
  have := hm (l + 1) y hy
  exact ⟨this.1.trans hf.1, this.2.trans hf.2⟩

theorem concentrated_mono (p : Nat) : ∀ x y, x ≤ y →
    (concentratedNeeds p x).1 ≤ (concentratedNeeds p y).1 ∧ (concentratedNeeds p x).2 ≤ (concentratedNeeds p y).2 :=
  fun _ _ h => ⟨ceilDiv_mono (Nat.mul_le_mul_right _ h), ceilDiv_mono (Nat.mul_le_mul_right _ h)⟩

theorem proRata_mono (b q l : Nat) : ∀ x y, x ≤ y →
    (proRataNeeds b q l x).1 ≤ (proRataNeeds b q l y).1 ∧ (proRataNeeds b q l x).2 ≤ (proRataNeeds b q l y).2 :=
  fun _ _ h => ⟨ceilDiv_mono (Nat.mul_le_mul_right _ h), ceilDiv_mono (Nat.mul_le_mul_right _ h)⟩

theorem info_bounds {h : Handler} {p b q price liq dead : Nat} (hi : initialPoolInformation h p b q = .ok (price, liq, dead)) :
    0 < price ∧ liq + dead < 2 ^ 128 := by
  cases h with
  | compounding =>
    simp only [initialPoolInformation, bind_ok, Prod.exists, safeSub_ok, ok_inj, Prod.mk.injEq] at hi
    obtain ⟨s, l, hsl, l0, ⟨hle, d1⟩, d0, d2, d3⟩ := hi
    obtain ⟨-, hs0, -, -⟩ := compoundingInitial_ok hsl
    obtain ⟨_, -, hl, -⟩ := compoundingInitial_full hsl
    rw [← d0, ← d2, ← d3, d1, Nat.sub_add_cancel hle]
    exact ⟨hs0, lt_pow_of hl⟩
  | concentrated =>
    simp only [initialPoolInformation, bind_ok, ok_inj, Prod.mk.injEq] at hi
    obtain ⟨l, hcl, rfl, rfl, rfl⟩ := hi
    obtain ⟨b1, -, b3, -⟩ := concentratedLiquidity_ok hcl
    exact ⟨by omega, lt_pow_of b3⟩

/-- C22: the positions a migration creates. The amounts left after the protocol's share give `liq` units of liquidity (with
`dead` units staying in the pool for good if it is a compounding one), less than `2^128` in all: they fit in the amounts, and `slack + 1` units more would
not. The larger planned share, the creator's if equal, becomes the first position, exactly as planned. What the first position
leaves of the amounts is the second one, the largest that fits, divided as planned; there is none if not a single unit fits. -/
theorem C22_positions {w w' : World} {a : V2Args} (h : Reachable w) (hs : w.step (.migrateV2 a) = .ok w') :
    ∃ (np : NewPool) (price base quote liq dead slack : Nat) (f : Side) (first : DammPosition),
      w'.newPool = some np ∧ opening np = some (price, (planned w.cfg liq f).total + dead) ∧
      0 < price ∧ liq + dead < 2 ^ 128 ∧
      quote = migrationQuote w - protocolCut (migrationQuote w) ∧ base + fees w .base ≤ vault w .base ∧
      (Compounds w.cfg → base = w.cfg.migrationBaseThreshold - protocolCut w.cfg.migrationBaseThreshold ∧
        dead = 100 * 2 ^ 64 ∧ slack = base ∧ Fits (compoundingNeeds price (liq + dead)) base quote ∧
        ¬Fits (compoundingNeeds price (liq + dead + slack + 1)) base quote) ∧
      (¬Compounds w.cfg → dead = 0 ∧ slack = 0 ∧ Fits (concentratedNeeds price (liq + dead)) base quote ∧
        ¬Fits (concentratedNeeds price (liq + dead + slack + 1)) base quote) ∧
      (planned w.cfg liq .partner).total + (planned w.cfg liq .creator).total = liq ∧
      (planned w.cfg liq f.other).total ≤ (planned w.cfg liq f).total ∧
      (f = .partner → (planned w.cfg liq f.other).total < (planned w.cfg liq f).total) ∧
      first.owner = ownerOf w f ∧ first.liquidity = (planned w.cfg liq f).total ∧
      LockedAs (vestingOf w.cfg f) (planned w.cfg liq f).permanent (planned w.cfg liq f).vested a.now first ∧
      ∃ l2, ((Compounds w.cfg → 0 < a.poolLiq) → Largest (if Compounds w.cfg then proRataNeeds a.poolBase a.poolQuote a.poolLiq
            else concentratedNeeds price) (base - a.base1) (quote - a.quote1) l2) ∧
        ((l2 = 0 ∧ w'.positions = [first]) ∨
         (0 < l2 ∧ ∃ second permanent vested, w'.positions = [first, second] ∧ second.owner = ownerOf w f.other ∧
          second.liquidity = l2 ∧
          Redivided (planned w.cfg liq f.other) (permPct w.cfg f.other) (vestingOf w.cfg f.other).pct l2 permanent vested ∧
          LockedAs (vestingOf w.cfg f.other) permanent vested a.now second)) := by
  obtain ⟨hd, m, burn, fee, price, liq, dead, pa, cr, first, second, liq2, out, rfl, h1, h2, h3, h4, hma, -, hi, hdist, hord,
      -, -, -, -, hl2, ⟨rest, t1, lock, hrest, ht1, hlock, -, hout, hcp, -⟩, -, -, -, -, e⟩ := migrateV2_ok hs
  obtain ⟨q1, q2, q3, -, q5⟩ := amounts_fees h h2 (by rw [h4]) hma
  obtain ⟨rfl, rfl, hsum⟩ := distribution_planned hdist
  obtain ⟨f, rfl, rfl, hle, hlt⟩ := order_planned hord
  have ht1' : t1 = (planned w.cfg liq f).total := total_ok ht1
  have hop : opening out.2 = some (price, t1 + dead) := by
    unfold createPoolV2 at hcp
    split at hcp
    · simp only [bind_ok, ok_inj] at hcp
      obtain ⟨_, -, _, -, eo⟩ := hcp
      rw [← eo]
      rfl
    · rw [ok_inj] at hcp
      rw [← hcp]
      rfl
  rw [e]
  refine ⟨out.2, price, m.exBase, m.exQuote, liq, dead, if Compounds w.cfg then m.exBase else 0, f,
    ⟨ownerOf w f, t1, lock.1, lock.2⟩, rfl, by rw [← ht1']; exact hop, (info_bounds hi).1, (info_bounds hi).2, by omega, by omega, fun hc => ?_, fun hc => ?_, hsum, hle, hlt,
    rfl, ht1', locked_ok hlock _ _, liq2, fun hpl => ?_, ?_⟩
  · have hh := (handler_eq h4).1 hc
    obtain ⟨q3, q4⟩ := q3 hh
    rw [hh] at hi
    obtain ⟨c1, c2, -⟩ := C44_compounding hi
    have hd : dead = 100 * 2 ^ 64 := by
      simp only [initialPoolInformation, bind_ok, Prod.exists, safeSub_ok, ok_inj, Prod.mk.injEq] at hi
      obtain ⟨_, _, _, _, _, _, _, rfl⟩ := hi
      rfl
    rw [if_pos hc]
    exact ⟨by omega, hd, rfl, c1, c2⟩
  · have hh := (handler_eq h4).2 hc
    rw [hh] at hi
    obtain ⟨-, c1, c2, c3⟩ := C44_concentrated hi
    rw [if_neg hc]
    rw [c1] at *
    exact ⟨rfl, rfl, c2, c3⟩
  · by_cases hc : Compounds w.cfg
    · rw [if_pos hc]
      rw [(handler_eq h4).1 hc] at hl2
      exact largest_of (proRata_mono _ _ _) (C44_second_compounding (hpl hc) hl2)
    · rw [if_neg hc]
      have hh := (handler_eq h4).2 hc
      rw [hh] at hl2 hi
      rw [(C44_concentrated hi).1]
      exact largest_of (concentrated_mono _) (C44_second_concentrated hl2)
  · dsimp only
    rw [hout]
    unfold secondPosition at hrest
    split at hrest
    · next hpos =>
      simp only [bind_ok, req_ok, ok_inj] at hrest
      obtain ⟨j, hj, _, -, lk, hlk, rfl⟩ := hrest
      obtain ⟨hr, hv⟩ := adjust_redivided hj (planned w.cfg liq f.other) rfl
      have := locked_ok hlk (ownerOf w f.other) liq2
      rw [hv] at this
      exact .inr ⟨hpos, _, j.permanent, j.vested, rfl, rfl, rfl, hr, this⟩
    · next hpos =>
      simp only [bind_ok, req_ok, ok_inj] at hrest
      obtain ⟨_, -, rfl⟩ := hrest
      exact .inl ⟨by omega, rfl⟩

end Props

namespace Ex

open Dbc Spec

/-- Configuration B with a fixed fee of 1% for the new pool, and with a fee falling with the market cap. -/
def paramsD : ConfigParams := { paramsB with migrationFeeOption := 2, migratedFee := ⟨0, 0, 0, 0, 0, 0, 0, 0, 0⟩ }
def paramsE : ConfigParams := { paramsB with migratedFee := ⟨1, 1, 100, 0, 4, 10, 50, 86400, 100⟩ }

/-- A DAMM v2 configuration with a fee of 1.005%. -/
def dammD : DammV2Config := ⟨0, 10050000, 0, 0, 0, MIN_SQRT_PRICE, MAX_SQRT_PRICE, 0, POOL_AUTHORITY, 1⟩

theorem typedD : paramsD.Typed := by
  constructor <;> first | decide | (intro pre post h; cases h; done) | (intro q hq; revert q hq; decide)
theorem typedE : paramsE.Typed := by
  constructor <;> first | decide | (intro pre post h; cases h; done) | (intro q hq; revert q hq; decide)

theorem genesisD : Genesis (worldOf paramsD) := ⟨_, env, initArgs 1, configOf paramsD, typedD, by decide +kernel, by decide +kernel⟩
theorem genesisE : Genesis (worldOf paramsE) := ⟨_, env, initArgs 1, configOf paramsE, typedE, by decide +kernel, by decide +kernel⟩

def migratedD : World := after paramsD (completing ++ [.migrateV2 { v2B with config := dammD }])
def migratedE : World := after paramsE (completing ++ [.migrateV2 { v2B with config := dammD }])

theorem reachMigratedD : Reachable migratedD :=
  ⟨_, _, genesisD, exec_run (ops := completing ++ [.migrateV2 { v2B with config := dammD }]) (by decide +kernel)⟩
theorem reachMigratedE : Reachable migratedE :=
  ⟨_, _, genesisE, exec_run (ops := completing ++ [.migrateV2 { v2B with config := dammD }]) (by decide +kernel)⟩

end Ex

namespace Props

open Dbc Spec

/-- Pools of all kinds that have migrated, with a further instruction that succeeds: DAMM v1 and v2 at fixed fees, a constant
custom fee with and without dynamic part, and a custom fee falling with the market cap. -/
theorem C54_example :
    (∃ d b q, Reachable Ex.migratedA ∧ Ex.migratedA.newPool = some (.v1 d b q) ∧ Ex.migratedA.cfg.migrationFeeOption = 2) ∧
    (∃ f s l, Reachable Ex.migratedB ∧ Ex.migratedB.newPool = some (.custom f 0 1 MIN_SQRT_PRICE MAX_SQRT_PRICE s l) ∧
      f.base = .time 0 10000000 0 0 0 ∧ f.dynamic ≠ none) ∧
    (∃ f s l, Reachable Ex.migratedC ∧ Ex.migratedC.newPool = some (.custom f 2 1 MIN_SQRT_PRICE MAX_SQRT_PRICE s l) ∧
      f.compoundingBps = 5000 ∧ f.dynamic = none) ∧
    (∃ d s l, Reachable Ex.migratedD ∧ Ex.migratedD.newPool = some (.fixed d s l)) ∧
    (∃ f s l, Reachable Ex.migratedE ∧ Ex.migratedE.newPool = some (.custom f 0 1 MIN_SQRT_PRICE MAX_SQRT_PRICE s l) ∧
      f.base = .marketCap 4 10000000 10 50 86400 100) ∧
    (phase Ex.migratedD = some .migrated ∧ ∃ w', Run Ex.migratedD [.creatorWithdrawSurplus 21] w') := by
  refine ⟨⟨Ex.dammA, 350859375000001, 8982000000000, Ex.reachMigratedA, by decide +kernel, by decide +kernel⟩,
    ⟨⟨.time 0 10000000 0 0 0, 0, some ⟨1, 1844674407370955, 10, 120, 5000, 14460000, 956⟩⟩, 2951479051793528258, 690369397963218545814256516212718, Ex.reachMigratedB, by decide +kernel, by decide +kernel, by decide +kernel⟩,
    ⟨⟨.time 0 10000000 0 0 0, 5000, none⟩, 2951479051793524473, 690369396959318724413035708179325, Ex.reachMigratedC, by decide +kernel, by decide +kernel, by decide +kernel⟩,
    ⟨Ex.dammD, 2951479051793528258, 690369397963218545814256516212718, Ex.reachMigratedD, by decide +kernel⟩,
    ⟨⟨.marketCap 4 10000000 10 50 86400 100, 0, some ⟨1, 1844674407370955, 10, 120, 5000, 14460000, 865⟩⟩, 2951479051793528258, 690369397963218545814256516212718, Ex.reachMigratedE, by decide +kernel, by decide +kernel⟩,
    (phase_eq Ex.reachMigratedD .migrated).2 (by decide +kernel),
    Ex.after Ex.paramsD (Ex.completing ++ [.migrateV2 { Ex.v2B with config := Ex.dammD }, .creatorWithdrawSurplus 21]),
    Ex.exec_run (by decide +kernel)⟩

/-- C54: the promised fee is kept only to within one basis point: a pool promised a fee of 1% migrates with one of 1.005%. -/
theorem C54_not_exact : Reachable Ex.migratedD ∧ promisedBps Ex.migratedD.cfg.migrationFeeOption = some 100 ∧
    ∃ d s l, Ex.migratedD.newPool = some (.fixed d s l) ∧ 100 * unit < d.cliffFeeNumerator * 10000 :=
  ⟨Ex.reachMigratedD, by decide +kernel, Ex.dammD, 2951479051793528258, 690369397963218545814256516212718, by decide +kernel, by decide⟩

/-- The opening prices of the example pools; that of the compounding one is not exactly the migration price. -/
theorem C55_example :
    (∃ np, Reachable Ex.migratedB ∧ Ex.migratedB.newPool = some np ∧ opening np = some (2951479051793528258, 690369397963218545814256516212718) ∧
      ¬Compounds Ex.migratedB.cfg ∧ Ex.migratedB.cfg.migrationSqrtPrice = 2951479051793528258) ∧
    (∃ np, Reachable Ex.migratedC ∧ Ex.migratedC.newPool = some np ∧ opening np = some (2951479051793524473, 690369396959318724413035708179325) ∧
      Compounds Ex.migratedC.cfg ∧ Ex.migratedC.cfg.migrationSqrtPrice = 2951479051793528258) :=
  ⟨⟨.custom ⟨.time 0 10000000 0 0 0, 0, some ⟨1, 1844674407370955, 10, 120, 5000, 14460000, 956⟩⟩ 0 1 MIN_SQRT_PRICE MAX_SQRT_PRICE 2951479051793528258 690369397963218545814256516212718, Ex.reachMigratedB, by decide +kernel, by decide +kernel, by decide +kernel, by decide +kernel⟩,
   ⟨.custom ⟨.time 0 10000000 0 0 0, 5000, none⟩ 2 1 MIN_SQRT_PRICE MAX_SQRT_PRICE 2951479051793524473 690369396959318724413035708179325, Ex.reachMigratedC, by decide +kernel, by decide +kernel, by decide +kernel, by decide +kernel⟩⟩

/-- Two positions, with permanently locked and vested parts, in a concentrated and in a compounding pool. -/
theorem C22_positions_example :
    (∃ w' p1 p2 v1 v2, Reachable Ex.readyB ∧ Ex.readyB.step (.migrateV2 Ex.v2B) = .ok w' ∧ w'.positions = [p1, p2] ∧
      ¬Compounds Ex.readyB.cfg ∧ 0 < p1.permanent ∧ p1.vesting = some v1 ∧ 0 < p2.permanent ∧ p2.vesting = some v2) ∧
    (∃ w' p1 p2, Reachable Ex.readyC ∧ Ex.readyC.step (.migrateV2 Ex.v2C) = .ok w' ∧ w'.positions = [p1, p2] ∧
      Compounds Ex.readyC.cfg ∧ 0 < Ex.v2C.poolLiq) :=
  ⟨⟨Ex.after Ex.paramsB (Ex.completing ++ [.migrateV2 Ex.v2B]),
    ⟨21, 690369397963218545814256516212718, 172592349490804636453564129053179,
      some ⟨2000000, 1150615663272030909690427527021, 115061566327203090969042752702138, 86400, 100⟩⟩,
    ⟨11, 460246265308697071725542550797486, 115061566327145444893728522696624,
      some ⟨2086400, 1150615663271454448937285226966, 57530783163572722446864261348324, 3600, 50⟩⟩,
    ⟨2000000, 1150615663272030909690427527021, 115061566327203090969042752702138, 86400, 100⟩,
    ⟨2086400, 1150615663271454448937285226966, 57530783163572722446864261348324, 3600, 50⟩,
    Ex.reachCompleteB, by decide +kernel, by decide +kernel, by decide +kernel, by decide +kernel, rfl, by decide +kernel, rfl⟩,
   ⟨Ex.after Ex.paramsC (Ex.completing ++ [.migrateV2 Ex.v2C]),
    ⟨21, 690369396957474050005664753017725, 172592349239368512501416188254430,
      some ⟨2000000, 1150615661595790083342774588362, 115061566159579008334277458836374, 86400, 100⟩⟩,
    ⟨11, 460246264681164622386247499486909, 115061566181003302858846290907168,
      some ⟨2086400, 1150615661810033028588462909071, 57530783090501651429423145453617, 3600, 50⟩⟩,
    Ex.reachCompleteC, by decide +kernel, by decide +kernel, by decide +kernel, by decide +kernel⟩⟩

end Props

import Verif.Model.ConfigEvent
import Verif.Props.Terms
import Verif.Props.Programs
import Verif.Props.ChainEx
import Verif.Lemmas.Audit

/-!
# C103: the log tells every configuration
-/

namespace Spec
open Dbc

/-- Liquidity vesting as stored and as asked for: the same numbers, and a flag that tells whether there is any. -/
def VestingTold (stored : LiqVesting) (asked : LiqVestingParams) : Prop :=
  stored.pct = asked.pct ∧ stored.bpsPerPeriod = asked.bpsPerPeriod ∧ stored.numPeriods = asked.numPeriods ∧
    stored.frequency = asked.frequency ∧ stored.cliffDuration = asked.cliffDuration ∧
    (stored.isInit = 0 ∧ asked = ⟨0, 0, 0, 0, 0⟩ ∨ stored.isInit = 1 ∧ asked ≠ ⟨0, 0, 0, 0, 0⟩)

/-- What the newer event of a configuration says is what the account holds. -/
structure Told (e : EvtCreateConfigV2) (c : PoolConfig) : Prop where
  quoteMint : c.quoteMint = e.quoteMint
  feeClaimer : c.feeClaimer = e.feeClaimer
  leftoverReceiver : c.leftoverReceiver = e.leftoverReceiver
  fees : c.fees = e.params.fees
  collectFeeMode : c.collectFeeMode = e.params.collectFeeMode
  migrationOption : c.migrationOption = e.params.migrationOption
  activationType : c.activationType = e.params.activationType
  tokenType : c.tokenType = e.params.tokenType
  tokenDecimal : c.tokenDecimal = e.params.tokenDecimal
  liquidity : c.partnerLiqPct = e.params.partnerLiqPct ∧ c.partnerPermLockedPct = e.params.partnerPermLockedPct ∧
    c.creatorLiqPct = e.params.creatorLiqPct ∧ c.creatorPermLockedPct = e.params.creatorPermLockedPct
  threshold : c.migrationQuoteThreshold = e.params.migrationQuoteThreshold
  start : c.sqrtStartPrice = e.params.sqrtStartPrice
  curve : stored c.curve = e.params.curve
  lockedVesting : c.lockedVesting = e.params.lockedVesting
  migrationFeeOption : c.migrationFeeOption = e.params.migrationFeeOption
  supply : c.fixedSupplyFlag = 1 ∧ e.params.tokenSupply = some (c.preMigrationSupply, c.postMigrationSupply) ∨
    c.fixedSupplyFlag = 0 ∧ e.params.tokenSupply = none
  creatorTradingFeePct : c.creatorTradingFeePct = e.params.creatorTradingFeePct
  tokenUpdateAuthority : c.tokenUpdateAuthority = e.params.tokenUpdateAuthority
  migrationFee : c.migrationFeePct = e.params.migrationFeePct ∧ c.creatorMigrationFeePct = e.params.creatorMigrationFeePct
  migratedFee : c.migratedFee = e.params.migratedFee
  poolCreationFee : c.poolCreationFee = e.params.poolCreationFee
  vesting : VestingTold c.partnerVesting e.params.partnerVesting ∧ VestingTold c.creatorVesting e.params.creatorVesting
  firstSwap : c.enableFirstSwapMinFee = 1 ∧ e.params.enableFirstSwapMinFee = true ∨
    c.enableFirstSwapMinFee = 0 ∧ e.params.enableFirstSwapMinFee = false

/-- What the older event says, including the computed amounts, is what the account holds. -/
structure ToldOld (e : EvtCreateConfig) (c : PoolConfig) : Prop where
  keys : c.quoteMint = e.quoteMint ∧ c.feeClaimer = e.feeClaimer ∧ c.leftoverReceiver = e.owner
  fees : c.fees = e.fees
  modes : c.collectFeeMode = e.collectFeeMode ∧ c.migrationOption = e.migrationOption ∧ c.activationType = e.activationType ∧
    c.tokenDecimal = e.tokenDecimal ∧ c.tokenType = e.tokenType ∧ c.migrationFeeOption = e.migrationFeeOption
  liquidity : c.partnerPermLockedPct = e.partnerPermLockedPct ∧ c.partnerLiqPct = e.partnerLiqPct ∧
    c.creatorPermLockedPct = e.creatorPermLockedPct ∧ c.creatorLiqPct = e.creatorLiqPct
  amounts : c.swapBaseAmount = e.swapBaseAmount ∧ c.migrationQuoteThreshold = e.migrationQuoteThreshold ∧
    c.migrationBaseThreshold = e.migrationBaseAmount
  supply : c.fixedSupplyFlag = e.fixedSupplyFlag ∧ c.preMigrationSupply = e.preMigrationSupply ∧
    c.postMigrationSupply = e.postMigrationSupply
  curve : c.sqrtStartPrice = e.sqrtStartPrice ∧ stored c.curve = e.curve
  lockedVesting : c.lockedVesting = e.lockedVesting

end Spec

namespace Props
open Dbc Spec

theorem vestingTold (p : LiqVestingParams) : VestingTold p.toInfo p := by
  refine ⟨rfl, rfl, rfl, rfl, rfl, ?_⟩
  by_cases h : p.isZero
  · refine .inl ⟨by simp only [LiqVestingParams.toInfo, h, if_true], ?_⟩
    simpa only [LiqVestingParams.isZero, decide_eq_true_eq] using h
  · refine .inr ⟨by simp only [LiqVestingParams.toInfo, h]; rfl, ?_⟩
    simpa only [LiqVestingParams.isZero, decide_eq_true_eq] using h

theorem events_told {p : ConfigParams} {env env' : ConfigEnv} {c : PoolConfig} (ht : p.Typed) (h : createConfig p env = .ok c)
    (hq : env'.quoteMint = env.quoteMint) (hf : env'.feeClaimer = env.feeClaimer)
    (hl : env'.leftoverReceiver = env.leftoverReceiver) :
    ∃ e1 e2, createConfigEvents p env' = .ok (e1, e2) ∧ ToldOld e1 c ∧ Told e2 c ∧
      e2 = ⟨env.quoteMint, env.feeClaimer, env.leftoverReceiver, p⟩ := by
  have ha := createConfig_ok h
  have hs : stored c.curve = p.curve := stored_of_good (createConfig_good ht h)
  obtain ⟨q, hq1, -⟩ := ha.amounts
  have hres : resolveTokenSupply p env' c.swapBaseAmount c.migrationBaseThreshold =
      .ok (c.fixedSupplyFlag, c.preMigrationSupply, c.postMigrationSupply) := by
    rw [← ha.supply]
    unfold resolveTokenSupply
    rw [hl]
  have hcast : castTo u64Max c.swapBaseAmount = .ok c.swapBaseAmount := castTo_ok.2 ⟨ha.swapMax, rfl⟩
  have hsup : c.fixedSupplyFlag = 1 ∧ p.tokenSupply = some (c.preMigrationSupply, c.postMigrationSupply) ∨
      c.fixedSupplyFlag = 0 ∧ p.tokenSupply = none := by
    have := ha.supply
    unfold resolveTokenSupply at this
    split at this
    · rename_i pre post e
      simp only [bind_ok, req_ok, ok_inj, Prod.mk.injEq] at this
      obtain ⟨_, _, _, _, _, _, _, _, _, _, f1, f2, f3⟩ := this
      exact .inl ⟨f1.symm, by rw [e, f2, f3]⟩
    · rename_i e
      simp only [ok_inj, Prod.mk.injEq] at this
      exact .inr ⟨this.1.symm, e⟩
  have g {α : Type} (f : PoolConfig → α) : f c = f (PoolConfig.init p env c.migrationSqrtPrice c.swapBaseAmount
      c.migrationBaseThreshold c.fixedSupplyFlag c.preMigrationSupply c.postMigrationSupply) := congrArg f ha.eq
  refine ⟨⟨env.quoteMint, env.feeClaimer, env.leftoverReceiver, p.fees, p.collectFeeMode, p.migrationOption, p.activationType,
    p.tokenDecimal, p.tokenType, p.partnerPermLockedPct, p.partnerLiqPct, p.creatorPermLockedPct, p.creatorLiqPct,
    c.swapBaseAmount, p.migrationQuoteThreshold, c.migrationBaseThreshold, p.sqrtStartPrice, p.lockedVesting,
    p.migrationFeeOption, c.fixedSupplyFlag, c.preMigrationSupply, c.postMigrationSupply, p.curve⟩, _, ?_, ?_, ?_, rfl⟩
  · simp only [createConfigEvents, bind_ok, Prod.exists, ok_inj]
    refine ⟨_, ha.price, _, ha.swap, _, hcast, _, _, hq1, _, _, _, hres, ?_⟩
    rw [hq, hf, hl]
  · exact
      { keys := ⟨g (·.quoteMint), g (·.feeClaimer), g (·.leftoverReceiver)⟩
        fees := g (·.fees)
        modes := ⟨g (·.collectFeeMode), g (·.migrationOption), g (·.activationType), g (·.tokenDecimal), g (·.tokenType),
          g (·.migrationFeeOption)⟩
        liquidity := ⟨g (·.partnerPermLockedPct), g (·.partnerLiqPct), g (·.creatorPermLockedPct), g (·.creatorLiqPct)⟩
        amounts := ⟨rfl, g (·.migrationQuoteThreshold), rfl⟩
        supply := ⟨rfl, rfl, rfl⟩
        curve := ⟨g (·.sqrtStartPrice), hs⟩
        lockedVesting := g (·.lockedVesting) }
  · exact
      { quoteMint := g (·.quoteMint)
        feeClaimer := g (·.feeClaimer)
        leftoverReceiver := g (·.leftoverReceiver)
        fees := g (·.fees)
        collectFeeMode := g (·.collectFeeMode)
        migrationOption := g (·.migrationOption)
        activationType := g (·.activationType)
        tokenType := g (·.tokenType)
        tokenDecimal := g (·.tokenDecimal)
        liquidity := ⟨g (·.partnerLiqPct), g (·.partnerPermLockedPct), g (·.creatorLiqPct), g (·.creatorPermLockedPct)⟩
        threshold := g (·.migrationQuoteThreshold)
        start := g (·.sqrtStartPrice)
        curve := hs
        lockedVesting := g (·.lockedVesting)
        migrationFeeOption := g (·.migrationFeeOption)
        supply := hsup
        creatorTradingFeePct := g (·.creatorTradingFeePct)
        tokenUpdateAuthority := g (·.tokenUpdateAuthority)
        migrationFee := ⟨g (·.migrationFeePct), g (·.creatorMigrationFeePct)⟩
        migratedFee := g (·.migratedFee)
        poolCreationFee := g (·.poolCreationFee)
        vesting := ⟨(g (·.partnerVesting)).symm ▸ vestingTold p.partnerVesting,
          (g (·.creatorVesting)).symm ▸ vestingTold p.creatorVesting⟩
        firstSwap := by
          have e : c.enableFirstSwapMinFee = if p.enableFirstSwapMinFee then 1 else 0 := g (·.enableFirstSwapMinFee)
          cases hb : p.enableFirstSwapMinFee <;> rw [hb] at e
          · exact .inr ⟨e, rfl⟩
          · exact .inl ⟨e, rfl⟩ }

/-- Everything logged about configurations in a history. -/
def configsLogged (ixs : List Instr) : List (Nat × EvtCreateConfig × EvtCreateConfigV2) := ixs.flatMap Instr.configLog

/-- The two events of a configuration, the time and mint under which it was made, and what is in the account. -/
theorem configs_logged {K : Keys} {admins : List Nat} {ixs : List Instr} {s : Chain} (h : ChainRun K (Chain.empty admins) ixs s)
    (k : Nat) :
    (s.configs k = none ∧ (configsLogged ixs).filter (fun e => e.1 == k) = []) ∨
    ∃ c e1 e2 env, s.configs k = some c ∧ (configsLogged ixs).filter (fun e => e.1 == k) = [(k, e1, e2)] ∧
      ToldOld e1 c ∧ Told e2 c ∧ createConfig e2.params env = .ok c ∧ env.leftoverReceiver = e2.leftoverReceiver := by
  generalize hs0 : Chain.empty admins = s0 at h
  induction h with
  | nil =>
    subst hs0
    exact .inl ⟨rfl, rfl⟩
  | @snoc s1 s2 ixs ix hr ht hx ih =>
    have hlog : configsLogged (ixs ++ [ix]) = configsLogged ixs ++ ix.configLog := by
      simp [configsLogged]
    rw [hlog, List.filter_append]
    by_cases hix : ∃ k q f r n p, ix = .createConfig k q f r n p
    · obtain ⟨k', q, f, r, now, p, rfl⟩ := hix
      simp only [Chain.exec, Chain.createConfig, bind_ok, req_ok, need_ok, ok_inj] at hx
      obtain ⟨_, hfree, m, hm, b, _, c, hcc, rfl⟩ := hx
      obtain ⟨e1, e2, he, t1, t2, e2eq⟩ := events_told
        (env' := { quoteSupported := true, quoteIsSpl := true, now := now, quoteMint := q, feeClaimer := f, leftoverReceiver := r })
        ht hcc rfl rfl rfl
      have hone : (Instr.createConfig k' q f r now p).configLog = [(k', e1, e2)] := by
        simp only [Instr.configLog, he]
      rw [hone]
      by_cases e : k' = k
      · subst e
        rcases ih with ⟨-, h2⟩ | ⟨c', _, _, _, h1, _⟩
        · refine .inr ⟨c, e1, e2, ⟨b, decide (m.program = 0), now, q, f, r⟩, put_same _ _ _, ?_, t1, t2, ?_, ?_⟩
          · rw [h2]
            simp
          · rw [e2eq]
            exact hcc
          · rw [e2eq]
        · rw [hfree] at h1
          cases h1
      · have hnil : [(k', e1, e2)].filter (fun e => e.1 == k) = [] := by simp [e]
        rw [hnil, List.append_nil]
        dsimp only
        rw [put_ne _ _ (Ne.symm e)]
        exact ih
    · have hsame := exec_configs hx (fun k q f r n p e => hix ⟨k, q, f, r, n, p, e⟩)
      rw [SameConfigs] at hsame
      have hnil : ix.configLog = [] := by
        cases ix <;> first | rfl | exact absurd ⟨_, _, _, _, _, _, rfl⟩ hix
      rw [hnil, hsame, List.filter_nil, List.append_nil]
      exact ih

/-- C103. At every point of every history of the chain, a configuration account exists exactly if the log names it; the log then
has exactly one pair of events on it, and every number and key in them is what the account holds, to this day. -/
theorem C103_told {K : Keys} {admins : List Nat} {ixs : List Instr} {s : Chain} (h : ChainRun K (Chain.empty admins) ixs s)
    (k : Nat) :
    (s.configs k = none ∧ ∀ e ∈ configsLogged ixs, e.1 ≠ k) ∨
    ∃ c e1 e2, s.configs k = some c ∧ (configsLogged ixs).filter (fun e => e.1 == k) = [(k, e1, e2)] ∧
      ToldOld e1 c ∧ Told e2 c := by
  rcases configs_logged h k with ⟨h1, h2⟩ | ⟨c, e1, e2, _, h1, h2, h3, h4, -⟩
  · refine .inl ⟨h1, fun e he hk => ?_⟩
    have := List.filter_eq_nil_iff.1 h2 e he
    exact this (by simp [hk])
  · exact .inr ⟨c, e1, e2, h1, h2, h3, h4⟩

/-- C103, nothing else matters. Two configurations with the same newer event, made by anybody at any two times, are the same: what
the account holds beyond the parameters, such as the migration price and the amounts, depends on nothing but the event. -/
theorem C103_determined {K : Keys} {admins : List Nat} {ixs : List Instr} {s : Chain} (h : ChainRun K (Chain.empty admins) ixs s)
    {k k' : Nat} {e1 e1' : EvtCreateConfig} {e2 : EvtCreateConfigV2} (h1 : (k, e1, e2) ∈ configsLogged ixs)
    (h2 : (k', e1', e2) ∈ configsLogged ixs) : ∃ c, s.configs k = some c ∧ s.configs k' = some c ∧ e1 = e1' := by
  have find : ∀ {k : Nat} {e1 : EvtCreateConfig}, (k, e1, e2) ∈ configsLogged ixs → ∃ c env, s.configs k = some c ∧ ToldOld e1 c ∧
      Told e2 c ∧ createConfig e2.params env = .ok c ∧ env.leftoverReceiver = e2.leftoverReceiver := by
    intro k e1 hm
    have hf : (k, e1, e2) ∈ (configsLogged ixs).filter (fun e => e.1 == k) := List.mem_filter.2 ⟨hm, by simp⟩
    rcases configs_logged h k with ⟨_, g⟩ | ⟨c, d1, d2, env, g1, g2, g3, g4, g5, g6⟩
    · rw [g] at hf
      cases hf
    · rw [g2, List.mem_singleton] at hf
      obtain ⟨rfl, rfl⟩ := Prod.mk.injEq .. ▸ (Prod.mk.injEq .. ▸ hf).2
      exact ⟨c, env, g1, g3, g4, g5, g6⟩
  obtain ⟨c, env, a1, a2, a3, a4, a5⟩ := find h1
  obtain ⟨c', env', b1, b2, b3, b4, b5⟩ := find h2
  have hA := createConfig_ok a4
  have hB := createConfig_ok b4
  have p1 : c.migrationSqrtPrice = c'.migrationSqrtPrice := by
    have := hA.price.symm.trans hB.price
    exact Except.ok.inj this
  have p2 : c.swapBaseAmount = c'.swapBaseAmount := by
    have := hA.swap
    rw [p1] at this
    exact Except.ok.inj (this.symm.trans hB.swap)
  have p3 : c.migrationBaseThreshold = c'.migrationBaseThreshold := by
    obtain ⟨q, hq, -⟩ := hA.amounts
    obtain ⟨q', hq', -⟩ := hB.amounts
    rw [p1] at hq
    exact congrArg Prod.fst (Except.ok.inj (hq.symm.trans hq'))
  have p4 : (c.fixedSupplyFlag, c.preMigrationSupply, c.postMigrationSupply) =
      (c'.fixedSupplyFlag, c'.preMigrationSupply, c'.postMigrationSupply) := by
    have u := hA.supply
    have v := hB.supply
    rw [p2, p3] at u
    have : resolveTokenSupply e2.params env c'.swapBaseAmount c'.migrationBaseThreshold =
        resolveTokenSupply e2.params env' c'.swapBaseAmount c'.migrationBaseThreshold := by
      unfold resolveTokenSupply
      rw [a5, b5]
    exact Except.ok.inj (u.symm.trans (this.trans v))
  have p5 : c.quoteTokenFlag = c'.quoteTokenFlag := by
    have ar : Arises K s := ⟨admins, ixs, h⟩
    obtain ⟨n, r1, r2⟩ := (C88_config ar a1).quote
    obtain ⟨n', r3, r4⟩ := (C88_config ar b1).quote
    rw [b3.quoteMint, ← a3.quoteMint] at r3
    have : n = n' := Option.some.inj (r1.symm.trans r3)
    omega
  have hc : c = c' := by
    have k1 : env.quoteMint = env'.quoteMint := (congrArg PoolConfig.quoteMint hA.eq).symm.trans
      (a3.quoteMint.trans (b3.quoteMint.symm.trans (congrArg PoolConfig.quoteMint hB.eq)))
    have k2 : env.feeClaimer = env'.feeClaimer := (congrArg PoolConfig.feeClaimer hA.eq).symm.trans
      (a3.feeClaimer.trans (b3.feeClaimer.symm.trans (congrArg PoolConfig.feeClaimer hB.eq)))
    have k3 : env.leftoverReceiver = env'.leftoverReceiver := a5.trans b5.symm
    have k4 : (if env.quoteIsSpl then 0 else 1) = (if env'.quoteIsSpl then 0 else 1) :=
      (congrArg PoolConfig.quoteTokenFlag hA.eq).symm.trans (p5.trans (congrArg PoolConfig.quoteTokenFlag hB.eq))
    obtain ⟨p6, p7⟩ := Prod.mk.inj p4
    obtain ⟨p7, p8⟩ := Prod.mk.inj p7
    refine hA.eq.trans (Eq.trans ?_ hB.eq.symm)
    rw [p1, p2, p3, p6, p7, p8]
    simp only [PoolConfig.init, k1, k2, k3, k4]
  subst hc
  refine ⟨c, a1, b1, ?_⟩
  cases e1
  cases e1'
  simp only [EvtCreateConfig.mk.injEq]
  exact ⟨a2.keys.1.symm.trans b2.keys.1,
    a2.keys.2.1.symm.trans b2.keys.2.1,
    a2.keys.2.2.symm.trans b2.keys.2.2,
    a2.fees.symm.trans b2.fees,
    a2.modes.1.symm.trans b2.modes.1,
    a2.modes.2.1.symm.trans b2.modes.2.1,
    a2.modes.2.2.1.symm.trans b2.modes.2.2.1,
    a2.modes.2.2.2.1.symm.trans b2.modes.2.2.2.1,
    a2.modes.2.2.2.2.1.symm.trans b2.modes.2.2.2.2.1,
    a2.liquidity.1.symm.trans b2.liquidity.1,
    a2.liquidity.2.1.symm.trans b2.liquidity.2.1,
    a2.liquidity.2.2.1.symm.trans b2.liquidity.2.2.1,
    a2.liquidity.2.2.2.symm.trans b2.liquidity.2.2.2,
    a2.amounts.1.symm.trans b2.amounts.1,
    a2.amounts.2.1.symm.trans b2.amounts.2.1,
    a2.amounts.2.2.symm.trans b2.amounts.2.2,
    a2.curve.1.symm.trans b2.curve.1,
    a2.lockedVesting.symm.trans b2.lockedVesting,
    a2.modes.2.2.2.2.2.symm.trans b2.modes.2.2.2.2.2,
    a2.supply.1.symm.trans b2.supply.1,
    a2.supply.2.1.symm.trans b2.supply.2.1,
    a2.supply.2.2.symm.trans b2.supply.2.2,
    a2.curve.2.symm.trans b2.curve.2⟩

namespace Ex

/-- A quote mint and three configurations: A twice, by the same partner a thousand seconds apart, and B. -/
def threeConfigs : List Instr :=
  [.newMint 7 0 [] (some 60), .createConfig 80 7 11 12 1000000 _root_.Ex.paramsA,
   .createConfig 81 7 11 12 1000000 _root_.Ex.paramsB, .createConfig 82 7 11 12 1001000 _root_.Ex.paramsA]

theorem three_typed : ∀ ix ∈ threeConfigs, ix.Typed := by
  simp only [threeConfigs, List.forall_mem_cons]
  exact ⟨trivial, _root_.Ex.typedA, _root_.Ex.typedB, _root_.Ex.typedA, fun _ h => by cases h⟩

theorem three_run : ChainRun _root_.Ex.keys (Chain.empty [40]) threeConfigs (_root_.Ex.chainOf threeConfigs) :=
  _root_.Ex.chainRun (by decide +kernel) three_typed

end Ex

/-- Three configurations are made and logged. The first and the last have the same newer event and are alike, older event and all,
though their addresses and times differ; the second differs. -/
theorem C103_example :
    ChainRun _root_.Ex.keys (Chain.empty [40]) Ex.threeConfigs (_root_.Ex.chainOf Ex.threeConfigs) ∧
    (configsLogged Ex.threeConfigs).map (·.1) = [80, 81, 82] ∧
    (∃ e1 e1' e2, (80, e1, e2) ∈ configsLogged Ex.threeConfigs ∧ (82, e1', e2) ∈ configsLogged Ex.threeConfigs ∧ e1 = e1') ∧
    (_root_.Ex.chainOf Ex.threeConfigs).configs 80 = (_root_.Ex.chainOf Ex.threeConfigs).configs 82 ∧
    (_root_.Ex.chainOf Ex.threeConfigs).configs 80 ≠ (_root_.Ex.chainOf Ex.threeConfigs).configs 81 ∧
    (_root_.Ex.chainOf Ex.threeConfigs).configs 83 = none := by
  refine ⟨Ex.three_run, by decide +kernel, ?_, by decide +kernel, by decide +kernel, by decide +kernel⟩
  have h : (configsLogged Ex.threeConfigs)[0]?.map (·.2) = (configsLogged Ex.threeConfigs)[2]?.map (·.2) ∧
      (configsLogged Ex.threeConfigs)[0]?.map (·.1) = some 80 ∧ (configsLogged Ex.threeConfigs)[2]?.map (·.1) = some 82 := by
    decide +kernel
  cases h0 : (configsLogged Ex.threeConfigs)[0]? with
  | none => rw [h0] at h; exact absurd h.2.1 (by simp)
  | some a =>
    cases h2 : (configsLogged Ex.threeConfigs)[2]? with
    | none => rw [h2] at h; exact absurd h.2.2 (by simp)
    | some b =>
      rw [h0, h2] at h
      simp only [Option.map_some, Option.some.injEq] at h
      obtain ⟨h3, h4, h5⟩ := h
      have m0 := List.mem_of_getElem? h0
      have m2 := List.mem_of_getElem? h2
      obtain ⟨ka, a1, a2⟩ := a
      obtain ⟨kb, b1, b2⟩ := b
      simp only at h3 h4 h5
      cases h3
      subst h4 h5
      exact ⟨_, _, _, m0, m2, rfl⟩

end Props

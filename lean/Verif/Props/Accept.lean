import Verif.Lemmas.AcceptPool
import Verif.Props.Examples

/-!
# Which configurations are accepted: C89
-/

namespace Props
open Dbc Spec

theorem Lawful.relax {s t : ℚ} {p : ConfigParams} {env : ConfigEnv} (h : Lawful s p env) (hb : BaseFeeRules t p)
    (ht : TargetRules t p env) : Lawful t p env :=
  { h with baseFee := hb, target := ht }

theorem target_vesting {s : ℚ} {p : ConfigParams} {env : ConfigEnv} (h : TargetRules s p env) :
    (NoVesting p.partnerVesting ∨ VestRules p.partnerVesting) ∧ (NoVesting p.creatorVesting ∨ VestRules p.creatorVesting) ∧
    p.migratedFee.collectFeeMode ≤ 2 := by
  rcases h with ⟨_, _, _, _, h4, h5, h6⟩ | ⟨_, _, h4, h5, h6⟩
  · unfold NoMigratedFee at h4
    exact ⟨.inl h5, .inl h6, by rw [h4]; exact Nat.zero_le _⟩
  · refine ⟨h5, h6, ?_⟩
    rcases h4 with ⟨_, h4⟩ | ⟨_, h4⟩
    · unfold NoMigratedFee at h4
      rw [h4]; exact Nat.zero_le _
    · exact h4.2.2.1

/-- The migration price is above the start of the curve. -/
theorem price_above {p : ConfigParams} {P : Nat} (hc : CurveRules p) (h0 : 0 < p.migrationQuoteThreshold)
    (h : IsMigrationPrice p P) : MIN_SQRT_PRICE < P := by
  obtain ⟨c1, _, _, _, c5, _⟩ := validateCurve_ok (curve_iff.2 hc)
  by_contra hn
  have h1 := quoteToUp_start c5 (P := P) (by omega)
  rw [h.2.2.1] at h1
  omega

/-- C89: parameters that follow the rules, with a rounding allowance of two billionths on exponentially falling fees, are
accepted. The clock must be at least two years from the end of its 64-bit range. -/
theorem C89_enough {p : ConfigParams} {env : ConfigEnv} (ht : p.Typed) (hnow : env.now + 63072000 < 2 ^ 64)
    (h : Lawful 2 p env) : ∃ c, createConfig p env = .ok c := by
  obtain ⟨hv1, hv2, hm⟩ := target_vesting h.target
  have hsum := h.shares
  have hu : u64Max = 2 ^ 64 - 1 := rfl
  have hval : p.validate env = .ok () := by
    obtain ⟨act, hact⟩ : ∃ a, ActivationType.tryFrom p.activationType = some a := by
      have := h.activation
      rcases (by omega : p.activationType = 0 ∨ p.activationType = 1) with e | e <;> rw [e] <;> exact ⟨_, rfl⟩
    have hcol : (CollectFeeMode.tryFrom p.collectFeeMode).isSome := by
      have := h.collect
      rcases (by omega : p.collectFeeMode = 0 ∨ p.collectFeeMode = 1) with e | e <;> rw [e] <;> rfl
    have hfees : poolFeesValidate p.fees p.collectFeeMode act = .ok () := by
      unfold poolFeesValidate
      rw [baseFee_enough hact ht h.baseFee, ok_bind]
      exact dynFee_iff.2 h.dynFee
    have hmf : validateMigrationFee p.migrationFeePct p.creatorMigrationFeePct = .ok () := by
      have a := h.migrationFee
      have b := h.migrationCreator
      unfold validateMigrationFee
      rw [(req_ok (u := ())).2 (show p.migrationFeePct ≤ MAX_MIGRATION_FEE_PERCENTAGE from a), ok_bind]
      split
      · rename_i hz
        rw [if_pos hz] at b
        exact (req_ok (u := ())).2 (by omega)
      · rename_i hz
        rw [if_neg hz] at b
        exact (req_ok (u := ())).2 b
    have hpc : validatePercentages p = .ok () := by
      have : (100 : Nat) ≤ u8Max := by decide
      simp only [validatePercentages, bind_ok, safeAdd_ok, req_ok]
      exact ⟨_, ⟨by omega, rfl⟩, _, ⟨by omega, rfl⟩, _, ⟨by omega, rfl⟩, _, ⟨by omega, rfl⟩, _, ⟨by omega, rfl⟩, hsum⟩
    have hcf : (if 0 < p.poolCreationFee then
        req (MIN_POOL_CREATION_FEE ≤ p.poolCreationFee ∧ p.poolCreationFee ≤ MAX_POOL_CREATION_FEE) .invalidPoolCreationFee
        else .ok ()) = .ok () := by
      rcases h.creationFee with hz | hz
      · rw [if_neg (by omega)]
      · split
        · exact (req_ok (u := ())).2 hz
        · rfl
    have hopt : p.migrationOption ≤ 1 ∧ p.migrationFeeOption ≤ 6 ∧ p.tokenType ≤ 1 := by
      rcases h.target with ⟨a, b, _, c, _⟩ | ⟨a, b, c, _⟩
      · omega
      · rcases c with ⟨c, _⟩ | ⟨c, _⟩ <;> omega
    unfold ConfigParams.validate
    rw [(req_ok (u := ())).2 h.quoteMint, ok_bind, hact]
    simp only [bind_ok, req_ok]
    exact ⟨(), hfees, (), h.creatorFee, (), hmf, (), hcol, (), hopt.1, (), hopt.2.1, (), hopt.2.2, (),
      target_enough ht (by omega) (by omega) hnow h.target, (), h.authority, (), h.decimals, (), hpc, (), h.threshold, (),
      lockedVesting_iff.2 h.locked, (), hcf, curve_iff.2 h.curve⟩
  obtain ⟨P, hP, hmax, hs0, hs1, hb0, hb1, hl, hso, hsup⟩ := h.price
  have hlo := price_above h.curve h.threshold hP
  have hmax' : P < MAX_SQRT_PRICE := hmax
  obtain ⟨⟨flag, pre, post⟩, hr⟩ := (resolveTokenSupply_iff (env := env) ht h.curve h.locked (P := P) (by omega)).2 hsup
  obtain ⟨b, hb, hbl⟩ := (dayLock_iff (c := PoolConfig.init p env P (baseToUp (segs p.sqrtStartPrice p.curve) P) (poolBase p P)
    flag pre post) ht rfl rfl rfl rfl hv1 hv2 hsum).2 h.dayLock
  unfold createConfig
  rw [hval, ok_bind, (migrationPrice_iff ht h.curve).2 hP, ok_bind, (req_ok (u := ())).2 hmax', ok_bind,
    baseTokenForSwap_eq ht h.curve hP.1 hmax'.le, ok_bind, castTo_ok.2 ⟨by omega, rfl⟩, ok_bind, (req_ok (u := ())).2 hm, ok_bind,
    (amounts_iff ht h.migrationFee hlo hmax').2 ⟨rfl, rfl, hb1, hl⟩, ok_bind]
  dsimp only
  rw [(req_ok (u := ())).2 ⟨hb0, hs0⟩, ok_bind, (compounding_iff ht hmax' (by omega)).2 hso, ok_bind, hr, ok_bind]
  dsimp only
  rw [hb, ok_bind, (req_ok (u := ())).2 hbl, ok_bind]
  exact ⟨_, rfl⟩

/-- C89: parameters that are accepted follow the rules, with the same allowance the other way. -/
theorem C89_needed {p : ConfigParams} {env : ConfigEnv} {c : PoolConfig} (ht : p.Typed) (hnow : env.now + 63072000 < 2 ^ 64)
    (h : createConfig p env = .ok c) : Lawful (-2) p env := by
  have ha := createConfig_ok h
  have hv := validate_ok ha.validated
  have hsum := hv.pct
  have hu : u64Max = 2 ^ 64 - 1 := rfl
  have hcurve := curve_iff.1 hv.curve
  have hlock := lockedVesting_iff.1 hv.vesting
  have htar := target_needed ht (by omega) (by omega) hnow hv.option hv.feeOption hv.tokenType hv.optionOk
  obtain ⟨hv1, hv2, hm⟩ := target_vesting htar
  obtain ⟨act, hact, hfees⟩ := hv.act
  simp only [poolFeesValidate, bind_ok] at hfees
  obtain ⟨_, hbase, hdyn⟩ := hfees
  have hP := (migrationPrice_iff ht hcurve).1 ha.price
  have hlo := price_above hcurve hv.threshold hP
  have hmax := ha.priceLt
  have hsw := ha.swap
  rw [baseTokenForSwap_eq ht hcurve hP.1 hmax.le, ok_inj] at hsw
  obtain ⟨q, hq, hcomp⟩ := ha.amounts
  obtain ⟨eb, eq, hb1, hl⟩ := (amounts_iff ht hv.migFee hlo hmax).1 hq
  have hs := ha.swapMax
  have hs0 := ha.swapPos
  have hb0 := ha.basePos
  have hsup := ha.supply
  rw [← hsw] at hs hs0 hsup
  rw [eb] at hb0 hcomp hsup
  rw [eq] at hcomp
  refine
    { quoteMint := hv.quoteOk
      activation := ?_
      collect := ?_
      authority := hv.authority
      decimals := hv.decimals
      baseFee := baseFee_needed hact ht hbase
      dynFee := dynFee_iff.1 hdyn
      creatorFee := hv.creatorPct
      migrationFee := hv.migFee
      migrationCreator := ?_
      creationFee := hv.creationFee
      target := htar
      shares := hsum
      threshold := hv.threshold
      locked := hlock
      curve := hcurve
      dayLock := (dayLock_iff (c := c) ht (by rw [ha.eq]; rfl) (by rw [ha.eq]; rfl) (by rw [ha.eq]; rfl) (by rw [ha.eq]; rfl) hv1 hv2
        hsum).1 ha.locked
      price := ⟨_, hP, hmax, hs0, by omega, hb0, hb1, hl, (compounding_iff ht hmax (by omega)).1 hcomp,
        (resolveTokenSupply_iff ht hcurve hlock hs).1 ⟨_, hsup⟩⟩ }
  · unfold ActivationType.tryFrom at hact
    split at hact
    · omega
    · omega
    · cases hact
  · have hc := hv.collect
    unfold CollectFeeMode.tryFrom at hc
    split at hc
    · omega
    · omega
    · cases hc
  · have a := hv.migCreator
    have b := hv.migZero
    split
    · rename_i hz; rw [b hz]
    · exact a

/-- No fee of these parameters falls exponentially. -/
def NoExponential (p : ConfigParams) : Prop := p.fees.base.mode ≠ 1 ∧ p.migratedFee.baseFeeMode ≠ 4

/-- Without exponentially falling fees the allowance does not matter. -/
theorem slack_irrelevant {p : ConfigParams} {env : ConfigEnv} (s t : ℚ) (he : NoExponential p) (h : Lawful s p env) :
    Lawful t p env := by
  refine Lawful.relax h ?_ ?_
  · obtain ⟨h1, h2, h3 | h3 | h3⟩ := h.baseFee
    · exact ⟨h1, h2, .inl h3⟩
    · exact absurd h3.1 he.1
    · exact ⟨h1, h2, .inr (.inr h3)⟩
  · rcases h.target with h1 | ⟨h1, h2, h3, h4⟩
    · exact .inl h1
    · refine .inr ⟨h1, h2, ?_, h4⟩
      rcases h3 with h3 | ⟨h3, k1, k2, k3, k4, k5, k6⟩
      · exact .inl h3
      · refine .inr ⟨h3, k1, k2, k3, k4, k5, ?_⟩
        rcases k6 with k6 | ⟨a1, a2, a3, a4, a5 | a5⟩
        · exact .inl k6
        · exact .inr ⟨a1, a2, a3, a4, .inl a5⟩
        · exact absurd a5.1 he.2

/-- C89: without exponentially falling fees, exactly the parameters that follow the rules are accepted. -/
theorem C89_exact {p : ConfigParams} {env : ConfigEnv} (ht : p.Typed) (hnow : env.now + 63072000 < 2 ^ 64)
    (he : NoExponential p) : (∃ c, createConfig p env = .ok c) ↔ Lawful 0 p env :=
  ⟨fun ⟨_, h⟩ => slack_irrelevant (-2) 0 he (C89_needed ht hnow h), fun h => C89_enough ht hnow (slack_irrelevant 0 2 he h)⟩

/-- C89, a surprise: a rate limiter with steps that starts at the highest rate of 99% is always refused, unless its block is
the largest amount there is. The fee on the largest amount is rounded up to a whole unit and then exceeds 99%. -/
theorem C89_limiter_refused {p : ConfigParams} {env : ConfigEnv} (ht : p.Typed) (hnow : env.now + 63072000 < 2 ^ 64)
    (hm : p.fees.base.mode = 2) (hc : p.fees.base.cliff = 990000000) (hs : 0 < p.fees.base.first)
    (hx : p.fees.base.third ≠ 2 ^ 64 - 1) : ∀ c, createConfig p env ≠ .ok c := by
  intro c h
  obtain ⟨_, _, hr⟩ := (C89_needed ht hnow h).baseFee
  rcases hr with hr | hr | ⟨_, _, _, hr⟩
  · rw [hr.1] at hm; cases hm
  · rw [hr.1] at hm; cases hm
  · obtain ⟨_, _, hfit⟩ := hr hs
    rcases hfit with hfit | hfit
    · exact hx hfit
    · rw [hc] at hfit
      have hge := blockFee_ge p.fees.base.third 990000000 (p.fees.base.first * 100000) (2 ^ 64 - 1) (by decide)
      unfold ceilDiv at hfit
      omega

namespace Ex

/-- Parameters that start a rate limiter at 99%, otherwise those of an accepted configuration. -/
def params99 : ConfigParams :=
  { _root_.Ex.paramsB with fees := ⟨⟨990000000, 100, 1000, 1000000000, 2⟩, ⟨0, 0, 0, 0, 0, 0, 0, 0⟩⟩ }

end Ex

/-- C89: the rules are met by a falling fee towards the first AMM, a rate limiter towards the second, and, with the allowance,
by an exponentially falling fee. One starting the rate limiter at 99% breaks them, and starting it just below does not. -/
theorem C89_example : Lawful 0 Ex.paramsA _root_.Ex.env ∧ Lawful 0 _root_.Ex.paramsB _root_.Ex.env ∧
    Lawful 2 _root_.Ex.paramsC _root_.Ex.env ∧ (∀ c, createConfig Ex.params99 _root_.Ex.env ≠ .ok c) ∧
    ∃ c, createConfig { Ex.params99 with fees := ⟨⟨989999999, 100, 1000, 1000000000, 2⟩, ⟨0, 0, 0, 0, 0, 0, 0, 0⟩⟩ } _root_.Ex.env =
      .ok c := by
  refine ⟨(C89_exact _root_.Ex.typedA (by decide) ⟨by decide, by decide⟩).1 ⟨_, _root_.Ex.acceptedA⟩,
    (C89_exact _root_.Ex.typedB (by decide) ⟨by decide, by decide⟩).1 ⟨_, _root_.Ex.acceptedB⟩, ?_, ?_, ?_⟩
  · have h := C89_needed _root_.Ex.typedC (by decide) _root_.Ex.acceptedC
    refine Lawful.relax h ?_ ?_
    · exact ⟨by decide, .inr ⟨by decide, by decide, by decide⟩, .inr (.inl ⟨rfl, by decide, by
        norm_num [_root_.Ex.paramsC]⟩)⟩
    · refine .inr ⟨rfl, by decide, .inr ⟨rfl, by decide, by decide, by decide, by decide, by decide, .inl ?_⟩, ?_⟩
      · exact ⟨by decide, by decide, by decide, by decide, by decide⟩
      · exact ⟨(target_vesting h.target).1, (target_vesting h.target).2.1⟩
  · refine C89_limiter_refused ?_ (by decide) rfl rfl (by decide) (by decide)
    exact { _root_.Ex.typedB with
      cliff := by decide, first := by decide, second := by decide, third := by decide, dynInit := by decide, filter := by decide
      decay := by decide }
  · exact ⟨_root_.Ex.configOf { Ex.params99 with fees := ⟨⟨989999999, 100, 1000, 1000000000, 2⟩, ⟨0, 0, 0, 0, 0, 0, 0, 0⟩⟩ },
      by decide +kernel⟩

end Props

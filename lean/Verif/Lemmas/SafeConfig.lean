import Verif.Lemmas.SafeAll

/-!
# Creating a configuration and a pool never panics
-/

namespace Dbc
open Spec

/-- The value is not a panic. -/
def Calm {α : Type} (x : Res α) : Prop := x ≠ .error .panic

theorem Fine.calm {α : Type} {x : Res α} (h : Fine x) : Calm x := fun e => nomatch h _ e

theorem Calm.bind {α β : Type} {x : Res α} {f : α → Res β} (hx : Calm x) (hf : ∀ a, x = .ok a → Calm (f a)) :
    Calm (x >>= f) := by
  intro h
  rw [bind_err] at h
  rcases h with h | ⟨a, ha, h⟩
  · exact hx h
  · exact hf a ha h

theorem Fine.fraction (a b : Nat) : Fine (validateFeeFraction a b) :=
  Fine.ite (fun _ => Fine.err rfl) fun _ => Fine.ok _

theorem Fine.baseValidate (b : BaseFeeConfig) (m : Nat) (t : ActivationType) : Fine (baseFeeValidate b m t) := by
  have hs : Fine (schedulerValidate b) := by
    unfold schedulerValidate
    exact Fine.bind (Fine.ite (fun _ => Fine.req rfl) fun _ => Fine.ok _) fun _ _ => Fine.bind (Fine.schedulerByPeriod _ _)
      fun _ _ => Fine.bind (Fine.fraction _ _) fun _ _ => Fine.bind (Fine.fraction _ _) fun _ _ => Fine.req rfl
  unfold baseFeeValidate
  split
  · exact hs
  · exact hs
  · unfold limiterValidate
    split
    · exact Fine.err rfl
    refine Fine.bind (Fine.req rfl) fun _ _ => Fine.bind (Fine.req rfl) fun _ _ => Fine.ite (fun _ => Fine.ok _) fun _ =>
      Fine.bind (Fine.req rfl) fun _ h => ?_
    have h := (req_ok.1 h).1
    exact Fine.bind (Fine.req rfl) fun _ _ => Fine.bind (Fine.toNumerator _) fun _ _ => Fine.bind (Fine.req rfl) fun _ _ =>
      Fine.bind (Fine.limIncluded h _) fun _ _ => Fine.bind (Fine.limIncluded h _) fun _ _ => Fine.req rfl
  · exact Fine.err rfl

theorem Fine.feesValidate (f : PoolFeesConfig) (m : Nat) (t : ActivationType) : Fine (poolFeesValidate f m t) := by
  have : Fine (dynFeeValidate f.dyn) := by unfold dynFeeValidate; fine
  unfold poolFeesValidate
  exact Fine.bind (Fine.baseValidate _ _ _) fun _ _ => Fine.ite (fun _ => Fine.ok _) fun _ => this

theorem Fine.vestParams (v : LiqVesting) (t n : Nat) : Fine (v.params t n) := by
  have k := Fine.mulDivU128
  unfold LiqVesting.params
  fine
  all_goals exact k _ _ _ _

theorem Fine.vestValidate (p : LiqVestingParams) (n : Nat) : Fine (p.validate n) := by
  unfold LiqVestingParams.validate
  refine Fine.ite (fun _ => Fine.ok _) fun _ => Fine.bind (Fine.mulDivU128 _ _ _ _) fun _ _ => Fine.bind (Fine.vestParams _ _ _)
    fun v _ => ?_
  unfold VestParams.validate
  fine

theorem Fine.lockedAt (v : LiqVesting) (n : Nat) : Fine (v.lockedBpsAt n) := by
  have k : ∀ (p : VestParams), Fine (p.unlockedAt n) := by
    intro p
    unfold VestParams.unlockedAt
    fine
  unfold LiqVesting.lockedBpsAt
  exact Fine.ite (fun _ => Fine.ok _) fun _ => Fine.bind (Fine.mulDivU128 _ _ _ _) fun _ _ => Fine.bind (Fine.vestParams _ _ _)
    fun _ _ => Fine.bind (k _) fun _ _ => Fine.bind (Fine.sub _ _) fun _ _ => Fine.bind (Fine.mulDivU128 _ _ _ _) fun _ _ =>
    Fine.cast _ _

theorem Fine.totalLocked (c : PoolConfig) (n : Nat) : Fine (c.lockedBpsAt n) := by
  unfold PoolConfig.lockedBpsAt
  exact Fine.bind (Fine.lockedAt _ _) fun _ _ => Fine.bind (Fine.lockedAt _ _) fun _ _ => Fine.bind (Fine.mul _ _ _) fun _ _ =>
    Fine.bind (Fine.mul _ _ _) fun _ _ => Fine.bind (Fine.add _ _ _) fun _ _ => Fine.bind (Fine.add _ _ _) fun _ _ =>
    Fine.add _ _ _

theorem Fine.migratedValidate (m : MigratedFee) : Fine m.validate := by
  have k : ∀ c, Fine (m.marketCapValidate c) := by
    intro c
    have : Fine (m.marketCapMinFee c) := by
      unfold MigratedFee.marketCapMinFee MigratedFee.marketCapFee
      split
      · exact Fine.bind (Fine.mul _ _ _) fun _ _ => Fine.sub _ _
      · exact Fine.ite (fun _ => Fine.feeInPeriod _ _ _) fun _ => Fine.err rfl
      · exact Fine.err rfl
    unfold MigratedFee.marketCapValidate
    exact Fine.bind (Fine.req rfl) fun _ _ => Fine.bind (Fine.req rfl) fun _ _ => Fine.bind (Fine.req rfl) fun _ _ =>
      Fine.bind (Fine.req rfl) fun _ _ => Fine.bind this fun _ _ => Fine.bind (Fine.fraction _ _) fun _ _ =>
      Fine.bind (Fine.fraction _ _) fun _ _ => Fine.req rfl
  unfold MigratedFee.validate
  refine Fine.bind (Fine.req rfl) fun _ _ => Fine.bind (Fine.req rfl) fun _ _ =>
    Fine.bind (Fine.ite (fun _ => Fine.req rfl) fun _ => Fine.req rfl) fun _ _ => Fine.bind (Fine.req rfl) fun _ _ => ?_
  split
  · exact Fine.req rfl
  · exact Fine.req rfl
  · exact Fine.err rfl
  · exact Fine.bind (Fine.toNumerator _) fun _ _ => k _
  · exact Fine.bind (Fine.toNumerator _) fun _ _ => k _
  · exact Fine.err rfl

theorem Fine.curveTail (a : Nat) (ps : List Point) : Fine (validateCurveTail a ps) := by
  induction ps generalizing a with
  | nil => exact Fine.ok _
  | cons p ps ih => exact Fine.bind (Fine.req rfl) fun _ _ => ih _

theorem Fine.curve (a : Nat) (ps : List Point) : Fine (validateCurve a ps) := by
  unfold validateCurve
  refine Fine.bind (Fine.req rfl) fun _ _ => Fine.bind (Fine.req rfl) fun _ h => ?_
  have h := (req_ok.1 h).1
  cases ps with
  | nil => exact absurd h (by simp)
  | cons p ps => exact Fine.bind (Fine.req rfl) fun _ _ => Fine.bind (Fine.curveTail _ _) fun _ _ => Fine.req rfl

theorem Fine.vestingTotal (v : LockedVesting) : Fine v.total := by unfold LockedVesting.total; fine

theorem Fine.validate (p : ConfigParams) (env : ConfigEnv) : Fine (p.validate env) := by
  unfold ConfigParams.validate
  refine Fine.bind (Fine.req rfl) fun _ _ => ?_
  split
  · exact Fine.err rfl
  have h1 : Fine (validateMigrationFee p.migrationFeePct p.creatorMigrationFeePct) := by unfold validateMigrationFee; fine
  have h2 : Fine (validateMigrationOption p env) := by
    unfold validateMigrationOption
    refine Fine.ite (fun _ => ?_) fun _ => ?_
    · exact Fine.bind (Fine.req rfl) fun _ _ => Fine.bind (Fine.req rfl) fun _ _ => Fine.bind (Fine.req rfl) fun _ _ =>
        Fine.bind (Fine.req rfl) fun _ _ => Fine.req rfl
    · exact Fine.bind (Fine.ite (fun _ => Fine.migratedValidate _) fun _ => Fine.req rfl) fun _ _ =>
        Fine.bind (Fine.vestValidate _ _) fun _ _ => Fine.vestValidate _ _
  have h3 : Fine (validatePercentages p) := by unfold validatePercentages; fine
  have h4 : Fine p.lockedVesting.validate := by
    have := Fine.vestingTotal p.lockedVesting
    unfold LockedVesting.validate; fine
  exact Fine.bind (Fine.feesValidate _ _ _) fun _ _ => Fine.bind (Fine.req rfl) fun _ _ => Fine.bind h1 fun _ _ =>
    Fine.bind (Fine.req rfl) fun _ _ => Fine.bind (Fine.req rfl) fun _ _ => Fine.bind (Fine.req rfl) fun _ _ =>
    Fine.bind (Fine.req rfl) fun _ _ => Fine.bind h2 fun _ _ => Fine.bind (Fine.req rfl) fun _ _ =>
    Fine.bind (Fine.req rfl) fun _ _ => Fine.bind h3 fun _ _ => Fine.bind (Fine.req rfl) fun _ _ => Fine.bind h4 fun _ _ =>
    Fine.bind (Fine.ite (fun _ => Fine.req rfl) fun _ => Fine.ok _) fun _ _ => Fine.curve _ _

/-! ### The curve -/

theorem Fine.nextIn {p L a : Nat} (hp : 0 < p) (hL : 0 < L) : Fine (nextPriceFromInput p L a false) := by
  unfold nextPriceFromInput
  refine Fine.bind (Fine.req' hp) fun _ _ => Fine.bind (Fine.req' hL) fun _ _ => ?_
  exact Fine.bind (Fine.shl _ _) fun _ _ => Fine.bind (Fine.div _ _) fun _ _ => Fine.bind (Fine.add _ _ _) fun _ _ => Fine.cast _ _

theorem Fine.thresholdLoop {ps : List Point} {lo left : Nat} (hp : Proper lo ps) : Fine (thresholdPriceLoop ps lo left) := by
  induction ps generalizing lo left with
  | nil => exact Fine.ok _
  | cons p ps ih =>
    obtain ⟨h0, h1, h2, h3⟩ := hp
    exact Fine.bind (Fine.deltaQuote256 (by omega)) fun _ _ => Fine.ite
      (fun _ => Fine.bind (Fine.nextIn h0 h2) fun _ _ => Fine.ok _)
      fun _ => Fine.bind (Fine.cast _ _) fun _ _ => Fine.bind (Fine.sub _ _) fun _ _ => ih h3

theorem Fine.thresholdPrice {ps : List Point} {lo t : Nat} (hp : Proper lo ps) (hn : ps ≠ []) :
    Fine (migrationThresholdPrice t lo ps) := by
  cases ps with
  | nil => exact absurd rfl hn
  | cons p ps =>
    obtain ⟨h0, h1, h2, h3⟩ := hp
    exact Fine.bind (Fine.deltaQuote256 (by omega)) fun _ _ => Fine.ite
      (fun _ => Fine.nextIn h0 h2)
      fun _ => Fine.bind (Fine.cast _ _) fun _ _ => Fine.bind (Fine.sub _ _) fun _ _ => Fine.bind (Fine.thresholdLoop h3) fun _ _ =>
        Fine.bind (Fine.req rfl) fun _ _ => Fine.ok _

theorem Fine.baseLoop {ps : List Point} {lo m acc : Nat} (hp : Proper lo ps) (hm : lo ≤ m) :
    Fine (baseTokenForSwapLoop m ps lo acc) := by
  induction ps generalizing lo acc with
  | nil => exact Fine.ok _
  | cons p ps ih =>
    obtain ⟨h0, h1, h2, h3⟩ := hp
    exact Fine.ite (fun _ => Fine.bind (Fine.deltaBase256 h0 hm) fun _ _ => Fine.add _ _ _)
      fun _ => Fine.bind (Fine.deltaBase256 h0 (by omega)) fun _ _ => Fine.bind (Fine.add _ _ _) fun _ _ => ih h3 (by omega)

theorem Fine.buffer {ps : List Point} {lo s : Nat} (hp : Proper lo ps) (hm : lo ≤ MAX_SQRT_PRICE) :
    Fine (swapAmountWithBuffer s lo ps) := by
  unfold swapAmountWithBuffer
  exact Fine.bind (Fine.mul _ _ _) fun _ _ => Fine.bind (Fine.div _ _) fun _ _ => Fine.bind (Fine.add _ _ _) fun _ _ =>
    Fine.bind (Fine.baseLoop hp hm) fun _ _ => Fine.ite (fun _ => Fine.ite (fun _ => Fine.ok _) fun _ => Fine.err rfl)
    fun _ => Fine.ite (fun _ => Fine.ok _) fun _ => Fine.err rfl

theorem Fine.supplyTotal (a b : Nat) (v : LockedVesting) : Fine (totalTokenSupply a b v) := by
  have := Fine.vestingTotal v
  unfold totalTokenSupply; fine

theorem Fine.amounts1 (h : Handler) {p : Nat} (h0 : 0 < p) (hm : p ≤ MAX_SQRT_PRICE) (t f : Nat) :
    Fine (migrationAmounts1 h p t f) := by
  cases h
  · refine Fine.bind (Fine.migQuote _ _) fun x _ => ?_
    obtain ⟨q, _⟩ := x
    refine Fine.bind ?_ fun _ _ => Fine.ok _
    unfold constantProductBase
    refine Fine.bind (Fine.mul _ _ _) fun pr hpr => Fine.bind (Fine.shl _ _) fun _ _ => Fine.bind (Fine.req' ?_) fun _ _ =>
      Fine.bind (Fine.ite (fun _ => Fine.add _ _ _) fun _ => Fine.ok _) fun _ _ => Fine.bind (Fine.req rfl) fun _ _ =>
      Fine.cast _ _
    rw [(safeMul_ok.1 hpr).2]
    exact (Nat.mul_pos h0 h0).ne'
  · refine Fine.bind (Fine.migQuote _ _) fun x _ => ?_
    obtain ⟨q, _⟩ := x
    refine Fine.bind ?_ fun _ _ => Fine.bind (Fine.deltaBase256 h0 hm) fun _ _ => Fine.bind (Fine.req rfl) fun _ _ =>
      Fine.bind (Fine.cast _ _) fun _ _ => Fine.ok _
    unfold liqFromDeltaQuote
    exact Fine.bind (Fine.sub _ _) fun _ _ => Fine.bind (Fine.shl _ _) fun _ _ => Fine.bind (Fine.div _ _) fun _ _ =>
      Fine.cast _ _

theorem Calm.compounding (p : ConfigParams) {mp b q : Nat} (hb : 0 < b) : Calm (validateCompounding p mp b q) := by
  unfold validateCompounding
  split
  · refine Calm.bind ?_ fun x hx => ?_
    · exact (Fine.bind (Fine.mulDivU64 _ _ _ _) fun _ _ => Fine.bind (Fine.mulDivU64 _ _ _ _) fun _ _ => Fine.ok _).calm
    obtain ⟨bf, qf⟩ := x
    simp only [migrationProtocolFees, bind_ok, ok_inj, Prod.mk.injEq, mulDivU64_down] at hx
    obtain ⟨x, ⟨-, -, hx, -⟩, y, -, rfl, rfl⟩ := hx
    refine Calm.bind (Fine.sub _ _).calm fun c hc => Calm.bind (Fine.sub _ _).calm fun _ _ => ?_
    have hc0 : c ≠ 0 := by
      have := (safeSub_ok.1 hc).2
      have h2 : x < b := by
        rw [hx, Nat.div_lt_iff_lt_mul (by decide)]
        exact Nat.mul_lt_mul_of_pos_left (by decide) hb
      omega
    unfold validateInitialPoolInformation
    refine Calm.bind ?_ fun _ _ => Calm.bind (Fine.req rfl).calm fun _ _ => Calm.bind ?_ fun _ _ =>
      Calm.bind (Fine.mul _ _ _).calm fun _ _ => (Fine.req rfl).calm
    · unfold compoundingInitial
      refine (Fine.bind (Fine.shl _ _) fun _ _ => Fine.bind (Fine.req' hc0) fun _ _ => Fine.bind ?_ fun _ _ =>
        Fine.bind (Fine.req rfl) fun _ _ => Fine.bind (Fine.req rfl) fun _ _ => Fine.bind ?_ fun _ _ =>
        Fine.bind (Fine.req rfl) fun _ _ => Fine.bind (Fine.mul _ _ _) fun _ _ => Fine.ok _).calm
      · split
        · exact Fine.ok _
        · exact Fine.err rfl
      · split
        · exact Fine.ok _
        · exact Fine.err rfl
    · unfold Calm Dbc.req
      split <;> simp
  · exact (Fine.ok _).calm

theorem Calm.createConfig {p : ConfigParams} (ht : p.Typed) (env : ConfigEnv) : Calm (createConfig p env) := by
  unfold Dbc.createConfig
  refine Calm.bind (Fine.validate _ _).calm fun _ hv => ?_
  obtain ⟨v1, v2, v3, v4, v5, v6⟩ := validateCurve_ok (validate_ok hv).curve
  refine Calm.bind (Fine.thresholdPrice v5 v3).calm fun P hP => Calm.bind (Fine.req rfl).calm fun _ hlt => ?_
  have hlt := req_ok.1 hlt
  have hge : p.sqrtStartPrice ≤ P := by
    obtain ⟨q, qs, hq⟩ := List.exists_cons_of_ne_nil v3
    rw [hq] at hP v5
    exact (thresholdPriceLoop_ok v5 (fun q' hq' => (ht.curve q' (by rw [hq]; exact hq')).2) (migrationThresholdPrice_eq _ _ _ _ hP)).1
  have h0 := Dbc.Proper.lo_pos v5
  refine Calm.bind (Fine.baseLoop v5 hge).calm fun _ _ => Calm.bind (Fine.cast _ _).calm fun sw _ => Calm.bind (Fine.req rfl).calm
    fun _ _ => Calm.bind (Fine.amounts1 _ (by omega) (by omega) _ _).calm fun x _ => ?_
  obtain ⟨b, q⟩ := x
  refine Calm.bind (Fine.req rfl).calm fun _ hb => Calm.bind (Calm.compounding _ (req_ok.1 hb).1) fun _ _ => Calm.bind ?_ fun y _ => ?_
  · unfold resolveTokenSupply
    split
    · exact (Fine.bind (Fine.buffer v5 (by omega)) fun _ _ => Fine.bind (Fine.supplyTotal _ _ _) fun _ _ =>
        Fine.bind (Fine.supplyTotal _ _ _) fun _ _ => Fine.bind (Fine.req rfl) fun _ _ => Fine.bind (Fine.req rfl) fun _ _ =>
        Fine.ok _).calm
    · exact (Fine.ok _).calm
  · obtain ⟨f, pre, post⟩ := y
    exact Calm.bind (Fine.totalLocked _ _).calm fun _ _ => Calm.bind (Fine.req rfl).calm fun _ _ => (Fine.ok _).calm

theorem Fine.initPool {p : ConfigParams} {env : ConfigEnv} {c : PoolConfig} (ht : p.Typed) (hc : createConfig p env = .ok c)
    (a : InitArgs) : Fine (initPool c a) := by
  obtain ⟨v1, v2, v3, v4, v5, v6⟩ := validateCurve_ok (validate_ok (createConfig_ok hc).validated).curve
  have hs : Fine c.initialBaseSupply := by
    unfold PoolConfig.initialBaseSupply
    refine Fine.ite (fun _ => Fine.ok _) fun _ => Fine.bind ?_ fun _ _ => Fine.supplyTotal _ _ _
    have e1 : c.sqrtStartPrice = p.sqrtStartPrice := by rw [(createConfig_ok hc).eq]; rfl
    have e2 : usedCurve c.curve = p.curve := by rw [(createConfig_ok hc).eq]; exact usedCurve_pad v5 _
    rw [e1, e2]
    exact Fine.buffer v5 (by omega)
  unfold Dbc.initPool
  refine Fine.bind (Fine.totalLocked _ _) fun _ _ => Fine.bind (Fine.req rfl) fun _ _ => Fine.bind ?_ fun _ _ =>
    Fine.bind hs fun _ _ => Fine.bind (Fine.req rfl) fun _ _ => ?_
  · exact Fine.bind (Fine.minBase _) fun _ _ => Fine.req rfl
  · split
    · exact Fine.bind (Fine.point _ _) fun _ _ => Fine.ok _
    · exact Fine.err rfl

end Dbc

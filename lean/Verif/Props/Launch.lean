import Verif.Spec.Launch
import Verif.Props.Accept
import Verif.Props.Programs

/-!
# Which configurations pools can be launched from: C90
-/

namespace Props
open Dbc Spec

theorem minBaseFee_fine {p : ConfigParams} {a : ActivationType}
    (h : baseFeeValidate p.fees.base p.collectFeeMode a = .ok ()) : validateMinBaseFee p.fees.base = .ok () := by
  unfold baseFeeValidate at h
  unfold validateMinBaseFee minBaseFee
  split at h
  · next hm =>
    simp only [schedulerValidate, bind_ok, req_ok] at h
    obtain ⟨_, _, mn, h1, _, _, _, _, h2, _⟩ := h
    simp only [h1, ok_bind]
    exact (req_ok (u := ())).2 h2
  · next hm =>
    simp only [schedulerValidate, bind_ok, req_ok] at h
    obtain ⟨_, _, mn, h1, _, _, _, _, h2, _⟩ := h
    simp only [h1, ok_bind]
    exact (req_ok (u := ())).2 h2
  · next hm =>
    unfold limiterValidate at h
    split at h
    · cases h
    · simp only [bind_ok, req_ok] at h
      obtain ⟨_, _, _, ⟨h2, _⟩, _⟩ := h
      simp only [ok_bind]
      exact (req_ok (u := ())).2 h2
  · cases h

/-- The supply of a pool of an accepted configuration, when it can be computed. -/
theorem supply_iff {p : ConfigParams} {env : ConfigEnv} {c : PoolConfig} {s : Nat} (ht : p.Typed)
    (h : createConfig p env = .ok c) :
    c.initialBaseSupply = .ok s ↔ s = launchSupply p c.migrationSqrtPrice ∧ s < 2 ^ 64 := by
  have ha := createConfig_ok h
  have hv := validate_ok ha.validated
  have hu : u64Max = 2 ^ 64 - 1 := rfl
  have hcurve := curve_iff.1 hv.curve
  have hlock := lockedVesting_iff.1 hv.vesting
  have hP := (migrationPrice_iff ht hcurve).1 ha.price
  have hlo := price_above hcurve hv.threshold hP
  have hmax := ha.priceLt
  have hsw := ha.swap
  rw [baseTokenForSwap_eq ht hcurve hP.1 hmax.le, ok_inj] at hsw
  obtain ⟨q, hq, _⟩ := ha.amounts
  obtain ⟨eb, _, hb1, _⟩ := (amounts_iff ht hv.migFee hlo hmax).1 hq
  have hs := ha.swapMax
  have hsup := ha.supply
  have hlt : p.lockedVesting.total = .ok (promisedTotal p) := by
    unfold promisedTotal
    rw [vesting_total_ok]
    rcases hlock with h | ⟨_, _, h⟩
    · rw [h]; exact ⟨by decide, by decide, rfl⟩
    · exact ⟨by omega, by omega, rfl⟩
  have ev : c.lockedVesting = p.lockedVesting := by rw [ha.eq]; rfl
  have es : c.sqrtStartPrice = p.sqrtStartPrice := by rw [ha.eq]; rfl
  have ec : usedCurve c.curve = p.curve := by
    have : c.curve = padCurve p.curve := by rw [ha.eq]; rfl
    rw [this]
    exact usedCurve_pad (validateCurve_ok hv.curve).2.2.2.2.1 _
  unfold PoolConfig.initialBaseSupply launchSupply
  unfold resolveTokenSupply at hsup
  cases hts : p.tokenSupply with
  | none =>
    rw [hts] at hsup
    simp only [ok_inj, Prod.mk.injEq] at hsup
    rw [if_neg (by omega), ev, es, ec, eb, ← hsw]
    rw [← hsw] at hs
    simp only [bind_ok, swapAmountWithBuffer_iff ht hcurve hs, totalTokenSupply, hlt, safeAdd_ok, ok_inj]
    constructor
    · rintro ⟨_, ⟨rfl, _⟩, _, ⟨_, rfl⟩, _, rfl, h, rfl⟩; exact ⟨rfl, by omega⟩
    · rintro ⟨rfl, h⟩; exact ⟨_, ⟨rfl, by omega⟩, _, ⟨by omega, rfl⟩, _, rfl, by omega, rfl⟩
  | some pp =>
    obtain ⟨pre, post⟩ := pp
    have := ht.supply pre post hts
    rw [hts] at hsup
    simp only [bind_ok, ok_inj, Prod.mk.injEq] at hsup
    obtain ⟨_, _, _, _, _, _, _, _, _, _, e1, e2, e3⟩ := hsup
    rw [if_pos e1.symm, ok_inj, ← e2]
    dsimp only
    constructor
    · rintro rfl; exact ⟨rfl, by omega⟩
    · rintro ⟨rfl, _⟩; rfl

/-- C90: from an accepted configuration a pool of the configured token type can be launched by anyone at any time, with all
checks of the launch passing, exactly if its supply fits 64 bits. -/
theorem C90_launch {p : ConfigParams} {env : ConfigEnv} {c : PoolConfig} {P : Nat} (ht : p.Typed)
    (h : createConfig p env = .ok c) (hP : IsMigrationPrice p P) (a : InitArgs) :
    (∃ w, initPool c a = .ok w) ↔ a.tokenType = p.tokenType ∧ launchSupply p P < 2 ^ 64 := by
  have ha := createConfig_ok h
  have hv := validate_ok ha.validated
  have hcurve := curve_iff.1 hv.curve
  have eP : c.migrationSqrtPrice = P := by
    have := (migrationPrice_iff ht hcurve).2 hP
    rw [ha.price, ok_inj] at this
    exact this
  have et : c.tokenType = p.tokenType := by rw [ha.eq]; rfl
  have hs := supply_iff (s := launchSupply p P) ht h
  rw [eP] at hs
  constructor
  · rintro ⟨w, hw⟩
    obtain ⟨supply, _, _, _, _, _, _, _, h4, h5, _⟩ := initPool_ok hw
    have h6 := (supply_iff ht h).1 h4
    rw [eP] at h6
    exact ⟨by rw [← et, h5], h6.1 ▸ h6.2⟩
  · rintro ⟨h1, h2⟩
    obtain ⟨b, hb, hbl⟩ := ha.locked
    obtain ⟨act, hact, hfees⟩ := hv.act
    simp only [poolFeesValidate, bind_ok] at hfees
    obtain ⟨_, hbase, _⟩ := hfees
    have hau := hv.authority
    have e1 : c.fees = p.fees := by rw [ha.eq]; rfl
    have e2 : c.tokenUpdateAuthority = p.tokenUpdateAuthority := by rw [ha.eq]; rfl
    have e3 : c.activationType = p.activationType := by rw [ha.eq]; rfl
    obtain ⟨pt, hpt⟩ : ∃ x, currentPoint c.activationType a.clk = .ok x := by
      unfold currentPoint
      rw [e3, hact]
      cases act <;> exact ⟨_, rfl⟩
    unfold initPool
    rw [hb, ok_bind, (req_ok (u := ())).2 hbl, ok_bind, e1, minBaseFee_fine hbase, ok_bind, hs.2 ⟨rfl, h2⟩, ok_bind, et,
      (req_ok (u := ())).2 h1.symm, ok_bind, e2]
    obtain ⟨m, hm⟩ : ∃ x, mintAuthority p.tokenUpdateAuthority a.creator c.feeClaimer = some x := by
      rcases (by omega : p.tokenUpdateAuthority = 0 ∨ p.tokenUpdateAuthority = 1 ∨ p.tokenUpdateAuthority = 2 ∨
        p.tokenUpdateAuthority = 3 ∨ p.tokenUpdateAuthority = 4) with e | e | e | e | e <;> rw [e] <;> exact ⟨_, rfl⟩
    obtain ⟨u, hu⟩ : ∃ x, updateAuthority p.tokenUpdateAuthority a.creator c.feeClaimer = some x := by
      rcases (by omega : p.tokenUpdateAuthority = 0 ∨ p.tokenUpdateAuthority = 1 ∨ p.tokenUpdateAuthority = 2 ∨
        p.tokenUpdateAuthority = 3 ∨ p.tokenUpdateAuthority = 4) with e | e | e | e | e <;> rw [e] <;> exact ⟨_, rfl⟩
    rw [hm, hu]
    dsimp only
    rw [hpt, ok_bind]
    exact ⟨_, rfl⟩

/-- C90: the launched pool holds exactly that supply, all of it in its base vault, and starts at the configured price. -/
theorem C90_holds {p : ConfigParams} {env : ConfigEnv} {c : PoolConfig} {P : Nat} {a : InitArgs} {w : World} (ht : p.Typed)
    (h : createConfig p env = .ok c) (hP : IsMigrationPrice p P) (hw : initPool c a = .ok w) :
    w.supply = launchSupply p P ∧ w.baseVault = launchSupply p P ∧ w.quoteVault = 0 ∧ w.pool.sqrtPrice = p.sqrtStartPrice := by
  have ha := createConfig_ok h
  have hv := validate_ok ha.validated
  have eP : c.migrationSqrtPrice = P := by
    have := (migrationPrice_iff ht (curve_iff.1 hv.curve)).2 hP
    rw [ha.price, ok_inj] at this
    exact this
  have es : c.sqrtStartPrice = p.sqrtStartPrice := by rw [ha.eq]; rfl
  obtain ⟨supply, _, _, _, _, _, _, _, h4, _, _, _, _, rfl⟩ := initPool_ok hw
  have h6 := (supply_iff ht h).1 h4
  rw [eP] at h6
  exact ⟨h6.1, h6.1, rfl, es⟩

/-- C90: a configuration with a chosen supply can always be launched. -/
theorem C90_chosen {p : ConfigParams} {env : ConfigEnv} {c : PoolConfig} {pre post : Nat} (ht : p.Typed)
    (h : createConfig p env = .ok c) (hs : p.tokenSupply = some (pre, post)) (a : InitArgs) (hty : a.tokenType = p.tokenType) :
    ∃ w, initPool c a = .ok w ∧ w.supply = pre := by
  have ha := createConfig_ok h
  have hP := (migrationPrice_iff ht (curve_iff.1 (validate_ok ha.validated).curve)).1 ha.price
  have hl : launchSupply p c.migrationSqrtPrice = pre := by unfold launchSupply; rw [hs]
  have hb := (ht.supply pre post hs).1
  have hu : u64Max = 2 ^ 64 - 1 := rfl
  obtain ⟨w, hw⟩ := (C90_launch ht h hP a).2 ⟨hty, by omega⟩
  exact ⟨w, hw, by rw [← hl]; exact (C90_holds ht h hP hw).1⟩

/-- C90, on chain: whatever happened before, if the configuration is there and the base mint, the pool and the vaults are new
accounts at their derived addresses, the launch goes through exactly under the same condition. -/
theorem C90_on_chain {K : Keys} {s : Chain} {p : ConfigParams} {env : ConfigEnv} {c : PoolConfig} {P : Nat} (a : InitIx)
    (h0 : Arises K s) (ht : p.Typed) (h : createConfig p env = .ok c) (hP : IsMigrationPrice p P) (hc : s.configs a.config = some c)
    (hq : a.quoteMint = c.quoteMint) (hb : s.mints a.baseMint = none)
    (hp : a.pool = K.poolPda a.config a.baseMint a.quoteMint) (hp' : s.pools a.pool = none)
    (hv : a.baseVault = K.vaultPda a.baseMint a.pool) (hv' : getTok s.tokens a.baseVault = none)
    (hw : a.quoteVault = K.vaultPda a.quoteMint a.pool) (hw' : getTok s.tokens a.quoteVault = none)
    (hd : a.quoteVault ≠ a.baseVault) :
    (∃ s', s.exec K (.initPool a) = .ok s') ↔ a.tokenType = p.tokenType ∧ launchSupply p P < 2 ^ 64 := by
  rw [← C90_launch ht h hP ⟨a.pool, a.creator, a.tokenType, a.clk, a.donated, s.operators, s.admins⟩]
  obtain ⟨m, hm, _⟩ := (h0.inv.cfg _ _ hc).2
  rw [← hq] at hm
  simp only [Chain.exec, Chain.initPool, bind_ok, req_ok, need_ok, ok_inj]
  constructor
  · rintro ⟨_, c', h1, _, _, _, _, _, _, _, _, _, _, _, _, w, h2, _⟩
    rw [hc] at h1
    obtain rfl := Option.some.inj h1
    exact ⟨w, h2⟩
  · rintro ⟨w, h2⟩
    exact ⟨_, c, hc, (), hq.symm, m, hm, (), hb, (), ⟨hp, hp'⟩, (), ⟨hv, hv'⟩, (), ⟨hw, hw', hd⟩, w, h2, rfl⟩

namespace Ex

/-- An accepted configuration whose token vesting leaves no room for anything else. -/
def paramsFull : ConfigParams := { _root_.Ex.paramsB with lockedVesting := ⟨1, 0, 1, 1, 2 ^ 64 - 2⟩ }

end Ex

/-- C90, a surprise: without a chosen supply nothing checks at creation that the supply fits. This configuration is accepted
for good, and no pool can ever be launched from it. -/
theorem C90_stillborn : Ex.paramsFull.Typed ∧ createConfig Ex.paramsFull _root_.Ex.env = .ok (_root_.Ex.configOf Ex.paramsFull) ∧
    ∀ a w, initPool (_root_.Ex.configOf Ex.paramsFull) a ≠ .ok w := by
  refine ⟨{ _root_.Ex.typedB with lvAmount := by decide, lvCliff := by decide, lvFreq := by decide, lvNum := by decide, lvUnlock := by decide },
    by decide +kernel, fun a w h => ?_⟩
  obtain ⟨supply, _, _, _, _, _, _, _, h4, _⟩ := initPool_ok h
  rw [show (_root_.Ex.configOf Ex.paramsFull).initialBaseSupply = .error .mathOverflow by decide +kernel] at h4
  cases h4

theorem price_of {p : ConfigParams} {env : ConfigEnv} {c : PoolConfig} (ht : p.Typed) (h : createConfig p env = .ok c) :
    IsMigrationPrice p c.migrationSqrtPrice :=
  (migrationPrice_iff ht (curve_iff.1 (validate_ok (createConfig_ok h).validated).curve)).1 (createConfig_ok h).price

/-- C90: two configurations, one with a chosen supply and one without, and what their pools are launched with; and a launch on
chain, in the middle of a history, that meets the conditions. -/
theorem C90_example :
    (IsMigrationPrice _root_.Ex.paramsA 2951479051793528258 ∧ _root_.Ex.paramsA.tokenSupply ≠ none ∧
      launchSupply _root_.Ex.paramsA 2951479051793528258 = 3000000000000000) ∧
    (IsMigrationPrice _root_.Ex.paramsB 2951479051793528258 ∧ _root_.Ex.paramsB.tokenSupply = none ∧
      launchSupply _root_.Ex.paramsB 2951479051793528258 = 1640625000553893) ∧
    Arises Ex.keys (stateAt 8) ∧
    ∃ a, history.getD 8 (.sendLamports 0 0) = .initPool a ∧ (stateAt 8).configs a.config = some (_root_.Ex.configOf _root_.Ex.paramsB) ∧
      a.quoteMint = (_root_.Ex.configOf _root_.Ex.paramsB).quoteMint ∧ (stateAt 8).mints a.baseMint = none ∧
      a.pool = Ex.keys.poolPda a.config a.baseMint a.quoteMint ∧ (stateAt 8).pools a.pool = none ∧
      a.baseVault = Ex.keys.vaultPda a.baseMint a.pool ∧ getTok (stateAt 8).tokens a.baseVault = none ∧
      a.quoteVault = Ex.keys.vaultPda a.quoteMint a.pool ∧ getTok (stateAt 8).tokens a.quoteVault = none ∧
      a.quoteVault ≠ a.baseVault ∧ a.tokenType = _root_.Ex.paramsB.tokenType := by
  refine ⟨⟨?_, by decide, rfl⟩, ⟨?_, rfl, by decide +kernel⟩, arises_at 8 (by decide +kernel), _, rfl, by decide +kernel, by decide +kernel,
    by decide +kernel, by decide +kernel, by decide +kernel, by decide +kernel, by decide +kernel, by decide +kernel, by decide +kernel,
    by decide +kernel, by decide +kernel⟩
  · have := price_of _root_.Ex.typedA _root_.Ex.acceptedA
    rwa [show (_root_.Ex.configOf _root_.Ex.paramsA).migrationSqrtPrice = 2951479051793528258 by decide +kernel] at this
  · have := price_of _root_.Ex.typedB _root_.Ex.acceptedB
    rwa [show (_root_.Ex.configOf _root_.Ex.paramsB).migrationSqrtPrice = 2951479051793528258 by decide +kernel] at this

end Props

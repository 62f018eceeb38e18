import Verif.Props.Shares

/-!
# The life cycle: C20, C31, C33, C34, C50
-/

namespace Props
open Dbc Spec

def isSwap : Op → Bool | .swap _ => true | _ => false
def isMigrate : Op → Bool | .migrateV1 _ => true | .migrateV2 _ => true | _ => false
def isLocker : Op → Bool | .createLocker => true | _ => false
def isLeftover : Op → Bool | .withdrawLeftover _ => true | _ => false

theorem isSwap_iff {op : Op} : isSwap op = true ↔ ∃ a, op = .swap a := by
  cases op <;> simp [isSwap]

theorem isMigrate_iff {op : Op} : isMigrate op = true ↔ (∃ a, op = .migrateV1 a) ∨ ∃ a, op = .migrateV2 a := by
  cases op <;> simp [isMigrate]

theorem isLocker_iff {op : Op} : isLocker op = true ↔ op = .createLocker := by
  cases op <;> simp [isLocker]

/-- The order of the phases. -/
def Phase.rank : Phase → Nat
  | .trading => 0
  | .vestingPending => 1
  | .ready => 2
  | .migrated => 3

theorem phase_rank {w : World} (h : Reachable w) : ∃ p, phase w = some p ∧ Phase.rank p = w.pool.migrationProgress := by
  have := h.life.prog
  have hc : w.pool.migrationProgress = 0 ∨ w.pool.migrationProgress = 1 ∨ w.pool.migrationProgress = 2 ∨
    w.pool.migrationProgress = 3 := by omega
  unfold phase
  rcases hc with e | e | e | e <;> rw [e] <;> exact ⟨_, rfl, rfl⟩

theorem phase_eq {w : World} (h : Reachable w) (p : Phase) : phase w = some p ↔ w.pool.migrationProgress = Phase.rank p := by
  obtain ⟨q, e1, e2⟩ := phase_rank h
  rw [e1, ← e2]
  constructor
  · intro e; cases e; rfl
  · intro e; cases p <;> cases q <;> first | rfl | cases e

theorem completed_iff {w : World} (h : Reachable w) : Completed w ↔ w.pool.migrationProgress ≠ 0 := by
  have := h.life.start
  unfold Completed
  omega

/-! ### C20 -/

theorem progress_mono {w w' : World} {ops : List Op} (h : Reachable w) (hr : Run w ops w') :
    w.pool.migrationProgress ≤ w'.pool.migrationProgress := by
  refine Run.relReach (R := fun w w' => w.pool.migrationProgress ≤ w'.pool.migrationProgress) (fun _ => le_refl _)
    (fun _ _ _ a b => le_trans a b) ?_ h hr
  intro w op w' hw hs
  rcases step_progress hw hs with ⟨_, _, e, _⟩ | ⟨_, e1, e2⟩ | ⟨_, e1, e2⟩ | ⟨e, _⟩ <;> omega

/-- C20: over any history the phase never goes backwards. -/
theorem C20_forward {w w' : World} {ops : List Op} (h : Reachable w) (hr : Run w ops w') :
    ∃ p p', phase w = some p ∧ phase w' = some p' ∧ Phase.rank p ≤ Phase.rank p' := by
  obtain ⟨p, e, k⟩ := phase_rank h
  obtain ⟨p', e', k'⟩ := phase_rank (h.run hr)
  exact ⟨p, p', e, e', by have := progress_mono h hr; omega⟩

/-- C20: the pool is in the trading phase exactly while its curve is incomplete, and swaps succeed only then. -/
theorem C20_swap_before_completion {w w' : World} {a : SwapArgs} (h : Reachable w) (hs : w.step (.swap a) = .ok w') :
    ¬ Completed w ∧ phase w = some .trading := by
  obtain ⟨_, _, _, _, _, s⟩ := swap_ok hs
  have := s.incomplete
  exact ⟨fun h => absurd h (by unfold Completed; omega), (phase_eq h _).2 (h.life.start.2 this)⟩

/-- C20: once the curve is complete no swap succeeds any more, and price, reserves and completion time never change
again. -/
theorem C20_final {w w' : World} {ops : List Op} (h : Reachable w) (hd : Completed w) (hr : Run w ops w') :
    countOps isSwap ops = 0 ∧ Completed w' ∧ w'.pool.sqrtPrice = w.pool.sqrtPrice ∧
    w'.pool.baseReserve = w.pool.baseReserve ∧ w'.pool.quoteReserve = w.pool.quoteReserve ∧
    w'.pool.finishTimestamp = w.pool.finishTimestamp := by
  induction hr with
  | nil w => exact ⟨rfl, hd, rfl, rfl, rfl, rfl⟩
  | cons s r ih =>
    rename_i w w1 w2 op ops
    have hns : isSwap op = false := by
      cases hb : isSwap op with
      | false => rfl
      | true =>
        obtain ⟨a, rfl⟩ := isSwap_iff.1 hb
        exact absurd hd (C20_swap_before_completion h s).1
    rcases step_cases s with ⟨a, rfl, _⟩ | ⟨e1, _, e2, e3, e4, _, _, _, _, e6, _⟩
    · cases hns
    · have hd1 : Completed w1 := by unfold Completed; rw [e1, e4]; exact hd
      obtain ⟨i1, i2, i3, i4, i5, i6⟩ := ih (h.step s) hd1
      refine ⟨?_, i2, i3.trans e2, i4.trans e3, i5.trans e4, i6.trans e6⟩
      unfold countOps at *
      rw [List.countP_cons, i1, hns]
      rfl

/-- C20: over any history the pool is migrated at most once, and exactly then it is in the migrated phase. -/
theorem C20_migrated_once {w0 w : World} {ops : List Op} (h : Genesis w0) (hr : Run w0 ops w) :
    countOps isMigrate ops = if phase w = some .migrated then 1 else 0 := by
  have hw := h.reachable.run hr
  have hk := count_flag (f := isMigrate) (flag := fun w => w.pool.migrationProgress = 3)
    (fun w op w' hw hs hf => by
      have hf := isMigrate_iff.1 hf
      rcases step_progress hw hs with ⟨_, rfl, _⟩ | ⟨rfl, _⟩ | ⟨_, e1, e2⟩ | ⟨_, _, _, n1, n2⟩
      · simp at hf
      · simp at hf
      · exact ⟨by omega, e2⟩
      · rcases hf with ⟨a, e⟩ | ⟨a, e⟩
        · exact absurd e (n1 a)
        · exact absurd e (n2 a))
    (fun w op w' hw hs hf => by
      have hf : ¬ isMigrate op = true := by rw [hf]; decide
      rw [isMigrate_iff] at hf
      rcases step_progress hw hs with ⟨_, _, e1, e2⟩ | ⟨_, e1, e2⟩ | ⟨e, _⟩ | ⟨e, _⟩
      · omega
      · omega
      · exact absurd e hf
      · rw [e]) h.reachable hr
  have h0 : w0.pool.migrationProgress = 0 := by
    obtain ⟨p, env, a, c, _, _, hi⟩ := h
    obtain ⟨_, _, _, _, _, _, _, _, _, _, _, _, _, rfl⟩ := initPool_ok hi
    rfl
  have hk := hk.1 (by omega)
  have hp := phase_eq hw .migrated
  rcases hk with ⟨a, b⟩ | ⟨a, b⟩
  · rw [b, if_neg (fun e => a (hp.1 e))]
  · rw [b, if_pos (hp.2 a)]

/-- The program's test for vesting is whether any tokens are to be locked. -/
theorem has_iff {w : World} (h : Reachable w) : w.cfg.lockedVesting.has ↔ 0 < vestingTotal w := by
  obtain ⟨p, env, _, hc⟩ := h.config
  have hv := (validate_ok (createConfig_ok hc).validated).vesting
  have e : p.lockedVesting = w.cfg.lockedVesting := by rw [(createConfig_ok hc).eq]; rfl
  rw [e] at hv
  unfold vestingTotal
  constructor
  · intro hh
    unfold LockedVesting.validate at hv
    rw [if_pos hh] at hv
    simp only [bind_ok, req_ok] at hv
    obtain ⟨t, ht, _, hz⟩ := hv
    obtain ⟨_, _, rfl⟩ := vesting_total_ok.1 ht
    omega
  · intro hp hz
    rw [hz] at hp
    exact absurd hp (by decide)

/-- C20: a migration succeeds only when the curve is complete and the configured vesting, if any, has been funded. -/
theorem C20_migrate_when {w w' : World} {op : Op} (h : Reachable w) (hm : isMigrate op = true)
    (hs : w.step op = .ok w') :
    Completed w ∧ phase w = some .ready ∧ phase w' = some .migrated ∧
    w.led.locker = vestingTotal w := by
  have hm := isMigrate_iff.1 hm
  rcases step_progress h hs with ⟨_, rfl, _⟩ | ⟨rfl, _⟩ | ⟨_, e1, e2⟩ | ⟨_, _, _, n1, n2⟩
  · simp at hm
  · simp at hm
  · refine ⟨(completed_iff h).2 (by omega), (phase_eq h _).2 e1, (phase_eq (h.step hs) _).2 e2, ?_⟩
    have := h.life.locker.2 (by omega)
    rw [this]
    split
    · rfl
    · rename_i hv
      rw [has_iff h] at hv
      omega
  · rcases hm with ⟨a, e⟩ | ⟨a, e⟩
    · exact absurd e (n1 a)
    · exact absurd e (n2 a)

/-- A history through all four phases with vesting. -/
theorem C20_example : ∃ w0 ops, Genesis w0 ∧ Run w0 ops Ex.finishedA ∧ phase w0 = some .trading ∧
    phase Ex.pendingA = some .vestingPending ∧ phase Ex.readyA = some .ready ∧ phase Ex.finishedA = some .migrated ∧
    countOps isSwap ops = 21 ∧ countOps isMigrate ops = 1 ∧ 0 < vestingTotal Ex.finishedA := by
  refine ⟨_, Ex.churned ++ Ex.finishA, Ex.genesisA, Ex.exec_run (by decide +kernel), ?_⟩
  decide +kernel

/-! ### C31 -/

/-- The same pool with the first-swap rule switched off in its configuration. -/
def ruleOff (w : World) : World := { w with cfg := { w.cfg with enableFirstSwapMinFee := 0 } }

/-- A swap to which the rule does not apply does not depend on whether the rule is switched on. -/
theorem swap_ruleOff {w w' : World} {a : SwapArgs} (hf : w.firstMin a = false) (h : w.swap a = .ok w') :
    (ruleOff w).swap a = .ok (ruleOff w') := by
  have e0 : (ruleOff w).firstMin a = false := rfl
  simp only [World.swap, bind_ok, req_ok, Prod.exists, ok_inj] at h ⊢
  obtain ⟨_, h1, _, h2, cur, h3, _, h4, _, h5, p1, h6, fm, h7, r, h8, p2, h9, b, q, h10, p3, h11, rfl⟩ := h
  rw [hf] at h8
  refine ⟨(), h1, (), h2, cur, h3, (), h4, (), h5, p1, h6, fm, h7, r, ?_, p2, h9, b, q, h10, p3, h11, ?_⟩
  · rw [e0]; exact h8
  · rw [hf, e0]; rfl

/-- The pool has swapped exactly when its history contains a swap. -/
theorem hasSwap_iff {w0 w : World} {ops : List Op} (h : Genesis w0) (hr : Run w0 ops w) :
    w.pool.hasSwap = 0 ↔ countOps isSwap ops = 0 := by
  have h0 : w0.pool.hasSwap = 0 := by
    obtain ⟨p, env, a, c, _, _, hi⟩ := h
    obtain ⟨_, _, _, _, _, _, _, _, _, _, _, _, _, rfl⟩ := initPool_ok hi
    rfl
  have key : ∀ {w w' : World} {ops : List Op}, Run w ops w' →
      (w'.pool.hasSwap = 0 ↔ w.pool.hasSwap = 0 ∧ countOps isSwap ops = 0) := by
    intro w w' ops hr
    induction hr with
    | nil w => exact ⟨fun h => ⟨h, rfl⟩, fun h => h.1⟩
    | cons s r ih =>
      rename_i w w1 w2 op ops
      rw [ih]
      unfold countOps
      rw [List.countP_cons]
      by_cases hop : ∃ a, op = .swap a
      · obtain ⟨a, rfl⟩ := hop
        obtain ⟨_, _, _, _, _, s⟩ := swap_ok s
        rw [s.hasSwap]
        constructor
        · rintro ⟨h, _⟩; cases h
        · rintro ⟨_, h⟩; simp [isSwap] at h
      · have : isSwap op = false := by
          cases hb : isSwap op with
          | false => rfl
          | true => exact absurd (isSwap_iff.1 hb) hop
        have e : w1.pool.hasSwap = w.pool.hasSwap := by
          rcases step_cases s with ⟨a, h, _⟩ | ⟨_, _, _, _, _, _, e, _⟩
          · exact absurd ⟨a, h⟩ hop
          · exact e
        rw [e, this]
        simp
  rw [key hr]
  exact ⟨fun h => h.2, fun h => ⟨h0, h⟩⟩

/-- C31: the first-swap rule makes a difference to a successful swap only if the configuration enables it, no swap of the
pool ever succeeded before, no referral is paid, and the transaction created the pool earlier at top level. Any other swap
has exactly the outcome it would have with the rule switched off. -/
theorem C31_first_swap_only {w0 w w' : World} {ops : List Op} {a : SwapArgs} (h : Genesis w0) (hr : Run w0 ops w)
    (hs : w.step (.swap a) = .ok w') :
    (ruleOff w).step (.swap a) = .ok (ruleOff w') ∨
    (w.cfg.enableFirstSwapMinFee = 1 ∧ countOps isSwap ops = 0 ∧ SameTxInit w.key a) := by
  cases hf : w.firstMin a with
  | false => exact .inl (swap_ruleOff hf hs)
  | true =>
    unfold World.firstMin at hf
    simp only [Bool.and_eq_true, decide_eq_true_eq] at hf
    exact .inr ⟨hf.1.1, (hasSwap_iff h hr).1 hf.1.2, initIxOk_iff hf.2⟩

/-- C31: of any two swaps in a history, the later one is unaffected by the rule; so at most one swap is. -/
theorem C31_at_most_one {w0 w1 w2 w3 : World} {ops ops' : List Op} {a b : SwapArgs} (h : Genesis w0)
    (hr : Run w0 ops w1) (hr' : Run w1 (.swap a :: ops') w2) (hs : w2.step (.swap b) = .ok w3) :
    (ruleOff w2).step (.swap b) = .ok (ruleOff w3) := by
  rcases C31_first_swap_only h (hr.append hr') hs with e | ⟨_, e, _⟩
  · exact e
  · unfold countOps at e
    rw [List.countP_append, List.countP_cons] at e
    simp [isSwap] at e

/-- The rule does make a difference to the first swap of the example, which creates the pool in the same transaction: less
fee accrues than with the rule switched off. -/
theorem C31_example : ∃ a w1 w2, Ex.trading.head? = some (.swap a) ∧
    (Ex.worldOf Ex.paramsA).step (.swap a) = .ok w1 ∧ (ruleOff (Ex.worldOf Ex.paramsA)).step (.swap a) = .ok w2 ∧
    0 < fees w1 .base ∧ fees w1 .base < fees w2 .base := by
  refine ⟨⟨0, 1000000000000, 1, .quoteToBase, false, ⟨100, 1000000⟩, Ex.txInit⟩,
    Ex.after Ex.paramsA (Ex.trading.take 1),
    (match Ex.exec (ruleOff (Ex.worldOf Ex.paramsA)) (Ex.trading.take 1) with | .ok w => w | .error _ => Ex.tradingA),
    ?_, ?_, ?_, ?_, ?_⟩ <;> decide +kernel

/-! ### C33 -/

/-- C33: leftover can be withdrawn exactly for fixed-supply pools, after migration, to the configured receiver, if it was
not withdrawn before; at most once over any history. -/
theorem C33_eligible {w0 w : World} {ops : List Op} (h : Genesis w0) (hr : Run w0 ops w) (r : Nat) :
    countOps isLeftover ops ≤ 1 ∧ (countOps isLeftover ops = 0 → w.led.leftover = 0) ∧
    ((∃ w', w.step (.withdrawLeftover r) = .ok w') ↔
      w.cfg.fixedSupplyFlag = 1 ∧ phase w = some .migrated ∧ r = w.cfg.leftoverReceiver ∧ countOps isLeftover ops = 0) := by
  have hw := h.reachable.run hr
  have h0 : w0.pool.isWithdrawLeftover = 0 := by
    obtain ⟨p, env, a, c, _, _, hi⟩ := h
    obtain ⟨_, _, _, _, _, _, _, _, _, _, _, _, _, rfl⟩ := initPool_ok hi
    rfl
  have hk := (count_flag (f := isLeftover) (flag := fun w => w.pool.isWithdrawLeftover ≠ 0)
    (fun w op w' _ hs hf => by
      cases op <;> try cases hf
      obtain ⟨_, _, _, h3, _, _, _, _, rfl⟩ := withdrawLeftover_ok hs
      exact ⟨fun h => h h3, Nat.one_ne_zero⟩)
    (fun w op w' _ hs hf => by
      rw [step_leftover hs (fun s e => by subst e; cases hf)]) h.reachable hr).1 (fun h => h h0)
  have l := hw.life.leftover
  refine ⟨by omega, fun _ => by omega, ?_, ?_⟩
  · rintro ⟨w', e⟩
    obtain ⟨h1, h2, h3, h4, _⟩ := withdrawLeftover_ok e
    exact ⟨h3, (phase_eq hw _).2 h2, h1, by omega⟩
  · rintro ⟨h1, h2, h3, h4⟩
    exact withdrawLeftover_succeeds hw.funds h3 ((phase_eq hw .migrated).1 h2) h1 (by omega)

/-- C33: the withdrawal leaves in the vault exactly the base tokens owed to partner, creator and protocol, and touches none
of these balances. -/
theorem C33_vault_covers {w w' : World} {r : Nat} (hs : w.step (.withdrawLeftover r) = .ok w') :
    vault w' .base = fees w' .base + protocolMigFee w' .base ∧ fees w' .base = fees w .base ∧
    protocolMigFee w' .base = protocolMigFee w .base ∧
    w'.led.leftover + vault w' .base = w.led.leftover + vault w .base := by
  obtain ⟨_, _, _, _, f, x, rfl, e, rfl⟩ := withdrawLeftover_ok hs
  refine ⟨?_, rfl, rfl, ?_⟩
  · simp only [vault, fees, partnerFee, creatorFee, protocolFee, protocolMigFee]
    omega
  · simp only [vault]
    omega

/-! ### C34 -/

theorem burnt_bound {w : World} (h : Reachable w) (hf : w.cfg.fixedSupplyFlag = 1) :
    w.led.burnt ≤ w.cfg.preMigrationSupply - w.cfg.postMigrationSupply := by
  revert hf
  refine Reachable.induct (P := fun w => w.cfg.fixedSupplyFlag = 1 →
    w.led.burnt ≤ w.cfg.preMigrationSupply - w.cfg.postMigrationSupply) ?_ ?_ h
  · intro w h
    obtain ⟨p, env, a, c, _, _, hi⟩ := h
    obtain ⟨_, _, _, _, _, _, _, _, _, _, _, _, _, rfl⟩ := initPool_ok hi
    exact fun _ => Nat.zero_le _
  · intro w op w' hw ih hs
    have hk := hs
    have hz : w.pool.migrationProgress = 2 → w.led.burnt = 0 := fun h => by
      obtain ⟨_, _, _, _, _, _, e, _⟩ := hw.life.notYet (by omega)
      exact e
    cases_step op hs
    case swap a =>
      obtain ⟨_, fm, r, _, _, s⟩ := swap_ok hk
      obtain ⟨a1, a2, a3, a4, a5, a6, a7, a8, a9, a10, a11, a12, er⟩ :=
        recordSwap_other w.led w.cfg r fm a.dir (w.firstMin a)
      rw [s.frame]
      dsimp only
      rw [er]
      exact ih
    case migrateV1 =>
      obtain ⟨_, _, _, burn, _, _, h2, _, _, _, _, _, _, _, _, hb, _, _, _, e⟩ := migrateV1_ok hk
      rw [e]
      intro hf
      have := (burnAmount_ok hb).2.2.1 hf
      have := hz h2
      show w.led.burnt + burn ≤ w.cfg.preMigrationSupply - w.cfg.postMigrationSupply
      omega
    case migrateV2 =>
      obtain ⟨_, _, burn, _, _, _, _, _, _, _, _, _, _, _, _, h2, _, _, _, _, _, _, _, _, _, _, _, _, _, _, _, hb, _, e⟩ :=
        migrateV2_ok hk
      rw [e]
      intro hf
      have := (burnAmount_ok hb).2.2.1 hf
      have := hz h2
      show w.led.burnt + burn ≤ w.cfg.preMigrationSupply - w.cfg.postMigrationSupply
      omega
    all_goals exact ih

/-- C34: a fixed-supply pool burns over its whole life at most the difference of the promised supplies, and what remains is
at least the promised post-migration supply, apart from what holders burnt of their own tokens. -/
theorem C34_burn_bounded {w : World} (h : Reachable w) (hf : w.cfg.fixedSupplyFlag = 1) :
    w.led.burnt ≤ w.cfg.preMigrationSupply - w.cfg.postMigrationSupply ∧ w.cfg.postMigrationSupply ≤ w.supply + w.led.burntByHolders ∧
    w.supply + w.led.burnt + w.led.burntByHolders = w.cfg.preMigrationSupply + w.led.minted := by
  have hb := burnt_bound h hf
  obtain ⟨ps, hc⟩ := h.core
  have e : w.cfg.initialBaseSupply = .ok w.cfg.preMigrationSupply := by
    unfold PoolConfig.initialBaseSupply; rw [if_pos hf]
  have hs := h.booked.sup _ e
  have := (hc.good.fixed hf).1
  exact ⟨hb, by omega, hs⟩

/-- C34: tokens are burnt only by a migration, and a migration leaves every unclaimed base fee in place and covered by the
vault, together with the protocol's part of the migrated liquidity. -/
theorem C34_fees_untouched {w w' : World} {op : Op} (h : Reachable w) (hs : w.step op = .ok w')
    (hb : w'.led.burnt ≠ w.led.burnt) :
    isMigrate op = true ∧ w.led.burnt < w'.led.burnt ∧ w'.supply + w'.led.burnt = w.supply + w.led.burnt ∧
    (∀ t, partnerFee w' t = partnerFee w t ∧ creatorFee w' t = creatorFee w t ∧ protocolFee w' t = protocolFee w t) ∧
    fees w' .base + protocolMigFee w' .base ≤ vault w' .base := by
  have hv := (C13_vaults_solvent (h.step hs)).2 .base
  have hp : isMigrate op = true → fees w' .base + protocolMigFee w' .base ≤ vault w' .base := by
    intro hm
    have := (C20_migrate_when h hm hs).2.2.1
    simp only [owed, owedBase, this] at hv
    exact hv
  have hsup : ∃ s, w.cfg.initialBaseSupply = .ok s := by
    obtain ⟨ps, hc⟩ := h.core
    obtain ⟨s, hs, _⟩ := hc.base
    exact ⟨s, hs⟩
  obtain ⟨s0, hs0⟩ := hsup
  have k1 := h.booked.sup s0 hs0
  have k2 := (h.step hs).booked.sup s0 (by rw [step_cfg hs]; exact hs0)
  have hk := hs
  cases_step op hs
  case swap a =>
    obtain ⟨_, fm, r, _, _, s⟩ := swap_ok hk
    obtain ⟨a1, a2, a3, a4, a5, a6, a7, a8, a9, a10, a11, a12, er⟩ :=
      recordSwap_other w.led w.cfg r fm a.dir (w.firstMin a)
    rw [s.frame] at hb
    dsimp only at hb
    rw [er] at hb
    exact absurd rfl hb
  case migrateV1 =>
    refine ⟨rfl, ?_, ?_, fun t => by cases t <;> exact ⟨rfl, rfl, rfl⟩, hp rfl⟩
    · dsimp only at hb ⊢; omega
    · dsimp only at k1 k2 ⊢; omega
  case migrateV2 =>
    refine ⟨rfl, ?_, ?_, fun t => by cases t <;> exact ⟨rfl, rfl, rfl⟩, hp rfl⟩
    · dsimp only at hb ⊢; omega
    · dsimp only at k1 k2 ⊢; omega
  all_goals exact absurd rfl hb

/-- The example pool burns tokens and has leftover to withdraw, with base fees unclaimed at both moments. -/
theorem C33_C34_example : Reachable Ex.readyA ∧ Reachable Ex.migratedA ∧ Ex.readyA.cfg.fixedSupplyFlag = 1 ∧
    Ex.readyA.led.burnt = 0 ∧ 0 < Ex.migratedA.led.burnt ∧
    Ex.migratedA.led.burnt = Ex.readyA.cfg.preMigrationSupply - Ex.readyA.cfg.postMigrationSupply ∧
    0 < fees Ex.migratedA .base ∧ Ex.migratedA.led.leftover = 0 ∧ 0 < Ex.finishedA.led.leftover := by
  refine ⟨Ex.reachReadyA, Ex.reachMigratedA, ?_⟩
  decide +kernel

/-! ### C50 -/

/-- C50: over any history the locker is funded at most once; it is funded exactly when the configuration has vesting and
the pool has got past that phase, and the total sent is then exactly the configured total. -/
theorem C50_funded {w0 w : World} {ops : List Op} (h : Genesis w0) (hr : Run w0 ops w) :
    countOps isLocker ops =
      (if 0 < vestingTotal w ∧ (phase w = some .ready ∨ phase w = some .migrated) then 1 else 0) ∧
    w.led.locker = countOps isLocker ops * vestingTotal w := by
  have hw := h.reachable.run hr
  have l := hw.life
  -- the locker succeeded iff vesting is configured and the phase is past it
  have hk := count_flag (f := isLocker) (flag := fun w => w.cfg.lockedVesting.has ∧ 2 ≤ w.pool.migrationProgress)
    (fun w op w' hw hs hf => by
      have hf := isLocker_iff.1 hf
      subst hf
      obtain ⟨h1, _, rfl⟩ := createLocker_ok hs
      exact ⟨fun h => by have := h.2; omega, hw.life.vest h1, le_refl 2⟩)
    (fun w op w' hw hs hf => by
      have hf : ¬ isLocker op = true := by rw [hf]; decide
      rw [isLocker_iff] at hf
      rw [step_cfg hs]
      rcases step_progress hw hs with ⟨_, _, e1, e2 | e2 | e2⟩ | ⟨e, _⟩ | ⟨_, e1, e2⟩ | ⟨e, _⟩
      · exact ⟨fun h => by have := h.2; omega, fun h => by have := h.2; omega⟩
      · exact ⟨fun h => by have := h.2; omega, fun h => by have := h.2; omega⟩
      · exact ⟨fun h => absurd h.1 e2.2, fun h => by have := h.2; omega⟩
      · exact absurd e hf
      · exact ⟨fun h => ⟨h.1, by omega⟩, fun h => ⟨h.1, by omega⟩⟩
      · rw [e]) h.reachable hr
  have h0 : w0.pool.migrationProgress = 0 := by
    obtain ⟨p, env, a, c, _, _, hi⟩ := h
    obtain ⟨_, _, _, _, _, _, _, _, _, _, _, _, _, rfl⟩ := initPool_ok hi
    rfl
  have hk := hk.1 (fun h => by have := h.2; omega)
  have hp : (phase w = some .ready ∨ phase w = some .migrated) ↔ 2 ≤ w.pool.migrationProgress := by
    rw [phase_eq hw, phase_eq hw]
    have := l.prog
    show (w.pool.migrationProgress = 2 ∨ w.pool.migrationProgress = 3) ↔ _
    omega
  simp only [hp, ← has_iff hw]
  have ev : vestTotal w.cfg = vestingTotal w := rfl
  rw [← ev]
  rcases hk with ⟨a, b⟩ | ⟨a, b⟩
  · rw [if_neg a, b, Nat.zero_mul]
    refine ⟨rfl, ?_⟩
    by_cases g : 2 ≤ w.pool.migrationProgress
    · have := l.locker.2 g
      rw [if_neg (fun h => a ⟨h, g⟩)] at this
      exact this
    · exact l.locker.1 (by omega)
  · rw [if_pos a, b, Nat.one_mul]
    have := l.locker.2 a.2
    rw [if_pos a.1] at this
    exact ⟨rfl, this⟩

/-- C50: funding the locker happens after completion and before migration; it moves exactly the configured total out of the
base vault and creates the escrow for the creator, starting at the recorded completion time, with the configured schedule. -/
theorem C50_escrow {w w' : World} (h : Reachable w) (hs : w.step .createLocker = .ok w') :
    Completed w ∧ phase w = some .vestingPending ∧ phase w' = some .ready ∧
    vault w' .base + vestingTotal w = vault w .base ∧
    ∃ e, w'.escrow = some e ∧ e.recipient = w.pool.creator ∧ e.start = w.pool.finishTimestamp ∧
      e.cliffTime = min (w.pool.finishTimestamp + w.cfg.lockedVesting.cliffDuration) u64Max ∧
      e.frequency = w.cfg.lockedVesting.frequency ∧ e.cliffUnlock = w.cfg.lockedVesting.cliffUnlock ∧
      e.amountPerPeriod = w.cfg.lockedVesting.amountPerPeriod ∧ e.numberOfPeriod = w.cfg.lockedVesting.numberOfPeriod := by
  have hs' : w.createLocker = .ok w' := hs
  obtain ⟨h1, h2, e⟩ := createLocker_ok hs'
  have hw := h.step hs
  refine ⟨(completed_iff h).2 (by omega), (phase_eq h _).2 h1, (phase_eq hw _).2 (by rw [e]; rfl), ?_,
    ⟨_, by rw [e], rfl, rfl, rfl, rfl, rfl, rfl, rfl⟩⟩
  rw [e]
  exact Nat.sub_add_cancel h2

/-- C50: the recorded completion time is the time of the swap that completed the curve. -/
theorem C50_completion_time {w w' : World} {op : Op} (h : Reachable w) (hs : w.step op = .ok w') (hn : ¬ Completed w)
    (hd : Completed w') : ∃ a, op = .swap a ∧ w'.pool.finishTimestamp = a.clk.time := by
  rcases step_cases hs with ⟨a, rfl, _⟩ | ⟨e1, _, _, _, e4, _⟩
  · obtain ⟨_, _, _, _, _, s⟩ := swap_ok hs
    refine ⟨a, rfl, ?_⟩
    unfold Completed at hd
    rw [s.cfg] at hd
    exact (s.done hd).2.1
  · unfold Completed at hn hd
    rw [e1, e4] at hd
    exact absurd hd hn

theorem C50_example : ∃ w0 ops, Genesis w0 ∧ Run w0 ops Ex.readyA ∧ 0 < vestingTotal Ex.readyA ∧
    countOps isLocker ops = 1 ∧ 0 < Ex.readyA.led.locker ∧ (Ex.readyA.escrow.map (·.start)) = some 1001300 ∧
    Reachable Ex.migratedB ∧ vestingTotal Ex.migratedB = 0 ∧ Ex.migratedB.led.locker = 0 := by
  refine ⟨_, Ex.churned ++ Ex.finishA.take 4, Ex.genesisA, Ex.exec_run (by decide +kernel), ?_, ?_, ?_, ?_, Ex.reachMigratedB, ?_⟩
  all_goals decide +kernel

end Props

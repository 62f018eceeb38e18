import Verif.Spec.Audit
import Verif.Props.Config
import Verif.Lemmas.Payable

/-!
# The invariants of solvency start from any audited pool
-/

namespace Dbc

open Spec

theorem baseToUp_eq {lo : Nat} {ps : List Point} (h : Proper lo ps) (P : Nat) :
    baseToUp (segs lo ps) P = total baseSegUp (segs lo ps) P := by
  unfold baseToUp total
  congr 1
  refine List.map_congr_left fun s hs => ?_
  have := segs_bounds h hs
  have hx : 0 < clamp s P := by unfold clamp; omega
  unfold ceilDiv baseSegUp
  exact up_eq_divCeil _ _ (Nat.pos_iff_ne_zero.1 (Nat.mul_pos this.2.2.1 hx))

theorem stored_of_good {c : PoolConfig} {ps : List Point} (h : Good c ps) : stored c.curve = ps := by
  obtain ⟨n, e⟩ := h.curve.stored
  rw [e]
  exact Props.stored_pad h.curve.proper n

theorem Good.sound {c : PoolConfig} {ps : List Point} (h : Good c ps) (hf : c.poolCreationFee ≤ u64Max) : Sound c := by
  have es := stored_of_good h
  obtain ⟨n, e⟩ := h.curve.stored
  refine
    { rest := ⟨n, by rw [es]; exact e⟩
      some := by rw [es]; exact h.curve.nonempty
      proper := by rw [es]; exact h.curve.proper
      liquidity := by rw [es]; exact h.liqMax
      prices := by rw [es]; exact ⟨h.startMin, h.topMax⟩
      final := by rw [es]; exact ⟨h.curve.migLo, h.curve.migHi, h.migMax⟩
      cost := by unfold Spec.curve; rw [es]; exact h.cost
      next := ?_
      sold := by unfold Spec.curve; rw [es, baseToUp_eq h.curve.proper]; exact h.swap
      amounts := ⟨h.swapPos, h.swapMax, h.basePos, h.thresholdPos, h.thresholdMax, hf⟩
      flag := h.flag
      supply := ?_
      shares := ⟨h.creatorPct, h.migFee, h.migCreator⟩ }
  · unfold Spec.curve
    rw [es]
    intro hlt
    by_contra hn
    have := h.highest (c.migrationSqrtPrice + 1) hlt (by omega)
    omega
  · intro hfl
    obtain ⟨a, b, t, ht, d⟩ := h.fixed hfl
    obtain ⟨_, _, rfl⟩ := vesting_total_ok.1 ht
    exact ⟨a, b, d⟩

theorem _root_.Spec.Sound.good {c : PoolConfig} (h : Sound c) : Good c (stored c.curve) := by
  obtain ⟨n, e⟩ := h.rest
  obtain ⟨a1, a2, a3, a4, a5, _⟩ := h.amounts
  have hsw : c.swapBaseAmount = total baseSegUp (segs c.sqrtStartPrice (stored c.curve)) c.migrationSqrtPrice := by
    rw [← baseToUp_eq h.proper]; exact h.sold
  have hfix : c.fixedSupplyFlag = 1 → c.postMigrationSupply ≤ c.preMigrationSupply ∧ c.preMigrationSupply ≤ u64Max ∧
      ∃ t, c.lockedVesting.total = .ok t ∧ c.swapBaseAmount + c.migrationBaseThreshold + t ≤ c.postMigrationSupply := by
    intro hfl
    obtain ⟨b1, b2, b3⟩ := h.supply hfl
    refine ⟨b1, b2, _, vesting_total_ok.2 ⟨?_, ?_, rfl⟩, b3⟩ <;> omega
  refine
    { curve := ⟨⟨n, e⟩, h.proper, h.some, h.final.1, h.final.2.1⟩
      liqMax := h.liquidity
      cost := h.cost
      highest := ?_
      startMin := h.prices.1
      topMax := h.prices.2
      migMax := h.final.2.2
      swap := hsw
      swapMax := a2
      swapPos := a1
      basePos := a3
      thresholdPos := a4
      thresholdMax := a5
      supply := ?_
      fixed := hfix
      flag := h.flag
      creatorPct := h.shares.1
      migFee := h.shares.2.1
      migCreator := h.shares.2.2 }
  · intro Q hQ hc
    by_contra hn
    have h1 := h.next (by omega)
    have h2 := quoteToUp_mono h.proper (show c.migrationSqrtPrice + 1 ≤ Q by omega)
    unfold Spec.curve at h1
    omega
  · intro s hs
    unfold PoolConfig.initialBaseSupply at hs
    rw [ite_ok] at hs
    rcases hs with ⟨hf, hs⟩ | ⟨hf, hs⟩
    · obtain ⟨b1, b2, t, b3, b4⟩ := hfix hf
      rw [ok_inj] at hs
      exact ⟨t, b3, by omega, by omega⟩
    · simp only [bind_ok] at hs
      obtain ⟨b, hb, hs⟩ := hs
      obtain ⟨t, b1, b2, b3⟩ := totalTokenSupply_ok hs
      rw [e, usedCurve_pad h.proper] at hb
      have := swapAmountWithBuffer_ge h.proper h.final.1 (by have := h.final.2.2; omega) hsw hb
      exact ⟨t, b1, by omega, b3⟩

/-- Lamports cover what is due. -/
structure Lamp (w : World) : Prop where
  bits : w.pool.creationBits = 0 ∨ w.pool.creationBits = 1 ∨ w.pool.creationBits = 2 ∨ w.pool.creationBits = 3
  legacy : w.pool.legacyCreationBits = 0 ∨ w.pool.legacyCreationBits = 1 ∨ w.pool.legacyCreationBits = 2 ∨
    w.pool.legacyCreationBits = 3
  due : creationDue w ≤ w.lamports

/-- All that holds of an audited pool ever after. -/
structure Held (w : World) : Prop where
  core : ∃ ps, Core w ps
  cycle : Cycle w
  solvent : Solvent w
  resMax : w.pool.baseReserve ≤ u64Max ∧ w.pool.quoteReserve ≤ u64Max
  lamp : Lamp w
  feeMax : w.cfg.poolCreationFee ≤ u64Max

theorem _root_.Spec.Audited.held {w : World} (h : Audited w) : Held w := by
  have hg := h.config.good
  obtain ⟨hp, t1, t2, t3, t4, t5, t6, t7, t8, t9⟩ := h.trading
  have h0 : w.pool.migrationProgress = 0 := by
    unfold phase at hp
    split at hp <;> first | assumption | cases hp
  have hi : w.pool.quoteReserve < w.cfg.migrationQuoteThreshold := by
    have := h.incomplete
    unfold Completed at this
    omega
  have vb := h.vaults .base
  have vq := h.vaults .quote
  simp only [fees, partnerFee, creatorFee, protocolFee, reserve, vault] at vb vq
  obtain ⟨m1, m2, m3, m4⟩ := h.limits
  obtain ⟨c1, c2, c3⟩ := h.creation
  have hl := h.fresh
  have := hg.thresholdMax
  refine ⟨⟨_, hg, h.price.1, h.price.2, h.quote, h.base⟩, ?_, ?_, ⟨m1, by omega⟩, ⟨by omega, by omega, c3⟩,
    h.config.amounts.2.2.2.2.2⟩
  · exact
      { prog := by omega
        start := by omega
        mig := by omega
        vest := fun e => by omega
        early := fun _ => ⟨t2, t3, t4, t5⟩
        status := .inl t5
        paS := .inl ⟨t2, by rw [hl]⟩
        crS := .inl ⟨t3, by rw [hl]⟩
        prS := .inl t4
        paM := by rw [hl, t5]; rfl
        crM := by rw [hl, t5]; rfl
        notYet := fun _ => by rw [hl]; exact ⟨t7, t8, rfl, rfl, rfl, rfl, rfl, rfl, t6⟩
        leftover := .inl ⟨t6, by rw [hl]⟩
        first := by rw [hl]; exact ⟨Nat.zero_le _, t9⟩
        locker := ⟨fun _ => by rw [hl], fun e => by omega⟩ }
  · refine ⟨m3, m2, m4, fun _ => ?_, ?_, ?_, ?_, fun _ => ?_, ?_, ?_⟩
    · exact vb
    · intro e; omega
    · intro e; omega
    · intro e; omega
    · exact vq
    · intro e; omega
    · intro e; omega

theorem Lamp.congr {w w' : World} (l : Lamp w) (h1 : w'.pool.creationBits = w.pool.creationBits)
    (h2 : w'.pool.legacyCreationBits = w.pool.legacyCreationBits) (h3 : w'.cfg = w.cfg) (h4 : w.lamports ≤ w'.lamports) :
    Lamp w' := by
  refine ⟨by rw [h1]; exact l.bits, by rw [h2]; exact l.legacy, ?_⟩
  refine le_trans (le_of_eq ?_) (l.due.trans h4)
  unfold creationDue partnerCreationFee protocolCreationFee
  rw [h1, h2, h3]

theorem Lamp.step {w w' : World} {op : Op} (l : Lamp w) (hs : w.step op = .ok w') : Lamp w' := by
  have hd := l.due
  have e4 := prCreation_le w.cfg
  have ep : partnerCreationFee w = paCreation w.cfg := rfl
  have er : protocolCreationFee w = prCreation w.cfg := rfl
  cases op with
  | swap a =>
    obtain ⟨cur, fm, r, v1, v2, s⟩ := swap_ok hs
    refine l.congr (by rw [s.poolFrame]) (by rw [s.poolFrame]) s.cfg (by rw [s.frame])
  | claimProtocolFee s b q =>
    obtain ⟨_, a, b, c, d, e, f, _, hb, _, hd, hf, _, _, rfl⟩ := claimProtocolFee_ok hs; exact l.congr rfl rfl rfl le_rfl
  | zapProtocolFee s m b x y =>
    obtain ⟨_, _, _, ⟨_, a, b, _, hb, _, _, rfl⟩ | ⟨_, c, d, e, f, _, hd, hf, _, _, rfl⟩⟩ := zapProtocolFee_ok hs <;>
      exact l.congr rfl rfl rfl le_rfl
  | claimPartnerFee s b q =>
    obtain ⟨_, _, _, _, _, _, _, rfl⟩ := claimPartnerFee_ok hs; exact l.congr rfl rfl rfl le_rfl
  | claimCreatorFee s b q =>
    obtain ⟨_, _, _, _, _, _, _, rfl⟩ := claimCreatorFee_ok hs; exact l.congr rfl rfl rfl le_rfl
  | partnerWithdrawSurplus s =>
    obtain ⟨_, h1, h2, x, hx, _, rfl⟩ := partnerWithdrawSurplus_ok hs; exact l.congr rfl rfl rfl le_rfl
  | creatorWithdrawSurplus s =>
    obtain ⟨_, h1, h2, x, hx, _, rfl⟩ := creatorWithdrawSurplus_ok hs; exact l.congr rfl rfl rfl le_rfl
  | withdrawMigrationFee s f =>
    obtain ⟨h1, ⟨_, _, h2, _, rfl⟩ | ⟨_, _, h2, _, rfl⟩⟩ := withdrawMigrationFee_ok hs <;> exact l.congr rfl rfl rfl le_rfl
  | claimPartnerCreationFee s =>
    obtain ⟨_, _, h1, h2, rfl⟩ := claimPartnerCreationFee_ok hs
    obtain ⟨e, g⟩ := cbit2 l.bits h1
    refine ⟨by dsimp only; omega, l.legacy, ?_⟩
    unfold creationDue at hd ⊢
    show _ + (if (w.pool.creationBits ^^^ 2) &&& 1 = 0 then protocolCreationFee w else 0) + _ ≤ w.lamports - paCreation w.cfg
    have b1 : (w.pool.creationBits ^^^ 2) &&& 2 ≠ 0 := by rcases g with g | g <;> rw [g] <;> decide
    have b2 : (w.pool.creationBits ^^^ 2) &&& 1 = w.pool.creationBits &&& 1 := by rcases g with g | g <;> rw [g] <;> decide
    rw [if_pos h1] at hd
    rw [if_neg b1, b2]
    dsimp only
    omega
  | claimProtocolCreationFee s =>
    obtain ⟨_, a, b, bits, leg, h1, h2, h3, rfl⟩ := claimProtocolCreationFee_ok hs
    have hb : (bits = 0 ∨ bits = 1 ∨ bits = 2 ∨ bits = 3) ∧ bits &&& 1 ≠ 0 ∧ bits &&& 2 = w.pool.creationBits &&& 2 ∧
        a = if w.pool.creationBits &&& 1 = 0 then protocolCreationFee w else 0 := by
      rcases h1 with ⟨g, rfl, rfl⟩ | ⟨g, rfl, rfl⟩
      · obtain ⟨e, g'⟩ := cbit1 l.bits g
        rw [if_pos g]
        refine ⟨by omega, ?_, ?_, rfl⟩ <;> rcases g' with g' | g' <;> rw [g'] <;> decide
      · rw [if_neg g]; exact ⟨l.bits, g, rfl, rfl⟩
    have hl : (leg = 0 ∨ leg = 1 ∨ leg = 2 ∨ leg = 3) ∧ ¬ (leg &&& 1 ≠ 0 ∧ leg &&& 2 = 0) ∧
        b = if w.pool.legacyCreationBits &&& 1 ≠ 0 ∧ w.pool.legacyCreationBits &&& 2 = 0 then 10000000 else 0 := by
      rcases h2 with ⟨g1, g2, rfl, rfl⟩ | ⟨g, rfl, rfl⟩
      · rw [if_pos ⟨g1, g2⟩]
        have : w.pool.legacyCreationBits = 1 := by
          rcases l.legacy with g | g | g | g <;> rw [g] at g1 g2 <;> first | exact g | exact absurd g1 (by decide) | exact absurd g2 (by decide)
        rw [this]
        exact ⟨by decide, by decide, rfl⟩
      · rw [if_neg g]; exact ⟨l.legacy, g, rfl⟩
    refine ⟨hb.1, hl.1, ?_⟩
    unfold creationDue at hd ⊢
    show (if bits &&& 2 = 0 then partnerCreationFee w else 0) + (if bits &&& 1 = 0 then protocolCreationFee w else 0) +
      (if leg &&& 1 ≠ 0 ∧ leg &&& 2 = 0 then 10000000 else 0) ≤ w.lamports - (a + b)
    rw [if_neg hb.2.1, if_neg hl.2.1, hb.2.2.1]
    rw [← hb.2.2.2, ← hl.2.2] at hd
    omega
  | createLocker => obtain ⟨h1, h2, rfl⟩ := createLocker_ok hs; exact l.congr rfl rfl rfl le_rfl
  | migrateV1 a =>
    obtain ⟨_, _, _, _, _, _, h1, h2, _, _, _, _, _, _, _, _, _, _, _, rfl⟩ := migrateV1_ok hs
    exact l.congr rfl rfl rfl le_rfl
  | migrateV2 a =>
    obtain ⟨_, _, _, _, _, _, _, _, _, _, _, _, _, _, _, h1, h2, _, _, _, _, _, _, _, _, _, _, _, _, _, _, _, _, rfl⟩ :=
      migrateV2_ok hs
    exact l.congr rfl rfl rfl le_rfl
  | withdrawLeftover r =>
    obtain ⟨_, h1, h2, _, _, _, _, _, rfl⟩ := withdrawLeftover_ok hs; exact l.congr rfl rfl rfl le_rfl
  | createMeta => obtain ⟨_, _, rfl⟩ := createMeta_ok hs; exact l.congr rfl rfl rfl le_rfl
  | lockLp o => obtain ⟨_, _, _, _, _, _, _, rfl⟩ := lockLp_ok hs; exact l.congr rfl rfl rfl le_rfl
  | claimLp o => obtain ⟨_, _, _, _, _, _, _, rfl⟩ := claimLp_ok hs; exact l.congr rfl rfl rfl le_rfl
  | transferCreator s n => obtain ⟨_, _, _, rfl⟩ := transferCreator_ok hs; exact l.congr rfl rfl rfl le_rfl
  | createOperator s a p => obtain ⟨_, _, _, _, rfl⟩ := createOperator_ok hs; exact l.congr rfl rfl rfl le_rfl
  | closeOperator s a => obtain ⟨_, rfl⟩ := closeOperator_ok hs; exact l.congr rfl rfl rfl le_rfl
  | donate b q x => obtain ⟨_, _, rfl⟩ := donate_ok hs; exact l.congr rfl rfl rfl (by dsimp only; omega)
  | mintMore s x => obtain ⟨_, _, rfl⟩ := mintMore_ok hs; exact l.congr rfl rfl rfl le_rfl
  | burnOwn x => obtain ⟨_, rfl⟩ := burnOwn_ok hs; exact l.congr rfl rfl rfl le_rfl

theorem Held.step {w w' : World} {op : Op} (h : Held w) (hs : w.step op = .ok w') : Held w' := by
  obtain ⟨ps, hc⟩ := h.core
  exact ⟨⟨ps, hc.step hs⟩, h.cycle.step hs, h.solvent.step h.cycle hc hs, step_resMax h.resMax hs, h.lamp.step hs,
    by rw [step_cfg hs]; exact h.feeMax⟩

theorem Held.run {w w' : World} {ops : List Op} (h : Held w) (hr : Run w ops w') : Held w' :=
  Run.induct (P := Held) (fun _ _ _ h hs => h.step hs) hr h

theorem Held.funds {w : World} (h : Held w) : Funds w := h.solvent.funds h.cycle h.resMax.2

end Dbc

import Verif.Lemmas.Audit
import Verif.Props.Owed
import Verif.Props.Fixture

/-!
# Pools of earlier releases: C74
-/

namespace Props
open Dbc Spec

instance decProper : (lo : Nat) → (ps : List Point) → Decidable (Proper lo ps)
  | lo, [] => inferInstanceAs (Decidable (0 < lo))
  | lo, p :: ps =>
    have := decProper p.price ps
    inferInstanceAs (Decidable (0 < lo ∧ lo < p.price ∧ 0 < p.liq ∧ Proper p.price ps))

/-- C74: whatever instructions are executed on a pool that once passed the audit, its vaults hold at least everything owed
from them, and its account the lamports still to be paid. -/
theorem C74_solvent {w0 w : World} {ops : List Op} (h : Audited w0) (hr : Run w0 ops w) :
    (phase w).isSome ∧ (∀ t, owed w t ≤ vault w t) ∧ creationDue w ≤ w.lamports := by
  have k := h.held.run hr
  obtain ⟨a, b⟩ := owed_le k.cycle k.solvent
  exact ⟨a, b, k.lamp.due⟩

/-- C74: its price stays on the curve, and its reserves pay for every position of the price. -/
theorem C74_curve {w0 w : World} {ops : List Op} (h : Audited w0) (hr : Run w0 ops w) :
    w.cfg = w0.cfg ∧ w.cfg.sqrtStartPrice ≤ w.pool.sqrtPrice ∧ w.pool.sqrtPrice ≤ w.cfg.migrationSqrtPrice ∧
    quoteToUp (curve w.cfg) w.pool.sqrtPrice ≤ w.pool.quoteReserve ∧
    w.cfg.swapBaseAmount + w.cfg.migrationBaseThreshold + vestingTotal w ≤
      w.pool.baseReserve + baseToDown (curve w.cfg) w.pool.sqrtPrice := by
  have k := h.held.run hr
  obtain ⟨ps, hc⟩ := k.core
  have es := stored_of_good hc.good
  have ec : w.cfg = w0.cfg :=
    Run.rel (R := fun a b => b.cfg = a.cfg) (fun _ => rfl) (fun _ _ _ e1 e2 => e2.trans e1) (fun _ _ _ hs => step_cfg hs) hr
  refine ⟨ec, hc.lo, hc.hi, ?_, ?_⟩
  · unfold curve; rw [es]; exact hc.quote
  · obtain ⟨s, hs, hb⟩ := hc.base
    obtain ⟨t, ht, hle, _⟩ := hc.good.supply s hs
    obtain ⟨_, _, rfl⟩ := vesting_total_ok.1 ht
    have : vestingTotal w = w.cfg.lockedVesting.cliffUnlock +
      w.cfg.lockedVesting.amountPerPeriod * w.cfg.lockedVesting.numberOfPeriod := rfl
    unfold curve; rw [es]; omega

/-- C74: trading fees are paid to whoever may claim them. -/
theorem C74_fees_paid {w0 w : World} {ops : List Op} (h : Audited w0) (hr : Run w0 ops w) (mb mq : Nat) :
    (∃ w', w.step (.claimPartnerFee w.cfg.feeClaimer mb mq) = .ok w' ∧
      ∀ t, paidPartner w' t = paidPartner w t + min (capOf mb mq t) (partnerFee w t)) ∧
    (∃ w', w.step (.claimCreatorFee w.pool.creator mb mq) = .ok w' ∧
      ∀ t, paidCreator w' t = paidCreator w t + min (capOf mb mq t) (creatorFee w t)) ∧
    (∀ s, HasPermission w s 0 → ∃ w', w.step (.claimProtocolFee s mb mq) = .ok w' ∧
      ∀ t, paidProtocol w' t = paidProtocol w t +
        (min (capOf mb mq t) (protocolFee w t + protocolMigFee w t) + surplusIn w t)) :=
  fee_claims_of (h.held.run hr).funds mb mq

/-- C74: so are the shares of a completed pool. -/
theorem C74_shares_paid {w0 w : World} {ops : List Op} (h : Audited w0) (hr : Run w0 ops w) (hd : Completed w) :
    (w.pool.partnerSurplus = 0 → ∃ w', w.step (.partnerWithdrawSurplus w.cfg.feeClaimer) = .ok w' ∧
      w'.led.partnerSurplus = partnerSurplus w ∧ w'.quoteVault + partnerSurplus w = w.quoteVault) ∧
    (w.pool.creatorSurplus = 0 → ∃ w', w.step (.creatorWithdrawSurplus w.pool.creator) = .ok w' ∧
      w'.led.creatorSurplus = creatorSurplus w ∧ w'.quoteVault + creatorSurplus w = w.quoteVault) ∧
    (w.pool.migrationFeeStatus &&& 4 = 0 → ∃ w', w.step (.withdrawMigrationFee w.cfg.feeClaimer 0) = .ok w' ∧
      w'.led.partnerMig = partnerMigrationFee w ∧ w'.quoteVault + partnerMigrationFee w = w.quoteVault) ∧
    (w.pool.migrationFeeStatus &&& 2 = 0 → ∃ w', w.step (.withdrawMigrationFee w.pool.creator 1) = .ok w' ∧
      w'.led.creatorMig = creatorMigrationFee w ∧ w'.quoteVault + creatorMigrationFee w = w.quoteVault) := by
  have k := h.held.run hr
  obtain ⟨ps, hc⟩ := k.core
  exact shares_of hc k.cycle k.funds hd

/-- What the protocol can still collect of creation fees, old and new. -/
def protocolCreationDue (w : World) : Nat :=
  (if w.pool.creationBits &&& 1 = 0 then protocolCreationFee w else 0) +
  (if w.pool.legacyCreationBits &&& 1 ≠ 0 ∧ w.pool.legacyCreationBits &&& 2 = 0 then 10000000 else 0)

/-- C74: an operator collects the protocol's creation fees in full, the flat fee of earlier releases included, and only
once; the partner collects theirs. -/
theorem C74_creation_paid {w0 w : World} {ops : List Op} (h : Audited w0) (hr : Run w0 ops w) :
    (∀ s, HasPermission w s 0 → ∃ w', w.step (.claimProtocolCreationFee s) = .ok w' ∧
      w'.lamports + protocolCreationDue w = w.lamports ∧ protocolCreationDue w' = 0) ∧
    (0 < partnerCreationFee w → w.pool.creationBits &&& 2 = 0 →
      ∃ w', w.step (.claimPartnerCreationFee w.cfg.feeClaimer) = .ok w' ∧
        w'.lamports + partnerCreationFee w = w.lamports ∧ w'.pool.creationBits &&& 2 ≠ 0) := by
  have k := h.held.run hr
  have l := k.lamp
  have hd := l.due
  refine ⟨fun s hs => ?_, fun hp hb => ?_⟩
  · have hdue : protocolCreationDue w ≤ w.lamports := by unfold creationDue at hd; unfold protocolCreationDue; omega
    have hfee : prCreation w.cfg + 10000000 ≤ u64Max := by
      have h1 : prCreation w.cfg ≤ u64Max / 10 := by
        unfold prCreation
        have := k.feeMax
        omega
      have : u64Max / 10 + 10000000 ≤ u64Max := by decide
      omega
    have ht : ∃ p', w.pool.takeProtocolCreationFee w.cfg = .ok (protocolCreationDue w, p') := by
      unfold protocolCreationDue
      simp only [Pool.takeProtocolCreationFee, bind_ok, ite_ok, Prod.exists, ok_inj, safeAdd_ok, Prod.mk.injEq]
      by_cases hb : w.pool.creationBits &&& 1 = 0
      · rw [if_pos hb]
        by_cases hl : w.pool.legacyCreationBits &&& 1 ≠ 0 ∧ w.pool.legacyCreationBits &&& 2 = 0
        · rw [if_pos hl]
          exact ⟨_, _, _, .inl ⟨hb, _, _, splitCreationFee_fits k.feeMax, rfl, rfl⟩, .inl ⟨hl, _, ⟨hfee, rfl⟩, rfl, rfl⟩⟩
        · rw [if_neg hl]
          exact ⟨_, _, _, .inl ⟨hb, _, _, splitCreationFee_fits k.feeMax, rfl, rfl⟩, .inr ⟨hl, rfl, rfl⟩⟩
      · rw [if_neg hb]
        by_cases hl : w.pool.legacyCreationBits &&& 1 ≠ 0 ∧ w.pool.legacyCreationBits &&& 2 = 0
        · rw [if_pos hl]
          exact ⟨_, _, _, .inr ⟨hb, rfl, rfl⟩, .inl ⟨hl, _, ⟨by show 0 + 10000000 ≤ u64Max; omega, rfl⟩, rfl, rfl⟩⟩
        · rw [if_neg hl]
          exact ⟨_, _, _, .inr ⟨hb, rfl, rfl⟩, .inr ⟨hl, rfl, rfl⟩⟩
    obtain ⟨p', ht⟩ := ht
    have e : ∃ w', w.claimProtocolCreationFee s = .ok w' := by
      simp only [World.claimProtocolCreationFee, World.checkOperator, ht, bind_ok, req_ok, Prod.exists, ite_ok,
        lamportsOut_ok, ok_inj]
      by_cases hz : 0 < protocolCreationDue w
      · exact ⟨_, (), hs, _, _, rfl, _, .inl ⟨hz, hdue, rfl⟩, rfl⟩
      · exact ⟨_, (), hs, _, _, rfl, _, .inr ⟨hz, rfl⟩, rfl⟩
    obtain ⟨w', e⟩ := e
    refine ⟨w', e, ?_⟩
    obtain ⟨_, a, b, bits, leg, h1, h2, h3, rfl⟩ := claimProtocolCreationFee_ok e
    have ha : bits &&& 1 ≠ 0 ∧ a = if w.pool.creationBits &&& 1 = 0 then protocolCreationFee w else 0 := by
      rcases h1 with ⟨g, rfl, rfl⟩ | ⟨g, rfl, rfl⟩
      · rw [if_pos g]
        refine ⟨?_, rfl⟩
        rcases l.bits with g' | g' | g' | g' <;> rw [g'] at g ⊢ <;> first | decide | exact absurd g (by decide)
      · rw [if_neg g]; exact ⟨g, rfl⟩
    have hb : ¬ (leg &&& 1 ≠ 0 ∧ leg &&& 2 = 0) ∧
        b = if w.pool.legacyCreationBits &&& 1 ≠ 0 ∧ w.pool.legacyCreationBits &&& 2 = 0 then 10000000 else 0 := by
      rcases h2 with ⟨g1, g2, rfl, rfl⟩ | ⟨g, rfl, rfl⟩
      · rw [if_pos ⟨g1, g2⟩]
        refine ⟨?_, rfl⟩
        rcases l.legacy with g | g | g | g <;> rw [g] at g1 g2 ⊢ <;>
          first | decide | exact absurd g1 (by decide) | exact absurd g2 (by decide)
      · rw [if_neg g]; exact ⟨g, rfl⟩
    have he : protocolCreationDue w = a + b := by rw [ha.2, hb.2]; rfl
    refine ⟨?_, ?_⟩
    · rw [he]; exact Nat.sub_add_cancel h3
    · show (if bits &&& 1 = 0 then _ else 0) + (if leg &&& 1 ≠ 0 ∧ leg &&& 2 = 0 then 10000000 else 0) = 0
      rw [if_neg ha.1, if_neg hb.1]
  · have hdue : partnerCreationFee w ≤ w.lamports := by
      unfold creationDue at hd
      rw [if_pos hb] at hd
      omega
    have e : ∃ w', w.claimPartnerCreationFee w.cfg.feeClaimer = .ok w' := by
      simp only [World.claimPartnerCreationFee, bind_ok, req_ok, Prod.exists, takeBit_ok, lamportsOut_ok, ok_inj]
      exact ⟨_, (), trivial, _, _, splitCreationFee_fits k.feeMax, (), hp, _, ⟨hb, rfl⟩, _, ⟨hdue, rfl⟩, rfl⟩
    obtain ⟨w', e⟩ := e
    refine ⟨w', e, ?_⟩
    obtain ⟨_, _, h1, h2, rfl⟩ := claimPartnerCreationFee_ok e
    refine ⟨Nat.sub_add_cancel h2, ?_⟩
    show (w.pool.creationBits ^^^ 2) &&& 2 ≠ 0
    rcases l.bits with g | g | g | g <;> rw [g] at h1 ⊢ <;> first | decide | exact absurd h1 (by decide)

/-- C74: the audit asks for nothing that pools of this release lack: every pool it can create passes, at any moment while it
is trading. -/
theorem C74_all_pass {w : World} (h : Reachable w) (ht : phase w = some .trading) : Audited { w with led := {} } := by
  obtain ⟨ps, hc⟩ := h.core
  have l := h.life
  have sv := h.solvent
  have h0 : w.pool.migrationProgress = 0 := by
    unfold phase at ht
    split at ht <;> first | assumption | cases ht
  have es := stored_of_good hc.good
  obtain ⟨k1, k2, k3, k4⟩ := l.early h0
  have k7 := l.notYet (by omega)
  have f := h.creationFee
  refine
    { config := hc.good.sound f
      trading := ⟨ht, l.mig.2 (by omega), k1, k2, k3, k4, k7.2.2.2.2.2.2.2.2, k7.1, k7.2.1, l.first.2⟩
      incomplete := by have := l.start.1 h0; unfold Completed; dsimp only; omega
      price := ⟨hc.lo, hc.hi⟩
      quote := by unfold curve; dsimp only; rw [es]; exact hc.quote
      base := by unfold curve; dsimp only; rw [es]; exact hc.base
      vaults := fun t => by cases t; exact sv.base0 h0; exact sv.quote0 h0
      limits := ⟨h.resMax.1, sv.baseMax, sv.supMax, sv.quoteMax⟩
      creation := ⟨by have := l.creation; dsimp only; omega, by have := l.legacy; dsimp only; omega, ?_⟩
      fresh := rfl }
  have e1 := l.laP; have e2 := l.laR; have e3 := l.lam; have e4 := prCreation_le w.cfg
  have eb := l.creation
  show (if w.pool.creationBits &&& 2 = 0 then paCreation w.cfg else 0) +
    (if w.pool.creationBits &&& 1 = 0 then prCreation w.cfg else 0) +
    (if w.pool.legacyCreationBits &&& 1 ≠ 0 ∧ w.pool.legacyCreationBits &&& 2 = 0 then 10000000 else 0) ≤ w.lamports
  rw [l.legacy, if_neg (show ¬ (0 &&& 1 ≠ 0 ∧ 0 &&& 2 = 0) by decide)]
  rcases eb with g | g | g | g <;> rw [g] at e1 e2 ⊢ <;> simp at e1 e2 ⊢ <;> omega

/-- C74: both mainnet pools pass the audit. The first has a configuration that would be refused today (no liquidity is locked),
and neither pays the protocol's liquidity fee. -/
theorem C74_mainnet : Audited Ex.mainnetQ ∧ Audited Ex.mainnetBoth ∧
    Ex.mainnetQ.cfg.lockedBpsAt 86400 = .ok 0 ∧ Ex.mainnetQ.pool.migrationFeeBps = 0 ∧ Ex.mainnetBoth.pool.migrationFeeBps = 0 ∧
    0 < fees Ex.mainnetQ .quote ∧ 0 < fees Ex.mainnetBoth .base ∧ 0 < fees Ex.mainnetBoth .quote := by
  have hQ : Sound Ex.mainnetConfigQ := by
    refine ⟨⟨18, ?_⟩, ?_, ?_, ?_, ?_, ?_, ?_, ?_, ?_, ?_, ?_, ?_, ?_⟩ <;> decide +kernel
  have hB : Sound Ex.mainnetConfigBoth := by
    refine ⟨⟨18, ?_⟩, ?_, ?_, ?_, ?_, ?_, ?_, ?_, ?_, ?_, ?_, ?_, ?_⟩ <;> decide +kernel
  refine ⟨⟨hQ, by decide +kernel, by decide +kernel, by decide +kernel, by decide +kernel, ⟨1000000000000000, rfl, ?_⟩,
    fun t => ?_, by decide +kernel, by decide +kernel, rfl⟩, ⟨hB, by decide +kernel, by decide +kernel, by decide +kernel,
    by decide +kernel, ⟨1000000000000000, rfl, ?_⟩, fun t => ?_, by decide +kernel, by decide +kernel, rfl⟩, ?_⟩
  · decide +kernel
  · cases t <;> decide +kernel
  · decide +kernel
  · cases t <;> decide +kernel
  · decide +kernel

/-- Trading a mainnet pool to its end and sharing out what it earned. -/
def mainnetOps : List Op :=
  [Ex.sell 0 5000000000000 1 1760000000 true, Ex.buy 1 1000000000 0 1760000010 false Ex.txSwap, .claimPartnerFee 11 100 1000000000,
   Ex.buy 1 200000000000 0 1760000020 false Ex.txSwap, .partnerWithdrawSurplus 11, .claimProtocolFee 31 5 1000000]

/-- C74: histories from a mainnet pool, one of them through completion, and a pool with the flat fee of earlier releases
unpaid. -/
theorem C74_example :
    (∃ w, Run Ex.mainnetBoth mainnetOps w ∧ Completed w ∧ phase w = some .ready ∧ 0 < creatorSurplus w + partnerSurplus w) ∧
    (Audited { Ex.mainnetQ with pool := { Ex.mainnetPoolQ with legacyCreationBits := 1 }, lamports := 10000000 } ∧
      HasPermission { Ex.mainnetQ with pool := { Ex.mainnetPoolQ with legacyCreationBits := 1 }, lamports := 10000000 } 31 0 ∧
      protocolCreationDue
        { Ex.mainnetQ with pool := { Ex.mainnetPoolQ with legacyCreationBits := 1 }, lamports := 10000000 } = 10000000) := by
  have hQ := C74_mainnet.1
  refine ⟨⟨(Ex.exec Ex.mainnetBoth mainnetOps).toOption.getD Ex.mainnetBoth, Ex.exec_run (by decide +kernel), ?_⟩,
    ⟨hQ.config, hQ.trading, hQ.incomplete, hQ.price, hQ.quote, hQ.base, fun t => by cases t <;> decide +kernel,
      hQ.limits, by decide +kernel, rfl⟩,
    ⟨⟨31, 3⟩, by decide +kernel, rfl, by decide⟩, by decide +kernel⟩
  decide +kernel

end Props

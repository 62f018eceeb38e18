import Verif.Lemmas.Payable
import Verif.Spec.Life
import Verif.Props.Claims

/-!
# What is owed is there and can be paid: C13, C14, C19, C51
-/

namespace Props
open Dbc Spec

theorem migrationQuote_eq (w : World) : migrationQuote w = migQuote w.cfg :=
  up_eq_divCeil _ 100 (by decide)

theorem migrationFee_eq (w : World) : migrationFee w = migFee w.cfg := by
  unfold migrationFee migFee; rw [migrationQuote_eq]

theorem creatorMigrationFee_eq (w : World) : creatorMigrationFee w = crMig w.cfg := by
  unfold creatorMigrationFee crMig; rw [migrationFee_eq]

theorem partnerMigrationFee_eq (w : World) : partnerMigrationFee w = paMig w.cfg := by
  unfold partnerMigrationFee paMig; rw [migrationFee_eq, creatorMigrationFee_eq]

theorem creatorSurplus_eq (w : World) : creatorSurplus w = crSurplus w.cfg w.surplus := rfl
theorem partnerSurplus_eq (w : World) : partnerSurplus w = paSurplus w.cfg w.surplus := rfl
theorem protocolSurplus_eq (w : World) : protocolSurplus w = protoPart w.surplus := rfl

/-- The unpaid shares, read from the lifetime payments or from the flags. -/
theorem rest_eq {w : World} (l : Cycle w) : owedQuote.rest w = w.shares := by
  unfold owedQuote.rest World.shares
  rw [creatorSurplus_eq, partnerSurplus_eq, protocolSurplus_eq, creatorMigrationFee_eq, partnerMigrationFee_eq, l.paM, l.crM]
  generalize protoPart w.surplus = x3
  have e1 : paSurplus w.cfg w.surplus - w.led.partnerSurplus =
      if w.pool.partnerSurplus = 0 then paSurplus w.cfg w.surplus else 0 := by
    rcases l.paS with ⟨a, b⟩ | ⟨a, b⟩
    · rw [a, b, if_pos rfl, Nat.sub_zero]
    · rw [a, b, if_neg (by decide), Nat.sub_self]
  have e2 : crSurplus w.cfg w.surplus - w.led.creatorSurplus =
      if w.pool.creatorSurplus = 0 then crSurplus w.cfg w.surplus else 0 := by
    rcases l.crS with ⟨a, b⟩ | ⟨a, b⟩
    · rw [a, b, if_pos rfl, Nat.sub_zero]
    · rw [a, b, if_neg (by decide), Nat.sub_self]
  rw [e1, e2]
  congr 1
  · congr 1; split <;> omega
  · split <;> omega

/-! ### C13 -/

/-- The invariants of solvency in terms of what is owed. -/
theorem owed_le {w : World} (l : Cycle w) (sv : Solvent w) : (phase w).isSome ∧ ∀ t, owed w t ≤ vault w t := by
  have hp := l.prog
  have hr := rest_eq l
  have hm := migrationQuote_eq w
  have b0 := sv.base0; have b1 := sv.base1; have b2 := sv.base2; have b3 := sv.base3
  have q0 := sv.quote0; have q12 := sv.quote12; have q3 := sv.quote3
  unfold World.baseFees at b0 b1 b2 b3
  unfold World.quoteFees at q0 q12 q3
  have hc : w.pool.migrationProgress = 0 ∨ w.pool.migrationProgress = 1 ∨ w.pool.migrationProgress = 2 ∨
    w.pool.migrationProgress = 3 := by omega
  have hv : vestingTotal w = vestTotal w.cfg := rfl
  refine ⟨?_, fun t => ?_⟩
  · unfold phase; rcases hc with e | e | e | e <;> rw [e] <;> rfl
  · cases t
    · show fees w .base + owedBase w ≤ w.baseVault
      simp only [fees, partnerFee, creatorFee, protocolFee, owedBase, phase]
      rcases hc with e | e | e | e <;> simp only [e]
      · exact b0 e
      · rw [hv]; exact b1 e
      · exact b2 e
      · exact b3 e
    · show fees w .quote + owedQuote w ≤ w.quoteVault
      simp only [fees, partnerFee, creatorFee, protocolFee, owedQuote, phase]
      rcases hc with e | e | e | e <;> simp only [e]
      · exact q0 e
      · rw [hr, hm]; exact q12 (.inl e)
      · rw [hr, hm]; exact q12 (.inr e)
      · rw [hr]; exact q3 e

/-- C13: in every reachable state the pool is in one of the four phases and each vault holds at least everything owed from
it. -/
theorem C13_vaults_solvent {w : World} (h : Reachable w) : (phase w).isSome ∧ ∀ t, owed w t ≤ vault w t :=
  owed_le h.life.toCycle h.solvent

/-- A pool in each phase, with every kind of debt present. -/
theorem C13_example : Reachable Ex.tradingA ∧ phase Ex.tradingA = some .trading ∧ 0 < fees Ex.tradingA .base ∧
    Reachable Ex.pendingA ∧ phase Ex.pendingA = some .vestingPending ∧ 0 < creatorSurplus Ex.pendingA ∧
    0 < partnerMigrationFee Ex.pendingA ∧ 0 < creatorMigrationFee Ex.pendingA ∧ 0 < vestingTotal Ex.pendingA ∧
    Reachable Ex.readyA ∧ phase Ex.readyA = some .ready ∧ 0 < Ex.readyA.led.partnerSurplus ∧
    Reachable Ex.migratedA ∧ phase Ex.migratedA = some .migrated ∧ 0 < protocolMigFee Ex.migratedA .quote := by
  refine ⟨Ex.reachTradingA, ?_, ?_, Ex.reachPendingA, ?_, ?_, ?_, ?_, ?_, Ex.reachReadyA, ?_, ?_, Ex.reachMigratedA, ?_, ?_⟩ <;>
    decide +kernel

/-! ### C51 -/

/-- C51: in every reachable state, everything that ever left a vault plus what it still holds equals everything that ever
entered it. -/
theorem C51_every_token_accounted {w : World} (h : Reachable w) :
    (∃ initial, w.cfg.initialBaseSupply = .ok initial ∧
      vault w .base + (traderOut w .base + referrals w .base + paidPartner w .base + paidCreator w .base +
        paidProtocol w .base + w.led.locker + w.led.migBase + w.led.burnt + w.led.leftover) =
      initial + traderIn w .base + w.led.donBase) ∧
    vault w .quote + (traderOut w .quote + referrals w .quote + paidPartner w .quote + paidCreator w .quote +
      paidProtocol w .quote + w.led.partnerSurplus + w.led.creatorSurplus + w.led.partnerMig + w.led.creatorMig +
      w.led.migQuote) = traderIn w .quote + w.led.donQuote := by
  obtain ⟨ps, hc⟩ := h.core
  obtain ⟨s, hs, _⟩ := hc.base
  exact ⟨⟨s, hs, h.flows.base s hs⟩, h.flows.quote⟩

theorem C51_example : Reachable Ex.finishedA ∧
    (let l := Ex.finishedA.led
     0 < l.tradeBaseIn ∧ 0 < l.tradeQuoteIn ∧ 0 < l.tradeBaseOut ∧ 0 < l.tradeQuoteOut ∧ 0 < l.refBase ∧ 0 < l.refQuote ∧
     0 < l.paidPartnerBase ∧ 0 < l.paidPartnerQuote ∧ 0 < l.paidCreatorBase ∧ 0 < l.paidCreatorQuote ∧
     0 < l.paidProtocolBase ∧ 0 < l.paidProtocolQuote ∧ 0 < l.partnerSurplus ∧ 0 < l.creatorSurplus ∧ 0 < l.partnerMig ∧
     0 < l.creatorMig ∧ 0 < l.locker ∧ 0 < l.migBase ∧ 0 < l.migQuote ∧ 0 < l.burnt ∧ 0 < l.leftover ∧ 0 < l.donBase ∧
     0 < l.donQuote) := by
  refine ⟨Ex.reachFinishedA, ?_⟩
  decide +kernel

/-! ### C14 -/

/-- The statement of C14 on trading fees, where the vaults hold what they should. -/
theorem fee_claims_of {w : World} (h : Funds w) (mb mq : Nat) :
    (∃ w', w.step (.claimPartnerFee w.cfg.feeClaimer mb mq) = .ok w' ∧
      ∀ t, paidPartner w' t = paidPartner w t + min (capOf mb mq t) (partnerFee w t)) ∧
    (∃ w', w.step (.claimCreatorFee w.pool.creator mb mq) = .ok w' ∧
      ∀ t, paidCreator w' t = paidCreator w t + min (capOf mb mq t) (creatorFee w t)) ∧
    (∀ s, HasPermission w s 0 → ∃ w', w.step (.claimProtocolFee s mb mq) = .ok w' ∧
      ∀ t, paidProtocol w' t = paidProtocol w t +
        (min (capOf mb mq t) (protocolFee w t + protocolMigFee w t) + surplusIn w t)) := by
  refine ⟨?_, ?_, fun s hs => ?_⟩
  · obtain ⟨w', e⟩ := claimPartnerFee_succeeds h (s := w.cfg.feeClaimer) (mb := mb) (mq := mq) rfl
    exact ⟨w', e, fun t => ((C18_partner_claim e).1 t).1⟩
  · obtain ⟨w', e⟩ := claimCreatorFee_succeeds h (s := w.pool.creator) (mb := mb) (mq := mq) rfl
    exact ⟨w', e, fun t => ((C18_creator_claim e).1 t).1⟩
  · obtain ⟨w', e⟩ := claimProtocolFee_succeeds h (mb := mb) (mq := mq) hs
    exact ⟨w', e, fun t => ((C18_protocol_claim e).1 t).paid⟩

/-- C14, trading fees: whoever may claim is paid per token the smaller of the cap and the balance. -/
theorem C14_fee_claims_never_starved {w : World} (h : Reachable w) (mb mq : Nat) :
    (∃ w', w.step (.claimPartnerFee w.cfg.feeClaimer mb mq) = .ok w' ∧
      ∀ t, paidPartner w' t = paidPartner w t + min (capOf mb mq t) (partnerFee w t)) ∧
    (∃ w', w.step (.claimCreatorFee w.pool.creator mb mq) = .ok w' ∧
      ∀ t, paidCreator w' t = paidCreator w t + min (capOf mb mq t) (creatorFee w t)) ∧
    (∀ s, HasPermission w s 0 → ∃ w', w.step (.claimProtocolFee s mb mq) = .ok w' ∧
      ∀ t, paidProtocol w' t = paidProtocol w t +
        (min (capOf mb mq t) (protocolFee w t + protocolMigFee w t) + surplusIn w t)) :=
  fee_claims_of h.funds mb mq

/-- C14, protocol fees taken with a zap: paid in full whenever there is anything to pay and the surrounding transaction is
acceptable. -/
theorem C14_zap_never_starved {w : World} (h : Reachable w) {s mx : Nat} {isBase : Bool} (hs : HasPermission w s 1)
    (t : Token) (ht : t = if isBase = true then .base else .quote)
    (hpos : 0 < min mx (protocolFee w t + protocolMigFee w t) + surplusIn w t) :
    ∃ w', w.step (.zapProtocolFee s mx isBase true true) = .ok w' ∧
      paidProtocol w' t = paidProtocol w t + (min mx (protocolFee w t + protocolMigFee w t) + surplusIn w t) := by
  have hp : if isBase = true then 0 < min mx (w.pool.protocolBaseFee + w.pool.protocolMigBaseFee)
      else 0 < min mx (w.pool.protocolQuoteFee + w.pool.protocolMigQuoteFee) +
        if w.pool.protocolSurplus = 0 ∧ w.cfg.migrationQuoteThreshold ≤ w.pool.quoteReserve then
          protoPart (w.pool.quoteReserve - w.cfg.migrationQuoteThreshold) else 0 := by
    cases isBase <;> subst ht <;> exact hpos
  obtain ⟨w', e⟩ := zapProtocolFee_succeeds h.funds hs hp
  refine ⟨w', e, ?_⟩
  have := (C18_protocol_zap e).1.paid
  rw [← ht] at this
  exact this

/-- The statement of C14 on the shares of a completed pool, from the invariants it needs. -/
theorem shares_of {w : World} {ps : List Point} (hc : Core w ps) (l : Cycle w) (f : Funds w) (hd : Completed w) :
    (w.pool.partnerSurplus = 0 → ∃ w', w.step (.partnerWithdrawSurplus w.cfg.feeClaimer) = .ok w' ∧
      w'.led.partnerSurplus = partnerSurplus w ∧ w'.quoteVault + partnerSurplus w = w.quoteVault) ∧
    (w.pool.creatorSurplus = 0 → ∃ w', w.step (.creatorWithdrawSurplus w.pool.creator) = .ok w' ∧
      w'.led.creatorSurplus = creatorSurplus w ∧ w'.quoteVault + creatorSurplus w = w.quoteVault) ∧
    (w.pool.migrationFeeStatus &&& 4 = 0 → ∃ w', w.step (.withdrawMigrationFee w.cfg.feeClaimer 0) = .ok w' ∧
      w'.led.partnerMig = partnerMigrationFee w ∧ w'.quoteVault + partnerMigrationFee w = w.quoteVault) ∧
    (w.pool.migrationFeeStatus &&& 2 = 0 → ∃ w', w.step (.withdrawMigrationFee w.pool.creator 1) = .ok w' ∧
      w'.led.creatorMig = creatorMigrationFee w ∧ w'.quoteVault + creatorMigrationFee w = w.quoteVault) := by
  have g1 := hc.good.creatorPct
  have g2 := hc.good.migFee
  have g3 := hc.good.migCreator
  refine ⟨fun h0 => ?_, fun h0 => ?_, fun h0 => ?_, fun h0 => ?_⟩
  · obtain ⟨w', e⟩ := partnerWithdrawSurplus_succeeds f g1 rfl hd h0
    refine ⟨w', e, ?_⟩
    obtain ⟨_, _, _, _, rfl, h2, rfl⟩ := partnerWithdrawSurplus_ok e
    have hl : w.led.partnerSurplus = 0 := by have := l.paS; omega
    rw [partnerSurplus_eq]
    exact ⟨by show w.led.partnerSurplus + _ = _; rw [hl, Nat.zero_add]; rfl, Nat.sub_add_cancel h2⟩
  · obtain ⟨w', e⟩ := creatorWithdrawSurplus_succeeds f g1 rfl hd h0
    refine ⟨w', e, ?_⟩
    obtain ⟨_, _, _, _, rfl, h2, rfl⟩ := creatorWithdrawSurplus_ok e
    have hl : w.led.creatorSurplus = 0 := by have := l.crS; omega
    rw [creatorSurplus_eq]
    exact ⟨by show w.led.creatorSurplus + _ = _; rw [hl, Nat.zero_add]; rfl, Nat.sub_add_cancel h2⟩
  · have h1 := (bit4 l.status h0).2
    obtain ⟨w', e⟩ := withdrawMigrationFee_partner f (by omega) g3 rfl hd h0 h1
    refine ⟨w', e, ?_⟩
    rw [partnerMigrationFee_eq]
    have hl := l.paM
    rw [if_pos h1] at hl
    obtain ⟨_, ⟨_, _, _, h2, rfl⟩ | ⟨hf, _⟩⟩ := withdrawMigrationFee_ok e
    · exact ⟨by show w.led.partnerMig + _ = _; rw [hl, Nat.zero_add], Nat.sub_add_cancel h2⟩
    · cases hf
  · have h1 := (bit2 l.status h0).2
    obtain ⟨w', e⟩ := withdrawMigrationFee_creator f (by omega) g3 rfl hd h0 h1
    refine ⟨w', e, ?_⟩
    rw [creatorMigrationFee_eq]
    have hl := l.crM
    rw [if_pos h1] at hl
    obtain ⟨_, ⟨hf, _⟩ | ⟨_, _, _, h2, rfl⟩⟩ := withdrawMigrationFee_ok e
    · cases hf
    · exact ⟨by show w.led.creatorMig + _ = _; rw [hl, Nat.zero_add], Nat.sub_add_cancel h2⟩

/-- C14, shares of a completed pool: each party that has not yet taken its surplus or migration fee is paid exactly its
share. -/
theorem C14_shares_never_starved {w : World} (h : Reachable w) (hd : Completed w) :
    (w.pool.partnerSurplus = 0 → ∃ w', w.step (.partnerWithdrawSurplus w.cfg.feeClaimer) = .ok w' ∧
      w'.led.partnerSurplus = partnerSurplus w ∧ w'.quoteVault + partnerSurplus w = w.quoteVault) ∧
    (w.pool.creatorSurplus = 0 → ∃ w', w.step (.creatorWithdrawSurplus w.pool.creator) = .ok w' ∧
      w'.led.creatorSurplus = creatorSurplus w ∧ w'.quoteVault + creatorSurplus w = w.quoteVault) ∧
    (w.pool.migrationFeeStatus &&& 4 = 0 → ∃ w', w.step (.withdrawMigrationFee w.cfg.feeClaimer 0) = .ok w' ∧
      w'.led.partnerMig = partnerMigrationFee w ∧ w'.quoteVault + partnerMigrationFee w = w.quoteVault) ∧
    (w.pool.migrationFeeStatus &&& 2 = 0 → ∃ w', w.step (.withdrawMigrationFee w.pool.creator 1) = .ok w' ∧
      w'.led.creatorMig = creatorMigrationFee w ∧ w'.quoteVault + creatorMigrationFee w = w.quoteVault) := by
  obtain ⟨ps, hc⟩ := h.core
  exact shares_of hc h.life.toCycle h.funds hd

/-- C14, leftover, vesting and creation fee. -/
theorem C14_others_never_starved {w : World} (h : Reachable w) :
    (phase w = some .migrated → w.cfg.fixedSupplyFlag = 1 → w.pool.isWithdrawLeftover = 0 →
      ∃ w', w.step (.withdrawLeftover w.cfg.leftoverReceiver) = .ok w') ∧
    (phase w = some .vestingPending → ∃ w', w.step .createLocker = .ok w' ∧ w'.led.locker = vestingTotal w) ∧
    (0 < partnerCreationFee w → w.pool.creationBits &&& 2 = 0 →
      ∃ w', w.step (.claimPartnerCreationFee w.cfg.feeClaimer) = .ok w' ∧ w'.led.lamportsPartner = partnerCreationFee w) ∧
    (∀ s, HasPermission w s 0 →
      ∃ w', w.step (.claimProtocolCreationFee s) = .ok w' ∧ w'.led.lamportsProtocol = protocolCreationFee w) := by
  have l := h.life
  have hph : ∀ n p, (n = 1 ∧ p = Phase.vestingPending ∨ n = 3 ∧ p = Phase.migrated) → phase w = some p →
      w.pool.migrationProgress = n := by
    intro n p hn hp
    have := l.prog
    have hc : w.pool.migrationProgress = 0 ∨ w.pool.migrationProgress = 1 ∨ w.pool.migrationProgress = 2 ∨
      w.pool.migrationProgress = 3 := by omega
    unfold phase at hp
    rcases hc with e | e | e | e <;> rw [e] at hp <;> rcases hn with ⟨rfl, rfl⟩ | ⟨rfl, rfl⟩ <;> first | exact e | cases hp
  refine ⟨fun hp hf h0 => ?_, fun hp => ?_, fun hp hb => ?_, fun s hs => ?_⟩
  · exact withdrawLeftover_succeeds h.funds rfl (hph 3 _ (.inr ⟨rfl, rfl⟩) hp) hf h0
  · have h1 := hph 1 _ (.inl ⟨rfl, rfl⟩) hp
    obtain ⟨w', e⟩ := createLocker_succeeds h.solvent h1
    refine ⟨w', e, ?_⟩
    have := l.locker.1 (by omega)
    obtain ⟨_, _, rfl⟩ := createLocker_ok e
    show w.led.locker + _ = _
    rw [this, Nat.zero_add]
    rfl
  · obtain ⟨w', e⟩ := claimPartnerCreationFee_succeeds l h.creationFee rfl hp hb
    refine ⟨w', e, ?_⟩
    have hl := l.laP
    have := (cbit2 l.creation hb).2
    rw [if_pos (by omega)] at hl
    obtain ⟨_, _, _, _, rfl⟩ := claimPartnerCreationFee_ok e
    show w.led.lamportsPartner + _ = _
    rw [hl, Nat.zero_add]
    rfl
  · obtain ⟨w', e⟩ := claimProtocolCreationFee_succeeds l h.creationFee hs
    refine ⟨w', e, ?_⟩
    have e1 := l.laR
    have e2 := l.legacy
    obtain ⟨_, a, b, bits, leg, h1, h2, _, rfl⟩ := claimProtocolCreationFee_ok e
    have hb : b = 0 := by
      rcases h2 with ⟨g, _⟩ | ⟨_, _, g⟩
      · rw [e2] at g; exact absurd rfl g
      · exact g
    show w.led.lamportsProtocol + (a + b) = prCreation w.cfg
    rcases h1 with ⟨g, _, rfl⟩ | ⟨g, _, rfl⟩
    · rw [if_pos (cbit1 l.creation g).2] at e1; omega
    · have := cbit1' l.creation g
      rw [if_neg (by omega)] at e1; omega

/-- Every kind of claim has something to pay in some reachable state, and they are paid in different orders. -/
theorem C14_example : Reachable Ex.pendingA ∧ Completed Ex.pendingA ∧ phase Ex.pendingA = some .vestingPending ∧
    Ex.pendingA.pool.partnerSurplus = 0 ∧ 0 < partnerSurplus Ex.pendingA ∧
    Ex.pendingA.pool.creatorSurplus = 0 ∧ 0 < creatorSurplus Ex.pendingA ∧
    Ex.pendingA.pool.migrationFeeStatus &&& 4 = 0 ∧ Ex.pendingA.pool.migrationFeeStatus &&& 2 = 0 ∧
    0 < vestingTotal Ex.pendingA ∧
    Reachable Ex.migratedA ∧ phase Ex.migratedA = some .migrated ∧ HasPermission Ex.migratedA 31 0 ∧
    HasPermission Ex.migratedA 31 1 ∧
    0 < surplusIn Ex.migratedA .quote ∧ 0 < protocolMigFee Ex.migratedA .base ∧ 0 < partnerFee Ex.migratedA .base ∧
    0 < creatorFee Ex.migratedA .quote ∧ Ex.migratedA.cfg.fixedSupplyFlag = 1 ∧ Ex.migratedA.pool.isWithdrawLeftover = 0 ∧
    0 < partnerCreationFee Ex.migratedA ∧ Ex.migratedA.pool.creationBits &&& 2 = 0 := by
  refine ⟨Ex.reachPendingA, ?_, ?_, ?_, ?_, ?_, ?_, ?_, ?_, ?_, Ex.reachMigratedA, ?_, ?_, ?_, ?_⟩
  case refine_11 => exact ⟨⟨31, 3⟩, by decide +kernel, rfl, by decide⟩
  case refine_12 => exact ⟨⟨31, 3⟩, by decide +kernel, rfl, by decide⟩
  all_goals decide +kernel

/-! ### C19 -/

/-- Trading fees ever accrued by swaps. -/
def accrued (w : World) : Token → Nat × Nat × Nat
  | .base => (w.led.accPartnerBase, w.led.accCreatorBase, w.led.accProtocolBase)
  | .quote => (w.led.accPartnerQuote, w.led.accCreatorQuote, w.led.accProtocolQuote)

/-- What the protocol was given besides trading fees: its part of the migrated liquidity and, once paid, of the surplus. -/
def protocolExtra (w : World) : Token → Nat
  | .base => w.led.protoMigBase
  | .quote => w.led.protoMigQuote + (if w.pool.protocolSurplus = 0 then 0 else protocolSurplus w)

/-- The lifetime totals reported by the pool account: trading (partner and creator together) and protocol. -/
def reported (w : World) : Token → Nat × Nat
  | .base => (w.pool.metrics.tradingBase, w.pool.metrics.protocolBase)
  | .quote => (w.pool.metrics.tradingQuote, w.pool.metrics.protocolQuote)

/-- C19: in every reachable state, per token and party, fees accrued = fees paid + balance still owed, and the reported
lifetime totals are the true ones. -/
theorem C19_lifetime_fees {w : World} (h : Reachable w) (t : Token) :
    (accrued w t).1 = paidPartner w t + partnerFee w t ∧
    (accrued w t).2.1 = paidCreator w t + creatorFee w t ∧
    (accrued w t).2.2 + protocolExtra w t = paidProtocol w t + (protocolFee w t + protocolMigFee w t) ∧
    (reported w t).1 = (accrued w t).1 + (accrued w t).2.1 ∧ (reported w t).2 = (accrued w t).2.2 := by
  have k := h.booked
  cases t
  · exact ⟨k.pb, k.cb, k.rb, k.mb, k.nb⟩
  · refine ⟨k.pq, k.cq, ?_, k.mq, k.nq⟩
    have := k.rq
    show w.led.accProtocolQuote + (w.led.protoMigQuote + (if w.pool.protocolSurplus = 0 then 0 else protoPart w.surplus)) = _
    rw [← Nat.add_assoc]
    exact this

/-- C19: the accrued totals start at zero, and a swap adds to them exactly the parts of the fee that an observer of the
balances sees it credit; nothing else changes them. -/
theorem C19_accrual {w w' : World} {op : Op} (hs : w.step op = .ok w') :
    (∃ a x, op = .swap a ∧ Observed w w' a.dir x ∧
      ∀ t, accrued w' t = ((accrued w t).1 + inTok x.feeToken t x.partner, (accrued w t).2.1 + inTok x.feeToken t x.creator,
        (accrued w t).2.2 + inTok x.feeToken t x.protocol)) ∨
    ((∀ a, op ≠ .swap a) ∧ ∀ t, accrued w' t = accrued w t) := by
  by_cases hop : ∃ a, op = .swap a
  · obtain ⟨a, rfl⟩ := hop
    obtain ⟨cur, fm, r, v1, v2, s⟩ := swap_ok hs
    refine .inl ⟨a, _, rfl, SwapStep.observed s, fun t => ?_⟩
    obtain ⟨r1, r2, r3, r4, r5, r6⟩ := recordSwap_acc w.led w.cfg r fm a.dir (w.firstMin a)
    have el : w'.led = w.led.recordSwap w.cfg r fm a.dir (w.firstMin a) := by rw [s.frame]
    rw [← el] at r1 r2 r3 r4 r5 r6
    cases t
    · rw [onlyIf_base] at r1 r3 r5
      exact Prod.ext r1 (Prod.ext r3 r5)
    · rw [onlyIf_quote] at r2 r4 r6
      exact Prod.ext r2 (Prod.ext r4 r6)
  · refine .inr ⟨fun a e => hop ⟨a, e⟩, fun t => ?_⟩
    rcases step_cases hs with ⟨a, e, _⟩ | ⟨_, _, _, _, _, _, _, _, _, _, _, _, _, _, _, _, _, _, _, e1, e2, e3, e4, e5, e6, _⟩
    · exact absurd ⟨a, e⟩ hop
    · cases t
      · exact Prod.ext e1 (Prod.ext e3 e5)
      · exact Prod.ext e2 (Prod.ext e4 e6)

/-- A new pool has accrued nothing. -/
theorem C19_start {w : World} (h : Genesis w) (t : Token) : accrued w t = (0, 0, 0) := by
  obtain ⟨p, env, a, c, _, _, hi⟩ := h
  obtain ⟨_, _, _, _, _, _, _, _, _, _, _, _, _, rfl⟩ := initPool_ok hi
  cases t <;> rfl

/-- Fees accrued, partly paid and partly owed, for every party and token. -/
theorem C19_example : Reachable Ex.pendingA ∧ 0 < paidPartner Ex.pendingA .base ∧ 0 < partnerFee Ex.pendingA .base ∧
    0 < paidCreator Ex.pendingA .quote ∧ 0 < creatorFee Ex.pendingA .quote ∧ 0 < protocolFee Ex.pendingA .base ∧
    Reachable Ex.finishedA ∧ 0 < protocolExtra Ex.finishedA .quote ∧ 0 < paidProtocol Ex.finishedA .quote := by
  refine ⟨Ex.reachPendingA, ?_, ?_, ?_, ?_, ?_, Ex.reachFinishedA, ?_, ?_⟩ <;> decide +kernel

end Props

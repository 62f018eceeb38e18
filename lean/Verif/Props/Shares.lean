import Verif.Lemmas.Once
import Verif.Props.Owed

/-!
# Shares of a completed pool and of the creation fee: C15, C16, C17
-/

namespace Props
open Dbc Spec

/-- `op` is the named withdrawal, whoever signs. -/
def isPartnerSurplus : Op → Bool | .partnerWithdrawSurplus _ => true | _ => false
def isCreatorSurplus : Op → Bool | .creatorWithdrawSurplus _ => true | _ => false
def isPartnerMigrationFee : Op → Bool | .withdrawMigrationFee _ f => f == 0 | _ => false
def isCreatorMigrationFee : Op → Bool | .withdrawMigrationFee _ f => f == 1 | _ => false
def isPartnerCreationFee : Op → Bool | .claimPartnerCreationFee _ => true | _ => false

/-! ### How often each withdrawal succeeded -/

theorem count_partnerSurplus {w0 w : World} {ops : List Op} (h : Genesis w0) (hr : Run w0 ops w) :
    countOps isPartnerSurplus ops = w.pool.partnerSurplus := by
  have hw := h.reachable.run hr
  have h0 : w0.pool.partnerSurplus = 0 := by
    obtain ⟨p, env, a, c, _, _, hi⟩ := h
    obtain ⟨_, _, _, _, _, _, _, _, _, _, _, _, _, rfl⟩ := initPool_ok hi
    rfl
  have := (count_flag (f := isPartnerSurplus) (flag := fun w => w.pool.partnerSurplus ≠ 0)
    (fun w op w' _ hs hf => by
      cases op <;> try cases hf
      obtain ⟨_, _, h3, _, _, _, rfl⟩ := partnerWithdrawSurplus_ok hs
      exact ⟨fun h => h h3, Nat.one_ne_zero⟩)
    (fun w op w' _ hs hf => by
      rw [step_partnerSurplus hs (fun s e => by subst e; cases hf)]) h.reachable hr).1 (fun h => h h0)
  have := hw.life.paS
  omega

theorem count_creatorSurplus {w0 w : World} {ops : List Op} (h : Genesis w0) (hr : Run w0 ops w) :
    countOps isCreatorSurplus ops = w.pool.creatorSurplus := by
  have hw := h.reachable.run hr
  have h0 : w0.pool.creatorSurplus = 0 := by
    obtain ⟨p, env, a, c, _, _, hi⟩ := h
    obtain ⟨_, _, _, _, _, _, _, _, _, _, _, _, _, rfl⟩ := initPool_ok hi
    rfl
  have := (count_flag (f := isCreatorSurplus) (flag := fun w => w.pool.creatorSurplus ≠ 0)
    (fun w op w' _ hs hf => by
      cases op <;> try cases hf
      obtain ⟨_, _, h3, _, _, _, rfl⟩ := creatorWithdrawSurplus_ok hs
      exact ⟨fun h => h h3, Nat.one_ne_zero⟩)
    (fun w op w' _ hs hf => by
      rw [step_creatorSurplus hs (fun s e => by subst e; cases hf)]) h.reachable hr).1 (fun h => h h0)
  have := hw.life.crS
  omega

theorem xor_four (x : Nat) : (x ^^^ 4) &&& 2 = x &&& 2 := by
  rw [Nat.and_xor_distrib_right]; exact Nat.xor_zero _

theorem xor_two (x : Nat) : (x ^^^ 2) &&& 4 = x &&& 4 := by
  rw [Nat.and_xor_distrib_right]; exact Nat.xor_zero _

theorem count_partnerMig {w0 w : World} {ops : List Op} (h : Genesis w0) (hr : Run w0 ops w) :
    (countOps isPartnerMigrationFee ops = 0 ∧ w.pool.migrationFeeStatus &&& 4 = 0 ∧ w.pool.migrationFeeStatus < 4) ∨
    (countOps isPartnerMigrationFee ops = 1 ∧ w.pool.migrationFeeStatus &&& 4 ≠ 0 ∧ 4 ≤ w.pool.migrationFeeStatus) := by
  have hw := h.reachable.run hr
  have h0 : w0.pool.migrationFeeStatus = 0 := by
    obtain ⟨p, env, a, c, _, _, hi⟩ := h
    obtain ⟨_, _, _, _, _, _, _, _, _, _, _, _, _, rfl⟩ := initPool_ok hi
    rfl
  have hk := (count_flag (f := isPartnerMigrationFee) (flag := fun w => w.pool.migrationFeeStatus &&& 4 ≠ 0)
    (fun w op w' hw hs hf => by
      cases op <;> try cases hf
      rename_i s f
      have hf : f = 0 := by simpa [isPartnerMigrationFee] using hf
      subst hf
      have hs : w.withdrawMigrationFee s 0 = .ok w' := hs
      obtain ⟨_, ⟨_, _, h3, _, rfl⟩ | ⟨hf, _⟩⟩ := withdrawMigrationFee_ok hs
      · refine ⟨fun h => h h3, ?_⟩
        rcases hw.life.status with e | e | e | e <;> dsimp only <;> rw [e] at h3 ⊢ <;> revert h3 <;> decide
      · cases hf)
    (fun w op w' _ hs hf => by
      by_cases hop : ∃ s f, op = .withdrawMigrationFee s f
      · obtain ⟨s, f, rfl⟩ := hop
        obtain ⟨_, ⟨e, _⟩ | ⟨_, _, _, _, rfl⟩⟩ := withdrawMigrationFee_ok hs
        · subst e; cases hf
        · dsimp only; rw [xor_two]
      · rw [step_migrationFeeStatus hs (fun s f e => hop ⟨s, f, e⟩)]) h.reachable hr).1
    (fun h => h (by rw [h0]; rfl))
  rcases hk with ⟨a, b⟩ | ⟨a, b⟩
  · have a : w.pool.migrationFeeStatus &&& 4 = 0 := Decidable.of_not_not a
    exact .inl ⟨b, a, (bit4 hw.life.status a).2⟩
  · refine .inr ⟨b, a, ?_⟩
    rcases hw.life.status with e | e | e | e <;> rw [e] at a ⊢ <;> revert a <;> decide

theorem count_creatorMig {w0 w : World} {ops : List Op} (h : Genesis w0) (hr : Run w0 ops w) :
    (countOps isCreatorMigrationFee ops = 0 ∧ w.pool.migrationFeeStatus &&& 2 = 0 ∧
      (w.pool.migrationFeeStatus = 0 ∨ w.pool.migrationFeeStatus = 4)) ∨
    (countOps isCreatorMigrationFee ops = 1 ∧ w.pool.migrationFeeStatus &&& 2 ≠ 0 ∧
      ¬ (w.pool.migrationFeeStatus = 0 ∨ w.pool.migrationFeeStatus = 4)) := by
  have hw := h.reachable.run hr
  have h0 : w0.pool.migrationFeeStatus = 0 := by
    obtain ⟨p, env, a, c, _, _, hi⟩ := h
    obtain ⟨_, _, _, _, _, _, _, _, _, _, _, _, _, rfl⟩ := initPool_ok hi
    rfl
  have hk := (count_flag (f := isCreatorMigrationFee) (flag := fun w => w.pool.migrationFeeStatus &&& 2 ≠ 0)
    (fun w op w' hw hs hf => by
      cases op <;> try cases hf
      rename_i s f
      have hf : f = 1 := by simpa [isCreatorMigrationFee] using hf
      subst hf
      have hs : w.withdrawMigrationFee s 1 = .ok w' := hs
      obtain ⟨_, ⟨hf, _⟩ | ⟨_, _, h3, _, rfl⟩⟩ := withdrawMigrationFee_ok hs
      · cases hf
      · refine ⟨fun h => h h3, ?_⟩
        rcases hw.life.status with e | e | e | e <;> dsimp only <;> rw [e] at h3 ⊢ <;> revert h3 <;> decide)
    (fun w op w' _ hs hf => by
      by_cases hop : ∃ s f, op = .withdrawMigrationFee s f
      · obtain ⟨s, f, rfl⟩ := hop
        obtain ⟨_, ⟨_, _, _, _, rfl⟩ | ⟨e, _⟩⟩ := withdrawMigrationFee_ok hs
        · dsimp only; rw [xor_four]
        · subst e; cases hf
      · rw [step_migrationFeeStatus hs (fun s f e => hop ⟨s, f, e⟩)]) h.reachable hr).1
    (fun h => h (by rw [h0]; rfl))
  rcases hk with ⟨a, b⟩ | ⟨a, b⟩
  · have a : w.pool.migrationFeeStatus &&& 2 = 0 := Decidable.of_not_not a
    exact .inl ⟨b, a, (bit2 hw.life.status a).2⟩
  · refine .inr ⟨b, a, ?_⟩
    rcases hw.life.status with e | e | e | e <;> rw [e] at a ⊢ <;> revert a <;> decide

theorem count_partnerCreation {w0 w : World} {ops : List Op} (h : Genesis w0) (hr : Run w0 ops w) :
    (countOps isPartnerCreationFee ops = 0 ∧ w.pool.creationBits &&& 2 = 0 ∧ w.pool.creationBits < 2) ∨
    (countOps isPartnerCreationFee ops = 1 ∧ w.pool.creationBits &&& 2 ≠ 0 ∧ 2 ≤ w.pool.creationBits) := by
  have hw := h.reachable.run hr
  have h0 : w0.pool.creationBits = 0 := by
    obtain ⟨p, env, a, c, _, _, hi⟩ := h
    obtain ⟨_, _, _, _, _, _, _, _, _, _, _, _, _, rfl⟩ := initPool_ok hi
    rfl
  have hx : ∀ x, (x ^^^ 1) &&& 2 = x &&& 2 := fun x => by
    rw [Nat.and_xor_distrib_right]; exact Nat.xor_zero _
  have hk := (count_flag (f := isPartnerCreationFee) (flag := fun w => w.pool.creationBits &&& 2 ≠ 0)
    (fun w op w' hw hs hf => by
      cases op <;> try cases hf
      obtain ⟨_, _, h3, _, rfl⟩ := claimPartnerCreationFee_ok hs
      refine ⟨fun h => h h3, ?_⟩
      rcases hw.life.creation with e | e | e | e <;> dsimp only <;> rw [e] at h3 ⊢ <;> revert h3 <;> decide)
    (fun w op w' _ hs hf => by
      by_cases hop : ∃ s, op = .claimProtocolCreationFee s
      · obtain ⟨s, rfl⟩ := hop
        obtain ⟨_, a, b, bits, leg, h1, _, _, rfl⟩ := claimProtocolCreationFee_ok hs
        rcases h1 with ⟨_, e, _⟩ | ⟨_, e, _⟩
        · dsimp only; rw [e, hx]
        · dsimp only; rw [e]
      · rw [step_creationBits hs (fun s e => by subst e; cases hf) (fun s e => hop ⟨s, e⟩)]) h.reachable hr).1
    (fun h => h (by rw [h0]; rfl))
  rcases hk with ⟨a, b⟩ | ⟨a, b⟩
  · have a : w.pool.creationBits &&& 2 = 0 := Decidable.of_not_not a
    exact .inl ⟨b, a, by have := (cbit2 hw.life.creation a).2; omega⟩
  · refine .inr ⟨b, a, ?_⟩
    rcases hw.life.creation with e | e | e | e <;> rw [e] at a ⊢ <;> revert a <;> decide

theorem not_completed {w : World} (h : Reachable w) (hn : ¬ Completed w) : w.pool.migrationProgress = 0 :=
  h.life.start.2 (Nat.lt_of_not_le hn)

/-! ### C15 -/

/-- C15: the three surplus shares of a completed pool add up to what was collected above the threshold, and partner and
creator together receive the floor of 80%. -/
theorem C15_split {w : World} (h : Reachable w) (hd : Completed w) :
    partnerSurplus w + creatorSurplus w + protocolSurplus w + w.cfg.migrationQuoteThreshold = w.pool.quoteReserve ∧
    partnerSurplus w + creatorSurplus w = (w.pool.quoteReserve - w.cfg.migrationQuoteThreshold) * 80 / 100 := by
  obtain ⟨ps, hc⟩ := h.core
  obtain ⟨h1, h2⟩ := surplus_split w.cfg hc.good.creatorPct w.surplus
  rw [← partnerSurplus_eq, ← creatorSurplus_eq, ← protocolSurplus_eq] at *
  have hd : w.cfg.migrationQuoteThreshold ≤ w.pool.quoteReserve := hd
  unfold World.surplus at h1 h2
  exact ⟨by omega, h1⟩

/-- C15: over any history partner and creator withdraw their surplus at most once, have received exactly their share for
each withdrawal, and nothing before completion; the protocol has received its trading fees, its part of the migrated
liquidity and at most once its part of the surplus, never before completion. -/
theorem C15_once {w0 w : World} {ops : List Op} (h : Genesis w0) (hr : Run w0 ops w) :
    (∃ k ≤ 1, countOps isPartnerSurplus ops = k ∧ w.led.partnerSurplus = k * partnerSurplus w ∧ (¬ Completed w → k = 0)) ∧
    (∃ k ≤ 1, countOps isCreatorSurplus ops = k ∧ w.led.creatorSurplus = k * creatorSurplus w ∧ (¬ Completed w → k = 0)) ∧
    (∃ k ≤ 1, w.led.accProtocolQuote + w.led.protoMigQuote + k * protocolSurplus w =
      paidProtocol w .quote + (protocolFee w .quote + protocolMigFee w .quote) ∧ (¬ Completed w → k = 0)) := by
  have hw := h.reachable.run hr
  have l := hw.life
  refine ⟨⟨_, ?_, count_partnerSurplus h hr, ?_, fun hn => (l.early (not_completed hw hn)).1⟩,
    ⟨_, ?_, count_creatorSurplus h hr, ?_, fun hn => (l.early (not_completed hw hn)).2.1⟩,
    ⟨w.pool.protocolSurplus, ?_, ?_, fun hn => (l.early (not_completed hw hn)).2.2.1⟩⟩
  · have := l.paS; omega
  · rcases l.paS with ⟨a, b⟩ | ⟨a, b⟩
    · rw [a, b, Nat.zero_mul]
    · rw [a, b, Nat.one_mul]; rfl
  · have := l.crS; omega
  · rcases l.crS with ⟨a, b⟩ | ⟨a, b⟩
    · rw [a, b, Nat.zero_mul]
    · rw [a, b, Nat.one_mul]; rfl
  · have := l.prS; omega
  · have k := hw.booked.rq
    rw [protocolSurplus_eq]
    rcases l.prS with a | a
    · rw [if_pos a] at k; rw [a, Nat.zero_mul]; exact k
    · rw [if_neg (by omega)] at k; rw [a, Nat.one_mul]; exact k

/-- C15: a surplus withdrawal succeeds exactly when the pool is complete, the caller is the one entitled and it did not
happen before. -/
theorem C15_eligible {w0 w : World} {ops : List Op} (h : Genesis w0) (hr : Run w0 ops w) (s : Nat) :
    ((∃ w', w.step (.partnerWithdrawSurplus s) = .ok w') ↔
      Completed w ∧ s = w.cfg.feeClaimer ∧ countOps isPartnerSurplus ops = 0) ∧
    ((∃ w', w.step (.creatorWithdrawSurplus s) = .ok w') ↔
      Completed w ∧ s = w.pool.creator ∧ countOps isCreatorSurplus ops = 0) := by
  have hw := h.reachable.run hr
  obtain ⟨ps, hc⟩ := hw.core
  rw [count_partnerSurplus h hr, count_creatorSurplus h hr]
  constructor <;> constructor
  · rintro ⟨w', e⟩
    obtain ⟨h1, h2, h3, _⟩ := partnerWithdrawSurplus_ok e
    exact ⟨h2, h1.symm, h3⟩
  · rintro ⟨h1, h2, h3⟩
    exact partnerWithdrawSurplus_succeeds hw.funds hc.good.creatorPct h2.symm h1 h3
  · rintro ⟨w', e⟩
    obtain ⟨h1, h2, h3, _⟩ := creatorWithdrawSurplus_ok e
    exact ⟨h2, h1.symm, h3⟩
  · rintro ⟨h1, h2, h3⟩
    exact creatorWithdrawSurplus_succeeds hw.funds hc.good.creatorPct h2.symm h1 h3

/-! ### C16 -/

/-- C16: the quote set aside for the new pool, the partner's and the creator's migration fee add up to the threshold. -/
theorem C16_split {w : World} (h : Reachable w) :
    migrationQuote w + partnerMigrationFee w + creatorMigrationFee w = w.cfg.migrationQuoteThreshold := by
  obtain ⟨ps, hc⟩ := h.core
  rw [migrationQuote_eq, partnerMigrationFee_eq, creatorMigrationFee_eq]
  exact (mig_split w.cfg (by have := hc.good.migFee; omega) hc.good.migCreator).1

/-- C16: over any history each of the two fees is withdrawn at most once and never before completion; the amount received
is exactly the share. -/
theorem C16_once {w0 w : World} {ops : List Op} (h : Genesis w0) (hr : Run w0 ops w) :
    (∃ k ≤ 1, countOps isPartnerMigrationFee ops = k ∧ w.led.partnerMig = k * partnerMigrationFee w ∧
      (¬ Completed w → k = 0)) ∧
    (∃ k ≤ 1, countOps isCreatorMigrationFee ops = k ∧ w.led.creatorMig = k * creatorMigrationFee w ∧
      (¬ Completed w → k = 0)) := by
  have hw := h.reachable.run hr
  have l := hw.life
  rw [partnerMigrationFee_eq, creatorMigrationFee_eq]
  have e1 := l.paM
  have e2 := l.crM
  have he : ¬ Completed w → w.pool.migrationFeeStatus = 0 := fun hn => (l.early (not_completed hw hn)).2.2.2
  constructor
  · rcases count_partnerMig h hr with ⟨a, _, b⟩ | ⟨a, _, b⟩
    · rw [if_pos b] at e1
      exact ⟨0, by decide, a, by rw [e1, Nat.zero_mul], fun _ => rfl⟩
    · rw [if_neg (by omega)] at e1
      exact ⟨1, by decide, a, by rw [e1, Nat.one_mul], fun hn => by have := he hn; omega⟩
  · rcases count_creatorMig h hr with ⟨a, _, b⟩ | ⟨a, _, b⟩
    · rw [if_pos b] at e2
      exact ⟨0, by decide, a, by rw [e2, Nat.zero_mul], fun _ => rfl⟩
    · rw [if_neg b] at e2
      exact ⟨1, by decide, a, by rw [e2, Nat.one_mul], fun hn => by have := he hn; omega⟩

/-- C16: a migration fee withdrawal succeeds exactly when the pool is complete, the caller is entitled and that same
withdrawal did not happen before; in particular it does not depend on the other party's withdrawal. -/
theorem C16_eligible {w0 w : World} {ops : List Op} (h : Genesis w0) (hr : Run w0 ops w) (s f : Nat) :
    (∃ w', w.step (.withdrawMigrationFee s f) = .ok w') ↔
      Completed w ∧ (f = 0 ∧ s = w.cfg.feeClaimer ∧ countOps isPartnerMigrationFee ops = 0 ∨
        f = 1 ∧ s = w.pool.creator ∧ countOps isCreatorMigrationFee ops = 0) := by
  have hw := h.reachable.run hr
  obtain ⟨ps, hc⟩ := hw.core
  have g2 := hc.good.migFee
  have g3 := hc.good.migCreator
  have k1 := count_partnerMig h hr
  have k2 := count_creatorMig h hr
  constructor
  · rintro ⟨w', e⟩
    obtain ⟨hd, ⟨h1, h2, h3, _⟩ | ⟨h1, h2, h3, _⟩⟩ := withdrawMigrationFee_ok e
    · exact ⟨hd, .inl ⟨h1, h2, by omega⟩⟩
    · exact ⟨hd, .inr ⟨h1, h2, by omega⟩⟩
  · rintro ⟨hd, ⟨rfl, h2, h3⟩ | ⟨rfl, h2, h3⟩⟩
    · exact withdrawMigrationFee_partner hw.funds (by omega) g3 h2 hd (by omega) (by omega)
    · exact withdrawMigrationFee_creator hw.funds (by omega) g3 h2 hd (by omega) (by omega)

/-! ### C17 -/

/-- C17: the two shares add up to the creation fee; over any history each was paid in full once or not at all, the
partner's claim succeeded at most once, and the account still holds what it received less what it paid. -/
theorem C17_creation_fee {w0 w : World} {ops : List Op} (h : Genesis w0) (hr : Run w0 ops w) :
    protocolCreationFee w + partnerCreationFee w = w.cfg.poolCreationFee ∧
    (∃ k ≤ 1, countOps isPartnerCreationFee ops = k ∧ w.led.lamportsPartner = k * partnerCreationFee w) ∧
    (∃ k ≤ 1, w.led.lamportsProtocol = k * protocolCreationFee w) ∧
    w.led.lamportsPartner + w.led.lamportsProtocol ≤ w.cfg.poolCreationFee ∧
    w.lamports + w.led.lamportsPartner + w.led.lamportsProtocol = w.cfg.poolCreationFee + w.led.donLamports := by
  have hw := h.reachable.run hr
  have l := hw.life
  have e1 := l.laP
  have e2 := l.laR
  have hs : protocolCreationFee w + partnerCreationFee w = w.cfg.poolCreationFee := by
    unfold partnerCreationFee protocolCreationFee; omega
  have ep : paCreation w.cfg = partnerCreationFee w := rfl
  have er : prCreation w.cfg = protocolCreationFee w := rfl
  rw [ep] at e1
  rw [er] at e2
  generalize partnerCreationFee w = x at *
  generalize protocolCreationFee w = y at *
  have hk : ∃ k ≤ 1, countOps isPartnerCreationFee ops = k ∧ w.led.lamportsPartner = k * x := by
    rcases count_partnerCreation h hr with ⟨a, _, b⟩ | ⟨a, _, b⟩
    · rw [if_pos b] at e1; exact ⟨0, by decide, a, by rw [e1, Nat.zero_mul]⟩
    · rw [if_neg (by omega)] at e1; exact ⟨1, by decide, a, by rw [e1, Nat.one_mul]⟩
  have hk2 : ∃ k ≤ 1, w.led.lamportsProtocol = k * y := by
    split at e2
    · exact ⟨0, by decide, by rw [e2, Nat.zero_mul]⟩
    · exact ⟨1, by decide, by rw [e2, Nat.one_mul]⟩
  refine ⟨hs, hk, hk2, ?_, l.lam⟩
  split at e1 <;> split at e2 <;> omega

/-- The histories of the examples contain every withdrawal, and every share is non-zero. -/
theorem C15_C16_C17_example : ∃ w0 ops, Genesis w0 ∧ Run w0 ops Ex.finishedA ∧ Completed Ex.finishedA ∧
    countOps isPartnerSurplus ops = 1 ∧ countOps isCreatorSurplus ops = 1 ∧ countOps isPartnerMigrationFee ops = 1 ∧
    countOps isCreatorMigrationFee ops = 1 ∧ countOps isPartnerCreationFee ops = 1 ∧
    0 < partnerSurplus Ex.finishedA ∧ 0 < creatorSurplus Ex.finishedA ∧ 0 < protocolSurplus Ex.finishedA ∧
    0 < partnerMigrationFee Ex.finishedA ∧ 0 < creatorMigrationFee Ex.finishedA ∧ 0 < migrationQuote Ex.finishedA ∧
    0 < partnerCreationFee Ex.finishedA ∧ 0 < Ex.finishedA.led.lamportsProtocol := by
  refine ⟨_, Ex.churned ++ Ex.finishA, Ex.genesisA, Ex.exec_run (by decide +kernel), ?_⟩
  decide +kernel

end Props

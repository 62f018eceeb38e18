import Verif.Lemmas.Payable

/-!
# Flags and the number of times an instruction succeeded
-/

namespace Dbc

/-- If an instruction needs a flag to be clear and raises it, and nothing else touches the flag, then the flag tells how
often the instruction succeeded. -/
theorem count_flag {f : Op → Bool} {flag : World → Prop}
    (once : ∀ w op w', Reachable w → w.step op = .ok w' → f op = true → ¬ flag w ∧ flag w')
    (keep : ∀ w op w', Reachable w → w.step op = .ok w' → f op = false → (flag w' ↔ flag w)) {w w' : World} {ops : List Op}
    (h : Reachable w) (hr : Run w ops w') :
    (¬ flag w → (¬ flag w' ∧ countOps f ops = 0) ∨ (flag w' ∧ countOps f ops = 1)) ∧
    (flag w → flag w' ∧ countOps f ops = 0) := by
  induction hr with
  | nil w => exact ⟨fun h => .inl ⟨h, rfl⟩, fun h => ⟨h, rfl⟩⟩
  | cons s r ih =>
    rename_i w w1 w2 op ops
    have ih := ih (h.step s)
    unfold countOps at *
    rw [List.countP_cons]
    by_cases hf : f op = true
    · obtain ⟨h1, h2⟩ := once _ _ _ h s hf
      obtain ⟨h3, h4⟩ := ih.2 h2
      rw [hf, h4]
      exact ⟨fun _ => .inr ⟨h3, rfl⟩, fun h => absurd h h1⟩
    · have hf' : f op = false := by simpa using hf
      have hk := keep _ _ _ h s hf'
      simp only [hf', Bool.false_eq_true, if_false, Nat.add_zero]
      exact ⟨fun h => ih.1 (fun h' => h (hk.1 h')), fun h => ih.2 (hk.2 h)⟩

/-- Close the goals of `cases_step` that are true by definition or excluded. -/
macro "unchanged " op:ident h:ident : tactic => `(tactic| (
  cases_step $op $h
  case swap a =>
    obtain ⟨cur, fm, r, v1, v2, s⟩ := swap_ok $h
    rw [s.poolFrame]
  all_goals first | rfl | simp_all))

theorem step_partnerSurplus {w w' : World} {op : Op} (h : w.step op = .ok w')
    (hn : ∀ s, op ≠ .partnerWithdrawSurplus s) : w'.pool.partnerSurplus = w.pool.partnerSurplus := by
  unchanged op h

theorem step_creatorSurplus {w w' : World} {op : Op} (h : w.step op = .ok w')
    (hn : ∀ s, op ≠ .creatorWithdrawSurplus s) : w'.pool.creatorSurplus = w.pool.creatorSurplus := by
  unchanged op h

theorem step_migrationFeeStatus {w w' : World} {op : Op} (h : w.step op = .ok w')
    (hn : ∀ s f, op ≠ .withdrawMigrationFee s f) : w'.pool.migrationFeeStatus = w.pool.migrationFeeStatus := by
  unchanged op h

theorem step_creationBits {w w' : World} {op : Op} (h : w.step op = .ok w')
    (hn : ∀ s, op ≠ .claimPartnerCreationFee s) (hn' : ∀ s, op ≠ .claimProtocolCreationFee s) :
    w'.pool.creationBits = w.pool.creationBits := by
  unchanged op h

theorem step_leftover {w w' : World} {op : Op} (h : w.step op = .ok w')
    (hn : ∀ s, op ≠ .withdrawLeftover s) : w'.pool.isWithdrawLeftover = w.pool.isWithdrawLeftover := by
  unchanged op h

theorem step_isMigrated {w w' : World} {op : Op} (h : w.step op = .ok w')
    (hn : ∀ a, op ≠ .migrateV1 a) (hn' : ∀ a, op ≠ .migrateV2 a) : w'.pool.isMigrated = w.pool.isMigrated := by
  unchanged op h

/-- What can happen to the phase in one step of a reachable world. -/
theorem step_progress {w w' : World} {op : Op} (hr : Reachable w) (h : w.step op = .ok w') :
    (∃ a, op = .swap a ∧ w.pool.migrationProgress = 0 ∧
      (w'.pool.migrationProgress = 0 ∨ w'.pool.migrationProgress = 1 ∧ w.cfg.lockedVesting.has ∨
        w'.pool.migrationProgress = 2 ∧ ¬ w.cfg.lockedVesting.has)) ∨
    (op = .createLocker ∧ w.pool.migrationProgress = 1 ∧ w'.pool.migrationProgress = 2) ∨
    (((∃ a, op = .migrateV1 a) ∨ ∃ a, op = .migrateV2 a) ∧ w.pool.migrationProgress = 2 ∧ w'.pool.migrationProgress = 3) ∨
    (w'.pool.migrationProgress = w.pool.migrationProgress ∧ (∀ a, op ≠ .swap a) ∧ op ≠ .createLocker ∧
      (∀ a, op ≠ .migrateV1 a) ∧ ∀ a, op ≠ .migrateV2 a) := by
  have hk := h
  cases_step op h
  case swap a =>
    obtain ⟨cur, fm, r, v1, v2, s⟩ := swap_ok hk
    have h0 := hr.life.start.2 s.incomplete
    refine .inl ⟨a, rfl, h0, ?_⟩
    by_cases g : w'.pool.quoteReserve < w.cfg.migrationQuoteThreshold
    · exact .inl ((s.still g).1.trans h0)
    · have := (s.done (by omega)).1
      by_cases hv : w.cfg.lockedVesting.has
      · rw [if_pos hv] at this; exact .inr (.inl ⟨this, hv⟩)
      · rw [if_neg hv] at this; exact .inr (.inr ⟨this, hv⟩)
  case createLocker => exact .inr (.inl ⟨rfl, (createLocker_ok hk).1, rfl⟩)
  case migrateV1 =>
    obtain ⟨_, _, _, _, _, _, h2, _⟩ := migrateV1_ok hk
    exact .inr (.inr (.inl ⟨.inl ⟨_, rfl⟩, h2, rfl⟩))
  case migrateV2 =>
    obtain ⟨_, _, _, _, _, _, _, _, _, _, _, _, _, _, _, h2, _⟩ := migrateV2_ok hk
    exact .inr (.inr (.inl ⟨.inr ⟨_, rfl⟩, h2, rfl⟩))
  all_goals exact .inr (.inr (.inr ⟨rfl, nofun, nofun, nofun, nofun⟩))

end Dbc

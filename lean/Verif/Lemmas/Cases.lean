import Verif.Lemmas.History

/-!
# Case analysis over the instructions
-/

namespace Dbc

/-- `cases_step op h` with `h : w.step op = .ok w'` splits on the instruction and inverts every one except a swap. The facts
of each instruction are left as unnamed hypotheses and `w'` is replaced by its value. -/
macro "cases_step " op:ident h:ident : tactic => `(tactic| (
  cases $op:ident
  case' claimProtocolFee => obtain ⟨_, _, _, _, _, _, _, _, _, _, _, _, _, _, e⟩ := claimProtocolFee_ok $h <;> subst e
  case' zapProtocolFee =>
    obtain ⟨_, _, _, ⟨_, _, _, _, _, _, _, e⟩ | ⟨_, _, _, _, _, _, _, _, _, _, e⟩⟩ := zapProtocolFee_ok $h <;> subst e
  case' claimPartnerFee => obtain ⟨_, _, _, _, _, _, _, e⟩ := claimPartnerFee_ok $h <;> subst e
  case' claimCreatorFee => obtain ⟨_, _, _, _, _, _, _, e⟩ := claimCreatorFee_ok $h <;> subst e
  case' partnerWithdrawSurplus => obtain ⟨_, _, _, _, _, _, e⟩ := partnerWithdrawSurplus_ok $h <;> subst e
  case' creatorWithdrawSurplus => obtain ⟨_, _, _, _, _, _, e⟩ := creatorWithdrawSurplus_ok $h <;> subst e
  case' withdrawMigrationFee =>
    obtain ⟨_, ⟨_, _, _, _, e⟩ | ⟨_, _, _, _, e⟩⟩ := withdrawMigrationFee_ok $h <;> subst e
  case' claimPartnerCreationFee => obtain ⟨_, _, _, _, e⟩ := claimPartnerCreationFee_ok $h <;> subst e
  case' claimProtocolCreationFee => obtain ⟨_, _, _, _, _, _, _, _, e⟩ := claimProtocolCreationFee_ok $h <;> subst e
  case' createLocker => obtain ⟨_, _, e⟩ := createLocker_ok $h <;> subst e
  case' migrateV1 =>
    obtain ⟨_, _, _, _, _, _, _, _, _, _, _, _, _, _, _, _, _, _, _, e⟩ := migrateV1_ok $h <;> subst e
  case' migrateV2 =>
    obtain ⟨_, _, _, _, _, _, _, _, _, _, _, _, _, _, _, _, _, _, _, _, _, _, _, _, _, _, _, _, _, _, _, _, _, e⟩ :=
      migrateV2_ok $h <;> subst e
  case' withdrawLeftover => obtain ⟨_, _, _, _, _, _, _, _, e⟩ := withdrawLeftover_ok $h <;> subst e
  case' createMeta => obtain ⟨_, _, e⟩ := createMeta_ok $h <;> subst e
  case' lockLp => obtain ⟨_, _, _, _, _, _, _, e⟩ := lockLp_ok $h <;> subst e
  case' claimLp => obtain ⟨_, _, _, _, _, _, _, e⟩ := claimLp_ok $h <;> subst e
  case' transferCreator => obtain ⟨_, _, _, e⟩ := transferCreator_ok $h <;> subst e
  case' createOperator => obtain ⟨_, _, _, _, e⟩ := createOperator_ok $h <;> subst e
  case' closeOperator => obtain ⟨_, e⟩ := closeOperator_ok $h <;> subst e
  case' donate => obtain ⟨_, _, e⟩ := donate_ok $h <;> subst e
  case' mintMore => obtain ⟨_, _, e⟩ := mintMore_ok $h <;> subst e
  case' burnOwn => obtain ⟨_, e⟩ := burnOwn_ok $h <;> subst e))

/-- Unclaimed base fees are only lowered by instructions other than swaps. -/
theorem step_baseFee_le {w w' : World} {op : Op} (h : w.step op = .ok w') (hn : ∀ a, op ≠ .swap a) :
    w'.pool.partnerBaseFee ≤ w.pool.partnerBaseFee ∧ w'.pool.creatorBaseFee ≤ w.pool.creatorBaseFee ∧
    w'.pool.protocolBaseFee ≤ w.pool.protocolBaseFee := by
  cases_step op h
  case swap a => exact absurd rfl (hn a)
  all_goals (dsimp only; omega)

end Dbc

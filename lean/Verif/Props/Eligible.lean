import Verif.Props.Shares
import Verif.Props.Lp

/-!
# Exactly when a claim goes through: C17, C18, C38, C50
-/

namespace Props
open Dbc Spec

/-- C17: the partner's part of the creation fee can be taken exactly by the partner, if there is any and it was not taken before;
the protocol's claim goes through exactly for the holders of the permission, at any time. -/
theorem C17_eligible {w0 w : World} {ops : List Op} (h : Genesis w0) (hr : Run w0 ops w) (s : Nat) :
    ((∃ w', w.step (.claimPartnerCreationFee s) = .ok w') ↔
      s = w.cfg.feeClaimer ∧ 0 < partnerCreationFee w ∧ countOps isPartnerCreationFee ops = 0) ∧
    ((∃ w', w.step (.claimProtocolCreationFee s) = .ok w') ↔ Holds w s .claimProtocolFee) := by
  have hw := h.reachable.run hr
  constructor <;> constructor
  · rintro ⟨w', e⟩
    obtain ⟨h1, h2, h3, _⟩ := claimPartnerCreationFee_ok e
    refine ⟨h1.symm, h2, ?_⟩
    rcases count_partnerCreation h hr with ⟨a, _⟩ | ⟨_, b, _⟩
    · exact a
    · exact absurd h3 b
  · rintro ⟨rfl, h2, h3⟩
    rcases count_partnerCreation h hr with ⟨_, b, _⟩ | ⟨a, _⟩
    · exact claimPartnerCreationFee_succeeds hw.life hw.creationFee rfl h2 b
    · omega
  · rintro ⟨w', e⟩
    exact holds_iff.1 (claimProtocolCreationFee_ok e).1
  · intro hs
    exact claimProtocolCreationFee_succeeds hw.life hw.creationFee (holds_iff.2 hs)

/-- C18: a claim of fees is accepted exactly from whom the fees belong to, at any time and with any caps; a zap also needs a lawful
transaction around it and something to pay. -/
theorem C18_eligible {w : World} (h : Reachable w) (s mb mq : Nat) :
    ((∃ w', w.step (.claimPartnerFee s mb mq) = .ok w') ↔ s = w.cfg.feeClaimer) ∧
    ((∃ w', w.step (.claimCreatorFee s mb mq) = .ok w') ↔ s = w.pool.creator) ∧
    ((∃ w', w.step (.claimProtocolFee s mb mq) = .ok w') ↔ Holds w s .claimProtocolFee) ∧
    ∀ (isBase allowed zapOk : Bool), (∃ w', w.step (.zapProtocolFee s mb isBase allowed zapOk) = .ok w') ↔
      Holds w s .zapProtocolFee ∧ allowed = true ∧ zapOk = true ∧
      0 < min mb (protocolFee w (if isBase then .base else .quote) + protocolMigFee w (if isBase then .base else .quote)) +
        surplusIn w (if isBase then .base else .quote) := by
  refine ⟨⟨fun ⟨_, e⟩ => (claimPartnerFee_ok e).1.symm, fun e => claimPartnerFee_succeeds h.funds e.symm⟩,
    ⟨fun ⟨_, e⟩ => (claimCreatorFee_ok e).1.symm, fun e => claimCreatorFee_succeeds h.funds e.symm⟩,
    ⟨fun ⟨_, e⟩ => holds_iff.1 (claimProtocolFee_ok e).1, fun e => claimProtocolFee_succeeds h.funds (holds_iff.2 e)⟩,
    fun ib al zo => ⟨?_, ?_⟩⟩
  · rintro ⟨w', e⟩
    have hp := (C18_protocol_zap e).1.paid
    obtain ⟨h1, h2, h3, h4⟩ := zapProtocolFee_ok e
    refine ⟨holds_iff.1 h1, h2, h3, ?_⟩
    rcases h4 with ⟨rfl, a, b, _, _, h5, _, rfl⟩ | ⟨rfl, a, b, c, f, _, _, _, h5, _, rfl⟩
    · rw [if_pos rfl] at hp ⊢
      have : paidProtocol w .base < w.led.paidProtocolBase + (a + b) := by
        show w.led.paidProtocolBase < _
        omega
      have hp' : w.led.paidProtocolBase + (a + b) = _ := hp
      omega
    · rw [if_neg Bool.false_ne_true] at hp ⊢
      have : paidProtocol w .quote < w.led.paidProtocolQuote + (a + b + c) := by
        show w.led.paidProtocolQuote < _
        omega
      have hp' : w.led.paidProtocolQuote + (a + b + c) = _ := hp
      omega
  · rintro ⟨h1, rfl, rfl, h4⟩
    obtain ⟨w', e, _⟩ := C14_zap_never_starved h (holds_iff.2 h1) _ rfl h4
    exact ⟨w', e⟩

/-- C38: the call that locks or hands out LP tokens goes through, whoever makes it, exactly as long as the named owner has not
received their share. -/
theorem C38_eligible {w0 w1 w : World} {a : V1Args} {ops : List Op} (hr : Reachable w0)
    (hm : w0.step (.migrateV1 a) = .ok w1) (hrun : Run w1 ops w) (o : Nat) (b : Bool) :
    (∃ w', w.step (handOp o b) = .ok w') ↔
      given w.lpLog o b ≠ (lpShares w0.cfg a.lpMinted).owed w0.cfg.feeClaimer w0.pool.creator o b := by
  refine ⟨?_, fun h => ?_⟩
  · rintro ⟨w', e⟩ hd
    have hafter := (C38_shares hr hm (hrun.append (.cons e (.nil _)))).2 o b
    have hmore : ∃ x, x ≠ 0 ∧ given w'.lpLog o b = x + given w.lpLog o b := by
      cases b with
      | true =>
        obtain ⟨_, m, x, m', _, h2, _, rfl⟩ := lockLp_ok e
        have h3 := (hand_ok (b := true) (m := m) (m' := m') h2).2.1
        exact ⟨x, h3, by show given (_ :: _) _ _ = _; rw [given_cons, if_pos ⟨rfl, rfl⟩]⟩
      | false =>
        obtain ⟨_, m, x, m', _, h2, _, rfl⟩ := claimLp_ok e
        have h3 := (hand_ok (b := false) (m := m) (m' := m') h2).2.1
        exact ⟨x, h3, by show given (_ :: _) _ _ = _; rw [given_cons, if_pos ⟨rfl, rfl⟩]⟩
    obtain ⟨x, hx, hg⟩ := hmore
    omega
  · obtain ⟨w', e, _⟩ := C38_available hr hm hrun o b h
    exact ⟨w', e⟩

/-- C50: anybody can have the creator's tokens locked exactly while the pool waits for it. -/
theorem C50_eligible {w : World} (h : Reachable w) :
    (∃ w', w.step .createLocker = .ok w') ↔ phase w = some .vestingPending := by
  rw [phase_eq h]
  exact ⟨fun ⟨_, e⟩ => (createLocker_ok e).1, fun e => createLocker_succeeds h.solvent e⟩

/-- Before and after the claims of one history. -/
theorem C17_C18_C38_C50_when :
    (Reachable Ex.pendingA ∧ phase Ex.pendingA = some .vestingPending ∧ phase Ex.readyA ≠ some .vestingPending) ∧
    (∃ ops, Run (Ex.worldOf Ex.paramsA) ops Ex.migratedA ∧ countOps isPartnerCreationFee ops = 0 ∧
      0 < partnerCreationFee Ex.migratedA ∧ Ex.migratedA.cfg.feeClaimer = 11 ∧ Holds Ex.migratedA 31 .claimProtocolFee ∧
      ¬ Holds Ex.migratedA 11 .claimProtocolFee) ∧
    (Reachable Ex.readyA ∧ Ex.readyA.step (Ex.finishA.getD 4 .createLocker) = .ok Ex.migratedA ∧
      given Ex.migratedA.lpLog 11 true ≠ given Ex.finishedA.lpLog 11 true) := by
  refine ⟨⟨Ex.reachPendingA, by decide +kernel, by decide +kernel⟩,
    ⟨Ex.churned ++ Ex.finishA.take 5, Ex.exec_run (by decide +kernel), by decide +kernel, by decide +kernel, by decide +kernel, ?_, ?_⟩,
    Ex.reachReadyA, by decide +kernel, by decide +kernel⟩
  · rw [← holds_iff]
    unfold HasPermission
    decide +kernel
  · rw [← holds_iff]
    unfold HasPermission
    decide +kernel

end Props

import Verif.Lemmas.Event
import Verif.Props.Examples

/-!
# What the log tells: C70
-/

namespace Props
open Dbc Spec

/-! ### A concrete log -/

/-- The events of a list of instructions. -/
def logs (w : World) : List Op → Res (List Event × World)
  | [] => .ok ([], w)
  | op :: ops => do
    let w1 ← w.step op
    let es ← w.log op
    let (es', w2) ← logs w1 ops
    .ok (es ++ es', w2)

theorem logs_run {w w' : World} {ops : List Op} {es : List Event} (h : logs w ops = .ok (es, w')) : LogRun w ops es w' := by
  induction ops generalizing w es with
  | nil => cases h; exact .nil _
  | cons op ops ih =>
    simp only [logs, bind_ok, Prod.exists, ok_inj, Prod.mk.injEq] at h
    obtain ⟨w1, h1, es1, h2, es2, w2, h3, rfl, rfl⟩ := h
    exact .cons h1 h2 (ih h3)

/-- The log of a pool from its first swap to the last claim (empty if some instruction is refused). -/
def fullLog : List Event :=
  match logs (Ex.worldOf Ex.paramsA) (Ex.completing ++ Ex.finishA) with
  | .ok (es, _) => es
  | .error _ => []

theorem fullLog_run : LogRun (Ex.worldOf Ex.paramsA) (Ex.completing ++ Ex.finishA) fullLog
    (Ex.after Ex.paramsA (Ex.completing ++ Ex.finishA)) := logs_run (by decide +kernel)

/-- C70, every history has exactly one log. -/
theorem C70_log_exists {w w' : World} {ops : List Op} (hr : Run w ops w') : ∃! es, LogRun w ops es w' := by
  induction hr with
  | nil w =>
    refine ⟨[], .nil w, ?_⟩
    intro es h
    cases h
    rfl
  | cons hs hr ih =>
    obtain ⟨es, he, -⟩ := step_log hs
    obtain ⟨es', h1, h2⟩ := ih
    refine ⟨es ++ es', .cons hs he h1, ?_⟩
    intro fs hf
    cases hf with
    | cons ks kl kr =>
      rw [hs, ok_inj] at ks
      subst ks
      rw [he, ok_inj] at kl
      subst kl
      rw [h2 _ kr]

theorem LogRun.run {w w' : World} {ops : List Op} {es : List Event} (h : LogRun w ops es w') : Run w ops w' := by
  induction h with
  | nil w => exact .nil w
  | cons hs _ _ ih => exact .cons hs ih

theorem LogRun.tells {w w' : World} {ops : List Op} {es es0 : List Event} (h : LogRun w ops es w') (h0 : Tells es0 w) :
    Tells (es0 ++ es) w' := by
  induction h generalizing es0 with
  | nil w => rw [List.append_nil]; exact h0
  | cons hs hl hr ih =>
    obtain ⟨es, he, s⟩ := step_log hs
    rw [hl, ok_inj] at he
    subst he
    rw [← List.append_assoc]
    exact ih (Tells.append h0 s)

theorem genesis_tells {w : World} (h : Genesis w) : Tells w.initLog w := by
  obtain ⟨p, env, a, c, ht, hc, hi⟩ := h
  have hp := (createConfig_good ht hc).thresholdPos
  obtain ⟨supply, mint, upd, act, b, -, -, -, -, -, -, -, -, rfl⟩ := initPool_ok hi
  constructor
  case completions =>
    rw [if_neg (show ¬ Completed _ from Nat.not_le.2 hp)]
    rfl
  all_goals first | rfl | (intro t; cases t <;> rfl)

/-- C70, the log tells the state: reading a pool's events in order, from its creation, gives the amounts traders paid and
received, the fees taken, the referral payments, everything partner and creator were paid, the leftover, the lamports paid,
the current price, quote reserve and creator, and whether the curve is complete, which is announced exactly once. -/
theorem C70_log_tells {w w' : World} {ops : List Op} {es : List Event} (hg : Genesis w) (hr : LogRun w ops es w') :
    Tells (w.initLog ++ es) w' :=
  LogRun.tells hr (genesis_tells hg)

/-- The hypotheses of C70_log_tells are met by a history with every kind of instruction: 29 events, among them one completion,
a price moved from the initial one, fees claimed twice and a new creator. -/
theorem C70_example : Genesis (Ex.worldOf Ex.paramsA) ∧
    LogRun (Ex.worldOf Ex.paramsA) (Ex.completing ++ Ex.finishA) fullLog
      (Ex.after Ex.paramsA (Ex.completing ++ Ex.finishA)) ∧
    fullLog.length = 29 ∧ logCompletions fullLog = 1 ∧ logPaid .quote fullLog = 10050631713431 ∧
    logPartnerClaims .quote fullLog = 1353589222 ∧ logMigrationFee 1 fullLog = 400000000000 ∧
    logCreator 0 ((Ex.worldOf Ex.paramsA).initLog ++ fullLog) = 22 ∧ logReserve 0 fullLog = 10000000000003 := by
  refine ⟨Ex.genesisA, fullLog_run, ?_⟩
  decide +kernel

/-- C70, one swap: it logs a swap event and its extended form, followed by the completion event exactly if the swap completed
the curve. They describe what the swap did. -/
theorem C70_swap_event {w w' : World} {a : SwapArgs} (h : w.step (.swap a) = .ok w') :
    ∃ e e2, w.log (.swap a) = .ok ([.swap e, .swap2 e2] ++
        (if Completed w' then [.curveComplete (reserve w' .base) (reserve w' .quote)] else [])) ∧
      Describes w w' a e ∧
      e2.amount0 = a.amount0 ∧ e2.amount1 = a.amount1 ∧ e2.mode = a.mode ∧ e2.dir = e.dir ∧ e2.time = e.time ∧
      e2.hasReferral = e.hasReferral ∧ e2.quoteReserve = reserve w' .quote ∧
      e2.threshold = w.cfg.migrationQuoteThreshold ∧
      e2.result.includedIn = e.amountIn ∧ e2.result.excludedIn = e.actualIn ∧ e2.result.out = e.out ∧
      e2.result.next = e.next ∧ e2.result.fee.trading = e.trading ∧ e2.result.fee.protocol = e.protocol ∧
      e2.result.fee.referral = e.referral := by
  obtain ⟨cur, fm, r, v1, v2, s⟩ := swap_ok h
  refine ⟨evtSwap a r, evtSwap2 w.cfg w'.pool a r, swap_log h s, ?_, rfl, rfl, rfl, rfl, rfl, rfl, rfl, rfl, rfl, rfl, rfl,
    rfl, rfl, rfl, rfl⟩
  have ob := SwapStep.observed s
  have hf := feeTok_of s.hfm
  have hf' : (tradeOf w.cfg fm r).feeToken = feeTokenOf w.cfg a.dir := hf
  refine ⟨rfl, rfl, rfl, s.price.symm, ob.paid, ob.got, ?_, ?_, ?_, ?_⟩
  · intro t
    have h1 := ob.partner t
    have h2 := ob.creator t
    rw [hf'] at h1 h2
    have h3 : paPart w.cfg r + crPart w.cfg r = (evtSwap a r).trading := s.split
    rw [h1, h2, ← h3]
    show _ = _ + inTok (feeTokenOf w.cfg a.dir) t (paPart w.cfg r + crPart w.cfg r)
    unfold inTok tradeOf
    dsimp only
    split <;> omega
  · intro t
    have := ob.protocol t
    rw [hf'] at this
    exact this
  · intro t
    have := ob.referral t
    rw [hf'] at this
    exact this
  · have h1 := (processSwap_charge s.proc).input
    have h2 := (outFee_tok s.hfm r).2
    rw [hf] at h2
    show r.excludedIn + inTok (feeTokenOf w.cfg a.dir) (inToken a.dir) r.fee.sum = r.includedIn
    omega

/-- The hypothesis of C70_swap_event is met by the swap that completes the curve, which logs three events. -/
theorem C70_swap_example : ∃ w',
    (Ex.after Ex.paramsA Ex.trading).step (Ex.buy 1 40000000000000 0 1300 true Ex.txSwap) = .ok w' ∧ Completed w' ∧
    ((Ex.after Ex.paramsA Ex.trading).log (Ex.buy 1 40000000000000 0 1300 true Ex.txSwap)).map List.length = .ok 3 :=
  ⟨Ex.after Ex.paramsA Ex.completing, by decide +kernel, by decide +kernel, by decide +kernel⟩

/-- C70, payments: an event that reports a payment reports what left each vault. -/
theorem C70_payment_event {w w' : World} {op : Op} {es : List Event} {e : Event} {t : Token} {x : Nat}
    (h : w.step op = .ok w') (hl : w.log op = .ok es) (he : e ∈ es) (hx : reported t e = some x) :
    vault w' t + x = vault w t := by
  cases op
  case swap a =>
    obtain ⟨cur, fm, r, v1, v2, s⟩ := swap_ok h
    rw [show w.log (.swap a) = _ from swap_log h s, ok_inj] at hl
    subst hl
    simp only [List.mem_append, List.mem_cons, List.not_mem_nil, or_false] at he
    rcases he with (rfl | rfl) | he
    · cases hx
    · cases hx
    · split at he
      · rw [List.mem_singleton] at he
        subst he
        cases hx
      · cases he
  case claimProtocolFee s mb mq =>
    obtain ⟨b, q, hl', h1, h2, -, -⟩ := claimProtocolFee_log h
    rw [show w.log (.claimProtocolFee s mb mq) = _ from hl', ok_inj] at hl
    subst hl
    rw [List.mem_singleton] at he
    subst he
    cases t <;> cases hx <;> assumption
  case claimPartnerFee s mb mq =>
    obtain ⟨b, q, hl', h1, h2, -, -⟩ := claimPartnerFee_log h
    rw [show w.log (.claimPartnerFee s mb mq) = _ from hl', ok_inj] at hl
    subst hl
    rw [List.mem_singleton] at he
    subst he
    cases t <;> cases hx <;> assumption
  case claimCreatorFee s mb mq =>
    obtain ⟨b, q, hl', h1, h2, -, -⟩ := claimCreatorFee_log h
    rw [show w.log (.claimCreatorFee s mb mq) = _ from hl', ok_inj] at hl
    subst hl
    rw [List.mem_singleton] at he
    subst he
    cases t <;> cases hx <;> assumption
  case partnerWithdrawSurplus s =>
    obtain ⟨b, hl', h1, -⟩ := partnerSurplus_log h
    obtain ⟨_, _, _, _, _, _, e⟩ := partnerWithdrawSurplus_ok h
    rw [show w.log (.partnerWithdrawSurplus s) = _ from hl', ok_inj] at hl
    subst hl
    rw [List.mem_singleton] at he
    subst he
    cases t <;> cases hx
    · rw [e]; rfl
    · exact h1
  case creatorWithdrawSurplus s =>
    obtain ⟨b, hl', h1, -⟩ := creatorSurplus_log h
    obtain ⟨_, _, _, _, _, _, e⟩ := creatorWithdrawSurplus_ok h
    rw [show w.log (.creatorWithdrawSurplus s) = _ from hl', ok_inj] at hl
    subst hl
    rw [List.mem_singleton] at he
    subst he
    cases t <;> cases hx
    · rw [e]; rfl
    · exact h1
  case withdrawMigrationFee s f =>
    obtain ⟨b, hl', h1, -⟩ := migrationFee_log h
    have hb : w'.baseVault = w.baseVault := by
      obtain ⟨_, ⟨_, _, _, _, e⟩ | ⟨_, _, _, _, e⟩⟩ := withdrawMigrationFee_ok h <;> rw [e]
    rw [show w.log (.withdrawMigrationFee s f) = _ from hl', ok_inj] at hl
    subst hl
    rw [List.mem_singleton] at he
    subst he
    cases t <;> cases hx
    · exact hb
    · exact h1
  case claimPartnerCreationFee s =>
    obtain ⟨b, hl', -, -⟩ := partnerCreationFee_log h
    rw [show w.log (.claimPartnerCreationFee s) = _ from hl', ok_inj] at hl
    subst hl
    rw [List.mem_singleton] at he
    subst he
    cases hx
  case claimProtocolCreationFee s =>
    obtain ⟨b, hl', -, -⟩ := protocolCreationFee_log h
    rw [show w.log (.claimProtocolCreationFee s) = _ from hl', ok_inj] at hl
    subst hl
    rw [List.mem_singleton] at he
    subst he
    cases hx
  case withdrawLeftover r =>
    obtain ⟨b, hl', h1, -⟩ := leftover_log h
    obtain ⟨_, _, _, _, _, _, _, _, e⟩ := withdrawLeftover_ok h
    rw [show w.log (.withdrawLeftover r) = _ from hl', ok_inj] at hl
    subst hl
    rw [List.mem_singleton] at he
    subst he
    cases t <;> cases hx
    · exact h1
    · rw [e]; rfl
  case createMeta =>
    cases hl
    rw [List.mem_singleton] at he
    subst he
    cases hx
  case transferCreator s n =>
    cases hl
    rw [List.mem_singleton] at he
    subst he
    cases hx
  all_goals
    cases hl
    cases he

/-- The hypotheses of C70_payment_event are met by the withdrawal of the leftover. -/
theorem C70_payment_example : ∃ w',
    (Ex.after Ex.paramsA (Ex.completing ++ Ex.finishA.take 8)).step (.withdrawLeftover 12) = .ok w' ∧
    (Ex.after Ex.paramsA (Ex.completing ++ Ex.finishA.take 8)).log (.withdrawLeftover 12) =
      .ok [.withdrawLeftover 12 479062500000079] ∧
    reported .base (.withdrawLeftover 12 479062500000079) = some 479062500000079 :=
  ⟨Ex.after Ex.paramsA (Ex.completing ++ Ex.finishA.take 9), by decide +kernel, by decide +kernel, rfl⟩

theorem protocolPaid_step {w w' : World} {op : Op} {es : List Event} (h : w.step op = .ok w') (hl : w.log op = .ok es)
    (hz : ∀ s m b x y, op ≠ .zapProtocolFee s m b x y) (t : Token) :
    protocolPaid w' t = protocolPaid w t + logProtocolClaims t es := by
  obtain ⟨es', he, ls⟩ := step_log h
  rw [hl, ok_inj] at he
  subst he
  refine Nat.le_antisymm ?_ (ls.protocolClaims t)
  cases_step op h
  case swap a =>
    obtain ⟨cur, fm, r, v1, v2, s⟩ := swap_ok h
    have led : w'.led = w.led.recordSwap w.cfg r fm a.dir (w.firstMin a) := by rw [s.frame]
    have : protocolPaid w' t = protocolPaid w t := by
      unfold protocolPaid
      rw [led]
      unfold Ledger.recordSwap
      cases a.dir <;> cases fm.feesOnBase <;> rfl
    omega
  case claimProtocolFee s mb mq _ _ _ _ _ _ _ _ _ _ _ _ _ _ =>
    obtain ⟨b, q, hl', -, -, h1, h2⟩ := claimProtocolFee_log h
    rw [show w.log (.claimProtocolFee s mb mq) = _ from hl', ok_inj] at hl
    subst hl
    cases t
    · exact Nat.le_of_eq h1
    · exact Nat.le_of_eq h2
  case zapProtocolFee.inl => exact absurd rfl (hz _ _ _ _ _)
  case zapProtocolFee.inr => exact absurd rfl (hz _ _ _ _ _)
  all_goals exact Nat.le_add_right _ _

theorem LogRun.protocolClaims {w w' : World} {ops : List Op} {es : List Event} (hr : LogRun w ops es w') (t : Token) :
    protocolPaid w t + logProtocolClaims t es ≤ protocolPaid w' t ∧
    ((∀ s m b x y, Op.zapProtocolFee s m b x y ∉ ops) → protocolPaid w' t = protocolPaid w t + logProtocolClaims t es) := by
  induction hr with
  | nil w => exact ⟨Nat.le_refl _, fun _ => rfl⟩
  | @cons w w1 w2 op ops es es' hs hl hr ih =>
    obtain ⟨fs, he, ls⟩ := step_log hs
    rw [hl, ok_inj] at he
    subst he
    have h1 := ls.protocolClaims t
    have e : logProtocolClaims t (es ++ es') = logProtocolClaims t es + logProtocolClaims t es' := sumLog_append _ _ _
    refine ⟨by omega, fun hz => ?_⟩
    have h2 := protocolPaid_step hs hl
      (fun s m b x y hop => hz s m b x y (by rw [← hop]; exact List.mem_cons_self ..)) t
    have h3 := ih.2 (fun s m b x y hm => hz s m b x y (List.mem_cons_of_mem _ hm))
    omega

/-- C70, the protocol's claims: what the log reports as claimed by the protocol is what it was paid, unless fees left through
the zap instruction, which logs nothing; in any case the log never reports more than was paid. -/
theorem C70_protocol_claims {w w' : World} {ops : List Op} {es : List Event} (hg : Genesis w) (hr : LogRun w ops es w')
    (t : Token) :
    logProtocolClaims t (w.initLog ++ es) ≤ protocolPaid w' t ∧
    ((∀ s m b x y, Op.zapProtocolFee s m b x y ∉ ops) → logProtocolClaims t (w.initLog ++ es) = protocolPaid w' t) := by
  have h0 : protocolPaid w t = 0 := by
    obtain ⟨p, env, a, c, ht, hc, hi⟩ := hg
    obtain ⟨supply, mint, upd, act, b, -, -, -, -, -, -, -, -, rfl⟩ := initPool_ok hi
    cases t <;> rfl
  have h1 : logProtocolClaims t (w.initLog ++ es) = logProtocolClaims t es := by
    unfold logProtocolClaims
    rw [sumLog_append]
    exact Nat.zero_add _
  obtain ⟨h2, h3⟩ := LogRun.protocolClaims hr t
  refine ⟨by omega, fun hz => ?_⟩
  have := h3 hz
  omega

/-- C70, the zap instruction is silent: in this history the protocol received 1005 base tokens and the log reports 5. -/
theorem C70_zap_silent : ∃ w ops es w', Genesis w ∧ LogRun w ops es w' ∧
    logProtocolClaims .base (w.initLog ++ es) = 5 ∧ protocolPaid w' .base = 1005 :=
  ⟨_, _, _, _, Ex.genesisA, fullLog_run, by decide +kernel, by decide +kernel⟩

/-- The other half of C70_protocol_claims applies to histories with protocol claims: here there was no zap, and 18388533263
quote tokens were claimed and reported. -/
theorem C70_protocol_example :
    ∃ es, LogRun (Ex.worldOf Ex.paramsA) (Ex.completing ++ Ex.finishA.take 6) es
        (Ex.after Ex.paramsA (Ex.completing ++ Ex.finishA.take 6)) ∧
      (∀ s m b x y, Op.zapProtocolFee s m b x y ∉ Ex.completing ++ Ex.finishA.take 6) ∧
      logProtocolClaims .quote es = 18388533263 := by
  refine ⟨match logs (Ex.worldOf Ex.paramsA) (Ex.completing ++ Ex.finishA.take 6) with | .ok (es, _) => es | .error _ => [],
    logs_run (by decide +kernel), ?_, by decide +kernel⟩
  intro s m b x y hm
  simp [Ex.completing, Ex.trading, Ex.finishA, Ex.buy, Ex.sell] at hm

end Props

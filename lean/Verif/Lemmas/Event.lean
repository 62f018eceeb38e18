import Verif.Spec.Event
import Verif.Lemmas.Cases
import Verif.Props.Swap

/-!
# What one instruction logs and what it does
-/

namespace Dbc

open Spec

theorem sumLog_append (f : Event → Nat) (xs ys : List Event) : sumLog f (xs ++ ys) = sumLog f xs + sumLog f ys := by
  unfold sumLog; rw [List.map_append, List.sum_append]

theorem latest_append {α : Type} (f : Event → Option α) (s : α) (xs ys : List Event) :
    latest f s (xs ++ ys) = latest f (latest f s xs) ys := by
  unfold latest; rw [List.foldl_append]

/-- The log `es` of one instruction accounts for the step from `w` to `w'`. -/
structure LogStep (es : List Event) (w w' : World) : Prop where
  cfg : w'.cfg = w.cfg
  paid : ∀ t, traderIn w' t = traderIn w t + logPaid t es
  got : ∀ t, traderOut w' t = traderOut w t + logGot t es
  referral : ∀ t, referrals w' t = referrals w t + logReferral w.cfg t es
  trading : ∀ t, tradingCounter w' t = tradingCounter w t + logTrading w.cfg t es
  protocol : ∀ t, protocolCounter w' t = protocolCounter w t + logProtocol w.cfg t es
  partner : ∀ t, partnerPaid w' t = partnerPaid w t + logPartnerClaims t es
  creator : ∀ t, creatorPaid w' t = creatorPaid w t + logCreatorClaims t es
  partnerSurplus : w'.led.partnerSurplus = w.led.partnerSurplus + logPartnerSurplus es
  creatorSurplus : w'.led.creatorSurplus = w.led.creatorSurplus + logCreatorSurplus es
  partnerMig : w'.led.partnerMig = w.led.partnerMig + logMigrationFee 0 es
  creatorMig : w'.led.creatorMig = w.led.creatorMig + logMigrationFee 1 es
  leftover : w'.led.leftover = w.led.leftover + logLeftover es
  partnerLamports : w'.led.lamportsPartner = w.led.lamportsPartner + logPartnerLamports es
  protocolLamports : w'.led.lamportsProtocol = w.led.lamportsProtocol + logProtocolLamports es
  price : w'.pool.sqrtPrice = logPrice w.pool.sqrtPrice es
  reserve : w'.pool.quoteReserve = logReserve w.pool.quoteReserve es
  owner : w'.pool.creator = logCreator w.pool.creator es
  completions : (if Completed w' then 1 else 0) = (if Completed w then 1 else 0) + logCompletions es
  protocolClaims : ∀ t, protocolPaid w t + logProtocolClaims t es ≤ protocolPaid w' t

theorem Tells.append {es es1 : List Event} {w w' : World} (h : Tells es w) (s : LogStep es1 w w') :
    Tells (es ++ es1) w' where
  paid t := by unfold logPaid; rw [sumLog_append, s.paid, ← h.paid]; rfl
  got t := by unfold logGot; rw [sumLog_append, s.got, ← h.got]; rfl
  referral t := by unfold logReferral; rw [sumLog_append, s.referral, ← h.referral, s.cfg]; rfl
  trading t := by unfold logTrading; rw [sumLog_append, s.trading, ← h.trading, s.cfg]; rfl
  protocol t := by unfold logProtocol; rw [sumLog_append, s.protocol, ← h.protocol, s.cfg]; rfl
  partner t := by unfold logPartnerClaims; rw [sumLog_append, s.partner, ← h.partner]; rfl
  creator t := by unfold logCreatorClaims; rw [sumLog_append, s.creator, ← h.creator]; rfl
  partnerSurplus := by unfold logPartnerSurplus; rw [sumLog_append, s.partnerSurplus, ← h.partnerSurplus]; rfl
  creatorSurplus := by unfold logCreatorSurplus; rw [sumLog_append, s.creatorSurplus, ← h.creatorSurplus]; rfl
  partnerMig := by unfold logMigrationFee; rw [sumLog_append, s.partnerMig, ← h.partnerMig]; rfl
  creatorMig := by unfold logMigrationFee; rw [sumLog_append, s.creatorMig, ← h.creatorMig]; rfl
  leftover := by unfold logLeftover; rw [sumLog_append, s.leftover, ← h.leftover]; rfl
  partnerLamports := by unfold logPartnerLamports; rw [sumLog_append, s.partnerLamports, ← h.partnerLamports]; rfl
  protocolLamports := by unfold logProtocolLamports; rw [sumLog_append, s.protocolLamports, ← h.protocolLamports]; rfl
  price := by
    have := h.price
    unfold logPrice at this ⊢
    rw [latest_append, s.price, s.cfg, this]; rfl
  reserve := by
    have := h.reserve
    unfold logReserve at this ⊢
    rw [latest_append, s.reserve, this]; rfl
  owner := by
    have := h.owner
    unfold logCreator at this ⊢
    rw [latest_append, s.owner, this]; rfl
  completions := by unfold logCompletions; rw [sumLog_append, s.completions, ← h.completions]; rfl

/-- Evaluates the reading of a short concrete log. -/
macro "read_log" : tactic => `(tactic| (
  constructor <;> (try intro t; cases t) <;>
  first
  | rfl
  | (simp only [logPartnerClaims, logCreatorClaims, logProtocolClaims, logPartnerSurplus, logCreatorSurplus, logMigrationFee,
      logLeftover, logPartnerLamports, logProtocolLamports, sumLog, List.map_cons, List.map_nil, List.sum_cons, List.sum_nil,
      partnerPaid, creatorPaid, protocolPaid, pick, if_true, if_false, reduceCtorEq]; omega)
  | (exact Nat.le_refl _)))

theorem claimProtocolFee_log {w w' : World} {s mb mq : Nat} (h : w.claimProtocolFee s mb mq = .ok w') :
    ∃ b q, w.claimProtocolFeeLog mb mq = .ok [.claimProtocolFee b q] ∧
      w'.baseVault + b = w.baseVault ∧ w'.quoteVault + q = w.quoteVault ∧
      w'.led.paidProtocolBase = w.led.paidProtocolBase + b ∧ w'.led.paidProtocolQuote = w.led.paidProtocolQuote + q := by
  simp only [World.claimProtocolFee, bind_ok, Prod.exists, vaultOut_ok, ok_inj] at h
  obtain ⟨_, hp, b, p1, h1, _, ⟨h2, rfl⟩, q, p2, h3, _, ⟨h4, rfl⟩, rfl⟩ := h
  refine ⟨b, q, ?_, by dsimp only; omega, by dsimp only; omega, rfl, rfl⟩
  simp only [World.claimProtocolFeeLog, h1, h3, ok_bind]

theorem claimPartnerFee_log {w w' : World} {s mb mq : Nat} (h : w.claimPartnerFee s mb mq = .ok w') :
    ∃ b q, w.claimPartnerFeeLog mb mq = .ok [.claimTradingFee b q] ∧
      w'.baseVault + b = w.baseVault ∧ w'.quoteVault + q = w.quoteVault ∧
      w'.led.paidPartnerBase = w.led.paidPartnerBase + b ∧ w'.led.paidPartnerQuote = w.led.paidPartnerQuote + q := by
  simp only [World.claimPartnerFee, bind_ok, Prod.exists, vaultOut_ok, ok_inj] at h
  obtain ⟨_, hp, b, q, p1, h1, _, ⟨h2, rfl⟩, _, ⟨h4, rfl⟩, rfl⟩ := h
  refine ⟨b, q, ?_, by dsimp only; omega, by dsimp only; omega, rfl, rfl⟩
  simp only [World.claimPartnerFeeLog, h1, ok_bind]

theorem claimCreatorFee_log {w w' : World} {s mb mq : Nat} (h : w.claimCreatorFee s mb mq = .ok w') :
    ∃ b q, w.claimCreatorFeeLog mb mq = .ok [.claimCreatorTradingFee b q] ∧
      w'.baseVault + b = w.baseVault ∧ w'.quoteVault + q = w.quoteVault ∧
      w'.led.paidCreatorBase = w.led.paidCreatorBase + b ∧ w'.led.paidCreatorQuote = w.led.paidCreatorQuote + q := by
  simp only [World.claimCreatorFee, bind_ok, Prod.exists, vaultOut_ok, ok_inj] at h
  obtain ⟨_, hp, b, q, p1, h1, _, ⟨h2, rfl⟩, _, ⟨h4, rfl⟩, rfl⟩ := h
  refine ⟨b, q, ?_, by dsimp only; omega, by dsimp only; omega, rfl, rfl⟩
  simp only [World.claimCreatorFeeLog, h1, ok_bind]

theorem partnerSurplus_log {w w' : World} {s : Nat} (h : w.partnerWithdrawSurplus s = .ok w') :
    ∃ x, w.partnerSurplusLog = .ok [.partnerWithdrawSurplus x] ∧ w'.quoteVault + x = w.quoteVault ∧
      w'.led.partnerSurplus = w.led.partnerSurplus + x := by
  simp only [World.partnerWithdrawSurplus, bind_ok, vaultOut_ok, ok_inj] at h
  obtain ⟨_, _, _, _, _, _, t, h1, x, h2, _, ⟨h4, rfl⟩, rfl⟩ := h
  refine ⟨x, ?_, by dsimp only; omega, rfl⟩
  simp only [World.partnerSurplusLog, h1, h2, ok_bind]

theorem creatorSurplus_log {w w' : World} {s : Nat} (h : w.creatorWithdrawSurplus s = .ok w') :
    ∃ x, w.creatorSurplusLog = .ok [.creatorWithdrawSurplus x] ∧ w'.quoteVault + x = w.quoteVault ∧
      w'.led.creatorSurplus = w.led.creatorSurplus + x := by
  simp only [World.creatorWithdrawSurplus, bind_ok, vaultOut_ok, ok_inj] at h
  obtain ⟨_, _, _, _, _, _, t, h1, x, h2, _, ⟨h4, rfl⟩, rfl⟩ := h
  refine ⟨x, ?_, by dsimp only; omega, rfl⟩
  simp only [World.creatorSurplusLog, h1, h2, ok_bind]

theorem migrationFee_log {w w' : World} {s f : Nat} (h : w.withdrawMigrationFee s f = .ok w') :
    ∃ x, w.migrationFeeLog f = .ok [.withdrawMigrationFee x f] ∧ w'.quoteVault + x = w.quoteVault ∧
      ((f = 0 ∧ w'.led = { w.led with partnerMig := w.led.partnerMig + x }) ∨
       (f = 1 ∧ w'.led = { w.led with creatorMig := w.led.creatorMig + x })) := by
  simp only [World.withdrawMigrationFee, bind_ok, Prod.exists] at h
  obtain ⟨_, _, pa, cr, h2, h⟩ := h
  split at h
  · simp only [bind_ok, vaultOut_ok, ok_inj] at h
    obtain ⟨_, _, _, _, _, ⟨h5, rfl⟩, rfl⟩ := h
    refine ⟨pa, ?_, by dsimp only; omega, .inl ⟨rfl, rfl⟩⟩
    simp only [World.migrationFeeLog, h2, ok_bind]
  · simp only [bind_ok, vaultOut_ok, ok_inj] at h
    obtain ⟨_, _, _, _, _, ⟨h5, rfl⟩, rfl⟩ := h
    refine ⟨cr, ?_, by dsimp only; omega, .inr ⟨rfl, rfl⟩⟩
    simp only [World.migrationFeeLog, h2, ok_bind]
  · cases h

theorem partnerCreationFee_log {w w' : World} {s : Nat} (h : w.claimPartnerCreationFee s = .ok w') :
    ∃ x, w.partnerCreationFeeLog s = .ok [.partnerClaimPoolCreationFee s x] ∧ w'.lamports + x = w.lamports ∧
      w'.led.lamportsPartner = w.led.lamportsPartner + x := by
  simp only [World.claimPartnerCreationFee, bind_ok, Prod.exists, lamportsOut_ok, ok_inj] at h
  obtain ⟨_, h1, pr, pa, h2, _, h3, _, h4, _, ⟨h5, rfl⟩, rfl⟩ := h
  refine ⟨pa, ?_, by dsimp only; omega, rfl⟩
  simp only [World.partnerCreationFeeLog, h2, ok_bind]

theorem protocolCreationFee_log {w w' : World} {s : Nat} (h : w.claimProtocolCreationFee s = .ok w') :
    ∃ x, w.protocolCreationFeeLog = .ok [.claimPoolCreationFee x] ∧ w'.lamports + x = w.lamports ∧
      w'.led.lamportsProtocol = w.led.lamportsProtocol + x := by
  simp only [World.claimProtocolCreationFee, bind_ok, Prod.exists, ok_inj] at h
  obtain ⟨_, hp, x, p1, h1, l, hl, rfl⟩ := h
  have : x ≤ w.lamports ∧ l = w.lamports - x := by
    rw [ite_ok] at hl
    rcases hl with ⟨_, hl⟩ | ⟨g, hl⟩
    · exact lamportsOut_ok.1 hl
    · rw [ok_inj] at hl; omega
  refine ⟨x, ?_, by dsimp only; omega, rfl⟩
  simp only [World.protocolCreationFeeLog, h1, ok_bind]

theorem leftover_log {w w' : World} {r : Nat} (h : w.withdrawLeftover r = .ok w') :
    ∃ x, w.leftoverLog r = .ok [.withdrawLeftover r x] ∧ w'.baseVault + x = w.baseVault ∧
      w'.led.leftover = w.led.leftover + x := by
  simp only [World.withdrawLeftover, bind_ok, vaultOut_ok, ok_inj] at h
  obtain ⟨_, _, _, _, _, _, _, _, f, h1, y, h2, x, h3, _, ⟨h4, rfl⟩, rfl⟩ := h
  refine ⟨x, ?_, by dsimp only; omega, rfl⟩
  simp only [World.leftoverLog, h1, h2, h3, ok_bind]

/-- The log of a successful swap. -/
theorem swap_log {w w' : World} {a : SwapArgs} {cur : Nat} {fm : FeeMode} {r : SwapResult} {v1 v2 : VolTracker}
    (h : w.swap a = .ok w') (s : SwapStep w a w' cur fm r v1 v2) :
    w.swapLog a = .ok ([.swap (evtSwap a r), .swap2 (evtSwap2 w.cfg w'.pool a r)] ++
      (if Completed w' then [.curveComplete w'.pool.baseReserve w'.pool.quoteReserve] else [])) := by
  have hc : w'.cfg = w.cfg := by rw [s.frame]
  simp only [World.swap, bind_ok, Prod.exists, ok_inj] at h
  obtain ⟨_, _, _, _, cur', h1, _, _, _, _, p1, h2, fm', h3, r', h4, p2, h5, b, q, h6, p3, h7, e⟩ := h
  rw [s.hcur, ok_inj] at h1
  rw [s.pre, ok_inj] at h2
  rw [s.hfm, ok_inj] at h3
  subst h1 h2 h3
  rw [s.proc, ok_inj] at h4
  subst h4
  obtain ⟨M, F, e3, _⟩ := completeSwap_ok h7
  have ep : w'.pool = p3 := by rw [← e]
  have eq2 : p2.quoteReserve = w'.pool.quoteReserve := by rw [ep, e3]
  simp only [World.swapLog, s.hcur, s.pre, s.hfm, s.proc, h5, h6, h7, ok_bind]
  have : (p2.complete w.cfg.migrationQuoteThreshold) ↔ Completed w' := by
    unfold Pool.complete Completed; rw [hc, eq2]
  simp only [this, ← ep, evtSwap2, eq2]

theorem feeTok_of {c : PoolConfig} {dir : TradeDirection} {ref : Bool} {fm : FeeMode}
    (h : getFeeMode c.collectFeeMode dir ref = .ok fm) : Props.feeTok fm = feeTokenOf c dir := by
  obtain ⟨_, _, h0, h1, h2⟩ := Props.getFeeMode_ok h
  unfold feeTokenOf
  rcases h2 with e | e
  · rw [h0 e, if_pos e]
  · rw [h1 e, if_neg (by omega)]

theorem swap_logStep {w w' : World} {a : SwapArgs} {cur : Nat} {fm : FeeMode} {r : SwapResult} {v1 v2 : VolTracker}
    (s : SwapStep w a w' cur fm r v1 v2) :
    LogStep ([.swap (evtSwap a r), .swap2 (evtSwap2 w.cfg w'.pool a r)] ++
      (if Completed w' then [.curveComplete w'.pool.baseReserve w'.pool.quoteReserve] else [])) w w' := by
  have ob := Props.SwapStep.observed s
  have hf := feeTok_of s.hfm
  have hn : ¬ Completed w := Nat.not_le.2 s.incomplete
  have tail : ∀ f : Event → Nat, (∀ b q, f (.curveComplete b q) = 0) →
      sumLog f (if Completed w' then [.curveComplete w'.pool.baseReserve w'.pool.quoteReserve] else []) = 0 := by
    intro f h0
    split
    · simp only [sumLog, List.map_cons, List.map_nil, List.sum_cons, List.sum_nil, h0]; rfl
    · rfl
  have tail' : ∀ (f : Event → Option Nat) (x : Nat), (∀ b q, f (.curveComplete b q) = none) →
      latest f x (if Completed w' then [.curveComplete w'.pool.baseReserve w'.pool.quoteReserve] else []) = x := by
    intro f x h0
    split
    · simp only [latest, List.foldl_cons, List.foldl_nil, h0, Option.getD_none]
    · rfl
  have led : w'.led = w.led.recordSwap w.cfg r fm a.dir (w.firstMin a) := by rw [s.frame]
  have rest : w'.led = { w.led with
      tradeBaseIn := w'.led.tradeBaseIn, tradeQuoteIn := w'.led.tradeQuoteIn, tradeBaseOut := w'.led.tradeBaseOut,
      tradeQuoteOut := w'.led.tradeQuoteOut, refBase := w'.led.refBase, refQuote := w'.led.refQuote,
      accPartnerBase := w'.led.accPartnerBase, accPartnerQuote := w'.led.accPartnerQuote,
      accCreatorBase := w'.led.accCreatorBase, accCreatorQuote := w'.led.accCreatorQuote,
      accProtocolBase := w'.led.accProtocolBase, accProtocolQuote := w'.led.accProtocolQuote,
      firstMin := w'.led.firstMin } := by
    rw [led]
    unfold Ledger.recordSwap
    cases a.dir <;> cases fm.feesOnBase <;> rfl
  constructor
  case cfg => rw [s.frame]
  case paid =>
    intro t
    unfold logPaid
    rw [sumLog_append, tail _ (fun _ _ => rfl)]
    exact ob.paid t
  case got =>
    intro t
    unfold logGot
    rw [sumLog_append, tail _ (fun _ _ => rfl)]
    exact ob.got t
  case referral =>
    intro t
    unfold logReferral
    rw [sumLog_append, tail _ (fun _ _ => rfl)]
    have := ob.referral t
    rw [show (Props.tradeOf w.cfg fm r).feeToken = feeTokenOf w.cfg a.dir from hf] at this
    exact this
  case trading =>
    intro t
    unfold logTrading
    rw [sumLog_append, tail _ (fun _ _ => rfl)]
    have : tradingCounter w' t = tradingCounter w t + inTok (Props.feeTok fm) t r.fee.trading := by
      cases t
      · exact Props.onlyIf_base fm _ ▸ s.metTradingBase
      · exact Props.onlyIf_quote fm _ ▸ s.metTradingQuote
    rw [hf] at this
    exact this
  case protocol =>
    intro t
    unfold logProtocol
    rw [sumLog_append, tail _ (fun _ _ => rfl)]
    have : protocolCounter w' t = protocolCounter w t + inTok (Props.feeTok fm) t r.fee.protocol := by
      cases t
      · exact Props.onlyIf_base fm _ ▸ s.metProtocolBase
      · exact Props.onlyIf_quote fm _ ▸ s.metProtocolQuote
    rw [hf] at this
    exact this
  case partner =>
    intro t
    unfold logPartnerClaims
    rw [sumLog_append, tail _ (fun _ _ => rfl)]
    unfold partnerPaid; rw [rest]; rfl
  case creator =>
    intro t
    unfold logCreatorClaims
    rw [sumLog_append, tail _ (fun _ _ => rfl)]
    unfold creatorPaid; rw [rest]; rfl
  case partnerSurplus => unfold logPartnerSurplus; rw [sumLog_append, tail _ (fun _ _ => rfl), rest]; rfl
  case creatorSurplus => unfold logCreatorSurplus; rw [sumLog_append, tail _ (fun _ _ => rfl), rest]; rfl
  case partnerMig => unfold logMigrationFee; rw [sumLog_append, tail _ (fun _ _ => rfl), rest]; rfl
  case creatorMig => unfold logMigrationFee; rw [sumLog_append, tail _ (fun _ _ => rfl), rest]; rfl
  case leftover => unfold logLeftover; rw [sumLog_append, tail _ (fun _ _ => rfl), rest]; rfl
  case partnerLamports => unfold logPartnerLamports; rw [sumLog_append, tail _ (fun _ _ => rfl), rest]; rfl
  case protocolLamports => unfold logProtocolLamports; rw [sumLog_append, tail _ (fun _ _ => rfl), rest]; rfl
  case price =>
    unfold logPrice
    rw [latest_append, tail' _ _ (fun _ _ => rfl), s.price]; rfl
  case reserve =>
    unfold logReserve
    rw [latest_append, tail' _ _ (fun _ _ => rfl)]; rfl
  case owner =>
    unfold logCreator
    rw [latest_append, tail' _ _ (fun _ _ => rfl), s.poolFrame]; rfl
  case completions =>
    unfold logCompletions
    rw [sumLog_append, if_neg hn]
    by_cases g : Completed w'
    · rw [if_pos g, if_pos g]; rfl
    · rw [if_neg g, if_neg g]; rfl
  case protocolClaims =>
    intro t
    unfold logProtocolClaims
    rw [sumLog_append, tail _ (fun _ _ => rfl)]
    unfold protocolPaid; rw [rest]
    exact Nat.le_refl _

theorem migrationFee_logStep {w w' : World} {s f : Nat} (h : w.withdrawMigrationFee s f = .ok w') :
    ∃ es, w.migrationFeeLog f = .ok es ∧ LogStep es w w' := by
  obtain ⟨x, hl, _, e⟩ := migrationFee_log h
  refine ⟨_, hl, ?_⟩
  obtain ⟨_, ⟨rfl, _, _, _, e'⟩ | ⟨rfl, _, _, _, e'⟩⟩ := withdrawMigrationFee_ok h
  · obtain ⟨_, e⟩ | ⟨g, _⟩ := e
    · have e1 := congrArg Ledger.partnerMig e
      clear h hl e
      subst e'
      dsimp only at e1
      read_log
    · cases g
  · obtain ⟨g, _⟩ | ⟨_, e⟩ := e
    · cases g
    · have e1 := congrArg Ledger.creatorMig e
      clear h hl e
      subst e'
      dsimp only at e1
      read_log

theorem step_log {w w' : World} {op : Op} (h : w.step op = .ok w') : ∃ es, w.log op = .ok es ∧ LogStep es w w' := by
  cases_step op h
  case swap a =>
    obtain ⟨cur, fm, r, v1, v2, s⟩ := swap_ok h
    exact ⟨_, swap_log h s, swap_logStep s⟩
  case claimProtocolFee =>
    obtain ⟨b, q, hl, _, _, e1, e2⟩ := claimProtocolFee_log h
    refine ⟨_, hl, ?_⟩
    clear h hl
    dsimp only at e1 e2
    read_log
  case claimPartnerFee =>
    obtain ⟨b, q, hl, _, _, e1, e2⟩ := claimPartnerFee_log h
    refine ⟨_, hl, ?_⟩
    clear h hl
    dsimp only at e1 e2
    read_log
  case claimCreatorFee =>
    obtain ⟨b, q, hl, _, _, e1, e2⟩ := claimCreatorFee_log h
    refine ⟨_, hl, ?_⟩
    clear h hl
    dsimp only at e1 e2
    read_log
  case partnerWithdrawSurplus =>
    obtain ⟨x, hl, _, e1⟩ := partnerSurplus_log h
    refine ⟨_, hl, ?_⟩
    clear h hl
    dsimp only at e1
    read_log
  case creatorWithdrawSurplus =>
    obtain ⟨x, hl, _, e1⟩ := creatorSurplus_log h
    refine ⟨_, hl, ?_⟩
    clear h hl
    dsimp only at e1
    read_log
  case claimPartnerCreationFee =>
    obtain ⟨x, hl, _, e1⟩ := partnerCreationFee_log h
    refine ⟨_, hl, ?_⟩
    clear h hl
    dsimp only at e1
    read_log
  case claimProtocolCreationFee =>
    obtain ⟨x, hl, _, e1⟩ := protocolCreationFee_log h
    refine ⟨_, hl, ?_⟩
    clear h hl
    dsimp only at e1
    read_log
  case withdrawLeftover =>
    obtain ⟨x, hl, _, e1⟩ := leftover_log h
    refine ⟨_, hl, ?_⟩
    clear h hl
    dsimp only at e1
    read_log
  case createMeta =>
    refine ⟨_, rfl, ?_⟩
    clear h
    read_log
  case transferCreator =>
    refine ⟨_, rfl, ?_⟩
    clear h
    read_log
  case withdrawMigrationFee.inl => exact migrationFee_logStep h
  case withdrawMigrationFee.inr => exact migrationFee_logStep h
  all_goals
    refine ⟨[], rfl, ?_⟩
    clear h
    read_log

end Dbc

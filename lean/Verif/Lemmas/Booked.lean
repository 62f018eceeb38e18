import Verif.Lemmas.Solvency

/-!
# Lifetime fee accounts
-/

namespace Dbc

open Spec

/-- Every fee account balances: accrued = paid + owed; metrics and token supply agree with the history. -/
structure Booked (w : World) : Prop where
  pb : w.led.accPartnerBase = w.led.paidPartnerBase + w.pool.partnerBaseFee
  pq : w.led.accPartnerQuote = w.led.paidPartnerQuote + w.pool.partnerQuoteFee
  cb : w.led.accCreatorBase = w.led.paidCreatorBase + w.pool.creatorBaseFee
  cq : w.led.accCreatorQuote = w.led.paidCreatorQuote + w.pool.creatorQuoteFee
  rb : w.led.accProtocolBase + w.led.protoMigBase =
    w.led.paidProtocolBase + (w.pool.protocolBaseFee + w.pool.protocolMigBaseFee)
  rq : w.led.accProtocolQuote + w.led.protoMigQuote + (if w.pool.protocolSurplus = 0 then 0 else protoPart w.surplus) =
    w.led.paidProtocolQuote + (w.pool.protocolQuoteFee + w.pool.protocolMigQuoteFee)
  mb : w.pool.metrics.tradingBase = w.led.accPartnerBase + w.led.accCreatorBase
  mq : w.pool.metrics.tradingQuote = w.led.accPartnerQuote + w.led.accCreatorQuote
  nb : w.pool.metrics.protocolBase = w.led.accProtocolBase
  nq : w.pool.metrics.protocolQuote = w.led.accProtocolQuote
  sup : ∀ s, w.cfg.initialBaseSupply = .ok s → w.supply + w.led.burnt + w.led.burntByHolders = s + w.led.minted

theorem recordSwap_acc (l : Ledger) (c : PoolConfig) (r : SwapResult) (fm : FeeMode) (dir : TradeDirection) (f : Bool) :
    (l.recordSwap c r fm dir f).accPartnerBase = l.accPartnerBase + onlyIf fm.feesOnBase (paPart c r) ∧
    (l.recordSwap c r fm dir f).accPartnerQuote = l.accPartnerQuote + onlyIf (!fm.feesOnBase) (paPart c r) ∧
    (l.recordSwap c r fm dir f).accCreatorBase = l.accCreatorBase + onlyIf fm.feesOnBase (crPart c r) ∧
    (l.recordSwap c r fm dir f).accCreatorQuote = l.accCreatorQuote + onlyIf (!fm.feesOnBase) (crPart c r) ∧
    (l.recordSwap c r fm dir f).accProtocolBase = l.accProtocolBase + onlyIf fm.feesOnBase r.fee.protocol ∧
    (l.recordSwap c r fm dir f).accProtocolQuote = l.accProtocolQuote + onlyIf (!fm.feesOnBase) r.fee.protocol := by
  unfold Ledger.recordSwap
  cases dir <;> cases fm.feesOnBase <;> exact ⟨rfl, rfl, rfl, rfl, rfl, rfl⟩

theorem onlyIf_add (b : Bool) (x y : Nat) : onlyIf b (x + y) = onlyIf b x + onlyIf b y := by cases b <;> rfl

theorem Booked.swap {w w' : World} {a : SwapArgs} (k : Booked w) (l : Life w)
    (hs : w.step (.swap a) = .ok w') : Booked w' := by
  obtain ⟨cur, fm, r, v1, v2, s⟩ := swap_ok hs
  have h0 : w.pool.migrationProgress = 0 := l.start.2 s.incomplete
  obtain ⟨_, _, k3, _⟩ := l.early h0
  obtain ⟨r1, r2, r3, r4, r5, r6⟩ := recordSwap_acc w.led w.cfg r fm a.dir (w.firstMin a)
  obtain ⟨a1, a2, a3, a4, a5, a6, a7, a8, a9, a10, a11, a12, er⟩ :=
    recordSwap_other w.led w.cfg r fm a.dir (w.firstMin a)
  have el : w'.led = w.led.recordSwap w.cfg r fm a.dir (w.firstMin a) := by rw [s.frame]
  rw [← el] at r1 r2 r3 r4 r5 r6 er
  have rs : w'.pool.protocolSurplus = w.pool.protocolSurplus := by rw [s.poolFrame]
  have pb : w'.pool.protocolMigBaseFee = w.pool.protocolMigBaseFee := by rw [s.poolFrame]
  have pq : w'.pool.protocolMigQuoteFee = w.pool.protocolMigQuoteFee := by rw [s.poolFrame]
  have e1 : w'.led.paidPartnerBase = w.led.paidPartnerBase ∧ w'.led.paidPartnerQuote = w.led.paidPartnerQuote ∧
      w'.led.paidCreatorBase = w.led.paidCreatorBase ∧ w'.led.paidCreatorQuote = w.led.paidCreatorQuote ∧
      w'.led.paidProtocolBase = w.led.paidProtocolBase ∧ w'.led.paidProtocolQuote = w.led.paidProtocolQuote ∧
      w'.led.protoMigBase = w.led.protoMigBase ∧ w'.led.protoMigQuote = w.led.protoMigQuote ∧
      w'.led.burnt = w.led.burnt ∧ w'.led.minted = w.led.minted ∧
      w'.led.burntByHolders = w.led.burntByHolders := by
    rw [er]; exact ⟨rfl, rfl, rfl, rfl, rfl, rfl, rfl, rfl, rfl, rfl, rfl⟩
  obtain ⟨f1, f2, f3, f4, f5, f6, f7, f8, f9, f10, f11⟩ := e1
  have es : w'.supply = w.supply := by rw [s.frame]
  have h1 := k.pb; have h2 := k.pq; have h3 := k.cb; have h4 := k.cq; have h5 := k.rb; have h6 := k.rq
  have h7 := k.mb; have h8 := k.mq; have h9 := k.nb; have h10 := k.nq; have h11 := k.sup
  have g1 := s.partnerBase; have g2 := s.partnerQuote; have g3 := s.creatorBase; have g4 := s.creatorQuote
  have g5 := s.protocolBase; have g6 := s.protocolQuote
  have g7 := s.metTradingBase; have g8 := s.metTradingQuote; have g9 := s.metProtocolBase; have g10 := s.metProtocolQuote
  rw [← s.split, onlyIf_add] at g7 g8
  rw [if_pos k3] at h6
  exact
    { pb := by omega
      pq := by omega
      cb := by omega
      cq := by omega
      rb := by omega
      rq := by rw [if_pos (by omega)]; omega
      mb := by omega
      mq := by omega
      nb := by omega
      nq := by omega
      sup := by rw [s.cfg, f9, f10, f11, es]; exact h11 }

theorem burn_le {c : PoolConfig} {f mf v x : Nat} (h : burnAmount c f mf v = .ok x) : x ≤ v := by
  have := burnAmount_ok h; omega

/-- Protocol claims of quote tokens pay the surplus once. -/
theorem surplus_paid {w : World} {f e : Nat}
    (h : (w.pool.protocolSurplus = 0 ∧ w.cfg.migrationQuoteThreshold ≤ w.pool.quoteReserve ∧ f = 1 ∧
            e = protoPart (w.pool.quoteReserve - w.cfg.migrationQuoteThreshold)) ∨
         (¬ (w.pool.protocolSurplus = 0 ∧ w.cfg.migrationQuoteThreshold ≤ w.pool.quoteReserve) ∧
            f = w.pool.protocolSurplus ∧ e = 0)) :
    (if f = 0 then 0 else protoPart w.surplus) = (if w.pool.protocolSurplus = 0 then 0 else protoPart w.surplus) + e := by
  unfold World.surplus
  generalize protoPart _ = x at *
  rcases h with ⟨a, b, rfl, rfl⟩ | ⟨a, rfl, rfl⟩
  · rw [if_neg (by decide), if_pos a]; omega
  · omega

theorem Booked.step {w w' : World} {op : Op} (k : Booked w) (l : Life w) (sv : Solvent w)
    (hs : w.step op = .ok w') : Booked w' := by
  have h5 := k.rb
  have h6 := k.rq
  have hn := l.notYet
  have n1 := sv.baseMax
  cases op with
  | swap a => exact k.swap l hs
  | claimProtocolFee s b q =>
    obtain ⟨_, a, b, c, d, e, f, ha, hb, hc, hd, hf, _, _, rfl⟩ := claimProtocolFee_ok hs
    have := surplus_paid hf
    exact { k with
      rb := by dsimp only; omega
      rq := by
        dsimp only
        show w.led.accProtocolQuote + w.led.protoMigQuote + (if f = 0 then 0 else protoPart w.surplus) = _
        omega }
  | zapProtocolFee s m b x y =>
    obtain ⟨_, _, _, ⟨_, a, b, ha, hb, _, _, rfl⟩ | ⟨_, c, d, e, f, hc, hd, hf, _, _, rfl⟩⟩ := zapProtocolFee_ok hs
    · exact { k with rb := by dsimp only; omega }
    · have := surplus_paid hf
      exact { k with
        rq := by
          dsimp only
          show w.led.accProtocolQuote + w.led.protoMigQuote + (if f = 0 then 0 else protoPart w.surplus) = _
          omega }
  | claimPartnerFee s b q =>
    obtain ⟨_, a, b, ha, hb, _, _, rfl⟩ := claimPartnerFee_ok hs
    have := k.pb; have := k.pq
    exact { k with pb := by dsimp only; omega, pq := by dsimp only; omega }
  | claimCreatorFee s b q =>
    obtain ⟨_, a, b, ha, hb, _, _, rfl⟩ := claimCreatorFee_ok hs
    have := k.cb; have := k.cq
    exact { k with cb := by dsimp only; omega, cq := by dsimp only; omega }
  | partnerWithdrawSurplus s => obtain ⟨_, _, _, _, _, _, rfl⟩ := partnerWithdrawSurplus_ok hs; exact { k with }
  | creatorWithdrawSurplus s => obtain ⟨_, _, _, _, _, _, rfl⟩ := creatorWithdrawSurplus_ok hs; exact { k with }
  | withdrawMigrationFee s f =>
    obtain ⟨_, ⟨_, _, _, _, rfl⟩ | ⟨_, _, _, _, rfl⟩⟩ := withdrawMigrationFee_ok hs <;> exact { k with }
  | claimPartnerCreationFee s => obtain ⟨_, _, _, _, rfl⟩ := claimPartnerCreationFee_ok hs; exact { k with }
  | claimProtocolCreationFee s => obtain ⟨_, _, _, _, _, _, _, _, rfl⟩ := claimProtocolCreationFee_ok hs; exact { k with }
  | createLocker => obtain ⟨_, _, rfl⟩ := createLocker_ok hs; exact { k with }
  | migrateV1 a =>
    obtain ⟨md, m, md', burn, f, h1, h2, h3, h4, g5, g6, g7, g8, g9, g10, g11, g12, g13, g14, rfl⟩ := migrateV1_ok hs
    obtain ⟨z1, z2, _⟩ := hn (by omega)
    have hsup := k.sup
    exact { k with
      rb := by dsimp only; omega
      rq := by
        dsimp only
        show w.led.accProtocolQuote + (w.led.protoMigQuote + m.quoteFee) +
          (if w.pool.protocolSurplus = 0 then 0 else protoPart w.surplus) = _
        omega
      sup := fun s hs => by have := hsup s hs; dsimp only; omega }
  | migrateV2 a =>
    obtain ⟨hd, m, burn, f, price, liq, dead, pa, cr, first, second, liq2, rest, hh, _, h2, h3, h4, g5, hf, h7, _, _, g1, g2, g3, g4,
      _, g6, g7, g8, g9, g10, rfl⟩ := migrateV2_ok hs
    obtain ⟨z1, z2, _⟩ := hn (by omega)
    have hsup := k.sup
    exact { k with
      rb := by dsimp only; omega
      rq := by
        dsimp only
        show w.led.accProtocolQuote + (w.led.protoMigQuote + m.quoteFee) +
          (if w.pool.protocolSurplus = 0 then 0 else protoPart w.surplus) = _
        omega
      sup := fun s hs => by have := hsup s hs; dsimp only; omega }
  | withdrawLeftover r => obtain ⟨_, _, _, _, _, _, _, _, rfl⟩ := withdrawLeftover_ok hs; exact { k with }
  | createMeta => obtain ⟨_, _, rfl⟩ := createMeta_ok hs; exact { k with }
  | lockLp o => obtain ⟨_, _, _, _, _, _, _, rfl⟩ := lockLp_ok hs; exact { k with }
  | claimLp o => obtain ⟨_, _, _, _, _, _, _, rfl⟩ := claimLp_ok hs; exact { k with }
  | transferCreator s n => obtain ⟨_, _, _, rfl⟩ := transferCreator_ok hs; exact { k with }
  | createOperator s a p => obtain ⟨_, _, _, _, rfl⟩ := createOperator_ok hs; exact { k with }
  | closeOperator s a => obtain ⟨_, rfl⟩ := closeOperator_ok hs; exact { k with }
  | donate b q x => obtain ⟨_, _, rfl⟩ := donate_ok hs; exact { k with }
  | mintMore s x =>
    obtain ⟨_, _, rfl⟩ := mintMore_ok hs
    have hsup := k.sup
    exact { k with sup := fun s hs => by have := hsup s hs; dsimp only; omega }
  | burnOwn x =>
    obtain ⟨_, rfl⟩ := burnOwn_ok hs
    have hsup := k.sup
    exact { k with sup := fun s hs => by have := hsup s hs; dsimp only; omega }

theorem Genesis.booked {w : World} (h : Genesis w) : Booked w := by
  obtain ⟨p, env, a, c, ht, hc, hi⟩ := h
  obtain ⟨supply, mint, upd, act, b, h1, h2, h3, h4, h5, h6, h7, h8, rfl⟩ := initPool_ok hi
  exact ⟨rfl, rfl, rfl, rfl, rfl, rfl, rfl, rfl, rfl, rfl, fun s hs => by
    have : Except.ok s = Except.ok supply := hs.symm.trans h4
    cases this; rfl⟩

theorem Reachable.booked {w : World} (h : Reachable w) : Booked w :=
  Reachable.induct (P := Booked) (fun _ => Genesis.booked) (fun _ _ _ hr k hs => k.step hr.life hr.solvent hs) h

theorem step_resMax {w w' : World} {op : Op} (ih : w.pool.baseReserve ≤ u64Max ∧ w.pool.quoteReserve ≤ u64Max)
    (hs : w.step op = .ok w') : w'.pool.baseReserve ≤ u64Max ∧ w'.pool.quoteReserve ≤ u64Max := by
  rcases step_cases hs with ⟨a, rfl, h⟩ | h
  · obtain ⟨cur, fm, r, v1, v2, s⟩ := swap_ok h
    have := s.resMax
    omega
  · rw [h.2.2.2.1, h.2.2.2.2.1]; exact ih

/-- Reserves fit in 64 bits. -/
theorem Reachable.resMax {w : World} (h : Reachable w) : w.pool.baseReserve ≤ u64Max ∧ w.pool.quoteReserve ≤ u64Max := by
  refine Reachable.induct (P := fun w => w.pool.baseReserve ≤ u64Max ∧ w.pool.quoteReserve ≤ u64Max) ?_ ?_ h
  · rintro w ⟨p, env, a, c, ht, hc, hi⟩
    have hg := createConfig_good ht hc
    obtain ⟨supply, mint, upd, act, b, h1, h2, h3, h4, h5, h6, h7, h8, rfl⟩ := initPool_ok hi
    obtain ⟨t, _, _, hm⟩ := hg.supply _ h4
    exact ⟨hm, Nat.zero_le _⟩
  · exact fun _ _ _ _ ih hs => step_resMax ih hs

/-! ### Where every token came from and went -/

/-- Everything that ever entered or left a vault is in the lifetime totals. -/
structure Flows (w : World) : Prop where
  base : ∀ s, w.cfg.initialBaseSupply = .ok s →
    w.baseVault + (w.led.tradeBaseOut + w.led.refBase + w.led.paidPartnerBase + w.led.paidCreatorBase +
      w.led.paidProtocolBase + w.led.locker + w.led.migBase + w.led.burnt + w.led.leftover) =
    s + w.led.tradeBaseIn + w.led.donBase
  quote : w.quoteVault + (w.led.tradeQuoteOut + w.led.refQuote + w.led.paidPartnerQuote + w.led.paidCreatorQuote +
      w.led.paidProtocolQuote + w.led.partnerSurplus + w.led.creatorSurplus + w.led.partnerMig + w.led.creatorMig +
      w.led.migQuote) = w.led.tradeQuoteIn + w.led.donQuote

theorem Flows.swap {w w' : World} {a : SwapArgs} (k : Flows w) (hs : w.step (.swap a) = .ok w') : Flows w' := by
  obtain ⟨x, ho, hv⟩ := Props.C01_swap_books hs
  obtain ⟨cur, fm, r, v1, v2, s⟩ := swap_ok hs
  obtain ⟨a1, a2, a3, a4, a5, a6, a7, a8, a9, a10, a11, a12, er⟩ :=
    recordSwap_other w.led w.cfg r fm a.dir (w.firstMin a)
  have el : w'.led = w.led.recordSwap w.cfg r fm a.dir (w.firstMin a) := by rw [s.frame]
  rw [er] at el
  have e1 := ho.paid .base
  have e2 := ho.paid .quote
  have e3 := ho.got .base
  have e4 := ho.got .quote
  have e5 := ho.referral .base
  have e6 := ho.referral .quote
  have v1 := (hv .base).2
  have v2 := (hv .quote).2
  simp only [traderIn, traderOut, referrals, vault] at e1 e2 e3 e4 e5 e6 v1 v2
  have f1 : w'.led.paidPartnerBase = w.led.paidPartnerBase ∧ w'.led.paidPartnerQuote = w.led.paidPartnerQuote ∧
      w'.led.paidCreatorBase = w.led.paidCreatorBase ∧ w'.led.paidCreatorQuote = w.led.paidCreatorQuote ∧
      w'.led.paidProtocolBase = w.led.paidProtocolBase ∧ w'.led.paidProtocolQuote = w.led.paidProtocolQuote ∧
      w'.led.locker = w.led.locker ∧ w'.led.migBase = w.led.migBase ∧ w'.led.burnt = w.led.burnt ∧
      w'.led.leftover = w.led.leftover ∧ w'.led.partnerSurplus = w.led.partnerSurplus ∧
      w'.led.creatorSurplus = w.led.creatorSurplus ∧ w'.led.partnerMig = w.led.partnerMig ∧
      w'.led.creatorMig = w.led.creatorMig ∧ w'.led.migQuote = w.led.migQuote ∧ w'.led.donBase = w.led.donBase ∧
      w'.led.donQuote = w.led.donQuote := by
    rw [el]; exact ⟨rfl, rfl, rfl, rfl, rfl, rfl, rfl, rfl, rfl, rfl, rfl, rfl, rfl, rfl, rfl, rfl, rfl⟩
  have hb := k.base
  have hq := k.quote
  constructor
  · intro s0 h0
    rw [s.cfg] at h0
    have := hb s0 h0
    omega
  · omega

theorem Flows.step {w w' : World} {op : Op} (k : Flows w) (l : Life w) (sv : Solvent w) (hs : w.step op = .ok w') :
    Flows w' := by
  have hb := k.base
  have hq := k.quote
  cases op with
  | swap a => exact k.swap hs
  | withdrawMigrationFee s f =>
    obtain ⟨h1, ⟨_, _, h2, _, rfl⟩ | ⟨_, _, h2, _, rfl⟩⟩ := withdrawMigrationFee_ok hs
    · exact ⟨hb, by dsimp only; omega⟩
    · exact ⟨hb, by dsimp only; omega⟩
  | migrateV2 a =>
    obtain ⟨hd, m, burn, f, price, liq, dead, pa, cr, first, second, liq2, rest, hh, _, h2, h3, h4, g5, hf, h7, _, _, g1, g2, g3, g4,
      _, g6, g7, g8, g9, g10, rfl⟩ := migrateV2_ok hs
    exact ⟨fun s h => by have := hb s h; dsimp only; omega, by dsimp only; omega⟩
  | migrateV1 a =>
    obtain ⟨md, m, md', burn, f, h1, h2, h3, h4, g5, g6, g7, g8, g9, g10, g11, g12, g13, g14, rfl⟩ := migrateV1_ok hs
    exact ⟨fun s h => by have := hb s h; dsimp only; omega, by dsimp only; omega⟩
  | claimProtocolFee s b q =>
    obtain ⟨_, a, b, c, d, e, f, ha, _, hc, hd, hf, _, _, rfl⟩ := claimProtocolFee_ok hs
    exact ⟨fun s h => by have := hb s h; dsimp only; omega, by dsimp only; omega⟩
  | zapProtocolFee s m b x y =>
    obtain ⟨_, _, _, ⟨_, a, b, ha, _, _, _, rfl⟩ | ⟨_, c, d, e, f, hc, hd, hf, _, _, rfl⟩⟩ := zapProtocolFee_ok hs
    · exact ⟨fun s h => by have := hb s h; dsimp only; omega, by dsimp only; omega⟩
    · exact ⟨fun s h => by have := hb s h; dsimp only; omega, by dsimp only; omega⟩
  | claimPartnerFee s b q =>
    obtain ⟨_, a, b, _, _, _, _, rfl⟩ := claimPartnerFee_ok hs
    exact ⟨fun s h => by have := hb s h; dsimp only; omega, by dsimp only; omega⟩
  | claimCreatorFee s b q =>
    obtain ⟨_, a, b, _, _, _, _, rfl⟩ := claimCreatorFee_ok hs
    exact ⟨fun s h => by have := hb s h; dsimp only; omega, by dsimp only; omega⟩
  | partnerWithdrawSurplus s =>
    obtain ⟨_, _, _, _, _, _, rfl⟩ := partnerWithdrawSurplus_ok hs; exact ⟨hb, by dsimp only; omega⟩
  | creatorWithdrawSurplus s =>
    obtain ⟨_, _, _, _, _, _, rfl⟩ := creatorWithdrawSurplus_ok hs; exact ⟨hb, by dsimp only; omega⟩
  | claimPartnerCreationFee s => obtain ⟨_, _, _, _, rfl⟩ := claimPartnerCreationFee_ok hs; exact { k with }
  | claimProtocolCreationFee s => obtain ⟨_, _, _, _, _, _, _, _, rfl⟩ := claimProtocolCreationFee_ok hs; exact { k with }
  | createLocker =>
    obtain ⟨_, _, rfl⟩ := createLocker_ok hs
    exact ⟨fun s h => by have := hb s h; dsimp only; omega, hq⟩
  | withdrawLeftover r =>
    obtain ⟨_, _, _, _, f, x, hf, hx, rfl⟩ := withdrawLeftover_ok hs
    exact ⟨fun s h => by have := hb s h; dsimp only; omega, hq⟩
  | createMeta => obtain ⟨_, _, rfl⟩ := createMeta_ok hs; exact { k with }
  | lockLp o => obtain ⟨_, _, _, _, _, _, _, rfl⟩ := lockLp_ok hs; exact { k with }
  | claimLp o => obtain ⟨_, _, _, _, _, _, _, rfl⟩ := claimLp_ok hs; exact { k with }
  | transferCreator s n => obtain ⟨_, _, _, rfl⟩ := transferCreator_ok hs; exact { k with }
  | createOperator s a p => obtain ⟨_, _, _, _, rfl⟩ := createOperator_ok hs; exact { k with }
  | closeOperator s a => obtain ⟨_, rfl⟩ := closeOperator_ok hs; exact { k with }
  | donate b q x =>
    obtain ⟨_, _, rfl⟩ := donate_ok hs
    exact ⟨fun s h => by have := hb s h; dsimp only; omega, by dsimp only; omega⟩
  | mintMore s x => obtain ⟨_, _, rfl⟩ := mintMore_ok hs; exact { k with }
  | burnOwn x => obtain ⟨_, rfl⟩ := burnOwn_ok hs; exact { k with }

theorem Genesis.flows {w : World} (h : Genesis w) : Flows w := by
  obtain ⟨p, env, a, c, ht, hc, hi⟩ := h
  obtain ⟨supply, mint, upd, act, b, h1, h2, h3, h4, h5, h6, h7, h8, rfl⟩ := initPool_ok hi
  exact ⟨fun s hs => by
    have : Except.ok s = Except.ok supply := hs.symm.trans h4
    cases this; rfl, rfl⟩

theorem Reachable.flows {w : World} (h : Reachable w) : Flows w :=
  Reachable.induct (P := Flows) (fun _ => Genesis.flows) (fun _ _ _ hr k hs => k.step hr.life hr.solvent hs) h

end Dbc

import Verif.Lemmas.Cases
import Verif.Lemmas.Migration

/-!
# Life cycle and once-only flags of every reachable pool
-/

namespace Dbc

theorem bit4 {s : Nat} (h : s = 0 ∨ s = 2 ∨ s = 4 ∨ s = 6) : s &&& 4 = 0 → s ^^^ 4 = s + 4 ∧ s < 4 := by
  rcases h with rfl | rfl | rfl | rfl <;> decide
theorem bit2 {s : Nat} (h : s = 0 ∨ s = 2 ∨ s = 4 ∨ s = 6) : s &&& 2 = 0 → s ^^^ 2 = s + 2 ∧ (s = 0 ∨ s = 4) := by
  rcases h with rfl | rfl | rfl | rfl <;> decide
theorem cbit2 {s : Nat} (h : s = 0 ∨ s = 1 ∨ s = 2 ∨ s = 3) : s &&& 2 = 0 → s ^^^ 2 = s + 2 ∧ (s = 0 ∨ s = 1) := by
  rcases h with rfl | rfl | rfl | rfl <;> decide
theorem cbit1 {s : Nat} (h : s = 0 ∨ s = 1 ∨ s = 2 ∨ s = 3) : s &&& 1 = 0 → s ^^^ 1 = s + 1 ∧ (s = 0 ∨ s = 2) := by
  rcases h with rfl | rfl | rfl | rfl <;> decide
theorem cbit1' {s : Nat} (h : s = 0 ∨ s = 1 ∨ s = 2 ∨ s = 3) : s &&& 1 ≠ 0 → (s = 1 ∨ s = 3) := by
  rcases h with rfl | rfl | rfl | rfl <;> decide

/-- Surplus of a completed pool. -/
def World.surplus (w : World) : Nat := w.pool.quoteReserve - w.cfg.migrationQuoteThreshold

/-- Life cycle, flags and the payments they guard, whatever release of the program created the pool. -/
structure Cycle (w : World) : Prop where
  prog : w.pool.migrationProgress ≤ 3
  start : w.pool.migrationProgress = 0 ↔ w.pool.quoteReserve < w.cfg.migrationQuoteThreshold
  mig : (w.pool.migrationProgress = 3 → w.pool.isMigrated = 1) ∧ (w.pool.migrationProgress < 3 → w.pool.isMigrated = 0)
  vest : w.pool.migrationProgress = 1 → w.cfg.lockedVesting.has
  early : w.pool.migrationProgress = 0 → w.pool.partnerSurplus = 0 ∧ w.pool.creatorSurplus = 0 ∧
    w.pool.protocolSurplus = 0 ∧ w.pool.migrationFeeStatus = 0
  status : w.pool.migrationFeeStatus = 0 ∨ w.pool.migrationFeeStatus = 2 ∨ w.pool.migrationFeeStatus = 4 ∨
    w.pool.migrationFeeStatus = 6
  paS : (w.pool.partnerSurplus = 0 ∧ w.led.partnerSurplus = 0) ∨
    (w.pool.partnerSurplus = 1 ∧ w.led.partnerSurplus = paSurplus w.cfg w.surplus)
  crS : (w.pool.creatorSurplus = 0 ∧ w.led.creatorSurplus = 0) ∨
    (w.pool.creatorSurplus = 1 ∧ w.led.creatorSurplus = crSurplus w.cfg w.surplus)
  prS : w.pool.protocolSurplus = 0 ∨ w.pool.protocolSurplus = 1
  paM : w.led.partnerMig = if w.pool.migrationFeeStatus < 4 then 0 else paMig w.cfg
  crM : w.led.creatorMig = if w.pool.migrationFeeStatus = 0 ∨ w.pool.migrationFeeStatus = 4 then 0 else crMig w.cfg
  notYet : w.pool.migrationProgress < 3 → w.pool.protocolMigBaseFee = 0 ∧ w.pool.protocolMigQuoteFee = 0 ∧
    w.led.migBase = 0 ∧ w.led.migQuote = 0 ∧ w.led.protoMigBase = 0 ∧ w.led.protoMigQuote = 0 ∧ w.led.burnt = 0 ∧
    w.led.leftover = 0 ∧ w.pool.isWithdrawLeftover = 0
  leftover : w.pool.isWithdrawLeftover = 0 ∧ w.led.leftover = 0 ∨ w.pool.isWithdrawLeftover = 1 ∧ w.cfg.fixedSupplyFlag = 1
  first : w.led.firstMin ≤ w.pool.hasSwap ∧ w.pool.hasSwap ≤ 1
  locker : (w.pool.migrationProgress ≤ 1 → w.led.locker = 0) ∧
    (2 ≤ w.pool.migrationProgress → w.led.locker = if w.cfg.lockedVesting.has then vestTotal w.cfg else 0)

/-- Life cycle, flags and the payments they guard, for pools created by the modelled release. -/
structure Life (w : World) : Prop extends Cycle w where
  creation : w.pool.creationBits = 0 ∨ w.pool.creationBits = 1 ∨ w.pool.creationBits = 2 ∨ w.pool.creationBits = 3
  legacy : w.pool.legacyCreationBits = 0
  laP : w.led.lamportsPartner = if w.pool.creationBits < 2 then 0 else paCreation w.cfg
  laR : w.led.lamportsProtocol = if w.pool.creationBits = 0 ∨ w.pool.creationBits = 2 then 0 else prCreation w.cfg
  lam : w.lamports + w.led.lamportsPartner + w.led.lamportsProtocol = w.cfg.poolCreationFee + w.led.donLamports
  bps : w.pool.migrationFeeBps = PROTOCOL_LIQUIDITY_MIGRATION_FEE_BPS

theorem recordSwap_other (l : Ledger) (c : PoolConfig) (r : SwapResult) (fm : FeeMode) (dir : TradeDirection) (f : Bool) :
    ∃ a1 a2 a3 a4 a5 a6 a7 a8 a9 a10 a11 a12, l.recordSwap c r fm dir f = { l with
      tradeBaseIn := a1, tradeQuoteIn := a2, tradeBaseOut := a3, tradeQuoteOut := a4, refBase := a5, refQuote := a6,
      accPartnerBase := a7, accPartnerQuote := a8, accCreatorBase := a9, accCreatorQuote := a10, accProtocolBase := a11,
      accProtocolQuote := a12, firstMin := l.firstMin + (if f = true then 1 else 0) } := by
  unfold Ledger.recordSwap
  cases dir <;> cases fm.feesOnBase <;> exact ⟨_, _, _, _, _, _, _, _, _, _, _, _, rfl⟩

theorem Cycle.swap {w w' : World} {a : SwapArgs} {cur : Nat} {fm : FeeMode} {r : SwapResult} {v1 v2 : VolTracker}
    (l : Cycle w) (s : SwapStep w a w' cur fm r v1 v2) : Cycle w' := by
  have h0 : w.pool.migrationProgress = 0 := l.start.2 s.incomplete
  have e1 := s.cfg
  obtain ⟨a1, a2, a3, a4, a5, a6, a7, a8, a9, a10, a11, a12, er⟩ :=
    recordSwap_other w.led w.cfg r fm a.dir (w.firstMin a)
  have el : w'.led = w.led.recordSwap w.cfg r fm a.dir (w.firstMin a) := by rw [s.frame]
  rw [er] at el
  have hf : w.firstMin a = true → w.pool.hasSwap = 0 := by
    unfold World.firstMin
    simp only [Bool.and_eq_true, decide_eq_true_eq]
    exact fun h => h.1.2
  have hp : w'.pool.migrationProgress ≤ 2 ∧ (w'.pool.migrationProgress = 0 ↔
      w'.pool.quoteReserve < w.cfg.migrationQuoteThreshold) ∧ (w'.pool.migrationProgress = 1 → w.cfg.lockedVesting.has) ∧
      (w'.pool.migrationProgress = 2 → ¬ w.cfg.lockedVesting.has) := by
    by_cases g : w'.pool.quoteReserve < w.cfg.migrationQuoteThreshold
    · have := (s.still g).1
      refine ⟨by omega, by omega, fun h => by omega, fun h => by omega⟩
    · have := (s.done (by omega)).1
      by_cases hv : w.cfg.lockedVesting.has
      · rw [if_pos hv] at this
        exact ⟨by omega, by omega, fun _ => hv, fun h => by omega⟩
      · rw [if_neg hv] at this
        exact ⟨by omega, by omega, fun h => by omega, fun _ => hv⟩
  obtain ⟨p1, p2, p3, p4⟩ := hp
  have ps : w'.pool.partnerSurplus = w.pool.partnerSurplus := by rw [s.poolFrame]
  have cs : w'.pool.creatorSurplus = w.pool.creatorSurplus := by rw [s.poolFrame]
  have rs : w'.pool.protocolSurplus = w.pool.protocolSurplus := by rw [s.poolFrame]
  have ms : w'.pool.migrationFeeStatus = w.pool.migrationFeeStatus := by rw [s.poolFrame]
  have im : w'.pool.isMigrated = w.pool.isMigrated := by rw [s.poolFrame]
  have pb : w'.pool.protocolMigBaseFee = w.pool.protocolMigBaseFee := by rw [s.poolFrame]
  have pq : w'.pool.protocolMigQuoteFee = w.pool.protocolMigQuoteFee := by rw [s.poolFrame]
  have lf : w'.pool.isWithdrawLeftover = w.pool.isWithdrawLeftover := by rw [s.poolFrame]
  obtain ⟨k1, k2, k3, k4⟩ := l.early h0
  have k5 := l.paS
  have k6 := l.crS
  have k7 := l.notYet (by omega)
  have k8 := l.mig.2 (by omega)
  have k9 := l.locker.1 (by omega)
  have k10 := l.first
  have k11 := s.hasSwap
  have k12 := l.leftover
  exact
    { prog := by omega
      start := by rw [e1]; exact p2
      mig := by rw [im]; omega
      vest := by rw [e1]; exact p3
      early := by rw [ps, cs, rs, ms]; intro _; exact ⟨k1, k2, k3, k4⟩
      status := by rw [ms]; exact l.status
      paS := by rw [ps, el]; left; dsimp only; omega
      crS := by rw [cs, el]; left; dsimp only; omega
      prS := by rw [rs]; exact l.prS
      paM := by rw [ms, el, e1]; exact l.paM
      crM := by rw [ms, el, e1]; exact l.crM
      notYet := by rw [pb, pq, el, lf]; intro _; exact k7
      leftover := by rw [lf, el, e1]; exact k12
      first := by
        rw [el, k11]; dsimp only
        cases hx : w.firstMin a with
        | true => have := hf hx; simp only [if_true]; omega
        | false => simp only [Bool.false_eq_true, if_false]; omega
      locker := by
        rw [el, e1]; dsimp only
        refine ⟨fun _ => k9, fun h => ?_⟩
        rw [if_neg (p4 (by omega))]; exact k9 }

theorem Life.swap {w w' : World} {a : SwapArgs} {cur : Nat} {fm : FeeMode} {r : SwapResult} {v1 v2 : VolTracker}
    (l : Life w) (s : SwapStep w a w' cur fm r v1 v2) : Life w' := by
  have e1 := s.cfg
  obtain ⟨a1, a2, a3, a4, a5, a6, a7, a8, a9, a10, a11, a12, er⟩ :=
    recordSwap_other w.led w.cfg r fm a.dir (w.firstMin a)
  have el : w'.led = w.led.recordSwap w.cfg r fm a.dir (w.firstMin a) := by rw [s.frame]
  rw [er] at el
  have elam : w'.lamports = w.lamports := by rw [s.frame]
  have cb : w'.pool.creationBits = w.pool.creationBits := by rw [s.poolFrame]
  have lb : w'.pool.legacyCreationBits = w.pool.legacyCreationBits := by rw [s.poolFrame]
  have bp : w'.pool.migrationFeeBps = w.pool.migrationFeeBps := by rw [s.poolFrame]
  exact
    { l.toCycle.swap s with
      creation := by rw [cb]; exact l.creation
      legacy := by rw [lb]; exact l.legacy
      laP := by rw [cb, el, e1]; exact l.laP
      laR := by rw [cb, el, e1]; exact l.laR
      lam := by rw [elam, el, e1]; exact l.lam
      bps := by rw [bp]; exact l.bps }

theorem prCreation_le (c : PoolConfig) : paCreation c + prCreation c = c.poolCreationFee := by
  unfold paCreation prCreation; omega

theorem Cycle.step {w w' : World} {op : Op} (l : Cycle w) (hs : w.step op = .ok w') : Cycle w' := by
  have b4 := bit4 l.status
  have b2 := bit2 l.status
  cases op with
  | swap a =>
    obtain ⟨cur, fm, r, v1, v2, s⟩ := swap_ok hs
    exact l.swap s
  | claimProtocolFee s b q =>
    obtain ⟨_, a, b, c, d, e, f, _, hb, _, hd, hf, _, _, rfl⟩ := claimProtocolFee_ok hs
    have h5 := l.early
    have h9 := l.prS
    have h2 := l.start
    have hn := l.notYet
    have hf' : (f = 0 ∨ f = 1) ∧ (w.pool.migrationProgress = 0 → f = 0) := by omega
    exact { l with
      prS := hf'.1
      early := fun h => ⟨(h5 h).1, (h5 h).2.1, hf'.2 h, (h5 h).2.2.2⟩
      notYet := fun h => ⟨by have := hn h; dsimp only; omega, by have := hn h; dsimp only; omega, (hn h).2.2⟩ }
  | zapProtocolFee s m b x y =>
    have h5 := l.early
    have h9 := l.prS
    have h2 := l.start
    have hn := l.notYet
    obtain ⟨_, _, _, ⟨_, a, b, _, hb, _, _, rfl⟩ | ⟨_, c, d, e, f, _, hd, hf, _, _, rfl⟩⟩ := zapProtocolFee_ok hs
    · exact { l with notYet := fun h => ⟨by have := hn h; dsimp only; omega, (hn h).2⟩ }
    · have hf' : (f = 0 ∨ f = 1) ∧ (w.pool.migrationProgress = 0 → f = 0) := by omega
      exact { l with
        prS := hf'.1
        early := fun h => ⟨(h5 h).1, (h5 h).2.1, hf'.2 h, (h5 h).2.2.2⟩
        notYet := fun h => ⟨(hn h).1, by have := hn h; dsimp only; omega, (hn h).2.2⟩ }
  | claimPartnerFee s b q => obtain ⟨_, _, _, _, _, _, _, rfl⟩ := claimPartnerFee_ok hs; exact { l with }
  | claimCreatorFee s b q => obtain ⟨_, _, _, _, _, _, _, rfl⟩ := claimCreatorFee_ok hs; exact { l with }
  | partnerWithdrawSurplus s =>
    obtain ⟨_, h1, h2, x, hx, _, rfl⟩ := partnerWithdrawSurplus_ok hs
    have h5 := l.start
    exact { l with
      early := fun h => absurd (h5.1 h) (by omega)
      paS := by
        rcases l.paS with ⟨_, k⟩ | ⟨k, _⟩
        · right; refine ⟨rfl, ?_⟩; dsimp only; rw [k, hx, Nat.zero_add]; rfl
        · omega }
  | creatorWithdrawSurplus s =>
    obtain ⟨_, h1, h2, x, hx, _, rfl⟩ := creatorWithdrawSurplus_ok hs
    have h5 := l.start
    exact { l with
      early := fun h => absurd (h5.1 h) (by omega)
      crS := by
        rcases l.crS with ⟨_, k⟩ | ⟨k, _⟩
        · right; refine ⟨rfl, ?_⟩; dsimp only; rw [k, hx, Nat.zero_add]; rfl
        · omega }
  | withdrawMigrationFee s f =>
    have h5 := l.start
    have k1 := l.paM
    have k2 := l.crM
    have k3 := l.status
    obtain ⟨h1, ⟨_, _, h2, _, rfl⟩ | ⟨_, _, h2, _, rfl⟩⟩ := withdrawMigrationFee_ok hs
    · obtain ⟨e, g⟩ := b4 h2
      exact { l with
        early := fun h => absurd (h5.1 h) (by omega)
        status := by dsimp only; rw [e]; omega
        paM := by dsimp only; rw [e, k1, if_pos g, if_neg (by omega), Nat.zero_add]
        crM := by
          dsimp only; rw [e, k2]
          by_cases z : w.pool.migrationFeeStatus = 0
          · rw [if_pos (by omega), if_pos (by omega)]
          · rw [if_neg (by omega), if_neg (by omega)] }
    · obtain ⟨e, g⟩ := b2 h2
      exact { l with
        early := fun h => absurd (h5.1 h) (by omega)
        status := by dsimp only; rw [e]; omega
        paM := by
          dsimp only; rw [e, k1]
          by_cases z : w.pool.migrationFeeStatus = 0
          · rw [if_pos (by omega), if_pos (by omega)]
          · rw [if_neg (by omega), if_neg (by omega)]
        crM := by
          dsimp only; rw [e, k2, if_pos g, if_neg (by omega), Nat.zero_add] }
  | claimPartnerCreationFee s => obtain ⟨_, _, _, _, rfl⟩ := claimPartnerCreationFee_ok hs; exact { l with }
  | claimProtocolCreationFee s => obtain ⟨_, _, _, _, _, _, _, _, rfl⟩ := claimProtocolCreationFee_ok hs; exact { l with }
  | createLocker =>
    obtain ⟨h1, h2, rfl⟩ := createLocker_ok hs
    have k1 := l.start
    have k2 := l.mig.2 (by omega)
    have k3 := l.vest h1
    have k4 := l.locker.1 (by omega)
    have k5 := l.notYet (by omega)
    exact { l with
      prog := by dsimp only; omega
      start := by dsimp only; omega
      mig := ⟨fun h => absurd (show 2 = 3 from h) (by decide), fun _ => k2⟩
      vest := fun h => absurd (show 2 = 1 from h) (by decide)
      early := fun h => absurd (show 2 = 0 from h) (by decide)
      notYet := fun _ => k5
      locker := ⟨fun h => absurd (show 2 ≤ 1 from h) (by decide), fun _ => by dsimp only; rw [if_pos k3, k4, Nat.zero_add]⟩ }
  | migrateV1 a =>
    obtain ⟨_, _, _, _, _, _, h1, h2, _, _, _, _, _, _, _, _, _, _, _, rfl⟩ := migrateV1_ok hs
    have k1 := l.start
    have k4 := l.locker.2 (by omega)
    exact { l with
      prog := by dsimp only; omega
      start := by dsimp only; omega
      mig := ⟨fun _ => rfl, fun h => absurd (show 3 < 3 from h) (by decide)⟩
      vest := fun h => absurd (show 3 = 1 from h) (by decide)
      early := fun h => absurd (show 3 = 0 from h) (by decide)
      notYet := fun h => absurd (show 3 < 3 from h) (by decide)
      locker := ⟨fun h => absurd (show 3 ≤ 1 from h) (by decide), fun _ => k4⟩ }
  | migrateV2 a =>
    obtain ⟨_, _, _, _, _, _, _, _, _, _, _, _, _, _, _, h1, h2, _, _, _, _, _, _, _, _, _, _, _, _, _, _, _, _, rfl⟩ :=
      migrateV2_ok hs
    have k1 := l.start
    have k4 := l.locker.2 (by omega)
    exact { l with
      prog := by dsimp only; omega
      start := by dsimp only; omega
      mig := ⟨fun _ => rfl, fun h => absurd (show 3 < 3 from h) (by decide)⟩
      vest := fun h => absurd (show 3 = 1 from h) (by decide)
      early := fun h => absurd (show 3 = 0 from h) (by decide)
      notYet := fun h => absurd (show 3 < 3 from h) (by decide)
      locker := ⟨fun h => absurd (show 3 ≤ 1 from h) (by decide), fun _ => k4⟩ }
  | withdrawLeftover r =>
    obtain ⟨_, h1, h2, _, _, _, _, _, rfl⟩ := withdrawLeftover_ok hs
    exact { l with
      notYet := fun h => absurd h (by dsimp only; omega)
      leftover := .inr ⟨rfl, h2⟩ }
  | createMeta => obtain ⟨_, _, rfl⟩ := createMeta_ok hs; exact { l with }
  | lockLp o => obtain ⟨_, _, _, _, _, _, _, rfl⟩ := lockLp_ok hs; exact { l with }
  | claimLp o => obtain ⟨_, _, _, _, _, _, _, rfl⟩ := claimLp_ok hs; exact { l with }
  | transferCreator s n => obtain ⟨_, _, _, rfl⟩ := transferCreator_ok hs; exact { l with }
  | createOperator s a p => obtain ⟨_, _, _, _, rfl⟩ := createOperator_ok hs; exact { l with }
  | closeOperator s a => obtain ⟨_, rfl⟩ := closeOperator_ok hs; exact { l with }
  | donate b q x => obtain ⟨_, _, rfl⟩ := donate_ok hs; exact { l with }
  | mintMore s x => obtain ⟨_, _, rfl⟩ := mintMore_ok hs; exact { l with }
  | burnOwn x => obtain ⟨_, rfl⟩ := burnOwn_ok hs; exact { l with }

theorem Life.step {w w' : World} {op : Op} (l : Life w) (hs : w.step op = .ok w') : Life w' := by
  have hcy := l.toCycle.step hs
  have c2 := cbit2 l.creation
  have c1 := cbit1 l.creation
  have k0 := l.legacy
  have k1 := l.laP
  have k2 := l.laR
  have k3 := l.lam
  have k4 := l.creation
  have k5 := l.bps
  cases op with
  | swap a =>
    obtain ⟨cur, fm, r, v1, v2, s⟩ := swap_ok hs
    exact l.swap s
  | claimProtocolFee s b q =>
    obtain ⟨_, a, b, c, d, e, f, _, hb, _, hd, hf, _, _, rfl⟩ := claimProtocolFee_ok hs; exact ⟨hcy, k4, k0, k1, k2, k3, k5⟩
  | zapProtocolFee s m b x y =>
    obtain ⟨_, _, _, ⟨_, a, b, _, hb, _, _, rfl⟩ | ⟨_, c, d, e, f, _, hd, hf, _, _, rfl⟩⟩ := zapProtocolFee_ok hs <;>
      exact ⟨hcy, k4, k0, k1, k2, k3, k5⟩
  | claimPartnerFee s b q =>
    obtain ⟨_, _, _, _, _, _, _, rfl⟩ := claimPartnerFee_ok hs; exact ⟨hcy, k4, k0, k1, k2, k3, k5⟩
  | claimCreatorFee s b q =>
    obtain ⟨_, _, _, _, _, _, _, rfl⟩ := claimCreatorFee_ok hs; exact ⟨hcy, k4, k0, k1, k2, k3, k5⟩
  | partnerWithdrawSurplus s =>
    obtain ⟨_, h1, h2, x, hx, _, rfl⟩ := partnerWithdrawSurplus_ok hs; exact ⟨hcy, k4, k0, k1, k2, k3, k5⟩
  | creatorWithdrawSurplus s =>
    obtain ⟨_, h1, h2, x, hx, _, rfl⟩ := creatorWithdrawSurplus_ok hs; exact ⟨hcy, k4, k0, k1, k2, k3, k5⟩
  | withdrawMigrationFee s f =>
    obtain ⟨h1, ⟨_, _, h2, _, rfl⟩ | ⟨_, _, h2, _, rfl⟩⟩ := withdrawMigrationFee_ok hs <;>
      exact ⟨hcy, k4, k0, k1, k2, k3, k5⟩
  | claimPartnerCreationFee s =>
    obtain ⟨_, _, h1, h2, rfl⟩ := claimPartnerCreationFee_ok hs
    obtain ⟨e, g⟩ := c2 h1
    exact { hcy with
      creation := by dsimp only; omega
      laP := by dsimp only; rw [e, k1, if_pos (by omega), if_neg (by omega), Nat.zero_add]
      laR := by
        dsimp only; rw [e, k2]
        by_cases z : w.pool.creationBits = 0
        · rw [if_pos (by omega), if_pos (by omega)]
        · rw [if_neg (by omega), if_neg (by omega)]
      lam := by dsimp only; omega
      bps := k5
      legacy := k0 }
  | claimProtocolCreationFee s =>
    obtain ⟨_, a, b, bits, leg, h1, h2, h3, rfl⟩ := claimProtocolCreationFee_ok hs
    rw [k0] at h2
    have h2' : leg = 0 ∧ b = 0 := by
      rcases h2 with ⟨h, _⟩ | ⟨_, h⟩
      · exact absurd rfl h
      · exact h
    obtain ⟨rfl, rfl⟩ := h2'
    rcases h1 with ⟨g, rfl, rfl⟩ | ⟨g, rfl, rfl⟩
    · obtain ⟨e, g⟩ := c1 g
      exact { hcy with
        creation := by dsimp only; omega
        legacy := rfl
        laP := by
          dsimp only; rw [e, k1]
          by_cases z : w.pool.creationBits = 0
          · rw [if_pos (by omega), if_pos (by omega)]
          · rw [if_neg (by omega), if_neg (by omega)]
        laR := by dsimp only; rw [e, k2, if_pos (by omega), if_neg (by omega), Nat.zero_add, Nat.add_zero]
        lam := by dsimp only; omega
        bps := k5 }
    · exact ⟨hcy, k4, rfl, k1, k2, k3, k5⟩
  | createLocker => obtain ⟨h1, h2, rfl⟩ := createLocker_ok hs; exact ⟨hcy, k4, k0, k1, k2, k3, k5⟩
  | migrateV1 a =>
    obtain ⟨_, _, _, _, _, _, h1, h2, _, _, _, _, _, _, _, _, _, _, _, rfl⟩ := migrateV1_ok hs
    exact ⟨hcy, k4, k0, k1, k2, k3, k5⟩
  | migrateV2 a =>
    obtain ⟨_, _, _, _, _, _, _, _, _, _, _, _, _, _, _, h1, h2, _, _, _, _, _, _, _, _, _, _, _, _, _, _, _, _, rfl⟩ :=
      migrateV2_ok hs
    exact ⟨hcy, k4, k0, k1, k2, k3, k5⟩
  | withdrawLeftover r =>
    obtain ⟨_, h1, h2, _, _, _, _, _, rfl⟩ := withdrawLeftover_ok hs; exact ⟨hcy, k4, k0, k1, k2, k3, k5⟩
  | createMeta => obtain ⟨_, _, rfl⟩ := createMeta_ok hs; exact ⟨hcy, k4, k0, k1, k2, k3, k5⟩
  | lockLp o => obtain ⟨_, _, _, _, _, _, _, rfl⟩ := lockLp_ok hs; exact ⟨hcy, k4, k0, k1, k2, k3, k5⟩
  | claimLp o => obtain ⟨_, _, _, _, _, _, _, rfl⟩ := claimLp_ok hs; exact ⟨hcy, k4, k0, k1, k2, k3, k5⟩
  | transferCreator s n => obtain ⟨_, _, _, rfl⟩ := transferCreator_ok hs; exact ⟨hcy, k4, k0, k1, k2, k3, k5⟩
  | createOperator s a p => obtain ⟨_, _, _, _, rfl⟩ := createOperator_ok hs; exact ⟨hcy, k4, k0, k1, k2, k3, k5⟩
  | closeOperator s a => obtain ⟨_, rfl⟩ := closeOperator_ok hs; exact ⟨hcy, k4, k0, k1, k2, k3, k5⟩
  | donate b q x => obtain ⟨_, _, rfl⟩ := donate_ok hs; exact ⟨hcy, k4, k0, k1, k2, by dsimp only; omega, k5⟩
  | mintMore s x => obtain ⟨_, _, rfl⟩ := mintMore_ok hs; exact ⟨hcy, k4, k0, k1, k2, k3, k5⟩
  | burnOwn x => obtain ⟨_, rfl⟩ := burnOwn_ok hs; exact ⟨hcy, k4, k0, k1, k2, k3, k5⟩

end Dbc

import Verif.Lemmas.Booked

/-!
# Claims and withdrawals that pass their own checks succeed
-/

namespace Dbc

theorem splitPartnerCreator_fits {c : PoolConfig} (hc : c.creatorTradingFeePct ≤ 100) {x : Nat} (hx : x ≤ u64Max) :
    c.splitPartnerCreator x = .ok (x - x * c.creatorTradingFeePct / 100, x * c.creatorTradingFeePct / 100) := by
  unfold PoolConfig.splitPartnerCreator
  split
  · rename_i h; rw [h]; simp
  · rw [mulDivU64_pct hx hc (by decide) (by decide)]
    have : x * c.creatorTradingFeePct / 100 ≤ x := by
      rw [Nat.div_le_iff_le_mul_add_pred (by decide)]
      have := Nat.mul_le_mul_left x hc
      omega
    simp only [bind_ok, ok_inj, safeSub_ok]
    exact ⟨_, rfl, _, ⟨this, rfl⟩, rfl⟩

theorem pacSurplus_fits {t : Nat} (ht : t ≤ u64Max) : partnerAndCreatorSurplus t = .ok (t * 80 / 100) :=
  mulDivU64_pct ht (by decide) (by decide) (by decide)

theorem partnerSurplusOf_fits {c : PoolConfig} (hc : c.creatorTradingFeePct ≤ 100) {t : Nat} (ht : t ≤ u64Max) :
    partnerSurplusOf c t = .ok (paSurplus c t) := by
  simp only [partnerSurplusOf, pacSurplus_fits ht, bind_ok, ok_inj]
  exact ⟨_, rfl, _, splitPartnerCreator_fits hc (by omega), rfl⟩

theorem creatorSurplusOf_fits {c : PoolConfig} (hc : c.creatorTradingFeePct ≤ 100) {t : Nat} (ht : t ≤ u64Max) :
    creatorSurplusOf c t = .ok (crSurplus c t) := by
  simp only [creatorSurplusOf, pacSurplus_fits ht, bind_ok, ok_inj]
  exact ⟨_, rfl, _, splitPartnerCreator_fits hc (by omega), rfl⟩

theorem migrationQuoteAmount_fits {c : PoolConfig} (h : c.migrationFeePct ≤ 100) (ht : c.migrationQuoteThreshold ≤ u64Max) :
    migrationQuoteAmount c.migrationQuoteThreshold c.migrationFeePct = .ok (migQuote c, migFee c) := by
  have hle : migQuote c ≤ c.migrationQuoteThreshold := by
    unfold migQuote
    rw [divCeil_le_iff (by decide)]
    exact Nat.mul_le_mul_left _ (by omega)
  have hb : c.migrationQuoteThreshold * (100 - c.migrationFeePct) + 100 ≤ u128Max := by
    have h1 : c.migrationQuoteThreshold * (100 - c.migrationFeePct) ≤ u64Max * 100 := Nat.mul_le_mul ht (by omega)
    have : u64Max * 100 + 100 ≤ u128Max := by decide
    omega
  simp only [migrationQuoteAmount, bind_ok, safeSub_ok, ok_inj]
  refine ⟨_, ⟨h, rfl⟩, _, (mulDivU64_up hb).2 ⟨by decide, rfl, hle.trans ht⟩, _, ⟨hle, rfl⟩, rfl⟩

theorem migrationFeeDistribution_fits {c : PoolConfig} (h : c.migrationFeePct ≤ 100)
    (ht : c.migrationQuoteThreshold ≤ u64Max) (hc : c.creatorMigrationFeePct ≤ 100) :
    c.migrationFeeDistribution = .ok (paMig c, crMig c) := by
  have hm : migFee c ≤ c.migrationQuoteThreshold := by unfold migFee; omega
  have h2 : crMig c ≤ migFee c := by
    unfold crMig
    rw [Nat.div_le_iff_le_mul_add_pred (by decide)]
    have := Nat.mul_le_mul_left (migFee c) hc
    omega
  simp only [PoolConfig.migrationFeeDistribution, migrationQuoteAmount_fits h ht, bind_ok, safeSub_ok, ok_inj]
  refine ⟨_, rfl, _, mulDivU64_pct (hm.trans ht) hc (by decide) (by decide), _, ⟨h2, rfl⟩, rfl⟩

theorem splitCreationFee_fits {c : PoolConfig} (h : c.poolCreationFee ≤ u64Max) :
    c.splitCreationFee = .ok (prCreation c, paCreation c) := by
  simp only [PoolConfig.splitCreationFee, bind_ok, safeSub_ok, ok_inj]
  refine ⟨_, mulDivU64_pct h (by decide) (by decide) (by decide), _, ⟨?_, rfl⟩, rfl⟩
  have := prCreation_le c
  show prCreation c ≤ c.poolCreationFee
  omega

theorem Reachable.creationFee {w : World} (h : Reachable w) : w.cfg.poolCreationFee ≤ u64Max := by
  obtain ⟨p, env, ht, hc⟩ := h.config
  rw [(createConfig_ok hc).eq]
  exact ht.creationFee

/-- What the vaults hold, in the form the payment lemmas use. -/
structure Funds (w : World) : Prop where
  base : w.baseFees + w.pool.protocolMigBaseFee ≤ w.baseVault
  quote : w.quoteFees + w.pool.protocolMigQuoteFee ≤ w.quoteVault
  shares : w.cfg.migrationQuoteThreshold ≤ w.pool.quoteReserve →
    w.quoteFees + (w.shares + w.pool.protocolMigQuoteFee) ≤ w.quoteVault
  baseMax : w.baseVault ≤ u64Max
  quoteMax : w.quoteVault ≤ u64Max
  resMax : w.pool.quoteReserve ≤ u64Max

theorem Solvent.funds {w : World} (sv : Solvent w) (l : Cycle w) (hr : w.pool.quoteReserve ≤ u64Max) : Funds w := by
  have b0 := sv.base0; have b1 := sv.base1; have b2 := sv.base2; have b3 := sv.base3
  have q0 := sv.quote0; have q12 := sv.quote12; have q3 := sv.quote3
  have ny := l.notYet
  have hp := l.prog
  have hst := l.start
  have hc : w.pool.migrationProgress = 0 ∨ w.pool.migrationProgress = 1 ∨ w.pool.migrationProgress = 2 ∨
    w.pool.migrationProgress = 3 := by omega
  refine ⟨?_, ?_, ?_, sv.baseMax.trans sv.supMax, sv.quoteMax, hr⟩
  · rcases hc with e | e | e | e
    · have := b0 e; have := ny (by omega); omega
    · have := b1 e; have := ny (by omega); omega
    · have := b2 e; have := ny (by omega); omega
    · exact b3 e
  · rcases hc with e | e | e | e
    · have := q0 e; have := ny (by omega); omega
    · have := q12 (.inl e); have := ny (by omega); omega
    · have := q12 (.inr e); have := ny (by omega); omega
    · have := q3 e; omega
  · intro hd
    rcases hc with e | e | e | e
    · have := hst.1 e; omega
    · have := q12 (.inl e); have := ny (by omega); omega
    · have := q12 (.inr e); have := ny (by omega); omega
    · exact q3 e

theorem Reachable.funds {w : World} (h : Reachable w) : Funds w := h.solvent.funds h.life.toCycle h.resMax.2

theorem claimPartnerFee_succeeds {w : World} (f : Funds w) {s mb mq : Nat} (hs : w.cfg.feeClaimer = s) :
    ∃ w', w.claimPartnerFee s mb mq = .ok w' := by
  have := f.base; have := f.quote
  unfold World.baseFees at *; unfold World.quoteFees at *
  simp only [World.claimPartnerFee, Pool.claimPartner, bind_ok, req_ok, Prod.exists, safeSub_ok, vaultOut_ok, ok_inj,
    Prod.mk.injEq]
  exact ⟨_, (), hs, _, _, _, ⟨_, ⟨by omega, rfl⟩, _, ⟨by omega, rfl⟩, rfl, rfl, rfl⟩, _, ⟨by omega, rfl⟩, _, ⟨by omega, rfl⟩,
    rfl⟩

theorem claimCreatorFee_succeeds {w : World} (f : Funds w) {s mb mq : Nat} (hs : w.pool.creator = s) :
    ∃ w', w.claimCreatorFee s mb mq = .ok w' := by
  have := f.base; have := f.quote
  unfold World.baseFees at *; unfold World.quoteFees at *
  simp only [World.claimCreatorFee, Pool.claimCreator, bind_ok, req_ok, Prod.exists, safeSub_ok, vaultOut_ok, ok_inj,
    Prod.mk.injEq]
  exact ⟨_, (), hs, _, _, _, ⟨_, ⟨by omega, rfl⟩, _, ⟨by omega, rfl⟩, rfl, rfl, rfl⟩, _, ⟨by omega, rfl⟩, _, ⟨by omega, rfl⟩,
    rfl⟩

theorem claimProtocolBase_fits {p : Pool} {mx : Nat} (h : p.protocolBaseFee + p.protocolMigBaseFee ≤ u64Max) :
    ∃ t p', p.claimProtocolBase mx = .ok (t, p') ∧ t ≤ p.protocolBaseFee + p.protocolMigBaseFee ∧
      p' = { p with protocolBaseFee := p'.protocolBaseFee, protocolMigBaseFee := p'.protocolMigBaseFee } := by
  refine ⟨min p.protocolBaseFee mx + min p.protocolMigBaseFee (mx - min p.protocolBaseFee mx),
    { p with protocolBaseFee := p.protocolBaseFee - min p.protocolBaseFee mx
             protocolMigBaseFee := p.protocolMigBaseFee - min p.protocolMigBaseFee (mx - min p.protocolBaseFee mx) },
    ?_, by omega, rfl⟩
  simp only [Pool.claimProtocolBase, bind_ok, safeSub_ok, safeAdd_ok, ok_inj]
  exact ⟨_, ⟨by omega, rfl⟩, _, ⟨by omega, rfl⟩, _, ⟨by omega, rfl⟩, _, ⟨by omega, rfl⟩, rfl⟩

theorem claimProtocolQuote_fits {p : Pool} {mx : Nat} (h : p.protocolQuoteFee + p.protocolMigQuoteFee ≤ u64Max) :
    ∃ t p', p.claimProtocolQuote mx = .ok (t, p') ∧ t ≤ p.protocolQuoteFee + p.protocolMigQuoteFee ∧
      p'.protocolSurplus = p.protocolSurplus ∧ p'.quoteReserve = p.quoteReserve := by
  refine ⟨min p.protocolQuoteFee mx + min p.protocolMigQuoteFee (mx - min p.protocolQuoteFee mx),
    { p with protocolQuoteFee := p.protocolQuoteFee - min p.protocolQuoteFee mx
             protocolMigQuoteFee := p.protocolMigQuoteFee - min p.protocolMigQuoteFee (mx - min p.protocolQuoteFee mx) },
    ?_, by omega, rfl, rfl⟩
  simp only [Pool.claimProtocolQuote, bind_ok, safeSub_ok, safeAdd_ok, ok_inj]
  exact ⟨_, ⟨by omega, rfl⟩, _, ⟨by omega, rfl⟩, _, ⟨by omega, rfl⟩, _, ⟨by omega, rfl⟩, rfl⟩

theorem claimProtocolQuoteAndSurplus_fits {p : Pool} {mx th v : Nat} (hv : v ≤ u64Max)
    (h : p.protocolQuoteFee + p.protocolMigQuoteFee ≤ v) (hr : p.quoteReserve ≤ u64Max)
    (hs : p.protocolSurplus = 0 → th ≤ p.quoteReserve →
      p.protocolQuoteFee + p.protocolMigQuoteFee + protoPart (p.quoteReserve - th) ≤ v) :
    ∃ t p', p.claimProtocolQuoteAndSurplus mx th = .ok (t, p') ∧ t ≤ v := by
  obtain ⟨t, p1, e, ht, e1, e2⟩ := claimProtocolQuote_fits (mx := mx) (show p.protocolQuoteFee + p.protocolMigQuoteFee ≤ u64Max by omega)
  by_cases g : p.protocolSurplus = 0 ∧ th ≤ p.quoteReserve
  · have g3 := hs g.1 g.2
    refine ⟨t + protoPart (p.quoteReserve - th), { p1 with protocolSurplus := 1 }, ?_, by omega⟩
    simp only [Pool.claimProtocolQuoteAndSurplus, bind_ok, ok_inj, ite_ok, safeAdd_ok, Pool.protocolSurplusOf,
      Pool.totalSurplus, safeSub_ok, Prod.exists]
    exact ⟨_, _, e, .inl ⟨⟨e1.trans g.1, by show th ≤ p1.quoteReserve; omega⟩, _,
      ⟨_, ⟨by omega, rfl⟩, _, pacSurplus_fits (by omega), by omega, rfl⟩, _,
      ⟨by rw [e2]; unfold protoPart at g3; omega, rfl⟩, by rw [e2]; rfl⟩⟩
  · refine ⟨t, p1, ?_, by omega⟩
    simp only [Pool.claimProtocolQuoteAndSurplus, bind_ok, ok_inj, ite_ok, Prod.exists]
    exact ⟨_, _, e, .inr ⟨fun h => g ⟨e1.symm.trans h.1, by have : th ≤ p1.quoteReserve := h.2; omega⟩, rfl⟩⟩

theorem shares_surplus_le {w : World} (h : w.pool.protocolSurplus = 0) : protoPart w.surplus ≤ w.shares := by
  unfold World.shares
  rw [if_pos h]
  omega

theorem claimProtocolFee_succeeds {w : World} (f : Funds w) {s mb mq : Nat} (hs : HasPermission w s 0) :
    ∃ w', w.claimProtocolFee s mb mq = .ok w' := by
  have hb := f.base; have hq := f.quote; have hsh := f.shares; have hbm := f.baseMax
  unfold World.baseFees at *; unfold World.quoteFees at *
  obtain ⟨t, p1, e, ht, ep⟩ := claimProtocolBase_fits (p := w.pool) (mx := mb) (by omega)
  have q1 : p1.protocolQuoteFee = w.pool.protocolQuoteFee := by rw [ep]
  have q2 : p1.protocolMigQuoteFee = w.pool.protocolMigQuoteFee := by rw [ep]
  have q3 : p1.quoteReserve = w.pool.quoteReserve := by rw [ep]
  have q4 : p1.protocolSurplus = w.pool.protocolSurplus := by rw [ep]
  obtain ⟨u, p2, e2, hu⟩ := claimProtocolQuoteAndSurplus_fits (p := p1) (mx := mq) (th := w.cfg.migrationQuoteThreshold)
    (v := w.quoteVault) f.quoteMax (by omega) (by rw [q3]; exact f.resMax) (fun h1 h2 => by
      rw [q4] at h1; rw [q3] at h2
      have := hsh h2
      have := shares_surplus_le h1
      rw [q1, q2, q3]
      have e : protoPart (w.pool.quoteReserve - w.cfg.migrationQuoteThreshold) = protoPart w.surplus := rfl
      omega)
  simp only [World.claimProtocolFee, World.checkOperator, bind_ok, req_ok, Prod.exists, vaultOut_ok, ok_inj]
  exact ⟨_, (), hs, _, _, e, _, ⟨by omega, rfl⟩, _, _, e2, _, ⟨hu, rfl⟩, rfl⟩

theorem partnerWithdrawSurplus_succeeds {w : World} (f : Funds w) (hc : w.cfg.creatorTradingFeePct ≤ 100) {s : Nat}
    (hs : w.cfg.feeClaimer = s) (hd : w.cfg.migrationQuoteThreshold ≤ w.pool.quoteReserve) (h0 : w.pool.partnerSurplus = 0) :
    ∃ w', w.partnerWithdrawSurplus s = .ok w' := by
  have hsh := f.shares hd
  have hr := f.resMax
  have : paSurplus w.cfg w.surplus ≤ w.shares := by unfold World.shares; rw [if_pos h0]; omega
  have hx : w.surplus = w.pool.quoteReserve - w.cfg.migrationQuoteThreshold := rfl
  simp only [World.partnerWithdrawSurplus, Pool.totalSurplus, bind_ok, req_ok, safeSub_ok, vaultOut_ok, ok_inj]
  exact ⟨_, (), hs, (), hd, (), h0, _, ⟨hd, rfl⟩, _, partnerSurplusOf_fits hc (by omega), _, ⟨by rw [← hx]; omega, rfl⟩, rfl⟩

theorem creatorWithdrawSurplus_succeeds {w : World} (f : Funds w) (hc : w.cfg.creatorTradingFeePct ≤ 100) {s : Nat}
    (hs : w.pool.creator = s) (hd : w.cfg.migrationQuoteThreshold ≤ w.pool.quoteReserve) (h0 : w.pool.creatorSurplus = 0) :
    ∃ w', w.creatorWithdrawSurplus s = .ok w' := by
  have hsh := f.shares hd
  have hr := f.resMax
  have : crSurplus w.cfg w.surplus ≤ w.shares := by unfold World.shares; rw [if_pos h0]; omega
  have hx : w.surplus = w.pool.quoteReserve - w.cfg.migrationQuoteThreshold := rfl
  simp only [World.creatorWithdrawSurplus, Pool.totalSurplus, bind_ok, req_ok, safeSub_ok, vaultOut_ok, ok_inj]
  exact ⟨_, (), hs, (), hd, (), h0, _, ⟨hd, rfl⟩, _, creatorSurplusOf_fits hc (by omega), _, ⟨by rw [← hx]; omega, rfl⟩, rfl⟩

theorem withdrawMigrationFee_partner {w : World} (f : Funds w) (hm : w.cfg.migrationFeePct ≤ 100)
    (hc : w.cfg.creatorMigrationFeePct ≤ 100) {s : Nat} (hs : s = w.cfg.feeClaimer)
    (hd : w.cfg.migrationQuoteThreshold ≤ w.pool.quoteReserve) (h0 : w.pool.migrationFeeStatus &&& 4 = 0)
    (h1 : w.pool.migrationFeeStatus < 4) : ∃ w', w.withdrawMigrationFee s 0 = .ok w' := by
  have hsh := f.shares hd
  have hr := f.resMax
  have : paMig w.cfg ≤ w.shares := by unfold World.shares; rw [if_pos h1]; omega
  simp only [World.withdrawMigrationFee, bind_ok, req_ok, Prod.exists, vaultOut_ok, ok_inj, takeBit_ok]
  exact ⟨_, (), hd, _, _, migrationFeeDistribution_fits hm (by omega) hc, (), hs, _, ⟨h0, rfl⟩, _, ⟨by omega, rfl⟩, rfl⟩

theorem withdrawMigrationFee_creator {w : World} (f : Funds w) (hm : w.cfg.migrationFeePct ≤ 100)
    (hc : w.cfg.creatorMigrationFeePct ≤ 100) {s : Nat} (hs : s = w.pool.creator)
    (hd : w.cfg.migrationQuoteThreshold ≤ w.pool.quoteReserve) (h0 : w.pool.migrationFeeStatus &&& 2 = 0)
    (h1 : w.pool.migrationFeeStatus = 0 ∨ w.pool.migrationFeeStatus = 4) :
    ∃ w', w.withdrawMigrationFee s 1 = .ok w' := by
  have hsh := f.shares hd
  have hr := f.resMax
  have : crMig w.cfg ≤ w.shares := by unfold World.shares; rw [if_pos h1]; omega
  simp only [World.withdrawMigrationFee, bind_ok, req_ok, Prod.exists, vaultOut_ok, ok_inj, takeBit_ok]
  exact ⟨_, (), hd, _, _, migrationFeeDistribution_fits hm (by omega) hc, (), hs, _, ⟨h0, rfl⟩, _, ⟨by omega, rfl⟩, rfl⟩

theorem baseFees_fits {w : World} (h : w.baseFees ≤ u64Max) : w.pool.baseFees = .ok w.baseFees := by
  unfold World.baseFees at *
  simp only [Pool.baseFees, bind_ok, safeAdd_ok]
  exact ⟨_, ⟨by omega, rfl⟩, by omega, by omega⟩

theorem withdrawLeftover_succeeds {w : World} (f : Funds w) {r : Nat} (hr : r = w.cfg.leftoverReceiver)
    (h3 : w.pool.migrationProgress = 3) (hf : w.cfg.fixedSupplyFlag = 1) (h0 : w.pool.isWithdrawLeftover = 0) :
    ∃ w', w.withdrawLeftover r = .ok w' := by
  have hb := f.base; have hbm := f.baseMax
  simp only [World.withdrawLeftover, bind_ok, req_ok, safeSub_ok, vaultOut_ok, ok_inj]
  exact ⟨_, (), hr, (), h3, (), hf, (), h0, _, baseFees_fits (by omega), _, ⟨by omega, rfl⟩, _, ⟨by omega, rfl⟩, _,
    ⟨by omega, rfl⟩, rfl⟩

theorem createLocker_succeeds {w : World} (sv : Solvent w) (h1 : w.pool.migrationProgress = 1) :
    ∃ w', w.createLocker = .ok w' := by
  have := sv.base1 h1
  simp only [World.createLocker, bind_ok, req_ok, vaultOut_ok, ok_inj]
  refine ⟨_, (), h1, _, ⟨?_, rfl⟩, rfl⟩
  show vestTotal w.cfg ≤ w.baseVault
  omega

theorem claimPartnerCreationFee_succeeds {w : World} (l : Life w) (hf : w.cfg.poolCreationFee ≤ u64Max) {s : Nat}
    (hs : w.cfg.feeClaimer = s) (hp : 0 < paCreation w.cfg) (hb : w.pool.creationBits &&& 2 = 0) :
    ∃ w', w.claimPartnerCreationFee s = .ok w' := by
  have h1 := (cbit2 l.creation hb).2
  have e1 := l.laP; have e2 := l.laR; have e3 := l.lam; have e4 := prCreation_le w.cfg
  rw [if_pos (by omega)] at e1
  have e5 : w.led.lamportsProtocol ≤ prCreation w.cfg := by rw [e2]; split <;> omega
  simp only [World.claimPartnerCreationFee, bind_ok, req_ok, Prod.exists, takeBit_ok, lamportsOut_ok, ok_inj]
  exact ⟨_, (), hs, _, _, splitCreationFee_fits hf, (), hp, _, ⟨hb, rfl⟩, _, ⟨by omega, rfl⟩, rfl⟩

theorem claimProtocolCreationFee_succeeds {w : World} (l : Life w) (hf : w.cfg.poolCreationFee ≤ u64Max) {s : Nat}
    (hs : HasPermission w s 0) : ∃ w', w.claimProtocolCreationFee s = .ok w' := by
  have e1 := l.laP; have e2 := l.laR; have e3 := l.lam; have e4 := prCreation_le w.cfg
  have hl := l.legacy
  by_cases hb : w.pool.creationBits &&& 1 = 0
  · have h1 := (cbit1 l.creation hb).2
    rw [if_pos h1] at e2
    have e5 : w.led.lamportsPartner ≤ paCreation w.cfg := by rw [e1]; split <;> omega
    have ht : w.pool.takeProtocolCreationFee w.cfg = .ok (prCreation w.cfg,
        { w.pool with creationBits := w.pool.creationBits ^^^ PROTOCOL_CREATION_FEE_CLAIMED_MASK }) := by
      simp only [Pool.takeProtocolCreationFee, bind_ok, ite_ok, Prod.exists, ok_inj]
      refine ⟨_, _, .inl ⟨hb, _, _, splitCreationFee_fits hf, rfl⟩, .inr ⟨?_, rfl⟩⟩
      dsimp only
      rw [hl]
      exact fun h => h.1 rfl
    simp only [World.claimProtocolCreationFee, World.checkOperator, ht, bind_ok, req_ok, Prod.exists, ite_ok, lamportsOut_ok, ok_inj]
    by_cases hz : 0 < prCreation w.cfg
    · exact ⟨_, (), hs, _, _, rfl, _, .inl ⟨hz, by omega, rfl⟩, rfl⟩
    · exact ⟨_, (), hs, _, _, rfl, _, .inr ⟨hz, rfl⟩, rfl⟩
  · have ht : w.pool.takeProtocolCreationFee w.cfg = .ok (0, w.pool) := by
      simp only [Pool.takeProtocolCreationFee, bind_ok, ite_ok, Prod.exists, ok_inj]
      refine ⟨_, _, .inr ⟨hb, rfl⟩, .inr ⟨?_, rfl⟩⟩
      rw [hl]
      exact fun h => h.1 rfl
    simp only [World.claimProtocolCreationFee, World.checkOperator, ht, bind_ok, req_ok, Prod.exists, ite_ok, lamportsOut_ok, ok_inj]
    exact ⟨_, (), hs, _, _, rfl, _, .inr ⟨by omega, rfl⟩, rfl⟩

theorem zapProtocolFee_succeeds {w : World} (f : Funds w) {s mx : Nat} {ib : Bool} (hs : HasPermission w s 1)
    (hpos : if ib = true then 0 < min mx (w.pool.protocolBaseFee + w.pool.protocolMigBaseFee)
      else 0 < min mx (w.pool.protocolQuoteFee + w.pool.protocolMigQuoteFee) +
        if w.pool.protocolSurplus = 0 ∧ w.cfg.migrationQuoteThreshold ≤ w.pool.quoteReserve then
          protoPart (w.pool.quoteReserve - w.cfg.migrationQuoteThreshold) else 0) :
    ∃ w', w.zapProtocolFee s mx ib true true = .ok w' := by
  have hb := f.base; have hq := f.quote; have hsh := f.shares; have hbm := f.baseMax
  unfold World.baseFees at *; unfold World.quoteFees at *
  simp only [World.zapProtocolFee, World.checkOperator, bind_ok, req_ok, Prod.exists, ite_ok, vaultOut_ok, ok_inj]
  cases ib
  · simp only [Bool.false_eq_true, if_false] at hpos
    obtain ⟨u, p2, e2, hu⟩ := claimProtocolQuoteAndSurplus_fits (p := w.pool) (mx := mx) (th := w.cfg.migrationQuoteThreshold)
      (v := w.quoteVault) f.quoteMax (by omega) f.resMax (fun h1 h2 => by
        have := hsh h2
        have := shares_surplus_le h1
        have e : protoPart (w.pool.quoteReserve - w.cfg.migrationQuoteThreshold) = protoPart w.surplus := rfl
        omega)
    obtain ⟨a, b, c, d, e3, e4, e5, _, e6⟩ := claimProtocolQuoteAndSurplus_ok e2
    refine ⟨_, (), hs, (), trivial, .inr ⟨by decide, _, _, e2, (), ?_, (), trivial, _, ⟨hu, rfl⟩, rfl⟩⟩
    rcases e6 with ⟨g1, g2, _, g3⟩ | ⟨g1, _, g3⟩
    · rw [if_pos ⟨g1, g2⟩] at hpos; omega
    · rw [if_neg g1] at hpos; omega
  · simp only [if_true] at hpos
    obtain ⟨t, p1, e, ht, ep⟩ := claimProtocolBase_fits (p := w.pool) (mx := mx) (by omega)
    obtain ⟨a, b, e3, e4, e5, _⟩ := claimProtocolBase_ok e
    exact ⟨_, (), hs, (), trivial, .inl ⟨rfl, _, _, e, (), by omega, (), trivial, _, ⟨by omega, rfl⟩, rfl⟩⟩

end Dbc

import Verif.Lemmas.Swap

/-!
# Inversion of the instruction handlers other than swap
-/

namespace Dbc

theorem claimProtocolBase_ok {p p' : Pool} {mx t : Nat} (h : p.claimProtocolBase mx = .ok (t, p')) :
    ∃ a b, t = a + b ∧ a = min p.protocolBaseFee mx ∧ b = min p.protocolMigBaseFee (mx - a) ∧
      p' = { p with protocolBaseFee := p.protocolBaseFee - a, protocolMigBaseFee := p.protocolMigBaseFee - b } := by
  simp only [Pool.claimProtocolBase, bind_ok, safeSub_ok, safeAdd_ok, ok_inj, Prod.mk.injEq] at h
  obtain ⟨_, ⟨_, rfl⟩, _, ⟨_, rfl⟩, _, ⟨_, rfl⟩, _, ⟨_, rfl⟩, rfl, rfl⟩ := h
  exact ⟨_, _, rfl, rfl, rfl, rfl⟩

theorem claimProtocolQuote_ok {p p' : Pool} {mx t : Nat} (h : p.claimProtocolQuote mx = .ok (t, p')) :
    ∃ a b, t = a + b ∧ a = min p.protocolQuoteFee mx ∧ b = min p.protocolMigQuoteFee (mx - a) ∧
      p' = { p with protocolQuoteFee := p.protocolQuoteFee - a, protocolMigQuoteFee := p.protocolMigQuoteFee - b } := by
  simp only [Pool.claimProtocolQuote, bind_ok, safeSub_ok, safeAdd_ok, ok_inj, Prod.mk.injEq] at h
  obtain ⟨_, ⟨_, rfl⟩, _, ⟨_, rfl⟩, _, ⟨_, rfl⟩, _, ⟨_, rfl⟩, rfl, rfl⟩ := h
  exact ⟨_, _, rfl, rfl, rfl, rfl⟩

/-- The protocol's part of a surplus. -/
def protoPart (total : Nat) : Nat := total - total * 80 / 100

theorem partnerAndCreatorSurplus_ok {t s : Nat} (h : partnerAndCreatorSurplus t = .ok s) : s = t * 80 / 100 := by
  simp only [partnerAndCreatorSurplus, mulDivU64_down] at h
  exact h.2.2.1

theorem claimProtocolQuoteAndSurplus_ok {p p' : Pool} {mx th t : Nat}
    (h : p.claimProtocolQuoteAndSurplus mx th = .ok (t, p')) :
    ∃ a b s f, t = a + b + s ∧ a = min p.protocolQuoteFee mx ∧ b = min p.protocolMigQuoteFee (mx - a) ∧
      p' = { p with protocolQuoteFee := p.protocolQuoteFee - a, protocolMigQuoteFee := p.protocolMigQuoteFee - b,
                    protocolSurplus := f } ∧
      ((p.protocolSurplus = 0 ∧ th ≤ p.quoteReserve ∧ f = 1 ∧ s = protoPart (p.quoteReserve - th)) ∨
       (¬ (p.protocolSurplus = 0 ∧ th ≤ p.quoteReserve) ∧ f = p.protocolSurplus ∧ s = 0)) := by
  simp only [Pool.claimProtocolQuoteAndSurplus, bind_ok, Prod.exists, ite_ok] at h
  obtain ⟨x, p1, h1, h⟩ := h
  obtain ⟨a, b, rfl, ha, hb, rfl⟩ := claimProtocolQuote_ok h1
  clear h1
  unfold Pool.complete at h
  dsimp only at h
  rcases h with ⟨g, s, hs, h⟩ | ⟨g, h⟩
  · simp only [Pool.protocolSurplusOf, Pool.totalSurplus, bind_ok, safeSub_ok, safeAdd_ok, ok_inj, Prod.mk.injEq] at hs h
    obtain ⟨_, ⟨_, rfl⟩, y, hy, h2, rfl⟩ := hs
    obtain ⟨_, ⟨_, rfl⟩, rfl, rfl⟩ := h
    have := partnerAndCreatorSurplus_ok hy
    subst this
    exact ⟨a, b, _, 1, rfl, ha, hb, rfl, .inl ⟨g.1, g.2, rfl, rfl⟩⟩
  · simp only [ok_inj, Prod.mk.injEq] at h
    obtain ⟨rfl, rfl⟩ := h
    exact ⟨a, b, 0, p.protocolSurplus, rfl, ha, hb, rfl, .inr ⟨g, rfl, rfl⟩⟩

/-- An operator permission check that passed. -/
def HasPermission (w : World) (signer perm : Nat) : Prop :=
  ∃ o ∈ w.operators, o.address = signer ∧ o.allows perm = true

theorem claimProtocolFee_ok {w w' : World} {s mb mq : Nat} (h : w.claimProtocolFee s mb mq = .ok w') :
    HasPermission w s 0 ∧ ∃ a b c d e f,
      a = min w.pool.protocolBaseFee mb ∧ b = min w.pool.protocolMigBaseFee (mb - a) ∧
      c = min w.pool.protocolQuoteFee mq ∧ d = min w.pool.protocolMigQuoteFee (mq - c) ∧
      ((w.pool.protocolSurplus = 0 ∧ w.cfg.migrationQuoteThreshold ≤ w.pool.quoteReserve ∧ f = 1 ∧
          e = protoPart (w.pool.quoteReserve - w.cfg.migrationQuoteThreshold)) ∨
       (¬ (w.pool.protocolSurplus = 0 ∧ w.cfg.migrationQuoteThreshold ≤ w.pool.quoteReserve) ∧
          f = w.pool.protocolSurplus ∧ e = 0)) ∧
      a + b ≤ w.baseVault ∧ c + d + e ≤ w.quoteVault ∧
      w' = { w with
        pool := { w.pool with
          protocolBaseFee := w.pool.protocolBaseFee - a, protocolMigBaseFee := w.pool.protocolMigBaseFee - b,
          protocolQuoteFee := w.pool.protocolQuoteFee - c, protocolMigQuoteFee := w.pool.protocolMigQuoteFee - d,
          protocolSurplus := f }
        baseVault := w.baseVault - (a + b), quoteVault := w.quoteVault - (c + d + e)
        led := { w.led with paidProtocolBase := w.led.paidProtocolBase + (a + b)
                            paidProtocolQuote := w.led.paidProtocolQuote + (c + d + e) } } := by
  simp only [World.claimProtocolFee, World.checkOperator, bind_ok, req_ok, Prod.exists, vaultOut_ok, ok_inj] at h
  obtain ⟨_, hp, t, p1, h1, _, ⟨h2, rfl⟩, u, p2, h3, _, ⟨h4, rfl⟩, rfl⟩ := h
  obtain ⟨a, b, rfl, ha, hb, rfl⟩ := claimProtocolBase_ok h1
  clear h1
  obtain ⟨c, d, e, f, rfl, hc, hd, rfl, he⟩ := claimProtocolQuoteAndSurplus_ok h3
  clear h3
  dsimp only at hc hd he
  exact ⟨hp, a, b, c, d, e, f, ha, hb, hc, hd, he, h2, h4, rfl⟩

theorem zapProtocolFee_ok {w w' : World} {s mx : Nat} {ib al zo : Bool} (h : w.zapProtocolFee s mx ib al zo = .ok w') :
    HasPermission w s 1 ∧ al = true ∧ zo = true ∧
    ((ib = true ∧ ∃ a b, a = min w.pool.protocolBaseFee mx ∧ b = min w.pool.protocolMigBaseFee (mx - a) ∧
        0 < a + b ∧ a + b ≤ w.baseVault ∧
        w' = { w with
          pool := { w.pool with
            protocolBaseFee := w.pool.protocolBaseFee - a, protocolMigBaseFee := w.pool.protocolMigBaseFee - b }
          baseVault := w.baseVault - (a + b)
          led := { w.led with paidProtocolBase := w.led.paidProtocolBase + (a + b) } }) ∨
     (ib = false ∧ ∃ c d e f, c = min w.pool.protocolQuoteFee mx ∧ d = min w.pool.protocolMigQuoteFee (mx - c) ∧
        ((w.pool.protocolSurplus = 0 ∧ w.cfg.migrationQuoteThreshold ≤ w.pool.quoteReserve ∧ f = 1 ∧
            e = protoPart (w.pool.quoteReserve - w.cfg.migrationQuoteThreshold)) ∨
         (¬ (w.pool.protocolSurplus = 0 ∧ w.cfg.migrationQuoteThreshold ≤ w.pool.quoteReserve) ∧
            f = w.pool.protocolSurplus ∧ e = 0)) ∧
        0 < c + d + e ∧ c + d + e ≤ w.quoteVault ∧
        w' = { w with
          pool := { w.pool with
            protocolQuoteFee := w.pool.protocolQuoteFee - c, protocolMigQuoteFee := w.pool.protocolMigQuoteFee - d,
            protocolSurplus := f }
          quoteVault := w.quoteVault - (c + d + e)
          led := { w.led with paidProtocolQuote := w.led.paidProtocolQuote + (c + d + e) } })) := by
  simp only [World.zapProtocolFee, World.checkOperator, bind_ok, req_ok, Prod.exists, ite_ok, vaultOut_ok, ok_inj] at h
  obtain ⟨_, hp, _, hal, h⟩ := h
  rcases h with ⟨hb, t, p1, h1, _, h0, _, hz, _, ⟨h2, rfl⟩, rfl⟩ | ⟨hb, t, p1, h1, _, h0, _, hz, _, ⟨h2, rfl⟩, rfl⟩
  · obtain ⟨a, b, rfl, ha, hb', rfl⟩ := claimProtocolBase_ok h1
    exact ⟨hp, hal, hz, .inl ⟨hb, a, b, ha, hb', h0, h2, rfl⟩⟩
  · obtain ⟨c, d, e, f, rfl, hc, hd, rfl, he⟩ := claimProtocolQuoteAndSurplus_ok h1
    exact ⟨hp, hal, hz, .inr ⟨by simpa using hb, c, d, e, f, hc, hd, he, h0, h2, rfl⟩⟩

theorem claimPartnerFee_ok {w w' : World} {s mb mq : Nat} (h : w.claimPartnerFee s mb mq = .ok w') :
    w.cfg.feeClaimer = s ∧ ∃ a b, a = min w.pool.partnerBaseFee mb ∧ b = min w.pool.partnerQuoteFee mq ∧
      a ≤ w.baseVault ∧ b ≤ w.quoteVault ∧
      w' = { w with
        pool := { w.pool with
          partnerBaseFee := w.pool.partnerBaseFee - a, partnerQuoteFee := w.pool.partnerQuoteFee - b }
        baseVault := w.baseVault - a, quoteVault := w.quoteVault - b
        led := { w.led with paidPartnerBase := w.led.paidPartnerBase + a
                            paidPartnerQuote := w.led.paidPartnerQuote + b } } := by
  simp only [World.claimPartnerFee, Pool.claimPartner, bind_ok, req_ok, Prod.exists, safeSub_ok, vaultOut_ok, ok_inj,
    Prod.mk.injEq] at h
  obtain ⟨_, hs, b, q, p1, ⟨_, ⟨_, rfl⟩, _, ⟨_, rfl⟩, rfl, rfl, rfl⟩, _, ⟨h1, rfl⟩, _, ⟨h2, rfl⟩, rfl⟩ := h
  exact ⟨hs, _, _, rfl, rfl, h1, h2, rfl⟩

theorem claimCreatorFee_ok {w w' : World} {s mb mq : Nat} (h : w.claimCreatorFee s mb mq = .ok w') :
    w.pool.creator = s ∧ ∃ a b, a = min w.pool.creatorBaseFee mb ∧ b = min w.pool.creatorQuoteFee mq ∧
      a ≤ w.baseVault ∧ b ≤ w.quoteVault ∧
      w' = { w with
        pool := { w.pool with
          creatorBaseFee := w.pool.creatorBaseFee - a, creatorQuoteFee := w.pool.creatorQuoteFee - b }
        baseVault := w.baseVault - a, quoteVault := w.quoteVault - b
        led := { w.led with paidCreatorBase := w.led.paidCreatorBase + a
                            paidCreatorQuote := w.led.paidCreatorQuote + b } } := by
  simp only [World.claimCreatorFee, Pool.claimCreator, bind_ok, req_ok, Prod.exists, safeSub_ok, vaultOut_ok, ok_inj,
    Prod.mk.injEq] at h
  obtain ⟨_, hs, b, q, p1, ⟨_, ⟨_, rfl⟩, _, ⟨_, rfl⟩, rfl, rfl, rfl⟩, _, ⟨h1, rfl⟩, _, ⟨h2, rfl⟩, rfl⟩ := h
  exact ⟨hs, _, _, rfl, rfl, h1, h2, rfl⟩

/-- Creator's and partner's parts of a surplus. -/
def crSurplus (c : PoolConfig) (total : Nat) : Nat := total * 80 / 100 * c.creatorTradingFeePct / 100
def paSurplus (c : PoolConfig) (total : Nat) : Nat := total * 80 / 100 - crSurplus c total

theorem partnerSurplusOf_ok {c : PoolConfig} {t x : Nat} (h : partnerSurplusOf c t = .ok x) :
    x = paSurplus c t ∧ x + crSurplus c t = t * 80 / 100 := by
  simp only [partnerSurplusOf, bind_ok, Prod.exists, ok_inj] at h
  obtain ⟨s, hs, pa, cr, hp, rfl⟩ := h
  have e := partnerAndCreatorSurplus_ok hs
  obtain ⟨h1, h2⟩ := splitPartnerCreator_ok hp
  subst e
  have : crSurplus c t = cr := h1.symm
  unfold paSurplus; omega

theorem creatorSurplusOf_ok {c : PoolConfig} {t x : Nat} (h : creatorSurplusOf c t = .ok x) :
    x = crSurplus c t := by
  simp only [creatorSurplusOf, bind_ok, Prod.exists, ok_inj] at h
  obtain ⟨s, hs, pa, cr, hp, rfl⟩ := h
  have e := partnerAndCreatorSurplus_ok hs
  obtain ⟨h1, h2⟩ := splitPartnerCreator_ok hp
  subst e
  exact h1

theorem partnerWithdrawSurplus_ok {w w' : World} {s : Nat} (h : w.partnerWithdrawSurplus s = .ok w') :
    w.cfg.feeClaimer = s ∧ w.cfg.migrationQuoteThreshold ≤ w.pool.quoteReserve ∧ w.pool.partnerSurplus = 0 ∧
      ∃ x, x = paSurplus w.cfg (w.pool.quoteReserve - w.cfg.migrationQuoteThreshold) ∧ x ≤ w.quoteVault ∧
      w' = { w with pool := { w.pool with partnerSurplus := 1 }, quoteVault := w.quoteVault - x,
                    led := { w.led with partnerSurplus := w.led.partnerSurplus + x } } := by
  simp only [World.partnerWithdrawSurplus, Pool.totalSurplus, bind_ok, req_ok, safeSub_ok, vaultOut_ok, ok_inj] at h
  obtain ⟨_, h1, _, h2, _, h3, _, ⟨_, rfl⟩, x, hx, _, ⟨h4, rfl⟩, rfl⟩ := h
  exact ⟨h1, h2, h3, x, (partnerSurplusOf_ok hx).1, h4, rfl⟩

theorem creatorWithdrawSurplus_ok {w w' : World} {s : Nat} (h : w.creatorWithdrawSurplus s = .ok w') :
    w.pool.creator = s ∧ w.cfg.migrationQuoteThreshold ≤ w.pool.quoteReserve ∧ w.pool.creatorSurplus = 0 ∧
      ∃ x, x = crSurplus w.cfg (w.pool.quoteReserve - w.cfg.migrationQuoteThreshold) ∧ x ≤ w.quoteVault ∧
      w' = { w with pool := { w.pool with creatorSurplus := 1 }, quoteVault := w.quoteVault - x,
                    led := { w.led with creatorSurplus := w.led.creatorSurplus + x } } := by
  simp only [World.creatorWithdrawSurplus, Pool.totalSurplus, bind_ok, req_ok, safeSub_ok, vaultOut_ok, ok_inj] at h
  obtain ⟨_, h1, _, h2, _, h3, _, ⟨_, rfl⟩, x, hx, _, ⟨h4, rfl⟩, rfl⟩ := h
  exact ⟨h1, h2, h3, x, creatorSurplusOf_ok hx, h4, rfl⟩

theorem takeBit_ok {b m x : Nat} {e : Err} : takeBit b m e = .ok x ↔ b &&& m = 0 ∧ x = b ^^^ m := by
  simp only [takeBit, bind_ok, req_ok, ok_inj]
  constructor
  · rintro ⟨_, h, rfl⟩; exact ⟨h, rfl⟩
  · rintro ⟨h, rfl⟩; exact ⟨(), h, rfl⟩

/-- The quote amount set aside for migration and the migration fee. -/
def migQuote (c : PoolConfig) : Nat := divCeil (c.migrationQuoteThreshold * (100 - c.migrationFeePct)) 100
def migFee (c : PoolConfig) : Nat := c.migrationQuoteThreshold - migQuote c
/-- Creator's and partner's parts of the migration fee. -/
def crMig (c : PoolConfig) : Nat := migFee c * c.creatorMigrationFeePct / 100
def paMig (c : PoolConfig) : Nat := migFee c - crMig c

theorem migrationQuoteAmount_ok {c : PoolConfig} {q f : Nat}
    (h : migrationQuoteAmount c.migrationQuoteThreshold c.migrationFeePct = .ok (q, f)) :
    q = migQuote c ∧ f = migFee c ∧ q + f = c.migrationQuoteThreshold := by
  simp only [migrationQuoteAmount, bind_ok, safeSub_ok, ok_inj, Prod.mk.injEq] at h
  obtain ⟨_, ⟨_, rfl⟩, x, hx, _, ⟨h1, rfl⟩, rfl, rfl⟩ := h
  have := (mulDivU64_up' hx).2.1
  have e : x = migQuote c := this
  subst e
  exact ⟨rfl, rfl, by omega⟩

theorem migrationFeeDistribution_ok {c : PoolConfig} {pa cr : Nat} (h : c.migrationFeeDistribution = .ok (pa, cr)) :
    pa = paMig c ∧ cr = crMig c ∧ migQuote c + pa + cr = c.migrationQuoteThreshold := by
  simp only [PoolConfig.migrationFeeDistribution, bind_ok, Prod.exists, mulDivU64_down, safeSub_ok, ok_inj,
    Prod.mk.injEq] at h
  obtain ⟨q, f, h1, _, ⟨_, _, rfl, _⟩, _, ⟨h2, rfl⟩, rfl, rfl⟩ := h
  obtain ⟨rfl, rfl, h3⟩ := migrationQuoteAmount_ok h1
  refine ⟨rfl, rfl, by omega⟩

theorem withdrawMigrationFee_ok {w w' : World} {s f : Nat} (h : w.withdrawMigrationFee s f = .ok w') :
    w.cfg.migrationQuoteThreshold ≤ w.pool.quoteReserve ∧
    ((f = 0 ∧ s = w.cfg.feeClaimer ∧ w.pool.migrationFeeStatus &&& 4 = 0 ∧ paMig w.cfg ≤ w.quoteVault ∧
      w' = { w with pool := { w.pool with migrationFeeStatus := w.pool.migrationFeeStatus ^^^ 4 },
                    quoteVault := w.quoteVault - paMig w.cfg,
                    led := { w.led with partnerMig := w.led.partnerMig + paMig w.cfg } }) ∨
     (f = 1 ∧ s = w.pool.creator ∧ w.pool.migrationFeeStatus &&& 2 = 0 ∧ crMig w.cfg ≤ w.quoteVault ∧
      w' = { w with pool := { w.pool with migrationFeeStatus := w.pool.migrationFeeStatus ^^^ 2 },
                    quoteVault := w.quoteVault - crMig w.cfg,
                    led := { w.led with creatorMig := w.led.creatorMig + crMig w.cfg } })) := by
  simp only [World.withdrawMigrationFee, bind_ok, req_ok, Prod.exists] at h
  obtain ⟨_, h1, pa, cr, h2, h⟩ := h
  obtain ⟨rfl, rfl, _⟩ := migrationFeeDistribution_ok h2
  refine ⟨h1, ?_⟩
  split at h
  · simp only [bind_ok, req_ok, takeBit_ok, vaultOut_ok, ok_inj] at h
    obtain ⟨_, h3, _, ⟨h4, rfl⟩, _, ⟨h5, rfl⟩, rfl⟩ := h
    exact .inl ⟨rfl, h3, h4, h5, rfl⟩
  · simp only [bind_ok, req_ok, takeBit_ok, vaultOut_ok, ok_inj] at h
    obtain ⟨_, h3, _, ⟨h4, rfl⟩, _, ⟨h5, rfl⟩, rfl⟩ := h
    exact .inr ⟨rfl, h3, h4, h5, rfl⟩
  · cases h

theorem lamportsOut_ok {v a x : Nat} : lamportsOut v a = .ok x ↔ a ≤ v ∧ x = v - a := by
  unfold lamportsOut; split <;> simp_all [eq_comm]

/-- Protocol's and partner's parts of the creation fee. -/
def prCreation (c : PoolConfig) : Nat := c.poolCreationFee * 10 / 100
def paCreation (c : PoolConfig) : Nat := c.poolCreationFee - prCreation c

theorem splitCreationFee_ok {c : PoolConfig} {pr pa : Nat} (h : c.splitCreationFee = .ok (pr, pa)) :
    pr = prCreation c ∧ pa = paCreation c := by
  simp only [PoolConfig.splitCreationFee, bind_ok, mulDivU64_down, safeSub_ok, ok_inj, Prod.mk.injEq] at h
  obtain ⟨_, ⟨_, _, rfl, _⟩, _, ⟨_, rfl⟩, rfl, rfl⟩ := h
  exact ⟨rfl, rfl⟩

theorem claimPartnerCreationFee_ok {w w' : World} {s : Nat} (h : w.claimPartnerCreationFee s = .ok w') :
    w.cfg.feeClaimer = s ∧ 0 < paCreation w.cfg ∧ w.pool.creationBits &&& 2 = 0 ∧ paCreation w.cfg ≤ w.lamports ∧
      w' = { w with pool := { w.pool with creationBits := w.pool.creationBits ^^^ 2 },
                    lamports := w.lamports - paCreation w.cfg,
                    led := { w.led with lamportsPartner := w.led.lamportsPartner + paCreation w.cfg } } := by
  simp only [World.claimPartnerCreationFee, bind_ok, req_ok, Prod.exists, takeBit_ok, lamportsOut_ok, ok_inj] at h
  obtain ⟨_, h1, pr, pa, h2, _, h3, _, ⟨h4, rfl⟩, _, ⟨h5, rfl⟩, rfl⟩ := h
  obtain ⟨rfl, rfl⟩ := splitCreationFee_ok h2
  exact ⟨h1, h3, h4, h5, rfl⟩

theorem takeProtocolCreationFee_ok {p p' : Pool} {c : PoolConfig} {x : Nat}
    (h : p.takeProtocolCreationFee c = .ok (x, p')) :
    ∃ a b bits leg, x = a + b ∧ p' = { p with creationBits := bits, legacyCreationBits := leg } ∧
      ((p.creationBits &&& 1 = 0 ∧ bits = p.creationBits ^^^ 1 ∧ a = prCreation c) ∨
       (p.creationBits &&& 1 ≠ 0 ∧ bits = p.creationBits ∧ a = 0)) ∧
      ((p.legacyCreationBits &&& 1 ≠ 0 ∧ p.legacyCreationBits &&& 2 = 0 ∧ leg = p.legacyCreationBits ^^^ 2 ∧
          b = LEGACY_CREATION_FEE) ∨
       (¬ (p.legacyCreationBits &&& 1 ≠ 0 ∧ p.legacyCreationBits &&& 2 = 0) ∧ leg = p.legacyCreationBits ∧ b = 0)) := by
  simp only [Pool.takeProtocolCreationFee, bind_ok, Prod.exists] at h
  obtain ⟨fee, p1, h1, h⟩ := h
  have e1 : ∃ a bits, fee = a ∧ p1 = { p with creationBits := bits } ∧
      ((p.creationBits &&& 1 = 0 ∧ bits = p.creationBits ^^^ 1 ∧ a = prCreation c) ∨
       (p.creationBits &&& 1 ≠ 0 ∧ bits = p.creationBits ∧ a = 0)) := by
    rw [ite_ok] at h1
    rcases h1 with ⟨g, h1⟩ | ⟨g, h1⟩
    · simp only [bind_ok, Prod.exists, ok_inj, Prod.mk.injEq] at h1
      obtain ⟨pr, pa, h2, rfl, rfl⟩ := h1
      obtain ⟨rfl, rfl⟩ := splitCreationFee_ok h2
      exact ⟨_, _, rfl, rfl, .inl ⟨g, rfl, rfl⟩⟩
    · simp only [ok_inj, Prod.mk.injEq] at h1
      obtain ⟨rfl, rfl⟩ := h1
      exact ⟨0, p.creationBits, rfl, rfl, .inr ⟨g, rfl, rfl⟩⟩
  obtain ⟨a, bits, rfl, rfl, hb⟩ := e1
  clear h1
  dsimp only at h
  rw [ite_ok] at h
  rcases h with ⟨g, h⟩ | ⟨g, h⟩
  · simp only [bind_ok, safeAdd_ok, ok_inj, Prod.mk.injEq] at h
    obtain ⟨_, ⟨_, rfl⟩, rfl, rfl⟩ := h
    exact ⟨fee, _, bits, _, rfl, rfl, hb, .inl ⟨g.1, g.2, rfl, rfl⟩⟩
  · simp only [ok_inj, Prod.mk.injEq] at h
    obtain ⟨rfl, rfl⟩ := h
    exact ⟨fee, 0, bits, p.legacyCreationBits, rfl, rfl, hb, .inr ⟨g, rfl, rfl⟩⟩

theorem claimProtocolCreationFee_ok {w w' : World} {s : Nat} (h : w.claimProtocolCreationFee s = .ok w') :
    HasPermission w s 0 ∧ ∃ a b bits leg,
      ((w.pool.creationBits &&& 1 = 0 ∧ bits = w.pool.creationBits ^^^ 1 ∧ a = prCreation w.cfg) ∨
       (w.pool.creationBits &&& 1 ≠ 0 ∧ bits = w.pool.creationBits ∧ a = 0)) ∧
      ((w.pool.legacyCreationBits &&& 1 ≠ 0 ∧ w.pool.legacyCreationBits &&& 2 = 0 ∧
          leg = w.pool.legacyCreationBits ^^^ 2 ∧ b = LEGACY_CREATION_FEE) ∨
       (¬ (w.pool.legacyCreationBits &&& 1 ≠ 0 ∧ w.pool.legacyCreationBits &&& 2 = 0) ∧
          leg = w.pool.legacyCreationBits ∧ b = 0)) ∧
      a + b ≤ w.lamports ∧
      w' = { w with pool := { w.pool with creationBits := bits, legacyCreationBits := leg },
                    lamports := w.lamports - (a + b),
                    led := { w.led with lamportsProtocol := w.led.lamportsProtocol + (a + b) } } := by
  simp only [World.claimProtocolCreationFee, World.checkOperator, bind_ok, req_ok, Prod.exists, ok_inj] at h
  obtain ⟨_, hp, x, p1, h1, l, hl, rfl⟩ := h
  obtain ⟨a, b, bits, leg, rfl, rfl, h2, h3⟩ := takeProtocolCreationFee_ok h1
  have : a + b ≤ w.lamports ∧ l = w.lamports - (a + b) := by
    rw [ite_ok] at hl
    rcases hl with ⟨_, hl⟩ | ⟨g, hl⟩
    · exact lamportsOut_ok.1 hl
    · rw [ok_inj] at hl; omega
  obtain ⟨h4, rfl⟩ := this
  exact ⟨hp, a, b, bits, leg, h2, h3, h4, rfl⟩

/-- Total of the creator's locked vesting. -/
def vestTotal (c : PoolConfig) : Nat :=
  c.lockedVesting.cliffUnlock + c.lockedVesting.amountPerPeriod * c.lockedVesting.numberOfPeriod

theorem createLocker_ok {w w' : World} (h : w.createLocker = .ok w') :
    w.pool.migrationProgress = 1 ∧ vestTotal w.cfg ≤ w.baseVault ∧
      w' = { w with
        pool := { w.pool with migrationProgress := 2 }
        baseVault := w.baseVault - vestTotal w.cfg
        escrow := some ⟨w.pool.creator, w.pool.finishTimestamp,
          min (w.pool.finishTimestamp + w.cfg.lockedVesting.cliffDuration) u64Max, w.cfg.lockedVesting.frequency,
          w.cfg.lockedVesting.cliffUnlock, w.cfg.lockedVesting.amountPerPeriod, w.cfg.lockedVesting.numberOfPeriod⟩
        led := { w.led with locker := w.led.locker + vestTotal w.cfg } } := by
  simp only [World.createLocker, bind_ok, req_ok, vaultOut_ok, ok_inj] at h
  obtain ⟨_, h1, _, ⟨h2, rfl⟩, rfl⟩ := h
  exact ⟨h1, h2, rfl⟩

theorem migAmounts_ok {w : World} {h : Handler} {m : MigAmounts} (hm : w.migAmounts h = .ok m) :
    ∃ f, f = w.pool.partnerBaseFee + w.pool.protocolBaseFee + w.pool.creatorBaseFee ∧ f ≤ w.baseVault ∧ f ≤ u64Max ∧
      migrationAmounts2 h w.cfg.migrationBaseThreshold w.cfg.migrationQuoteThreshold w.cfg.migrationFeePct
        (w.baseVault - f) = .ok (m.base, m.quote) ∧
      migrationProtocolFees h w.cfg.migrationSqrtPrice m.base m.quote w.pool.migrationFeeBps =
        .ok (m.baseFee, m.quoteFee) ∧
      m.exBase + m.baseFee = m.base ∧ m.exQuote + m.quoteFee = m.quote ∧ m.quote = migQuote w.cfg ∧
      m.base ≤ w.baseVault - f ∧ migQuote w.cfg + migFee w.cfg = w.cfg.migrationQuoteThreshold := by
  simp only [World.migAmounts, bind_ok, Prod.exists, baseFees_ok, safeSub_ok, ok_inj] at hm
  obtain ⟨f, ⟨h1, rfl⟩, _, ⟨h2, rfl⟩, b, q, h3, bf, qf, h4, _, ⟨h5, rfl⟩, _, ⟨h6, rfl⟩, rfl⟩ := hm
  refine ⟨_, rfl, h2, h1, h3, h4, by dsimp only; omega, by dsimp only; omega, ?_⟩
  cases h
  · simp only [migrationAmounts2, bind_ok, req_ok, Prod.exists, ok_inj, Prod.mk.injEq] at h3
    obtain ⟨_, g, q', f', hq, rfl, rfl⟩ := h3
    obtain ⟨e1, e2, e3⟩ := migrationQuoteAmount_ok hq
    exact ⟨e1, g, by omega⟩
  · simp only [migrationAmounts2, bind_ok, Prod.exists, ok_inj, Prod.mk.injEq] at h3
    obtain ⟨q', f', hq, rfl, rfl⟩ := h3
    obtain ⟨e1, e2, e3⟩ := migrationQuoteAmount_ok hq
    exact ⟨e1, le_rfl, by omega⟩

theorem burnAmount_ok {c : PoolConfig} {f mf v x : Nat} (h : burnAmount c f mf v = .ok x) :
    f + mf ≤ v ∧ x ≤ v - (f + mf) ∧ (c.fixedSupplyFlag = 1 → x ≤ c.preMigrationSupply - c.postMigrationSupply) ∧
      x = min (if c.fixedSupplyFlag = 1 then c.preMigrationSupply - c.postMigrationSupply else u64Max) (v - (f + mf)) := by
  simp only [burnAmount, PoolConfig.burnable, bind_ok, safeAdd_ok, safeSub_ok, ok_inj, ite_ok] at h
  obtain ⟨_, ⟨_, rfl⟩, _, ⟨h1, rfl⟩, mx, hm, rfl⟩ := h
  rcases hm with ⟨g, _, rfl⟩ | ⟨g, rfl⟩
  · simp only [g, if_true]; exact ⟨h1, by omega, fun _ => by omega, trivial⟩
  · simp only [g, if_false]; exact ⟨h1, by omega, fun h => absurd h (by simp), trivial⟩

theorem migrateV1_ok {w w' : World} {a : V1Args} (h : w.migrateV1 a = .ok w') :
    ∃ md m md' burn f, w.dammMeta = some md ∧ w.pool.migrationProgress = 2 ∧
      w.cfg.migrationQuoteThreshold ≤ w.pool.quoteReserve ∧ w.cfg.migrationOption = 0 ∧
      w.migAmounts .compounding = .ok m ∧ a.baseTaken ≤ m.exBase ∧ a.quoteTaken ≤ m.exQuote ∧
      a.baseTaken ≤ w.baseVault ∧ a.quoteTaken ≤ w.quoteVault ∧
      f = w.pool.partnerBaseFee + w.pool.protocolBaseFee + w.pool.creatorBaseFee ∧
      burnAmount w.cfg f m.baseFee (w.baseVault - a.baseTaken) = .ok burn ∧ burn ≤ w.baseVault - a.baseTaken ∧
      a.lpMinted ≤ u64Max ∧
      (∃ pa cr, w.cfg.liquidityDistribution a.lpMinted = .ok (pa, cr) ∧ md.setLiquidity pa cr = .ok md' ∧
        a.config.validate w.cfg.migrationFeeOption = .ok ()) ∧
      w' = { w with
          pool := { w.pool with protocolMigBaseFee := m.baseFee, protocolMigQuoteFee := m.quoteFee,
                                isMigrated := 1, migrationProgress := 3 }
          baseVault := w.baseVault - a.baseTaken - burn
          quoteVault := w.quoteVault - a.quoteTaken
          supply := w.supply - burn
          dammMeta := some md'
          lpVault := a.lpMinted
          lpMinted := a.lpMinted
          newPool := some (.v1 a.config m.exBase m.exQuote)
          led := { w.led with migBase := w.led.migBase + a.baseTaken, migQuote := w.led.migQuote + a.quoteTaken,
                              protoMigBase := w.led.protoMigBase + m.baseFee,
                              protoMigQuote := w.led.protoMigQuote + m.quoteFee,
                              burnt := w.led.burnt + burn } } := by
  simp only [World.migrateV1, bind_ok, req_ok] at h
  obtain ⟨_, h0, _, h1, h⟩ := h
  split at h
  · cases h
  · rename_i md hmd
    simp only [bind_ok, req_ok, baseFees_ok, vaultOut_ok, Prod.exists, ok_inj] at h
    obtain ⟨_, h2, _, h3, m, hm, _, ⟨h4, h5⟩, _, ⟨h6, rfl⟩, _, ⟨h7, rfl⟩, f, ⟨h8, rfl⟩, burn, h9, _, ⟨h10, rfl⟩, _, h11,
      pa, cr, h12, md', h13, rfl⟩ := h
    exact ⟨md, m, md', burn, _, hmd, h1, h2, h3, hm, h4, h5, h6, h7, rfl, h9, h10, h11, ⟨pa, cr, h12, h13, h0⟩, rfl⟩

theorem migrateV2_ok {w w' : World} {a : V2Args} (h : w.migrateV2 a = .ok w') :
    ∃ hd m burn f price liq dead pa cr first second liq2, ∃ out : List DammPosition × NewPool, hd = migrationHandler 1 w.cfg.migratedFee.collectFeeMode ∧
      w.cfg.migratedFee.collectFeeMode ≤ 2 ∧
      w.pool.migrationProgress = 2 ∧ w.cfg.migrationQuoteThreshold ≤ w.pool.quoteReserve ∧ w.cfg.migrationOption = 1 ∧
      w.migAmounts hd = .ok m ∧
      f = w.pool.partnerBaseFee + w.pool.protocolBaseFee + w.pool.creatorBaseFee ∧
      initialPoolInformation hd w.cfg.migrationSqrtPrice m.exBase m.exQuote = .ok (price, liq, dead) ∧
      w.cfg.liquidityDistribution liq = .ok (pa, cr) ∧
      orderPositions w.cfg.feeClaimer w.pool.creator pa cr = .ok (first, second) ∧
      a.base1 ≤ w.baseVault ∧ a.quote1 ≤ w.quoteVault ∧ a.base1 ≤ m.exBase ∧ a.quote1 ≤ m.exQuote ∧
      liquidityDelta hd w.cfg.migrationSqrtPrice (m.exBase - a.base1) (m.exQuote - a.quote1) a.poolBase a.poolQuote
        a.poolLiq = .ok liq2 ∧
      (∃ rest t1 lock, secondPosition hd price a second liq2 = .ok rest ∧ first.item.total = .ok t1 ∧
        lockItem first.item a.now = .ok lock ∧ t1 + dead ≤ u128Max ∧ out.1 = ⟨first.owner, t1, lock.1, lock.2⟩ :: rest ∧
        createPoolV2 w.cfg.migrationFeeOption w.cfg.migratedFee a.config (t1 + dead) price = .ok out.2 ∧
        a.config.validate w.cfg.migrationFeeOption = .ok ()) ∧
      a.base2 ≤ w.baseVault - a.base1 ∧ a.quote2 ≤ w.quoteVault - a.quote1 ∧
      burnAmount w.cfg f m.baseFee (w.baseVault - a.base1 - a.base2) = .ok burn ∧
      burn ≤ w.baseVault - a.base1 - a.base2 ∧
      w' = { w with
        pool := { w.pool with protocolMigBaseFee := m.baseFee, protocolMigQuoteFee := m.quoteFee,
                              isMigrated := 1, migrationProgress := 3 }
        baseVault := w.baseVault - a.base1 - a.base2 - burn
        quoteVault := w.quoteVault - a.quote1 - a.quote2
        supply := w.supply - burn
        positions := out.1
        newPool := some out.2
        led := { w.led with migBase := w.led.migBase + (a.base1 + a.base2),
                            migQuote := w.led.migQuote + (a.quote1 + a.quote2),
                            protoMigBase := w.led.protoMigBase + m.baseFee,
                              protoMigQuote := w.led.protoMigQuote + m.quoteFee,
                              burnt := w.led.burnt + burn } } := by
  simp only [World.migrateV2, bind_ok, req_ok, baseFees_ok, vaultOut_ok, safeSub_ok, safeAdd_ok, Prod.exists, ok_inj] at h
  obtain ⟨_, h0, _, h1, _, h2, _, h3, f, ⟨h4, rfl⟩, _, h5, m, hm, price, liq, dead, h6, pa, cr, h7, first, second, h8, t1, h9,
    _, ⟨h10, rfl⟩, np, hnp, _, ⟨h11, rfl⟩, _, ⟨h12, rfl⟩, lk0, lk1, h13, _, ⟨h14, rfl⟩, _, ⟨h15, rfl⟩, liq2, h16, rest, h17, _, ⟨h18, rfl⟩, _,
    ⟨h19, rfl⟩, burn, h20, _, ⟨h21, rfl⟩, rfl⟩ := h
  exact ⟨_, m, burn, _, price, liq, dead, pa, cr, first, second, liq2, (_, np), rfl, h5, h1, h2, h3,
    hm, rfl, h6, h7, h8, h11, h12, h14, h15, h16, ⟨rest, t1, (lk0, lk1), h17, h9, h13, h10, rfl, hnp, h0⟩, h18, h19, h20, h21, rfl⟩

theorem withdrawLeftover_ok {w w' : World} {r : Nat} (h : w.withdrawLeftover r = .ok w') :
    r = w.cfg.leftoverReceiver ∧ w.pool.migrationProgress = 3 ∧ w.cfg.fixedSupplyFlag = 1 ∧ w.pool.isWithdrawLeftover = 0 ∧
    ∃ f x, f = w.pool.partnerBaseFee + w.pool.protocolBaseFee + w.pool.creatorBaseFee ∧
      f + w.pool.protocolMigBaseFee + x = w.baseVault ∧
      w' = { w with pool := { w.pool with isWithdrawLeftover := 1 }, baseVault := f + w.pool.protocolMigBaseFee,
                    led := { w.led with leftover := w.led.leftover + x } } := by
  simp only [World.withdrawLeftover, bind_ok, req_ok, baseFees_ok, safeSub_ok, vaultOut_ok, ok_inj] at h
  obtain ⟨_, h0, _, h1, _, h2, _, h3, f, ⟨h4, rfl⟩, _, ⟨h5, rfl⟩, _, ⟨h6, rfl⟩, _, ⟨h7, rfl⟩, rfl⟩ := h
  refine ⟨h0, h1, h2, h3, _, w.baseVault - (w.pool.partnerBaseFee + w.pool.protocolBaseFee + w.pool.creatorBaseFee) -
    w.pool.protocolMigBaseFee, rfl, by omega, ?_⟩
  congr 1
  omega

theorem createMeta_ok {w w' : World} (h : w.createMeta = .ok w') :
    w.dammMeta = none ∧ w.cfg.migrationOption = 0 ∧
      w' = { w with dammMeta := some ⟨w.cfg.feeClaimer, 0, 0, 0, 0, 0, 0, 0, 0⟩ } := by
  simp only [World.createMeta, bind_ok, req_ok, ok_inj] at h
  obtain ⟨_, h1, _, h2, rfl⟩ := h
  exact ⟨h1, h2, rfl⟩

theorem lockLp_ok {w w' : World} {o : Nat} (h : w.lockLp o = .ok w') :
    w.pool.migrationProgress = 3 ∧ ∃ m x m', w.dammMeta = some m ∧
      m.lock (decide (o = m.partner)) (decide (o = w.pool.creator)) = .ok (x, m') ∧ x ≤ w.lpVault ∧
      w' = { w with dammMeta := some m', lpVault := w.lpVault - x, lpLog := ⟨o, true, x⟩ :: w.lpLog } := by
  simp only [World.lockLp, bind_ok, req_ok] at h
  obtain ⟨_, h1, h⟩ := h
  split at h
  · cases h
  · rename_i m hm
    simp only [bind_ok, Prod.exists, vaultOut_ok, ok_inj] at h
    obtain ⟨x, m', h2, _, ⟨h3, rfl⟩, rfl⟩ := h
    exact ⟨h1, m, x, m', hm, h2, h3, rfl⟩

theorem claimLp_ok {w w' : World} {o : Nat} (h : w.claimLp o = .ok w') :
    w.pool.migrationProgress = 3 ∧ ∃ m x m', w.dammMeta = some m ∧
      m.claim (decide (o = m.partner)) (decide (o = w.pool.creator)) = .ok (x, m') ∧ x ≤ w.lpVault ∧
      w' = { w with dammMeta := some m', lpVault := w.lpVault - x, lpLog := ⟨o, false, x⟩ :: w.lpLog } := by
  simp only [World.claimLp, bind_ok, req_ok] at h
  obtain ⟨_, h1, h⟩ := h
  split at h
  · cases h
  · rename_i m hm
    simp only [bind_ok, Prod.exists, vaultOut_ok, ok_inj] at h
    obtain ⟨x, m', h2, _, ⟨h3, rfl⟩, rfl⟩ := h
    exact ⟨h1, m, x, m', hm, h2, h3, rfl⟩

theorem transferAllowed_ok {w : World} {u : Unit} (h : w.transferAllowed = .ok u) :
    w.pool.migrationProgress = 0 ∨ (w.pool.migrationProgress = 3 ∧ (w.cfg.migrationOption = 0 →
      ∃ m, w.dammMeta = some m ∧ (m.partnerLocked = 0 ∨ m.partnerLockedStatus = 1) ∧
        (m.creatorLocked = 0 ∨ m.creatorLockedStatus = 1) ∧ (m.creatorLiq = 0 ∨ m.creatorClaimStatus = 1) ∧
        (m.partnerLiq = 0 ∨ m.partnerClaimStatus = 1))) := by
  unfold World.transferAllowed at h
  split at h
  · left; assumption
  · right
    refine ⟨by assumption, fun hopt => ?_⟩
    rw [if_pos hopt] at h
    split at h
    · cases h
    · rename_i m hm
      simp only [bind_ok, req_ok] at h
      obtain ⟨_, h1, _, h2, _, h3, h4⟩ := h
      exact ⟨m, hm, h1, h2, h3, h4⟩
  · cases h

theorem transferCreator_ok {w w' : World} {s n : Nat} (h : w.transferCreator s n = .ok w') :
    w.pool.creator = s ∧ n ≠ s ∧ w.transferAllowed = .ok () ∧ w' = { w with pool := { w.pool with creator := n } } := by
  simp only [World.transferCreator, bind_ok, req_ok, ok_inj] at h
  obtain ⟨_, h1, _, h2, _, h3, rfl⟩ := h
  exact ⟨h1, h2, h3, rfl⟩

theorem createOperator_ok {w w' : World} {s a p : Nat} (h : w.createOperator s a p = .ok w') :
    s ∈ w.admins ∧ 0 < p ∧ p < 4 ∧ (∀ o ∈ w.operators, o.address ≠ a) ∧
      w' = { w with operators := ⟨a, p⟩ :: w.operators } := by
  simp only [World.createOperator, bind_ok, req_ok, ok_inj] at h
  obtain ⟨_, h1, _, ⟨h2, h2'⟩, _, h3, rfl⟩ := h
  exact ⟨h1, h2, h2', h3, rfl⟩

theorem closeOperator_ok {w w' : World} {s a : Nat} (h : w.closeOperator s a = .ok w') :
    s ∈ w.admins ∧ w' = { w with operators := w.operators.filter (fun o => decide (o.address ≠ a)) } := by
  simp only [World.closeOperator, bind_ok, req_ok, ok_inj] at h
  obtain ⟨_, h1, rfl⟩ := h
  exact ⟨h1, rfl⟩

theorem donate_ok {w w' : World} {b q l : Nat} (h : w.donate b q l = .ok w') :
    w.baseVault + b ≤ w.supply ∧ w.quoteVault + q ≤ u64Max ∧
      w' = { w with baseVault := w.baseVault + b, quoteVault := w.quoteVault + q, lamports := w.lamports + l,
                    led := { w.led with donBase := w.led.donBase + b, donQuote := w.led.donQuote + q,
                                        donLamports := w.led.donLamports + l } } := by
  simp only [World.donate, bind_ok, vaultIn_ok, ok_inj] at h
  obtain ⟨_, ⟨h1, rfl⟩, _, ⟨h2, rfl⟩, rfl⟩ := h
  exact ⟨h1, h2, rfl⟩

theorem mintMore_ok {w w' : World} {s x : Nat} (h : w.mintMore s x = .ok w') :
    w.mintAuth = some s ∧ w.supply + x ≤ u64Max ∧
      w' = { w with supply := w.supply + x, led := { w.led with minted := w.led.minted + x } } := by
  simp only [World.mintMore, bind_ok, req_ok, ok_inj] at h
  obtain ⟨_, h1, _, h2, rfl⟩ := h
  exact ⟨h1, h2, rfl⟩

theorem burnOwn_ok {w w' : World} {x : Nat} (h : w.burnOwn x = .ok w') :
    w.baseVault + x ≤ w.supply ∧
      w' = { w with supply := w.supply - x, led := { w.led with burntByHolders := w.led.burntByHolders + x } } := by
  simp only [World.burnOwn, bind_ok, req_ok, ok_inj] at h
  obtain ⟨_, h1, rfl⟩ := h
  exact ⟨h1, rfl⟩

/-! ### What operations other than swap leave alone -/

/-- Case split on a successful step. -/
theorem step_cases {w w' : World} {op : Op} (h : w.step op = .ok w') :
    (∃ a, op = .swap a ∧ w.swap a = .ok w') ∨
    (w'.cfg = w.cfg ∧ w'.key = w.key ∧ w'.pool.sqrtPrice = w.pool.sqrtPrice ∧ w'.pool.baseReserve = w.pool.baseReserve ∧
      w'.pool.quoteReserve = w.pool.quoteReserve ∧ w'.pool.vol = w.pool.vol ∧ w'.pool.hasSwap = w.pool.hasSwap ∧
      w'.pool.activationPoint = w.pool.activationPoint ∧ w'.pool.metrics = w.pool.metrics ∧
      w'.pool.finishTimestamp = w.pool.finishTimestamp ∧ w'.pool.migrationFeeBps = w.pool.migrationFeeBps ∧
      w'.pool.poolType = w.pool.poolType ∧
      w'.led.tradeBaseIn = w.led.tradeBaseIn ∧ w'.led.tradeBaseOut = w.led.tradeBaseOut ∧
      w'.led.tradeQuoteIn = w.led.tradeQuoteIn ∧ w'.led.tradeQuoteOut = w.led.tradeQuoteOut ∧
      w'.led.refBase = w.led.refBase ∧ w'.led.refQuote = w.led.refQuote ∧ w'.led.firstMin = w.led.firstMin ∧
      w'.led.accPartnerBase = w.led.accPartnerBase ∧ w'.led.accPartnerQuote = w.led.accPartnerQuote ∧
      w'.led.accCreatorBase = w.led.accCreatorBase ∧ w'.led.accCreatorQuote = w.led.accCreatorQuote ∧
      w'.led.accProtocolBase = w.led.accProtocolBase ∧ w'.led.accProtocolQuote = w.led.accProtocolQuote ∧
      w'.mintAuth = w.mintAuth ∧ w'.updateAuth = w.updateAuth ∧ w'.admins = w.admins) := by
  cases op with
  | swap a => exact .inl ⟨a, rfl, h⟩
  | claimProtocolFee s b q =>
    obtain ⟨_, _, _, _, _, _, _, _, _, _, _, _, _, _, rfl⟩ := claimProtocolFee_ok h; right; simp
  | zapProtocolFee s m b x y =>
    obtain ⟨_, _, _, ⟨_, _, _, _, _, _, _, rfl⟩ | ⟨_, _, _, _, _, _, _, _, _, _, rfl⟩⟩ := zapProtocolFee_ok h <;> right <;> simp
  | claimPartnerFee s b q => obtain ⟨_, _, _, _, _, _, _, rfl⟩ := claimPartnerFee_ok h; right; simp
  | claimCreatorFee s b q => obtain ⟨_, _, _, _, _, _, _, rfl⟩ := claimCreatorFee_ok h; right; simp
  | partnerWithdrawSurplus s => obtain ⟨_, _, _, _, _, _, rfl⟩ := partnerWithdrawSurplus_ok h; right; simp
  | creatorWithdrawSurplus s => obtain ⟨_, _, _, _, _, _, rfl⟩ := creatorWithdrawSurplus_ok h; right; simp
  | withdrawMigrationFee s f =>
    obtain ⟨_, ⟨_, _, _, _, rfl⟩ | ⟨_, _, _, _, rfl⟩⟩ := withdrawMigrationFee_ok h <;> right <;> simp
  | claimPartnerCreationFee s => obtain ⟨_, _, _, _, rfl⟩ := claimPartnerCreationFee_ok h; right; simp
  | claimProtocolCreationFee s => obtain ⟨_, _, _, _, _, _, _, _, rfl⟩ := claimProtocolCreationFee_ok h; right; simp
  | createLocker => obtain ⟨_, _, rfl⟩ := createLocker_ok h; right; simp
  | migrateV1 a =>
    obtain ⟨_, _, _, _, _, _, _, _, _, _, _, _, _, _, _, _, _, _, _, rfl⟩ := migrateV1_ok h; right; simp
  | migrateV2 a =>
    obtain ⟨_, _, _, _, _, _, _, _, _, _, _, _, _, _, _, _, _, _, _, _, _, _, _, _, _, _, _, _, _, _, _, _, _, rfl⟩ :=
      migrateV2_ok h
    right; simp
  | withdrawLeftover r => obtain ⟨_, _, _, _, _, _, _, _, rfl⟩ := withdrawLeftover_ok h; right; simp
  | createMeta => obtain ⟨_, _, rfl⟩ := createMeta_ok h; right; simp
  | lockLp o => obtain ⟨_, _, _, _, _, _, _, rfl⟩ := lockLp_ok h; right; simp
  | claimLp o => obtain ⟨_, _, _, _, _, _, _, rfl⟩ := claimLp_ok h; right; simp
  | transferCreator s n => obtain ⟨_, _, _, rfl⟩ := transferCreator_ok h; right; simp
  | createOperator s a p => obtain ⟨_, _, _, _, rfl⟩ := createOperator_ok h; right; simp
  | closeOperator s a => obtain ⟨_, rfl⟩ := closeOperator_ok h; right; simp
  | donate b q l => obtain ⟨_, _, rfl⟩ := donate_ok h; right; simp
  | mintMore s x => obtain ⟨_, _, rfl⟩ := mintMore_ok h; right; simp
  | burnOwn x => obtain ⟨_, rfl⟩ := burnOwn_ok h; right; simp

end Dbc

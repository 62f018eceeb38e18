import Verif.Lemmas.Invariant
import Verif.Props.Swap

/-!
# Vault balances against what is owed
-/

namespace Dbc

open Spec

theorem Genesis.life {w : World} (h : Genesis w) : Life w := by
  obtain ⟨p, env, a, c, ht, hc, hi⟩ := h
  have hg := createConfig_good ht hc
  obtain ⟨supply, mint, upd, act, b, h1, h2, h3, h4, h5, h6, h7, h8, rfl⟩ := initPool_ok hi
  have := hg.thresholdPos
  exact
    { prog := by show 0 ≤ 3; omega
      start := ⟨fun _ => this, fun _ => rfl⟩
      mig := ⟨fun h => absurd (show 0 = 3 from h) (by decide), fun _ => rfl⟩
      vest := fun h => absurd (show 0 = 1 from h) (by decide)
      early := fun _ => ⟨rfl, rfl, rfl, rfl⟩
      status := .inl rfl
      paS := .inl ⟨rfl, rfl⟩
      crS := .inl ⟨rfl, rfl⟩
      prS := .inl rfl
      paM := rfl
      crM := rfl
      notYet := fun _ => ⟨rfl, rfl, rfl, rfl, rfl, rfl, rfl, rfl, rfl⟩
      leftover := .inl ⟨rfl, rfl⟩
      creation := .inl rfl
      legacy := rfl
      laP := rfl
      laR := rfl
      lam := by dsimp only; omega
      bps := rfl
      first := ⟨le_rfl, Nat.zero_le _⟩
      locker := ⟨fun _ => rfl, fun h => absurd (show 2 ≤ 0 from h) (by decide)⟩ }

theorem Reachable.life {w : World} (h : Reachable w) : Life w :=
  Reachable.induct (P := Life) (fun _ => Genesis.life) (fun _ _ _ _ l hs => l.step hs) h

theorem surplus_split (c : PoolConfig) (h : c.creatorTradingFeePct ≤ 100) (x : Nat) :
    paSurplus c x + crSurplus c x = x * 80 / 100 ∧ paSurplus c x + crSurplus c x + protoPart x = x := by
  have : crSurplus c x ≤ x * 80 / 100 := by
    unfold crSurplus
    rw [Nat.div_le_iff_le_mul_add_pred (by decide)]
    have := Nat.mul_le_mul_left (x * 80 / 100) h
    omega
  unfold paSurplus protoPart
  omega

theorem mig_split (c : PoolConfig) (h : c.migrationFeePct ≤ 100) (h' : c.creatorMigrationFeePct ≤ 100) :
    migQuote c + paMig c + crMig c = c.migrationQuoteThreshold ∧ migQuote c + migFee c = c.migrationQuoteThreshold := by
  have h1 : migQuote c ≤ c.migrationQuoteThreshold := by
    unfold migQuote
    rw [divCeil_le_iff (by decide)]
    exact Nat.mul_le_mul_left _ (by omega)
  have h2 : crMig c ≤ migFee c := by
    unfold crMig
    rw [Nat.div_le_iff_le_mul_add_pred (by decide)]
    have := Nat.mul_le_mul_left (migFee c) h'
    omega
  unfold paMig
  unfold migFee at *
  omega

/-- Unclaimed trading fees. -/
def World.baseFees (w : World) : Nat := w.pool.partnerBaseFee + w.pool.creatorBaseFee + w.pool.protocolBaseFee
def World.quoteFees (w : World) : Nat := w.pool.partnerQuoteFee + w.pool.creatorQuoteFee + w.pool.protocolQuoteFee

/-- Unpaid shares of a completed pool. -/
def World.shares (w : World) : Nat :=
  (if w.pool.partnerSurplus = 0 then paSurplus w.cfg w.surplus else 0) +
  (if w.pool.creatorSurplus = 0 then crSurplus w.cfg w.surplus else 0) +
  (if w.pool.protocolSurplus = 0 then protoPart w.surplus else 0) +
  (if w.pool.migrationFeeStatus < 4 then paMig w.cfg else 0) +
  (if w.pool.migrationFeeStatus = 0 ∨ w.pool.migrationFeeStatus = 4 then crMig w.cfg else 0)

structure Solvent (w : World) : Prop where
  supMax : w.supply ≤ u64Max
  baseMax : w.baseVault ≤ w.supply
  quoteMax : w.quoteVault ≤ u64Max
  base0 : w.pool.migrationProgress = 0 → w.baseFees + w.pool.baseReserve ≤ w.baseVault
  base1 : w.pool.migrationProgress = 1 → w.baseFees + (vestTotal w.cfg + w.cfg.migrationBaseThreshold) ≤ w.baseVault
  base2 : w.pool.migrationProgress = 2 → w.baseFees + w.cfg.migrationBaseThreshold ≤ w.baseVault
  base3 : w.pool.migrationProgress = 3 → w.baseFees + w.pool.protocolMigBaseFee ≤ w.baseVault
  quote0 : w.pool.migrationProgress = 0 → w.quoteFees + w.pool.quoteReserve ≤ w.quoteVault
  quote12 : w.pool.migrationProgress = 1 ∨ w.pool.migrationProgress = 2 →
    w.quoteFees + (w.shares + migQuote w.cfg) ≤ w.quoteVault
  quote3 : w.pool.migrationProgress = 3 → w.quoteFees + (w.shares + w.pool.protocolMigQuoteFee) ≤ w.quoteVault

theorem Solvent.swap {w w' : World} {a : SwapArgs} (sv : Solvent w) (l : Cycle w) {ps : List Point} (hc : Core w ps)
    (hs : w.step (.swap a) = .ok w') : Solvent w' := by
  obtain ⟨x, ho, hv⟩ := Props.C01_swap_books hs
  obtain ⟨cur, fm, r, v1, v2, s⟩ := swap_ok hs
  have h0 : w.pool.migrationProgress = 0 := l.start.2 s.incomplete
  have hb := (hv .base).1
  have hq := (hv .quote).1
  simp only [vault, reserve, fees, partnerFee, creatorFee, protocolFee] at hb hq
  have e := s.cfg
  have sb := sv.base0 h0
  have sq := sv.quote0 h0
  obtain ⟨m1, m2⟩ := s.vaultMax
  have n0 := sv.supMax
  have n1 := sv.baseMax
  have n2 := sv.quoteMax
  have ps' : w'.pool.partnerSurplus = w.pool.partnerSurplus := by rw [s.poolFrame]
  have cs : w'.pool.creatorSurplus = w.pool.creatorSurplus := by rw [s.poolFrame]
  have rs : w'.pool.protocolSurplus = w.pool.protocolSurplus := by rw [s.poolFrame]
  have ms : w'.pool.migrationFeeStatus = w.pool.migrationFeeStatus := by rw [s.poolFrame]
  obtain ⟨k1, k2, k3, k4⟩ := l.early h0
  have b0 : w'.baseFees + w'.pool.baseReserve ≤ w'.baseVault := by unfold World.baseFees at *; omega
  have q0 : w'.quoteFees + w'.pool.quoteReserve ≤ w'.quoteVault := by unfold World.quoteFees at *; omega
  have es : w'.supply = w.supply := by rw [s.frame]
  obtain ⟨mx0, mx1, mx2⟩ : w'.supply ≤ u64Max ∧ w'.baseVault ≤ w'.supply ∧ w'.quoteVault ≤ u64Max := by omega
  by_cases g : w'.pool.quoteReserve < w.cfg.migrationQuoteThreshold
  · have p0 := (s.still g).1
    refine ⟨mx0, mx1, mx2, fun _ => b0, ?_, ?_, ?_, fun _ => q0, ?_, ?_⟩ <;> intro h <;> omega
  · obtain ⟨p0, _, t, ht, hd⟩ := s.done (by omega)
    obtain ⟨_, _, hvt⟩ := vesting_total_ok.1 ht
    have hvt' : t = vestTotal w.cfg := hvt
    have hsp := (surplus_split w.cfg hc.good.creatorPct (w'.pool.quoteReserve - w.cfg.migrationQuoteThreshold)).2
    have hmf := hc.good.migFee
    have hms := (mig_split w.cfg (by omega) hc.good.migCreator).1
    have hsh : w'.shares + migQuote w.cfg = w'.pool.quoteReserve := by
      unfold World.shares World.surplus
      rw [ps', cs, rs, ms, e, k1, k2, k3, k4]
      simp only [if_true, true_or, show (0:Nat) < 4 by decide]
      omega
    refine ⟨mx0, mx1, mx2, ?_, ?_, ?_, ?_, ?_, ?_, ?_⟩
    · intro h; split at p0 <;> omega
    · intro h; rw [e]; unfold World.baseFees; omega
    · intro h; rw [e]; unfold World.baseFees; omega
    · intro h; split at p0 <;> omega
    · intro h; split at p0 <;> omega
    · intro h; rw [e, hsh]; exact q0
    · intro h; split at p0 <;> omega

/-- Protocol claims of quote tokens lower the unpaid shares by the surplus they pay. -/
theorem shares_protocol {w w' : World} {f e : Nat}
    (h : (w.pool.protocolSurplus = 0 ∧ w.cfg.migrationQuoteThreshold ≤ w.pool.quoteReserve ∧ f = 1 ∧
            e = protoPart (w.pool.quoteReserve - w.cfg.migrationQuoteThreshold)) ∨
         (¬ (w.pool.protocolSurplus = 0 ∧ w.cfg.migrationQuoteThreshold ≤ w.pool.quoteReserve) ∧
            f = w.pool.protocolSurplus ∧ e = 0))
    (hp : w'.pool.quoteReserve = w.pool.quoteReserve ∧ w'.pool.partnerSurplus = w.pool.partnerSurplus ∧
      w'.pool.creatorSurplus = w.pool.creatorSurplus ∧ w'.pool.protocolSurplus = f ∧
      w'.pool.migrationFeeStatus = w.pool.migrationFeeStatus) (hc : w'.cfg = w.cfg) : w'.shares + e = w.shares := by
  obtain ⟨h1, h2, h3, h4, h5⟩ := hp
  unfold World.shares World.surplus
  rw [hc, h1, h2, h3, h4, h5]
  generalize paSurplus w.cfg _ = x1
  generalize crSurplus w.cfg _ = x2
  generalize protoPart _ = x3 at *
  rcases h with ⟨a, b, rfl, rfl⟩ | ⟨a, rfl, rfl⟩
  · rw [if_neg (show ¬ (1 : Nat) = 0 by decide), if_pos a]; omega
  · omega

/-- Splits `Solvent w'` after a step, with the new unpaid shares abstracted. -/
macro "solvent " hw:ident hsh:ident : tactic => `(tactic| (
  refine ⟨?_, ?_, ?_, ?_, ?_, ?_, ?_, ?_, ?_, ?_⟩ <;> (try unfold World.baseFees) <;> (try unfold World.quoteFees)
  all_goals
    generalize World.shares _ = S at ($hsh:ident) ⊢
    subst $hw:ident
    dsimp only at ($hsh:ident) ⊢
  · omega
  · omega
  · omega))

theorem Solvent.step {w w' : World} {op : Op} (sv : Solvent w) (l : Cycle w) {ps : List Point} (hc : Core w ps)
    (hs : w.step op = .ok w') : Solvent w' := by
  have n0 := sv.supMax
  have n1 := sv.baseMax
  have n2 := sv.quoteMax
  have b0 := sv.base0
  have b1 := sv.base1
  have b2 := sv.base2
  have b3 := sv.base3
  have q0 := sv.quote0
  have q12 := sv.quote12
  have q3 := sv.quote3
  have hst := l.start
  have hn := l.notYet
  unfold World.baseFees at b0 b1 b2 b3
  unfold World.quoteFees at q0 q12 q3
  cases op with
  | swap a => exact sv.swap l hc hs
  | claimProtocolFee s b q =>
    obtain ⟨_, a, b, c, d, e, f, ha, hb, hcc, hd, hf, h1, h2, hw⟩ := claimProtocolFee_ok hs
    have hsh : w'.shares + e = w.shares := shares_protocol hf (by rw [hw]; exact ⟨rfl, rfl, rfl, rfl, rfl⟩) (by rw [hw])
    solvent hw hsh
    · intro h; have := b0 h; omega
    · intro h; have := b1 h; have := hn (by omega); omega
    · intro h; have := b2 h; have := hn (by omega); omega
    · intro h; have := b3 h; omega
    · intro h; have := q0 h; have := hn (by omega); omega
    · intro h; have := q12 h; have := hn (by omega); omega
    · intro h; have := q3 h; omega
  | zapProtocolFee s m b x y =>
    obtain ⟨_, _, _, ⟨_, a, b, _, hb, _, _, hw⟩ | ⟨_, c, d, e, f, _, hd, hf, _, _, hw⟩⟩ := zapProtocolFee_ok hs
    · have hsh : w'.shares + 0 = w.shares := by rw [hw]; rfl
      solvent hw hsh
      · intro h; have := b0 h; omega
      · intro h; have := b1 h; have := hn (by omega); omega
      · intro h; have := b2 h; have := hn (by omega); omega
      · intro h; have := b3 h; omega
      · intro h; have := q0 h; have := hn (by omega); omega
      · intro h; have := q12 h; have := hn (by omega); omega
      · intro h; have := q3 h; omega
    · have hsh : w'.shares + e = w.shares := shares_protocol hf (by rw [hw]; exact ⟨rfl, rfl, rfl, rfl, rfl⟩) (by rw [hw])
      solvent hw hsh
      · intro h; have := b0 h; omega
      · intro h; have := b1 h; have := hn (by omega); omega
      · intro h; have := b2 h; have := hn (by omega); omega
      · intro h; have := b3 h; omega
      · intro h; have := q0 h; have := hn (by omega); omega
      · intro h; have := q12 h; have := hn (by omega); omega
      · intro h; have := q3 h; omega
  | claimPartnerFee s b q =>
    obtain ⟨_, _, _, _, _, _, _, hw⟩ := claimPartnerFee_ok hs
    have hsh : w'.shares + 0 = w.shares := by rw [hw]; rfl
    solvent hw hsh
    · intro h; have := b0 h; omega
    · intro h; have := b1 h; omega
    · intro h; have := b2 h; omega
    · intro h; have := b3 h; omega
    · intro h; have := q0 h; omega
    · intro h; have := q12 h; omega
    · intro h; have := q3 h; omega
  | claimCreatorFee s b q =>
    obtain ⟨_, _, _, _, _, _, _, hw⟩ := claimCreatorFee_ok hs
    have hsh : w'.shares + 0 = w.shares := by rw [hw]; rfl
    solvent hw hsh
    · intro h; have := b0 h; omega
    · intro h; have := b1 h; omega
    · intro h; have := b2 h; omega
    · intro h; have := b3 h; omega
    · intro h; have := q0 h; omega
    · intro h; have := q12 h; omega
    · intro h; have := q3 h; omega
  | partnerWithdrawSurplus s =>
    obtain ⟨_, h1, h2, x, hx, _, hw⟩ := partnerWithdrawSurplus_ok hs
    have hsh : w'.shares + x = w.shares := by
      rw [hw, hx]; unfold World.shares World.surplus; dsimp only
      rw [if_neg (show ¬ (1 : Nat) = 0 by decide), if_pos h2]; omega
    solvent hw hsh
    · intro h; have := b0 h; omega
    · intro h; have := b1 h; omega
    · intro h; have := b2 h; omega
    · intro h; have := b3 h; omega
    · intro h; have := q0 h; omega
    · intro h; have := q12 h; omega
    · intro h; have := q3 h; omega
  | creatorWithdrawSurplus s =>
    obtain ⟨_, h1, h2, x, hx, _, hw⟩ := creatorWithdrawSurplus_ok hs
    have hsh : w'.shares + x = w.shares := by
      rw [hw, hx]; unfold World.shares World.surplus; dsimp only
      rw [if_neg (show ¬ (1 : Nat) = 0 by decide), if_pos h2]; omega
    solvent hw hsh
    · intro h; have := b0 h; omega
    · intro h; have := b1 h; omega
    · intro h; have := b2 h; omega
    · intro h; have := b3 h; omega
    · intro h; have := q0 h; omega
    · intro h; have := q12 h; omega
    · intro h; have := q3 h; omega
  | withdrawMigrationFee s f =>
    obtain ⟨h1, ⟨_, _, h2, _, hw⟩ | ⟨_, _, h2, _, hw⟩⟩ := withdrawMigrationFee_ok hs
    · obtain ⟨e, g⟩ := bit4 l.status h2
      have hst := l.status
      have hsh : w'.shares + paMig w.cfg = w.shares := by
        rw [hw]; unfold World.shares World.surplus; dsimp only
        rw [e, if_neg (show ¬ w.pool.migrationFeeStatus + 4 < 4 by omega), if_pos g]
        by_cases z : w.pool.migrationFeeStatus = 0
        · rw [if_pos (show w.pool.migrationFeeStatus + 4 = 0 ∨ w.pool.migrationFeeStatus + 4 = 4 by omega),
            if_pos (show w.pool.migrationFeeStatus = 0 ∨ w.pool.migrationFeeStatus = 4 by omega)]; omega
        · rw [if_neg (show ¬ (w.pool.migrationFeeStatus + 4 = 0 ∨ w.pool.migrationFeeStatus + 4 = 4) by omega),
            if_neg (show ¬ (w.pool.migrationFeeStatus = 0 ∨ w.pool.migrationFeeStatus = 4) by omega)]; omega
      solvent hw hsh
      · intro h; have := b0 h; omega
      · intro h; have := b1 h; omega
      · intro h; have := b2 h; omega
      · intro h; have := b3 h; omega
      · intro h; have := q0 h; omega
      · intro h; have := q12 h; omega
      · intro h; have := q3 h; omega
    · obtain ⟨e, g⟩ := bit2 l.status h2
      have hsh : w'.shares + crMig w.cfg = w.shares := by
        rw [hw]; unfold World.shares World.surplus; dsimp only
        rw [e, if_neg (show ¬ (w.pool.migrationFeeStatus + 2 = 0 ∨ w.pool.migrationFeeStatus + 2 = 4) by omega), if_pos g]
        by_cases z : w.pool.migrationFeeStatus = 0
        · rw [if_pos (show w.pool.migrationFeeStatus + 2 < 4 by omega), if_pos (show w.pool.migrationFeeStatus < 4 by omega)]
          omega
        · rw [if_neg (show ¬ w.pool.migrationFeeStatus + 2 < 4 by omega),
            if_neg (show ¬ w.pool.migrationFeeStatus < 4 by omega)]
      solvent hw hsh
      · intro h; have := b0 h; omega
      · intro h; have := b1 h; omega
      · intro h; have := b2 h; omega
      · intro h; have := b3 h; omega
      · intro h; have := q0 h; omega
      · intro h; have := q12 h; omega
      · intro h; have := q3 h; omega
  | claimPartnerCreationFee s =>
    obtain ⟨_, _, _, _, hw⟩ := claimPartnerCreationFee_ok hs
    have hsh : w'.shares + 0 = w.shares := by rw [hw]; rfl
    solvent hw hsh
    · intro h; have := b0 h; omega
    · intro h; have := b1 h; omega
    · intro h; have := b2 h; omega
    · intro h; have := b3 h; omega
    · intro h; have := q0 h; omega
    · intro h; have := q12 h; omega
    · intro h; have := q3 h; omega
  | claimProtocolCreationFee s =>
    obtain ⟨_, _, _, _, _, _, _, _, hw⟩ := claimProtocolCreationFee_ok hs
    have hsh : w'.shares + 0 = w.shares := by rw [hw]; rfl
    solvent hw hsh
    · intro h; have := b0 h; omega
    · intro h; have := b1 h; omega
    · intro h; have := b2 h; omega
    · intro h; have := b3 h; omega
    · intro h; have := q0 h; omega
    · intro h; have := q12 h; omega
    · intro h; have := q3 h; omega
  | createLocker =>
    obtain ⟨h1, h2, hw⟩ := createLocker_ok hs
    have hsh : w'.shares + 0 = w.shares := by rw [hw]; rfl
    have := b1 h1
    have := q12 (.inl h1)
    solvent hw hsh <;> intro h <;> omega
  | migrateV1 a =>
    obtain ⟨md, m, md', burn, f, h1, h2, h3, h4, h5, h6, h7, h8, h9, h10, h11, h12, h13, h14, hw⟩ := migrateV1_ok hs
    obtain ⟨f', e1, e2, e3, e4, e5, e6, e7, e8, e9, e10⟩ := migAmounts_ok h5
    obtain ⟨k1, k2, _⟩ := burnAmount_ok h11
    have hsh : w'.shares + 0 = w.shares := by rw [hw]; rfl
    have := q12 (.inr h2)
    solvent hw hsh <;> intro h <;> omega
  | migrateV2 a =>
    obtain ⟨hd, m, burn, f, price, liq, dead, pa, cr, first, second, liq2, rest, hh, _, h2, h3, h4, h5, hf, h6, _, _, g1, g2, g3, g4,
      g5, g6, g7, g8, g9, g10, hw⟩ := migrateV2_ok hs
    obtain ⟨f', e1, e2, e3, e4, e5, e6, e7, e8, e9, e10⟩ := migAmounts_ok h5
    obtain ⟨k1, k2, _⟩ := burnAmount_ok g9
    obtain ⟨_, _, _, g6, -⟩ := g6
    obtain ⟨t1, t2⟩ := second_taken h6 g5 g6
    have hsh : w'.shares + 0 = w.shares := by rw [hw]; rfl
    have := q12 (.inr h2)
    solvent hw hsh <;> intro h <;> omega
  | withdrawLeftover r =>
    obtain ⟨_, _, _, _, _, _, _, _, hw⟩ := withdrawLeftover_ok hs
    have hsh : w'.shares + 0 = w.shares := by rw [hw]; rfl
    solvent hw hsh
    · intro h; have := b0 h; omega
    · intro h; have := b1 h; omega
    · intro h; have := b2 h; omega
    · intro h; have := b3 h; omega
    · intro h; have := q0 h; omega
    · intro h; have := q12 h; omega
    · intro h; have := q3 h; omega
  | createMeta =>
    obtain ⟨_, _, hw⟩ := createMeta_ok hs
    have hsh : w'.shares + 0 = w.shares := by rw [hw]; rfl
    solvent hw hsh
    · intro h; have := b0 h; omega
    · intro h; have := b1 h; omega
    · intro h; have := b2 h; omega
    · intro h; have := b3 h; omega
    · intro h; have := q0 h; omega
    · intro h; have := q12 h; omega
    · intro h; have := q3 h; omega
  | lockLp o =>
    obtain ⟨_, _, _, _, _, _, _, hw⟩ := lockLp_ok hs
    have hsh : w'.shares + 0 = w.shares := by rw [hw]; rfl
    solvent hw hsh
    · intro h; have := b0 h; omega
    · intro h; have := b1 h; omega
    · intro h; have := b2 h; omega
    · intro h; have := b3 h; omega
    · intro h; have := q0 h; omega
    · intro h; have := q12 h; omega
    · intro h; have := q3 h; omega
  | claimLp o =>
    obtain ⟨_, _, _, _, _, _, _, hw⟩ := claimLp_ok hs
    have hsh : w'.shares + 0 = w.shares := by rw [hw]; rfl
    solvent hw hsh
    · intro h; have := b0 h; omega
    · intro h; have := b1 h; omega
    · intro h; have := b2 h; omega
    · intro h; have := b3 h; omega
    · intro h; have := q0 h; omega
    · intro h; have := q12 h; omega
    · intro h; have := q3 h; omega
  | transferCreator s n =>
    obtain ⟨_, _, _, hw⟩ := transferCreator_ok hs
    have hsh : w'.shares + 0 = w.shares := by rw [hw]; rfl
    solvent hw hsh
    · intro h; have := b0 h; omega
    · intro h; have := b1 h; omega
    · intro h; have := b2 h; omega
    · intro h; have := b3 h; omega
    · intro h; have := q0 h; omega
    · intro h; have := q12 h; omega
    · intro h; have := q3 h; omega
  | createOperator s a p =>
    obtain ⟨_, _, _, _, hw⟩ := createOperator_ok hs
    have hsh : w'.shares + 0 = w.shares := by rw [hw]; rfl
    solvent hw hsh
    · intro h; have := b0 h; omega
    · intro h; have := b1 h; omega
    · intro h; have := b2 h; omega
    · intro h; have := b3 h; omega
    · intro h; have := q0 h; omega
    · intro h; have := q12 h; omega
    · intro h; have := q3 h; omega
  | closeOperator s a =>
    obtain ⟨_, hw⟩ := closeOperator_ok hs
    have hsh : w'.shares + 0 = w.shares := by rw [hw]; rfl
    solvent hw hsh
    · intro h; have := b0 h; omega
    · intro h; have := b1 h; omega
    · intro h; have := b2 h; omega
    · intro h; have := b3 h; omega
    · intro h; have := q0 h; omega
    · intro h; have := q12 h; omega
    · intro h; have := q3 h; omega
  | donate b q x =>
    obtain ⟨_, _, hw⟩ := donate_ok hs
    have hsh : w'.shares + 0 = w.shares := by rw [hw]; rfl
    solvent hw hsh
    · intro h; have := b0 h; omega
    · intro h; have := b1 h; omega
    · intro h; have := b2 h; omega
    · intro h; have := b3 h; omega
    · intro h; have := q0 h; omega
    · intro h; have := q12 h; omega
    · intro h; have := q3 h; omega
  | mintMore s x =>
    obtain ⟨_, _, hw⟩ := mintMore_ok hs
    have hsh : w'.shares + 0 = w.shares := by rw [hw]; rfl
    solvent hw hsh
    · intro h; have := b0 h; omega
    · intro h; have := b1 h; omega
    · intro h; have := b2 h; omega
    · intro h; have := b3 h; omega
    · intro h; have := q0 h; omega
    · intro h; have := q12 h; omega
    · intro h; have := q3 h; omega
  | burnOwn x =>
    obtain ⟨_, hw⟩ := burnOwn_ok hs
    have hsh : w'.shares + 0 = w.shares := by rw [hw]; rfl
    solvent hw hsh
    · intro h; have := b0 h; omega
    · intro h; have := b1 h; omega
    · intro h; have := b2 h; omega
    · intro h; have := b3 h; omega
    · intro h; have := q0 h; omega
    · intro h; have := q12 h; omega
    · intro h; have := q3 h; omega

theorem Genesis.solvent {w : World} (h : Genesis w) : Solvent w := by
  obtain ⟨p, env, a, c, ht, hc, hi⟩ := h
  have hg := createConfig_good ht hc
  obtain ⟨supply, mint, upd, act, b, h1, h2, h3, h4, h5, h6, h7, h8, rfl⟩ := initPool_ok hi
  obtain ⟨t, _, _, hm⟩ := hg.supply _ h4
  refine ⟨hm, le_rfl, Nat.zero_le _, fun _ => ?_, ?_, ?_, ?_, fun _ => Nat.zero_le _, ?_, ?_⟩
  · show 0 + 0 + 0 + supply ≤ supply
    omega
  all_goals (intro h; simp [Pool.initial] at h)

theorem Reachable.solvent {w : World} (h : Reachable w) : Solvent w :=
  Reachable.induct (P := Solvent) (fun _ => Genesis.solvent)
    (fun _ _ _ hr sv hs => by
      obtain ⟨ps, hc⟩ := hr.core
      exact sv.step hr.life.toCycle hc hs) h

end Dbc

import Verif.Lemmas.Lifetime
import Verif.Spec.Stranded
import Verif.Props.Shares
import Verif.Props.Opening

/-!
# C85: nothing is left stranded
-/

namespace Props
open Dbc Spec

/-- The new pool and the protocol together take no more quote than was set aside. -/
theorem placed_step {w w' : World} {op : Op} (l : Life w) (hk : w.led.migQuote + w.led.protoMigQuote ≤ migQuote w.cfg)
    (hs : w.step op = .ok w') : w'.led.migQuote + w'.led.protoMigQuote ≤ migQuote w'.cfg := by
  cases op with
  | swap a =>
    obtain ⟨cur, fm, r, v1, v2, s⟩ := swap_ok hs
    obtain ⟨a1, a2, a3, a4, a5, a6, a7, a8, a9, a10, a11, a12, er⟩ :=
      recordSwap_other w.led w.cfg r fm a.dir (w.firstMin a)
    have el : w'.led = w.led.recordSwap w.cfg r fm a.dir (w.firstMin a) := by rw [s.frame]
    rw [er] at el
    rw [el, s.cfg]
    exact hk
  | migrateV1 a =>
    obtain ⟨md, m, md', burn, f, h1, h2, h3, h4, g5, g6, g7, g8, g9, g10, g11, g12, g13, g14, rfl⟩ := migrateV1_ok hs
    obtain ⟨f', e1, e2, e3, e4, e5, e6, e7, e8, e9, e10⟩ := migAmounts_ok g5
    obtain ⟨-, -, -, n1, -, n2, -⟩ := l.notYet (by omega)
    dsimp only
    omega
  | migrateV2 a =>
    obtain ⟨hd, m, burn, f, price, liq, dead, pa, cr, first, second, liq2, rest, hh, _, h2, h3, h4, h5, hf, h6, _, _, g1, g2, g3, g4,
      g5, g6, g7, g8, g9, g10, rfl⟩ := migrateV2_ok hs
    obtain ⟨f', e1, e2, e3, e4, e5, e6, e7, e8, e9, e10⟩ := migAmounts_ok h5
    obtain ⟨_, _, _, g6, -⟩ := g6
    obtain ⟨t1, t2⟩ := second_taken h6 g5 g6
    obtain ⟨-, -, -, n1, -, n2, -⟩ := l.notYet (by omega)
    dsimp only
    omega
  | claimProtocolFee s b q =>
    obtain ⟨_, _, _, _, _, _, _, _, _, _, _, _, _, _, rfl⟩ := claimProtocolFee_ok hs; exact hk
  | zapProtocolFee s m b x y =>
    obtain ⟨_, _, _, ⟨_, _, _, _, _, _, _, rfl⟩ | ⟨_, _, _, _, _, _, _, _, _, _, rfl⟩⟩ := zapProtocolFee_ok hs <;> exact hk
  | claimPartnerFee s b q => obtain ⟨_, _, _, _, _, _, _, rfl⟩ := claimPartnerFee_ok hs; exact hk
  | claimCreatorFee s b q => obtain ⟨_, _, _, _, _, _, _, rfl⟩ := claimCreatorFee_ok hs; exact hk
  | partnerWithdrawSurplus s => obtain ⟨_, _, _, _, _, _, rfl⟩ := partnerWithdrawSurplus_ok hs; exact hk
  | creatorWithdrawSurplus s => obtain ⟨_, _, _, _, _, _, rfl⟩ := creatorWithdrawSurplus_ok hs; exact hk
  | withdrawMigrationFee s f =>
    obtain ⟨_, ⟨_, _, _, _, rfl⟩ | ⟨_, _, _, _, rfl⟩⟩ := withdrawMigrationFee_ok hs <;> exact hk
  | claimPartnerCreationFee s => obtain ⟨_, _, _, _, rfl⟩ := claimPartnerCreationFee_ok hs; exact hk
  | claimProtocolCreationFee s => obtain ⟨_, _, _, _, _, _, _, _, rfl⟩ := claimProtocolCreationFee_ok hs; exact hk
  | createLocker => obtain ⟨_, _, rfl⟩ := createLocker_ok hs; exact hk
  | withdrawLeftover r => obtain ⟨_, _, _, _, _, _, _, _, rfl⟩ := withdrawLeftover_ok hs; exact hk
  | createMeta => obtain ⟨_, _, rfl⟩ := createMeta_ok hs; exact hk
  | lockLp o => obtain ⟨_, _, _, _, _, _, _, rfl⟩ := lockLp_ok hs; exact hk
  | claimLp o => obtain ⟨_, _, _, _, _, _, _, rfl⟩ := claimLp_ok hs; exact hk
  | transferCreator s n => obtain ⟨_, _, _, rfl⟩ := transferCreator_ok hs; exact hk
  | createOperator s a p => obtain ⟨_, _, _, _, rfl⟩ := createOperator_ok hs; exact hk
  | closeOperator s a => obtain ⟨_, rfl⟩ := closeOperator_ok hs; exact hk
  | donate b q l => obtain ⟨_, _, rfl⟩ := donate_ok hs; exact hk
  | mintMore s x => obtain ⟨_, _, rfl⟩ := mintMore_ok hs; exact hk
  | burnOwn x => obtain ⟨_, rfl⟩ := burnOwn_ok hs; exact hk

theorem placed {w : World} (h : Reachable w) : w.led.migQuote + w.led.protoMigQuote ≤ migQuote w.cfg := by
  refine Reachable.induct (P := fun w => w.led.migQuote + w.led.protoMigQuote ≤ migQuote w.cfg) ?_
    (fun _ _ _ hw ih hs => placed_step hw.life ih hs) h
  rintro w ⟨p, env, a, c, ht, hc, hi⟩
  obtain ⟨supply, mint, upd, act, b, h1, h2, h3, h4, h5, h6, h7, h8, rfl⟩ := initPool_ok hi
  exact Nat.zero_le _

/-- Shares received and shares still owed make up the whole shares. -/
theorem rest_paid {w : World} (l : Cycle w) :
    owedQuote.rest w + (w.led.partnerSurplus + w.led.creatorSurplus + w.led.partnerMig + w.led.creatorMig) +
      (if w.pool.protocolSurplus = 0 then 0 else protoPart w.surplus) =
    partnerSurplus w + creatorSurplus w + protocolSurplus w + partnerMigrationFee w + creatorMigrationFee w := by
  have e1 := partnerSurplus_eq w
  have e2 := creatorSurplus_eq w
  have e3 := protocolSurplus_eq w
  have e4 := partnerMigrationFee_eq w
  have e5 := creatorMigrationFee_eq w
  have k1 := l.paS
  have k2 := l.crS
  have k3 := l.paM
  have k4 := l.crM
  unfold owedQuote.rest
  rw [e1, e2, e3, e4, e5]
  generalize paSurplus w.cfg w.surplus = x1 at *
  generalize crSurplus w.cfg w.surplus = x2 at *
  generalize protoPart w.surplus = x3 at *
  split at k3 <;> split at k4 <;> split <;> omega

/-- C85: in every reachable state the quote vault holds exactly what is owed, the gifts of outsiders, and what the new pool
left of the quote set aside for it. -/
theorem C85_quote {w : World} (h : Reachable w) :
    vault w .quote = owed w .quote + gifts w .quote + unplaced w := by
  have l := h.life.toCycle
  have hf := h.flows.quote
  have hl := h.lifetime.quote
  have b := h.booked
  have bp := b.pq
  have bc := b.cq
  have br := b.rq
  have hr := rest_paid l
  have hp := placed h
  have s16 := C16_split h
  have ep := migrationQuote_eq w
  rw [← ep] at hp
  simp only [reserve, traderOut, traderIn, referrals, accruedSum, accrued] at hl
  have hc : w.pool.migrationProgress = 0 ∨ w.pool.migrationProgress = 1 ∨ w.pool.migrationProgress = 2 ∨
    w.pool.migrationProgress = 3 := by have := l.prog; omega
  show w.quoteVault = (fees w .quote + owedQuote w) + w.led.donQuote + unplaced w
  simp only [fees, partnerFee, creatorFee, protocolFee, owedQuote, unplaced, phase]
  rcases hc with e | e | e | e
  · obtain ⟨n1, n2, n3, n4⟩ := l.early e
    obtain ⟨-, m1, -, m2, -, m3, -⟩ := l.notYet (by omega)
    have p1 := l.paS
    have p2 := l.crS
    have p3 := l.paM
    have p4 := l.crM
    simp only [n3, n4, if_true, true_or, show (0:Nat) < 4 by decide] at br p3 p4
    simp only [e]
    rw [if_neg (by decide)]
    omega
  · obtain ⟨-, m1, -, m2, -, m3, -⟩ := l.notYet (by omega)
    have s15 := (C15_split h (show w.cfg.migrationQuoteThreshold ≤ w.pool.quoteReserve by have := l.start; omega)).1
    simp only [e]
    rw [if_neg (by decide)]
    omega
  · obtain ⟨-, m1, -, m2, -, m3, -⟩ := l.notYet (by omega)
    have s15 := (C15_split h (show w.cfg.migrationQuoteThreshold ≤ w.pool.quoteReserve by have := l.start; omega)).1
    simp only [e]
    rw [if_neg (by decide)]
    omega
  · have s15 := (C15_split h (show w.cfg.migrationQuoteThreshold ≤ w.pool.quoteReserve by have := l.start; omega)).1
    simp only [e]
    rw [if_pos trivial]
    omega

/-- C85: in every reachable state the base vault, together with everything that went to the vesting escrow, the new pool, the
protocol at migration, the leftover receiver or was burnt, is exactly the reserve, the unclaimed fees and the gifts of
outsiders. -/
theorem C85_base {w : World} (h : Reachable w) :
    vault w .base + (w.led.locker + w.led.migBase + w.led.protoMigBase + w.led.burnt + w.led.leftover) =
      reserve w .base + fees w .base + protocolMigFee w .base + gifts w .base := by
  obtain ⟨s, hs⟩ : ∃ s, w.cfg.initialBaseSupply = .ok s := by
    obtain ⟨ps, hc⟩ := h.core
    obtain ⟨s, hs, _⟩ := hc.base
    exact ⟨s, hs⟩
  have hf := h.flows.base s hs
  have hl := h.lifetime.base s hs
  have b := h.booked
  have bp := b.pb
  have bc := b.cb
  have br := b.rb
  simp only [reserve, traderOut, traderIn, referrals, accruedSum, accrued] at hl
  simp only [vault, fees, partnerFee, creatorFee, protocolFee, protocolMigFee, reserve, gifts]
  omega

/-- C85: while a pool trades, the base vault holds exactly what is owed and the gifts of outsiders. -/
theorem C85_base_trading {w : World} (h : Reachable w) (ht : phase w = some .trading) :
    vault w .base = owed w .base + gifts w .base := by
  have l := h.life.toCycle
  have k := C85_base h
  have e : w.pool.migrationProgress = 0 := by
    have hc : w.pool.migrationProgress = 0 ∨ w.pool.migrationProgress = 1 ∨ w.pool.migrationProgress = 2 ∨
      w.pool.migrationProgress = 3 := by have := l.prog; omega
    unfold phase at ht
    rcases hc with e | e | e | e <;> rw [e] at ht
    · exact e
    all_goals exact absurd ht (by decide)
  obtain ⟨m0, -, m1, -, m2, -, m3, m4, -⟩ := l.notYet (by omega)
  have m5 := l.locker.1 (by omega)
  simp only [owed, owedBase, ht]
  simp only [protocolMigFee, reserve] at k
  omega

/-- A migrated pool with no base tokens set aside any more, `d` of the gifts being gone. -/
structure Cleared (d : Nat) (w : World) : Prop where
  migrated : w.pool.migrationProgress = 3
  once : w.cfg.fixedSupplyFlag = 1 → w.pool.isWithdrawLeftover = 1
  gifts : d ≤ w.led.donBase
  holds : w.baseVault + d = w.pool.partnerBaseFee + w.pool.protocolBaseFee + w.pool.creatorBaseFee + w.pool.protocolMigBaseFee +
    w.led.donBase

theorem Cleared.step {d : Nat} {w w' : World} {op : Op} (h : Reachable w) (k : Cleared d w) (hs : w.step op = .ok w') :
    Cleared d w' := by
  obtain ⟨k1, k2, k3, k4⟩ := k
  have hst := h.life.start
  have hk := hs
  cases_step op hs
  case swap a =>
    obtain ⟨_, fm, r, _, _, s⟩ := swap_ok hk
    have := s.incomplete
    omega
  all_goals
    refine ⟨?_, ?_, ?_, ?_⟩ <;> dsimp only <;> (try (intro; have k2 := k2 (by assumption))) <;> omega

/-- C85: once a pool without fixed supply has migrated, or the leftover has been withdrawn, the base vault holds exactly what
is owed and what outsiders give to it afterwards, for ever. -/
theorem C85_base_cleared {w w1 w2 : World} {op : Op} {ops : List Op} (h : Reachable w) (hs : w.step op = .ok w1)
    (hc : ClearsBase w op) (hr : Run w1 ops w2) :
    gifts w1 .base ≤ gifts w2 .base ∧ vault w2 .base + gifts w1 .base = owed w2 .base + gifts w2 .base := by
  have h1 : Cleared w1.led.donBase w1 := by
    have sm := h.solvent.supMax
    have vm := h.solvent.baseMax
    cases op with
    | migrateV1 a =>
      obtain ⟨md, m, md', burn, f, h1, h2, h3, h4, g5, g6, g7, g8, g9, g10, g11, g12, g13, g14, rfl⟩ := migrateV1_ok hs
      obtain ⟨b1, b2, b3, b4⟩ := burnAmount_ok g11
      rw [if_neg hc] at b4
      exact ⟨rfl, fun e => absurd e hc, Nat.le_refl _, by dsimp only; omega⟩
    | migrateV2 a =>
      obtain ⟨hd, m, burn, f, price, liq, dead, pa, cr, first, second, liq2, rest, hh, _, h2, h3, h4, h5, hf, h6, _, _, g1, g2, g3, g4,
        g5, g6, g7, g8, g9, g10, rfl⟩ := migrateV2_ok hs
      obtain ⟨b1, b2, b3, b4⟩ := burnAmount_ok g9
      rw [if_neg hc] at b4
      exact ⟨rfl, fun e => absurd e hc, Nat.le_refl _, by dsimp only; omega⟩
    | withdrawLeftover r =>
      obtain ⟨_, hp, _, _, f, x, hf, hx, rfl⟩ := withdrawLeftover_ok hs
      exact ⟨hp, fun _ => rfl, Nat.le_refl _, by dsimp only; omega⟩
    | _ => exact absurd hc (by intro h; exact h)
  have h2 : Reachable w2 ∧ Cleared w1.led.donBase w2 :=
    hr.induct (P := fun w => Reachable w ∧ Cleared w1.led.donBase w) (fun _ _ _ k s => ⟨k.1.step s, k.2.step k.1 s⟩)
      ⟨h.step hs, h1⟩
  obtain ⟨k1, k2, k3, k4⟩ := h2.2
  refine ⟨k3, ?_⟩
  have hp : phase w2 = some .migrated := by unfold phase; rw [k1]; rfl
  simp only [vault, gifts, owed, owedBase, hp, fees, partnerFee, creatorFee, protocolFee]
  omega

/-! ### Everything can be fetched -/

/-- Nothing more is owed after than before. -/
structure Less (w w' : World) : Prop where
  cfg : w'.cfg = w.cfg
  prog : w'.pool.migrationProgress = w.pool.migrationProgress
  res : w'.pool.quoteReserve = w.pool.quoteReserve
  pb : w'.pool.partnerBaseFee ≤ w.pool.partnerBaseFee
  pq : w'.pool.partnerQuoteFee ≤ w.pool.partnerQuoteFee
  cb : w'.pool.creatorBaseFee ≤ w.pool.creatorBaseFee
  cq : w'.pool.creatorQuoteFee ≤ w.pool.creatorQuoteFee
  rb : w'.pool.protocolBaseFee ≤ w.pool.protocolBaseFee
  rq : w'.pool.protocolQuoteFee ≤ w.pool.protocolQuoteFee
  mb : w'.pool.protocolMigBaseFee ≤ w.pool.protocolMigBaseFee
  mq : w'.pool.protocolMigQuoteFee ≤ w.pool.protocolMigQuoteFee
  ps : w.pool.partnerSurplus ≠ 0 → w'.pool.partnerSurplus ≠ 0
  cs : w.pool.creatorSurplus ≠ 0 → w'.pool.creatorSurplus ≠ 0
  rs : w.pool.protocolSurplus ≠ 0 → w'.pool.protocolSurplus ≠ 0
  pm : w.led.partnerMig ≤ w'.led.partnerMig
  cm : w.led.creatorMig ≤ w'.led.creatorMig
  db : w'.led.donBase = w.led.donBase
  dq : w'.led.donQuote = w.led.donQuote
  lq : w'.led.migQuote = w.led.migQuote
  lp : w'.led.protoMigQuote = w.led.protoMigQuote
  left : w.pool.isWithdrawLeftover = 1 → w'.pool.isWithdrawLeftover = 1

theorem Less.refl (w : World) : Less w w := by
  constructor <;> first | rfl | exact Nat.le_refl _ | exact id

theorem Less.trans {a b c : World} (h : Less a b) (k : Less b c) : Less a c where
  cfg := k.cfg.trans h.cfg
  prog := k.prog.trans h.prog
  res := k.res.trans h.res
  pb := k.pb.trans h.pb
  pq := k.pq.trans h.pq
  cb := k.cb.trans h.cb
  cq := k.cq.trans h.cq
  rb := k.rb.trans h.rb
  rq := k.rq.trans h.rq
  mb := k.mb.trans h.mb
  mq := k.mq.trans h.mq
  ps := fun x => k.ps (h.ps x)
  cs := fun x => k.cs (h.cs x)
  rs := fun x => k.rs (h.rs x)
  pm := h.pm.trans k.pm
  cm := h.cm.trans k.cm
  db := k.db.trans h.db
  dq := k.dq.trans h.dq
  lq := k.lq.trans h.lq
  lp := k.lp.trans h.lp
  left := fun x => k.left (h.left x)

theorem less_step {w w' : World} {op : Op} (hs : w.step op = .ok w') (hf : Fetches op) : Less w w' := by
  cases_step op hs
  case claimProtocolFee => constructor <;> dsimp only <;> omega
  all_goals first
    | exact absurd hf (by intro h; exact h)
    | (constructor <;> dsimp only <;> omega)

/-- A sequence of fetching instructions from `w` to `w'`. -/
def Fetched (w w' : World) : Prop := ∃ ops, Run w ops w' ∧ ∀ op ∈ ops, Fetches op

theorem Fetched.refl (w : World) : Fetched w w := ⟨[], .nil _, fun _ h => (nomatch h)⟩

theorem Fetched.trans {a b c : World} (h : Fetched a b) (k : Fetched b c) : Fetched a c := by
  obtain ⟨o1, r1, f1⟩ := h
  obtain ⟨o2, r2, f2⟩ := k
  refine ⟨o1 ++ o2, r1.append r2, fun op hm => ?_⟩
  rcases List.mem_append.1 hm with hm | hm
  · exact f1 op hm
  · exact f2 op hm

theorem Fetched.one {a b : World} {op : Op} (hs : a.step op = .ok b) (hf : Fetches op) : Fetched a b :=
  ⟨[op], Run.single hs, fun o hm => by rw [List.mem_singleton.1 hm]; exact hf⟩

theorem Fetched.reachable {a b : World} (h : Reachable a) (k : Fetched a b) : Reachable b := by
  obtain ⟨o, r, _⟩ := k
  exact h.run r

/-- One party after the other fetches everything; `P` is what the fetching achieves. -/
theorem fetch_rest {w : World} (h : Reachable w) (hm : w.pool.migrationProgress = 3) {s : Nat} (hp : HasPermission w s 0) :
    ∃ w', Fetched w w' ∧ Less w w' ∧ w'.pool.partnerBaseFee = 0 ∧ w'.pool.partnerQuoteFee = 0 ∧
      w'.pool.creatorBaseFee = 0 ∧ w'.pool.creatorQuoteFee = 0 ∧ w'.pool.protocolBaseFee = 0 ∧ w'.pool.protocolQuoteFee = 0 ∧
      w'.pool.protocolMigBaseFee = 0 ∧ w'.pool.protocolMigQuoteFee = 0 ∧ w'.pool.partnerSurplus ≠ 0 ∧
      w'.pool.creatorSurplus ≠ 0 ∧ w'.pool.protocolSurplus ≠ 0 ∧ paMig w'.cfg ≤ w'.led.partnerMig ∧
      crMig w'.cfg ≤ w'.led.creatorMig := by
  -- the protocol
  have hdone : ∀ v : World, Reachable v → v.pool.migrationProgress = 3 → Completed v := by
    intro v hv h3
    have := hv.life.start
    show v.cfg.migrationQuoteThreshold ≤ v.pool.quoteReserve
    omega
  obtain ⟨w1, s1, -⟩ := (C14_fee_claims_never_starved h (w.pool.protocolBaseFee + w.pool.protocolMigBaseFee)
    (w.pool.protocolQuoteFee + w.pool.protocolMigQuoteFee)).2.2 s hp
  have l1 := less_step s1 trivial
  have h1 := h.step s1
  have e1 : w1.pool.protocolBaseFee = 0 ∧ w1.pool.protocolQuoteFee = 0 ∧ w1.pool.protocolMigBaseFee = 0 ∧
      w1.pool.protocolMigQuoteFee = 0 ∧ w1.pool.protocolSurplus ≠ 0 := by
    have hd := hdone w h hm
    change w.cfg.migrationQuoteThreshold ≤ w.pool.quoteReserve at hd
    obtain ⟨-, a, b, c, d, e, f, g1, g2, g3, g4, g5, -, -, rfl⟩ := claimProtocolFee_ok s1
    dsimp only
    omega
  -- the partner's fees
  obtain ⟨w2, s2, -⟩ := (C14_fee_claims_never_starved h1 w1.pool.partnerBaseFee w1.pool.partnerQuoteFee).1
  have l2 := less_step s2 trivial
  have h2 := h1.step s2
  have e2 : w2.pool.partnerBaseFee = 0 ∧ w2.pool.partnerQuoteFee = 0 := by
    obtain ⟨-, a, b, g1, g2, -, -, rfl⟩ := claimPartnerFee_ok s2
    dsimp only
    omega
  -- the creator's fees
  obtain ⟨w3, s3, -⟩ := (C14_fee_claims_never_starved h2 w2.pool.creatorBaseFee w2.pool.creatorQuoteFee).2.1
  have l3 := less_step s3 trivial
  have h3 := h2.step s3
  have e3 : w3.pool.creatorBaseFee = 0 ∧ w3.pool.creatorQuoteFee = 0 := by
    obtain ⟨-, a, b, g1, g2, -, -, rfl⟩ := claimCreatorFee_ok s3
    dsimp only
    omega
  have l03 := (l1.trans l2).trans l3
  have f03 := ((Fetched.one s1 trivial).trans (Fetched.one s2 trivial)).trans (Fetched.one s3 trivial)
  have m3 : w3.pool.migrationProgress = 3 := l03.prog.trans hm
  -- the partner's surplus
  obtain ⟨w4, f4, l4, h4, e4⟩ : ∃ v, Fetched w3 v ∧ Less w3 v ∧ Reachable v ∧ v.pool.partnerSurplus ≠ 0 := by
    by_cases g : w3.pool.partnerSurplus = 0
    · obtain ⟨v, sv, -⟩ := (C14_shares_never_starved h3 (hdone _ h3 m3)).1 g
      refine ⟨v, Fetched.one sv trivial, less_step sv trivial, h3.step sv, ?_⟩
      obtain ⟨_, _, _, _, _, _, rfl⟩ := partnerWithdrawSurplus_ok sv
      exact Nat.one_ne_zero
    · exact ⟨w3, .refl _, .refl _, h3, g⟩
  have m4 : w4.pool.migrationProgress = 3 := l4.prog.trans m3
  obtain ⟨w5, f5, l5, h5, e5⟩ : ∃ v, Fetched w4 v ∧ Less w4 v ∧ Reachable v ∧ v.pool.creatorSurplus ≠ 0 := by
    by_cases g : w4.pool.creatorSurplus = 0
    · obtain ⟨v, sv, -⟩ := (C14_shares_never_starved h4 (hdone _ h4 m4)).2.1 g
      refine ⟨v, Fetched.one sv trivial, less_step sv trivial, h4.step sv, ?_⟩
      obtain ⟨_, _, _, _, _, _, rfl⟩ := creatorWithdrawSurplus_ok sv
      exact Nat.one_ne_zero
    · exact ⟨w4, .refl _, .refl _, h4, g⟩
  have m5 : w5.pool.migrationProgress = 3 := l5.prog.trans m4
  obtain ⟨w6, f6, l6, h6, e6⟩ : ∃ v, Fetched w5 v ∧ Less w5 v ∧ Reachable v ∧ paMig v.cfg ≤ v.led.partnerMig := by
    by_cases g : w5.pool.migrationFeeStatus &&& 4 = 0
    · obtain ⟨v, sv, hv, -⟩ := (C14_shares_never_starved h5 (hdone _ h5 m5)).2.2.1 g
      refine ⟨v, Fetched.one sv trivial, less_step sv trivial, h5.step sv, ?_⟩
      rw [hv, partnerMigrationFee_eq, step_cfg sv]
    · refine ⟨w5, .refl _, .refl _, h5, ?_⟩
      have k := h5.life.paM
      rw [if_neg] at k
      · omega
      · rcases h5.life.status with e | e | e | e <;> rw [e] at g ⊢
        · exact absurd rfl g
        · exact absurd rfl g
        · decide
        · decide
  have m6 : w6.pool.migrationProgress = 3 := l6.prog.trans m5
  obtain ⟨w7, f7, l7, h7, e7⟩ : ∃ v, Fetched w6 v ∧ Less w6 v ∧ Reachable v ∧ crMig v.cfg ≤ v.led.creatorMig := by
    by_cases g : w6.pool.migrationFeeStatus &&& 2 = 0
    · obtain ⟨v, sv, hv, -⟩ := (C14_shares_never_starved h6 (hdone _ h6 m6)).2.2.2 g
      refine ⟨v, Fetched.one sv trivial, less_step sv trivial, h6.step sv, ?_⟩
      rw [hv, creatorMigrationFee_eq, step_cfg sv]
    · refine ⟨w6, .refl _, .refl _, h6, ?_⟩
      have k := h6.life.crM
      rw [if_neg] at k
      · omega
      · rcases h6.life.status with e | e | e | e <;> rw [e] at g ⊢
        · exact absurd rfl g
        · decide
        · exact absurd rfl g
        · decide
  have m7 : w7.pool.migrationProgress = 3 := l7.prog.trans m6
  have l37 := ((l4.trans l5).trans l6).trans l7
  have l07 := l03.trans l37
  have f07 := f03.trans (((f4.trans f5).trans f6).trans f7)
  have z1 := (l2.trans l3).trans l37
  have z2 := l3.trans l37
  have z4 := (l5.trans l6).trans l7
  have a1 := z1.rb; have a2 := z1.rq; have a3 := z1.mb; have a4 := z1.mq
  have a5 := z2.pb; have a6 := z2.pq
  have a7 := l37.cb; have a8 := l37.cq
  refine ⟨w7, f07, l07, by omega, by omega, by omega, by omega, by omega, by omega, by omega, by omega,
    z4.ps e4, (l6.trans l7).cs e5, z1.rs e1.2.2.2.2, ?_, e7⟩
  have := l7.pm
  rw [l7.cfg]
  omega

/-- C85: from every migrated state, if the protocol has an operator, the parties can fetch everything: there is a sequence of
claims and withdrawals after which nothing is owed in either token. The quote vault then holds the gifts of outsiders and what
the new pool left of the quote set aside for it, and the base vault is empty if the leftover had not been withdrawn. -/
theorem C85_fetch {w : World} (h : Reachable w) (hm : phase w = some .migrated) {s : Nat} (hp : HasPermission w s 0) :
    ∃ ops w', Run w ops w' ∧ (∀ op ∈ ops, Fetches op) ∧ (∀ t, owed w' t = 0) ∧
      vault w' .quote = gifts w .quote + unplaced w ∧
      (w.cfg.fixedSupplyFlag = 1 → w.pool.isWithdrawLeftover = 0 → vault w' .base = 0) := by
  have h3 : w.pool.migrationProgress = 3 := by
    have hc : w.pool.migrationProgress = 0 ∨ w.pool.migrationProgress = 1 ∨ w.pool.migrationProgress = 2 ∨
      w.pool.migrationProgress = 3 := by have := h.life.prog; omega
    unfold phase at hm
    rcases hc with e | e | e | e <;> rw [e] at hm
    case inr.inr.inr => exact e
    all_goals exact absurd hm (by decide)
  obtain ⟨w0, f0, l0, h0, p0, c0⟩ : ∃ v, Fetched w v ∧ Less w v ∧ Reachable v ∧ HasPermission v s 0 ∧
      (w.cfg.fixedSupplyFlag = 1 → w.pool.isWithdrawLeftover = 0 → Cleared v.led.donBase v) := by
    by_cases g : w.cfg.fixedSupplyFlag = 1 ∧ w.pool.isWithdrawLeftover = 0
    · obtain ⟨v, sv⟩ := (C14_others_never_starved h).1 hm g.1 g.2
      refine ⟨v, Fetched.one sv trivial, less_step sv trivial, h.step sv, ?_, fun _ _ => ?_⟩
      · obtain ⟨_, _, _, _, f, x, k1, k2, rfl⟩ := withdrawLeftover_ok sv
        exact hp
      · obtain ⟨_, hp, _, _, f, x, hf, hx, rfl⟩ := withdrawLeftover_ok sv
        exact ⟨hp, fun _ => rfl, Nat.le_refl _, by dsimp only; omega⟩
    · exact ⟨w, .refl _, .refl _, h, hp, fun x y => absurd ⟨x, y⟩ g⟩
  obtain ⟨w1, f1, l1, z1, z2, z3, z4, z5, z6, z7, z8, z9, z10, z11, z12, z13⟩ := fetch_rest h0 (l0.prog.trans h3) p0
  have l := l0.trans l1
  obtain ⟨ops, hr, hops⟩ := f0.trans f1
  have h1 := h.run hr
  have m1 : w1.pool.migrationProgress = 3 := l.prog.trans h3
  have hph : phase w1 = some .migrated := by unfold phase; rw [m1]; rfl
  have ob : owed w1 .base = 0 := by
    simp only [owed, owedBase, hph, fees, partnerFee, creatorFee, protocolFee]
    omega
  have oq : owed w1 .quote = 0 := by
    have k1 := h1.life.paS
    have k2 := h1.life.crS
    simp only [owed, owedQuote, hph, fees, partnerFee, creatorFee, protocolFee, owedQuote.rest]
    rw [partnerSurplus_eq, creatorSurplus_eq, partnerMigrationFee_eq, creatorMigrationFee_eq, if_neg z11]
    omega
  refine ⟨ops, w1, hr, hops, fun t => by cases t <;> assumption, ?_, fun g1 g2 => ?_⟩
  · have k := C85_quote h1
    have e1 : unplaced w1 = unplaced w := by
      unfold unplaced
      rw [hph, hm, l.lq, l.lp]
      unfold migrationQuote
      rw [l.cfg]
    have e2 : gifts w1 .quote = gifts w .quote := l.dq
    omega
  · obtain ⟨o1, r1, _⟩ := f1
    have k : Reachable w1 ∧ Cleared w0.led.donBase w1 :=
      r1.induct (P := fun w => Reachable w ∧ Cleared w0.led.donBase w) (fun _ _ _ k s => ⟨k.1.step s, k.2.step k.1 s⟩)
        ⟨h0, c0 g1 g2⟩
    have k4 := k.2.holds
    have d := l1.db
    show w1.baseVault = 0
    omega

/-! ### What the new pool leaves -/

/-- C85: what the new pool leaves of the quote set aside for it is fixed at migration. -/
theorem C85_unplaced_stays {w w' : World} {ops : List Op} (h : Reachable w) (hm : phase w = some .migrated) (hr : Run w ops w') :
    unplaced w' = unplaced w := by
  have h3 : w.pool.migrationProgress = 3 := by
    have hc : w.pool.migrationProgress = 0 ∨ w.pool.migrationProgress = 1 ∨ w.pool.migrationProgress = 2 ∨
      w.pool.migrationProgress = 3 := by have := h.life.prog; omega
    unfold phase at hm
    rcases hc with e | e | e | e <;> rw [e] at hm
    case inr.inr.inr => exact e
    all_goals exact absurd hm (by decide)
  have key : Reachable w' ∧ w'.pool.migrationProgress = 3 ∧ w'.cfg = w.cfg ∧ w'.led.migQuote = w.led.migQuote ∧
      w'.led.protoMigQuote = w.led.protoMigQuote := by
    refine hr.induct (P := fun v => Reachable v ∧ v.pool.migrationProgress = 3 ∧ v.cfg = w.cfg ∧
      v.led.migQuote = w.led.migQuote ∧ v.led.protoMigQuote = w.led.protoMigQuote) ?_ ⟨h, h3, rfl, rfl, rfl⟩
    rintro v op v' ⟨k1, k2, k3, k4, k5⟩ hs
    refine ⟨k1.step hs, ?_⟩
    rw [step_cfg hs]
    have hst := k1.life.start
    have hk := hs
    cases_step op hs
    case swap a =>
      obtain ⟨_, fm, r, _, _, s⟩ := swap_ok hk
      have := s.incomplete
      omega
    all_goals first
      | exact ⟨k2, k3, k4, k5⟩
      | (dsimp only; omega)
  have hp : phase w' = some .migrated := by unfold phase; rw [key.2.1]; rfl
  unfold unplaced
  rw [hp, hm, key.2.2.2.1, key.2.2.2.2]
  unfold migrationQuote
  rw [key.2.2.1]

/-- C85: a migration leaves the quote for the new pool minus what the new pool takes; the parties to DAMM v1 are given all of
it, so that nothing is left if the new pool takes what it is given. -/
theorem C85_unplaced {w w' : World} (h : Reachable w) :
    (∀ a, w.step (.migrateV1 a) = .ok w' → unplaced w' + a.quoteTaken = quoteForPool w ∧
      ∃ d b, w'.newPool = some (.v1 d b (quoteForPool w))) ∧
    (∀ a, w.step (.migrateV2 a) = .ok w' → unplaced w' + (a.quote1 + a.quote2) = quoteForPool w) := by
  have fin : w'.pool.migrationProgress = 3 → unplaced w' = migrationQuote w' - (w'.led.migQuote + w'.led.protoMigQuote) := by
    intro e
    have hp : phase w' = some .migrated := by unfold phase; rw [e]; rfl
    unfold unplaced
    rw [if_pos hp]
  refine ⟨fun a hs => ?_, fun a hs => ?_⟩
  · have hpl := placed (h.step hs)
    rw [← migrationQuote_eq] at hpl
    have ecfg : migrationQuote w' = migrationQuote w := by unfold migrationQuote; rw [step_cfg hs]
    obtain ⟨md, m, md', burn, f, h1, h2, h3, h4, hma, g6, g7, -, -, -, -, -, -, -, e⟩ := migrateV1_ok hs
    obtain ⟨-, -, -, n1, -, n2, -⟩ := h.life.notYet (by omega)
    obtain ⟨q1, q2, -, -, -⟩ := amounts_fees h h2 (by rw [h4]; rfl) hma
    have e1 := fin (by rw [e])
    have e2 : w'.led.migQuote = w.led.migQuote + a.quoteTaken := by rw [e]
    have e3 : w'.led.protoMigQuote = w.led.protoMigQuote + m.quoteFee := by rw [e]
    have eq : m.exQuote = quoteForPool w := by unfold quoteForPool; omega
    refine ⟨?_, a.config, m.exBase, by rw [e, eq]⟩
    omega
  · have hpl := placed (h.step hs)
    rw [← migrationQuote_eq] at hpl
    have ecfg : migrationQuote w' = migrationQuote w := by unfold migrationQuote; rw [step_cfg hs]
    obtain ⟨hd, m, burn, fee, price, liq, dead, pa, cr, first, second, liq2, out, rfl, h1, h2, h3, h4, hma, -, hi, hdist, hord,
      -, -, -, -, hl2, ⟨rest, t1, lock, hrest, ht1, hlock, -, hout, hcp, -⟩, -, -, -, -, e⟩ := migrateV2_ok hs
    obtain ⟨-, -, -, n1, -, n2, -⟩ := h.life.notYet (by omega)
    obtain ⟨q1, q2, -, -, -⟩ := amounts_fees h h2 (by rw [h4]) hma
    have e1 := fin (by rw [e])
    have e2 : w'.led.migQuote = w.led.migQuote + (a.quote1 + a.quote2) := by rw [e]
    have e3 : w'.led.protoMigQuote = w.led.protoMigQuote + m.quoteFee := by rw [e]
    have eq : m.exQuote = quoteForPool w := by unfold quoteForPool; omega
    omega

theorem rest_small {D K N PM L l1 l2 b q b1 q1 q2 : Nat} (hK : 0 < K) (hD2 : 2 * D ≤ K)
    (hL : q * K < (L + 1) * D) (hb : L * N ≤ b * PM) (hb1 : b1 * PM < l1 * N + PM) (hq1 : l1 * D ≤ q1 * K)
    (hq2 : l2 * D ≤ q2 * K) (hnot : (b - b1) * PM < (l2 + 1) * N ∨ (q - q1) * K < (l2 + 1) * D) :
    ∃ k, k * N ≤ PM ∧ (q - q1 - q2) * K < k * D + K := by
  rcases hnot with g | g
  · refine ⟨L - l1 - l2 - 1, ?_, ?_⟩
    · rw [Nat.sub_mul, Nat.sub_mul, Nat.sub_mul]
      rw [Nat.sub_mul, Nat.add_mul] at g
      omega
    · rw [Nat.sub_mul, Nat.sub_mul]
      rw [Nat.add_mul] at hL
      rcases Nat.lt_or_ge (l1 + l2) L with c | c
      · obtain ⟨k, rfl⟩ := Nat.exists_eq_add_of_lt c
        rw [show l1 + l2 + k + 1 - l1 - l2 - 1 = k by omega]
        rw [show (l1 + l2 + k + 1) * D = l1 * D + l2 * D + k * D + D by ring] at hL
        omega
      · have := Nat.mul_le_mul_right D c
        rw [Nat.add_mul] at this
        have : 0 ≤ (L - l1 - l2 - 1) * D := Nat.zero_le _
        omega
  · refine ⟨0, by omega, ?_⟩
    rw [Nat.sub_mul]
    rw [Nat.add_mul] at g
    omega

/-- C85: at a migration to a concentrated DAMM v2 pool that takes exactly the tokens its formulas ask for, the quote left is at
most what goes with some liquidity that takes no more than one unit of base. -/
theorem C85_unplaced_concentrated {w w' : World} {a : V2Args} (h : Reachable w) (hs : w.step (.migrateV2 a) = .ok w')
    (hc : ¬Compounds w.cfg)
    (h1 : ∀ np price liq, w'.newPool = some np → opening np = some (price, liq) →
      (a.base1, a.quote1) = concentratedNeeds price liq)
    (h2 : ∀ np price liq, w'.newPool = some np → opening np = some (price, liq) →
      (a.base2, a.quote2) = concentratedNeeds price ((w'.positions.drop 1).map (·.liquidity)).sum) :
    ∃ k, (concentratedNeeds w.cfg.migrationSqrtPrice k).1 ≤ 1 ∧
      unplaced w' ≤ (concentratedNeeds w.cfg.migrationSqrtPrice k).2 := by
  have hu := (C85_unplaced h).2 a hs
  obtain ⟨hd, m, burn, fee, price, liq, dead, pa, cr, first, second, liq2, out, rfl, _, p2, p3, p4, hma, -, hi, hdist, hord,
    -, -, g3, g4, hl2, ⟨rest, t1, lock, hrest, ht1, hlock, -, hout, hcp, -⟩, -, -, -, -, e⟩ := migrateV2_ok hs
  obtain ⟨q1, q2, -, -, -⟩ := amounts_fees h p2 (by rw [p4]) hma
  have eq : m.exQuote = quoteForPool w := by unfold quoteForPool; omega
  obtain ⟨es, ed, el, hmin⟩ := (info_of h p2 p4 hma hi).2 hc
  obtain ⟨rfl, rfl, hsum⟩ := distribution_planned hdist
  obtain ⟨f, rfl, rfl, hle, hlt⟩ := order_planned hord
  have hh := (handler_eq p4).2 hc
  rw [hh] at hl2 hi
  obtain ⟨-, -, c2, -⟩ := C44_concentrated hi
  obtain ⟨-, n2⟩ := C44_second_concentrated hl2
  have hmax : w.cfg.migrationSqrtPrice < MAX_SQRT_PRICE := (concentratedLiquidity_ok hl2).2.1
  have hop : opening out.2 = some (price, t1 + dead) := by
    unfold createPoolV2 at hcp
    split at hcp
    · simp only [bind_ok, ok_inj] at hcp
      obtain ⟨_, -, _, -, eo⟩ := hcp
      rw [← eo]
      rfl
    · rw [ok_inj] at hcp
      rw [← hcp]
      rfl
  have hnp : w'.newPool = some out.2 := by rw [e]
  have h1 := h1 _ _ _ hnp hop
  have h2 := h2 _ _ _ hnp hop
  have hpos : ((w'.positions.drop 1).map (·.liquidity)).sum = liq2 := by
    rw [show w'.positions = out.1 by rw [e], hout]
    unfold secondPosition at hrest
    split at hrest
    · simp only [bind_ok, req_ok, ok_inj] at hrest
      obtain ⟨j, hj, _, -, lk, hlk, rfl⟩ := hrest
      simp
    · next hpos =>
      simp only [bind_ok, req_ok, ok_inj] at hrest
      obtain ⟨_, -, rfl⟩ := hrest
      simp only [List.drop_succ_cons, List.drop_zero, List.map_nil, List.sum_nil]
      omega
  rw [hpos] at h2
  rw [es] at h1 h2 c2
  rw [ed, Nat.add_zero] at h1
  clear e hi hma hl2 hcp hrest hlock hout hdist hord hop hnp
  generalize w.cfg.migrationSqrtPrice = p at *
  have hMM : MAX_SQRT_PRICE * 2 ≤ 2 ^ 128 := by decide +kernel
  have hPM : 0 < p * MAX_SQRT_PRICE := Nat.mul_pos (by omega) (by omega)
  have hK : 0 < 2 ^ 128 := by positivity
  have hMpos : p * MAX_SQRT_PRICE ≠ 0 := by omega
  simp only [concentratedNeeds, Fits, ceilDiv_eq hMpos, ceilDiv_eq (Nat.ne_of_gt hK), Prod.mk.injEq] at h1 h2 c2 n2 ⊢
  rw [← eq] at el hu
  generalize hD : p - MIN_SQRT_PRICE = D at *
  generalize MAX_SQRT_PRICE - p = N at *
  generalize p * MAX_SQRT_PRICE = PM at *
  have hD2 : 2 * D ≤ 2 ^ 128 := by omega
  generalize 2 ^ 128 = K at *
  have hDpos : 0 < D := by omega
  obtain ⟨k, k1, k2⟩ := rest_small (D := D) (K := K) (N := N) (PM := PM) (L := liq) (l1 := t1) (l2 := liq2) (b := m.exBase)
    (q := m.exQuote) (b1 := a.base1) (q1 := a.quote1) (q2 := a.quote2) hK hD2
    (by rw [el, Nat.mul_comm (_ + 1)]; exact Nat.lt_mul_div_succ _ hDpos)
    ((divCeil_le_iff hPM).1 c2.1) (by rw [h1.1]; exact divCeil_mul_lt _ hPM) (by rw [h1.2]; exact le_divCeil_mul _ hK)
    (by rw [h2.2]; exact le_divCeil_mul _ hK)
    (by
      by_contra hn
      rw [not_or, Nat.not_lt, Nat.not_lt] at hn
      exact n2 ⟨(divCeil_le_iff hPM).2 hn.1, (divCeil_le_iff hK).2 hn.2⟩)
  refine ⟨k, (divCeil_le_iff hPM).2 (by omega), ?_⟩
  have hun : unplaced w' = m.exQuote - a.quote1 - a.quote2 := by omega
  rw [hun]
  generalize m.exQuote - a.quote1 - a.quote2 = r at *
  rcases Nat.eq_zero_or_pos r with rfl | hr
  · exact Nat.zero_le _
  · obtain ⟨r, rfl⟩ := Nat.exists_eq_add_of_lt hr
    rw [Nat.zero_add] at *
    refine (lt_divCeil_iff hK).2 ?_
    rw [Nat.add_mul] at k2
    omega

end Props

namespace Ex

/-- A migration to a concentrated pool that takes exactly the tokens its formulas ask for, twice. -/
def v2Bexact : Dbc.V2Args := { v2B with base2 := 155937500221075, quote2 := 3991999999999 }

end Ex

namespace Props
open Dbc Spec

/-- Pools that trade, have migrated and are empty, with gifts in both tokens; a migration that leaves quote and one that
leaves none; a gift after the last base token was set free. -/
theorem C85_example :
    (Reachable Ex.tradingA ∧ phase Ex.tradingA = some .trading ∧ gifts Ex.tradingA .base = 77 ∧ gifts Ex.tradingA .quote = 88) ∧
    (Reachable Ex.migratedA ∧ phase Ex.migratedA = some .migrated ∧ HasPermission Ex.migratedA 31 0 ∧
      0 < owed Ex.migratedA .base ∧ 0 < owed Ex.migratedA .quote ∧ Ex.migratedA.cfg.fixedSupplyFlag = 1 ∧
      Ex.migratedA.pool.isWithdrawLeftover = 0) ∧
    (∃ w1 w2, Reachable Ex.migratedA ∧ Ex.migratedA.step (.withdrawLeftover 12) = .ok w1 ∧
      ClearsBase Ex.migratedA (.withdrawLeftover 12) ∧ Run w1 [.donate 5 0 0] w2 ∧ gifts w1 .base = 77 ∧ gifts w2 .base = 82) ∧
    (∃ w1, Reachable Ex.readyB ∧ Ex.readyB.step (.migrateV2 Ex.v2B) = .ok w1 ∧ ClearsBase Ex.readyB (.migrateV2 Ex.v2B) ∧
      unplaced w1 = 9) ∧
    (∃ w1, Reachable Ex.readyB ∧ Ex.readyB.step (.migrateV2 Ex.v2Bexact) = .ok w1 ∧ ¬Compounds Ex.readyB.cfg ∧ unplaced w1 = 0 ∧
      (∀ np price liq, w1.newPool = some np → opening np = some (price, liq) →
        (Ex.v2Bexact.base1, Ex.v2Bexact.quote1) = concentratedNeeds price liq) ∧
      (∀ np price liq, w1.newPool = some np → opening np = some (price, liq) →
        (Ex.v2Bexact.base2, Ex.v2Bexact.quote2) = concentratedNeeds price ((w1.positions.drop 1).map (·.liquidity)).sum)) := by
  refine ⟨⟨Ex.reachTradingA, by decide +kernel, by decide +kernel, by decide +kernel⟩,
    ⟨Ex.reachMigratedA, by decide +kernel, ⟨⟨31, 3⟩, by decide +kernel, rfl, by decide⟩, by decide +kernel, by decide +kernel,
      by decide +kernel, by decide +kernel⟩,
    ⟨(Ex.migratedA.step (.withdrawLeftover 12)).toOption.getD Ex.migratedA,
      (((Ex.migratedA.step (.withdrawLeftover 12)).toOption.getD Ex.migratedA).step (.donate 5 0 0)).toOption.getD Ex.migratedA,
      Ex.reachMigratedA, by decide +kernel, trivial, Run.single (by decide +kernel), by decide +kernel, by decide +kernel⟩,
    ⟨(Ex.readyB.step (.migrateV2 Ex.v2B)).toOption.getD Ex.readyB, Ex.reachCompleteB, by decide +kernel,
      (by decide +kernel : Ex.readyB.cfg.fixedSupplyFlag ≠ 1), by decide +kernel⟩,
    ⟨(Ex.readyB.step (.migrateV2 Ex.v2Bexact)).toOption.getD Ex.readyB, Ex.reachCompleteB, by decide +kernel, by decide +kernel,
      by decide +kernel, ?_, ?_⟩⟩
  all_goals
    intro np price liq hnp hop
    have e : ((Ex.readyB.step (.migrateV2 Ex.v2Bexact)).toOption.getD Ex.readyB).newPool.bind opening =
        some (2951479051793528258, 690369397963218545814256516212718) := by decide +kernel
    rw [hnp, Option.bind_some, hop, Option.some.injEq, Prod.mk.injEq] at e
    rw [e.1]
  · rw [e.2]
    decide +kernel
  · decide +kernel

end Props

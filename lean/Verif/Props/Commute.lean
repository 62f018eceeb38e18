import Verif.Props.Owed
import Verif.Props.Shares

/-!
C79: the order in which the parties are paid does not matter.
-/

namespace Props
open Dbc Spec

/-! ### Specification -/

/-- What is paid out of a pool, by who it is due to and for what. -/
inductive Due
  | partnerFees | creatorFees | protocolFees
  | partnerSurplus | creatorSurplus
  | partnerMigrationFee | creatorMigrationFee
  | partnerCreationFee | protocolCreationFee
  | leftover
  deriving DecidableEq, Repr

/-- The due an operation pays, if it is a payment. The protocol may fetch its fees in two ways. -/
def dueOf : Op → Option Due
  | .claimPartnerFee .. => some .partnerFees
  | .claimCreatorFee .. => some .creatorFees
  | .claimProtocolFee .. => some .protocolFees
  | .zapProtocolFee .. => some .protocolFees
  | .partnerWithdrawSurplus .. => some .partnerSurplus
  | .creatorWithdrawSurplus .. => some .creatorSurplus
  | .withdrawMigrationFee _ 0 => some .partnerMigrationFee
  | .withdrawMigrationFee _ 1 => some .creatorMigrationFee
  | .claimPartnerCreationFee .. => some .partnerCreationFee
  | .claimProtocolCreationFee .. => some .protocolCreationFee
  | .withdrawLeftover .. => some .leftover
  | _ => none

/-! ### Closed forms -/

/-- What the protocol's quote claim takes besides fees, and the flag it leaves. -/
def extraOf (flag most reserve : Nat) : Nat := if flag = 0 ∧ most ≤ reserve then protoPart (reserve - most) else 0
def flagOf (flag most reserve : Nat) : Nat := if flag = 0 ∧ most ≤ reserve then 1 else flag
def extra (w : World) : Nat := extraOf w.pool.protocolSurplus w.cfg.migrationQuoteThreshold w.pool.quoteReserve
def extraFlag (w : World) : Nat := flagOf w.pool.protocolSurplus w.cfg.migrationQuoteThreshold w.pool.quoteReserve

theorem extra_of {w : World} {e f : Nat}
    (h : (w.pool.protocolSurplus = 0 ∧ w.cfg.migrationQuoteThreshold ≤ w.pool.quoteReserve ∧ f = 1 ∧
          e = protoPart (w.pool.quoteReserve - w.cfg.migrationQuoteThreshold)) ∨
       (¬ (w.pool.protocolSurplus = 0 ∧ w.cfg.migrationQuoteThreshold ≤ w.pool.quoteReserve) ∧
          f = w.pool.protocolSurplus ∧ e = 0)) : e = extra w ∧ f = extraFlag w := by
  unfold extra extraFlag extraOf flagOf
  rcases h with ⟨h1, h2, rfl, rfl⟩ | ⟨h, rfl, rfl⟩
  · rw [if_pos ⟨h1, h2⟩, if_pos ⟨h1, h2⟩]; exact ⟨rfl, rfl⟩
  · rw [if_neg h, if_neg h]; exact ⟨rfl, rfl⟩

/-- Taking protocol fees of the base token up to `m`. -/
def takeBase (w : World) (m : Nat) : World :=
  let a := min w.pool.protocolBaseFee m
  let b := min w.pool.protocolMigBaseFee (m - a)
  { w with
    pool := { w.pool with
      protocolBaseFee := w.pool.protocolBaseFee - a, protocolMigBaseFee := w.pool.protocolMigBaseFee - b }
    baseVault := w.baseVault - (a + b)
    led := { w.led with paidProtocolBase := w.led.paidProtocolBase + (a + b) } }

/-- Taking protocol fees of the quote token up to `m`. -/
def takeQuote (w : World) (m : Nat) : World :=
  let c := min w.pool.protocolQuoteFee m
  let d := min w.pool.protocolMigQuoteFee (m - c)
  { w with
    pool := { w.pool with
      protocolQuoteFee := w.pool.protocolQuoteFee - c, protocolMigQuoteFee := w.pool.protocolMigQuoteFee - d,
      protocolSurplus := extraFlag w }
    quoteVault := w.quoteVault - (c + d + extra w)
    led := { w.led with paidProtocolQuote := w.led.paidProtocolQuote + (c + d + extra w) } }

/-- What the protocol's claim of creation fees takes, and the flags it leaves. -/
def first (bits fee : Nat) : Nat := if bits &&& 1 = 0 then fee else 0
def firstMark (bits : Nat) : Nat := if bits &&& 1 = 0 then bits ^^^ 1 else bits
def second (bits : Nat) : Nat := if bits &&& 1 ≠ 0 ∧ bits &&& 2 = 0 then LEGACY_CREATION_FEE else 0
def secondMark (bits : Nat) : Nat := if bits &&& 1 ≠ 0 ∧ bits &&& 2 = 0 then bits ^^^ 2 else bits
def firstCreation (w : World) : Nat := first w.pool.creationBits (prCreation w.cfg)
def secondCreation (w : World) : Nat := second w.pool.legacyCreationBits
def firstBits (w : World) : Nat := firstMark w.pool.creationBits
def secondBits (w : World) : Nat := secondMark w.pool.legacyCreationBits

/-- The world after a payment. -/
def pay (w : World) : Op → World
  | .claimPartnerFee _ mb mq =>
    let a := min w.pool.partnerBaseFee mb
    let b := min w.pool.partnerQuoteFee mq
    { w with
        pool := { w.pool with
          partnerBaseFee := w.pool.partnerBaseFee - a, partnerQuoteFee := w.pool.partnerQuoteFee - b }
        baseVault := w.baseVault - a, quoteVault := w.quoteVault - b
        led := { w.led with paidPartnerBase := w.led.paidPartnerBase + a
                            paidPartnerQuote := w.led.paidPartnerQuote + b } }
  | .claimCreatorFee _ mb mq =>
    let a := min w.pool.creatorBaseFee mb
    let b := min w.pool.creatorQuoteFee mq
    { w with
        pool := { w.pool with
          creatorBaseFee := w.pool.creatorBaseFee - a, creatorQuoteFee := w.pool.creatorQuoteFee - b }
        baseVault := w.baseVault - a, quoteVault := w.quoteVault - b
        led := { w.led with paidCreatorBase := w.led.paidCreatorBase + a
                            paidCreatorQuote := w.led.paidCreatorQuote + b } }
  | .claimProtocolFee _ mb mq => takeQuote (takeBase w mb) mq
  | .zapProtocolFee _ m true _ _ => takeBase w m
  | .zapProtocolFee _ m false _ _ => takeQuote w m
  | .partnerWithdrawSurplus _ =>
    let x := paSurplus w.cfg (w.pool.quoteReserve - w.cfg.migrationQuoteThreshold)
    { w with pool := { w.pool with partnerSurplus := 1 }, quoteVault := w.quoteVault - x,
             led := { w.led with partnerSurplus := w.led.partnerSurplus + x } }
  | .creatorWithdrawSurplus _ =>
    let x := crSurplus w.cfg (w.pool.quoteReserve - w.cfg.migrationQuoteThreshold)
    { w with pool := { w.pool with creatorSurplus := 1 }, quoteVault := w.quoteVault - x,
             led := { w.led with creatorSurplus := w.led.creatorSurplus + x } }
  | .withdrawMigrationFee _ 0 =>
    { w with pool := { w.pool with migrationFeeStatus := w.pool.migrationFeeStatus ^^^ 4 },
             quoteVault := w.quoteVault - paMig w.cfg,
             led := { w.led with partnerMig := w.led.partnerMig + paMig w.cfg } }
  | .withdrawMigrationFee _ 1 =>
    { w with pool := { w.pool with migrationFeeStatus := w.pool.migrationFeeStatus ^^^ 2 },
             quoteVault := w.quoteVault - crMig w.cfg,
             led := { w.led with creatorMig := w.led.creatorMig + crMig w.cfg } }
  | .claimPartnerCreationFee _ =>
    { w with pool := { w.pool with creationBits := w.pool.creationBits ^^^ 2 },
             lamports := w.lamports - paCreation w.cfg,
             led := { w.led with lamportsPartner := w.led.lamportsPartner + paCreation w.cfg } }
  | .claimProtocolCreationFee _ =>
    { w with pool := { w.pool with creationBits := firstBits w, legacyCreationBits := secondBits w },
             lamports := w.lamports - (firstCreation w + secondCreation w),
             led := { w.led with lamportsProtocol := w.led.lamportsProtocol + (firstCreation w + secondCreation w) } }
  | .withdrawLeftover _ =>
    let f := w.pool.partnerBaseFee + w.pool.protocolBaseFee + w.pool.creatorBaseFee + w.pool.protocolMigBaseFee
    { w with pool := { w.pool with isWithdrawLeftover := 1 }, baseVault := f,
             led := { w.led with leftover := w.led.leftover + (w.baseVault - f) } }
  | _ => w

/-- When a payment can be made. -/
def May (w : World) : Op → Prop
  | .claimPartnerFee s _ _ => w.cfg.feeClaimer = s
  | .claimCreatorFee s _ _ => w.pool.creator = s
  | .claimProtocolFee s _ _ => HasPermission w s 0
  | .zapProtocolFee s m true al zo =>
    HasPermission w s 1 ∧ al = true ∧ zo = true ∧ 0 < min m (w.pool.protocolBaseFee + w.pool.protocolMigBaseFee)
  | .zapProtocolFee s m false al zo =>
    HasPermission w s 1 ∧ al = true ∧ zo = true ∧
      0 < min m (w.pool.protocolQuoteFee + w.pool.protocolMigQuoteFee) + extra w
  | .partnerWithdrawSurplus s =>
    w.cfg.feeClaimer = s ∧ w.cfg.migrationQuoteThreshold ≤ w.pool.quoteReserve ∧ w.pool.partnerSurplus = 0
  | .creatorWithdrawSurplus s =>
    w.pool.creator = s ∧ w.cfg.migrationQuoteThreshold ≤ w.pool.quoteReserve ∧ w.pool.creatorSurplus = 0
  | .withdrawMigrationFee s 0 =>
    w.cfg.feeClaimer = s ∧ w.cfg.migrationQuoteThreshold ≤ w.pool.quoteReserve ∧ w.pool.migrationFeeStatus &&& 4 = 0
  | .withdrawMigrationFee s 1 =>
    w.pool.creator = s ∧ w.cfg.migrationQuoteThreshold ≤ w.pool.quoteReserve ∧ w.pool.migrationFeeStatus &&& 2 = 0
  | .claimPartnerCreationFee s => w.cfg.feeClaimer = s ∧ 0 < paCreation w.cfg ∧ w.pool.creationBits &&& 2 = 0
  | .claimProtocolCreationFee s => HasPermission w s 0
  | .withdrawLeftover r =>
    r = w.cfg.leftoverReceiver ∧ w.pool.migrationProgress = 3 ∧ w.cfg.fixedSupplyFlag = 1 ∧ w.pool.isWithdrawLeftover = 0
  | _ => False

/-- The payments. -/
theorem due_cases {P : Op → Prop} {op : Op} (hd : (dueOf op).isSome)
    (h1 : ∀ s mb mq, P (.claimPartnerFee s mb mq)) (h2 : ∀ s mb mq, P (.claimCreatorFee s mb mq))
    (h3 : ∀ s mb mq, P (.claimProtocolFee s mb mq)) (h4 : ∀ s m al zo, P (.zapProtocolFee s m true al zo))
    (h5 : ∀ s m al zo, P (.zapProtocolFee s m false al zo)) (h6 : ∀ s, P (.partnerWithdrawSurplus s))
    (h7 : ∀ s, P (.creatorWithdrawSurplus s)) (h8 : ∀ s, P (.withdrawMigrationFee s 0))
    (h9 : ∀ s, P (.withdrawMigrationFee s 1)) (h10 : ∀ s, P (.claimPartnerCreationFee s))
    (h11 : ∀ s, P (.claimProtocolCreationFee s)) (h12 : ∀ s, P (.withdrawLeftover s)) : P op := by
  cases op with
  | claimPartnerFee s mb mq => exact h1 ..
  | claimCreatorFee s mb mq => exact h2 ..
  | claimProtocolFee s mb mq => exact h3 ..
  | zapProtocolFee s m ib al zo => cases ib <;> first | exact h4 .. | exact h5 ..
  | partnerWithdrawSurplus s => exact h6 _
  | creatorWithdrawSurplus s => exact h7 _
  | withdrawMigrationFee s f =>
    match f, hd with
    | 0, _ => exact h8 _
    | 1, _ => exact h9 _
  | claimPartnerCreationFee s => exact h10 _
  | claimProtocolCreationFee s => exact h11 _
  | withdrawLeftover s => exact h12 _
  | _ => cases hd

/-- A payment that is made has the effect of its closed form. -/
theorem paid_is {w w' : World} {op : Op} (hd : (dueOf op).isSome) (hs : w.step op = .ok w') : May w op ∧ w' = pay w op := by
  revert hs
  refine due_cases (P := fun op => w.step op = .ok w' → May w op ∧ w' = pay w op) hd ?_ ?_ ?_ ?_ ?_ ?_ ?_ ?_ ?_ ?_ ?_ ?_
  · intro s mb mq hs
    obtain ⟨h, a, b, rfl, rfl, _, _, rfl⟩ := claimPartnerFee_ok hs
    exact ⟨h, rfl⟩
  · intro s mb mq hs
    obtain ⟨h, a, b, rfl, rfl, _, _, rfl⟩ := claimCreatorFee_ok hs
    exact ⟨h, rfl⟩
  · intro s mb mq hs
    obtain ⟨h, a, b, c, d, e, f, rfl, rfl, rfl, rfl, hx, _, _, rfl⟩ := claimProtocolFee_ok hs
    obtain ⟨rfl, rfl⟩ := extra_of hx
    exact ⟨h, rfl⟩
  · intro s m al zo hs
    obtain ⟨h, ha, hz, ⟨_, a, b, rfl, rfl, h0, _, rfl⟩ | ⟨hb, _⟩⟩ := zapProtocolFee_ok hs
    · exact ⟨⟨h, ha, hz, by omega⟩, rfl⟩
    · cases hb
  · intro s m al zo hs
    obtain ⟨h, ha, hz, ⟨hb, _⟩ | ⟨_, c, d, e, f, rfl, rfl, hx, h0, _, rfl⟩⟩ := zapProtocolFee_ok hs
    · cases hb
    · obtain ⟨rfl, rfl⟩ := extra_of hx
      exact ⟨⟨h, ha, hz, by omega⟩, rfl⟩
  · intro s hs
    obtain ⟨h1, h2, h3, x, rfl, _, rfl⟩ := partnerWithdrawSurplus_ok hs
    exact ⟨⟨h1, h2, h3⟩, rfl⟩
  · intro s hs
    obtain ⟨h1, h2, h3, x, rfl, _, rfl⟩ := creatorWithdrawSurplus_ok hs
    exact ⟨⟨h1, h2, h3⟩, rfl⟩
  · intro s hs
    obtain ⟨h1, ⟨_, h2, h3, _, rfl⟩ | ⟨h, _⟩⟩ := withdrawMigrationFee_ok (w := w) (s := s) (f := 0) hs
    · exact ⟨⟨h2.symm, h1, h3⟩, rfl⟩
    · cases h
  · intro s hs
    obtain ⟨h1, ⟨h, _⟩ | ⟨_, h2, h3, _, rfl⟩⟩ := withdrawMigrationFee_ok (w := w) (s := s) (f := 1) hs
    · cases h
    · exact ⟨⟨h2.symm, h1, h3⟩, rfl⟩
  · intro s hs
    obtain ⟨h1, h2, h3, _, rfl⟩ := claimPartnerCreationFee_ok hs
    exact ⟨⟨h1, h2, h3⟩, rfl⟩
  · intro s hs
    obtain ⟨h, a, b, bits, leg, h1, h2, _, rfl⟩ := claimProtocolCreationFee_ok hs
    refine ⟨h, ?_⟩
    have e1 : a = firstCreation w ∧ bits = firstBits w := by
      unfold firstCreation firstBits first firstMark
      rcases h1 with ⟨g, rfl, rfl⟩ | ⟨g, rfl, rfl⟩
      · rw [if_pos g, if_pos g]; exact ⟨rfl, rfl⟩
      · rw [if_neg g, if_neg g]; exact ⟨rfl, rfl⟩
    have e2 : b = secondCreation w ∧ leg = secondBits w := by
      unfold secondCreation secondBits second secondMark
      rcases h2 with ⟨g, g', rfl, rfl⟩ | ⟨g, rfl, rfl⟩
      · rw [if_pos ⟨g, g'⟩, if_pos ⟨g, g'⟩]; exact ⟨rfl, rfl⟩
      · rw [if_neg g, if_neg g]; exact ⟨rfl, rfl⟩
    obtain ⟨rfl, rfl⟩ := e1
    obtain ⟨rfl, rfl⟩ := e2
    rfl
  · intro s hs
    obtain ⟨h1, h2, h3, h4, f, x, rfl, hx, rfl⟩ := withdrawLeftover_ok hs
    refine ⟨⟨h1, h2, h3, h4⟩, ?_⟩
    have : x = w.baseVault - (w.pool.partnerBaseFee + w.pool.protocolBaseFee + w.pool.creatorBaseFee +
      w.pool.protocolMigBaseFee) := by omega
    subst this
    rfl

/-- In a reachable state whatever may be paid can be paid. -/
theorem may_pay {w : World} {op : Op} (h : Reachable w) (hd : (dueOf op).isSome) (hm : May w op) :
    w.step op = .ok (pay w op) := by
  suffices hx : ∃ w', w.step op = .ok w' by
    obtain ⟨w', e⟩ := hx
    rw [e, (paid_is hd e).2]
  revert hm
  obtain ⟨ps, hc⟩ := h.core
  have l := h.life
  have g1 := hc.good.creatorPct
  have g2 := hc.good.migFee
  have g3 := hc.good.migCreator
  refine due_cases (P := fun op => May w op → ∃ w', w.step op = .ok w') hd ?_ ?_ ?_ ?_ ?_ ?_ ?_ ?_ ?_ ?_ ?_ ?_
  · intro s mb mq hm
    exact claimPartnerFee_succeeds h.funds hm
  · intro s mb mq hm
    exact claimCreatorFee_succeeds h.funds hm
  · intro s mb mq hm
    exact claimProtocolFee_succeeds h.funds hm
  · rintro s m al zo ⟨hp, rfl, rfl, h0⟩
    exact zapProtocolFee_succeeds h.funds hp (by simpa only [if_true] using h0)
  · rintro s m al zo ⟨hp, rfl, rfl, h0⟩
    refine zapProtocolFee_succeeds h.funds hp ?_
    rw [if_neg (by decide)]
    exact h0
  · rintro s ⟨h1, h2, h3⟩
    exact partnerWithdrawSurplus_succeeds h.funds g1 h1 h2 h3
  · rintro s ⟨h1, h2, h3⟩
    exact creatorWithdrawSurplus_succeeds h.funds g1 h1 h2 h3
  · rintro s ⟨h1, h2, h3⟩
    exact withdrawMigrationFee_partner h.funds (by omega) g3 h1.symm h2 h3 (bit4 l.status h3).2
  · rintro s ⟨h1, h2, h3⟩
    exact withdrawMigrationFee_creator h.funds (by omega) g3 h1.symm h2 h3 (bit2 l.status h3).2
  · rintro s ⟨h1, h2, h3⟩
    exact claimPartnerCreationFee_succeeds l h.creationFee h1 h2 h3
  · intro s hm
    exact claimProtocolCreationFee_succeeds l h.creationFee hm
  · rintro s ⟨h1, h2, h3, h4⟩
    exact withdrawLeftover_succeeds h.funds h1 h2 h3 h4

theorem xor_and_ne {x m n : Nat} (h : m &&& n = 0) : (x ^^^ m) &&& n = x &&& n := by
  rw [Nat.and_xor_distrib_right, h, Nat.xor_zero]

/-- The payments one by one. -/
inductive Pays : Op → Prop
  | a (s mb mq) : Pays (.claimPartnerFee s mb mq)
  | b (s mb mq) : Pays (.claimCreatorFee s mb mq)
  | c (s mb mq) : Pays (.claimProtocolFee s mb mq)
  | d (s m al zo) : Pays (.zapProtocolFee s m true al zo)
  | e (s m al zo) : Pays (.zapProtocolFee s m false al zo)
  | f (s) : Pays (.partnerWithdrawSurplus s)
  | g (s) : Pays (.creatorWithdrawSurplus s)
  | h (s) : Pays (.withdrawMigrationFee s 0)
  | i (s) : Pays (.withdrawMigrationFee s 1)
  | j (s) : Pays (.claimPartnerCreationFee s)
  | k (s) : Pays (.claimProtocolCreationFee s)
  | l (s) : Pays (.withdrawLeftover s)

theorem pays_of {op : Op} (h : (dueOf op).isSome) : Pays op :=
  due_cases h .a .b .c .d .e .f .g .h .i .j .k .l

theorem xor_swap {x m n : Nat} : x ^^^ m ^^^ n = x ^^^ n ^^^ m := by
  rw [Nat.xor_assoc, Nat.xor_comm m n, ← Nat.xor_assoc]

theorem firstMark_and {x : Nat} : firstMark x &&& 2 = x &&& 2 := by
  unfold firstMark
  split
  · exact xor_and_ne (show 1 &&& 2 = 0 from rfl)
  · rfl

theorem first_xor {x y : Nat} : first (x ^^^ 2) y = first x y := by
  unfold first
  rw [xor_and_ne (show 2 &&& 1 = 0 from rfl)]

theorem firstMark_xor {x : Nat} : firstMark (x ^^^ 2) = firstMark x ^^^ 2 := by
  unfold firstMark
  rw [xor_and_ne (show 2 &&& 1 = 0 from rfl)]
  split
  · exact xor_swap
  · rfl

theorem may_other {w : World} {a b : Op} (ha : Pays a) (hb : Pays b) (hab : dueOf a ≠ dueOf b) :
    May (pay w a) b ↔ May w b := by
  cases ha <;> cases hb <;> first
    | exact absurd rfl hab
    | exact Iff.rfl
    | (simp only [pay, May, xor_and_ne (show 4 &&& 2 = 0 from rfl), xor_and_ne (show 2 &&& 4 = 0 from rfl)]; done)
    | (simp only [pay, May, firstBits, firstMark_and]; done)

/-- Payments of different dues commute. -/
theorem pay_other {w : World} {a b : Op} (ha : Pays a) (hb : Pays b) (hab : dueOf a ≠ dueOf b) :
    pay (pay w a) b = pay (pay w b) a := by
  cases ha <;> cases hb <;> first
    | exact absurd rfl hab
    | (simp only [pay, takeBase, takeQuote, extra, extraFlag, firstCreation, secondCreation, firstBits, secondBits,
        World.mk.injEq, Pool.mk.injEq, Ledger.mk.injEq, true_and, and_true]
       done)
    | (simp only [pay, takeBase, takeQuote, extra, extraFlag, firstCreation, secondCreation, firstBits, secondBits,
        World.mk.injEq, Pool.mk.injEq, Ledger.mk.injEq, true_and, and_true, first_xor, firstMark_xor, @xor_swap _ 2 4]
       first | done | omega)

/-- Two payments one after the other, in the other order. -/
theorem swap_two {w w1 w3 : World} {a b : Op} (h : Reachable w) (ha : (dueOf a).isSome) (hb : (dueOf b).isSome)
    (hab : dueOf a ≠ dueOf b) (h1 : w.step a = .ok w1) (h3 : w1.step b = .ok w3) :
    ∃ w2, w.step b = .ok w2 ∧ w2.step a = .ok w3 := by
  obtain ⟨ma, rfl⟩ := paid_is ha h1
  obtain ⟨mb, rfl⟩ := paid_is hb h3
  have e2 := may_pay h hb ((may_other (pays_of ha) (pays_of hb) hab).1 mb)
  refine ⟨_, e2, ?_⟩
  rw [may_pay (h.step e2) ha ((may_other (pays_of hb) (pays_of ha) (Ne.symm hab)).2 ma),
    pay_other (pays_of ha) (pays_of hb) hab]

/-! ### C79 -/

/-- C79, two payments: neither hinders the other, and the order makes no difference to anything. -/
theorem C79_two {w w1 w2 : World} {a b : Op} (h : Reachable w) (ha : (dueOf a).isSome) (hb : (dueOf b).isSome)
    (hab : dueOf a ≠ dueOf b) (h1 : w.step a = .ok w1) (h2 : w.step b = .ok w2) :
    ∃ w3, w1.step b = .ok w3 ∧ w2.step a = .ok w3 := by
  obtain ⟨ma, rfl⟩ := paid_is ha h1
  obtain ⟨mb, rfl⟩ := paid_is hb h2
  refine ⟨_, may_pay (h.step h1) hb ((may_other (pays_of ha) (pays_of hb) hab).2 mb), ?_⟩
  rw [may_pay (h.step h2) ha ((may_other (pays_of hb) (pays_of ha) (Ne.symm hab)).2 ma),
    pay_other (pays_of ha) (pays_of hb) hab]

/-- C79, any number of payments: every order of payments of different dues goes through if one does, and leaves the same
state. -/
theorem C79_any_order {w w' : World} {ops ops' : List Op} (h : Reachable w) (hr : Run w ops w') (hp : ops.Perm ops')
    (hd : ∀ op ∈ ops, (dueOf op).isSome) (hn : (ops.map dueOf).Nodup) : Run w ops' w' := by
  induction hp generalizing w w' with
  | nil => exact hr
  | cons x _ ih =>
    cases hr with | cons h1 hr1 => ?_
    rw [List.map_cons, List.nodup_cons] at hn
    exact .cons h1 (ih (h.step h1) hr1 (fun op ho => hd op (List.mem_cons_of_mem _ ho)) hn.2)
  | swap x y l =>
    cases hr with | cons h1 hr1 => ?_
    cases hr1 with | cons h2 hr2 => ?_
    have hxy : dueOf y ≠ dueOf x := by
      rw [List.map_cons, List.nodup_cons, List.map_cons, List.mem_cons, not_or] at hn
      exact hn.1.1
    obtain ⟨w2, e1, e2⟩ := swap_two h (hd y (.head _)) (hd x (.tail _ (.head _))) hxy h1 h2
    exact .cons e1 (.cons e2 hr2)
  | trans p _ ih1 ih2 =>
    refine ih2 h (ih1 h hr hd hn) (fun op ho => hd op (p.mem_iff.2 ho)) ?_
    exact (p.map dueOf).nodup_iff.1 hn

/-- C79, instalments: fees fetched in two claims are the fees fetched in one with the sum of the limits. -/
theorem C79_instalments {w w1 w2 : World} {s b1 q1 b2 q2 : Nat} (h : Reachable w) :
    (w.step (.claimPartnerFee s b1 q1) = .ok w1 → w1.step (.claimPartnerFee s b2 q2) = .ok w2 →
      w.step (.claimPartnerFee s (b1 + b2) (q1 + q2)) = .ok w2) ∧
    (w.step (.claimCreatorFee s b1 q1) = .ok w1 → w1.step (.claimCreatorFee s b2 q2) = .ok w2 →
      w.step (.claimCreatorFee s (b1 + b2) (q1 + q2)) = .ok w2) ∧
    (w.step (.claimProtocolFee s b1 q1) = .ok w1 → w1.step (.claimProtocolFee s b2 q2) = .ok w2 →
      w.step (.claimProtocolFee s (b1 + b2) (q1 + q2)) = .ok w2) := by
  refine ⟨fun e1 e2 => ?_, fun e1 e2 => ?_, fun e1 e2 => ?_⟩
  · obtain ⟨m1, rfl⟩ := paid_is rfl e1
    obtain ⟨m2, rfl⟩ := paid_is rfl e2
    rw [may_pay (op := .claimPartnerFee s (b1 + b2) (q1 + q2)) h rfl m1]
    simp only [pay, Except.ok.injEq, World.mk.injEq, Pool.mk.injEq, Ledger.mk.injEq, true_and, and_true]
    omega
  · obtain ⟨m1, rfl⟩ := paid_is rfl e1
    obtain ⟨m2, rfl⟩ := paid_is rfl e2
    rw [may_pay (op := .claimCreatorFee s (b1 + b2) (q1 + q2)) h rfl m1]
    simp only [pay, Except.ok.injEq, World.mk.injEq, Pool.mk.injEq, Ledger.mk.injEq, true_and, and_true]
    omega
  · obtain ⟨m1, rfl⟩ := paid_is rfl e1
    obtain ⟨m2, rfl⟩ := paid_is rfl e2
    rw [may_pay (op := .claimProtocolFee s (b1 + b2) (q1 + q2)) h rfl m1]
    have e0 : flagOf (flagOf w.pool.protocolSurplus w.cfg.migrationQuoteThreshold w.pool.quoteReserve)
        w.cfg.migrationQuoteThreshold w.pool.quoteReserve =
        flagOf w.pool.protocolSurplus w.cfg.migrationQuoteThreshold w.pool.quoteReserve := by
      unfold flagOf; split <;> simp
    have e3 : extraOf (flagOf w.pool.protocolSurplus w.cfg.migrationQuoteThreshold w.pool.quoteReserve)
        w.cfg.migrationQuoteThreshold w.pool.quoteReserve = 0 := by
      unfold extraOf flagOf
      rw [if_neg]
      split <;> omega
    simp only [pay, takeBase, takeQuote, extra, extraFlag, e0, e3, Except.ok.injEq, World.mk.injEq, Pool.mk.injEq,
      Ledger.mk.injEq, true_and, and_true]
    omega

/-! ### Example -/

/-- A migrated pool of which nobody has yet been paid after completion. -/
def Ex.unpaid : World := _root_.Ex.after _root_.Ex.paramsA (_root_.Ex.churned ++
  [.createLocker, .createMeta, .migrateV1 ⟨_root_.Ex.dammA, 350859375000001, 8982000000000, 56000000000000⟩])

/-- All ten dues, each with something to pay. -/
def Ex.dues : List Op :=
  [.claimPartnerFee 11 u64Max u64Max, .claimCreatorFee 21 7 u64Max, .claimProtocolFee 31 5 u64Max,
   .partnerWithdrawSurplus 11, .creatorWithdrawSurplus 21, .withdrawMigrationFee 11 0, .withdrawMigrationFee 21 1,
   .claimPartnerCreationFee 11, .claimProtocolCreationFee 31, .withdrawLeftover 12]

theorem C79_example : Reachable Ex.unpaid ∧ (∃ w', Run Ex.unpaid Ex.dues w' ∧ Run Ex.unpaid Ex.dues.reverse w' ∧
      Ex.unpaid.led.paidPartnerBase < w'.led.paidPartnerBase ∧ Ex.unpaid.led.paidCreatorBase < w'.led.paidCreatorBase ∧
      Ex.unpaid.led.paidProtocolQuote < w'.led.paidProtocolQuote ∧ 0 < w'.led.partnerSurplus ∧
      0 < w'.led.creatorSurplus ∧ 0 < w'.led.partnerMig ∧ 0 < w'.led.creatorMig ∧ 0 < w'.led.lamportsPartner ∧
      0 < w'.led.lamportsProtocol ∧ 0 < w'.led.leftover) ∧
    (∀ op ∈ Ex.dues, (dueOf op).isSome) ∧ (Ex.dues.map dueOf).Nodup := by
  have h1 : Reachable Ex.unpaid :=
    ⟨_, _, _root_.Ex.genesisA, _root_.Ex.exec_run (ops := _root_.Ex.churned ++
      [.createLocker, .createMeta, .migrateV1 ⟨_root_.Ex.dammA, 350859375000001, 8982000000000, 56000000000000⟩])
      (by decide +kernel)⟩
  have hd : ∀ op ∈ Ex.dues, (dueOf op).isSome := by decide
  have hn : (Ex.dues.map dueOf).Nodup := by decide
  have hr : Run Ex.unpaid Ex.dues (_root_.Ex.after _root_.Ex.paramsA (_root_.Ex.churned ++
      [.createLocker, .createMeta, .migrateV1 ⟨_root_.Ex.dammA, 350859375000001, 8982000000000, 56000000000000⟩] ++
      Ex.dues)) := by
    apply _root_.Ex.exec_run
    decide +kernel
  refine ⟨h1, ⟨_, hr, C79_any_order h1 hr (List.reverse_perm _).symm hd hn, ?_⟩, hd, hn⟩
  decide +kernel

end Props

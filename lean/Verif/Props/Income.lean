import Verif.Props.Trip
import Verif.Props.Owed

/-!
# Over a pool's life everybody earns their share of all fees: C94
-/

namespace Props
open Dbc Spec

/-- A part of the fees of all trades that is taken in a token. -/
def sumPart (part : Trade → Nat) (xs : List (TradeDirection × Trade)) (t : Token) : Nat :=
  (xs.map fun x => inTok x.2.feeToken t (part x.2)).sum

/-- How many of the trades had their fee taken in a token. -/
def feeTrades (xs : List (TradeDirection × Trade)) (t : Token) : Nat := (xs.map fun x => inTok x.2.feeToken t 1).sum

/-- How the fee of one trade is divided, seen from a token. -/
theorem trade_parts {w w' : World} {a : SwapArgs} {x : Trade} (hs : w.step (.swap a) = .ok w') (ho : Observed w w' a.dir x)
    (t : Token) :
    inTok x.feeToken t x.protocol + inTok x.feeToken t x.referral = inTok x.feeToken t x.fee * 20 / 100 ∧
    inTok x.feeToken t x.referral ≤ inTok x.feeToken t x.fee * 20 / 100 * 20 / 100 ∧
    inTok x.feeToken t x.creator =
      (inTok x.feeToken t x.fee - inTok x.feeToken t x.fee * 20 / 100) * w.cfg.creatorTradingFeePct / 100 := by
  obtain ⟨y, oy, -, e1, e2, e3⟩ := C02_fee_split hs
  have hp : inTok x.feeToken t x.protocol = inTok y.feeToken t y.protocol := by
    have := ho.protocol t; have := oy.protocol t; omega
  have hr : inTok x.feeToken t x.referral = inTok y.feeToken t y.referral := by
    have := ho.referral t; have := oy.referral t; omega
  have hc : inTok x.feeToken t x.creator = inTok y.feeToken t y.creator := by
    have := ho.creator t; have := oy.creator t; omega
  rw [hp, hr, hc, (trade_same ho oy).2.2.2 t]
  unfold inTok
  split
  · refine ⟨e1, ?_, e3⟩
    rw [e2]
    split
    · exact le_rfl
    · exact Nat.zero_le _
  · simp

/-- A history without its non-trades: what it added to everybody's lifetime earnings. -/
theorem trades_accrued {w w' : World} {ops : List Op} {xs : List (TradeDirection × Trade)} (h : Trades w ops w' xs) (t : Token) :
    accrued w' t = ((accrued w t).1 + sumPart Trade.partner xs t, (accrued w t).2.1 + sumPart Trade.creator xs t,
      (accrued w t).2.2 + sumPart Trade.protocol xs t) ∧
    referrals w' t = referrals w t + sumPart Trade.referral xs t := by
  induction h with
  | nil w => simp [sumPart]
  | @swap w w1 w2 a ops x xs hs ho _ ih =>
    obtain ⟨i1, i2⟩ := ih
    rcases C19_accrual hs with ⟨a', y, e, oy, k⟩ | ⟨k, -⟩
    · have : a' = a := by injection e with e; exact e.symm
      subst this
      have hp : inTok x.feeToken t x.protocol = inTok y.feeToken t y.protocol := by
        have := ho.protocol t; have := oy.protocol t; omega
      have hc : inTok x.feeToken t x.creator = inTok y.feeToken t y.creator := by
        have := ho.creator t; have := oy.creator t; omega
      have hq : inTok x.feeToken t x.partner = inTok y.feeToken t y.partner := by
        have := ho.partner t; have := oy.partner t; omega
      have hr := ho.referral t
      rw [i1, k t, i2, hr]
      simp only [sumPart, List.map_cons, List.sum_cons, hp, hc, hq, Nat.add_assoc, and_self]
    · exact absurd rfl (k a)
  | other hno hs _ ih =>
    obtain ⟨i1, i2⟩ := ih
    rcases C19_accrual hs with ⟨a', y, e, -⟩ | ⟨-, k⟩
    · exact absurd e (hno a')
    · rw [i1, i2, k t]
      refine ⟨rfl, ?_⟩
      rcases step_cases hs with ⟨a, e, -⟩ | ⟨_, _, _, _, _, _, _, _, _, _, _, _, _, _, _, _, e1, e2, _⟩
      · exact absurd e (hno a)
      · cases t
        · simp only [referrals, e1]
        · simp only [referrals, e2]

/-- What all the trades of a history left to each party. -/
theorem trades_parts {w w' : World} {ops : List Op} {xs : List (TradeDirection × Trade)} (h : Trades w ops w' xs) (t : Token) :
    sumPart Trade.partner xs t + sumPart Trade.creator xs t + sumPart Trade.protocol xs t + sumPart Trade.referral xs t =
      sumFees xs t ∧
    100 * (sumPart Trade.protocol xs t + sumPart Trade.referral xs t) ≤ 20 * sumFees xs t ∧
    20 * sumFees xs t ≤ 100 * (sumPart Trade.protocol xs t + sumPart Trade.referral xs t) + 80 * feeTrades xs t ∧
    5 * sumPart Trade.referral xs t ≤ sumPart Trade.protocol xs t + sumPart Trade.referral xs t ∧
    100 * sumPart Trade.creator xs t ≤
      w.cfg.creatorTradingFeePct * (sumPart Trade.partner xs t + sumPart Trade.creator xs t) ∧
    w.cfg.creatorTradingFeePct * (sumPart Trade.partner xs t + sumPart Trade.creator xs t) ≤
      100 * sumPart Trade.creator xs t + 99 * feeTrades xs t := by
  induction h with
  | nil w => simp [sumPart, sumFees]
  | @swap w w1 w2 a ops x xs hs ho _ ih =>
    rw [step_cfg hs] at ih
    obtain ⟨i1, i2, i3, i4, i5, i6⟩ := ih
    obtain ⟨e1, e2, e3⟩ := trade_parts hs ho t
    have hf : inTok x.feeToken t x.fee = inTok x.feeToken t x.partner + inTok x.feeToken t x.creator +
        inTok x.feeToken t x.protocol + inTok x.feeToken t x.referral := by
      unfold Trade.fee
      simp only [inTok_add]
    have h1 : inTok x.feeToken t 1 = 1 ∨ inTok x.feeToken t x.fee = 0 := by
      unfold inTok
      split
      · exact .inl rfl
      · exact .inr rfl
    simp only [sumPart, sumFees, feeTrades, List.map_cons, List.sum_cons] at i1 i2 i3 i4 i5 i6 ⊢
    generalize inTok x.feeToken t x.fee = f at *
    generalize inTok x.feeToken t x.partner = fp at *
    generalize inTok x.feeToken t x.creator = fc at *
    generalize inTok x.feeToken t x.protocol = fr at *
    generalize inTok x.feeToken t x.referral = fs at *
    generalize inTok x.feeToken t 1 = one at *
    have hrest : f - f * 20 / 100 = fp + fc := by omega
    rw [hrest] at e3
    have m : ∀ A B : Nat, w.cfg.creatorTradingFeePct * (fp + A + (fc + B)) =
        (fp + fc) * w.cfg.creatorTradingFeePct + w.cfg.creatorTradingFeePct * (A + B) := by intros; ring
    rw [m]
    have c1 := Nat.div_mul_le_self ((fp + fc) * w.cfg.creatorTradingFeePct) 100
    have c2 : (fp + fc) * w.cfg.creatorTradingFeePct ≤ 100 * fc + 99 * one := by
      rcases h1 with h1 | h1
      · omega
      · have : fp + fc = 0 := by omega
        rw [this, Nat.zero_mul]
        exact Nat.zero_le _
    refine ⟨by omega, by omega, ?_, by omega, by omega, by omega⟩
    rcases h1 with h1 | h1 <;> omega
  | other hno hs _ ih =>
    rw [step_cfg hs] at ih
    exact ih

/-- C94, shares: in a pool with any past, let `F` be all the fees ever taken in a token and `n` the number of trades that paid
in it. What the protocol was paid and is owed as trading fees, with what referral accounts were paid, is 20% of `F`, at most
four fifths of a unit per trade less; referral accounts have at most a fifth of that. What the creator role was paid and is owed is the
configured percentage of the rest, at most a unit per trade less. The partner role has everything else. -/
theorem C94_shares {w0 w : World} {ops : List Op} {xs : List (TradeDirection × Trade)} (h0 : Genesis w0)
    (ht : Trades w0 ops w xs) (t : Token) :
    ∃ protocol, paidProtocol w t + (protocolFee w t + protocolMigFee w t) = protocol + protocolExtra w t ∧
      (paidPartner w t + partnerFee w t) + (paidCreator w t + creatorFee w t) + (protocol + referrals w t) = sumFees xs t ∧
      100 * (protocol + referrals w t) ≤ 20 * sumFees xs t ∧
      20 * sumFees xs t ≤ 100 * (protocol + referrals w t) + 80 * feeTrades xs t ∧
      5 * referrals w t ≤ protocol + referrals w t ∧
      100 * (paidCreator w t + creatorFee w t) ≤
        w.cfg.creatorTradingFeePct * (sumFees xs t - (protocol + referrals w t)) ∧
      w.cfg.creatorTradingFeePct * (sumFees xs t - (protocol + referrals w t)) ≤
        100 * (paidCreator w t + creatorFee w t) + 99 * feeTrades xs t := by
  have hr : Reachable w := h0.reachable.run ht.run
  obtain ⟨k1, k2, k3, -⟩ := C19_lifetime_fees hr t
  obtain ⟨a1, a2⟩ := trades_accrued ht t
  obtain ⟨p1, p2, p3, p4, p5, p6⟩ := trades_parts ht t
  have href : referrals w0 t = 0 := by
    obtain ⟨p, env, a, c, _, _, hi⟩ := h0
    obtain ⟨_, _, _, _, _, _, _, _, _, _, _, _, _, rfl⟩ := initPool_ok hi
    cases t <;> rfl
  rw [C19_start h0 t] at a1
  rw [href, Nat.zero_add] at a2
  rw [a1] at k1 k2 k3
  simp only [Nat.zero_add] at k1 k2 k3
  have hcfg : w.cfg = w0.cfg := (backed_run h0.reachable ht.run).cfg
  have hd : sumFees xs t - (sumPart Trade.protocol xs t + referrals w t) =
      sumPart Trade.partner xs t + sumPart Trade.creator xs t := by rw [a2]; omega
  refine ⟨sumPart Trade.protocol xs t, k3.symm, ?_⟩
  rw [hd, hcfg, ← k1, ← k2, a2]
  exact ⟨by omega, p2, p3, p4, p5, p6⟩

/-- Every history as a list of trades, with the bounds on each fee. -/
theorem trades_rates {w w' : World} {ops : List Op} (h : Reachable w) (hu : Sized ops) (hr : Run w ops w') :
    ∃ xs, Trades w ops w' xs ∧ ∀ x ∈ xs, Spec.minRate * x.2.bearing x.1 ≤ x.2.fee * Spec.unit ∧
      x.2.fee * Spec.unit < Spec.maxRate * x.2.bearing x.1 + Spec.unit := by
  induction hr with
  | nil w => exact ⟨[], .nil w, fun x hx => nomatch hx⟩
  | @cons w w1 w2 op ops hs hr ih =>
    obtain ⟨xs, ht, hx⟩ := ih (h.step hs) fun a ha => hu a (List.mem_cons_of_mem _ ha)
    by_cases ho : ∃ a, op = .swap a
    · obtain ⟨a, rfl⟩ := ho
      obtain ⟨x, floor, rate, o, -, -, -, -, l1, l2, l3, l4, l5, -⟩ := C03_base_rate h (hu a (List.mem_cons_self ..)) hs
      refine ⟨(a.dir, x) :: xs, .swap hs o ht, fun y hy => ?_⟩
      rcases List.mem_cons.1 hy with rfl | hy
      · exact ⟨(Nat.mul_le_mul_right _ (l1.trans l2)).trans l4,
          lt_of_lt_of_le l5 (Nat.add_le_add_right (Nat.mul_le_mul_right _ l3) _)⟩
      · exact hx y hy
    · exact ⟨xs, .other (fun a e => ho ⟨a, e⟩) hs ht, hx⟩

/-- C94, volume: whatever the history, what partner and creator earned in a token is at least 80% of 0.25% of the volume
on which fees were taken in it, and all fees together are at most 99% of that volume and a unit per trade. -/
theorem C94_volume {w0 w : World} {ops : List Op} (h0 : Genesis w0) (hu : Sized ops) (hr : Run w0 ops w) :
    ∃ xs, Trades w0 ops w xs ∧ ∀ t,
      8 * (Spec.minRate * sumBearing xs t) ≤
        10 * (((paidPartner w t + partnerFee w t) + (paidCreator w t + creatorFee w t)) * Spec.unit) ∧
      sumFees xs t * Spec.unit ≤ Spec.maxRate * sumBearing xs t + feeTrades xs t * Spec.unit := by
  obtain ⟨xs, ht, hx⟩ := trades_rates h0.reachable hu hr
  refine ⟨xs, ht, fun t => ?_⟩
  obtain ⟨pr, -, e1, e2, -⟩ := C94_shares h0 ht t
  have key : Spec.minRate * sumBearing xs t ≤ sumFees xs t * Spec.unit ∧
      sumFees xs t * Spec.unit ≤ Spec.maxRate * sumBearing xs t + feeTrades xs t * Spec.unit := by
    clear ht e1 e2 hr hu
    induction xs with
    | nil => simp [sumBearing, sumFees]
    | cons x xs ih =>
      obtain ⟨i1, i2⟩ := ih fun y hy => hx y (List.mem_cons_of_mem _ hy)
      obtain ⟨b1, b2⟩ := hx x (List.mem_cons_self ..)
      simp only [sumBearing, sumFees, feeTrades, List.map_cons, List.sum_cons] at i1 i2 ⊢
      simp only [Nat.mul_add, Nat.add_mul]
      unfold inTok at i1 i2 ⊢
      split
      · omega
      · omega
  refine ⟨?_, key.2⟩
  have h1 := key.1
  have h2 : 8 * sumFees xs t ≤ 10 * ((paidPartner w t + partnerFee w t) + (paidCreator w t + creatorFee w t)) := by omega
  have h3 := Nat.mul_le_mul_right Spec.unit h2
  rw [Nat.mul_assoc, Nat.mul_assoc] at h3
  omega

/-- A history with trades whose fees are taken in both tokens, claims and a referral, in which everybody has earned something. -/
theorem C94_example : Genesis (Ex.worldOf Ex.paramsA) ∧ Sized Ex.churned ∧ Run (Ex.worldOf Ex.paramsA) Ex.churned Ex.pendingA ∧
    (Ex.pendingA.cfg.creatorTradingFeePct = 30 ∧ 0 < paidPartner Ex.pendingA .base ∧ 0 < partnerFee Ex.pendingA .base ∧
      0 < paidCreator Ex.pendingA .quote ∧ 0 < creatorFee Ex.pendingA .quote ∧ 0 < protocolFee Ex.pendingA .base ∧
      0 < referrals Ex.pendingA .quote) := by
  refine ⟨Ex.genesisA, ?_, Ex.exec_run (by decide +kernel), by decide +kernel⟩
  intro a ha
  have : (Ex.churned.all fun op => match op with | .swap a => decide (a.amount0 ≤ u64Max) | _ => true) = true := by
    decide +kernel
  exact of_decide_eq_true (List.all_eq_true.1 this _ ha)

end Props

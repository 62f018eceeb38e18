import Verif.Lemmas.Safe
import Verif.Lemmas.Solvency
import Verif.Props.Fee
import Verif.Spec.Tx

/-!
# A swap of a reachable pool neither panics nor refuses to complete the curve
-/

namespace Dbc
open Spec

theorem Reachable.baseOK {w : World} (h : Reachable w) : BaseOK w.cfg.fees.base := by
  obtain ⟨p, env, _, hc⟩ := h.config
  intro hm
  rcases Props.accepted_limiter hc hm with ⟨h, _⟩ | h
  · exact .inl h
  · exact .inr ⟨by have := h.x0; omega, by have := h.bps; omega⟩

theorem feeOnAmount_le {num amt ex : Nat} {ref : Bool} {s : FeeSplit} (h : feeOnAmount num amt ref = .ok (ex, s)) :
    ex ≤ amt := by
  have := (feeOnAmount_ok h).1
  omega

section
variable {c : PoolConfig} {ps : List Point} (hg : Good c ps) (hb : BaseOK c.fees.base) {p : Pool}
  (h1 : c.sqrtStartPrice ≤ p.sqrtPrice) (h2 : p.sqrtPrice ≤ c.migrationSqrtPrice) {a : Nat} (ha : a ≤ u64Max)
include hg hb h1 h2 ha

theorem Fine.exactIn (fm : FeeMode) (dir : TradeDirection) (cur : Nat) (f : Bool) : Fine (exactIn c p a fm dir cur f) := by
  unfold Dbc.exactIn
  refine Fine.bind (Fine.numIncluded hb _ _ _ _ _) fun num _ => Fine.bind ?_ fun ai hai => ?_
  · exact Fine.ite (fun _ => Fine.feeOnAmount _ _ _) fun _ => Fine.ok _
  · obtain ⟨ai, inf⟩ := ai
    have hle : ai ≤ u64Max := by
      rw [ite_ok] at hai
      rcases hai with ⟨_, hai⟩ | ⟨_, hai⟩
      · exact (feeOnAmount_le hai).trans ha
      · simp only [ok_inj, Prod.mk.injEq] at hai; omega
    dsimp only
    refine Fine.bind (Fine.of (walkIn_total hg dir h1 h2 hle)) fun _ _ => Fine.bind (Fine.req rfl) fun _ _ =>
      Fine.bind (Fine.ite (fun _ => Fine.ok _) fun _ => Fine.feeOnAmount _ _ _) fun _ _ => Fine.ok _

theorem Fine.partialIn (fm : FeeMode) (dir : TradeDirection) (cur : Nat) (f : Bool) : Fine (partialIn c p a fm dir cur f) := by
  unfold Dbc.partialIn
  refine Fine.bind (Fine.numIncluded hb _ _ _ _ _) fun num _ => Fine.bind ?_ fun ai hai => ?_
  · exact Fine.ite (fun _ => Fine.feeOnAmount _ _ _) fun _ => Fine.ok _
  · obtain ⟨ai, inf⟩ := ai
    have hle : ai ≤ u64Max := by
      rw [ite_ok] at hai
      rcases hai with ⟨_, hai⟩ | ⟨_, hai⟩
      · exact (feeOnAmount_le hai).trans ha
      · simp only [ok_inj, Prod.mk.injEq] at hai; omega
    dsimp only
    refine Fine.bind (Fine.of (walkIn_total hg dir h1 h2 hle)) fun _ _ => Fine.bind ?_ fun _ _ => ?_
    · refine Fine.ite (fun _ => Fine.bind (Fine.sub _ _) fun _ _ => Fine.ite (fun _ => ?_) fun _ => Fine.ok _) fun _ => Fine.ok _
      refine Fine.bind (Fine.numExcluded hb _ _ _ _ _) fun _ _ => Fine.bind (Fine.includedFee _ _) fun _ _ => ?_
      exact Fine.bind (Fine.splitFees _ _) fun _ _ => Fine.ok _
    · exact Fine.bind (Fine.ite (fun _ => Fine.ok _) fun _ => Fine.feeOnAmount _ _ _) fun _ _ => Fine.ok _

theorem Fine.exactOut (fm : FeeMode) (dir : TradeDirection) (cur : Nat) (f : Bool) : Fine (exactOut c p a fm dir cur f) := by
  unfold Dbc.exactOut
  refine Fine.bind ?_ fun ao hao => ?_
  · refine Fine.ite (fun _ => Fine.ok _) fun _ => ?_
    refine Fine.bind (Fine.numExcluded hb _ _ _ _ _) fun _ _ => Fine.bind (Fine.includedFee _ _) fun _ _ => ?_
    exact Fine.bind (Fine.splitFees _ _) fun _ _ => Fine.ok _
  · obtain ⟨ao, outf⟩ := ao
    have hle : ao ≤ u64Max := by
      rw [ite_ok] at hao
      rcases hao with ⟨_, hao⟩ | ⟨_, hao⟩
      · simp only [ok_inj, Prod.mk.injEq] at hao; omega
      · simp only [bind_ok, ok_inj, Prod.mk.injEq, Prod.exists] at hao
        obtain ⟨num, _, i, f', hif, s, _, rfl, _⟩ := hao
        exact (includedFeeAmount_ok hif).2.2.2.2
    dsimp only
    refine Fine.bind (Fine.walkOut hg h1 h2 hle) fun _ _ => Fine.bind (Fine.req rfl) fun _ _ => Fine.bind ?_ fun _ _ => ?_
    · refine Fine.ite (fun _ => ?_) fun _ => Fine.ok _
      refine Fine.bind (Fine.numExcluded hb _ _ _ _ _) fun _ _ => Fine.bind (Fine.includedFee _ _) fun _ _ => ?_
      exact Fine.bind (Fine.splitFees _ _) fun _ _ => Fine.ok _
    · fine

end

theorem Fine.processSwap {c : PoolConfig} {ps : List Point} (hg : Good c ps) (hb : BaseOK c.fees.base) {p : Pool}
    (h1 : c.sqrtStartPrice ≤ p.sqrtPrice) (h2 : p.sqrtPrice ≤ c.migrationSqrtPrice) {a : SwapArgs}
    (ha : a.amount0 ≤ u64Max) (fm : FeeMode) (cur : Nat) (f : Bool) : Fine (processSwap c p a fm cur f) := by
  unfold Dbc.processSwap
  split
  · exact Fine.bind (Fine.exactIn hg hb h1 h2 ha _ _ _ _) fun _ _ => Fine.bind (Fine.req rfl) fun _ _ => Fine.ok _
  · exact Fine.bind (Fine.partialIn hg hb h1 h2 ha _ _ _ _) fun _ _ => Fine.bind (Fine.req rfl) fun _ _ => Fine.ok _
  · exact Fine.bind (Fine.exactOut hg hb h1 h2 ha _ _ _ _) fun _ _ => Fine.bind (Fine.req rfl) fun _ _ => Fine.ok _

theorem Fine.deltaBin (s a b : Nat) : Fine (deltaBinId s a b) := by
  unfold deltaBinId
  dsimp only
  exact Fine.bind (Fine.shlDiv _ _ _) fun _ _ => Fine.bind (Fine.sub _ _) fun _ _ => Fine.bind (Fine.div _ _) fun _ _ =>
    Fine.mul _ _ _

theorem Fine.pre (p : Pool) (c : PoolConfig) (n : Nat) : Fine (p.updatePreSwap c n) := by
  unfold Pool.updatePreSwap updateReferences
  dsimp only
  fine
theorem Fine.post (p : Pool) (c : PoolConfig) (o n : Nat) : Fine (p.updatePostSwap c o n) := by
  unfold Pool.updatePostSwap updateVolAcc
  refine Fine.ite (fun _ => ?_) fun _ => Fine.ok _
  refine Fine.bind (Fine.bind (Fine.deltaBin _ _ _) fun _ _ => Fine.bind (Fine.mul _ _ _) fun _ _ =>
    Fine.bind (Fine.add _ _ _) fun _ _ => Fine.ok _) fun _ _ => Fine.bind (Fine.deltaBin _ _ _) fun _ _ => Fine.ok _

theorem Fine.credit (p : Pool) (c : PoolConfig) (f : FeeSplit) (b : Bool) : Fine (p.creditFee c f b) := by
  unfold Pool.creditFee Metrics.accumulate PoolConfig.splitPartnerCreator
  refine Fine.bind (Fine.ite (fun _ => Fine.ok _) fun _ => ?_) fun _ _ => ?_
  · exact Fine.bind (Fine.mulDivU64 _ _ _ _) fun _ _ => Fine.bind (Fine.sub _ _) fun _ _ => Fine.ok _
  · fine
theorem Fine.move (p : Pool) (r : SwapResult) (fm : FeeMode) (d : TradeDirection) : Fine (p.moveReserves r fm d) := by
  unfold Pool.moveReserves
  refine Fine.bind (Fine.ite (fun _ => Fine.ok _) fun _ => ?_) fun _ _ => ?_ <;> fine
theorem Fine.apply (p : Pool) (c : PoolConfig) (r : SwapResult) (fm : FeeMode) (d : TradeDirection) (n : Nat) :
    Fine (p.apply c r fm d n) := by
  unfold Pool.apply
  exact Fine.bind (Fine.credit _ _ _ _) fun _ _ => Fine.bind (Fine.move _ _ _ _) fun _ _ =>
    Fine.bind (Fine.post _ _ _ _) fun _ _ => Fine.ok _
theorem Fine.transfers (w : World) (r : SwapResult) (fm : FeeMode) (d : TradeDirection) : Fine (swapTransfers w r fm d) := by
  unfold swapTransfers; fine
theorem Fine.point (t : Nat) (k : Clock) : Fine (currentPoint t k) := by
  unfold currentPoint; fine
theorem Fine.feeMode (t : Nat) (d : TradeDirection) (b : Bool) : Fine (getFeeMode t d b) := by
  unfold getFeeMode; fine

/-! ### Reading the transaction -/

theorem Fine.isPoolSwap {pool : Nat} {i : Ix} (h : i.kind = .swap ∨ i.kind = .swap2 → 3 ≤ i.accounts.length) :
    Fine (isPoolSwap pool i) := by
  unfold Dbc.isPoolSwap
  refine Fine.ite (fun hk => ?_) fun _ => Fine.ok _
  rw [List.getElem?_eq_getElem (by have := h hk; omega)]
  exact Fine.ok _

theorem Fine.siblings {pool : Nat} {is : List Ix}
    (h : ∀ i ∈ is, i.program = PROGRAM_ID → i.kind = .swap ∨ i.kind = .swap2 → 3 ≤ i.accounts.length) :
    Fine (checkSiblings pool is) := by
  induction is with
  | nil => exact Fine.ok _
  | cons i is ih =>
    unfold checkSiblings
    have ih' := ih fun j hj => h j (by simp [hj])
    refine Fine.ite (fun hp => ?_) fun _ => ih'
    exact Fine.bind (Fine.isPoolSwap (h i (by simp) hp)) fun _ _ => Fine.bind (Fine.req rfl) fun _ _ => ih'

theorem Fine.earlier {pool : Nat} {is : List Ix}
    (h : ∀ i ∈ is, i.program = PROGRAM_ID → i.kind = .swap ∨ i.kind = .swap2 → 3 ≤ i.accounts.length) :
    Fine (checkEarlier pool is) := by
  induction is with
  | nil => exact Fine.ok _
  | cons i is ih =>
    unfold checkEarlier
    have ih' := ih fun j hj => h j (by simp [hj])
    refine Fine.ite (fun _ => ?_) fun hp => ?_
    · exact Fine.bind (Fine.req rfl) fun _ _ => ih'
    · exact Fine.bind (Fine.isPoolSwap (h i (by simp) (not_not.1 hp))) fun _ _ => Fine.bind (Fine.req rfl) fun _ _ => ih'

theorem Fine.single {pool : Nat} {t : TxCtx}
    (h1 : ∀ i ∈ t.siblings, i.program = PROGRAM_ID → i.kind = .swap ∨ i.kind = .swap2 → 3 ≤ i.accounts.length)
    (h2 : ∀ i ∈ t.top.take t.idx, i.program = PROGRAM_ID → i.kind = .swap ∨ i.kind = .swap2 → 3 ≤ i.accounts.length) :
    Fine (validateSingleSwap pool t) := by
  unfold validateSingleSwap
  refine Fine.ite (fun _ => ?_) fun _ => Fine.err rfl
  split
  · exact Fine.err rfl
  · refine Fine.bind (Fine.ite (fun _ => ?_) fun _ => Fine.ok _) fun _ _ => Fine.earlier h2
    exact Fine.bind (Fine.req rfl) fun _ _ => Fine.siblings h1

/-! ### Completing the curve -/

theorem buy_fee_side {cm : Nat} {ref : Bool} {fm : FeeMode} (h : getFeeMode cm .quoteToBase ref = .ok fm) :
    fm.feesOnBase = !fm.feesOnInput := by
  unfold getFeeMode at h
  split at h
  · cases h
  all_goals (simp only [ok_inj] at h; subst h; rfl)

/-- Everything a swap books before the completion check, with the completion check still to come. -/
theorem completeSwap_total {w : World} {ps : List Point} (hc : Core w ps) (hs : Solvent w) (hl : Life w)
    {a : SwapArgs} {fm : FeeMode} {cur : Nat} {f : Bool} {p1 p2 : Pool}
    {r : SwapResult} {b q now : Nat}
    (hinc : w.pool.quoteReserve < w.cfg.migrationQuoteThreshold) (hpre : w.pool.updatePreSwap w.cfg a.clk.time = .ok p1)
    (hfm : getFeeMode w.cfg.collectFeeMode a.dir a.referral = .ok fm)
    (hr : processSwap w.cfg p1 a fm cur f = .ok r) (hp2 : p1.apply w.cfg r fm a.dir a.clk.time = .ok p2)
    (hbq : swapTransfers w r fm a.dir = .ok (b, q)) : ∃ p3, completeSwap w.cfg p2 b now = .ok p3 := by
  obtain ⟨v1, rfl, -, -⟩ := updatePreSwap_ok hpre
  have hres := processSwap_ok (p := { w.pool with vol := v1 }) hc.good.curve hc.lo hc.hi hr
  simp only [Pool.apply, bind_ok, ok_inj] at hp2
  obtain ⟨c1, hc1, c2, hc2, c3, hc3, rfl⟩ := hp2
  obtain ⟨pa, cr, hsp, rfl⟩ := creditFee_ok hc1
  clear hc1
  dsimp only at hc2
  obtain ⟨B, Q, rfl, m2, m3⟩ := moveReserves_ok hc2
  clear hc2
  dsimp only at hc3 m2 m3
  obtain ⟨v2, rfl, -, -⟩ := updatePostSwap_ok hc3
  clear hc3
  obtain ⟨s1, s2⟩ := swapTransfers_ok hbq
  obtain ⟨x1, x2⟩ := splitPartnerCreator_ok hsp
  unfold completeSwap
  by_cases hdone : w.cfg.migrationQuoteThreshold ≤ Q
  · cases hd : a.dir with
    | baseToQuote => have := m2 hd; omega
    | quoteToBase =>
      obtain ⟨t1, t2⟩ := hres.buy hd
      obtain ⟨-, n2, -⟩ := m3 hd
      obtain ⟨-, n4, -⟩ := s2 hd
      have d1 := t1.baseDown hc.good.curve.proper
      have d2 := baseToDown_mono hc.good.curve.proper t2
      have d3 : baseToDown (segs w.cfg.sqrtStartPrice ps) w.cfg.migrationSqrtPrice ≤ w.cfg.swapBaseAmount := by
        rw [hc.good.swap]; exact total_le_total baseSegDown_le_up _ _
      obtain ⟨sup, hsup, hbase⟩ := hc.base
      obtain ⟨t, ht, hle, -⟩ := hc.good.supply sup hsup
      have d4 := hs.base0 (hl.start.2 hinc)
      have d5 := hs.baseMax
      have d6 := hs.supMax
      unfold World.baseFees at d4
      rw [hd] at hfm
      have hf := buy_fee_side hfm
      have key : w.cfg.migrationBaseThreshold + (w.pool.partnerBaseFee + onlyIf fm.feesOnBase pa +
          (w.pool.protocolBaseFee + onlyIf fm.feesOnBase r.fee.protocol) +
          (w.pool.creatorBaseFee + onlyIf fm.feesOnBase cr)) + t ≤ b := by
        rw [hf] at n4 ⊢
        unfold outFee at n2 d1
        cases hin : fm.feesOnInput with
        | true =>
          rw [hin] at n2 n4 d1
          simp only [Bool.not_true, Bool.and_false, onlyIf_false, if_true] at n2 n4 d1 ⊢
          omega
        | false =>
          rw [hin] at n2 n4 d1
          simp only [Bool.not_false, Bool.and_true, onlyIf_true, Bool.false_eq_true, if_false, FeeSplit.sum] at n2 n4 d1 ⊢
          have hle : onlyIf fm.hasReferral r.fee.referral ≤ r.fee.referral := by
            unfold onlyIf; split <;> omega
          omega
      have hb : b ≤ u64Max := by omega
      rw [if_pos (by exact hdone)]
      simp only [bind_ok, safeAdd_ok, req_ok, baseFees_ok]
      exact ⟨_, _, ⟨by omega, rfl⟩, _, ⟨by omega, rfl⟩, t, ht, _, ⟨by omega, rfl⟩, (), key, rfl⟩
  · rw [if_neg (by exact hdone)]
    exact ⟨_, rfl⟩

theorem Fine.swap {w : World} (hr : Reachable w) {a : SwapArgs} (ha : a.amount0 ≤ u64Max) (ht : Spec.Executed a.tx) :
    Fine (w.swap a) := by
  obtain ⟨ps, hc⟩ := hr.core
  unfold World.swap
  refine Fine.bind (Fine.req rfl) fun _ _ => Fine.bind (Fine.req rfl) fun _ _ => Fine.bind (Fine.point _ _) fun cur _ =>
    Fine.bind ?_ fun _ _ => Fine.bind (Fine.req rfl) fun _ hinc => Fine.bind (Fine.pre _ _ _) fun p1 hp1 =>
    Fine.bind (Fine.feeMode _ _ _) fun fm hfm => Fine.bind ?_ fun r hpr => Fine.bind (Fine.apply _ _ _ _ _ _) fun p2 hp2 =>
    Fine.bind (Fine.transfers _ _ _ _) fun bq hbq => ?_
  · unfold World.checkLimiter
    exact Fine.ite (fun _ => Fine.single (fun i hi => ht i (.inl hi)) fun i hi => ht i (.inr hi)) fun _ => Fine.ok _
  · obtain ⟨v1, rfl, -, -⟩ := updatePreSwap_ok hp1
    exact Fine.processSwap (p := { w.pool with vol := v1 }) hc.good hr.baseOK hc.lo hc.hi ha _ _ _
  · obtain ⟨b, q⟩ := bq
    rw [req_ok] at hinc
    unfold Pool.complete at hinc
    exact Fine.bind (Fine.of (completeSwap_total hc hr.solvent hr.life (by omega) hp1 hfm hpr hp2 hbq)) fun _ _ => Fine.ok _

end Dbc

import Verif.Lemmas.SafeSwap
import Verif.Lemmas.Payable
import Verif.Props.Vol

/-!
# A swap whose result can be computed also commits
-/

namespace Dbc
open Spec

/-- There is room for what a swap result books: the payer's tokens exist, and the lifetime fee counters do not overflow. -/
structure Room (w : World) (fm : FeeMode) (dir : TradeDirection) (r : SwapResult) : Prop where
  buy : dir = .quoteToBase → w.quoteVault + r.includedIn ≤ u64Max
  sell : dir = .baseToQuote → w.baseVault + r.includedIn ≤ w.supply
  base : fm.feesOnBase = true → w.pool.metrics.protocolBase + r.fee.protocol ≤ u64Max ∧
    w.pool.metrics.tradingBase + r.fee.trading ≤ u64Max
  quote : fm.feesOnBase = false → w.pool.metrics.protocolQuote + r.fee.protocol ≤ u64Max ∧
    w.pool.metrics.tradingQuote + r.fee.trading ≤ u64Max

theorem feeMode_cases {cm : Nat} {dir : TradeDirection} {ref : Bool} {fm : FeeMode} (h : getFeeMode cm dir ref = .ok fm) :
    (dir = .baseToQuote ∧ fm.feesOnInput = false ∧ fm.feesOnBase = false) ∨
    (dir = .quoteToBase ∧ fm.feesOnInput = false ∧ fm.feesOnBase = true) ∨
    (dir = .quoteToBase ∧ fm.feesOnInput = true ∧ fm.feesOnBase = false) := by
  unfold getFeeMode at h
  split at h
  · cases h
  all_goals
    cases dir <;> simp only [ok_inj] at h <;> subst h <;> simp

theorem creditFee_total {p : Pool} {c : PoolConfig} (hc : c.creatorTradingFeePct ≤ 100) {fee : FeeSplit} {b : Bool}
    (hb : b = true → p.partnerBaseFee + p.creatorBaseFee + p.protocolBaseFee + fee.sum ≤ u64Max ∧
      p.metrics.protocolBase + fee.protocol ≤ u64Max ∧ p.metrics.tradingBase + fee.trading ≤ u64Max)
    (hq : b = false → p.partnerQuoteFee + p.creatorQuoteFee + p.protocolQuoteFee + fee.sum ≤ u64Max ∧
      p.metrics.protocolQuote + fee.protocol ≤ u64Max ∧ p.metrics.tradingQuote + fee.trading ≤ u64Max) :
    ∃ p1, p.creditFee c fee b = .ok p1 := by
  have hs : fee.sum ≤ u64Max := by
    cases b with
    | true => have := (hb rfl).1; omega
    | false => have := (hq rfl).1; omega
  unfold FeeSplit.sum at hs hb hq
  have e := splitPartnerCreator_fits hc (x := fee.trading) (by omega)
  obtain ⟨x1, x2⟩ := splitPartnerCreator_ok e
  unfold Pool.creditFee
  rw [e, ok_bind]
  dsimp only
  generalize fee.trading - fee.trading * c.creatorTradingFeePct / 100 = pa at *
  generalize fee.trading * c.creatorTradingFeePct / 100 = cr at *
  cases b with
  | true =>
    obtain ⟨h1, h2, h3⟩ := hb rfl
    rw [if_pos rfl]
    unfold Metrics.accumulate
    rw [if_pos rfl, safeAdd_eq (by omega), ok_bind, safeAdd_eq (by omega), ok_bind, safeAdd_eq (by omega), ok_bind,
      safeAdd_eq h2, ok_bind, safeAdd_eq h3, ok_bind]
    exact ⟨_, rfl⟩
  | false =>
    obtain ⟨h1, h2, h3⟩ := hq rfl
    rw [if_neg Bool.false_ne_true]
    unfold Metrics.accumulate
    rw [if_neg Bool.false_ne_true, safeAdd_eq (by omega), ok_bind, safeAdd_eq (by omega), ok_bind,
      safeAdd_eq (by omega), ok_bind, safeAdd_eq h2, ok_bind, safeAdd_eq h3, ok_bind]
    exact ⟨_, rfl⟩

theorem moveReserves_total {p : Pool} {r : SwapResult} {fm : FeeMode} {dir : TradeDirection}
    (hs : dir = .baseToQuote → p.baseReserve + r.excludedIn ≤ u64Max ∧ r.out + outFee fm r ≤ p.quoteReserve)
    (hb : dir = .quoteToBase → p.quoteReserve + r.excludedIn ≤ u64Max ∧ r.out + outFee fm r ≤ p.baseReserve)
    (hmax : p.quoteReserve ≤ u64Max ∧ p.baseReserve ≤ u64Max) :
    ∃ p1, p.moveReserves r fm dir = .ok p1 := by
  have hout : ∃ o, (if fm.feesOnInput = true then (.ok r.out : Res Nat)
    else do
      let a ← safeAdd u64Max r.out r.fee.trading
      let a ← safeAdd u64Max a r.fee.protocol
      safeAdd u64Max a r.fee.referral) = .ok o ∧ o = r.out + outFee fm r := by
    have hle : r.out + outFee fm r ≤ u64Max := by
      cases dir with
      | baseToQuote => have := (hs rfl).2; omega
      | quoteToBase => have := (hb rfl).2; omega
    unfold outFee at hle ⊢
    split
    · exact ⟨_, rfl, by omega⟩
    · rename_i hn
      rw [if_neg hn] at hle
      unfold FeeSplit.sum at hle ⊢
      rw [safeAdd_eq (by omega), ok_bind, safeAdd_eq (by omega), ok_bind, safeAdd_eq (by omega)]
      exact ⟨_, rfl, by omega⟩
  obtain ⟨o, ho, eo⟩ := hout
  unfold Pool.moveReserves
  rw [ho, ok_bind]
  cases dir with
  | baseToQuote =>
    obtain ⟨h1, h2⟩ := hs rfl
    dsimp only
    rw [safeAdd_eq h1, ok_bind, safeSub_eq (by omega), ok_bind]
    exact ⟨_, rfl⟩
  | quoteToBase =>
    obtain ⟨h1, h2⟩ := hb rfl
    dsimp only
    rw [safeAdd_eq h1, ok_bind, safeSub_eq (by omega), ok_bind]
    exact ⟨_, rfl⟩

theorem swapTransfers_total {w : World} {r : SwapResult} {fm : FeeMode} {dir : TradeDirection}
    (hs : dir = .baseToQuote → w.baseVault + r.includedIn ≤ w.supply ∧ r.out + r.fee.referral ≤ w.quoteVault ∧
      fm.feesOnBase = false)
    (hb : dir = .quoteToBase → w.quoteVault + r.includedIn ≤ u64Max ∧
      (fm.feesOnBase = true ∧ r.out + r.fee.referral ≤ w.baseVault ∨
       fm.feesOnBase = false ∧ r.out ≤ w.baseVault ∧ r.fee.referral ≤ r.includedIn)) :
    ∃ b q, swapTransfers w r fm dir = .ok (b, q) := by
  unfold swapTransfers vaultIn vaultOut
  cases dir with
  | baseToQuote =>
    obtain ⟨h1, h2, h3⟩ := hs rfl
    dsimp only
    rw [if_pos h1, ok_bind, if_pos (by omega), ok_bind, h3]
    split
    · rw [if_neg Bool.false_ne_true, if_pos (by omega), ok_bind]
      exact ⟨_, _, rfl⟩
    · exact ⟨_, _, rfl⟩
  | quoteToBase =>
    obtain ⟨h1, h2⟩ := hb rfl
    dsimp only
    rcases h2 with ⟨h3, h4⟩ | ⟨h3, h4, h5⟩
    · rw [if_pos h1, ok_bind, if_pos (by omega), ok_bind, h3]
      split
      · rw [if_pos rfl, if_pos (by omega), ok_bind]
        exact ⟨_, _, rfl⟩
      · exact ⟨_, _, rfl⟩
    · rw [if_pos h1, ok_bind, if_pos (by omega), ok_bind, h3]
      split
      · rw [if_neg Bool.false_ne_true, if_pos (by omega), ok_bind]
        exact ⟨_, _, rfl⟩
      · exact ⟨_, _, rfl⟩

/-- What leaves a reserve is there. -/
theorem Core.outputs {w : World} {ps : List Point} (hc : Core w ps) {fm : FeeMode} {dir : TradeDirection} {r : SwapResult}
    (hres : Result w.cfg ps w.pool.sqrtPrice fm dir r) :
    (dir = .baseToQuote → r.out + outFee fm r ≤ w.pool.quoteReserve) ∧
    (dir = .quoteToBase → r.out + outFee fm r ≤ w.pool.baseReserve) := by
  constructor
  · intro hd
    have t := (hres.sell hd).quoteUp hc.good.curve.proper
    have := hc.quote
    omega
  · intro hd
    obtain ⟨t1, t2⟩ := hres.buy hd
    have d1 := t1.baseDown hc.good.curve.proper
    have d2 := baseToDown_mono hc.good.curve.proper t2
    have d3 : baseToDown (segs w.cfg.sqrtStartPrice ps) w.cfg.migrationSqrtPrice ≤ w.cfg.swapBaseAmount := by
      rw [hc.good.swap]; exact total_le_total baseSegDown_le_up _ _
    obtain ⟨sup, hsup, hbase⟩ := hc.base
    obtain ⟨t, ht, hle, -⟩ := hc.good.supply sup hsup
    omega

/-- A swap of a reachable pool that passes the entry checks and whose result can be computed commits. -/
theorem swap_commits {w : World} (h : Reachable w) {a : SwapArgs} {cur : Nat} {p1 : Pool} {fm : FeeMode} {r : SwapResult}
    (hmode : a.mode ≤ 2) (hpos : 0 < a.amount0) (hcur : currentPoint w.cfg.activationType a.clk = .ok cur)
    (hlim : w.checkLimiter a cur = .ok ()) (hinc : w.pool.quoteReserve < w.cfg.migrationQuoteThreshold)
    (hclk : w.pool.vol.priceRef ≠ 0 ∨ w.cfg.fees.dyn.initialized = 0 ∨ w.cfg.fees.dyn.filterPeriod ≤ a.clk.time)
    (hpre : w.pool.updatePreSwap w.cfg a.clk.time = .ok p1)
    (hfm : getFeeMode w.cfg.collectFeeMode a.dir a.referral = .ok fm)
    (hr : processSwap w.cfg p1 a fm cur (w.firstMin a) = .ok r) (room : Room w fm a.dir r) :
    ∃ w', w.swap a = .ok w' := by
  obtain ⟨ps, hc⟩ := h.core
  have hs := h.solvent
  have hl := h.life
  have h0 := hl.start.2 hinc
  have sb := hs.base0 h0
  have sq := hs.quote0 h0
  have m1 := hs.supMax
  have m2 := hs.baseMax
  have m3 := hs.quoteMax
  unfold World.baseFees at sb
  unfold World.quoteFees at sq
  obtain ⟨v1, rfl, -, -⟩ := updatePreSwap_ok hpre
  have hres := processSwap_ok (p := { w.pool with vol := v1 }) hc.good.curve hc.lo hc.hi hr
  dsimp only at hres
  have hnext : w.cfg.sqrtStartPrice ≤ r.next ∧ r.next ≤ w.cfg.migrationSqrtPrice := by
    cases hd : a.dir with
    | baseToQuote =>
      have t := hres.sell hd
      exact ⟨t.ge hc.good.curve.proper hc.lo, t.le.trans hc.hi⟩
    | quoteToBase =>
      obtain ⟨t, t'⟩ := hres.buy hd
      exact ⟨hc.lo.trans t.le, t'⟩
  have hin := hres.input
  -- what leaves the reserves is there
  obtain ⟨hsell, hbuy⟩ := hc.outputs hres
  obtain ⟨c1, hc1⟩ := creditFee_total (p := { w.pool with vol := v1, sqrtPrice := r.next }) (c := w.cfg)
    hc.good.creatorPct (fee := r.fee) (b := fm.feesOnBase)
    (fun e => by
      dsimp only
      refine ⟨?_, room.base e⟩
      rcases feeMode_cases hfm with ⟨_, _, g⟩ | ⟨hd, g, _⟩ | ⟨_, _, g⟩
      · rw [e] at g; cases g
      · have := hbuy hd
        unfold outFee at this
        rw [g, if_neg Bool.false_ne_true] at this
        omega
      · rw [e] at g; cases g)
    (fun e => by
      dsimp only
      refine ⟨?_, room.quote e⟩
      rcases feeMode_cases hfm with ⟨hd, g, _⟩ | ⟨_, _, g⟩ | ⟨hd, g, _⟩
      · have := hsell hd
        unfold outFee at this
        rw [g, if_neg Bool.false_ne_true] at this
        omega
      · rw [e] at g; cases g
      · unfold inFee at hin
        rw [g, if_pos rfl] at hin
        have := room.buy hd
        omega)
  obtain ⟨pa, cr, -, ec1⟩ := creditFee_ok hc1
  have eB : c1.baseReserve = w.pool.baseReserve := by rw [ec1]
  have eQ : c1.quoteReserve = w.pool.quoteReserve := by rw [ec1]
  obtain ⟨c2, hc2⟩ := moveReserves_total (p := c1) (r := r) (fm := fm) (dir := a.dir)
    (fun hd => ⟨by have := room.sell hd; omega, by have := hsell hd; omega⟩)
    (fun hd => ⟨by have := room.buy hd; omega, by have := hbuy hd; omega⟩)
    ⟨by omega, by omega⟩
  obtain ⟨B, Q, ec2, -, -⟩ := moveReserves_ok hc2
  obtain ⟨p1, -, e1, -, hpost⟩ := Props.vol_never_blocks h hclk (next := r.next)
    (hc.good.startMin.trans hnext.1) (hnext.2.trans hc.good.migMax.le)
  rw [hpre, ok_inj] at e1
  subst e1
  obtain ⟨c3, hc3⟩ := hpost c2 (by rw [ec2, ec1]) (by rw [ec2, ec1])
  have happly : ∃ p2, ({ w.pool with vol := v1 } : Pool).apply w.cfg r fm a.dir a.clk.time = .ok p2 := by
    unfold Pool.apply
    rw [hc1, ok_bind, hc2, ok_bind, hc3, ok_bind]
    exact ⟨_, rfl⟩
  obtain ⟨p2, hp2⟩ := happly
  obtain ⟨b, q, hbq⟩ := swapTransfers_total (w := w) (r := r) (fm := fm) (dir := a.dir)
    (fun hd => by
      refine ⟨room.sell hd, ?_, ?_⟩
      · have := hsell hd
        rcases feeMode_cases hfm with ⟨_, g, _⟩ | ⟨hd', _⟩ | ⟨hd', _⟩
        · unfold outFee FeeSplit.sum at this
          rw [g, if_neg Bool.false_ne_true] at this
          omega
        · rw [hd] at hd'; cases hd'
        · rw [hd] at hd'; cases hd'
      · rcases feeMode_cases hfm with ⟨_, _, g⟩ | ⟨hd', _⟩ | ⟨hd', _⟩
        · exact g
        · rw [hd] at hd'; cases hd'
        · rw [hd] at hd'; cases hd')
    (fun hd => by
      refine ⟨room.buy hd, ?_⟩
      have := hbuy hd
      rcases feeMode_cases hfm with ⟨hd', _⟩ | ⟨_, g, g'⟩ | ⟨_, g, g'⟩
      · rw [hd] at hd'; cases hd'
      · left
        unfold outFee FeeSplit.sum at this
        rw [g, if_neg Bool.false_ne_true] at this
        exact ⟨g', by omega⟩
      · right
        unfold inFee FeeSplit.sum at hin
        rw [g, if_pos rfl] at hin
        exact ⟨g', by omega, by omega⟩)
  obtain ⟨p3, hp3⟩ := completeSwap_total (now := a.clk.time) hc hs hl hinc hpre hfm hr hp2 hbq
  have hnc : ¬ w.pool.complete w.cfg.migrationQuoteThreshold := by unfold Pool.complete; omega
  unfold World.swap
  rw [show req (a.mode ≤ 2) Err.typeCastFailed = .ok () from req_ok.2 hmode, ok_bind,
    show req (0 < a.amount0) Err.amountIsZero = .ok () from req_ok.2 hpos, ok_bind, hcur, ok_bind, hlim, ok_bind,
    show req (¬ w.pool.complete w.cfg.migrationQuoteThreshold) Err.poolIsCompleted = .ok () from req_ok.2 hnc, ok_bind,
    hpre, ok_bind, hfm, ok_bind, hr, ok_bind, hp2, ok_bind, hbq, ok_bind]
  dsimp only
  rw [hp3, ok_bind]
  exact ⟨_, rfl⟩

end Dbc

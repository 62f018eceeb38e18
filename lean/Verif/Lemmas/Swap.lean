import Verif.Lemmas.Config
import Verif.Model.World

/-!
# What a successful swap did
-/

namespace Dbc

open Spec

/-! ### Fees -/

/-- Everything taken as fee. -/
def FeeSplit.sum (s : FeeSplit) : Nat := s.trading + s.protocol + s.referral

theorem splitFees_ok {fee : Nat} {ref : Bool} {s : FeeSplit} (h : splitFees fee ref = .ok s) :
    s.sum = fee ∧ s.protocol + s.referral = fee * 20 / 100 ∧
      s.referral = (if ref = true then fee * 20 / 100 * 20 / 100 else 0) ∧ fee * 20 ≤ u128Max := by
  simp only [splitFees, bind_ok, mulDivU64_down, safeSub_ok, ok_inj, ite_ok] at h
  obtain ⟨_, ⟨a1, a2, rfl, a3⟩, _, ⟨a4, rfl⟩, rf, hr, _, ⟨a5, rfl⟩, rfl⟩ := h
  simp only [PROTOCOL_FEE_PERCENT, HOST_FEE_PERCENT] at *
  rcases hr with ⟨e, _, _, rfl, _⟩ | ⟨e, rfl⟩
  · simp only [FeeSplit.sum, e, if_true, true_and]
    omega
  · have e' : ref = false := by simpa using e
    subst e'
    simp only [FeeSplit.sum]
    exact ⟨by omega, by omega, by simp, a1⟩

theorem splitFees_some {fee : Nat} (ref : Bool) (h : fee ≤ u64Max) : ∃ s, splitFees fee ref = .ok s := by
  unfold splitFees
  have e1 := mulDivU64_pct (x := fee) (y := PROTOCOL_FEE_PERCENT) (d := 100) h (by decide) (by decide) (by decide)
  have l1 : fee * PROTOCOL_FEE_PERCENT / 100 ≤ fee := by simp only [PROTOCOL_FEE_PERCENT]; omega
  have e2 := mulDivU64_pct (x := fee * PROTOCOL_FEE_PERCENT / 100) (y := HOST_FEE_PERCENT) (d := 100) (by omega)
    (by decide) (by decide) (by decide)
  have l2 : fee * PROTOCOL_FEE_PERCENT / 100 * HOST_FEE_PERCENT / 100 ≤ fee * PROTOCOL_FEE_PERCENT / 100 := by
    simp only [HOST_FEE_PERCENT]; omega
  rw [e1, ok_bind]
  simp only [safeSub, l1, if_true, ok_bind]
  cases ref
  · simp only [Bool.false_eq_true, if_false, ok_bind, Nat.zero_le, if_true]
    exact ⟨_, rfl⟩
  · simp only [if_true, e2, ok_bind, l2]
    exact ⟨_, rfl⟩

theorem feeOnAmount_ok {num amt ex : Nat} {ref : Bool} {s : FeeSplit} (h : feeOnAmount num amt ref = .ok (ex, s)) :
    ex + s.sum = amt ∧ s.sum = divCeil (amt * num) FEE_DENOMINATOR ∧ splitFees s.sum ref = .ok s := by
  simp only [feeOnAmount, excludedFeeAmount, bind_ok, safeSub_ok, ok_inj, Prod.mk.injEq, Prod.exists] at h
  obtain ⟨_, _, ⟨f, hf, _, ⟨a1, rfl⟩, rfl, rfl⟩, s', hs, rfl, rfl⟩ := h
  have := mulDivU64_up' hf
  have hs' := splitFees_ok hs
  rw [hs'.1]
  exact ⟨by omega, this.2.1, hs⟩

theorem includedFeeAmount_ok {num ex inc f : Nat} (h : includedFeeAmount num ex = .ok (inc, f)) :
    num ≤ FEE_DENOMINATOR ∧ num ≠ FEE_DENOMINATOR ∧ inc = divCeil (ex * FEE_DENOMINATOR) (FEE_DENOMINATOR - num) ∧
      ex + f = inc ∧ inc ≤ u64Max := by
  simp only [includedFeeAmount, bind_ok, safeSub_ok, ok_inj, Prod.mk.injEq] at h
  obtain ⟨_, ⟨a1, rfl⟩, i, hi, _, ⟨a2, rfl⟩, rfl, rfl⟩ := h
  have := mulDivU64_up' hi
  exact ⟨a1, by omega, this.2.1, by omega, this.2.2.1⟩

/-! ### One swap on the curve -/

/-- Fee part taken from the output. -/
def outFee (fm : FeeMode) (r : SwapResult) : Nat := if fm.feesOnInput = true then 0 else r.fee.sum
/-- Fee part taken from the input. -/
def inFee (fm : FeeMode) (r : SwapResult) : Nat := if fm.feesOnInput = true then r.fee.sum else 0

/-- The economic content of a swap result. -/
structure Result (c : PoolConfig) (ps : List Point) (price : Nat) (fm : FeeMode) (dir : TradeDirection)
    (r : SwapResult) : Prop where
  input : r.includedIn = r.excludedIn + inFee fm r
  split : splitFees r.fee.sum fm.hasReferral = .ok r.fee ∨ r.fee = FeeSplit.zero
  buy : dir = .quoteToBase → BuyTrace (segs c.sqrtStartPrice ps) price r.next r.excludedIn (r.out + outFee fm r) ∧
    r.next ≤ c.migrationSqrtPrice
  sell : dir = .baseToQuote → SellTrace (segs c.sqrtStartPrice ps) price r.next r.excludedIn (r.out + outFee fm r)
  leftBuy : r.left ≠ 0 → dir = .quoteToBase → r.next = c.migrationSqrtPrice
  leftSell : r.left ≠ 0 → dir = .baseToQuote → r.next = c.sqrtStartPrice

theorem walkIn_ok {c : PoolConfig} {ps : List Point} (hc : CurveOK c ps) {p : Pool} {dir : TradeDirection} {a : Nat}
    {r : FromInput} (h1 : c.sqrtStartPrice ≤ p.sqrtPrice) (h2 : p.sqrtPrice ≤ c.migrationSqrtPrice)
    (h : walkIn c p dir a = .ok r) :
    r.left ≤ a ∧
    (dir = .quoteToBase → BuyTrace (segs c.sqrtStartPrice ps) p.sqrtPrice r.next (a - r.left) r.out ∧
      r.next ≤ c.migrationSqrtPrice) ∧
    (dir = .baseToQuote → SellTrace (segs c.sqrtStartPrice ps) p.sqrtPrice r.next (a - r.left) r.out) ∧
    (r.left ≠ 0 → dir = .quoteToBase → r.next = c.migrationSqrtPrice) ∧
    (r.left ≠ 0 → dir = .baseToQuote → r.next = c.sqrtStartPrice) := by
  unfold walkIn at h
  cases dir with
  | baseToQuote =>
    obtain ⟨i, tr, e, e'⟩ := sellIn_trace hc h2 h
    have : a - r.left = i := by omega
    rw [this]
    exact ⟨by omega, by simp, fun _ => tr, by simp, fun h _ => e' h⟩
  | quoteToBase =>
    obtain ⟨i, tr, e, e', e''⟩ := buyIn_trace hc h1 h2 h
    have : a - r.left = i := by omega
    rw [this]
    exact ⟨by omega, fun _ => ⟨tr, e'⟩, by simp, fun h _ => e'' h, by simp⟩

theorem exactIn_ok {c : PoolConfig} {ps : List Point} (hc : CurveOK c ps) {p : Pool} {a : Nat} {fm : FeeMode}
    {dir : TradeDirection} {cur : Nat} {fst : Bool} {r : SwapResult} (h1 : c.sqrtStartPrice ≤ p.sqrtPrice)
    (h2 : p.sqrtPrice ≤ c.migrationSqrtPrice) (h : exactIn c p a fm dir cur fst = .ok r) :
    Result c ps p.sqrtPrice fm dir r ∧ r.includedIn = a ∧ r.left = 0 := by
  simp only [exactIn, bind_ok, ok_inj] at h
  obtain ⟨num, hnum, ⟨ai, fi⟩, hin, w, hw, _, hz, ⟨ao, fo⟩, hout, rfl⟩ := h
  rw [req_ok] at hz
  obtain ⟨e1, e2, e3, e4, e5⟩ := walkIn_ok hc h1 h2 hw
  dsimp only at *
  rw [hz, Nat.sub_zero] at e2 e3
  rw [ite_ok] at hin hout
  refine ⟨?_, rfl, hz⟩
  rcases hin with ⟨g, hin⟩ | ⟨g, hin⟩ <;> rcases hout with ⟨g', hout⟩ | ⟨g', hout⟩ <;> try contradiction
  · have hf := feeOnAmount_ok hin
    simp only [ok_inj, Prod.mk.injEq] at hout
    obtain ⟨rfl, rfl⟩ := hout
    refine ⟨?_, .inl hf.2.2, ?_, ?_, e4, e5⟩
    · simp only [inFee, g, if_true]; omega
    · simpa only [outFee, g, if_true, Nat.add_zero] using e2
    · simpa only [outFee, g, if_true, Nat.add_zero] using e3
  · have hf := feeOnAmount_ok hout
    simp only [ok_inj, Prod.mk.injEq] at hin
    obtain ⟨rfl, rfl⟩ := hin
    refine ⟨?_, .inl hf.2.2, ?_, ?_, e4, e5⟩
    · simp only [inFee, g, Bool.false_eq_true, if_false]; omega
    · simp only [outFee, g, Bool.false_eq_true, if_false]; rw [hf.1]; exact e2
    · simp only [outFee, g, Bool.false_eq_true, if_false]; rw [hf.1]; exact e3

theorem partialIn_ok {c : PoolConfig} {ps : List Point} (hc : CurveOK c ps) {p : Pool} {a : Nat} {fm : FeeMode}
    {dir : TradeDirection} {cur : Nat} {fst : Bool} {r : SwapResult} (h1 : c.sqrtStartPrice ≤ p.sqrtPrice)
    (h2 : p.sqrtPrice ≤ c.migrationSqrtPrice) (h : partialIn c p a fm dir cur fst = .ok r) :
    Result c ps p.sqrtPrice fm dir r ∧ (r.left = 0 → r.includedIn = a) := by
  simp only [partialIn, bind_ok, ok_inj] at h
  obtain ⟨num, hnum, ⟨ai, fi⟩, hin, w, hw, ⟨inc, ai', fi'⟩, hmid, ⟨ao, fo⟩, hout, rfl⟩ := h
  obtain ⟨e1, e2, e3, e4, e5⟩ := walkIn_ok hc h1 h2 hw
  dsimp only at *
  rw [ite_ok] at hin hout hmid
  have key : ai' = ai - w.left ∧ (w.left = 0 → inc = a) ∧
      (fm.feesOnInput = true → inc = ai' + fi'.sum ∧ splitFees fi'.sum fm.hasReferral = .ok fi') ∧
      (¬ fm.feesOnInput = true → inc = ai') := by
    rcases hmid with ⟨m, hmid⟩ | ⟨m, hmid⟩
    · simp only [bind_ok, safeSub_ok, ite_ok, ok_inj, Prod.mk.injEq, Prod.exists] at hmid
      obtain ⟨_, ⟨_, rfl⟩, ⟨g, num', hn', i', f', hif, s, hs, rfl, rfl, rfl⟩ | ⟨g, rfl, rfl, rfl⟩⟩ := hmid
      · have := includedFeeAmount_ok hif
        have hs' := splitFees_ok hs
        refine ⟨rfl, fun h => absurd h m, fun _ => ⟨by omega, by rw [hs'.1]; exact hs⟩, fun h => absurd g h⟩
      · exact ⟨rfl, fun h => absurd h m, fun h => absurd h g, fun _ => rfl⟩
    · have hz : w.left = 0 := by omega
      simp only [ok_inj, Prod.mk.injEq] at hmid
      obtain ⟨rfl, rfl, rfl⟩ := hmid
      refine ⟨by omega, fun _ => rfl, fun g => ?_, fun g => ?_⟩
      · simp only [g, true_and, not_true, false_and, or_false] at hin
        have := feeOnAmount_ok hin
        exact ⟨by omega, this.2.2⟩
      · simp only [g, Bool.false_eq_true, false_and, not_false_eq_true, true_and, false_or, ok_inj, Prod.mk.injEq] at hin
        exact hin.1
  obtain ⟨k1, k2, k3, k4⟩ := key
  refine ⟨?_, k2⟩
  rw [← k1] at e2 e3
  rcases hout with ⟨g', hout⟩ | ⟨g', hout⟩
  · simp only [ok_inj, Prod.mk.injEq] at hout
    obtain ⟨rfl, rfl⟩ := hout
    obtain ⟨k5, k6⟩ := k3 g'
    refine ⟨?_, .inl k6, ?_, ?_, e4, e5⟩
    · simp only [inFee, g', if_true]; exact k5
    · simpa only [outFee, g', if_true, Nat.add_zero] using e2
    · simpa only [outFee, g', if_true, Nat.add_zero] using e3
  · have hf := feeOnAmount_ok hout
    refine ⟨?_, .inl hf.2.2, ?_, ?_, e4, e5⟩
    · simp only [inFee, g', Bool.false_eq_true, if_false]; rw [k4 g']; rfl
    · simp only [outFee, g', Bool.false_eq_true, if_false]; rw [hf.1]; exact e2
    · simp only [outFee, g', Bool.false_eq_true, if_false]; rw [hf.1]; exact e3

theorem exactOut_ok {c : PoolConfig} {ps : List Point} (hc : CurveOK c ps) {p : Pool} {a : Nat} {fm : FeeMode}
    {dir : TradeDirection} {cur : Nat} {fst : Bool} {r : SwapResult} (h1 : c.sqrtStartPrice ≤ p.sqrtPrice)
    (h2 : p.sqrtPrice ≤ c.migrationSqrtPrice) (h : exactOut c p a fm dir cur fst = .ok r) :
    Result c ps p.sqrtPrice fm dir r ∧ r.out = a ∧ r.left = 0 := by
  simp only [exactOut, bind_ok, ok_inj] at h
  obtain ⟨⟨io, fo⟩, hout, w, hw, _, hmig, ⟨ii, fi⟩, hin, rfl⟩ := h
  rw [req_ok] at hmig
  dsimp only at *
  have e2 : (dir = .quoteToBase → BuyTrace (segs c.sqrtStartPrice ps) p.sqrtPrice w.next w.amountIn io ∧
      w.next ≤ c.migrationSqrtPrice) ∧
      (dir = .baseToQuote → SellTrace (segs c.sqrtStartPrice ps) p.sqrtPrice w.next w.amountIn io) := by
    unfold walkOut at hw
    cases dir with
    | baseToQuote => exact ⟨by simp, fun _ => sellOut_trace hc h2 hw⟩
    | quoteToBase => exact ⟨fun _ => ⟨(buyOut_trace hc h1 hw).1, hmig⟩, by simp⟩
  rw [ite_ok] at hin hout
  refine ⟨?_, rfl, rfl⟩
  rcases hin with ⟨g, hin⟩ | ⟨g, hin⟩ <;> rcases hout with ⟨g', hout⟩ | ⟨g', hout⟩ <;> try contradiction
  · simp only [bind_ok, ok_inj, Prod.mk.injEq, Prod.exists] at hin hout
    obtain ⟨rfl, rfl⟩ := hout
    obtain ⟨num, hnum, i', f', hif, s, hs, rfl, rfl⟩ := hin
    have := includedFeeAmount_ok hif
    have hs' := splitFees_ok hs
    refine ⟨?_, .inl (by rw [hs'.1]; exact hs), ?_, ?_, by simp, by simp⟩
    · simp only [inFee, g, if_true]; omega
    · simpa only [outFee, g, if_true, Nat.add_zero] using e2.1
    · simpa only [outFee, g, if_true, Nat.add_zero] using e2.2
  · simp only [bind_ok, ok_inj, Prod.mk.injEq, Prod.exists] at hin hout
    obtain ⟨rfl, rfl⟩ := hin
    obtain ⟨num, hnum, i', f', hif, s, hs, rfl, rfl⟩ := hout
    have := includedFeeAmount_ok hif
    have hs' := splitFees_ok hs
    have hsum : a + s.sum = i' := by omega
    refine ⟨?_, .inl (by rw [hs'.1]; exact hs), ?_, ?_, by simp, by simp⟩
    · simp only [inFee, g, Bool.false_eq_true, if_false]; rfl
    · simp only [outFee, g, Bool.false_eq_true, if_false]; rw [hsum]; exact e2.1
    · simp only [outFee, g, Bool.false_eq_true, if_false]; rw [hsum]; exact e2.2

theorem processSwap_ok {c : PoolConfig} {ps : List Point} (hc : CurveOK c ps) {p : Pool} {a : SwapArgs} {fm : FeeMode}
    {cur : Nat} {fst : Bool} {r : SwapResult} (h1 : c.sqrtStartPrice ≤ p.sqrtPrice)
    (h2 : p.sqrtPrice ≤ c.migrationSqrtPrice) (h : processSwap c p a fm cur fst = .ok r) :
    Result c ps p.sqrtPrice fm a.dir r := by
  unfold processSwap at h
  split at h <;> simp only [bind_ok, req_ok, ok_inj] at h <;> obtain ⟨_, h, _, _, rfl⟩ := h
  · exact (exactIn_ok hc h1 h2 h).1
  · exact (partialIn_ok hc h1 h2 h).1
  · exact (exactOut_ok hc h1 h2 h).1

/-! ### The whole instruction -/

/-- Creator's part of the trading fee of a swap. -/
def crPart (c : PoolConfig) (r : SwapResult) : Nat := r.fee.trading * c.creatorTradingFeePct / 100
/-- Partner's part of the trading fee of a swap. -/
def paPart (c : PoolConfig) (r : SwapResult) : Nat := r.fee.trading - crPart c r

theorem splitPartnerCreator_ok {c : PoolConfig} {fee pa cr : Nat} (h : c.splitPartnerCreator fee = .ok (pa, cr)) :
    cr = fee * c.creatorTradingFeePct / 100 ∧ pa + cr = fee := by
  unfold PoolConfig.splitPartnerCreator at h
  rw [ite_ok] at h
  rcases h with ⟨e, h⟩ | ⟨e, h⟩
  · simp only [ok_inj, Prod.mk.injEq] at h
    obtain ⟨rfl, rfl⟩ := h
    simp [e]
  · simp only [bind_ok, mulDivU64_down, safeSub_ok, ok_inj, Prod.mk.injEq] at h
    obtain ⟨_, ⟨_, _, rfl, _⟩, _, ⟨_, rfl⟩, rfl, rfl⟩ := h
    exact ⟨rfl, by omega⟩

/-- The amount, only when the condition holds. -/
def onlyIf (b : Bool) (x : Nat) : Nat := if b = true then x else 0

@[simp] theorem onlyIf_true (x : Nat) : onlyIf true x = x := rfl
@[simp] theorem onlyIf_false (x : Nat) : onlyIf false x = 0 := rfl

/-- All effects of a successful swap. `v1`, `v2` are the volatility trackers after the pre- and post-swap updates. -/
structure SwapStep (w : World) (a : SwapArgs) (w' : World) (cur : Nat) (fm : FeeMode) (r : SwapResult)
    (v1 v2 : VolTracker) : Prop where
  mode : a.mode ≤ 2
  pos : 0 < a.amount0
  hcur : currentPoint w.cfg.activationType a.clk = .ok cur
  lim : w.checkLimiter a cur = .ok ()
  incomplete : w.pool.quoteReserve < w.cfg.migrationQuoteThreshold
  hfm : getFeeMode w.cfg.collectFeeMode a.dir a.referral = .ok fm
  pre : w.pool.updatePreSwap w.cfg a.clk.time = .ok { w.pool with vol := v1 }
  preOff : w.cfg.fees.dyn.initialized = 0 → v1 = w.pool.vol ∧ v2 = v1
  preOn : w.cfg.fees.dyn.initialized ≠ 0 → updateReferences w.cfg.fees.dyn w.pool.vol w.pool.sqrtPrice a.clk.time = .ok v1
  postOn : w.cfg.fees.dyn.initialized ≠ 0 → ∃ v d, updateVolAcc w.cfg.fees.dyn v1 r.next = .ok v ∧
    deltaBinId w.cfg.fees.dyn.binStepU128 w.pool.sqrtPrice r.next = .ok d ∧
    v2 = if 0 < d then { v with lastUpdate := a.clk.time } else v
  proc : processSwap w.cfg { w.pool with vol := v1 } a fm cur (w.firstMin a) = .ok r
  vol : w'.pool.vol = v2
  price : w'.pool.sqrtPrice = r.next
  hasSwap : w'.pool.hasSwap = 1
  partnerBase : w'.pool.partnerBaseFee = w.pool.partnerBaseFee + onlyIf fm.feesOnBase (paPart w.cfg r)
  creatorBase : w'.pool.creatorBaseFee = w.pool.creatorBaseFee + onlyIf fm.feesOnBase (crPart w.cfg r)
  protocolBase : w'.pool.protocolBaseFee = w.pool.protocolBaseFee + onlyIf fm.feesOnBase r.fee.protocol
  partnerQuote : w'.pool.partnerQuoteFee = w.pool.partnerQuoteFee + onlyIf (!fm.feesOnBase) (paPart w.cfg r)
  creatorQuote : w'.pool.creatorQuoteFee = w.pool.creatorQuoteFee + onlyIf (!fm.feesOnBase) (crPart w.cfg r)
  protocolQuote : w'.pool.protocolQuoteFee = w.pool.protocolQuoteFee + onlyIf (!fm.feesOnBase) r.fee.protocol
  metProtocolBase : w'.pool.metrics.protocolBase = w.pool.metrics.protocolBase + onlyIf fm.feesOnBase r.fee.protocol
  metTradingBase : w'.pool.metrics.tradingBase = w.pool.metrics.tradingBase + onlyIf fm.feesOnBase r.fee.trading
  metProtocolQuote : w'.pool.metrics.protocolQuote =
    w.pool.metrics.protocolQuote + onlyIf (!fm.feesOnBase) r.fee.protocol
  metTradingQuote : w'.pool.metrics.tradingQuote = w.pool.metrics.tradingQuote + onlyIf (!fm.feesOnBase) r.fee.trading
  split : paPart w.cfg r + crPart w.cfg r = r.fee.trading
  sellRes : a.dir = .baseToQuote → w'.pool.baseReserve = w.pool.baseReserve + r.excludedIn ∧
    w'.pool.quoteReserve + (r.out + outFee fm r) = w.pool.quoteReserve
  buyRes : a.dir = .quoteToBase → w'.pool.quoteReserve = w.pool.quoteReserve + r.excludedIn ∧
    w'.pool.baseReserve + (r.out + outFee fm r) = w.pool.baseReserve
  resMax : w'.pool.baseReserve ≤ max w.pool.baseReserve u64Max ∧ w'.pool.quoteReserve ≤ max w.pool.quoteReserve u64Max
  sellVault : a.dir = .baseToQuote →
    w'.baseVault + onlyIf (fm.hasReferral && fm.feesOnBase) r.fee.referral = w.baseVault + r.includedIn ∧
    w'.quoteVault + r.out + onlyIf (fm.hasReferral && !fm.feesOnBase) r.fee.referral = w.quoteVault
  buyVault : a.dir = .quoteToBase →
    w'.quoteVault + onlyIf (fm.hasReferral && !fm.feesOnBase) r.fee.referral = w.quoteVault + r.includedIn ∧
    w'.baseVault + r.out + onlyIf (fm.hasReferral && fm.feesOnBase) r.fee.referral = w.baseVault
  vaultMax : w'.baseVault ≤ max w.baseVault w.supply ∧ w'.quoteVault ≤ max w.quoteVault u64Max
  frame : w' = { w with pool := w'.pool, baseVault := w'.baseVault, quoteVault := w'.quoteVault,
                        led := w.led.recordSwap w.cfg r fm a.dir (w.firstMin a) }
  poolFrame : w'.pool = { w'.pool with
    creator := w.pool.creator, activationPoint := w.pool.activationPoint, poolType := w.pool.poolType,
    isMigrated := w.pool.isMigrated, partnerSurplus := w.pool.partnerSurplus, protocolSurplus := w.pool.protocolSurplus,
    isWithdrawLeftover := w.pool.isWithdrawLeftover, creatorSurplus := w.pool.creatorSurplus,
    migrationFeeStatus := w.pool.migrationFeeStatus, legacyCreationBits := w.pool.legacyCreationBits,
    creationBits := w.pool.creationBits, migrationFeeBps := w.pool.migrationFeeBps,
    protocolMigBaseFee := w.pool.protocolMigBaseFee, protocolMigQuoteFee := w.pool.protocolMigQuoteFee }
  still : w'.pool.quoteReserve < w.cfg.migrationQuoteThreshold →
    w'.pool.migrationProgress = w.pool.migrationProgress ∧ w'.pool.finishTimestamp = w.pool.finishTimestamp
  done : w.cfg.migrationQuoteThreshold ≤ w'.pool.quoteReserve →
    w'.pool.migrationProgress = (if w.cfg.lockedVesting.has then 1 else 2) ∧ w'.pool.finishTimestamp = a.clk.time ∧
    ∃ t, w.cfg.lockedVesting.total = .ok t ∧ w.cfg.migrationBaseThreshold + (w'.pool.partnerBaseFee +
      w'.pool.protocolBaseFee + w'.pool.creatorBaseFee) + t ≤ w'.baseVault

theorem vaultIn_ok {s v a x : Nat} : vaultIn s v a = .ok x ↔ v + a ≤ s ∧ x = v + a := by
  unfold vaultIn; split <;> simp_all [eq_comm]

theorem vaultOut_ok {v a x : Nat} : vaultOut v a = .ok x ↔ a ≤ v ∧ x = v - a := by
  unfold vaultOut; split <;> simp_all [eq_comm]

theorem updatePreSwap_ok {p p1 : Pool} {c : PoolConfig} {now : Nat} (h : p.updatePreSwap c now = .ok p1) :
    ∃ v1, p1 = { p with vol := v1 } ∧ (c.fees.dyn.initialized = 0 → v1 = p.vol) ∧
      (c.fees.dyn.initialized ≠ 0 → updateReferences c.fees.dyn p.vol p.sqrtPrice now = .ok v1) := by
  unfold Pool.updatePreSwap at h
  rw [ite_ok] at h
  rcases h with ⟨e, h⟩ | ⟨e, h⟩
  · simp only [bind_ok, ok_inj] at h
    obtain ⟨v, hv, rfl⟩ := h
    exact ⟨v, rfl, fun h => absurd h e, fun _ => hv⟩
  · rw [ok_inj] at h
    subst h
    exact ⟨p.vol, rfl, fun _ => rfl, fun h => absurd h e⟩

theorem updatePostSwap_ok {p p1 : Pool} {c : PoolConfig} {old now : Nat} (h : p.updatePostSwap c old now = .ok p1) :
    ∃ v2, p1 = { p with vol := v2 } ∧ (c.fees.dyn.initialized = 0 → v2 = p.vol) ∧
      (c.fees.dyn.initialized ≠ 0 → ∃ v d, updateVolAcc c.fees.dyn p.vol p.sqrtPrice = .ok v ∧
        deltaBinId c.fees.dyn.binStepU128 old p.sqrtPrice = .ok d ∧
        v2 = if 0 < d then { v with lastUpdate := now } else v) := by
  unfold Pool.updatePostSwap at h
  rw [ite_ok] at h
  rcases h with ⟨e, h⟩ | ⟨e, h⟩
  · simp only [bind_ok, ok_inj] at h
    obtain ⟨v, hv, d, hd, rfl⟩ := h
    exact ⟨_, rfl, fun h => absurd h e, fun _ => ⟨v, d, hv, hd, rfl⟩⟩
  · rw [ok_inj] at h
    subst h
    exact ⟨p.vol, rfl, fun _ => rfl, fun h => absurd h e⟩

theorem creditFee_ok {p p1 : Pool} {c : PoolConfig} {fee : FeeSplit} {b : Bool} (h : p.creditFee c fee b = .ok p1) :
    ∃ pa cr, c.splitPartnerCreator fee.trading = .ok (pa, cr) ∧
    p1 = { p with
      partnerBaseFee := p.partnerBaseFee + onlyIf b pa, creatorBaseFee := p.creatorBaseFee + onlyIf b cr,
      protocolBaseFee := p.protocolBaseFee + onlyIf b fee.protocol,
      partnerQuoteFee := p.partnerQuoteFee + onlyIf (!b) pa, creatorQuoteFee := p.creatorQuoteFee + onlyIf (!b) cr,
      protocolQuoteFee := p.protocolQuoteFee + onlyIf (!b) fee.protocol,
      metrics := ⟨p.metrics.protocolBase + onlyIf b fee.protocol, p.metrics.protocolQuote + onlyIf (!b) fee.protocol,
        p.metrics.tradingBase + onlyIf b fee.trading, p.metrics.tradingQuote + onlyIf (!b) fee.trading⟩ } := by
  simp only [Pool.creditFee, Metrics.accumulate, bind_ok, Prod.exists, ite_ok, safeAdd_ok, ok_inj] at h
  obtain ⟨pa, cr, hs, h⟩ := h
  refine ⟨pa, cr, hs, ?_⟩
  rcases h with ⟨rfl, _, ⟨_, rfl⟩, _, ⟨_, rfl⟩, _, ⟨_, rfl⟩, m, hm, rfl⟩ | ⟨e, _, ⟨_, rfl⟩, _, ⟨_, rfl⟩, _, ⟨_, rfl⟩, m, hm, rfl⟩
  · rcases hm with ⟨_, _, ⟨_, rfl⟩, _, ⟨_, rfl⟩, rfl⟩ | ⟨h, _⟩
    · rfl
    · exact absurd trivial h
  · have : b = false := by simpa using e
    subst this
    rcases hm with ⟨h, _⟩ | ⟨_, _, ⟨_, rfl⟩, _, ⟨_, rfl⟩, rfl⟩
    · exact absurd h (by decide)
    · rfl

theorem moveReserves_ok {p p1 : Pool} {r : SwapResult} {fm : FeeMode} {dir : TradeDirection}
    (h : p.moveReserves r fm dir = .ok p1) :
    ∃ B Q, p1 = { p with baseReserve := B, quoteReserve := Q } ∧
    (dir = .baseToQuote → B = p.baseReserve + r.excludedIn ∧
      Q + (r.out + outFee fm r) = p.quoteReserve ∧ B ≤ u64Max) ∧
    (dir = .quoteToBase → Q = p.quoteReserve + r.excludedIn ∧
      B + (r.out + outFee fm r) = p.baseReserve ∧ Q ≤ u64Max) := by
  simp only [Pool.moveReserves, bind_ok] at h
  obtain ⟨o, ho, h⟩ := h
  have e : o = r.out + outFee fm r := by
    rw [ite_ok] at ho
    rcases ho with ⟨g, ho⟩ | ⟨g, ho⟩
    · rw [ok_inj] at ho
      simp only [outFee, g, if_true]; omega
    · simp only [bind_ok, safeAdd_ok] at ho
      obtain ⟨_, ⟨_, rfl⟩, _, ⟨_, rfl⟩, _, rfl⟩ := ho
      simp only [outFee, g, Bool.false_eq_true, if_false, FeeSplit.sum]; omega
  cases dir with
  | baseToQuote =>
    simp only [bind_ok, safeAdd_ok, safeSub_ok, ok_inj] at h
    obtain ⟨_, ⟨h1, rfl⟩, _, ⟨h2, rfl⟩, rfl⟩ := h
    refine ⟨_, _, rfl, fun _ => ⟨rfl, ?_, h1⟩, by simp⟩
    omega
  | quoteToBase =>
    simp only [bind_ok, safeAdd_ok, safeSub_ok, ok_inj] at h
    obtain ⟨_, ⟨h1, rfl⟩, _, ⟨h2, rfl⟩, rfl⟩ := h
    refine ⟨_, _, rfl, by simp, fun _ => ⟨rfl, ?_, h1⟩⟩
    omega

theorem baseFees_ok {p : Pool} {f : Nat} :
    p.baseFees = .ok f ↔ p.partnerBaseFee + p.protocolBaseFee + p.creatorBaseFee ≤ u64Max ∧
      f = p.partnerBaseFee + p.protocolBaseFee + p.creatorBaseFee := by
  simp only [Pool.baseFees, bind_ok, safeAdd_ok]
  constructor
  · rintro ⟨_, ⟨h1, rfl⟩, h2, rfl⟩; exact ⟨h2, rfl⟩
  · rintro ⟨h1, rfl⟩; exact ⟨_, ⟨by omega, rfl⟩, h1, rfl⟩

theorem completeSwap_ok {c : PoolConfig} {p p1 : Pool} {bv now : Nat} (h : completeSwap c p bv now = .ok p1) :
    ∃ M F, p1 = { p with migrationProgress := M, finishTimestamp := F } ∧
    (p.quoteReserve < c.migrationQuoteThreshold → M = p.migrationProgress ∧ F = p.finishTimestamp) ∧
    (c.migrationQuoteThreshold ≤ p.quoteReserve → M = (if c.lockedVesting.has then 1 else 2) ∧
      F = now ∧ ∃ t, c.lockedVesting.total = .ok t ∧
      c.migrationBaseThreshold + (p.partnerBaseFee + p.protocolBaseFee + p.creatorBaseFee) + t ≤ bv) := by
  unfold completeSwap at h
  rw [ite_ok] at h
  rcases h with ⟨e, h⟩ | ⟨e, h⟩
  · unfold Pool.complete at e
    simp only [bind_ok, safeAdd_ok, req_ok, ok_inj] at h
    obtain ⟨f, hf, _, ⟨_, rfl⟩, t, ht, _, ⟨_, rfl⟩, _, hb, rfl⟩ := h
    rw [baseFees_ok] at hf
    refine ⟨_, _, rfl, fun h => by omega, fun _ => ⟨rfl, rfl, t, ht, by omega⟩⟩
  · unfold Pool.complete at e
    rw [ok_inj] at h
    subst h
    exact ⟨_, _, rfl, fun _ => ⟨rfl, rfl⟩, fun h => absurd h e⟩

theorem swapTransfers_ok {w : World} {r : SwapResult} {fm : FeeMode} {dir : TradeDirection} {b q : Nat}
    (h : swapTransfers w r fm dir = .ok (b, q)) :
    (dir = .baseToQuote →
      b + onlyIf (fm.hasReferral && fm.feesOnBase) r.fee.referral = w.baseVault + r.includedIn ∧
      q + r.out + onlyIf (fm.hasReferral && !fm.feesOnBase) r.fee.referral = w.quoteVault ∧
      w.baseVault + r.includedIn ≤ w.supply) ∧
    (dir = .quoteToBase →
      q + onlyIf (fm.hasReferral && !fm.feesOnBase) r.fee.referral = w.quoteVault + r.includedIn ∧
      b + r.out + onlyIf (fm.hasReferral && fm.feesOnBase) r.fee.referral = w.baseVault ∧
      w.quoteVault + r.includedIn ≤ u64Max) := by
  unfold swapTransfers at h
  cases dir with
  | baseToQuote =>
    simp only [bind_ok, vaultIn_ok, vaultOut_ok, ite_ok, ok_inj, Prod.mk.injEq] at h
    obtain ⟨_, ⟨h1, rfl⟩, _, ⟨h2, rfl⟩, h⟩ := h
    refine ⟨fun _ => ?_, by simp⟩
    rcases h with ⟨g, ⟨g', _, ⟨h3, rfl⟩, rfl, rfl⟩ | ⟨g', _, ⟨h3, rfl⟩, rfl, rfl⟩⟩ | ⟨g, rfl, rfl⟩
    · simp only [g, g', Bool.true_and, Bool.and_true, onlyIf_true, onlyIf_false, Bool.not_true]; omega
    · simp only [g, g', Bool.true_and, Bool.and_true, onlyIf_true, onlyIf_false, Bool.not_false]; omega
    · simp only [g, Bool.false_and, onlyIf_false]; omega
  | quoteToBase =>
    simp only [bind_ok, vaultIn_ok, vaultOut_ok, ite_ok, ok_inj, Prod.mk.injEq] at h
    obtain ⟨_, ⟨h1, rfl⟩, _, ⟨h2, rfl⟩, h⟩ := h
    refine ⟨by simp, fun _ => ?_⟩
    rcases h with ⟨g, ⟨g', _, ⟨h3, rfl⟩, rfl, rfl⟩ | ⟨g', _, ⟨h3, rfl⟩, rfl, rfl⟩⟩ | ⟨g, rfl, rfl⟩
    · simp only [g, g', Bool.true_and, Bool.and_true, onlyIf_true, onlyIf_false, Bool.not_true]; omega
    · simp only [g, g', Bool.true_and, Bool.and_true, onlyIf_true, onlyIf_false, Bool.not_false]; omega
    · simp only [g, Bool.false_and, onlyIf_false]; omega

theorem swap_ok {w w' : World} {a : SwapArgs} (h : w.swap a = .ok w') :
    ∃ cur fm r v1 v2, SwapStep w a w' cur fm r v1 v2 := by
  unfold World.swap at h
  simp only [bind_ok, req_ok, ok_inj, Prod.exists] at h
  obtain ⟨_, h1, _, h2, cur, hcur, ⟨⟩, hlim, _, hinc, p1, hp1, fm, hfm, r, hr, p2, hp2, b, q, hbq, p3, hp3, rfl⟩ := h
  obtain ⟨v1, rfl, e1, e2⟩ := updatePreSwap_ok hp1
  simp only [Pool.apply, bind_ok, ok_inj] at hp2
  obtain ⟨c1, hc1, c2, hc2, c3, hc3, rfl⟩ := hp2
  obtain ⟨pa, cr, hs, rfl⟩ := creditFee_ok hc1
  clear hc1
  dsimp only at hc2
  obtain ⟨B, Q, rfl, m2, m3⟩ := moveReserves_ok hc2
  clear hc2
  dsimp only at hc3 m2 m3
  obtain ⟨v2, rfl, u1, u2⟩ := updatePostSwap_ok hc3
  clear hc3
  dsimp only at hp3 u1 u2
  obtain ⟨M, F, rfl, d2, d3⟩ := completeSwap_ok hp3
  clear hp3
  dsimp only at d2 d3
  obtain ⟨s1, s2⟩ := swapTransfers_ok hbq
  obtain ⟨x1, x2⟩ := splitPartnerCreator_ok hs
  have ecr : cr = crPart w.cfg r := x1
  have epa : pa = paPart w.cfg r := by unfold paPart; omega
  unfold Pool.complete at hinc
  refine ⟨cur, fm, r, v1, v2, ?_⟩
  exact {
    mode := h1, pos := h2, hcur := hcur, lim := hlim, incomplete := by omega, hfm := hfm, pre := hp1
    preOff := fun h => ⟨e1 h, u1 h⟩
    preOn := e2
    postOn := u2
    proc := hr
    vol := rfl, price := rfl, hasSwap := rfl
    partnerBase := by rw [← epa]
    creatorBase := by rw [← ecr]
    protocolBase := rfl
    partnerQuote := by rw [← epa]
    creatorQuote := by rw [← ecr]
    protocolQuote := rfl
    metProtocolBase := rfl, metTradingBase := rfl, metProtocolQuote := rfl, metTradingQuote := rfl
    split := by omega
    sellRes := fun hd => ⟨(m2 hd).1, (m2 hd).2.1⟩
    buyRes := fun hd => ⟨(m3 hd).1, (m3 hd).2.1⟩
    resMax := by
      dsimp only
      cases hd : a.dir with
      | baseToQuote => have := m2 hd; omega
      | quoteToBase => have := m3 hd; omega
    sellVault := fun hd => ⟨(s1 hd).1, (s1 hd).2.1⟩
    buyVault := fun hd => ⟨(s2 hd).1, (s2 hd).2.1⟩
    vaultMax := by
      dsimp only
      cases hd : a.dir with
      | baseToQuote => have := s1 hd; omega
      | quoteToBase => have := s2 hd; omega
    frame := rfl
    poolFrame := rfl
    still := d2
    done := d3 }

end Dbc

import Verif.Spec.World
import Verif.Lemmas.Charge
import Verif.Lemmas.History
import Verif.Props.Fee
import Verif.Props.Config

/-!
# One swap: C01-C05, C07, C08, C10, C12, C18, C32
-/

namespace Props
open Dbc Spec

/-! ### The observable content of a swap -/

/-- The token a fee mode collects in. -/
def feeTok (fm : FeeMode) : Token := if fm.feesOnBase = true then .base else .quote

def tradeOf (c : PoolConfig) (fm : FeeMode) (r : SwapResult) : Trade where
  paid := r.includedIn
  got := r.out
  feeToken := feeTok fm
  partner := paPart c r
  creator := crPart c r
  protocol := r.fee.protocol
  referral := r.fee.referral

theorem getFeeMode_ok {cm : Nat} {dir : TradeDirection} {ref : Bool} {fm : FeeMode} (h : getFeeMode cm dir ref = .ok fm) :
    fm.hasReferral = ref ∧ (fm.feesOnInput = true ↔ feeTok fm = inToken dir) ∧
    (cm = 0 → feeTok fm = .quote) ∧ (cm = 1 → feeTok fm = outToken dir) ∧ (cm = 0 ∨ cm = 1) := by
  unfold getFeeMode CollectFeeMode.tryFrom at h
  split at h
  · cases h
  all_goals
    rename_i hm
    split at hm <;> first | cases hm | skip
    cases dir <;> simp only [ok_inj] at h <;> subst h <;> simp [feeTok, inToken, outToken]

theorem recordSwap_fields (l : Ledger) (c : PoolConfig) (r : SwapResult) (fm : FeeMode) (dir : TradeDirection) (f : Bool) :
    (l.recordSwap c r fm dir f).tradeBaseIn = l.tradeBaseIn + inTok (inToken dir) .base r.includedIn ∧
    (l.recordSwap c r fm dir f).tradeQuoteIn = l.tradeQuoteIn + inTok (inToken dir) .quote r.includedIn ∧
    (l.recordSwap c r fm dir f).tradeBaseOut = l.tradeBaseOut + inTok (outToken dir) .base r.out ∧
    (l.recordSwap c r fm dir f).tradeQuoteOut = l.tradeQuoteOut + inTok (outToken dir) .quote r.out ∧
    (l.recordSwap c r fm dir f).refBase = l.refBase + inTok (feeTok fm) .base r.fee.referral ∧
    (l.recordSwap c r fm dir f).refQuote = l.refQuote + inTok (feeTok fm) .quote r.fee.referral := by
  unfold Ledger.recordSwap feeTok
  cases dir <;> cases fm.feesOnBase <;> simp [inTok, inToken, outToken]

theorem onlyIf_base (fm : FeeMode) (x : Nat) : onlyIf fm.feesOnBase x = inTok (feeTok fm) .base x := by
  unfold feeTok inTok; cases fm.feesOnBase <;> simp

theorem onlyIf_quote (fm : FeeMode) (x : Nat) : onlyIf (!fm.feesOnBase) x = inTok (feeTok fm) .quote x := by
  unfold feeTok inTok; cases fm.feesOnBase <;> simp

theorem SwapStep.observed {w w' : World} {a : SwapArgs} {cur : Nat} {fm : FeeMode} {r : SwapResult} {v1 v2 : VolTracker}
    (s : SwapStep w a w' cur fm r v1 v2) : Observed w w' a.dir (tradeOf w.cfg fm r) := by
  have hf := recordSwap_fields w.led w.cfg r fm a.dir (w.firstMin a)
  have e : w'.led = w.led.recordSwap w.cfg r fm a.dir (w.firstMin a) := by rw [s.frame]
  rw [← e] at hf
  obtain ⟨h1, h2, h3, h4, h5, h6⟩ := hf
  constructor <;> intro t <;> cases t
  · exact h1
  · exact h2
  · exact h3
  · exact h4
  · exact onlyIf_base fm _ ▸ s.partnerBase
  · exact onlyIf_quote fm _ ▸ s.partnerQuote
  · exact onlyIf_base fm _ ▸ s.creatorBase
  · exact onlyIf_quote fm _ ▸ s.creatorQuote
  · exact onlyIf_base fm _ ▸ s.protocolBase
  · exact onlyIf_quote fm _ ▸ s.protocolQuote
  · exact h5
  · exact h6

theorem tradeOf_fee {w w' : World} {a : SwapArgs} {cur : Nat} {fm : FeeMode} {r : SwapResult} {v1 v2 : VolTracker}
    (s : SwapStep w a w' cur fm r v1 v2) : (tradeOf w.cfg fm r).fee = r.fee.sum := by
  have := s.split
  unfold tradeOf Trade.fee FeeSplit.sum
  dsimp only
  omega

theorem outFee_tok {cm : Nat} {dir : TradeDirection} {ref : Bool} {fm : FeeMode} (h : getFeeMode cm dir ref = .ok fm)
    (r : SwapResult) : outFee fm r = inTok (feeTok fm) (outToken dir) r.fee.sum ∧
      inFee fm r = inTok (feeTok fm) (inToken dir) r.fee.sum := by
  have hf := (getFeeMode_ok h).2.1
  unfold outFee inFee inTok
  by_cases g : fm.feesOnInput = true
  · have := hf.1 g
    rw [if_pos g, if_pos g, this]
    cases dir <;> simp [inToken, outToken]
  · have : ¬ feeTok fm = inToken dir := fun e => g (hf.2 e)
    rw [if_neg g, if_neg g, if_neg this]
    refine ⟨?_, rfl⟩
    rw [if_pos]
    revert this
    cases dir <;> cases feeTok fm <;> simp [inToken, outToken]

theorem inTok_self (t : Token) (x : Nat) : inTok t t x = x := if_pos rfl
theorem inTok_bq (x : Nat) : inTok .base .quote x = 0 := if_neg (by simp)
theorem inTok_qb (x : Nat) : inTok .quote .base x = 0 := if_neg (by simp)

/-- Reserves: everything paid is booked as reserve or fee, everything received and every output fee leaves the reserve. -/
theorem SwapStep.reserves {w w' : World} {a : SwapArgs} {cur : Nat} {fm : FeeMode} {r : SwapResult} {v1 v2 : VolTracker}
    (s : SwapStep w a w' cur fm r v1 v2) (t : Token) :
    reserve w' t + inTok (outToken a.dir) t r.out + inTok (feeTok fm) t r.fee.sum =
      reserve w t + inTok (inToken a.dir) t r.includedIn := by
  have hc := (processSwap_charge s.proc).input
  obtain ⟨e1, e2⟩ := outFee_tok s.hfm r
  cases hd : a.dir with
  | baseToQuote =>
    obtain ⟨h1, h2⟩ := s.sellRes hd
    rw [hd] at e1 e2
    cases t <;> simp only [inTok_self, inTok_bq, inTok_qb, inToken, outToken, reserve] at *
    · omega
    · omega
  | quoteToBase =>
    obtain ⟨h1, h2⟩ := s.buyRes hd
    rw [hd] at e1 e2
    cases t <;> simp only [inTok_self, inTok_bq, inTok_qb, inToken, outToken, reserve] at *
    · omega
    · omega

theorem referral_zero {w w' : World} {a : SwapArgs} {cur : Nat} {fm : FeeMode} {r : SwapResult} {v1 v2 : VolTracker}
    (s : SwapStep w a w' cur fm r v1 v2) (b : Bool) :
    onlyIf (fm.hasReferral && b) r.fee.referral = onlyIf b r.fee.referral := by
  have := (splitFees_ok (processSwap_charge s.proc).split).2.2.1
  cases h : fm.hasReferral with
  | true => simp
  | false =>
    rw [h] at this
    simp only [Bool.false_eq_true, if_false] at this
    rw [this]
    cases b <;> simp

theorem SwapStep.vaults {w w' : World} {a : SwapArgs} {cur : Nat} {fm : FeeMode} {r : SwapResult} {v1 v2 : VolTracker}
    (s : SwapStep w a w' cur fm r v1 v2) (t : Token) :
    vault w' t + inTok (outToken a.dir) t r.out + inTok (feeTok fm) t r.fee.referral =
      vault w t + inTok (inToken a.dir) t r.includedIn := by
  cases hd : a.dir with
  | baseToQuote =>
    obtain ⟨h1, h2⟩ := s.sellVault hd
    rw [referral_zero s, onlyIf_base] at h1
    rw [referral_zero s, onlyIf_quote] at h2
    cases t <;> simp only [inTok_self, inTok_bq, inTok_qb, inToken, outToken, vault] at *
    · omega
    · omega
  | quoteToBase =>
    obtain ⟨h1, h2⟩ := s.buyVault hd
    rw [referral_zero s, onlyIf_quote] at h1
    rw [referral_zero s, onlyIf_base] at h2
    cases t <;> simp only [inTok_self, inTok_bq, inTok_qb, inToken, outToken, vault] at *
    · omega
    · omega

/-! ### C01 -/

/-- C01: from any state, a successful swap leaves vault − (reserve + unclaimed fees) unchanged for both tokens, and the
vault changes exactly by what the trader pays, minus what the trader and the referral account receive. -/
theorem C01_swap_books {w w' : World} {a : SwapArgs} (h : w.step (.swap a) = .ok w') :
    ∃ x, Observed w w' a.dir x ∧ ∀ t,
      (vault w' t : ℤ) - (reserve w' t + fees w' t) = vault w t - (reserve w t + fees w t) ∧
      vault w' t + inTok (outToken a.dir) t x.got + inTok x.feeToken t x.referral =
        vault w t + inTok (inToken a.dir) t x.paid := by
  obtain ⟨cur, fm, r, v1, v2, s⟩ := swap_ok h
  refine ⟨_, SwapStep.observed s, fun t => ⟨?_, SwapStep.vaults s t⟩⟩
  have o := SwapStep.observed s
  have h1 := SwapStep.vaults s t
  have h2 := SwapStep.reserves s t
  have h3 := o.partner t
  have h4 := o.creator t
  have h5 := o.protocol t
  have h6 := tradeOf_fee s
  have h7 : inTok (feeTok fm) t r.fee.sum = inTok (feeTok fm) t (paPart w.cfg r) + inTok (feeTok fm) t (crPart w.cfg r) +
      inTok (feeTok fm) t r.fee.protocol + inTok (feeTok fm) t r.fee.referral := by
    rw [← h6]
    unfold inTok Trade.fee tradeOf
    split <;> rfl
  unfold tradeOf at h3 h4 h5
  dsimp only at h3 h4 h5
  unfold fees
  omega

/-- The world after the first instruction of the example history. -/
def Ex.w1 (p : ConfigParams) : World := Ex.after p (Ex.trading.take 1)

/-- A sell with a referral account, after a first buy, in two configurations. -/
theorem C01_example : ∃ a wA wB, (Ex.w1 Ex.paramsA).step (.swap a) = .ok wA ∧ (Ex.w1 Ex.paramsB).step (.swap a) = .ok wB ∧
    a.referral = true ∧ vault wA .quote + 162604 < vault (Ex.w1 Ex.paramsA) .quote := by
  refine ⟨⟨0, 10000000000000, 1, .baseToQuote, true, ⟨170, 1000070⟩, Ex.txSwap⟩, Ex.after Ex.paramsA (Ex.trading.take 2),
    Ex.after Ex.paramsB (Ex.trading.take 2), ?_⟩
  decide +kernel

/-! ### C02 -/

/-- C02: the fee of a swap (what the trader paid less what entered the reserve, or what left the reserve less what the
trader received) is divided exactly: 20% rounded down to protocol and referral, of which 20% rounded down to the
referral account if there is one, and of the rest the configured percentage rounded down to the creator. -/
theorem C02_fee_split {w w' : World} {a : SwapArgs} (h : w.step (.swap a) = .ok w') :
    ∃ x, Observed w w' a.dir x ∧
      (∀ t, reserve w' t + inTok (outToken a.dir) t x.got + inTok x.feeToken t x.fee =
        reserve w t + inTok (inToken a.dir) t x.paid) ∧
      x.protocol + x.referral = x.fee * 20 / 100 ∧
      x.referral = (if a.referral = true then x.fee * 20 / 100 * 20 / 100 else 0) ∧
      x.creator = (x.fee - x.fee * 20 / 100) * w.cfg.creatorTradingFeePct / 100 := by
  obtain ⟨cur, fm, r, v1, v2, s⟩ := swap_ok h
  have h6 := tradeOf_fee s
  obtain ⟨e1, e2, e3, _⟩ := splitFees_ok (processSwap_charge s.proc).split
  refine ⟨_, SwapStep.observed s, fun t => ?_, ?_, ?_, ?_⟩
  · rw [h6]; exact SwapStep.reserves s t
  · rw [h6]; exact e2
  · rw [h6, ← (getFeeMode_ok s.hfm).1]; exact e3
  · rw [h6, ← e2]
    have : r.fee.sum - (r.fee.protocol + r.fee.referral) = r.fee.trading := by unfold FeeSplit.sum; omega
    rw [this]; rfl

/-- The swap of `C01_example` charges a fee with all four parts positive. -/
theorem C02_example : ∃ a w', (Ex.w1 Ex.paramsA).step (.swap a) = .ok w' ∧
    partnerFee (Ex.w1 Ex.paramsA) .quote < partnerFee w' .quote ∧ creatorFee (Ex.w1 Ex.paramsA) .quote < creatorFee w' .quote ∧
    protocolFee (Ex.w1 Ex.paramsA) .quote < protocolFee w' .quote ∧ referrals (Ex.w1 Ex.paramsA) .quote < referrals w' .quote := by
  refine ⟨⟨0, 10000000000000, 1, .baseToQuote, true, ⟨170, 1000070⟩, Ex.txSwap⟩, Ex.after Ex.paramsA (Ex.trading.take 2), ?_⟩
  decide +kernel

/-! ### C04, C05 -/

/-- C04: exact-in takes exactly the requested input, all of which is booked as reserve or as fee, and gives at least the
requested minimum. -/
theorem C04_exact_in {w w' : World} {a : SwapArgs} (h : w.step (.swap a) = .ok w') (hm : a.mode = 0) :
    ∃ x, Observed w w' a.dir x ∧ x.paid = a.amount0 ∧ a.amount1 ≤ x.got ∧
      a.amount0 + reserve w (inToken a.dir) = reserve w' (inToken a.dir) + inTok x.feeToken (inToken a.dir) x.fee := by
  obtain ⟨cur, fm, r, v1, v2, s⟩ := swap_ok h
  have hc := (processSwap_charge s.proc).mode0 hm
  have hr := SwapStep.reserves s (inToken a.dir)
  refine ⟨_, SwapStep.observed s, hc.1, hc.2.2, ?_⟩
  rw [tradeOf_fee s, ← hc.1]
  have : inTok (outToken a.dir) (inToken a.dir) r.out = 0 := by cases a.dir <;> rfl
  rw [this, show inTok (inToken a.dir) (inToken a.dir) r.includedIn = r.includedIn from if_pos rfl] at hr
  show _ = _ + inTok (feeTok fm) _ _
  omega

theorem C04_example : ∃ a w', (Ex.w1 Ex.paramsA).step (.swap a) = .ok w' ∧ a.mode = 0 ∧ a.amount1 = 1 := by
  refine ⟨⟨0, 10000000000000, 1, .baseToQuote, true, ⟨170, 1000070⟩, Ex.txSwap⟩, Ex.after Ex.paramsA (Ex.trading.take 2), ?_⟩
  decide +kernel

/-- C05: exact-out gives exactly the requested output and takes at most the requested maximum. -/
theorem C05_exact_out {w w' : World} {a : SwapArgs} (h : w.step (.swap a) = .ok w') (hm : a.mode = 2) :
    ∃ x, Observed w w' a.dir x ∧ x.got = a.amount0 ∧ x.paid ≤ a.amount1 := by
  obtain ⟨cur, fm, r, v1, v2, s⟩ := swap_ok h
  have hc := (processSwap_charge s.proc).mode2 (by omega)
  exact ⟨_, SwapStep.observed s, hc.1, hc.2⟩

theorem C05_example : ∃ a w', (Ex.after Ex.paramsA (Ex.trading.take 2)).step (.swap a) = .ok w' ∧ a.mode = 2 ∧
    a.amount1 = 10000000000000 := by
  refine ⟨⟨2, 20000000000000, 10000000000000, .quoteToBase, true, ⟨300, 1000200⟩, Ex.txSwap⟩,
    Ex.after Ex.paramsA (Ex.trading.take 3), ?_⟩
  decide +kernel

/-! ### C07 -/

/-- C07, first part: in every reachable state the price is between the start price and the migration price. -/
theorem C07_price_range {w : World} (h : Reachable w) :
    w.cfg.sqrtStartPrice ≤ w.pool.sqrtPrice ∧ w.pool.sqrtPrice ≤ w.cfg.migrationSqrtPrice := by
  obtain ⟨ps, hc⟩ := h.core
  exact ⟨hc.lo, hc.hi⟩

/-- C07, second part: buys never lower the price, sells never raise it, nothing else changes it. -/
theorem C07_price_direction {w w' : World} {op : Op} (h : Reachable w) (hs : w.step op = .ok w') :
    (∀ a, op = .swap a → a.dir = .quoteToBase → w.pool.sqrtPrice ≤ w'.pool.sqrtPrice) ∧
    (∀ a, op = .swap a → a.dir = .baseToQuote → w'.pool.sqrtPrice ≤ w.pool.sqrtPrice) ∧
    ((∀ a, op ≠ .swap a) → w'.pool.sqrtPrice = w.pool.sqrtPrice) := by
  obtain ⟨ps, hc⟩ := h.core
  refine ⟨?_, ?_, ?_⟩
  · rintro a rfl hd
    obtain ⟨cur, fm, r, v1, v2, s⟩ := swap_ok hs
    rw [s.price]
    exact ((hc.result s).buy hd).1.le
  · rintro a rfl hd
    obtain ⟨cur, fm, r, v1, v2, s⟩ := swap_ok hs
    rw [s.price]
    exact ((hc.result s).sell hd).le
  · intro hn
    rcases step_cases hs with ⟨a, rfl, _⟩ | ⟨_, _, e, _⟩
    · exact absurd rfl (hn a)
    · exact e

/-- Reachable states strictly inside the range and at its upper end, and a price-moving swap in each direction. -/
theorem C07_example : Reachable (Ex.after Ex.paramsA Ex.trading) ∧ Reachable (Ex.after Ex.paramsA Ex.completing) ∧
    (Ex.after Ex.paramsA Ex.trading).cfg.sqrtStartPrice < (Ex.after Ex.paramsA Ex.trading).pool.sqrtPrice ∧
    (Ex.after Ex.paramsA Ex.trading).pool.sqrtPrice < (Ex.after Ex.paramsA Ex.completing).pool.sqrtPrice ∧
    (Ex.after Ex.paramsA Ex.completing).pool.sqrtPrice = (Ex.after Ex.paramsA Ex.completing).cfg.migrationSqrtPrice ∧
    (Ex.after Ex.paramsA (Ex.trading.take 2)).pool.sqrtPrice < (Ex.after Ex.paramsA (Ex.trading.take 1)).pool.sqrtPrice := by
  refine ⟨Ex.reachTradingA, Ex.reachCompleteA, ?_⟩
  decide +kernel

/-! ### C08 -/

/-- C08: the amount entering the reserve is at least the exact curve integral between the two prices, the amount leaving it
(fees on output included) is at most the exact curve integral. -/
theorem C08_rounds_for_pool {w w' : World} {a : SwapArgs} (h : Reachable w) (hs : w.step (.swap a) = .ok w') :
    (a.dir = .quoteToBase →
      quoteTo (Spec.curve w.cfg) w'.pool.sqrtPrice - quoteTo (Spec.curve w.cfg) w.pool.sqrtPrice
        ≤ (reserve w' .quote : ℚ) - reserve w .quote ∧
      (reserve w .base : ℚ) - reserve w' .base
        ≤ baseTo (Spec.curve w.cfg) w'.pool.sqrtPrice - baseTo (Spec.curve w.cfg) w.pool.sqrtPrice) ∧
    (a.dir = .baseToQuote →
      baseTo (Spec.curve w.cfg) w.pool.sqrtPrice - baseTo (Spec.curve w.cfg) w'.pool.sqrtPrice
        ≤ (reserve w' .base : ℚ) - reserve w .base ∧
      (reserve w .quote : ℚ) - reserve w' .quote
        ≤ quoteTo (Spec.curve w.cfg) w.pool.sqrtPrice - quoteTo (Spec.curve w.cfg) w'.pool.sqrtPrice) := by
  obtain ⟨ps, hc⟩ := h.core
  obtain ⟨cur, fm, r, v1, v2, s⟩ := swap_ok hs
  have hp := hc.good.curve.proper
  have hr := hc.result s
  rw [curve_eq hc.good.curve, s.price]
  unfold reserve
  constructor <;> intro hd
  · obtain ⟨tr, _⟩ := hr.buy hd
    obtain ⟨e1, e2⟩ := s.buyRes hd
    have t1 := tr.quote hp
    have t2 := tr.base hp
    have e1' : (w'.pool.quoteReserve : ℚ) = w.pool.quoteReserve + r.excludedIn := by exact_mod_cast e1
    have e2' : (w'.pool.baseReserve : ℚ) + (r.out + outFee fm r : Nat) = w.pool.baseReserve := by exact_mod_cast e2
    constructor <;> dsimp only <;> linarith
  · have tr := hr.sell hd
    obtain ⟨e1, e2⟩ := s.sellRes hd
    have t1 := tr.quote hp
    have t2 := tr.base hp
    have e1' : (w'.pool.baseReserve : ℚ) = w.pool.baseReserve + r.excludedIn := by exact_mod_cast e1
    have e2' : (w'.pool.quoteReserve : ℚ) + (r.out + outFee fm r : Nat) = w.pool.quoteReserve := by exact_mod_cast e2
    constructor <;> dsimp only <;> linarith

/-- A reachable state and a swap across a point of the curve. -/
theorem C08_example : ∃ w' a, Reachable (Ex.after Ex.paramsA Ex.trading) ∧
    (Ex.after Ex.paramsA Ex.trading).step (.swap a) = .ok w' ∧ a.dir = .quoteToBase ∧
    (Ex.after Ex.paramsA Ex.trading).pool.sqrtPrice < 2 ^ 61 ∧ 2 ^ 61 < w'.pool.sqrtPrice := by
  refine ⟨Ex.after Ex.paramsA Ex.completing, ⟨1, 40000000000000, 0, .quoteToBase, true, ⟨1400, 1001300⟩, Ex.txSwap⟩,
    Ex.reachTradingA, ?_⟩
  decide +kernel

/-! ### C10, C12 -/

/-- C10: in every reachable state the quote reserve covers the rounded-up cost of the curve from the start to the current
price, and no sell computed by the program takes more quote than the reserve holds. -/
theorem C10_reserve_backs_curve {w : World} (h : Reachable w) :
    quoteToUp (Spec.curve w.cfg) w.pool.sqrtPrice ≤ w.pool.quoteReserve ∧
    ∀ v a fm cur fst r, a.dir = .baseToQuote → processSwap w.cfg { w.pool with vol := v } a fm cur fst = .ok r →
      r.out + (if fm.feesOnInput = true then 0 else r.fee.trading + r.fee.protocol + r.fee.referral) ≤ w.pool.quoteReserve := by
  obtain ⟨ps, hc⟩ := h.core
  rw [curve_eq hc.good.curve]
  refine ⟨hc.quote, fun v a fm cur fst r hd hr => ?_⟩
  have := (processSwap_ok (p := { w.pool with vol := v }) hc.good.curve hc.lo hc.hi hr).sell hd
  have h1 := this.quoteUp hc.good.curve.proper
  have h2 := hc.quote
  dsimp only at h1
  unfold outFee FeeSplit.sum at h1
  omega

/-- C12: at the migration price the threshold has been collected. -/
theorem C12_top_is_complete {w : World} (h : Reachable w) (hp : w.pool.sqrtPrice = w.cfg.migrationSqrtPrice) :
    w.cfg.migrationQuoteThreshold ≤ w.pool.quoteReserve := by
  obtain ⟨ps, hc⟩ := h.core
  have h1 := hc.quote
  rw [hp] at h1
  have h2 := hc.good.cost
  omega

/-- The reserve backs a positive cost during trading, and the migration price is reached by a history. -/
theorem C10_C12_example : Reachable (Ex.after Ex.paramsA Ex.trading) ∧ Reachable (Ex.after Ex.paramsA Ex.completing) ∧
    0 < quoteToUp (Spec.curve (Ex.configOf Ex.paramsA)) (Ex.after Ex.paramsA Ex.trading).pool.sqrtPrice ∧
    (Ex.after Ex.paramsA Ex.completing).pool.sqrtPrice = (Ex.after Ex.paramsA Ex.completing).cfg.migrationSqrtPrice := by
  refine ⟨Ex.reachTradingA, Ex.reachCompleteA, ?_⟩
  decide +kernel

end Props

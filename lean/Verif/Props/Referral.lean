import Verif.Spec.Referral
import Verif.Lemmas.Payable
import Verif.Props.Swap
import Verif.Props.Examples

/-!
# A referral is paid by the protocol alone: C82
-/

namespace Props
open Dbc Spec

/-! ### The computation of a swap -/

/-- The fee with a part of the protocol's share handed to the referral account. -/
def handOver (s : FeeSplit) : FeeSplit := ⟨s.trading, s.protocol - s.protocol * 20 / 100, s.protocol * 20 / 100⟩

/-- The outcome of a swap with the fee divided like that. -/
def handOverIn (r : SwapResult) : SwapResult := { r with fee := handOver r.fee }

theorem splitFees_twin {f : Nat} {s : FeeSplit} (h : splitFees f false = .ok s) :
    s.referral = 0 ∧ splitFees f true = .ok (handOver s) := by
  simp only [splitFees, bind_ok, ok_inj, Bool.false_eq_true, if_false] at h
  obtain ⟨p, hp, t, h1, z, rfl, q, h2, rfl⟩ := h
  have e : q = p := (safeSub_ok.1 h2).2
  rw [e]
  have hm : p ≤ u64Max := ((mulDivU64_down).1 hp).2.2.2
  have h20 : safeMulDivCastU64 p HOST_FEE_PERCENT 100 .down = .ok (p * 20 / 100) :=
    mulDivU64_pct hm (by decide) (by decide) (by decide)
  refine ⟨rfl, ?_⟩
  simp only [splitFees, if_true]
  rw [hp, ok_bind, h1, ok_bind, h20, ok_bind, (safeSub_ok (a := p) (b := p * 20 / 100)).2 ⟨by omega, rfl⟩, ok_bind]
  rfl

theorem feeOnAmount_twin {n x ex : Nat} {s : FeeSplit} (h : feeOnAmount n x false = .ok (ex, s)) :
    s.referral = 0 ∧ feeOnAmount n x true = .ok (ex, handOver s) := by
  simp only [feeOnAmount, bind_ok, ok_inj, Prod.mk.injEq, Prod.exists] at h
  obtain ⟨ex', f, h1, s', h2, rfl, rfl⟩ := h
  obtain ⟨h3, h4⟩ := splitFees_twin h2
  exact ⟨h3, by simp only [feeOnAmount]; rw [h1, ok_bind]; dsimp only; rw [h4, ok_bind]⟩

theorem exactIn_twin {c : PoolConfig} {p : Pool} {n cur : Nat} {oi ob b : Bool} {dir : TradeDirection} {r : SwapResult}
    (h : exactIn c p n ⟨oi, ob, false⟩ dir cur b = .ok r) :
    r.fee.referral = 0 ∧ exactIn c p n ⟨oi, ob, true⟩ dir cur b = .ok (handOverIn r) := by
  cases oi <;> simp only [exactIn, bind_ok, req_ok, ok_inj, Prod.exists, Prod.mk.injEq, if_true, if_false,
    Bool.false_eq_true] at h ⊢
  · obtain ⟨num, h1, _, _, ⟨rfl, rfl⟩, w, h2, u, h3, y, f, h4, rfl⟩ := h
    obtain ⟨h5, h6⟩ := feeOnAmount_twin h4
    exact ⟨h5, num, h1, _, _, ⟨rfl, rfl⟩, w, h2, u, h3, _, _, h6, rfl⟩
  · obtain ⟨num, h1, x, f, h4, w, h2, u, h3, _, _, ⟨rfl, rfl⟩, rfl⟩ := h
    obtain ⟨h5, h6⟩ := feeOnAmount_twin h4
    exact ⟨h5, num, h1, _, _, h6, w, h2, u, h3, _, _, ⟨rfl, rfl⟩, rfl⟩

theorem partialIn_twin {c : PoolConfig} {p : Pool} {n cur : Nat} {oi ob b : Bool} {dir : TradeDirection} {r : SwapResult}
    (h : partialIn c p n ⟨oi, ob, false⟩ dir cur b = .ok r) :
    r.fee.referral = 0 ∧ partialIn c p n ⟨oi, ob, true⟩ dir cur b = .ok (handOverIn r) := by
  cases oi <;> simp only [partialIn, bind_ok, ok_inj, Prod.exists, Prod.mk.injEq, if_true, if_false,
    Bool.false_eq_true] at h ⊢
  · obtain ⟨num, h1, _, _, ⟨rfl, rfl⟩, w, h2, i, x, g, h3, y, f, h4, rfl⟩ := h
    obtain ⟨h5, h6⟩ := feeOnAmount_twin h4
    exact ⟨h5, num, h1, _, _, ⟨rfl, rfl⟩, w, h2, i, x, g, h3, _, _, h6, rfl⟩
  · obtain ⟨num, h1, x, f, h4, w, h2, i, y, g, h3, _, _, ⟨rfl, rfl⟩, rfl⟩ := h
    obtain ⟨h5, h6⟩ := feeOnAmount_twin h4
    by_cases hl : w.left ≠ 0
    · rw [if_pos hl] at h3
      simp only [bind_ok, ok_inj, Prod.exists, Prod.mk.injEq] at h3
      obtain ⟨z, k1, num2, k2, inc, f2, k3, s, k4, rfl, rfl, rfl⟩ := h3
      obtain ⟨k5, k6⟩ := splitFees_twin k4
      refine ⟨k5, num, h1, _, _, h6, w, h2, _, _, handOver s, ?_, _, _, ⟨rfl, rfl⟩, rfl⟩
      rw [if_pos hl, k1, ok_bind, k2, ok_bind, k3, ok_bind]
      dsimp only
      rw [k6, ok_bind]
    · rw [if_neg hl] at h3
      simp only [ok_inj, Prod.mk.injEq] at h3
      obtain ⟨rfl, rfl, rfl⟩ := h3
      refine ⟨h5, num, h1, _, _, h6, w, h2, _, _, handOver f, ?_, _, _, ⟨rfl, rfl⟩, rfl⟩
      rw [if_neg hl]

theorem exactOut_twin {c : PoolConfig} {p : Pool} {n cur : Nat} {oi ob b : Bool} {dir : TradeDirection} {r : SwapResult}
    (h : exactOut c p n ⟨oi, ob, false⟩ dir cur b = .ok r) :
    r.fee.referral = 0 ∧ exactOut c p n ⟨oi, ob, true⟩ dir cur b = .ok (handOverIn r) := by
  cases oi <;> simp only [exactOut, bind_ok, req_ok, ok_inj, Prod.exists, Prod.mk.injEq, if_true, if_false,
    Bool.false_eq_true] at h ⊢
  · obtain ⟨inc, f, ⟨num, h1, i2, f2, h2, s, h3, rfl, rfl⟩, w, h4, u, h5, _, _, ⟨rfl, rfl⟩, rfl⟩ := h
    obtain ⟨h6, h7⟩ := splitFees_twin h3
    exact ⟨h6, _, _, ⟨num, h1, _, _, h2, _, h7, rfl, rfl⟩, w, h4, u, h5, _, _, ⟨rfl, rfl⟩, rfl⟩
  · obtain ⟨_, _, ⟨rfl, rfl⟩, w, h4, u, h5, inc, f, ⟨num, h1, i2, f2, h2, s, h3, rfl, rfl⟩, rfl⟩ := h
    obtain ⟨h6, h7⟩ := splitFees_twin h3
    exact ⟨h6, _, _, ⟨rfl, rfl⟩, w, h4, u, h5, _, _, ⟨num, h1, _, _, h2, _, h7, rfl, rfl⟩, rfl⟩

theorem processSwap_twin {c : PoolConfig} {p : Pool} {a : SwapArgs} {cur : Nat} {oi ob b ref : Bool} {r : SwapResult}
    (h : processSwap c p a ⟨oi, ob, false⟩ cur b = .ok r) :
    r.fee.referral = 0 ∧ processSwap c p { a with referral := ref } ⟨oi, ob, true⟩ cur b = .ok (handOverIn r) := by
  obtain ⟨mode, x, y, dir, _, clk, tx⟩ := a
  match mode with
  | 0 =>
    simp only [processSwap, bind_ok, req_ok, ok_inj] at h ⊢
    obtain ⟨r, h1, u, h2, rfl⟩ := h
    obtain ⟨h3, h4⟩ := exactIn_twin h1
    exact ⟨h3, _, h4, u, h2, rfl⟩
  | 1 =>
    simp only [processSwap, bind_ok, req_ok, ok_inj] at h ⊢
    obtain ⟨r, h1, u, h2, rfl⟩ := h
    obtain ⟨h3, h4⟩ := partialIn_twin h1
    exact ⟨h3, _, h4, u, h2, rfl⟩
  | k + 2 =>
    simp only [processSwap, bind_ok, req_ok, ok_inj] at h ⊢
    obtain ⟨r, h1, u, h2, rfl⟩ := h
    obtain ⟨h3, h4⟩ := exactOut_twin h1
    exact ⟨h3, _, h4, u, h2, rfl⟩

/-! ### The booking of a swap -/

/-- The pool with `x` less for the protocol. -/
def lower (onBase : Bool) (x : Nat) (p : Pool) : Pool :=
  if onBase then { p with protocolBaseFee := p.protocolBaseFee - x,
                          metrics := { p.metrics with protocolBase := p.metrics.protocolBase - x } }
  else { p with protocolQuoteFee := p.protocolQuoteFee - x,
                metrics := { p.metrics with protocolQuote := p.metrics.protocolQuote - x } }

theorem creditFee_twin {p p1 : Pool} {c : PoolConfig} {s : FeeSplit} {ob : Bool} (h : p.creditFee c s ob = .ok p1) :
    p.creditFee c (handOver s) ob = .ok (lower ob (handOver s).referral p1) := by
  cases ob <;> simp only [Pool.creditFee, Metrics.accumulate, bind_ok, Prod.exists, if_true, if_false, Bool.false_eq_true,
    safeAdd_ok, ok_inj] at h ⊢
  all_goals
    obtain ⟨pa, cr, h1, a, ⟨h2, rfl⟩, b, ⟨h3, rfl⟩, d, ⟨h4, rfl⟩, m, ⟨x, ⟨h5, rfl⟩, y, ⟨h6, rfl⟩, rfl⟩, rfl⟩ := h
    have hle : s.protocol * 20 / 100 ≤ s.protocol := by omega
    refine ⟨pa, cr, h1, _, ⟨h2, rfl⟩, _, ⟨?_, rfl⟩, _, ⟨h4, rfl⟩, _, ⟨_, ⟨?_, rfl⟩, _, ⟨h6, rfl⟩, rfl⟩, ?_⟩
    · simp only [handOver]; omega
    · simp only [handOver]; omega
    · simp only [lower, handOver, if_true, if_false, Bool.false_eq_true]
      have e : ∀ n, n + (s.protocol - s.protocol * 20 / 100) = n + s.protocol - s.protocol * 20 / 100 := fun n => by omega
      rw [e, e]

theorem moveReserves_twin {p p1 : Pool} {r : SwapResult} {oi ob : Bool} {dir : TradeDirection} {x : Nat}
    (hr : r.fee.referral = 0) (h : p.moveReserves r ⟨oi, ob, false⟩ dir = .ok p1) :
    (lower ob x p).moveReserves (handOverIn r) ⟨oi, ob, true⟩ dir = .ok (lower ob x p1) := by
  have hout : ∀ y, (if oi then .ok r.out else do
        let a ← safeAdd u64Max r.out r.fee.trading
        let a ← safeAdd u64Max a r.fee.protocol
        safeAdd u64Max a r.fee.referral) = (.ok y : Res Nat) →
      (if oi then .ok (handOverIn r).out else do
        let a ← safeAdd u64Max (handOverIn r).out (handOverIn r).fee.trading
        let a ← safeAdd u64Max a (handOverIn r).fee.protocol
        safeAdd u64Max a (handOverIn r).fee.referral) = (.ok y : Res Nat) := by
    intro y hy
    cases oi
    · simp only [if_false, Bool.false_eq_true, bind_ok, safeAdd_ok, handOverIn, handOver] at hy ⊢
      obtain ⟨a, ⟨h1, rfl⟩, b, ⟨h2, rfl⟩, h3, rfl⟩ := hy
      rw [hr]
      have hle : r.fee.protocol * 20 / 100 ≤ r.fee.protocol := by omega
      exact ⟨_, ⟨h1, rfl⟩, _, ⟨by omega, rfl⟩, by omega, by omega⟩
    · exact hy
  cases dir <;> cases ob <;> simp only [Pool.moveReserves, bind_ok, ok_inj] at h ⊢
  all_goals
    obtain ⟨y, hy, b, hb, q, hq, rfl⟩ := h
    exact ⟨y, hout y hy, b, hb, q, hq, rfl⟩

theorem updatePostSwap_twin {p p1 : Pool} {c : PoolConfig} {old now x : Nat} {ob : Bool}
    (h : p.updatePostSwap c old now = .ok p1) : (lower ob x p).updatePostSwap c old now = .ok (lower ob x p1) := by
  unfold Pool.updatePostSwap at h ⊢
  split at h
  · rename_i hd
    rw [if_pos hd]
    cases ob <;> simp only [bind_ok, ok_inj] at h ⊢ <;>
    · obtain ⟨v, h1, d, h2, rfl⟩ := h
      exact ⟨v, h1, d, h2, rfl⟩
  · rename_i hd
    rw [if_neg hd]
    cases h
    rfl

theorem apply_twin {p p1 : Pool} {c : PoolConfig} {r : SwapResult} {oi ob : Bool} {dir : TradeDirection} {now : Nat}
    (hr : r.fee.referral = 0) (h : p.apply c r ⟨oi, ob, false⟩ dir now = .ok p1) :
    p.apply c (handOverIn r) ⟨oi, ob, true⟩ dir now = .ok (lower ob (handOver r.fee).referral p1) := by
  simp only [Pool.apply, bind_ok, ok_inj] at h ⊢
  obtain ⟨q1, h1, q2, h2, q3, h3, rfl⟩ := h
  refine ⟨_, creditFee_twin h1, _, moveReserves_twin hr h2, _, updatePostSwap_twin h3, ?_⟩
  cases ob <;> rfl

/-- Before and after completion the same: the base fees and the base vault are lower by the same amount. -/
theorem completeSwap_twin {p p1 : Pool} {c : PoolConfig} {b x now : Nat} {ob : Bool}
    (hx : ob = true → x ≤ p.protocolBaseFee) (h : completeSwap c p b now = .ok p1) :
    completeSwap c (lower ob x p) (b - onlyIf ob x) now = .ok (lower ob x p1) := by
  unfold completeSwap at h ⊢
  have hc : (lower ob x p).complete c.migrationQuoteThreshold ↔ p.complete c.migrationQuoteThreshold := by
    cases ob <;> exact Iff.rfl
  by_cases hd : p.complete c.migrationQuoteThreshold
  · rw [if_pos hd] at h
    rw [if_pos (hc.2 hd)]
    simp only [bind_ok, req_ok, Pool.baseFees, safeAdd_ok, ok_inj] at h ⊢
    obtain ⟨f, ⟨g, ⟨h1, rfl⟩, h2, rfl⟩, s, ⟨h3, rfl⟩, t, ht, q, ⟨h4, rfl⟩, u, h5, rfl⟩ := h
    cases ob
    · exact ⟨_, ⟨_, ⟨h1, rfl⟩, h2, rfl⟩, _, ⟨h3, rfl⟩, t, ht, _, ⟨h4, rfl⟩, u, h5, rfl⟩
    · have := hx rfl
      simp only [lower, onlyIf, if_true]
      exact ⟨_, ⟨_, ⟨by omega, rfl⟩, by omega, rfl⟩, _, ⟨by omega, rfl⟩, t, ht, _, ⟨by omega, rfl⟩, u, by omega, trivial⟩
  · rw [if_neg hd] at h
    rw [if_neg (fun k => hd (hc.1 k))]
    cases h
    rfl

theorem swapTransfers_twin {w : World} {r : SwapResult} {oi ob : Bool} {dir : TradeDirection} {b q : Nat}
    (h : swapTransfers w r ⟨oi, ob, false⟩ dir = .ok (b, q))
    (hv : (handOver r.fee).referral ≤ if ob then b else q) :
    swapTransfers w (handOverIn r) ⟨oi, ob, true⟩ dir =
      .ok (b - onlyIf ob (handOver r.fee).referral, q - onlyIf (!ob) (handOver r.fee).referral) := by
  cases dir <;> cases ob <;> simp only [swapTransfers, bind_ok, if_true, if_false, Bool.false_eq_true, ok_inj,
    Prod.mk.injEq] at h hv ⊢
  all_goals
    obtain ⟨x, hx, y, hy, rfl, rfl⟩ := h
    exact ⟨_, hx, _, hy, _, vaultOut_ok.2 ⟨hv, rfl⟩, rfl, rfl⟩

theorem apply_protocol {p p1 : Pool} {c : PoolConfig} {r : SwapResult} {fm : FeeMode} {dir : TradeDirection} {now : Nat}
    (h : p.apply c r fm dir now = .ok p1) :
    (fm.feesOnBase = true → p1.protocolBaseFee = p.protocolBaseFee + r.fee.protocol) ∧
    (fm.feesOnBase = false → p1.protocolQuoteFee = p.protocolQuoteFee + r.fee.protocol) := by
  simp only [Pool.apply, bind_ok, ok_inj] at h
  obtain ⟨q1, h1, q2, h2, q3, h3, rfl⟩ := h
  have e3 : q3.protocolBaseFee = q2.protocolBaseFee ∧ q3.protocolQuoteFee = q2.protocolQuoteFee := by
    unfold Pool.updatePostSwap at h3
    split at h3
    · simp only [bind_ok, ok_inj] at h3
      obtain ⟨_, _, _, _, rfl⟩ := h3
      exact ⟨rfl, rfl⟩
    · cases h3
      exact ⟨rfl, rfl⟩
  have e2 : q2.protocolBaseFee = q1.protocolBaseFee ∧ q2.protocolQuoteFee = q1.protocolQuoteFee := by
    cases dir <;> simp only [Pool.moveReserves, bind_ok, ok_inj] at h2 <;>
    · obtain ⟨_, _, _, _, _, _, rfl⟩ := h2
      exact ⟨rfl, rfl⟩
  refine ⟨fun e => ?_, fun e => ?_⟩
  · rw [e] at h1
    simp only [Pool.creditFee, bind_ok, Prod.exists, if_true, safeAdd_ok, ok_inj] at h1
    obtain ⟨_, _, _, _, ⟨_, rfl⟩, _, ⟨_, rfl⟩, _, ⟨_, rfl⟩, _, _, rfl⟩ := h1
    exact e3.1.trans e2.1
  · rw [e] at h1
    simp only [Pool.creditFee, bind_ok, Prod.exists, if_false, Bool.false_eq_true, safeAdd_ok, ok_inj] at h1
    obtain ⟨_, _, _, _, ⟨_, rfl⟩, _, ⟨_, rfl⟩, _, ⟨_, rfl⟩, _, _, rfl⟩ := h1
    exact e3.2.trans e2.2

theorem completeSwap_protocol {p p1 : Pool} {c : PoolConfig} {b now : Nat} (h : completeSwap c p b now = .ok p1) :
    p1.protocolBaseFee = p.protocolBaseFee ∧ p1.protocolQuoteFee = p.protocolQuoteFee := by
  unfold completeSwap at h
  split at h
  · simp only [bind_ok, ok_inj] at h
    obtain ⟨_, _, _, _, _, _, _, _, _, _, rfl⟩ := h
    exact ⟨rfl, rfl⟩
  · cases h
    exact ⟨rfl, rfl⟩

theorem getFeeMode_twin {m : Nat} {dir : TradeDirection} {fm : FeeMode} (h : getFeeMode m dir false = .ok fm) :
    ∃ oi ob, fm = ⟨oi, ob, false⟩ ∧ getFeeMode m dir true = .ok ⟨oi, ob, true⟩ := by
  unfold getFeeMode at h ⊢
  cases hm : CollectFeeMode.tryFrom m with
  | none => rw [hm] at h; cases h
  | some k =>
    rw [hm] at h
    cases k <;> cases dir <;> cases h <;> exact ⟨_, _, rfl, rfl⟩

/-! ### C82 -/

/-- C82: naming a referral account never makes a trade fail, and it is the protocol alone who pays for it. (The first trade
of a pool that offers a discount on it is excepted: the discount depends on the position of the accounts.) -/
theorem C82_paid_by_protocol {w w0 : World} {a : SwapArgs} (hr : Reachable w)
    (hfirst : w.cfg.enableFirstSwapMinFee ≠ 1 ∨ w.pool.hasSwap ≠ 0)
    (h0 : w.step (.swap { a with referral := false }) = .ok w0) :
    ∃ w1 f x, w.step (.swap { a with referral := true }) = .ok w1 ∧ PaidByProtocol w w0 w1 f x := by
  have hfund := (hr.step h0).funds
  have hmin : ∀ b, w.firstMin { a with referral := b } = false := by
    intro b
    unfold World.firstMin
    rcases hfirst with h | h
    · rw [decide_eq_false h, Bool.false_and, Bool.false_and]
    · rw [decide_eq_false h, Bool.and_false, Bool.false_and]
  have h0 : w.swap { a with referral := false } = .ok w0 := h0
  simp only [World.swap, bind_ok, req_ok, ok_inj, Prod.exists] at h0
  rw [hmin] at h0
  obtain ⟨_, h1, _, h2, cur, h3, _, h4, _, h5, p1, h6, fm, h7, r, h8, p2, h9, b, q, h10, p3, h11, rfl⟩ := h0
  obtain ⟨oi, ob, rfl, h7'⟩ := getFeeMode_twin h7
  obtain ⟨hz, h8'⟩ := processSwap_twin (ref := true) h8
  have h9' := apply_twin hz h9
  obtain ⟨hpb, hpq⟩ := apply_protocol h9
  obtain ⟨e1, e2⟩ := completeSwap_protocol h11
  have hfb := hfund.base
  have hfq := hfund.quote
  have hp1 : p1.protocolBaseFee = w.pool.protocolBaseFee ∧ p1.protocolQuoteFee = w.pool.protocolQuoteFee := by
    unfold Pool.updatePreSwap at h6
    split at h6
    · simp only [bind_ok, ok_inj] at h6
      obtain ⟨_, _, rfl⟩ := h6
      exact ⟨rfl, rfl⟩
    · cases h6
      exact ⟨rfl, rfl⟩
  have hle : (handOver r.fee).referral ≤ r.fee.protocol := by simp only [handOver]; omega
  simp only [World.baseFees] at hfb
  simp only [World.quoteFees] at hfq
  have hv : (handOver r.fee).referral ≤ if ob then b else q := by
    cases ob
    · have := hpq rfl
      rw [if_neg (by decide)]
      omega
    · have := hpb rfl
      rw [if_pos rfl]
      omega
  have h10' := swapTransfers_twin h10 hv
  have h11' := completeSwap_twin (ob := ob) (x := (handOver r.fee).referral) (fun e => by rw [hpb e]; omega) h11
  refine ⟨{ w with pool := lower ob (handOver r.fee).referral p3, baseVault := b - onlyIf ob (handOver r.fee).referral,
                   quoteVault := q - onlyIf (!ob) (handOver r.fee).referral,
                   led := w.led.recordSwap w.cfg (handOverIn r) ⟨oi, ob, true⟩ a.dir false },
    if ob then .base else .quote, (handOver r.fee).referral, ?_, ?_⟩
  · show w.swap _ = _
    simp only [World.swap, bind_ok, req_ok, ok_inj, Prod.exists]
    rw [hmin]
    exact ⟨(), h1, (), h2, cur, h3, (), h4, (), h5, p1, h6, _, h7', _, h8', _, h9', _, _, h10', _, h11', rfl⟩
  · have hx : (handOver r.fee).referral = r.fee.protocol * 20 / 100 := rfl
    constructor
    case paid => intro t; cases t <;> cases ob <;> cases a.dir <;> rfl
    case got => intro t; cases t <;> cases ob <;> cases a.dir <;> rfl
    case price => cases ob <;> rfl
    case reserves => intro t; cases t <;> cases ob <;> rfl
    case partner => intro t; cases t <;> cases ob <;> rfl
    case creator => intro t; cases t <;> cases ob <;> rfl
    case protocol =>
      intro t
      cases ob
      · have := hpq rfl
        cases t
        · rfl
        · show p3.protocolQuoteFee - (handOver r.fee).referral + (handOver r.fee).referral = p3.protocolQuoteFee
          omega
      · have := hpb rfl
        cases t
        · show p3.protocolBaseFee - (handOver r.fee).referral + (handOver r.fee).referral = p3.protocolBaseFee
          omega
        · rfl
    case vaults =>
      intro t
      cases ob <;> cases t
      · rfl
      · exact Nat.sub_add_cancel hv
      · exact Nat.sub_add_cancel hv
      · rfl
    case referral => intro t; cases t <;> cases ob <;> cases a.dir <;> rfl
    case noReferral =>
      intro t
      cases t <;> cases ob <;> cases a.dir <;>
        first
          | rfl
          | (show _ + r.fee.referral = _; rw [hz]; rfl)
    case volatility => cases ob <;> rfl
    case progress => cases ob <;> exact ⟨rfl, rfl⟩
    case share =>
      intro t
      cases ob
      · cases t
        · rfl
        · show r.fee.protocol * 20 / 100 = (p3.protocolQuoteFee - w.pool.protocolQuoteFee) * 20 / 100
          rw [e2, hpq rfl, hp1.2, Nat.add_sub_cancel_left]
      · cases t
        · show r.fee.protocol * 20 / 100 = (p3.protocolBaseFee - w.pool.protocolBaseFee) * 20 / 100
          rw [e1, hpb rfl, hp1.1, Nat.add_sub_cancel_left]
        · rfl

/-! ### Example -/

/-- The buy that completes the curve of the first example pool (fee in base tokens), and a sale in the second (fee in quote
tokens), without and with a referral account. -/
def refBuy (referral : Bool) : SwapArgs := ⟨1, 40000000000000, 0, .quoteToBase, referral, ⟨1400, 1001300⟩, Ex.txSwap⟩
def refSale (referral : Bool) : SwapArgs := ⟨0, 10000000000, 1, .baseToQuote, referral, ⟨420, 1000320⟩, Ex.txSwap⟩

def swappedTo (w : World) (a : SwapArgs) : World :=
  match w.step (.swap a) with
  | .ok w' => w'
  | .error _ => w

theorem swappedTo_ok {w : World} {a : SwapArgs} (h : (w.step (.swap a)).isOk = true) : w.step (.swap a) = .ok (swappedTo w a) := by
  unfold swappedTo
  cases hs : w.step (.swap a) with
  | error e => rw [hs] at h; cases h
  | ok w' => rfl

theorem C82_example :
    Reachable Ex.tradingA ∧ Ex.tradingA.pool.hasSwap ≠ 0 ∧
    Ex.tradingA.step (.swap { refBuy true with referral := false }) = .ok (swappedTo Ex.tradingA (refBuy false)) ∧
    protocolFee Ex.tradingA .base = 1147426751033 ∧
    protocolFee (swappedTo Ex.tradingA (refBuy false)) .base = 2755247969628 ∧
    protocolFee (swappedTo Ex.tradingA (refBuy true)) .base = 2433683725909 ∧
    referrals (swappedTo Ex.tradingA (refBuy true)) .base = referrals Ex.tradingA .base + 321564243719 ∧
    (swappedTo Ex.tradingA (refBuy true)).pool.migrationProgress = 1 ∧
    Reachable (Ex.after Ex.paramsB Ex.trading) ∧ (Ex.after Ex.paramsB Ex.trading).pool.hasSwap ≠ 0 ∧
    (Ex.after Ex.paramsB Ex.trading).step (.swap { refSale true with referral := false }) =
      .ok (swappedTo (Ex.after Ex.paramsB Ex.trading) (refSale false)) ∧
    protocolFee (swappedTo (Ex.after Ex.paramsB Ex.trading) (refSale false)) .quote = 886272939471 ∧
    protocolFee (swappedTo (Ex.after Ex.paramsB Ex.trading) (refSale true)) .quote = 886272919172 := by
  refine ⟨Ex.reachTradingA, by decide +kernel, swappedTo_ok (a := refBuy false) (by decide +kernel), by decide +kernel,
    by decide +kernel, by decide +kernel, by decide +kernel, by decide +kernel, Ex.reachTradingB, by decide +kernel,
    swappedTo_ok (a := refSale false) (by decide +kernel), by decide +kernel, by decide +kernel⟩

end Props

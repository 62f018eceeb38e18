import Verif.Model.Quote
import Verif.Props.Go
import Verif.Props.Examples

/-!
# Quotes of the SDK: C57
-/

namespace Props
open Dbc Spec

/-! ### The computation does not look at the volatility references -/

theorem variableFee_acc {d : DynamicFeeConfig} {v v' : VolTracker} (h : v.volAcc = v'.volAcc) :
    variableFee d v = variableFee d v' := by
  unfold variableFee; rw [h]

theorem numIncl_acc {c : PoolConfig} {p : Pool} {v : VolTracker} (h : v.volAcc = p.vol.volAcc) (cur x : Nat)
    (dir : TradeDirection) (fst : Bool) :
    numeratorIncluded c { p with vol := v } cur x dir fst = numeratorIncluded c p cur x dir fst := by
  unfold numeratorIncluded totalFeeFromIncluded totalFee
  rw [show variableFee c.fees.dyn ({ p with vol := v } : Pool).vol = variableFee c.fees.dyn p.vol from variableFee_acc h]

theorem numExcl_acc {c : PoolConfig} {p : Pool} {v : VolTracker} (h : v.volAcc = p.vol.volAcc) (cur x : Nat)
    (dir : TradeDirection) (fst : Bool) :
    numeratorExcluded c { p with vol := v } cur x dir fst = numeratorExcluded c p cur x dir fst := by
  unfold numeratorExcluded totalFeeFromExcluded totalFee
  rw [show variableFee c.fees.dyn ({ p with vol := v } : Pool).vol = variableFee c.fees.dyn p.vol from variableFee_acc h]

theorem exactIn_acc {c : PoolConfig} {p : Pool} {v : VolTracker} (h : v.volAcc = p.vol.volAcc) (x : Nat) (fm : FeeMode)
    (dir : TradeDirection) (cur : Nat) (fst : Bool) :
    exactIn c { p with vol := v } x fm dir cur fst = exactIn c p x fm dir cur fst := by
  unfold exactIn
  simp only [numIncl_acc h]
  rfl

theorem partialIn_acc {c : PoolConfig} {p : Pool} {v : VolTracker} (h : v.volAcc = p.vol.volAcc) (x : Nat) (fm : FeeMode)
    (dir : TradeDirection) (cur : Nat) (fst : Bool) :
    partialIn c { p with vol := v } x fm dir cur fst = partialIn c p x fm dir cur fst := by
  unfold partialIn
  simp only [numIncl_acc h, numExcl_acc h]
  rfl

theorem exactOut_acc {c : PoolConfig} {p : Pool} {v : VolTracker} (h : v.volAcc = p.vol.volAcc) (x : Nat) (fm : FeeMode)
    (dir : TradeDirection) (cur : Nat) (fst : Bool) :
    exactOut c { p with vol := v } x fm dir cur fst = exactOut c p x fm dir cur fst := by
  unfold exactOut
  simp only [numExcl_acc h]
  rfl

theorem references_acc {d : DynamicFeeConfig} {v v' : VolTracker} {price now : Nat}
    (h : updateReferences d v price now = .ok v') : v'.volAcc = v.volAcc := by
  unfold updateReferences at h
  dsimp only at h
  split at h
  · split at h
    · simp only [bind_ok, ok_inj] at h
      obtain ⟨_, _, _, _, rfl⟩ := h
      rfl
    · rw [ok_inj] at h; subst h; rfl
  · rw [ok_inj] at h; subst h; rfl

/-! ### The referral account only divides the protocol's part -/

/-- Same trade, fees divided with or without a referral account. -/
structure SameTrade (r r' : SwapResult) : Prop where
  paid : r'.includedIn = r.includedIn
  kept : r'.excludedIn = r.excludedIn
  left : r'.left = r.left
  out : r'.out = r.out
  next : r'.next = r.next
  trading : r'.fee.trading = r.fee.trading
  rest : r'.fee.protocol + r'.fee.referral = r.fee.protocol + r.fee.referral

theorem splitFees_ref {f : Nat} {b : Bool} {s : FeeSplit} (h : splitFees f b = .ok s) (hf : f ≤ u64Max) (b' : Bool) :
    ∃ s', splitFees f b' = .ok s' ∧ s'.trading = s.trading ∧ s'.protocol + s'.referral = s.protocol + s.referral := by
  obtain ⟨s', hs'⟩ := splitFees_some b' hf
  obtain ⟨a1, a2, -, -⟩ := splitFees_ok h
  obtain ⟨b1, b2, -, -⟩ := splitFees_ok hs'
  unfold FeeSplit.sum at a1 b1
  exact ⟨s', hs', by omega, by omega⟩

theorem exactOut_ref {c : PoolConfig} {p : Pool} {x : Nat} {fm : FeeMode} {dir : TradeDirection} {cur : Nat} {fst : Bool}
    {r : SwapResult} (h : exactOut c p x fm dir cur fst = .ok r) (b : Bool) :
    ∃ r', exactOut c p x { fm with hasReferral := b } dir cur fst = .ok r' ∧ SameTrade r r' := by
  simp only [exactOut, bind_ok, ite_ok, ok_inj, Prod.exists, Prod.mk.injEq, req_ok] at h ⊢
  obtain ⟨io, fo, h1, wk, hwk, u, hm, ii, fi, h2, rfl⟩ := h
  rcases h2 with ⟨g, num, hnum, inc, f, hinc, s, hs, rfl, rfl⟩ | ⟨g, rfl, rfl⟩
  · have hle := includedFeeAmount_ok hinc
    obtain ⟨s', hs', e1, e2⟩ := splitFees_ref hs (by omega) b
    rcases h1 with ⟨_, rfl, rfl⟩ | ⟨g', _⟩
    · exact ⟨_, ⟨_, _, .inl ⟨g, rfl, rfl⟩, wk, hwk, u, hm, _, _,
        .inl ⟨g, num, hnum, _, f, hinc, s', hs', rfl, rfl⟩, rfl⟩, ⟨rfl, rfl, rfl, rfl, rfl, e1, e2⟩⟩
    · exact absurd g g'
  · rcases h1 with ⟨g', _⟩ | ⟨_, num, hnum, inc, f, hinc, s, hs, rfl, rfl⟩
    · exact absurd g' g
    · have hle := includedFeeAmount_ok hinc
      obtain ⟨s', hs', e1, e2⟩ := splitFees_ref hs (by omega) b
      exact ⟨_, ⟨_, _, .inr ⟨g, num, hnum, _, f, hinc, s', hs', rfl, rfl⟩, wk, hwk, u, hm, _, _,
        .inr ⟨g, rfl, rfl⟩, rfl⟩, ⟨rfl, rfl, rfl, rfl, rfl, e1, e2⟩⟩

theorem getFeeMode_ref {cm : Nat} {dir : TradeDirection} {b b' : Bool} {fm : FeeMode} (h : getFeeMode cm dir b = .ok fm) :
    getFeeMode cm dir b' = .ok { fm with hasReferral := b' } := by
  unfold getFeeMode at h ⊢
  split at h
  · cases h
  all_goals
    cases dir <;> simp only [ok_inj] at h <;> subst h <;> rfl

/-! ### The property -/

/-- The quote a client asks for before sending the swap `a` to a pool in state `w`, saying whether the swap counts as the
creator's first. -/
def quoteFor (w : World) (a : SwapArgs) (first : Bool) : Res SwapResult :=
  match a.mode with
  | 0 => quoteExactIn w.pool w.cfg a.dir a.clk.time a.clk.slot a.amount0 a.referral first
  | 1 => quotePartialFill w.pool w.cfg a.dir a.clk.time a.clk.slot a.amount0 a.referral first
  | _ => quoteExactOut w.pool w.cfg a.dir a.clk.time a.clk.slot a.amount0 first

theorem quoteSetup_iff {p : Pool} {c : PoolConfig} {dir : TradeDirection} {clk : Clock} {x : Nat} {b : Bool} {cur : Nat}
    {fm : FeeMode} : quoteSetup p c dir clk.time clk.slot x b = .ok (cur, fm) ↔
      p.quoteReserve < c.migrationQuoteThreshold ∧ 0 < x ∧ currentPoint c.activationType clk = .ok cur ∧
        getFeeMode c.collectFeeMode dir b = .ok fm := by
  simp only [quoteSetup, bind_ok, req_ok, ok_inj, Prod.mk.injEq]
  constructor
  · rintro ⟨_, h1, _, h2, cur', h3, fm', h4, rfl, rfl⟩
    exact ⟨Nat.lt_of_not_le h1, h2, h3, h4⟩
  · rintro ⟨h1, h2, h3, h4⟩
    exact ⟨(), Nat.not_le.2 h1, (), h2, cur, h3, fm, h4, rfl, rfl⟩

/-- What the quote promises about an executed trade. -/
structure Promised (r : SwapResult) (x : Trade) (price : Nat) : Prop where
  paid : x.paid = r.includedIn
  got : x.got = r.out
  price : price = r.next
  trading : x.partner + x.creator = r.fee.trading
  rest : x.protocol + x.referral = r.fee.protocol + r.fee.referral

theorem trade_eq {w w' : World} {dir : TradeDirection} {x y : Trade} (o : Observed w w' dir x) (o' : Observed w w' dir y) :
    x.paid = y.paid ∧ x.got = y.got ∧ x.partner = y.partner ∧ x.creator = y.creator ∧ x.protocol = y.protocol ∧
      x.referral = y.referral := by
  have key : ∀ (t1 t2 : Token) (f g : Token → Nat) (m n : Nat), (∀ t, g t = f t + inTok t1 t m) →
      (∀ t, g t = f t + inTok t2 t n) → m = n := by
    intro t1 t2 f g m n h1 h2
    have a1 := h1 .base
    have a2 := h1 .quote
    have b1 := h2 .base
    have b2 := h2 .quote
    cases t1 <;> cases t2 <;> simp only [inTok_self, inTok_bq, inTok_qb] at a1 a2 b1 b2 <;> omega
  exact ⟨key _ _ _ _ _ _ o.paid o'.paid, key _ _ _ _ _ _ o.got o'.got, key _ _ _ _ _ _ o.partner o'.partner,
    key _ _ _ _ _ _ o.creator o'.creator, key _ _ _ _ _ _ o.protocol o'.protocol, key _ _ _ _ _ _ o.referral o'.referral⟩

/-- C57, accuracy: a swap that goes through takes, gives, charges and moves the price exactly as the SDK's quote for the
state and the clock it is executed in says; only for exact-output swaps with a referral account, which the SDK does not ask
for, is the protocol's part of the fee divided differently. -/
theorem C57_quote_exact {w w' : World} {a : SwapArgs} {x : Trade} (hs : w.step (.swap a) = .ok w')
    (o : Observed w w' a.dir x) :
    ∃ r, quoteFor w a (w.firstMin a) = .ok r ∧ Promised r x w'.pool.sqrtPrice ∧
      (a.mode ≠ 2 ∨ a.referral = false → x.referral = r.fee.referral) := by
  obtain ⟨cur, fm, r, v1, v2, s⟩ := swap_ok hs
  have hacc : v1.volAcc = w.pool.vol.volAcc := by
    by_cases h0 : w.cfg.fees.dyn.initialized = 0
    · rw [(s.preOff h0).1]
    · exact references_acc (s.preOn h0)
  obtain ⟨t1, t2, t3, t4, t5, t6⟩ := trade_eq o (SwapStep.observed s)
  unfold tradeOf at t1 t2 t3 t4 t5 t6
  dsimp only at t1 t2 t3 t4 t5 t6
  have hsplit := s.split
  have hsetup : ∀ b, quoteSetup w.pool w.cfg a.dir a.clk.time a.clk.slot a.amount0 b =
      .ok (cur, { fm with hasReferral := b }) := fun b =>
    quoteSetup_iff.2 ⟨s.incomplete, s.pos, s.hcur, getFeeMode_ref s.hfm⟩
  have hfmr : ({ fm with hasReferral := a.referral } : FeeMode) = fm := by
    have := getFeeMode_ref (b' := a.referral) s.hfm
    rw [s.hfm, ok_inj] at this
    exact this.symm
  have hp := s.proc
  have hprice := s.price
  have hmode := s.mode
  obtain hm | hm | hm : a.mode = 0 ∨ a.mode = 1 ∨ a.mode = 2 := by omega
  · simp only [processSwap, hm, bind_ok, req_ok, ok_inj] at hp
    obtain ⟨r', hr', _, _, rfl⟩ := hp
    rw [exactIn_acc hacc] at hr'
    refine ⟨r', ?_, ⟨t1, t2, hprice, by omega, by omega⟩, fun _ => t6⟩
    simp only [quoteFor, hm, quoteExactIn]
    rw [hsetup, ok_bind]
    dsimp only
    rw [hfmr]
    exact hr'
  · simp only [processSwap, hm, bind_ok, req_ok, ok_inj] at hp
    obtain ⟨r', hr', _, _, rfl⟩ := hp
    rw [partialIn_acc hacc] at hr'
    refine ⟨r', ?_, ⟨t1, t2, hprice, by omega, by omega⟩, fun _ => t6⟩
    simp only [quoteFor, hm, quotePartialFill]
    rw [hsetup, ok_bind]
    dsimp only
    rw [hfmr]
    exact hr'
  · simp only [processSwap, hm, bind_ok, req_ok, ok_inj] at hp
    obtain ⟨r', hr', _, _, rfl⟩ := hp
    rw [exactOut_acc hacc] at hr'
    obtain ⟨q, hq, e⟩ := exactOut_ref hr' false
    refine ⟨q, ?_, ⟨by rw [e.paid]; exact t1, by rw [e.out]; exact t2, by rw [e.next]; exact hprice,
      by rw [e.trading]; omega, by rw [e.rest]; omega⟩, ?_⟩
    · simp only [quoteFor, hm, quoteExactOut]
      rw [hsetup, ok_bind]
      exact hq
    · rintro (h | h)
      · exact absurd hm h
      · have : q = r' := by
          rw [← h, hfmr, hr', ok_inj] at hq
          exact hq.symm
        rw [this]
        exact t6

/-- The trader owns what the quote asks for, and the counters of all fees ever charged do not overflow. -/
structure Funded (w : World) (a : SwapArgs) (r : SwapResult) : Prop where
  owns : Exists w a r.includedIn
  counters : CountersFit w r.includedIn

/-- The quote's result meets the limit the trader sets: a least output, or a largest input for exact-output swaps. -/
def WithinLimit (a : SwapArgs) (r : SwapResult) : Prop :=
  if a.mode = 2 then r.includedIn ≤ a.amount1 else a.amount1 ≤ r.out

theorem same_room {w : World} {ps : List Point} (hc : Core w ps) {a : SwapArgs} {fm : FeeMode} {r : SwapResult}
    (hfm : getFeeMode w.cfg.collectFeeMode a.dir a.referral = .ok fm) (hR : Result w.cfg ps w.pool.sqrtPrice fm a.dir r)
    (h : Funded w a r) : Room w fm a.dir r := by
  obtain ⟨o1, o2⟩ := hc.outputs hR
  have hin := hR.input
  obtain ⟨he, hm⟩ := h
  refine { buy := fun hd => ?_, sell := fun hd => ?_, base := fun e => ?_, quote := fun e => ?_ }
  · unfold Exists at he; rw [hd] at he; dsimp only at he; omega
  · unfold Exists at he; rw [hd] at he; dsimp only at he; omega
  · have := hm.base
    rcases feeMode_cases hfm with ⟨_, _, g⟩ | ⟨hd, g, _⟩ | ⟨_, _, g⟩
    · rw [e] at g; cases g
    · have := o2 hd
      unfold outFee FeeSplit.sum at this
      rw [g, if_neg Bool.false_ne_true] at this
      omega
    · rw [e] at g; cases g
  · have := hm.quote
    rcases feeMode_cases hfm with ⟨hd, g, _⟩ | ⟨_, _, g⟩ | ⟨hd, g, _⟩
    · have := o1 hd
      unfold outFee FeeSplit.sum at this
      rw [g, if_neg Bool.false_ne_true] at this
      omega
    · rw [e] at g; cases g
    · unfold inFee FeeSplit.sum at hin
      rw [g, if_pos rfl] at hin
      omega

/-- C57, commitment: if the quote succeeds and meets the trader's limit, and the trader owns what it asks for, the swap sent
with the same arguments goes through (and then `C57_quote_exact` says with which amounts). -/
theorem C57_quote_honoured {w : World} {a : SwapArgs} {r : SwapResult} (h : Reachable w) (hmode : a.mode ≤ 2)
    (hq : quoteFor w a (w.firstMin a) = .ok r) (hl : WithinLimit a r) (hf : Funded w a r) (ho : Ordinary w a) :
    ∃ w', w.step (.swap a) = .ok w' := by
  obtain ⟨ps, hc⟩ := h.core
  obtain ⟨p1, vf, hpre, -, -⟩ := C30_never_blocks h ho.clock (next := w.pool.sqrtPrice)
    (hc.good.startMin.trans hc.lo) (hc.hi.trans hc.good.migMax.le)
  obtain ⟨v1, rfl, hoff, hon⟩ := updatePreSwap_ok hpre
  have hacc : v1.volAcc = w.pool.vol.volAcc := by
    by_cases h0 : w.cfg.fees.dyn.initialized = 0
    · rw [hoff h0]
    · exact references_acc (hon h0)
  obtain ⟨cur, fm, r', hset, hcur, hfm, hproc, hpaid⟩ : ∃ cur fm r', (w.pool.quoteReserve < w.cfg.migrationQuoteThreshold ∧
      0 < a.amount0) ∧ currentPoint w.cfg.activationType a.clk = .ok cur ∧
      getFeeMode w.cfg.collectFeeMode a.dir a.referral = .ok fm ∧
      processSwap w.cfg { w.pool with vol := v1 } a fm cur (w.firstMin a) = .ok r' ∧ r'.includedIn = r.includedIn := by
    unfold WithinLimit at hl
    obtain hm | hm | hm : a.mode = 0 ∨ a.mode = 1 ∨ a.mode = 2 := by omega
    · simp only [quoteFor, hm, quoteExactIn, bind_ok, Prod.exists] at hq
      obtain ⟨cur, fm, hs, hr⟩ := hq
      obtain ⟨s1, s2, s3, s4⟩ := quoteSetup_iff.1 hs
      rw [if_neg (by omega)] at hl
      refine ⟨cur, fm, r, ⟨s1, s2⟩, s3, s4, ?_, rfl⟩
      simp only [processSwap, hm]
      rw [exactIn_acc hacc, hr, ok_bind, req_ok (u := ()).2 hl, ok_bind]
    · simp only [quoteFor, hm, quotePartialFill, bind_ok, Prod.exists] at hq
      obtain ⟨cur, fm, hs, hr⟩ := hq
      obtain ⟨s1, s2, s3, s4⟩ := quoteSetup_iff.1 hs
      rw [if_neg (by omega)] at hl
      refine ⟨cur, fm, r, ⟨s1, s2⟩, s3, s4, ?_, rfl⟩
      simp only [processSwap, hm]
      rw [partialIn_acc hacc, hr, ok_bind, req_ok (u := ()).2 hl, ok_bind]
    · simp only [quoteFor, hm, quoteExactOut, bind_ok, Prod.exists] at hq
      obtain ⟨cur, fm, hs, hr⟩ := hq
      obtain ⟨s1, s2, s3, s4⟩ := quoteSetup_iff.1 hs
      rw [if_pos hm] at hl
      obtain ⟨r', hr', e⟩ := exactOut_ref hr a.referral
      refine ⟨cur, _, r', ⟨s1, s2⟩, s3, getFeeMode_ref s4, ?_, e.paid⟩
      simp only [processSwap, hm]
      rw [exactOut_acc hacc, hr', ok_bind, req_ok (u := ()).2 (by rw [e.paid]; exact hl), ok_bind]
  have hR := processSwap_ok (p := { w.pool with vol := v1 }) (a := a) hc.good.curve hc.lo hc.hi hproc
  exact swap_commits h hmode hset.2 hcur (ho.limiter h hcur) hset.1 (clock_fine h ho.clock) hpre hfm hproc
    (same_room hc hfm hR ⟨by rw [hpaid]; exact hf.owns, by rw [hpaid]; exact hf.counters⟩)

/-- Configuration A (dynamic fee) after some trading: a quoted exact-input buy with a referral, with the quoted output as the
trader's limit, and a quoted exact-output sale with the quoted input as the limit. Both go through with the quoted amounts. -/
theorem C57_example :
    (∃ r w', quoteFor (Ex.after Ex.paramsA Ex.trading)
        ⟨0, 1000000000, 176285227549, .quoteToBase, true, ⟨1400, 1001300⟩, Ex.txSwap⟩ false = .ok r ∧
      (r.includedIn, r.out, r.fee.trading, r.fee.protocol, r.fee.referral) =
        (1000000000, 176285227549, 1472916579, 294583316, 73645828) ∧
      (Ex.after Ex.paramsA Ex.trading).step
        (.swap ⟨0, 1000000000, 176285227549, .quoteToBase, true, ⟨1400, 1001300⟩, Ex.txSwap⟩) = .ok w') ∧
    (∃ r w', quoteFor (Ex.after Ex.paramsA Ex.trading)
        ⟨2, 1000000000, 180025390013, .baseToQuote, true, ⟨1400, 1001300⟩, Ex.txSwap⟩ false = .ok r ∧
      (r.includedIn, r.out, r.fee.trading, r.fee.protocol, r.fee.referral) =
        (180025390013, 1000000000, 8355304, 2088826, 0) ∧
      (Ex.after Ex.paramsA Ex.trading).step
        (.swap ⟨2, 1000000000, 180025390013, .baseToQuote, true, ⟨1400, 1001300⟩, Ex.txSwap⟩) = .ok w') := by
  have hA : ∀ t : SwapArgs, ¬ LimitedBuy (Ex.after Ex.paramsA Ex.trading) t := fun t h => by
    have := h.limiter
    revert this
    decide +kernel
  constructor
  · have hf : (Ex.after Ex.paramsA Ex.trading).firstMin
        ⟨0, 1000000000, 176285227549, .quoteToBase, true, ⟨1400, 1001300⟩, Ex.txSwap⟩ = false := by decide +kernel
    have hq : quoteFor (Ex.after Ex.paramsA Ex.trading)
        ⟨0, 1000000000, 176285227549, .quoteToBase, true, ⟨1400, 1001300⟩, Ex.txSwap⟩ false =
        .ok ⟨1000000000, 1000000000, 0, 176285227549, 1382225162583541044, ⟨1472916579, 294583316, 73645828⟩⟩ := by
      decide +kernel
    obtain ⟨w', h⟩ := C57_quote_honoured (a := ⟨0, 1000000000, 176285227549, .quoteToBase, true, ⟨1400, 1001300⟩, Ex.txSwap⟩)
      Ex.reachTradingA (by decide) (by rw [hf]; exact hq) (by unfold WithinLimit; decide)
      ⟨by unfold Exists; dsimp only; decide +kernel, by decide +kernel, by decide +kernel⟩
      ⟨⟨1001300, by decide +kernel, by decide +kernel⟩, .inl (by decide +kernel), fun h => absurd h (hA _)⟩
    exact ⟨_, w', hq, rfl, h⟩
  · have hf : (Ex.after Ex.paramsA Ex.trading).firstMin
        ⟨2, 1000000000, 180025390013, .baseToQuote, true, ⟨1400, 1001300⟩, Ex.txSwap⟩ = false := by decide +kernel
    have hq : quoteFor (Ex.after Ex.paramsA Ex.trading)
        ⟨2, 1000000000, 180025390013, .baseToQuote, true, ⟨1400, 1001300⟩, Ex.txSwap⟩ false =
        .ok ⟨180025390013, 180025390013, 0, 1000000000, 1381928473396816231, ⟨8355304, 2088826, 0⟩⟩ := by
      decide +kernel
    obtain ⟨w', h⟩ := C57_quote_honoured (a := ⟨2, 1000000000, 180025390013, .baseToQuote, true, ⟨1400, 1001300⟩, Ex.txSwap⟩)
      Ex.reachTradingA (by decide) (by rw [hf]; exact hq) (by unfold WithinLimit; decide)
      ⟨by unfold Exists; dsimp only; decide +kernel, by decide +kernel, by decide +kernel⟩
      ⟨⟨1001300, by decide +kernel, by decide +kernel⟩, .inl (by decide +kernel), fun h => absurd h (hA _)⟩
    exact ⟨_, w', hq, rfl, h⟩

end Props

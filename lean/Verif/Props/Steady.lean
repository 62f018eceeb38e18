import Verif.Props.Serve
import Verif.Props.Quote

/-!
# Only trades change what a trade gets: C78
-/

namespace Props
open Dbc Spec

/-- Everything a swap looks at, other than the vaults and the unclaimed fees, is the same. -/
structure SameCurve (w w1 : World) : Prop where
  cfg : w1.cfg = w.cfg
  key : w1.key = w.key
  price : w1.pool.sqrtPrice = w.pool.sqrtPrice
  base : w1.pool.baseReserve = w.pool.baseReserve
  quote : w1.pool.quoteReserve = w.pool.quoteReserve
  vol : w1.pool.vol = w.pool.vol
  hasSwap : w1.pool.hasSwap = w.pool.hasSwap
  activation : w1.pool.activationPoint = w.pool.activationPoint
  metrics : w1.pool.metrics = w.pool.metrics

theorem SameCurve.symm {w w1 : World} (e : SameCurve w w1) : SameCurve w1 w :=
  ⟨e.cfg.symm, e.key.symm, e.price.symm, e.base.symm, e.quote.symm, e.vol.symm, e.hasSwap.symm, e.activation.symm,
    e.metrics.symm⟩

theorem quiet_run {w w1 : World} {ops : List Op} (hr : Run w ops w1) (hno : ∀ b, Op.swap b ∉ ops) : SameCurve w w1 := by
  induction hr with
  | nil => exact ⟨rfl, rfl, rfl, rfl, rfl, rfl, rfl, rfl, rfl⟩
  | cons hs _ ih =>
    rcases step_cases hs with ⟨a, rfl, _⟩ | ⟨k1, k2, k3, k4, k5, k6, k7, k8, k9, _⟩
    · exact absurd List.mem_cons_self (hno a)
    · have i := ih (fun b hb => hno b (List.mem_cons_of_mem _ hb))
      exact ⟨i.cfg.trans k1, i.key.trans k2, i.price.trans k3, i.base.trans k4, i.quote.trans k5, i.vol.trans k6,
        i.hasSwap.trans k7, i.activation.trans k8, i.metrics.trans k9⟩

theorem processSwap_congr {c : PoolConfig} {p q : Pool} (e1 : q.sqrtPrice = p.sqrtPrice)
    (e2 : q.activationPoint = p.activationPoint) (v : VolTracker) (a : SwapArgs) (fm : FeeMode) (cur : Nat) (f : Bool) :
    processSwap c { q with vol := v } a fm cur f = processSwap c { p with vol := v } a fm cur f := by
  have n1 : ∀ m, numeratorIncluded c { q with vol := v } cur m a.dir f = numeratorIncluded c { p with vol := v } cur m a.dir f := by
    intro m
    unfold numeratorIncluded
    dsimp only
    rw [e2]
  have n2 : ∀ m, numeratorExcluded c { q with vol := v } cur m a.dir f = numeratorExcluded c { p with vol := v } cur m a.dir f := by
    intro m
    unfold numeratorExcluded
    dsimp only
    rw [e2]
  have n3 : ∀ m, walkIn c { q with vol := v } a.dir m = walkIn c { p with vol := v } a.dir m := by
    intro m
    unfold walkIn
    dsimp only
    rw [e1]
  have n4 : ∀ m, walkOut c { q with vol := v } a.dir m = walkOut c { p with vol := v } a.dir m := by
    intro m
    unfold walkOut
    dsimp only
    rw [e1]
  unfold processSwap exactIn partialIn exactOut
  simp only [n1, n2, n3, n4]

theorem result_same {w v : World} (e : SameCurve w v) {a : SwapArgs} {w2 : World} {cur : Nat} {fm : FeeMode} {r : SwapResult}
    {v1 v2 : VolTracker} (s : SwapStep w a w2 cur fm r v1 v2) :
    currentPoint v.cfg.activationType a.clk = .ok cur ∧ v.checkLimiter a cur = .ok () ∧
      v.pool.quoteReserve < v.cfg.migrationQuoteThreshold ∧
      getFeeMode v.cfg.collectFeeMode a.dir a.referral = .ok fm ∧
      v.pool.updatePreSwap v.cfg a.clk.time = .ok { v.pool with vol := v1 } ∧
      processSwap v.cfg { v.pool with vol := v1 } a fm cur (v.firstMin a) = .ok r := by
  refine ⟨by rw [e.cfg]; exact s.hcur, ?_, by rw [e.cfg, e.quote]; exact s.incomplete, by rw [e.cfg]; exact s.hfm, ?_, ?_⟩
  · have := s.lim
    unfold World.checkLimiter at this ⊢
    rw [e.cfg, e.activation, e.key]
    exact this
  · unfold Pool.updatePreSwap
    rw [e.cfg, e.vol, e.price]
    by_cases h0 : w.cfg.fees.dyn.initialized = 0
    · rw [if_neg (not_not.2 h0), (s.preOff h0).1, ← e.vol]
    · rw [if_pos h0, s.preOn h0, ok_bind, ← e.price]
  · rw [e.cfg, processSwap_congr e.price e.activation]
    have : v.firstMin a = w.firstMin a := by
      unfold World.firstMin
      rw [e.cfg, e.hasSwap, e.key]
    rw [this]
    exact s.proc

/-- The same swap from two states that agree on the curve does the same trade and leaves states that agree on the curve. -/
theorem swap_same {w v w2 u2 : World} {a : SwapArgs} (e : SameCurve w v) (hw : w.swap a = .ok w2) (hv : v.swap a = .ok u2) :
    SameCurve w2 u2 ∧ ∃ x, Observed w w2 a.dir x ∧ Observed v u2 a.dir x := by
  obtain ⟨cur, fm, r, v1, v2, s⟩ := swap_ok hw
  obtain ⟨cur', fm', r', v1', v2', t⟩ := swap_ok hv
  obtain ⟨k1, -, -, k4, k5, k6⟩ := result_same e s
  rw [t.hcur, ok_inj] at k1
  rw [t.hfm, ok_inj] at k4
  subst k1 k4
  rw [t.pre, ok_inj] at k5
  have e1 : v1' = v1 := by
    have := congrArg Pool.vol k5
    exact this
  subst e1
  rw [t.proc, ok_inj] at k6
  subst k6
  have e2 : v2' = v2 := by
    by_cases h0 : w.cfg.fees.dyn.initialized = 0
    · rw [(s.preOff h0).2, (t.preOff (by rw [e.cfg]; exact h0)).2]
    · obtain ⟨x, d, a1, a2, a3⟩ := s.postOn h0
      obtain ⟨x', d', b1, b2, b3⟩ := t.postOn (by rw [e.cfg]; exact h0)
      rw [e.cfg, a1, ok_inj] at b1
      rw [e.cfg, e.price, a2, ok_inj] at b2
      rw [a3, b3, b1, b2]
  refine ⟨⟨?_, ?_, by rw [s.price, t.price], ?_, ?_, by rw [s.vol, t.vol, e2], by rw [s.hasSwap, t.hasSwap], ?_, ?_⟩,
    tradeOf w.cfg fm' r', SwapStep.observed s, ?_⟩
  · rw [s.frame, t.frame]; exact e.cfg
  · rw [s.frame, t.frame]; exact e.key
  · have := e.base
    cases hd : a.dir with
    | baseToQuote => have := s.sellRes hd; have := t.sellRes hd; omega
    | quoteToBase => have := s.buyRes hd; have := t.buyRes hd; omega
  · have := e.quote
    cases hd : a.dir with
    | baseToQuote => have := s.sellRes hd; have := t.sellRes hd; omega
    | quoteToBase => have := s.buyRes hd; have := t.buyRes hd; omega
  · rw [s.poolFrame, t.poolFrame]; exact e.activation
  · have a1 := s.metProtocolBase; have a2 := s.metTradingBase; have a3 := s.metProtocolQuote; have a4 := s.metTradingQuote
    have b1 := t.metProtocolBase; have b2 := t.metTradingBase; have b3 := t.metProtocolQuote; have b4 := t.metTradingQuote
    rw [e.metrics] at b1 b2 b3 b4
    rw [← a1] at b1
    rw [← a2] at b2
    rw [← a3] at b3
    rw [← a4] at b4
    cases hm : w2.pool.metrics
    cases hm' : u2.pool.metrics
    rw [hm, hm'] at b1 b2 b3 b4
    dsimp only at b1 b2 b3 b4
    rw [b1, b2, b3, b4]
  · have := SwapStep.observed t
    rw [e.cfg] at this
    exact this

theorem Observed.same {w w2 v u2 : World} {d : TradeDirection} {x y : Trade} (o : Observed w w2 d x) (o1 : Observed w w2 d y)
    (o2 : Observed v u2 d y) : Observed v u2 d x := by
  refine ⟨fun t => ?_, fun t => ?_, fun t => ?_, fun t => ?_, fun t => ?_, fun t => ?_⟩
  · have := o.paid t; have := o1.paid t; have := o2.paid t; omega
  · have := o.got t; have := o1.got t; have := o2.got t; omega
  · have := o.partner t; have := o1.partner t; have := o2.partner t; omega
  · have := o.creator t; have := o1.creator t; have := o2.creator t; omega
  · have := o.protocol t; have := o1.protocol t; have := o2.protocol t; omega
  · have := o.referral t; have := o1.referral t; have := o2.referral t; omega

/-- C78, one trade: whatever happens to a pool, other than trades, a swap that would have gone through before it goes through
after it, at the same clock, if the trader still owns what it takes. What is paid and received, every part of the fee, the price
and the reserves it leaves are the same. -/
theorem C78_same_trade {w w1 w2 : World} {ops : List Op} {a : SwapArgs} {x : Trade} (h : Reachable w) (hr : Run w ops w1)
    (hno : ∀ b, Op.swap b ∉ ops) (hs : w.step (.swap a) = .ok w2) (o : Observed w w2 a.dir x) (own : Exists w1 a x.paid) :
    ∃ w3, w1.step (.swap a) = .ok w3 ∧ Observed w1 w3 a.dir x ∧ w3.pool.sqrtPrice = w2.pool.sqrtPrice ∧
      ∀ t, reserve w3 t = reserve w2 t := by
  have e := quiet_run hr hno
  obtain ⟨cur, fm, r, v1, v2, s⟩ := swap_ok hs
  obtain ⟨k1, k2, k3, k4, k5, k6⟩ := result_same e s
  have room := swap_room hs s
  have hpaid : x.paid = r.includedIn := (trade_eq o (SwapStep.observed s)).1
  rw [hpaid] at own
  obtain ⟨ps, hc⟩ := h.core
  have hR := processSwap_ok (p := { w.pool with vol := v1 }) hc.good.curve hc.lo hc.hi s.proc
  have hnext : 0 < r.next := by
    have hm := hc.good.startMin
    have : w.cfg.sqrtStartPrice ≤ r.next := by
      cases hd : a.dir with
      | baseToQuote => exact (hR.sell hd).ge hc.good.curve.proper hc.lo
      | quoteToBase => exact hc.lo.trans (hR.buy hd).1.le
    have : 0 < MIN_SQRT_PRICE := by decide
    omega
  have hclk := swap_clock s hnext
  rw [← e.vol, ← e.cfg] at hclk
  obtain ⟨w3, h3⟩ := swap_commits (h.run hr) s.mode s.pos k1 k2 k3 hclk k5 k4 k6 (by
    unfold Exists at own
    refine ⟨fun hd => ?_, fun hd => ?_, fun hf => ?_, fun hf => ?_⟩
    · rw [hd] at own; exact own
    · rw [hd] at own; exact own
    · rw [e.metrics]; exact room.base hf
    · rw [e.metrics]; exact room.quote hf)
  obtain ⟨e2, y, o1, o2⟩ := swap_same e hs h3
  refine ⟨w3, h3, Observed.same o o1 o2, e2.price, fun t => ?_⟩
  cases t with
  | base => exact e2.base
  | quote => exact e2.quote

/-- The swaps of a history, in order. -/
def swapsOf : List Op → List SwapArgs
  | [] => []
  | .swap a :: ops => a :: swapsOf ops
  | _ :: ops => swapsOf ops

theorem swapsOf_cons {op : Op} (h : ∀ a, op ≠ .swap a) (ops : List Op) : swapsOf (op :: ops) = swapsOf ops := by
  cases op with
  | swap a => exact absurd rfl (h a)
  | _ => rfl

/-- What traders and referral accounts have paid and received so far is the same. -/
structure SameTotals (w v : World) : Prop where
  paid : ∀ t, traderIn v t = traderIn w t
  got : ∀ t, traderOut v t = traderOut w t
  referral : ∀ t, referrals v t = referrals w t

theorem quiet_step {w w1 : World} {op : Op} (hs : w.step op = .ok w1) (hno : ∀ a, op ≠ .swap a) :
    SameCurve w w1 ∧ SameTotals w w1 := by
  rcases step_cases hs with ⟨a, rfl, _⟩ |
    ⟨k1, k2, k3, k4, k5, k6, k7, k8, k9, -, -, -, l1, l2, l3, l4, l5, l6, -⟩
  · exact absurd rfl (hno a)
  · refine ⟨⟨k1, k2, k3, k4, k5, k6, k7, k8, k9⟩, fun t => ?_, fun t => ?_, fun t => ?_⟩ <;> cases t <;> assumption

theorem SameCurve.trans {u v w : World} (a : SameCurve u v) (b : SameCurve v w) : SameCurve u w :=
  ⟨b.cfg.trans a.cfg, b.key.trans a.key, b.price.trans a.price, b.base.trans a.base, b.quote.trans a.quote, b.vol.trans a.vol,
    b.hasSwap.trans a.hasSwap, b.activation.trans a.activation, b.metrics.trans a.metrics⟩

theorem SameTotals.trans {u v w : World} (a : SameTotals u v) (b : SameTotals v w) : SameTotals u w :=
  ⟨fun t => (b.paid t).trans (a.paid t), fun t => (b.got t).trans (a.got t), fun t => (b.referral t).trans (a.referral t)⟩

theorem SameTotals.symm {u v : World} (a : SameTotals u v) : SameTotals v u :=
  ⟨fun t => (a.paid t).symm, fun t => (a.got t).symm, fun t => (a.referral t).symm⟩

/-- The first swap of a history is preceded by other operations only. -/
theorem run_to_swap {v v' : World} {ops : List Op} (hr : Run v ops v') : ∀ {a : SwapArgs} {l : List SwapArgs},
    swapsOf ops = a :: l → ∃ v1 v2 post, SameCurve v v1 ∧ SameTotals v v1 ∧ v1.step (.swap a) = .ok v2 ∧ Run v2 post v' ∧
      swapsOf post = l := by
  induction hr with
  | nil => intro a l h; cases h
  | @cons w w1 w2 op ops hs hr ih =>
    intro a l h
    by_cases hop : ∃ b, op = .swap b
    · obtain ⟨b, rfl⟩ := hop
      injection h with h1 h2
      subst h1
      exact ⟨w, w1, ops, ⟨rfl, rfl, rfl, rfl, rfl, rfl, rfl, rfl, rfl⟩, ⟨fun _ => rfl, fun _ => rfl, fun _ => rfl⟩, hs, hr, h2⟩
    · have hno : ∀ b, op ≠ .swap b := fun b e => hop ⟨b, e⟩
      rw [swapsOf_cons hno] at h
      obtain ⟨q1, q2⟩ := quiet_step hs hno
      obtain ⟨v1, v2, post, e1, e2, k1, k2, k3⟩ := ih h
      exact ⟨v1, v2, post, q1.trans e1, q2.trans e2, k1, k2, k3⟩

theorem run_no_swap {v v' : World} {ops : List Op} (hr : Run v ops v') :
    swapsOf ops = [] → SameCurve v v' ∧ SameTotals v v' := by
  induction hr with
  | nil => intro _; exact ⟨⟨rfl, rfl, rfl, rfl, rfl, rfl, rfl, rfl, rfl⟩, ⟨fun _ => rfl, fun _ => rfl, fun _ => rfl⟩⟩
  | @cons w w1 w2 op ops hs hr ih =>
    intro h
    by_cases hop : ∃ b, op = .swap b
    · obtain ⟨b, rfl⟩ := hop
      cases h
    · have hno : ∀ b, op ≠ .swap b := fun b e => hop ⟨b, e⟩
      rw [swapsOf_cons hno] at h
      obtain ⟨q1, q2⟩ := quiet_step hs hno
      obtain ⟨e1, e2⟩ := ih h
      exact ⟨q1.trans e1, q2.trans e2⟩

theorem trading_same {w w' : World} {ops : List Op} (hr : Run w ops w') : ∀ {v v' : World} {ops' : List Op},
    SameCurve w v → SameTotals w v → Run v ops' v' → swapsOf ops = swapsOf ops' → SameCurve w' v' ∧ SameTotals w' v' := by
  induction hr with
  | nil =>
    intro v v' ops' e1 e2 hv h
    obtain ⟨k1, k2⟩ := run_no_swap hv h.symm
    exact ⟨e1.trans k1, e2.trans k2⟩
  | @cons w w1 w2 op ops hs hr ih =>
    intro v v' ops' e1 e2 hv h
    by_cases hop : ∃ b, op = .swap b
    · obtain ⟨b, rfl⟩ := hop
      obtain ⟨v1, v2, post, q1, q2, k1, k2, k3⟩ := run_to_swap hv h.symm
      obtain ⟨c1, x, o1, o2⟩ := swap_same (e1.trans q1) hs k1
      have e3 := e2.trans q2
      refine ih c1 ⟨fun t => ?_, fun t => ?_, fun t => ?_⟩ k2 k3.symm
      · rw [o1.paid t, o2.paid t, e3.paid t]
      · rw [o1.got t, o2.got t, e3.got t]
      · rw [o1.referral t, o2.referral t, e3.referral t]
    · have hno : ∀ b, op ≠ .swap b := fun b e => hop ⟨b, e⟩
      rw [swapsOf_cons hno] at h
      obtain ⟨q1, q2⟩ := quiet_step hs hno
      exact ih (q1.symm.trans e1) (q2.symm.trans e2) hv h

/-- C78, whole histories: two histories from the same state with the same swaps in the same order, whatever else happened in
between, end with the same price, reserves, volatility record and lifetime fees, and with the same amounts paid by and paid
to traders and referral accounts. -/
theorem C78_same_history {w w1 w2 : World} {ops ops' : List Op} (h1 : Run w ops w1) (h2 : Run w ops' w2)
    (h : swapsOf ops = swapsOf ops') :
    w2.pool.sqrtPrice = w1.pool.sqrtPrice ∧ w2.pool.vol = w1.pool.vol ∧ w2.pool.metrics = w1.pool.metrics ∧
    ∀ t, reserve w2 t = reserve w1 t ∧ traderIn w2 t = traderIn w1 t ∧ traderOut w2 t = traderOut w1 t ∧
      referrals w2 t = referrals w1 t := by
  obtain ⟨e, k⟩ := trading_same h1 ⟨rfl, rfl, rfl, rfl, rfl, rfl, rfl, rfl, rfl⟩
    ⟨fun _ => rfl, fun _ => rfl, fun _ => rfl⟩ h2 h
  refine ⟨e.price, e.vol, e.metrics, fun t => ⟨?_, k.paid t, k.got t, k.referral t⟩⟩
  cases t with
  | base => exact e.base
  | quote => exact e.quote

namespace Ex

/-- Claims by everybody, a gift and a new creator, without trade. -/
def quiet : List Op :=
  [.claimPartnerFee 11 18446744073709551615 18446744073709551615, .claimProtocolFee 31 18446744073709551615 1000000,
   .donate 500 600 700, .claimCreatorFee 21 18446744073709551615 18446744073709551615, .transferCreator 21 22]

/-- A sale after the example trades. -/
def laterSale : SwapArgs := ⟨0, 10000000000, 0, .baseToQuote, true, ⟨1400, 1001300⟩, _root_.Ex.txSwap⟩

end Ex

/-- Between the example trades and a later sale, everybody claims, somebody makes a gift and the creator changes: the pool's
balances are other ones, the sale is the same. Two histories with the same trades and claims at different moments agree. -/
theorem C78_example :
    Reachable Ex.tradingA ∧ Run Ex.tradingA Ex.quiet (Ex.after Ex.paramsA (Ex.trading ++ Ex.quiet)) ∧
    (∀ b, Op.swap b ∉ Ex.quiet) ∧
    (∃ w2 x, Ex.tradingA.step (.swap Ex.laterSale) = .ok w2 ∧ Observed Ex.tradingA w2 .baseToQuote x ∧
      x.paid = 10000000000 ∧ 0 < x.got ∧ 0 < x.fee ∧
      Exists (Ex.after Ex.paramsA (Ex.trading ++ Ex.quiet)) Ex.laterSale x.paid) ∧
    partnerFee (Ex.after Ex.paramsA (Ex.trading ++ Ex.quiet)) .quote < partnerFee Ex.tradingA .quote ∧
    vault (Ex.after Ex.paramsA (Ex.trading ++ Ex.quiet)) .base ≠ vault Ex.tradingA .base ∧
    (swapsOf (Ex.trading.take 6)).length = 6 ∧ swapsOf (Ex.trading ++ Ex.quiet) = swapsOf (Ex.trading.take 6) := by
  have hrun : Run Ex.tradingA Ex.quiet (Ex.after Ex.paramsA (Ex.trading ++ Ex.quiet)) := by
    apply _root_.Ex.exec_run
    decide +kernel
  refine ⟨_root_.Ex.reachTradingA, hrun, ?_, ?_, ?_, ?_, ?_, ?_⟩
  · intro b hb
    simp [Ex.quiet] at hb
  · refine ⟨_root_.Ex.after _root_.Ex.paramsA (_root_.Ex.trading ++ [.swap Ex.laterSale]),
      ⟨10000000000, 55553380, .quote, 324917, 139249, 92833, 23208⟩, by decide +kernel, ?_, rfl, by decide, by decide, ?_⟩
    · refine ⟨?_, ?_, ?_, ?_, ?_, ?_⟩ <;> intro t <;> cases t <;> decide +kernel
    · unfold Exists; dsimp only [Ex.laterSale]; decide +kernel
  all_goals decide +kernel

end Props

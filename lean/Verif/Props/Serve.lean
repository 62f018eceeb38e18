import Verif.Lemmas.Serve
import Verif.Props.Modes
import Verif.Props.Go

/-!
# The three swap modes serve the same trades: C76
-/

namespace Props
open Dbc Spec

/-! ### The exact-output walk -/

theorem walkOut_exists {c : PoolConfig} {ps : List Point} (hg : Good c ps) {p : Pool} (h1 : c.sqrtStartPrice ≤ p.sqrtPrice)
    (h2 : p.sqrtPrice ≤ c.migrationSqrtPrice) {d : TradeDirection} {a o : Nat} {r : FromInput}
    (h : walkIn c p d a = .ok r) (ho : o < r.out) (hou : o ≤ u64Max) (hu : a - r.left ≤ u64Max) :
    ∃ r', walkOut c p d o = .ok r' ∧ r'.next ≤ c.migrationSqrtPrice ∧ r'.amountIn ≤ a - r.left := by
  have hp := hg.curve.proper
  have hw := walkIn_ok hg.curve h1 h2 h
  have hm := hg.migMax
  cases d with
  | quoteToBase =>
    have hend := (hw.2.1 rfl).2
    simp only [walkIn, buyIn_loop hg.curve] at h
    obtain ⟨i, n, e1, e2, e3⟩ := buyOutLoop_exists (o := o) (inp := 0) hp h1
      (fun q hq => (price_le_top hp q hq).trans hg.topMax) hg.liqMax h (by omega) hou (by omega)
    refine ⟨⟨i, n⟩, ?_, by dsimp only; omega, by dsimp only; omega⟩
    obtain ⟨k, hn⟩ := hg.curve.stored
    simp only [walkOut, buyOut]
    rw [hn, buyOutLoop_pad, e1, ok_bind]
    dsimp only
    rw [(req_ok (u := ())).2 rfl, ok_bind]
  | baseToQuote =>
    simp only [walkIn, sellIn_down hg.curve h2] at h
    have hliq : c.liq0 ≤ u128Max := by
      obtain ⟨k, hn⟩ := hg.curve.stored
      cases hps : ps with
      | nil => exact absurd hps hg.curve.nonempty
      | cons q qs =>
        unfold PoolConfig.liq0
        rw [hn, hps]
        exact hg.liqMax q (by rw [hps]; exact List.mem_cons_self)
    obtain ⟨r', e1, e2, e3⟩ := sellDownOut_exists (o := o) (acc := 0) (downs_ok hp) hliq
      (fun d hd => by obtain ⟨q, hq, e⟩ := downs_liq_mem hd; rw [← e]; exact hg.liqMax q hq)
      (Dbc.Proper.lo_pos hp) h1 (by omega) h (by omega) hou (by omega)
    refine ⟨r', by simp only [walkOut, sellOut_down hg.curve h2]; exact e1, ?_, by omega⟩
    have := (sellDownOut_grow (downs_ok hp) h1 e1).1
    omega

/-! ### What an exact-input or partial-fill swap charges -/

theorem in_swap_charges {c : PoolConfig} {p : Pool} {a : SwapArgs} {fm : FeeMode} {cur : Nat} {fst : Bool} {r : SwapResult}
    (hm : a.mode ≤ 1) (h : processSwap c p a fm cur fst = .ok r) :
    ∃ num net f wk, numeratorIncluded c p cur a.amount0 a.dir fst = .ok num ∧
      walkIn c p a.dir net = .ok wk ∧ r.excludedIn = net - wk.left ∧
      ((fm.feesOnInput = true ∧ r.out = wk.out ∧ feeOnAmount num a.amount0 fm.hasReferral = .ok (net, f) ∧
          ((wk.left = 0 ∧ r.includedIn = a.amount0 ∧ r.fee = f) ∨
            ∃ num' g, numeratorExcluded c p cur r.excludedIn a.dir fst = .ok num' ∧
              includedFeeAmount num' r.excludedIn = .ok (r.includedIn, g) ∧ splitFees g fm.hasReferral = .ok r.fee)) ∨
        (fm.feesOnInput = false ∧ r.includedIn = r.excludedIn ∧ feeOnAmount num wk.out fm.hasReferral = .ok (r.out, r.fee))) := by
  unfold processSwap at h
  have h01 : a.mode = 0 ∨ a.mode = 1 := by omega
  rcases h01 with e | e
  · simp only [e, exactIn, bind_ok, req_ok, ok_inj, Prod.exists] at h
    obtain ⟨_, ⟨num, hnum, net, f, hnet, wk, hwk, _, hl, ao, fo, hout, rfl⟩, _, _, rfl⟩ := h
    refine ⟨num, net, f, wk, hnum, hwk, by dsimp only; omega, ?_⟩
    cases hf : fm.feesOnInput with
    | true =>
      rw [hf, if_pos rfl] at hnet hout
      rw [ok_inj, Prod.mk.injEq] at hout
      exact .inl ⟨rfl, hout.1.symm, hnet, .inl ⟨hl, rfl, hout.2.symm⟩⟩
    | false =>
      rw [hf, if_neg Bool.false_ne_true] at hnet hout
      rw [ok_inj, Prod.mk.injEq] at hnet
      exact .inr ⟨rfl, hnet.1, hout⟩
  · simp only [e, partialIn, bind_ok, req_ok, ok_inj, Prod.exists] at h
    obtain ⟨_, ⟨num, hnum, net, f, hnet, wk, hwk, inc, ai, inf, hmid, ao, fo, hout, rfl⟩, _, _, rfl⟩ := h
    refine ⟨num, net, f, wk, hnum, hwk, ?_⟩
    by_cases hl : wk.left = 0
    · rw [if_neg (by simpa using hl), ok_inj, Prod.mk.injEq, Prod.mk.injEq] at hmid
      obtain ⟨rfl, rfl, rfl⟩ := hmid
      refine ⟨by dsimp only; omega, ?_⟩
      cases hf : fm.feesOnInput with
      | true =>
        rw [hf, if_pos rfl] at hnet hout
        rw [ok_inj, Prod.mk.injEq] at hout
        exact .inl ⟨rfl, hout.1.symm, hnet, .inl ⟨hl, rfl, hout.2.symm⟩⟩
      | false =>
        rw [hf, if_neg Bool.false_ne_true] at hnet hout
        rw [ok_inj, Prod.mk.injEq] at hnet
        exact .inr ⟨rfl, hnet.1, hout⟩
    · rw [if_pos hl] at hmid
      simp only [bind_ok, safeSub_ok] at hmid
      obtain ⟨_, ⟨hle, rfl⟩, hmid⟩ := hmid
      cases hf : fm.feesOnInput with
      | true =>
        rw [hf, if_pos rfl] at hnet hout hmid
        simp only [bind_ok, ok_inj, Prod.exists, Prod.mk.injEq] at hmid hout
        obtain ⟨num', hn', i, g, hi, sp, hsp, rfl, rfl, rfl⟩ := hmid
        refine ⟨rfl, .inl ⟨rfl, hout.1.symm, hnet, .inr ⟨num', g, hn', hi, ?_⟩⟩⟩
        rw [← hout.2]; exact hsp
      | false =>
        rw [hf, if_neg Bool.false_ne_true] at hnet hout hmid
        simp only [ok_inj, Prod.mk.injEq] at hmid
        obtain ⟨rfl, rfl, rfl⟩ := hmid
        exact ⟨rfl, .inr ⟨rfl, rfl, hout⟩⟩

/-- Less is charged on no more: against an amount from which the fee is taken off. -/
theorem include_fee_le {num a ex x inc f : Nat} {ref : Bool} {s : FeeSplit} (h : feeOnAmount num a ref = .ok (ex, s))
    (h' : includedFeeAmount num x = .ok (inc, f)) (hx : x ≤ ex) : f ≤ s.sum := by
  obtain ⟨b1, b2, -⟩ := feeOnAmount_ok h
  obtain ⟨a1, a2, a3, a4, -⟩ := includedFeeAmount_ok h'
  have k3 := le_divCeil_mul (a * num) (b := FEE_DENOMINATOR) (by decide)
  rw [← b2] at k3
  have hle : inc ≤ x + s.sum := by
    rw [a3, divCeil_le_iff (by omega), Nat.mul_sub, Nat.add_mul]
    have : (x + s.sum) * num ≤ a * num := Nat.mul_le_mul_right _ (by omega)
    omega
  omega

/-- The same against an amount to which the fee is added. -/
theorem include_include_le {num x y inc inc' f f' : Nat} (h : includedFeeAmount num y = .ok (inc, f))
    (h' : includedFeeAmount num x = .ok (inc', f')) (hx : x ≤ y) : inc' ≤ inc ∧ f' ≤ f := by
  obtain ⟨b1, b2, b3, b4, -⟩ := includedFeeAmount_ok h
  obtain ⟨a1, a2, a3, a4, -⟩ := includedFeeAmount_ok h'
  have k1 := le_divCeil_mul (y * FEE_DENOMINATOR) (b := FEE_DENOMINATOR - num) (by omega)
  rw [← b3, Nat.mul_sub] at k1
  have k2 : inc * num ≤ inc * FEE_DENOMINATOR := Nat.mul_le_mul_left _ b1
  have k3 : inc * FEE_DENOMINATOR = y * FEE_DENOMINATOR + f * FEE_DENOMINATOR := by rw [← b4, Nat.add_mul]
  have hle : inc' ≤ x + f := by
    rw [a3, divCeil_le_iff (by omega), Nat.mul_sub, Nat.add_mul]
    have : (x + f) * num ≤ inc * num := Nat.mul_le_mul_right _ (by omega)
    omega
  omega

theorem splitFees_mono {f f' : Nat} {ref : Bool} {s s' : FeeSplit} (h : splitFees f ref = .ok s)
    (h' : splitFees f' ref = .ok s') (hf : f' ≤ f) : s'.protocol ≤ s.protocol ∧ s'.trading ≤ s.trading := by
  obtain ⟨a1, a2, a3, -⟩ := splitFees_ok h
  obtain ⟨b1, b2, b3, -⟩ := splitFees_ok h'
  unfold FeeSplit.sum at a1 b1
  cases ref with
  | true => rw [if_pos rfl] at a3 b3; omega
  | false => rw [if_neg Bool.false_ne_true] at a3 b3; omega

theorem includedFee_less {num x y inc f : Nat} (h : includedFeeAmount num y = .ok (inc, f)) (hx : x ≤ y) :
    ∃ inc' f', includedFeeAmount num x = .ok (inc', f') := by
  obtain ⟨b1, b2, b3, b4, b5⟩ := includedFeeAmount_ok h
  have hd : 0 < FEE_DENOMINATOR - num := by omega
  have := divCeil_mono (b := FEE_DENOMINATOR - num) hd (Nat.mul_le_mul_right FEE_DENOMINATOR hx)
  exact ⟨_, _, includedFeeAmount_total' (by omega) (by omega) (by omega)⟩

/-- Where an exact-input or partial-fill swap can be computed, so can an exact-output swap for less than it yields; it takes
no more and is charged no more. -/
theorem exactOut_exists {c : PoolConfig} {ps : List Point} (hg : Good c ps) {p : Pool} (h1 : c.sqrtStartPrice ≤ p.sqrtPrice)
    (h2 : p.sqrtPrice ≤ c.migrationSqrtPrice) {a : SwapArgs} {fm : FeeMode} {cur : Nat} {fst : Bool} {r : SwapResult}
    (hm : a.mode ≤ 1) (h : processSwap c p a fm cur fst = .ok r)
    (hrate : ∀ m m', numeratorExcluded c p cur m a.dir fst = numeratorIncluded c p cur m' a.dir fst) {o : Nat}
    (ho : o < r.out) (hin : r.includedIn ≤ u64Max) (hex : r.excludedIn ≤ r.includedIn)
    (hcap : ∀ m num, numeratorIncluded c p cur m a.dir fst = .ok num → num < FEE_DENOMINATOR)
    (hout : ∀ wk net, walkIn c p a.dir net = .ok wk → wk.out ≤ u64Max) :
    ∃ r', exactOut c p o fm a.dir cur fst = .ok r' ∧ r'.includedIn ≤ r.includedIn ∧ r'.out = o ∧
      r'.fee.protocol ≤ r.fee.protocol ∧ r'.fee.trading ≤ r.fee.trading := by
  obtain ⟨num, net, f, wk, n1, n2, n3, n4⟩ := in_swap_charges hm h
  have hwu := hout _ _ n2
  have hlt := hcap _ _ n1
  rcases n4 with ⟨hf, k1, k2, k3⟩ | ⟨hf, k1, k2⟩
  · -- the fee is taken from what is paid
    obtain ⟨wo, e1, e2, e3⟩ := walkOut_exists hg h1 h2 n2 (by omega : o < wk.out) (by omega) (by omega)
    have hnum : numeratorExcluded c p cur wo.amountIn a.dir fst = .ok num := by rw [hrate _ a.amount0]; exact n1
    have key : ∃ inc g s, includedFeeAmount num wo.amountIn = .ok (inc, g) ∧ splitFees g fm.hasReferral = .ok s ∧
        inc ≤ r.includedIn ∧ s.protocol ≤ r.fee.protocol ∧ s.trading ≤ r.fee.trading := by
      rcases k3 with ⟨l1, l2, l3⟩ | ⟨num', g0, l1, l2, l3⟩
      · obtain ⟨inc, g, q1, q2⟩ := includedFee_total (n := wo.amountIn) k2 hlt (by omega) (by omega)
        have q3 := includedFeeAmount_ok q1
        obtain ⟨s, hs⟩ := splitFees_some (fee := g) fm.hasReferral (by omega)
        have q4 := splitFees_mono (feeOnAmount_ok k2).2.2 hs (include_fee_le k2 q1 (by omega))
        rw [l3]
        exact ⟨inc, g, s, q1, hs, by omega, q4.1, q4.2⟩
      · rw [hrate _ a.amount0, n1, ok_inj] at l1
        subst l1
        obtain ⟨inc, g, q1⟩ := includedFee_less l2 (x := wo.amountIn) (by omega)
        have q2 := include_include_le l2 q1 (by omega)
        have q3 := includedFeeAmount_ok q1
        obtain ⟨s, hs⟩ := splitFees_some (fee := g) fm.hasReferral (by omega)
        have q4 := splitFees_mono l3 hs q2.2
        exact ⟨inc, g, s, q1, hs, q2.1, q4.1, q4.2⟩
    obtain ⟨inc, g, s, q1, q2, q3, q4, q5⟩ := key
    refine ⟨⟨inc, wo.amountIn, 0, o, wo.next, s⟩, ?_, q3, rfl, q4, q5⟩
    unfold exactOut
    rw [hf, if_pos rfl, ok_bind]
    dsimp only
    rw [e1, ok_bind, (req_ok (u := ())).2 e2, ok_bind, if_pos rfl, hnum, ok_bind, q1, ok_bind]
    dsimp only
    rw [q2, ok_bind, ok_bind]
  · -- the fee is taken from what is received
    have hk := feeOnAmount_ok k2
    have hnum : numeratorExcluded c p cur o a.dir fst = .ok num := by rw [hrate _ a.amount0]; exact n1
    obtain ⟨gross, g, q1, q2⟩ := includedFee_total (n := o) k2 hlt hwu ho.le
    have q3 := includedFeeAmount_ok q1
    obtain ⟨s, hs⟩ := splitFees_some (fee := g) fm.hasReferral (by omega)
    have q4 := splitFees_mono hk.2.2 hs (include_fee_le k2 q1 ho.le)
    have q5 := include_exclude_lt k2 q1 ho
    obtain ⟨wo, e1, e2, e3⟩ := walkOut_exists hg h1 h2 n2 q5 (by omega) (by omega)
    refine ⟨⟨wo.amountIn, wo.amountIn, 0, o, wo.next, s⟩, ?_, by dsimp only; omega, rfl, q4.1, q4.2⟩
    unfold exactOut
    rw [hf, if_neg Bool.false_ne_true, hnum, ok_bind, q1, ok_bind]
    dsimp only
    rw [hs, ok_bind, ok_bind]
    dsimp only
    rw [e1, ok_bind, (req_ok (u := ())).2 e2, ok_bind, if_neg Bool.false_ne_true, ok_bind]

theorem numerator_cap {w : World} (h : Reachable w) {p : Pool} {cur m num : Nat} {dir : TradeDirection} {fst : Bool}
    (hn : numeratorIncluded w.cfg p cur m dir fst = .ok num) : num < FEE_DENOMINATOR := by
  obtain ⟨q, env, -, hacc⟩ := h.config
  have hM : MAX_FEE_NUMERATOR < FEE_DENOMINATOR := by decide
  unfold numeratorIncluded at hn
  rw [ite_ok] at hn
  rcases hn with ⟨_, hn⟩ | ⟨_, hn⟩
  · obtain ⟨floor, -, e, -, hle⟩ := accepted_floor hacc
    rw [e, ok_inj] at hn
    have : floor ≤ MAX_FEE_NUMERATOR := hle
    omega
  · unfold totalFeeFromIncluded totalFee at hn
    simp only [bind_ok, ok_inj] at hn
    obtain ⟨b, -, v, -, t, -, rfl⟩ := hn
    split <;> omega

/-- What a committed swap shows to have had room. -/
theorem swap_room {w w' : World} {a : SwapArgs} {cur : Nat} {fm : FeeMode} {r : SwapResult} {v1 v2 : VolTracker}
    (h : w.swap a = .ok w') (s : SwapStep w a w' cur fm r v1 v2) : Room w fm a.dir r := by
  simp only [World.swap, bind_ok, req_ok] at h
  obtain ⟨_, _, _, _, cur', hcur, _, _, _, _, p1, hpre, fm', hfm, r', hproc, p2, hap, ⟨b, q⟩, hbq, -⟩ := h
  rw [s.hcur, ok_inj] at hcur
  rw [s.pre, ok_inj] at hpre
  rw [s.hfm, ok_inj] at hfm
  subst hcur hpre hfm
  rw [s.proc, ok_inj] at hproc
  subst hproc
  simp only [Pool.apply, bind_ok] at hap
  obtain ⟨c1, hc1, -⟩ := hap
  simp only [Pool.creditFee, bind_ok, Prod.exists] at hc1
  obtain ⟨pa, cr, -, hc1⟩ := hc1
  refine { buy := fun hd => ?_, sell := fun hd => ?_, base := fun e => ?_, quote := fun e => ?_ }
  · rw [hd] at hbq
    simp only [swapTransfers, vaultIn, bind_ok] at hbq
    obtain ⟨q, hq, -⟩ := hbq
    rw [ite_ok] at hq
    rcases hq with ⟨hq, -⟩ | ⟨-, hq⟩
    · exact hq
    · cases hq
  · rw [hd] at hbq
    simp only [swapTransfers, vaultIn, bind_ok] at hbq
    obtain ⟨q, hq, -⟩ := hbq
    rw [ite_ok] at hq
    rcases hq with ⟨hq, -⟩ | ⟨-, hq⟩
    · exact hq
    · cases hq
  · rw [e, if_pos rfl] at hc1
    simp only [bind_ok, Metrics.accumulate, if_true, safeAdd_ok] at hc1
    obtain ⟨_, -, _, -, _, -, m, ⟨_, ⟨k1, -⟩, _, ⟨k2, -⟩, -⟩, -⟩ := hc1
    exact ⟨k1, k2⟩
  · rw [e, if_neg Bool.false_ne_true] at hc1
    simp only [bind_ok, Metrics.accumulate, Bool.false_eq_true, if_false, safeAdd_ok] at hc1
    obtain ⟨_, -, _, -, _, -, m, ⟨_, ⟨k1, -⟩, _, ⟨k2, -⟩, -⟩, -⟩ := hc1
    exact ⟨k1, k2⟩

/-- A swap that went through shows that the clock does not stand in the way of the volatility bookkeeping. -/
theorem swap_clock {w w' : World} {a : SwapArgs} {cur : Nat} {fm : FeeMode} {r : SwapResult}
    {v1 v2 : VolTracker} (s : SwapStep w a w' cur fm r v1 v2) (hr : 0 < r.next) :
    w.pool.vol.priceRef ≠ 0 ∨ w.cfg.fees.dyn.initialized = 0 ∨ w.cfg.fees.dyn.filterPeriod ≤ a.clk.time := by
  by_contra hn
  simp only [not_or, not_not, not_le] at hn
  obtain ⟨g1, g2, g3⟩ := hn
  have k1 := s.preOn g2
  unfold updateReferences at k1
  dsimp only at k1
  rw [if_neg (by omega), ok_inj] at k1
  obtain ⟨v, d, k2, -, -⟩ := s.postOn g2
  simp only [updateVolAcc, bind_ok, deltaBinId] at k2
  obtain ⟨_, ⟨_, k3, -⟩, -⟩ := k2
  rw [← k1, g1, if_pos hr, if_pos hr] at k3
  unfold safeShlDivCastDown at k3
  rw [if_pos rfl] at k3
  cases k3

/-- What leaves the curve fits the width of an amount. -/
theorem walkIn_fits {w : World} (h : Reachable w) {v1 : VolTracker} {d : TradeDirection} {y : Nat} {wk : FromInput}
    (hwk : walkIn w.cfg { w.pool with vol := v1 } d y = .ok wk) : wk.out ≤ u64Max := by
  obtain ⟨ps, hc⟩ := h.core
  have := h.resMax
  obtain ⟨-, k1, k2, -⟩ := walkIn_ok (p := { w.pool with vol := v1 }) hc.good.curve hc.lo hc.hi hwk
  dsimp only at k1 k2
  cases d with
  | baseToQuote =>
    have t := (k2 rfl).quoteUp hc.good.curve.proper
    have := hc.quote
    omega
  | quoteToBase =>
    obtain ⟨t1, t2⟩ := k1 rfl
    have d1 := t1.baseDown hc.good.curve.proper
    have d2 := baseToDown_mono hc.good.curve.proper t2
    have d3 : baseToDown (segs w.cfg.sqrtStartPrice ps) w.cfg.migrationSqrtPrice ≤ w.cfg.swapBaseAmount := by
      rw [hc.good.swap]; exact total_le_total baseSegDown_le_up _ _
    have := hc.good.swapMax
    omega

theorem partial_of_exactIn {c : PoolConfig} {p : Pool} {x : Nat} {fm : FeeMode} {dir : TradeDirection} {cur : Nat}
    {fst : Bool} {r : SwapResult} (h : exactIn c p x fm dir cur fst = .ok r) : partialIn c p x fm dir cur fst = .ok r := by
  simp only [exactIn, bind_ok, ok_inj, Prod.exists, req_ok] at h
  obtain ⟨num, hnum, net, f, hnet, wk, hwk, _, hl, ao, fo, hout, rfl⟩ := h
  simp only [partialIn, bind_ok, ok_inj, Prod.exists]
  exact ⟨num, hnum, net, f, hnet, wk, hwk, x, net, f, if_neg (by simpa using hl), ao, fo, hout, rfl⟩

theorem exactIn_refused {c : PoolConfig} {p : Pool} {x : Nat} {fm : FeeMode} {dir : TradeDirection} {cur : Nat}
    {fst : Bool} {r : SwapResult} (h : partialIn c p x fm dir cur fst = .ok r) (hl : r.left ≠ 0) :
    exactIn c p x fm dir cur fst = .error .insufficientLiquidity := by
  simp only [partialIn, bind_ok, ok_inj, Prod.exists] at h
  obtain ⟨num, hnum, net, f, hnet, wk, hwk, inc, ai, inf, hmid, ao, fo, hout, rfl⟩ := h
  dsimp only at hl
  unfold exactIn
  rw [hnum, ok_bind, hnet, ok_bind]
  dsimp only
  rw [hwk, ok_bind]
  unfold req
  rw [if_neg hl]
  rfl

/-! ### The properties -/

/-- C76, first part: an exact-input swap that goes through goes through just the same as a partial fill, with the same
effect on everything. -/
theorem C76_partial_serves {w w' : World} {a : SwapArgs} (hm : a.mode = 0) (h : w.step (.swap a) = .ok w') :
    w.step (.swap { a with mode := 1 }) = .ok w' := by
  change w.swap a = .ok w' at h
  change w.swap { a with mode := 1 } = .ok w'
  unfold World.swap at h ⊢
  simp only [bind_ok, req_ok] at h ⊢
  obtain ⟨_, _, _, h2, cur, hcur, _, h3, _, h4, p1, hpre, fm, hfm, r, hproc, rest⟩ := h
  refine ⟨(), by decide, (), h2, cur, hcur, (), h3, (), h4, p1, hpre, fm, hfm, r, ?_, rest⟩
  unfold processSwap at hproc ⊢
  rw [hm] at hproc
  dsimp only at hproc ⊢
  simp only [bind_ok] at hproc ⊢
  obtain ⟨r0, e, k⟩ := hproc
  exact ⟨r0, partial_of_exactIn e, k⟩

/-- C76, second part: where a partial fill goes through, the exact-input swap for the same amount either goes through with
the same effect on everything, or is refused for lack of liquidity; in the latter case the partial fill ends where the curve
does: at the migration price for a buy, at the start price for a sale. -/
theorem C76_exact_or_exhausted {w w' : World} {a : SwapArgs} (hr : Reachable w) (hm : a.mode = 1)
    (h : w.step (.swap a) = .ok w') :
    w.step (.swap { a with mode := 0 }) = .ok w' ∨
    (w.step (.swap { a with mode := 0 }) = .error .insufficientLiquidity ∧
      (a.dir = .quoteToBase → w'.pool.sqrtPrice = w.cfg.migrationSqrtPrice) ∧
      (a.dir = .baseToQuote → w'.pool.sqrtPrice = w.cfg.sqrtStartPrice)) := by
  obtain ⟨ps, hc⟩ := hr.core
  obtain ⟨cur0, fm0, r0, v1, v2, s⟩ := swap_ok h
  have hres := processSwap_ok (p := { w.pool with vol := v1 }) hc.good.curve hc.lo hc.hi s.proc
  have hpart : partialIn w.cfg { w.pool with vol := v1 } a.amount0 fm0 a.dir cur0 (w.firstMin a) = .ok r0 ∧
      a.amount1 ≤ r0.out := by
    have k := s.proc
    unfold processSwap at k
    rw [hm] at k
    simp only [bind_ok, req_ok, ok_inj] at k
    obtain ⟨r', e, _, k1, rfl⟩ := k
    exact ⟨e, k1⟩
  change w.swap a = .ok w' at h
  have hraw := h
  unfold World.swap at hraw
  simp only [bind_ok, req_ok] at hraw
  obtain ⟨_, _, _, h2, cur, hcur, _, h3, _, h4, p1, hpre, fm, hfm, r, hproc, rest⟩ := hraw
  have q1 := s.hcur
  have q2 := s.hfm
  have q3 := s.pre
  rw [hcur, ok_inj] at q1
  rw [hfm, ok_inj] at q2
  rw [hpre, ok_inj] at q3
  subst q1 q2 q3
  have q4 := s.proc
  rw [hproc, ok_inj] at q4
  subst q4
  by_cases hl : r.left = 0
  · refine .inl ?_
    change w.swap { a with mode := 0 } = .ok w'
    unfold World.swap
    simp only [bind_ok, req_ok]
    refine ⟨(), by decide, (), h2, cur, hcur, (), h3, (), h4, _, hpre, fm, hfm, r, ?_, rest⟩
    unfold processSwap
    dsimp only
    simp only [bind_ok, req_ok]
    exact ⟨r, exactIn_of_partial hpart.1 hl, (), hpart.2, rfl⟩
  · refine .inr ⟨?_, fun hd => by rw [s.price]; exact hres.leftBuy hl hd, fun hd => by rw [s.price]; exact hres.leftSell hl hd⟩
    change w.swap { a with mode := 0 } = .error .insufficientLiquidity
    unfold World.swap
    have e1 : req ((0 : Nat) ≤ 2) Err.typeCastFailed = .ok () := req_ok.2 (by decide)
    have e2 : req (0 < a.amount0) Err.amountIsZero = .ok () := req_ok.2 h2
    have e4 : w.checkLimiter { a with mode := 0 } cur = .ok () := h3
    dsimp only
    rw [e1, ok_bind, e2, ok_bind, hcur, ok_bind, e4, ok_bind, (req_ok (u := ())).2 h4, ok_bind, hpre, ok_bind, hfm, ok_bind]
    have e5 : processSwap w.cfg { w.pool with vol := v1 } { a with mode := 0 } fm cur (w.firstMin { a with mode := 0 }) =
        .error .insufficientLiquidity := by
      unfold processSwap
      dsimp only
      have : w.firstMin { a with mode := 0 } = w.firstMin a := rfl
      rw [this, exactIn_refused hpart.1 hl]
      rfl
    rw [e5]
    rfl

/-- C76, third part: where an exact-input swap or a partial fill goes through, an exact-output swap asking for any smaller
yield goes through as well, at the same time and in the same transaction, provided only that it allows the price the first
one pays; it costs no more than the first one. Required is that the fee rate does not depend on size. -/
theorem C76_out_serves {w w1 : World} {a a' : SwapArgs} {x : Trade} (h : Reachable w) (hm : a.mode ≤ 1)
    (hm' : a'.mode = 2) (hfree : SizeFree w a)
    (hsame : a' = { a with mode := a'.mode, amount0 := a'.amount0, amount1 := a'.amount1 })
    (h1 : w.step (.swap a) = .ok w1) (o1 : Observed w w1 a.dir x) (hpos : 0 < a'.amount0)
    (hask : a'.amount0 < x.got) (hmax : x.paid ≤ a'.amount1) :
    ∃ w2 x', w.step (.swap a') = .ok w2 ∧ Observed w w2 a.dir x' ∧ x'.got = a'.amount0 ∧ x'.paid ≤ x.paid := by
  obtain ⟨ps, hc⟩ := h.core
  obtain ⟨cur, fm, r, v1, v2, s⟩ := swap_ok h1
  have ed : a'.dir = a.dir := by rw [hsame]
  have ec : a'.clk = a.clk := by rw [hsame]
  have er : a'.referral = a.referral := by rw [hsame]
  have ef : w.firstMin a' = w.firstMin a := by rw [hsame]; rfl
  have el : w.checkLimiter a' cur = w.checkLimiter a cur := by rw [hsame]; rfl
  have g1 := o1.paid (inToken a.dir)
  have g2 := (SwapStep.observed s).paid (inToken a.dir)
  have y1 := o1.got (outToken a.dir)
  have y2 := (SwapStep.observed s).got (outToken a.dir)
  rw [inTok_self] at g1 y1
  unfold tradeOf at g2 y2
  dsimp only at g2 y2
  rw [inTok_self] at g2 y2
  have z1 : x.got = r.out := by omega
  have z2 : x.paid = r.includedIn := by omega
  have room := swap_room h1 s
  have hs := h.solvent
  have hsup := hs.supMax
  have hin : r.includedIn ≤ u64Max := by
    cases hd : a.dir with
    | quoteToBase => have := room.buy hd; omega
    | baseToQuote => have := room.sell hd; omega
  have hres := processSwap_ok (p := { w.pool with vol := v1 }) hc.good.curve hc.lo hc.hi s.proc
  have hinput := hres.input
  obtain ⟨r', k1, k2, k3, k4, k5⟩ := exactOut_exists hc.good (p := { w.pool with vol := v1 }) hc.lo hc.hi hm s.proc
    (fun m m' => sizeFree_rate h hfree s.hcur { w.pool with vol := v1 } rfl m m') (by omega : a'.amount0 < r.out) hin (by omega)
    (fun m num hn => numerator_cap h hn) (fun wk net hwk => walkIn_fits h hwk)
  have hproc : processSwap w.cfg { w.pool with vol := v1 } a' fm cur (w.firstMin a') = .ok r' := by
    unfold processSwap
    rw [hm', ef, ed]
    dsimp only
    simp only [bind_ok, req_ok, ok_inj]
    exact ⟨r', k1, (), by omega, rfl⟩
  have hnext : 0 < r.next := by
    have := hc.good.startMin
    have e : 0 < MIN_SQRT_PRICE := by decide
    cases hd : a.dir with
    | baseToQuote =>
      have t := (hres.sell hd).ge hc.good.curve.proper hc.lo
      omega
    | quoteToBase =>
      have t := (hres.buy hd).1.le
      have := hc.lo
      dsimp only at t
      omega
  have hinc : w.pool.quoteReserve < w.cfg.migrationQuoteThreshold := s.incomplete
  obtain ⟨w2, hw2⟩ := swap_commits h (a := a') (by omega) hpos (by rw [ec]; exact s.hcur) (by rw [el]; exact s.lim) hinc
    (by rw [ec]; exact swap_clock s hnext) (by rw [ec]; exact s.pre) (by rw [ed, er]; exact s.hfm) hproc
    { buy := fun hd => by rw [ed] at hd; have := room.buy hd; omega
      sell := fun hd => by rw [ed] at hd; have := room.sell hd; omega
      base := fun e => by have := room.base e; omega
      quote := fun e => by have := room.quote e; omega }
  obtain ⟨cur', fm', r'', v1', v2', s'⟩ := swap_ok hw2
  have e1 : cur' = cur := by
    have q1 := s.hcur; have q2 := s'.hcur
    rw [ec, q1, ok_inj] at q2; exact q2.symm
  have e2 : fm' = fm := by
    have q1 := s.hfm; have q2 := s'.hfm
    rw [ed, er, q1, ok_inj] at q2; exact q2.symm
  have e3 : ({ w.pool with vol := v1' } : Pool) = { w.pool with vol := v1 } := by
    have q1 := s.pre; have q2 := s'.pre
    rw [ec, q1, ok_inj] at q2; exact q2.symm
  have p2 := s'.proc
  rw [e1, e2, e3, hproc, ok_inj] at p2
  have ob := SwapStep.observed s'
  rw [ed] at ob
  exact ⟨w2, _, hw2, ob, by unfold tradeOf; dsimp only; rw [← p2]; exact k3,
    by unfold tradeOf; dsimp only; rw [← p2, z2]; exact k2⟩

/-! ### Concrete cases -/

/-- In a reachable pool with a fee schedule and a volatility fee: a buy that can be made in any mode, a sale likewise, and a
buy larger than what the curve still takes, which is filled in part and refused in full. -/
theorem C76_example : Reachable (Ex.after Ex.paramsA Ex.trading) ∧
    SizeFree (Ex.after Ex.paramsA Ex.trading) (exIn 711810443) ∧
    SizeFree (Ex.after Ex.paramsA Ex.trading) { exIn 22588449389 with dir := .baseToQuote } ∧
    (∃ w1 w2, (Ex.after Ex.paramsA Ex.trading).step (.swap (exIn 711810443)) = .ok w1 ∧
      traderOut w1 .base - traderOut (Ex.after Ex.paramsA Ex.trading) .base = 123456789118 ∧
      (Ex.after Ex.paramsA Ex.trading).step (.swap { exOut 123456789117 with amount1 := 711810443 }) = .ok w2 ∧
      (Ex.after Ex.paramsA Ex.trading).step (.swap { exIn 711810443 with mode := 1 }) = .ok w1) ∧
    (∃ w1 w2, (Ex.after Ex.paramsA Ex.trading).step (.swap { exIn 22588449389 with dir := .baseToQuote }) = .ok w1 ∧
      traderOut w1 .quote - traderOut (Ex.after Ex.paramsA Ex.trading) .quote = 123456789 ∧
      (Ex.after Ex.paramsA Ex.trading).step
        (.swap { exOut 123456788 with dir := .baseToQuote, amount1 := 22588449389 }) = .ok w2) ∧
    (∃ w1, (Ex.after Ex.paramsA Ex.trading).step (.swap { exIn 71181044300000 with mode := 1 }) = .ok w1 ∧
      w1.pool.sqrtPrice = (Ex.after Ex.paramsA Ex.trading).cfg.migrationSqrtPrice ∧
      (Ex.after Ex.paramsA Ex.trading).step (.swap (exIn 71181044300000)) = .error .insufficientLiquidity) := by
  refine ⟨Ex.reachTradingA, .inl fun h => absurd h.1 (by decide +kernel), .inl fun h => absurd h.1 (by decide +kernel),
    ⟨((Ex.after Ex.paramsA Ex.trading).step (.swap (exIn 711810443))).toOption.getD (Ex.worldOf Ex.paramsA),
      ((Ex.after Ex.paramsA Ex.trading).step
        (.swap { exOut 123456789117 with amount1 := 711810443 })).toOption.getD (Ex.worldOf Ex.paramsA), by decide +kernel⟩,
    ⟨((Ex.after Ex.paramsA Ex.trading).step
        (.swap { exIn 22588449389 with dir := .baseToQuote })).toOption.getD (Ex.worldOf Ex.paramsA),
      ((Ex.after Ex.paramsA Ex.trading).step
        (.swap { exOut 123456788 with dir := .baseToQuote, amount1 := 22588449389 })).toOption.getD (Ex.worldOf Ex.paramsA),
      by decide +kernel⟩,
    ⟨((Ex.after Ex.paramsA Ex.trading).step
        (.swap { exIn 71181044300000 with mode := 1 })).toOption.getD (Ex.worldOf Ex.paramsA), by decide +kernel⟩⟩

end Props

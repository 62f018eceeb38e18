import Verif.Props.Extract
import Verif.Props.Config
import Verif.Lemmas.CompareOut
import Verif.Lemmas.SafeSwap

/-!
# Comparing trades at the same point of the curve: C42, C43, C47

"Ignoring fees" means the walk along the curve itself: `walkIn` is what the program runs on the input left after fees,
`walkOut` on the output before fees.
-/

namespace Props
open Dbc Spec

/-- The pool as it would be at another price. -/
def atPrice (w : World) (x : Nat) : Pool := { w.pool with sqrtPrice := x }

/-- A trade ending at `y` moved the price at least as far as one ending at `x`. -/
def AtLeastAsFar : TradeDirection → Nat → Nat → Prop
  | .quoteToBase, x, y => x ≤ y
  | .baseToQuote, x, y => y ≤ x

theorem buyIn_loop {c : PoolConfig} {ps : List Point} (hc : CurveOK c ps) (x a : Nat) :
    buyIn c x a = buyInLoop c.migrationSqrtPrice ps x a 0 := by
  obtain ⟨n, hn⟩ := hc.stored
  unfold buyIn
  rw [hn, buyInLoop_pad]

theorem sellIn_down {c : PoolConfig} {ps : List Point} (hc : CurveOK c ps) {x : Nat} (hx : x ≤ c.migrationSqrtPrice)
    (a : Nat) : sellIn c x a = sellDown c.sqrtStartPrice c.liq0 (downs ps) ⟨x, a, 0, false⟩ := by
  obtain ⟨n, hn⟩ := hc.stored
  have hm := hc.migHi
  cases ps with
  | nil => exact absurd rfl hc.nonempty
  | cons p ps =>
    unfold sellIn
    rw [hn, sellInLoop_pad n c.sqrtStartPrice p ps _ (by somega), sellInLoop_desc]
    rfl

theorem sellOut_down {c : PoolConfig} {ps : List Point} (hc : CurveOK c ps) {x : Nat} (hx : x ≤ c.migrationSqrtPrice)
    (a : Nat) : sellOut c x a = sellDownOut c.sqrtStartPrice c.liq0 (downs ps) ⟨x, a, 0, false⟩ := by
  obtain ⟨n, hn⟩ := hc.stored
  have hm := hc.migHi
  cases ps with
  | nil => exact absurd rfl hc.nonempty
  | cons p ps =>
    unfold sellOut
    rw [hn, sellOutLoop_pad n c.sqrtStartPrice p ps _ (by somega), sellOutLoop_desc]
    rfl

theorem buyOut_loop {c : PoolConfig} {ps : List Point} (hc : CurveOK c ps) {x a : Nat} {r : FromOutput}
    (h : buyOut c x a = .ok r) : buyOutLoop ps x a 0 = .ok (0, r.amountIn, r.next) := by
  obtain ⟨n, hn⟩ := hc.stored
  unfold buyOut at h
  rw [hn, buyOutLoop_pad] at h
  simp only [bind_ok, req_ok] at h
  obtain ⟨⟨l, i, nx⟩, hl, _, hz, hr⟩ := h
  dsimp only at hz hr
  rw [ok_inj] at hr
  subst hr
  subst hz
  exact hl

/-! ### C43 -/

theorem walkIn_mono {c : PoolConfig} {ps : List Point} (hg : Good c ps) {p : Pool} (h1 : c.sqrtStartPrice ≤ p.sqrtPrice)
    (h2 : p.sqrtPrice ≤ c.migrationSqrtPrice) {d : TradeDirection} {a a' : Nat} {r r' : FromInput} (hle : a ≤ a')
    (h : walkIn c p d a = .ok r) (h' : walkIn c p d a' = .ok r') :
    r.out ≤ r'.out ∧ AtLeastAsFar d r.next r'.next ∧ r.left ≤ r'.left := by
  have hp := hg.curve.proper
  cases d with
  | quoteToBase =>
    simp only [walkIn, buyIn_loop hg.curve] at h h'
    obtain ⟨k1, k2, k3⟩ := buyInLoop_shift (d := 0) hp h1 hle (by omega) h h'
    exact ⟨k1, k2, k3⟩
  | baseToQuote =>
    simp only [walkIn, sellIn_down hg.curve h2] at h h'
    obtain ⟨k1, k2, k3⟩ := sellDown_shift (e := 0) (downs_ok hp) (Dbc.Proper.lo_pos hp) h1 hle (by omega) h h'
    exact ⟨k1, k2, k3⟩

theorem walkOut_mono {c : PoolConfig} {ps : List Point} (hg : Good c ps) {p : Pool} (h1 : c.sqrtStartPrice ≤ p.sqrtPrice)
    (h2 : p.sqrtPrice ≤ c.migrationSqrtPrice) {d : TradeDirection} {o o' : Nat} {r r' : FromOutput} (hle : o ≤ o')
    (h : walkOut c p d o = .ok r) (h' : walkOut c p d o' = .ok r') :
    r.amountIn ≤ r'.amountIn ∧ AtLeastAsFar d r.next r'.next := by
  have hp := hg.curve.proper
  cases d with
  | quoteToBase =>
    obtain ⟨k1, k2, -⟩ := buyOutLoop_mono hp h1 hle le_rfl (buyOut_loop hg.curve h) (buyOut_loop hg.curve h')
    exact ⟨k1, k2⟩
  | baseToQuote =>
    simp only [walkOut, sellOut_down hg.curve h2] at h h'
    obtain ⟨k1, k2⟩ := sellDownOut_mono (downs_ok hp) (Dbc.Proper.lo_pos hp) h1 hle le_rfl h h'
    exact ⟨k1, k2⟩

/-- C43, exact input: both trades can be computed, and the larger input gives no less output, moves the price at least as
far and leaves no less unused. -/
theorem C43_more_in {w : World} (h : Reachable w) (d : TradeDirection) {x a a' : Nat}
    (hlo : w.cfg.sqrtStartPrice ≤ x) (hhi : x ≤ w.cfg.migrationSqrtPrice) (hle : a ≤ a') (hmax : a' ≤ u64Max) :
    ∃ r r', walkIn w.cfg (atPrice w x) d a = .ok r ∧ walkIn w.cfg (atPrice w x) d a' = .ok r' ∧
      r.out ≤ r'.out ∧ AtLeastAsFar d r.next r'.next ∧ r.left ≤ r'.left := by
  obtain ⟨ps, hc⟩ := h.core
  obtain ⟨r, hr⟩ := walkIn_total hc.good (p := atPrice w x) d hlo hhi (hle.trans hmax)
  obtain ⟨r', hr'⟩ := walkIn_total hc.good (p := atPrice w x) d hlo hhi hmax
  exact ⟨r, r', hr, hr', walkIn_mono hc.good hlo hhi hle hr hr'⟩

/-- C43, exact output: the larger output costs no less. -/
theorem C43_more_out {w : World} (h : Reachable w) {d : TradeDirection} {x o o' : Nat} {r r' : FromOutput}
    (hlo : w.cfg.sqrtStartPrice ≤ x) (hhi : x ≤ w.cfg.migrationSqrtPrice) (hle : o ≤ o')
    (hr : walkOut w.cfg (atPrice w x) d o = .ok r) (hr' : walkOut w.cfg (atPrice w x) d o' = .ok r') :
    r.amountIn ≤ r'.amountIn ∧ AtLeastAsFar d r.next r'.next := by
  obtain ⟨ps, hc⟩ := h.core
  exact walkOut_mono hc.good (p := atPrice w x) hlo hhi hle hr hr'

/-- The fee rate of a swap does not depend on its size: no rate limiter, or a sell (the limiter only looks at buys). -/
def FlatRate (w : World) (a : SwapArgs) : Prop := w.cfg.fees.base.mode ≠ 2 ∨ a.dir = .baseToQuote

theorem limiterApplied_sell (b : BaseFeeConfig) (cur act : Nat) : limiterApplied b cur act .baseToQuote = false := by
  unfold limiterApplied
  split <;> rfl

theorem baseFee_flat_included {b : BaseFeeConfig} {d : TradeDirection} (h : b.mode ≠ 2 ∨ d = .baseToQuote)
    (cur act m m' : Nat) : baseFeeFromIncluded b cur act d m = baseFeeFromIncluded b cur act d m' := by
  by_cases e0 : b.mode = 0
  · simp only [baseFeeFromIncluded, e0]
  by_cases e1 : b.mode = 1
  · simp only [baseFeeFromIncluded, e1]
  by_cases e2 : b.mode = 2
  · have hd : d = .baseToQuote := h.resolve_left (fun hn => hn e2)
    subst hd
    simp only [baseFeeFromIncluded, e2, limiterApplied_sell, Bool.false_eq_true, if_false]
  · obtain ⟨k, e⟩ : ∃ k, b.mode = k + 3 := ⟨b.mode - 3, by omega⟩
    simp only [baseFeeFromIncluded, e]

theorem FlatRate.included {w : World} {a : SwapArgs} (h : FlatRate w a) (p : Pool) (cur m m' : Nat) (fst : Bool) :
    numeratorIncluded w.cfg p cur m a.dir fst = numeratorIncluded w.cfg p cur m' a.dir fst := by
  unfold numeratorIncluded totalFeeFromIncluded
  rw [baseFee_flat_included h cur p.activationPoint m m']

theorem baseFee_flat_excluded {b : BaseFeeConfig} {d : TradeDirection} (h : b.mode ≠ 2 ∨ d = .baseToQuote)
    (cur act m m' : Nat) : baseFeeFromExcluded b cur act d m = baseFeeFromExcluded b cur act d m' := by
  by_cases e0 : b.mode = 0
  · simp only [baseFeeFromExcluded, e0]
  by_cases e1 : b.mode = 1
  · simp only [baseFeeFromExcluded, e1]
  by_cases e2 : b.mode = 2
  · have hd : d = .baseToQuote := h.resolve_left (fun hn => hn e2)
    subst hd
    simp only [baseFeeFromExcluded, e2, limiterApplied_sell, Bool.false_eq_true, if_false]
  · obtain ⟨k, e⟩ : ∃ k, b.mode = k + 3 := ⟨b.mode - 3, by omega⟩
    simp only [baseFeeFromExcluded, e]

theorem FlatRate.excluded {w : World} {a : SwapArgs} (h : FlatRate w a) (p : Pool) (cur m m' : Nat) (fst : Bool) :
    numeratorExcluded w.cfg p cur m a.dir fst = numeratorExcluded w.cfg p cur m' a.dir fst := by
  unfold numeratorExcluded totalFeeFromExcluded
  rw [baseFee_flat_excluded h cur p.activationPoint m m']

theorem feeOnAmount_mono {num m m' ex ex' : Nat} {ref : Bool} {f f' : FeeSplit} (hle : m ≤ m')
    (h : feeOnAmount num m ref = .ok (ex, f)) (h' : feeOnAmount num m' ref = .ok (ex', f')) : ex ≤ ex' := by
  obtain ⟨e1, e2, -⟩ := feeOnAmount_ok h
  obtain ⟨e1', e2', -⟩ := feeOnAmount_ok h'
  have hD : 0 < FEE_DENOMINATOR := by decide
  have hb : f'.sum ≤ f.sum + (m' - m) := by
    rcases Nat.eq_zero_or_pos m' with h0 | h0
    · subst h0
      rw [e2', Nat.zero_mul, divCeil_zero _ hD]
      omega
    · have hnum : num ≤ FEE_DENOMINATOR := by
        have h3 := le_divCeil_mul (m' * num) hD
        rw [← e2'] at h3
        have h4 : f'.sum * FEE_DENOMINATOR ≤ m' * FEE_DENOMINATOR := Nat.mul_le_mul_right _ (by omega)
        exact Nat.le_of_mul_le_mul_left (h3.trans h4) h0
      rw [e2', divCeil_le_iff hD, Nat.add_mul]
      have h3 := le_divCeil_mul (m * num) hD
      rw [← e2] at h3
      have h4 : (m' - m) * num ≤ (m' - m) * FEE_DENOMINATOR := Nat.mul_le_mul_left _ hnum
      have h5 : m' * num = m * num + (m' - m) * num := by rw [← Nat.add_mul]; congr 1; omega
      omega
  omega

theorem includedFee_mono {num m m' inc inc' f f' : Nat} (hle : m ≤ m') (h : includedFeeAmount num m = .ok (inc, f))
    (h' : includedFeeAmount num m' = .ok (inc', f')) : inc ≤ inc' := by
  obtain ⟨a1, a2, a3, -, -⟩ := includedFeeAmount_ok h
  obtain ⟨b1, b2, b3, -, -⟩ := includedFeeAmount_ok h'
  rw [a3, b3]
  exact divCeil_mono (by omega) (Nat.mul_le_mul_right _ hle)

/-- What both kinds of exact-input swap pay out. -/
theorem in_swap_out {c : PoolConfig} {p : Pool} {a : SwapArgs} {fm : FeeMode} {cur : Nat} {fst : Bool} {r : SwapResult}
    (hm : a.mode ≤ 1) (h : processSwap c p a fm cur fst = .ok r) :
    ∃ num net f wk, numeratorIncluded c p cur a.amount0 a.dir fst = .ok num ∧
      (if fm.feesOnInput then feeOnAmount num a.amount0 fm.hasReferral else .ok (a.amount0, FeeSplit.zero)) = .ok (net, f) ∧
      walkIn c p a.dir net = .ok wk ∧
      ((fm.feesOnInput = true ∧ r.out = wk.out) ∨
        (fm.feesOnInput = false ∧ ∃ g, feeOnAmount num wk.out fm.hasReferral = .ok (r.out, g))) := by
  unfold processSwap at h
  have h01 : a.mode = 0 ∨ a.mode = 1 := by omega
  rcases h01 with e | e
  · simp only [e, exactIn, bind_ok, req_ok, ok_inj, Prod.exists] at h
    obtain ⟨_, ⟨num, hnum, net, f, hnet, wk, hwk, _, _, ao, fo, hout, rfl⟩, _, _, rfl⟩ := h
    refine ⟨num, net, f, wk, hnum, hnet, hwk, ?_⟩
    cases hf : fm.feesOnInput with
    | true =>
      rw [hf, if_pos rfl, ok_inj, Prod.mk.injEq] at hout
      exact .inl ⟨rfl, hout.1.symm⟩
    | false =>
      rw [hf, if_neg (by simp)] at hout
      exact .inr ⟨rfl, _, hout⟩
  · simp only [e, partialIn, bind_ok, req_ok, ok_inj, Prod.exists] at h
    obtain ⟨_, ⟨num, hnum, net, f, hnet, wk, hwk, inc, ai, inf, _, ao, fo, hout, rfl⟩, _, _, rfl⟩ := h
    refine ⟨num, net, f, wk, hnum, hnet, hwk, ?_⟩
    cases hf : fm.feesOnInput with
    | true =>
      rw [hf, if_pos rfl, ok_inj, Prod.mk.injEq] at hout
      exact .inl ⟨rfl, hout.1.symm⟩
    | false =>
      rw [hf, if_neg (by simp)] at hout
      exact .inr ⟨rfl, _, hout⟩

/-- C43 with fees, exact input: of two swaps that could be made in the same state and differ only in the amount offered
and the minimum asked for, the one offering more receives no less, whenever the fee rate does not depend on size. -/
theorem C43_swap_in {w w1 w2 : World} {a a' : SwapArgs} {x x' : Trade} (h : Reachable w) (hm : a.mode ≤ 1)
    (hflat : FlatRate w a) (hle : a.amount0 ≤ a'.amount0)
    (hsame : a' = { a with amount0 := a'.amount0, amount1 := a'.amount1 })
    (h1 : w.step (.swap a) = .ok w1) (h2 : w.step (.swap a') = .ok w2) (o1 : Observed w w1 a.dir x)
    (o2 : Observed w w2 a.dir x') : x.got ≤ x'.got := by
  obtain ⟨ps, hc⟩ := h.core
  obtain ⟨cur, fm, r, v1, v2, s⟩ := swap_ok h1
  obtain ⟨cur', fm', r', v1', v2', s'⟩ := swap_ok h2
  have ed : a'.dir = a.dir := by rw [hsame]
  have em : a'.mode = a.mode := by rw [hsame]
  have ec : a'.clk = a.clk := by rw [hsame]
  have er : a'.referral = a.referral := by rw [hsame]
  have ef : w.firstMin a' = w.firstMin a := by rw [hsame]; rfl
  have e1 : cur' = cur := by
    have q1 := s.hcur; have q2 := s'.hcur
    rw [ec, q1, ok_inj] at q2; exact q2.symm
  have e2 : fm' = fm := by
    have q1 := s.hfm; have q2 := s'.hfm
    rw [ed, er, q1, ok_inj] at q2; exact q2.symm
  have e3 : ({ w.pool with vol := v1' } : Pool) = { w.pool with vol := v1 } := by
    have q1 := s.pre; have q2 := s'.pre
    rw [ec, q1, ok_inj] at q2; exact q2.symm
  have p1 := s.proc
  have p2 := s'.proc
  rw [e1, e2, e3, ef] at p2
  obtain ⟨num, net, f, wk, n1, n2, n3, n4⟩ := in_swap_out hm p1
  obtain ⟨num', net', f', wk', m1, m2, m3, m4⟩ := in_swap_out (by omega) p2
  rw [ed] at m1 m3
  rw [hflat.included _ _ _ a.amount0, n1, ok_inj] at m1
  subst m1
  have hnet : net ≤ net' := by
    cases hf : fm.feesOnInput with
    | true =>
      rw [hf, if_pos rfl] at n2 m2
      exact feeOnAmount_mono hle n2 m2
    | false =>
      rw [hf, if_neg (by simp), ok_inj, Prod.mk.injEq] at n2 m2
      omega
  have hwk := (walkIn_mono hc.good (p := { w.pool with vol := v1 }) hc.lo hc.hi hnet n3 m3).1
  have hout : r.out ≤ r'.out := by
    rcases n4 with ⟨k1, k2⟩ | ⟨k1, g, k2⟩ <;> rcases m4 with ⟨l1, l2⟩ | ⟨l1, g', l2⟩
    · omega
    · rw [k1] at l1; cases l1
    · rw [k1] at l1; cases l1
    · exact feeOnAmount_mono hwk k2 l2
  have g1 := o1.got (outToken a.dir)
  have g2 := (SwapStep.observed s).got (outToken a.dir)
  have g3 := o2.got (outToken a.dir)
  have g4 := (SwapStep.observed s').got (outToken a.dir)
  rw [inTok_self] at g1 g3
  rw [ed] at g4
  unfold tradeOf at g2 g4
  dsimp only at g2 g4
  rw [inTok_self] at g2 g4
  omega

/-- What an exact-output swap charges. -/
theorem out_swap_in {c : PoolConfig} {p : Pool} {a : SwapArgs} {fm : FeeMode} {cur : Nat} {fst : Bool} {r : SwapResult}
    (hm : a.mode = 2) (h : processSwap c p a fm cur fst = .ok r) :
    ∃ gross wk, walkOut c p a.dir gross = .ok wk ∧
      ((fm.feesOnInput = true ∧ gross = a.amount0 ∧ ∃ num f, numeratorExcluded c p cur wk.amountIn a.dir fst = .ok num ∧
          includedFeeAmount num wk.amountIn = .ok (r.includedIn, f)) ∨
        (fm.feesOnInput = false ∧ r.includedIn = wk.amountIn ∧ ∃ num f,
          numeratorExcluded c p cur a.amount0 a.dir fst = .ok num ∧ includedFeeAmount num a.amount0 = .ok (gross, f))) := by
  unfold processSwap at h
  simp only [hm, exactOut, bind_ok, req_ok, ok_inj, Prod.exists] at h
  obtain ⟨_, ⟨gross, f, hg, wk, hwk, _, _, inc, f', hi, rfl⟩, _, _, rfl⟩ := h
  refine ⟨gross, wk, hwk, ?_⟩
  cases hf : fm.feesOnInput with
  | true =>
    rw [hf, if_pos rfl] at hg hi
    simp only [bind_ok, ok_inj, Prod.exists, Prod.mk.injEq] at hg hi
    obtain ⟨num, hn, i, g, hinc, _, _, rfl, _⟩ := hi
    exact .inl ⟨rfl, hg.1.symm, num, _, hn, hinc⟩
  | false =>
    rw [hf, if_neg (by simp)] at hg hi
    simp only [bind_ok, ok_inj, Prod.exists, Prod.mk.injEq] at hg hi
    obtain ⟨num, hn, i, g, hinc, _, _, rfl, _⟩ := hg
    exact .inr ⟨rfl, hi.1.symm, num, _, hn, hinc⟩

/-- C43 with fees, exact output: the swap asking for more pays no less, whenever the fee rate does not depend on size. -/
theorem C43_swap_out {w w1 w2 : World} {a a' : SwapArgs} {x x' : Trade} (h : Reachable w) (hm : a.mode = 2)
    (hflat : FlatRate w a) (hle : a.amount0 ≤ a'.amount0)
    (hsame : a' = { a with amount0 := a'.amount0, amount1 := a'.amount1 })
    (h1 : w.step (.swap a) = .ok w1) (h2 : w.step (.swap a') = .ok w2) (o1 : Observed w w1 a.dir x)
    (o2 : Observed w w2 a.dir x') : x.paid ≤ x'.paid := by
  obtain ⟨ps, hc⟩ := h.core
  obtain ⟨cur, fm, r, v1, v2, s⟩ := swap_ok h1
  obtain ⟨cur', fm', r', v1', v2', s'⟩ := swap_ok h2
  have ed : a'.dir = a.dir := by rw [hsame]
  have em : a'.mode = a.mode := by rw [hsame]
  have ec : a'.clk = a.clk := by rw [hsame]
  have er : a'.referral = a.referral := by rw [hsame]
  have ef : w.firstMin a' = w.firstMin a := by rw [hsame]; rfl
  have e1 : cur' = cur := by
    have q1 := s.hcur; have q2 := s'.hcur
    rw [ec, q1, ok_inj] at q2; exact q2.symm
  have e2 : fm' = fm := by
    have q1 := s.hfm; have q2 := s'.hfm
    rw [ed, er, q1, ok_inj] at q2; exact q2.symm
  have e3 : ({ w.pool with vol := v1' } : Pool) = { w.pool with vol := v1 } := by
    have q1 := s.pre; have q2 := s'.pre
    rw [ec, q1, ok_inj] at q2; exact q2.symm
  have p1 := s.proc
  have p2 := s'.proc
  rw [e1, e2, e3, ef] at p2
  obtain ⟨gross, wk, n1, n2⟩ := out_swap_in hm p1
  obtain ⟨gross', wk', m1, m2⟩ := out_swap_in (by omega) p2
  rw [ed] at m1 m2
  have hin : r.includedIn ≤ r'.includedIn := by
    rcases n2 with ⟨k1, k2, num, f, k3, k4⟩ | ⟨k1, k2, num, f, k3, k4⟩ <;>
      rcases m2 with ⟨l1, l2, num', f', l3, l4⟩ | ⟨l1, l2, num', f', l3, l4⟩
    · subst k2 l2
      have hwk := (walkOut_mono hc.good (p := { w.pool with vol := v1 }) hc.lo hc.hi hle n1 m1).1
      rw [hflat.excluded _ _ _ wk.amountIn, k3, ok_inj] at l3
      subst l3
      exact includedFee_mono hwk k4 l4
    · rw [k1] at l1; cases l1
    · rw [k1] at l1; cases l1
    · rw [hflat.excluded _ _ _ a.amount0, k3, ok_inj] at l3
      subst l3
      have hg := includedFee_mono hle k4 l4
      have hwk := (walkOut_mono hc.good (p := { w.pool with vol := v1 }) hc.lo hc.hi hg n1 m1).1
      omega
  have g1 := o1.paid (inToken a.dir)
  have g2 := (SwapStep.observed s).paid (inToken a.dir)
  have g3 := o2.paid (inToken a.dir)
  have g4 := (SwapStep.observed s').paid (inToken a.dir)
  rw [inTok_self] at g1 g3
  rw [ed] at g4
  unfold tradeOf at g2 g4
  dsimp only at g2 g4
  rw [inTok_self] at g2 g4
  omega

/-! ### C42 -/

/-- C42: two exact-in trades one after the other give no more than one trade with the whole input, and that one trade
moves the price at least as far. -/
theorem C42_split {w : World} (h : Reachable w) {d : TradeDirection} {x a b : Nat} {r1 r2 : FromInput}
    (hlo : w.cfg.sqrtStartPrice ≤ x) (hhi : x ≤ w.cfg.migrationSqrtPrice) (hmax : a + b ≤ u64Max)
    (h1 : walkIn w.cfg (atPrice w x) d a = .ok r1) (hz : r1.left = 0)
    (h2 : walkIn w.cfg (atPrice w r1.next) d b = .ok r2) :
    ∃ r, walkIn w.cfg (atPrice w x) d (a + b) = .ok r ∧ r1.out + r2.out ≤ r.out ∧ AtLeastAsFar d r2.next r.next := by
  obtain ⟨ps, hc⟩ := h.core
  have hg := hc.good
  have hp := hg.curve.proper
  obtain ⟨r, hr⟩ := walkIn_total hg (p := atPrice w x) d hlo hhi hmax
  refine ⟨r, hr, ?_⟩
  cases d with
  | quoteToBase =>
    simp only [walkIn, buyIn_loop hg.curve] at h1 h2 hr
    obtain ⟨k1, k2, -⟩ := buyInLoop_split hp hlo h1 hz h2 hr
    exact ⟨k1, k2⟩
  | baseToQuote =>
    have hn : r1.next ≤ w.cfg.migrationSqrtPrice := by
      obtain ⟨i, tr, -, -⟩ := sellIn_trace hg.curve hhi h1
      exact tr.le.trans hhi
    simp only [walkIn, atPrice] at h1 h2 hr
    rw [sellIn_down hg.curve hhi] at h1 hr
    rw [sellIn_down hg.curve hn] at h2
    obtain ⟨k1, k2, -⟩ := sellDown_split (downs_ok hp) (Dbc.Proper.lo_pos hp) hlo h1 hz h2 hr
    exact ⟨k1, k2⟩

/-! ### C47 -/

/-- C47, first part: an exact-out buy costs at least the integral of the curve up to any price that releases no more than
the output asked for; an exact-out sell likewise. -/
theorem C47_covers_integral {w : World} (h : Reachable w) {d : TradeDirection} {x o : Nat} {r : FromOutput}
    (hlo : w.cfg.sqrtStartPrice ≤ x) (hhi : x ≤ w.cfg.migrationSqrtPrice)
    (hr : walkOut w.cfg (atPrice w x) d o = .ok r) (hend : r.next ≤ w.cfg.migrationSqrtPrice) :
    match d with
    | .quoteToBase => ∀ y, x ≤ y → y ≤ w.cfg.migrationSqrtPrice →
        baseTo (Spec.curve w.cfg) y - baseTo (Spec.curve w.cfg) x ≤ o →
        quoteTo (Spec.curve w.cfg) y - quoteTo (Spec.curve w.cfg) x ≤ r.amountIn
    | .baseToQuote => ∀ y, w.cfg.sqrtStartPrice ≤ y → y ≤ x →
        quoteTo (Spec.curve w.cfg) x - quoteTo (Spec.curve w.cfg) y ≤ o →
        baseTo (Spec.curve w.cfg) x - baseTo (Spec.curve w.cfg) y ≤ r.amountIn := by
  obtain ⟨ps, hc⟩ := h.core
  have hg := hc.good
  have hp := hg.curve.proper
  have htop := hg.curve.migHi
  rw [curve_eq hg.curve]
  cases d with
  | quoteToBase =>
    intro y hy1 hy2 hb
    obtain ⟨tr, -⟩ := buyOut_trace hg.curve hlo hr
    have t1 := tr.quote hp
    have t2 := tr.base hp
    have hyn : y ≤ r.next := by
      by_contra hcon
      have := baseTo_strict hp (hlo.trans tr.le) (not_le.1 hcon) (hy2.trans htop)
      linarith
    rcases eq_or_lt_of_le hyn with rfl | hlt
    · exact t1
    · have := quoteTo_strict hp (hlo.trans hy1) hlt (hend.trans htop)
      linarith
  | baseToQuote =>
    intro y hy1 hy2 hb
    have tr := sellOut_trace hg.curve hhi hr
    have t1 := tr.quote hp
    have t2 := tr.base hp
    have hge := tr.ge hp hlo
    have hyn : r.next ≤ y := by
      by_contra hcon
      have := quoteTo_strict hp hy1 (not_le.1 hcon) (hend.trans htop)
      linarith
    rcases eq_or_lt_of_le hyn with rfl | hlt
    · exact t2
    · have := baseTo_strict hp hge hlt (hy2.trans (hhi.trans htop))
      linarith

/-- C47, second part: an exact-out trade costs no more than any exact-in trade that yields more, and no more than one that
yields just as much unless the exact-out trade ends on a point of the stored curve. -/
theorem C47_not_dearer {w : World} (h : Reachable w) {d : TradeDirection} {x o a : Nat} {r : FromInput} {r' : FromOutput}
    (hlo : w.cfg.sqrtStartPrice ≤ x) (hhi : x ≤ w.cfg.migrationSqrtPrice)
    (hr : walkIn w.cfg (atPrice w x) d a = .ok r) (hr' : walkOut w.cfg (atPrice w x) d o = .ok r')
    (hcmp : o < r.out ∨ (o ≤ r.out ∧ ∀ q ∈ stored w.cfg.curve, q.price ≠ r'.next)) : r'.amountIn ≤ a := by
  obtain ⟨ps, hc⟩ := h.core
  have hg := hc.good
  have hp := hg.curve.proper
  rw [curve_stored hg.curve] at hcmp
  cases d with
  | quoteToBase =>
    simp only [walkIn, buyIn_loop hg.curve] at hr
    have := buyOutLoop_le hp hlo hr (buyOut_loop hg.curve hr') (by simpa only [Nat.zero_add] using hcmp)
    omega
  | baseToQuote =>
    simp only [walkIn, atPrice] at hr
    rw [sellIn_down hg.curve hhi] at hr
    simp only [walkOut, atPrice] at hr'
    rw [sellOut_down hg.curve hhi] at hr'
    have := sellDownOut_le (downs_ok hp) (Dbc.Proper.lo_pos hp) hlo hr hr' (by
      rcases hcmp with hc | ⟨hc, hq⟩
      · exact .inl (by omega)
      · exact .inr ⟨by omega, fun d hd => hq _ (downs_mem hd)⟩)
    omega

/-! ### Concrete cases -/

/-- Both steps succeed and the second ends in a state with a larger value of `f`. -/
def bothGrow (f : World → Nat) : Res World → Res World → Bool
  | .ok w1, .ok w2 => decide (f w1 < f w2)
  | _, _ => false

theorem bothGrow_ok {f : World → Nat} {x y : Res World} (h : bothGrow f x y = true) :
    ∃ w1 w2, x = .ok w1 ∧ y = .ok w2 ∧ f w1 < f w2 := by
  unfold bothGrow at h
  split at h
  · exact ⟨_, _, rfl, rfl, of_decide_eq_true h⟩
  · cases h

/-- An exact-in buy of the example, of any size. -/
def exIn (n : Nat) : SwapArgs := ⟨0, n, 0, .quoteToBase, true, ⟨500, 1000400⟩, Ex.txSwap⟩
/-- An exact-out buy of the example, of any size. -/
def exOut (n : Nat) : SwapArgs := ⟨2, n, 10000000000000, .quoteToBase, true, ⟨500, 1000400⟩, Ex.txSwap⟩

/-- Two swaps in the same reachable state with different sizes, in each mode, where the fee rate does not depend on
size. -/
theorem C43_example : Reachable (Ex.after Ex.paramsA Ex.trading) ∧
    FlatRate (Ex.after Ex.paramsA Ex.trading) (exIn 1000000) ∧ FlatRate (Ex.after Ex.paramsA Ex.trading) (exOut 1000000) ∧
    (∃ w1 w2, (Ex.after Ex.paramsA Ex.trading).step (.swap (exIn 1000000)) = .ok w1 ∧
      (Ex.after Ex.paramsA Ex.trading).step (.swap (exIn 2000000)) = .ok w2 ∧ traderOut w1 .base < traderOut w2 .base) ∧
    (∃ w1 w2, (Ex.after Ex.paramsA Ex.trading).step (.swap (exOut 1000000)) = .ok w1 ∧
      (Ex.after Ex.paramsA Ex.trading).step (.swap (exOut 2000000)) = .ok w2 ∧ traderIn w1 .quote < traderIn w2 .quote) := by
  refine ⟨Ex.reachTradingA, .inl (by decide +kernel), .inl (by decide +kernel),
    bothGrow_ok (f := fun w => traderOut w .base) ?_, bothGrow_ok (f := fun w => traderIn w .quote) ?_⟩ <;>
  decide +kernel

/-- A sell across a curve point split in two: the two parts together give no more than the single sell, and the price of the
single sell ends lower. -/
theorem C42_example : Reachable (Ex.after Ex.paramsA Ex.trading) ∧
    walkIn (Ex.after Ex.paramsA Ex.trading).cfg (atPrice (Ex.after Ex.paramsA Ex.trading) 2951479051793528258)
      .baseToQuote 50000000000000 = .ok ⟨0, 1134751773049, 2616559443079369024⟩ ∧
    walkIn (Ex.after Ex.paramsA Ex.trading).cfg (atPrice (Ex.after Ex.paramsA Ex.trading) 2616559443079369024)
      .baseToQuote 80000000000001 = .ok ⟨0, 1368501441891, 2259246059241831184⟩ ∧
    walkIn (Ex.after Ex.paramsA Ex.trading).cfg (atPrice (Ex.after Ex.paramsA Ex.trading) 2951479051793528258)
      .baseToQuote 130000000000001 = .ok ⟨0, 2503253214940, 2259246059241828971⟩ := by
  refine ⟨Ex.reachTradingA, ?_⟩
  decide +kernel

/-- Why the second part of C47 excludes curve points: this exact-out sell ends on one and costs 50 base units more than an
exact-in sell with the same output. It still costs less than the exact-in sell needed for one more unit. -/
theorem C47_curve_point :
    walkOut (Ex.after Ex.paramsA Ex.trading).cfg (atPrice (Ex.after Ex.paramsA Ex.trading) 2951479051793528258)
      .baseToQuote 2187499999999 = .ok ⟨109375000000000, 2305843009213693952⟩ ∧
    (∃ q ∈ stored (Ex.after Ex.paramsA Ex.trading).cfg.curve, q.price = 2305843009213693952) ∧
    walkIn (Ex.after Ex.paramsA Ex.trading).cfg (atPrice (Ex.after Ex.paramsA Ex.trading) 2951479051793528258)
      .baseToQuote 109374999999950 = .ok ⟨0, 2187499999999, 2305843009213924536⟩ := by
  decide +kernel

/-- Away from curve points both alternatives of the second part of C47 occur. -/
theorem C47_example : Reachable (Ex.after Ex.paramsA Ex.trading) ∧
    walkOut (Ex.after Ex.paramsA Ex.trading).cfg (atPrice (Ex.after Ex.paramsA Ex.trading) 2951479051793528258)
      .baseToQuote 2187499999998 = .ok ⟨109374999999873, 2305843009214284247⟩ ∧
    (∀ q ∈ stored (Ex.after Ex.paramsA Ex.trading).cfg.curve, q.price ≠ 2305843009214284247) ∧
    walkIn (Ex.after Ex.paramsA Ex.trading).cfg (atPrice (Ex.after Ex.paramsA Ex.trading) 2951479051793528258)
      .baseToQuote 109374999999873 = .ok ⟨0, 2187499999998, 2305843009214279636⟩ := by
  refine ⟨Ex.reachTradingA, ?_⟩
  decide +kernel

end Props

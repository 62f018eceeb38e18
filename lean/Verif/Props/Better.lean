import Verif.Lemmas.Better
import Verif.Props.Average
import Verif.Props.Patience

/-!
# A better displayed price is a better trade: C87
-/

namespace Props
open Dbc Spec

/-! ### Where a trade effectively ends on the exact curve -/

theorem buy_end {w w' : World} (h : Reachable w) {a : SwapArgs} (hs : w.step (.swap a) = .ok w') (hd : a.dir = .quoteToBase) :
    ∃ y, w.pool.sqrtPrice ≤ y ∧ y ≤ w.cfg.migrationSqrtPrice ∧
      (reserve w' .quote : ℚ) - reserve w .quote ≤
        quoteTo (Spec.curve w.cfg) y - quoteTo (Spec.curve w.cfg) w.pool.sqrtPrice + ((stored w.cfg.curve).length + 1) ∧
      baseTo (Spec.curve w.cfg) y - baseTo (Spec.curve w.cfg) w.pool.sqrtPrice ≤
        (reserve w .base : ℚ) - reserve w' .base + (stored w.cfg.curve).length := by
  have h67 := C67_swap h hs
  have hle := (C07_price_direction h hs).1 a rfl hd
  obtain ⟨ps', hc'⟩ := (h.step hs).core
  have hcfg := step_cfg hs
  have hlo' := hc'.lo
  have hhi' := hc'.hi
  rw [hcfg] at hlo' hhi'
  obtain ⟨ps, hc⟩ := h.core
  have hg := hc.good
  have hp := hg.curve.proper
  have hmig := hg.curve.migHi
  have hlo0 := hc.lo
  have hhi0 := hc.hi
  rw [curve_stored hg.curve, curve_eq hg.curve] at h67 ⊢
  obtain ⟨cur, fm, r, v1, v2, s⟩ := swap_ok hs
  have hw := processSwap_used s.proc
  have hup := chainUp_of (onPiece_curve hp)
  have hpr := s.price
  have hn0 : (0 : ℚ) ≤ ps.length := by positivity
  rw [hd] at hw
  obtain ⟨e1, e2⟩ := s.buyRes hd
  have hout : (reserve w .base : ℚ) - reserve w' .base = (r.out : ℚ) + outFee fm r := by
    simp only [reserve]; rw [← e2]; push_cast; ring
  rw [hout]
  rcases hw with ⟨am, wk, k1, k2, k3, k4⟩ | ⟨wk, k1, k2, k3⟩
  · simp only [walkIn, buyIn_loop hg.curve] at k1
    obtain ⟨b1, -⟩ := buyIn_fair hup hp hlo0 hhi0 hmig k1
    rw [← k2, ← hpr] at b1
    have hk : ((r.out : ℚ) + outFee fm r) = wk.out := by exact_mod_cast k4
    rw [hk]
    push_cast at b1
    exact ⟨w'.pool.sqrtPrice, hle, hhi', by linarith, by linarith⟩
  · simp only [walkOut] at k1
    obtain ⟨-, b2⟩ := buyOut_fair hup hp hlo0 (buyOut_loop hg.curve k1)
    rw [← k2, ← hpr] at b2
    by_cases heq : w'.pool.sqrtPrice = w.pool.sqrtPrice
    · rw [heq, sub_self] at h67
      exact ⟨w.pool.sqrtPrice, le_rfl, hhi0, by rw [sub_self]; linarith, by rw [sub_self]; positivity⟩
    · obtain ⟨y, hy⟩ : ∃ y, w'.pool.sqrtPrice = y + 1 := ⟨w'.pool.sqrtPrice - 1, by omega⟩
      rw [hy] at b2 hle hhi' heq h67
      have t := chainUp_tick hup hg.liqMax (y := y) (by omega) (by omega)
      refine ⟨y, by omega, by omega, by linarith, ?_⟩
      by_contra hcon
      have := b2 y (by omega) (by omega) (by push_cast; linarith)
      omega

theorem sell_end {w w' : World} (h : Reachable w) {a : SwapArgs} (hs : w.step (.swap a) = .ok w') (hd : a.dir = .baseToQuote) :
    ((reserve w' .base : ℚ) - reserve w .base -
      (baseTo (Spec.curve w.cfg) w.pool.sqrtPrice - baseTo (Spec.curve w.cfg) w'.pool.sqrtPrice) -
        (stored w.cfg.curve).length) * (w'.pool.sqrtPrice : ℚ) ^ 2 ≤ 2 * 2 ^ 128 := by
  obtain ⟨ps, hc⟩ := h.core
  have hg := hc.good
  have hp := hg.curve.proper
  have hpos := Dbc.Proper.lo_pos hp
  have hmig := hg.curve.migHi
  have hlo0 := hc.lo
  have hhi0 := hc.hi
  have h2 : 2 ≤ w.cfg.sqrtStartPrice := by have := hg.startMin; unfold MIN_SQRT_PRICE at this; omega
  rw [curve_stored hg.curve, curve_eq hg.curve]
  obtain ⟨cur, fm, r, v1, v2, s⟩ := swap_ok hs
  have hw := processSwap_used s.proc
  have hpr := s.price
  rw [hd] at hw
  obtain ⟨e1, e2⟩ := s.sellRes hd
  have hin : (reserve w' .base : ℚ) - reserve w .base = (r.excludedIn : ℚ) := by
    simp only [reserve]; rw [e1]; push_cast; ring
  rw [hin]
  obtain ⟨q, qs, rfl⟩ : ∃ q qs, ps = q :: qs := by
    cases ps with
    | nil => exact absurd rfl hg.curve.nonempty
    | cons q qs => exact ⟨q, qs, rfl⟩
  have hl0 : w.cfg.liq0 = q.liq := by
    obtain ⟨n, hn⟩ := hg.curve.stored
    unfold PoolConfig.liq0
    rw [hn]
    rfl
  have hdn := chainDown_of hp (onPiece_curve hp)
  have hlen : (((downs (q :: qs)).length : ℚ) + 1) = (q :: qs).length := by exact_mod_cast downs_length q qs
  have htop : w.pool.sqrtPrice ≤ topPrice w.cfg.sqrtStartPrice (q :: qs) := by omega
  rcases hw with ⟨am, wk, k1, k2, k3, k4⟩ | ⟨wk, k1, k2, k3⟩
  · simp only [walkIn] at k1
    rw [sellIn_down hg.curve hhi0, hl0] at k1
    have b1 := sellIn_used hdn (downs_ok hp) (hg.liqMax q (by simp)) (downs_liq hg.liqMax) h2 hlo0 htop k1
    rw [hlen, ← k2, ← hpr] at b1
    have hk : (am : ℚ) - wk.left = r.excludedIn := by
      have : (r.excludedIn : ℚ) + wk.left = am := by exact_mod_cast k3
      linarith
    rw [hk] at b1
    exact b1
  · simp only [walkOut] at k1
    rw [sellOut_down hg.curve hhi0, hl0] at k1
    obtain ⟨b1, -⟩ := sellOut_fair hdn (downs_ok hp) hpos hlo0 htop k1
    rw [hlen, ← k2, ← hpr, ← k3] at b1
    push_cast at b1
    refine (mul_nonpos_of_nonpos_of_nonneg ?_ (by positivity)).trans (by positivity)
    push_cast
    linarith

/-! ### Two trades of pools of one configuration -/

theorem buys_compare {v w v' w' : World} (hv : Reachable v) (hw : Reachable w) (hc : v.cfg = w.cfg) {a b : SwapArgs}
    (ha : a.dir = .quoteToBase) (hb : b.dir = .quoteToBase) (hle : v.pool.sqrtPrice ≤ w.pool.sqrtPrice)
    (hs : v.step (.swap a) = .ok v') (ht : w.step (.swap b) = .ok w') {d : ℚ} (hd : 0 ≤ d)
    (hin : (reserve w' .quote : ℚ) - reserve w .quote + ((stored w.cfg.curve).length + 1) ≤
      (reserve v' .quote : ℚ) - reserve v .quote + d) :
    worth w.pool.sqrtPrice (((reserve w .base : ℚ) - reserve w' .base) - ((reserve v .base : ℚ) - reserve v' .base) -
      (stored w.cfg.curve).length) ≤ d := by
  obtain ⟨y, y1, y2, y3, y4⟩ := buy_end hv hs ha
  obtain ⟨g1, g2⟩ := (C08_rounds_for_pool hw ht).1 hb
  have hle' := (C07_price_direction hw ht).1 b rfl hb
  obtain ⟨ps', hc'⟩ := (hw.step ht).core
  have hcfg := step_cfg ht
  have hhi' := hc'.hi
  rw [hcfg] at hhi'
  have hlo := hv.core.choose_spec.lo
  rw [hc] at y2 y3 y4 hlo
  obtain ⟨ps, hcw⟩ := hw.core
  have hg := hcw.good
  have hp := hg.curve.proper
  have hmig := hg.curve.migHi
  rw [curve_eq hg.curve] at y3 y4 g1 g2
  have hup := chainUp_of (onPiece_curve hp)
  have key := buy_better hup hp (x2 := w.pool.sqrtPrice) (y2 := w'.pool.sqrtPrice) hlo y1 hle' hle (by omega) (by omega) hd
    (by linarith)
  exact (worth_mono (by linarith)).trans (worth_le key)

theorem sells_compare {v w v' w' : World} (hv : Reachable v) (hw : Reachable w) (hc : v.cfg = w.cfg) {a b : SwapArgs}
    (ha : a.dir = .baseToQuote) (hb : b.dir = .baseToQuote) (hle : w.pool.sqrtPrice ≤ v.pool.sqrtPrice)
    (hs : v.step (.swap a) = .ok v') (ht : w.step (.swap b) = .ok w') {n : ℚ} (hn : 0 ≤ n)
    (hin : (reserve w' .base : ℚ) - reserve w .base + (stored w.cfg.curve).length ≤
      (reserve v' .base : ℚ) - reserve v .base + n) :
    (reserve w .quote : ℚ) - reserve w' .quote ≤
      ((reserve v .quote : ℚ) - reserve v' .quote) + ((stored w.cfg.curve).length + 2) + worth w.pool.sqrtPrice n := by
  have f := sell_end hv hs ha
  have k := C67_swap hv hs
  obtain ⟨g1, g2⟩ := (C08_rounds_for_pool hw ht).2 hb
  have hle1 := (C07_price_direction hv hs).2.1 a rfl ha
  have hle2 := (C07_price_direction hw ht).2.1 b rfl hb
  have hlow := (hw.step ht).core.choose_spec.lo
  have hlov := (hv.step hs).core.choose_spec.lo
  rw [step_cfg ht] at hlow
  rw [step_cfg hs, hc] at hlov
  have hhi := hv.core.choose_spec.hi
  rw [hc] at f k hhi
  obtain ⟨ps, hcw⟩ := hw.core
  have hg := hcw.good
  have hp := hg.curve.proper
  have hmig := hg.curve.migHi
  rw [curve_eq hg.curve] at f k g1 g2
  have hup := chainUp_of (onPiece_curve hp)
  have key := sell_better hup hp hlov hlow hle1 hle2 hle (by omega) hn (by norm_num : (0 : ℚ) ≤ 2) f (by linarith)
  have := le_worth key
  linarith

/-- C87, buys: of two pools of one configuration (or one pool at two moments of its history), `v` displays a price no higher
than `w`. Whoever puts at least as much into the reserve of `v` as another into that of `w` takes at least as much base,
up to `n` units and what `n + 1` units of quote buy at the price of `w`, `n` being the number of curve points; with `n + 1`
units of quote more, up to `n` units. Fees are left out: the amounts are those booked in the reserves. -/
theorem C87_buy {v w v' w' : World} (hv : Reachable v) (hw : Reachable w) (hc : v.cfg = w.cfg) {a b : SwapArgs}
    (ha : a.dir = .quoteToBase) (hb : b.dir = .quoteToBase) (hle : v.pool.sqrtPrice ≤ w.pool.sqrtPrice)
    (hs : v.step (.swap a) = .ok v') (ht : w.step (.swap b) = .ok w') :
    ((reserve w' .quote : ℚ) - reserve w .quote ≤ (reserve v' .quote : ℚ) - reserve v .quote →
      worth w.pool.sqrtPrice (((reserve w .base : ℚ) - reserve w' .base) - ((reserve v .base : ℚ) - reserve v' .base) -
        (stored w.cfg.curve).length) ≤ (stored w.cfg.curve).length + 1) ∧
    ((reserve w' .quote : ℚ) - reserve w .quote + ((stored w.cfg.curve).length + 1) ≤
        (reserve v' .quote : ℚ) - reserve v .quote →
      (reserve w .base : ℚ) - reserve w' .base ≤
        (reserve v .base : ℚ) - reserve v' .base + (stored w.cfg.curve).length) := by
  refine ⟨fun hin => buys_compare hv hw hc ha hb hle hs ht (by positivity) (by linarith), fun hin => ?_⟩
  have := buys_compare hv hw hc ha hb hle hs ht le_rfl (by linarith)
  unfold worth at this
  have hpos : (0 : ℚ) < ((w.pool.sqrtPrice : ℚ) / 2 ^ 64) ^ 2 := by
    obtain ⟨ps, hcw⟩ := hw.core
    have h0 := Dbc.Proper.lo_pos hcw.good.curve.proper
    have : (0 : ℚ) < w.pool.sqrtPrice := by exact_mod_cast lt_of_lt_of_le h0 hcw.lo
    positivity
  have := nonpos_of_mul_nonpos_left this hpos
  linarith

/-- C87, sells: `v` displays a price no lower than `w`. Whoever puts at least as much base into the reserve of `v` as another
into that of `w` takes at least as much quote, up to `n + 2` units and what `n` units of base are worth at the price of `w`; with
`n` units of base more, up to `n + 2` units. -/
theorem C87_sell {v w v' w' : World} (hv : Reachable v) (hw : Reachable w) (hc : v.cfg = w.cfg) {a b : SwapArgs}
    (ha : a.dir = .baseToQuote) (hb : b.dir = .baseToQuote) (hle : w.pool.sqrtPrice ≤ v.pool.sqrtPrice)
    (hs : v.step (.swap a) = .ok v') (ht : w.step (.swap b) = .ok w') :
    ((reserve w' .base : ℚ) - reserve w .base ≤ (reserve v' .base : ℚ) - reserve v .base →
      (reserve w .quote : ℚ) - reserve w' .quote ≤ ((reserve v .quote : ℚ) - reserve v' .quote) +
        ((stored w.cfg.curve).length + 2) + worth w.pool.sqrtPrice (stored w.cfg.curve).length) ∧
    ((reserve w' .base : ℚ) - reserve w .base + (stored w.cfg.curve).length ≤ (reserve v' .base : ℚ) - reserve v .base →
      (reserve w .quote : ℚ) - reserve w' .quote ≤ ((reserve v .quote : ℚ) - reserve v' .quote) +
        ((stored w.cfg.curve).length + 2)) := by
  refine ⟨fun hin => sells_compare hv hw hc ha hb hle hs ht (by positivity) (by linarith), fun hin => ?_⟩
  have := sells_compare hv hw hc ha hb hle hs ht le_rfl (by linarith)
  unfold worth at this
  linarith

/-! ### The same exact-input swap after others have traded -/

theorem exactIn_parts {c : PoolConfig} {p : Pool} {a : SwapArgs} {fm : FeeMode} {cur : Nat} {fst : Bool} {r : SwapResult}
    (hm : a.mode = 0) (h : processSwap c p a fm cur fst = .ok r) :
    ∃ num f, numeratorIncluded c p cur a.amount0 a.dir fst = .ok num ∧
      ((fm.feesOnInput = true ∧ feeOnAmount num a.amount0 fm.hasReferral = .ok (r.excludedIn, f)) ∨
        (fm.feesOnInput = false ∧ r.excludedIn = a.amount0 ∧
          ∃ gross, feeOnAmount num gross fm.hasReferral = .ok (r.out, r.fee))) := by
  unfold processSwap at h
  simp only [hm, exactIn, bind_ok, req_ok, ok_inj, Prod.exists] at h
  obtain ⟨_, ⟨num, hnum, net, f, hnet, wk, hwk, _, hl, ao, fo, hout, rfl⟩, _, hmin, rfl⟩ := h
  cases hf : fm.feesOnInput with
  | true =>
    rw [hf, if_pos rfl] at hnet
    exact ⟨num, f, hnum, .inl ⟨rfl, hnet⟩⟩
  | false =>
    rw [hf, if_neg Bool.false_ne_true] at hnet hout
    rw [ok_inj, Prod.mk.injEq] at hnet
    exact ⟨num, f, hnum, .inr ⟨rfl, hnet.1.symm, _, hout⟩⟩

theorem rate_plain {c : PoolConfig} (h0 : c.fees.dyn.initialized = 0) {p p' : Pool} (hact : p'.activationPoint = p.activationPoint)
    (cur m : Nat) (dir : TradeDirection) (fst : Bool) :
    numeratorIncluded c p' cur m dir fst = numeratorIncluded c p cur m dir fst := by
  unfold numeratorIncluded totalFeeFromIncluded totalFee variableFee
  simp only [h0, hact, if_true]

/-- A lower rate on a larger amount, a higher rate on a smaller one: the difference after the fee is no larger. -/
theorem after_fee {n n' g g' ex ex' : Nat} {ref : Bool} {f f' : FeeSplit} (hn : n' ≤ n) (hD : n ≤ FEE_DENOMINATOR)
    (h : feeOnAmount n g ref = .ok (ex, f)) (h' : feeOnAmount n' g' ref = .ok (ex', f')) : ex ≤ ex' ∨ ex + g' ≤ ex' + g := by
  obtain ⟨e1, e2, -⟩ := feeOnAmount_ok h
  obtain ⟨e1', e2', -⟩ := feeOnAmount_ok h'
  by_cases hg : g' ≤ g
  · right
    have : f'.sum ≤ f.sum := by
      rw [e2, e2']
      exact divCeil_mono (by decide) (Nat.mul_le_mul hg hn)
    omega
  · left
    have hF : 0 < FEE_DENOMINATOR := by decide
    have : f'.sum ≤ f.sum + (g' - g) := by
      rw [e2, e2', divCeil_le_iff hF, Nat.add_mul]
      have k1 := le_divCeil_mul (g * n) hF
      have k2 : g' * n' ≤ g' * n := Nat.mul_le_mul_left _ hn
      have k3 : g' * n = g * n + (g' - g) * n := by rw [← Nat.add_mul]; congr 1; omega
      have k4 : (g' - g) * n ≤ (g' - g) * FEE_DENOMINATOR := Nat.mul_le_mul_left _ hD
      omega
    omega

theorem traded_stays {w w' : World} {ops : List Op} (hr : Run w ops w') :
    w'.cfg = w.cfg ∧ w'.pool.activationPoint = w.pool.activationPoint ∧ (w.pool.hasSwap ≠ 0 → w'.pool.hasSwap ≠ 0) := by
  induction hr with
  | nil => exact ⟨rfl, rfl, id⟩
  | cons hs _ ih =>
    obtain ⟨i1, i2, i3⟩ := ih
    refine ⟨i1.trans (step_cfg hs), i2.trans (step_activation hs), fun h0 => i3 ?_⟩
    rcases step_cases hs with ⟨a, rfl, h⟩ | ⟨_, _, _, _, _, _, e, _⟩
    · obtain ⟨cur, fm, r, v1, v2, s⟩ := swap_ok h
      rw [s.hasSwap]
      exact Nat.one_ne_zero
    · rw [e]
      exact h0

/-- C87, for a trader: in a pool without dynamic fee, an exact-input swap that is made later, after any history, at a displayed
price that is at least as good, receives at least as much up to rounding. (The first swap of a pool can have a fee of its own
and is left out.) -/
theorem C87_overtaken {w w1 w2 w3 : World} {ops : List Op} {a : SwapArgs} {clk : Clock} {x x' : Trade}
    (h : Reachable w) (hm : a.mode = 0) (hu : a.amount0 ≤ u64Max) (hdyn : w.cfg.fees.dyn.initialized = 0)
    (hfirst : w.cfg.enableFirstSwapMinFee ≠ 1 ∨ w.pool.hasSwap ≠ 0)
    (hs : w.step (.swap a) = .ok w2) (o : Observed w w2 a.dir x) (hr : Run w ops w1) (hlate : NotBefore a clk)
    (hs' : w1.step (.swap { a with clk := clk }) = .ok w3) (o' : Observed w1 w3 a.dir x') :
    (a.dir = .quoteToBase → w1.pool.sqrtPrice ≤ w.pool.sqrtPrice →
      worth w.pool.sqrtPrice ((x.got : ℚ) - x'.got - (stored w.cfg.curve).length) ≤ (stored w.cfg.curve).length + 1) ∧
    (a.dir = .baseToQuote → w.pool.sqrtPrice ≤ w1.pool.sqrtPrice →
      (x.got : ℚ) ≤ x'.got + ((stored w.cfg.curve).length + 2) + worth w.pool.sqrtPrice (stored w.cfg.curve).length) := by
  have h1 := h.run hr
  obtain ⟨ec, ea, eh⟩ := traded_stays hr
  obtain ⟨q, env, -, hacc⟩ := h.config
  obtain ⟨cur, fm, r, v1, v2, s⟩ := swap_ok hs
  obtain ⟨cur', fm', r', v1', v2', s'⟩ := swap_ok hs'
  have ef : fm' = fm := by
    have := s'.hfm
    dsimp only at this
    rw [ec, s.hfm, ok_inj] at this
    exact this.symm
  subst ef
  have hcl : cur ≤ cur' := by
    obtain ⟨cur0, c1, c2⟩ := hlate.point s.hcur
    have := s'.hcur
    dsimp only at this
    rw [ec, c1, ok_inj] at this
    omega
  have fst : w.firstMin a = false := by
    unfold World.firstMin
    rcases hfirst with e | e
    · rw [decide_eq_false e]; rfl
    · rw [decide_eq_false e]; simp
  have fst' : w1.firstMin { a with clk := clk } = false := by
    unfold World.firstMin
    rcases hfirst with e | e
    · rw [decide_eq_false (by rw [ec]; exact e)]; rfl
    · rw [decide_eq_false (eh e)]; simp
  obtain ⟨p1, p2, -⟩ := trade_eq o (SwapStep.observed s)
  obtain ⟨q1, q2, -⟩ := trade_eq (dir := a.dir) o' (SwapStep.observed (a := { a with clk := clk }) s')
  unfold tradeOf at p2 q2
  dsimp only at p2 q2
  have hp := s.proc
  have hp' := s'.proc
  rw [fst] at hp
  rw [fst', ec] at hp'
  obtain ⟨num, f, n1, n2⟩ := exactIn_parts hm hp
  obtain ⟨num', f', m1, m2⟩ := exactIn_parts (a := { a with clk := clk }) hm hp'
  dsimp only at m1 m2
  rw [rate_plain hdyn (p := { w.pool with vol := v1 }) (by exact ea)] at m1
  have hD : num ≤ FEE_DENOMINATOR := by
    have := numerator_max h n1
    have : MAX_FEE_NUMERATOR ≤ FEE_DENOMINATOR := by decide
    omega
  have hnum : num' ≤ num := by
    rcases rates_later (p := { w.pool with vol := v1 }) (p' := { w.pool with vol := v1 }) hacc rfl rfl hcl a.dir false with
      e | ⟨k, e⟩
    · rw [e.incl, n1, ok_inj] at m1
      exact m1.ge
    · obtain ⟨n', e1, e2⟩ := e.inclLess _ _ hu n1
      rw [e.incl, e1, ok_inj] at m1
      omega
  -- the reserve receives at least as much, and fees widen no difference
  have key : r.excludedIn ≤ r'.excludedIn ∧
      (r.out ≤ r'.out ∨ r.out + (r'.out + outFee fm' r') ≤ r'.out + (r.out + outFee fm' r)) := by
    unfold outFee
    rcases n2 with ⟨hf, a1⟩ | ⟨hf, a1, g, a2⟩
    · rcases m2 with ⟨-, b1⟩ | ⟨hf', -⟩
      · rw [hf, if_pos rfl, if_pos rfl]
        exact ⟨(feeOnAmount_rate hnum a1 b1).1, .inr (by omega)⟩
      · rw [hf] at hf'; cases hf'
    · rcases m2 with ⟨hf', -⟩ | ⟨-, b1, g', b2⟩
      · rw [hf] at hf'; cases hf'
      · rw [hf, if_neg Bool.false_ne_true, if_neg Bool.false_ne_true, (feeOnAmount_ok a2).1, (feeOnAmount_ok b2).1]
        exact ⟨by omega, after_fee hnum hD a2 b2⟩
  obtain ⟨key1, key2⟩ := key
  have key1' : (r.excludedIn : ℚ) ≤ r'.excludedIn := by exact_mod_cast key1
  have hn0 : (0 : ℚ) ≤ (stored w.cfg.curve).length := by positivity
  rw [p2, q2]
  refine ⟨fun hd hle => ?_, fun hd hle => ?_⟩
  · obtain ⟨e1, e2⟩ := s.buyRes hd
    obtain ⟨e1', e2'⟩ := s'.buyRes hd
    have i1 : (reserve w2 .quote : ℚ) - reserve w .quote = r.excludedIn := by simp only [reserve]; rw [e1]; push_cast; ring
    have i2 : (reserve w3 .quote : ℚ) - reserve w1 .quote = r'.excludedIn := by simp only [reserve]; rw [e1']; push_cast; ring
    have i3 : (reserve w .base : ℚ) - reserve w2 .base = r.out + outFee fm' r := by
      simp only [reserve]; rw [← e2]; push_cast; ring
    have i4 : (reserve w1 .base : ℚ) - reserve w3 .base = r'.out + outFee fm' r' := by
      simp only [reserve]; rw [← e2']; push_cast; ring
    have c := (C87_buy h1 h ec (a := { a with clk := clk }) hd hd hle hs' hs).1 (by rw [i1, i2]; exact key1')
    rw [i3, i4] at c
    rcases key2 with k | k
    · have k' : (r.out : ℚ) ≤ r'.out := by exact_mod_cast k
      have : worth w.pool.sqrtPrice ((r.out : ℚ) - r'.out - (stored w.cfg.curve).length) ≤ 0 := by
        unfold worth
        exact mul_nonpos_of_nonpos_of_nonneg (by linarith) (by positivity)
      linarith
    · have k' : (r.out : ℚ) + (r'.out + outFee fm' r') ≤ r'.out + (r.out + outFee fm' r) := by exact_mod_cast k
      exact (worth_mono (by linarith)).trans c
  · obtain ⟨e1, e2⟩ := s.sellRes hd
    obtain ⟨e1', e2'⟩ := s'.sellRes hd
    have i1 : (reserve w2 .base : ℚ) - reserve w .base = r.excludedIn := by simp only [reserve]; rw [e1]; push_cast; ring
    have i2 : (reserve w3 .base : ℚ) - reserve w1 .base = r'.excludedIn := by simp only [reserve]; rw [e1']; push_cast; ring
    have i3 : (reserve w .quote : ℚ) - reserve w2 .quote = r.out + outFee fm' r := by
      simp only [reserve]; rw [← e2]; push_cast; ring
    have i4 : (reserve w1 .quote : ℚ) - reserve w3 .quote = r'.out + outFee fm' r' := by
      simp only [reserve]; rw [← e2']; push_cast; ring
    have c := (C87_sell h1 h ec (a := { a with clk := clk }) hd hd hle hs' hs).1 (by rw [i1, i2]; exact key1')
    rw [i3, i4] at c
    have w0 := worth_nonneg (p := w.pool.sqrtPrice) hn0
    rcases key2 with k | k
    · have k' : (r.out : ℚ) ≤ r'.out := by exact_mod_cast k
      linarith
    · have k' : (r.out : ℚ) + (r'.out + outFee fm' r') ≤ r'.out + (r.out + outFee fm' r) := by exact_mod_cast k
      linarith

/-! ### Concrete cases -/

def exBuyer : SwapArgs := ⟨0, 1000000000, 1, .quoteToBase, true, ⟨420, 1000320⟩, Ex.txSwap⟩
def exSeller : SwapArgs := ⟨0, 100000000000, 1, .baseToQuote, true, ⟨420, 1000320⟩, Ex.txSwap⟩

/-- `a` goes through now and receives `got`; after `b` it goes through too and receives `got'`; the price is `p` now and `p'`
after `b`. -/
def Overtakes (b a : SwapArgs) (got got' p p' : Nat) : Prop :=
  ∃ w2 w3, (Ex.after Ex.paramsC Ex.trading).step (.swap a) = .ok w2 ∧
    (Ex.after Ex.paramsC (Ex.trading ++ [.swap b])).step (.swap { a with clk := a.clk }) = .ok w3 ∧
    traderOut w2 (outToken a.dir) = traderOut (Ex.after Ex.paramsC Ex.trading) (outToken a.dir) + got ∧
    traderOut w3 (outToken a.dir) = traderOut (Ex.after Ex.paramsC (Ex.trading ++ [.swap b])) (outToken a.dir) + got' ∧
    (Ex.after Ex.paramsC Ex.trading).pool.sqrtPrice = p ∧
    (Ex.after Ex.paramsC (Ex.trading ++ [.swap b])).pool.sqrtPrice = p'

/-- A pool without dynamic fee on a curve of two pieces, in which a seller comes before a buyer and a buyer before a seller: the
second receives more than without the first. -/
theorem C87_example :
    (Reachable (Ex.after Ex.paramsC Ex.trading) ∧ (Ex.after Ex.paramsC Ex.trading).cfg.fees.dyn.initialized = 0 ∧
      (Ex.after Ex.paramsC Ex.trading).pool.hasSwap ≠ 0 ∧ (stored (Ex.after Ex.paramsC Ex.trading).cfg.curve).length = 2) ∧
    (Run (Ex.after Ex.paramsC Ex.trading) [.swap exSeller] (Ex.after Ex.paramsC (Ex.trading ++ [.swap exSeller])) ∧
      Run (Ex.after Ex.paramsC Ex.trading) [.swap exBuyer] (Ex.after Ex.paramsC (Ex.trading ++ [.swap exBuyer]))) ∧
    (NotBefore exBuyer exBuyer.clk ∧ NotBefore exSeller exSeller.clk) ∧
    Overtakes exSeller exBuyer 143498775260 143516038172 1386997353318996826 1386913928474356984 ∧
    Overtakes exBuyer exSeller 458661108 458758712 1386997353318996826 1387144927271586502 := by
  refine ⟨⟨Ex.reachTradingC, by decide +kernel, by decide +kernel, by decide +kernel⟩,
    ⟨Run.single (by decide +kernel), Run.single (by decide +kernel)⟩, ⟨⟨le_rfl, le_rfl⟩, ⟨le_rfl, le_rfl⟩⟩,
    ⟨Ex.after Ex.paramsC (Ex.trading ++ [.swap exBuyer]), Ex.after Ex.paramsC (Ex.trading ++ [.swap exSeller, .swap exBuyer]), ?_⟩,
    ⟨Ex.after Ex.paramsC (Ex.trading ++ [.swap exSeller]), Ex.after Ex.paramsC (Ex.trading ++ [.swap exBuyer, .swap exSeller]), ?_⟩⟩ <;>
  decide +kernel

end Props

import Verif.Props.Sold
import Verif.Props.Trip
import Verif.Props.Steady
import Verif.Props.Direct

/-!
# C99: turning back costs no more than the fees and rounding
-/

namespace Props
open Dbc Spec

/-- C95_swap at the price the swap ends at. -/
theorem swap_end {w w' : World} (h : Reachable w) {a : SwapArgs} (hs : w.step (.swap a) = .ok w') :
    worth w'.pool.sqrtPrice (baseTo (Spec.curve w.cfg) w'.pool.sqrtPrice - baseTo (Spec.curve w.cfg) w.pool.sqrtPrice -
      ((reserve w .base : ℚ) - reserve w' .base) - (stored w.cfg.curve).length) ≤ 2 := by
  cases hd : a.dir with
  | baseToQuote =>
    have f := sell_end h hs hd
    refine worth_le (le_trans (le_of_eq ?_) f)
    ring
  | quoteToBase =>
    have hle := (C07_price_direction h hs).1 a rfl hd
    obtain ⟨ps', hc'⟩ := (h.step hs).core
    have hcfg := step_cfg hs
    have hhi' := hc'.hi
    rw [hcfg] at hhi'
    obtain ⟨ps, hc⟩ := h.core
    have hg := hc.good
    have hp := hg.curve.proper
    have hmig := hg.curve.migHi
    have hlo0 := hc.lo
    have hhi0 := hc.hi
    rw [curve_stored hg.curve, curve_eq hg.curve]
    obtain ⟨cur, fm, r, v1, v2, s⟩ := swap_ok hs
    have hw := processSwap_used s.proc
    have hup := chainUp_of (onPiece_curve hp)
    have hpr := s.price
    rw [hd] at hw
    obtain ⟨e1, e2⟩ := s.buyRes hd
    have hout : (reserve w .base : ℚ) - reserve w' .base = (r.out : ℚ) + outFee fm r := by
      simp only [reserve]; rw [← e2]; push_cast; ring
    rw [hout]
    rcases hw with ⟨am, wk, k1, k2, k3, k4⟩ | ⟨wk, k1, k2, k3⟩
    · simp only [walkIn, buyIn_loop hg.curve] at k1
      obtain ⟨b1, -⟩ := buyIn_fair hup hp hlo0 hhi0 hmig k1
      rw [← k2, ← hpr] at b1
      have hk : ((r.out : ℚ) + outFee fm r) = wk.out := by exact_mod_cast k4
      rw [hk]
      push_cast at b1
      refine worth_le ?_
      refine (mul_nonpos_of_nonpos_of_nonneg (by linarith) (by positivity)).trans (by norm_num)
    · simp only [walkOut] at k1
      obtain ⟨-, b2⟩ := buyOut_fair hup hp hlo0 (buyOut_loop hg.curve k1)
      rw [← k2, ← hpr] at b2
      by_cases heq : w'.pool.sqrtPrice = w.pool.sqrtPrice
      · rw [heq, sub_self]
        refine worth_le ?_
        refine (mul_nonpos_of_nonpos_of_nonneg ?_ (by positivity)).trans (by norm_num)
        have : (0 : ℚ) ≤ (r.out : ℚ) + outFee fm r + ps.length := by positivity
        linarith
      · obtain ⟨y, hy⟩ : ∃ y, w'.pool.sqrtPrice = y + 1 := ⟨w'.pool.sqrtPrice - 1, by omega⟩
        rw [hy] at b2 hle hhi' heq ⊢
        have t := chainUp_tick hup hg.liqMax (y := y) (by omega) (by omega)
        have v := (chainUp_value hup hp (x := y) (y := y + 1) (by omega) (by omega) (by omega)).1
        have hmono := (chainUp_mono hup hp (x := y) (y := y + 1) (by omega) (by omega) (by omega)).1
        have hby : baseTo (segs w.cfg.sqrtStartPrice ps) y - baseTo (segs w.cfg.sqrtStartPrice ps) w.pool.sqrtPrice ≤
            (r.out : ℚ) + outFee fm r + ps.length := by
          by_contra hcon
          have := b2 y (by omega) (by omega) (by push_cast; linarith)
          omega
        have hy3 : (3 : ℚ) ≤ y := by
          have h1 := hg.startMin
          have h2 : 3 ≤ MIN_SQRT_PRICE := by decide
          exact_mod_cast (show 3 ≤ y by omega)
        have hsq : ((y + 1 : ℕ) : ℚ) ^ 2 ≤ 2 * (y : ℚ) ^ 2 := by push_cast; nlinarith
        refine worth_le ?_
        have m := mul_le_mul_of_nonneg_right (show baseTo (segs w.cfg.sqrtStartPrice ps) (y + 1) -
          baseTo (segs w.cfg.sqrtStartPrice ps) w.pool.sqrtPrice - ((r.out : ℚ) + outFee fm r) - ps.length ≤
          baseTo (segs w.cfg.sqrtStartPrice ps) (y + 1) - baseTo (segs w.cfg.sqrtStartPrice ps) y by linarith)
          (by positivity : (0 : ℚ) ≤ ((y + 1 : ℕ) : ℚ) ^ 2)
        have t' := mul_le_mul_of_nonneg_right t (by positivity : (0 : ℚ) ≤ 2 ^ 128)
        have m2 := mul_le_mul_of_nonneg_left hsq (sub_nonneg.2 hmono)
        linarith

/-- The curve lies below its tangent: a move along the curve takes in no more quote than its base is worth at the end. -/
theorem tangent {w : World} (h : Reachable w) {x y : Nat} (hx : w.cfg.sqrtStartPrice ≤ x) (hx' : x ≤ w.cfg.migrationSqrtPrice)
    (hy : w.cfg.sqrtStartPrice ≤ y) (hy' : y ≤ w.cfg.migrationSqrtPrice) :
    quoteTo (Spec.curve w.cfg) y - quoteTo (Spec.curve w.cfg) x ≤
      worth y (baseTo (Spec.curve w.cfg) y - baseTo (Spec.curve w.cfg) x) := by
  obtain ⟨ps, hc⟩ := h.core
  have hg := hc.good
  have hp := hg.curve.proper
  have hup := chainUp_of (onPiece_curve hp)
  have hmig := hg.curve.migHi
  rw [curve_eq hg.curve]
  refine le_worth ?_
  rcases Nat.le_total x y with hle | hle
  · exact (chainUp_value hup hp hx hle (hy'.trans hmig)).2
  · have := (chainUp_value hup hp hy hle (hx'.trans hmig)).1
    linarith

theorem worth_one (p : Nat) (b : ℚ) : worth p b = b * worth p 1 := by unfold worth; ring

/-- C99, one trader: somebody buys and, before anybody else trades, sells some base, on a curve of `n` points. What they
paid is at most what they got back, the fees of both trades, the base they kept and its fee at the price displayed in the end, and
rounding: `2 * n` units of base at that price and `2 * n + 4` units of quote. -/
theorem C99_turning_back {w w1 w2 w3 : World} {ops : List Op} {a b : SwapArgs} {x y : Trade} (h : Reachable w)
    (da : a.dir = .quoteToBase) (db : b.dir = .baseToQuote)
    (h1 : w.step (.swap a) = .ok w1) (hr : Run w1 ops w2) (hno : ∀ c, Op.swap c ∉ ops) (h2 : w2.step (.swap b) = .ok w3)
    (ox : Observed w w1 a.dir x) (oy : Observed w2 w3 b.dir y) :
    (x.paid : ℚ) ≤ y.got + inTok y.feeToken .quote y.fee + inTok x.feeToken .quote x.fee +
      worth w3.pool.sqrtPrice ((x.got + inTok x.feeToken .base x.fee + inTok y.feeToken .base y.fee : ℕ) - y.paid +
        2 * (stored w.cfg.curve).length) + (2 * (stored w.cfg.curve).length + 4) := by
  obtain ⟨ec, r2, ht⟩ := pause_reserve h h1 hr hno h2 ox oy
  have sc := quiet_run hr hno
  have e1 := swap_end h h1
  have e2 := swap_end r2 h2
  have q1 := C67_swap h h1
  have q2 := C67_swap r2 h2
  have dn := (C07_price_direction r2 h2).2.1 b rfl db
  have lo3 := start_le (r2.step h2)
  have hi3 := (C07_price_range (r2.step h2)).2
  rw [step_cfg h2, ec] at lo3 hi3
  have lo := start_le h
  have hi := (C07_price_range h).2
  have tg := tangent h lo hi lo3 hi3
  rw [ec] at e2 q2
  have hb2 : reserve w2 .base = reserve w1 .base := sc.base
  have hq2 : reserve w2 .quote = reserve w1 .quote := sc.quote
  rw [hb2, sc.price] at e2
  rw [hq2, sc.price] at q2
  rw [sc.price] at dn
  -- the shortfall of the buy at the lower price
  have e1' : worth w3.pool.sqrtPrice (baseTo (Spec.curve w.cfg) w1.pool.sqrtPrice - baseTo (Spec.curve w.cfg) w.pool.sqrtPrice -
      ((reserve w .base : ℚ) - reserve w1 .base) - (stored w.cfg.curve).length) ≤ 2 := by
    by_cases hneg : 0 ≤ baseTo (Spec.curve w.cfg) w1.pool.sqrtPrice - baseTo (Spec.curve w.cfg) w.pool.sqrtPrice -
      ((reserve w .base : ℚ) - reserve w1 .base) - (stored w.cfg.curve).length
    · exact (worth_price hneg dn).trans e1
    · refine (worth_mono (b' := 0) (by linarith)).trans ?_
      unfold worth
      norm_num
  have eb := trades_reserve ht .base
  have eq := trades_reserve ht .quote
  simp only [sumPaid, sumGot, sumFees, List.map_cons, List.map_nil, List.sum_cons, List.sum_nil, da, db] at eb eq
  have t1 : ∀ n, inTok (inToken .quoteToBase) .base n = 0 := fun n => rfl
  have t2 : ∀ n, inTok (inToken .quoteToBase) .quote n = n := fun n => rfl
  have t3 : ∀ n, inTok (outToken .quoteToBase) .base n = n := fun n => rfl
  have t4 : ∀ n, inTok (outToken .quoteToBase) .quote n = 0 := fun n => rfl
  have t5 : ∀ n, inTok (inToken .baseToQuote) .base n = n := fun n => rfl
  have t6 : ∀ n, inTok (inToken .baseToQuote) .quote n = 0 := fun n => rfl
  have t7 : ∀ n, inTok (outToken .baseToQuote) .base n = 0 := fun n => rfl
  have t8 : ∀ n, inTok (outToken .baseToQuote) .quote n = n := fun n => rfl
  simp only [t1, t2, t3, t4, t5, t6, t7, t8] at eb eq
  have eb' : (reserve w3 .base : ℚ) + (x.got + inTok x.feeToken .base x.fee + inTok y.feeToken .base y.fee : ℕ) =
      reserve w .base + y.paid := by
    exact_mod_cast (by omega : reserve w3 .base + (x.got + inTok x.feeToken .base x.fee + inTok y.feeToken .base y.fee) =
      reserve w .base + y.paid)
  have eq' : (reserve w3 .quote : ℚ) + (y.got + inTok y.feeToken .quote y.fee + inTok x.feeToken .quote x.fee) =
      reserve w .quote + x.paid := by
    exact_mod_cast (by omega : reserve w3 .quote + (y.got + inTok y.feeToken .quote y.fee + inTok x.feeToken .quote x.fee) =
      reserve w .quote + x.paid)
  rw [worth_one] at e1' e2 tg ⊢
  have hw : (0 : ℚ) ≤ worth w3.pool.sqrtPrice 1 := by unfold worth; positivity
  have key : ((x.got + inTok x.feeToken .base x.fee + inTok y.feeToken .base y.fee : ℕ) - (y.paid : ℚ) +
      2 * (stored w.cfg.curve).length) = (reserve w .base : ℚ) - reserve w3 .base + 2 * (stored w.cfg.curve).length := by linarith
  rw [key]
  nlinarith

/-- C99, everybody together: after any history with `k` swaps on a curve of `n` points, what all traders have paid in quote is
at most what they got, the fees, the base they hold on balance, with its fees, at the price displayed in the end, and rounding:
`k * n` units of base at that price, `k * n` units of quote, and two more per swap, scaled by how far the price has come since
the start. -/
theorem C99_crowd {w w' : World} {ops : List Op} {xs : List (TradeDirection × Trade)} (h : Reachable w)
    (ht : Trades w ops w' xs) :
    (sumPaid xs .quote : ℚ) ≤ sumGot xs .quote + sumFees xs .quote +
      worth w'.pool.sqrtPrice (((sumGot xs .base + sumFees xs .base : ℕ) : ℚ) - sumPaid xs .base +
        (swaps ops : ℚ) * (stored w.cfg.curve).length) + (swaps ops : ℚ) * (stored w.cfg.curve).length +
      2 * (swaps ops : ℚ) * (worth w'.pool.sqrtPrice 1 / worth w.cfg.sqrtStartPrice 1) := by
  have hr := ht.run
  obtain ⟨-, s2⟩ := C95_history h hr
  have q2 := (C67_history h hr).2
  have ec := (backed_run h hr).cfg
  have lo' := start_le (h.run hr)
  have hi' := (C07_price_range (h.run hr)).2
  rw [ec] at lo' hi'
  have tg := tangent h (start_le h) (C07_price_range h).2 lo' hi'
  have eb := trades_reserve ht .base
  have eq := trades_reserve ht .quote
  have eb' : (reserve w' .base : ℚ) + (sumGot xs .base + sumFees xs .base : ℕ) = reserve w .base + sumPaid xs .base := by
    exact_mod_cast (by omega : reserve w' .base + (sumGot xs .base + sumFees xs .base) = reserve w .base + sumPaid xs .base)
  have eq' : (reserve w' .quote : ℚ) + sumGot xs .quote + sumFees xs .quote = reserve w .quote + sumPaid xs .quote := by
    exact_mod_cast eq
  have hs0 : (0 : ℚ) < worth w.cfg.sqrtStartPrice 1 := by
    obtain ⟨ps, hc⟩ := h.core
    have h0 : (0 : ℚ) < w.cfg.sqrtStartPrice := by exact_mod_cast Dbc.Proper.lo_pos hc.good.curve.proper
    unfold worth
    positivity
  have hw : (0 : ℚ) ≤ worth w'.pool.sqrtPrice 1 := by unfold worth; positivity
  rw [worth_one] at s2 tg ⊢
  have hD := (le_div_iff₀ hs0).2 s2
  have hD' := mul_le_mul_of_nonneg_right hD hw
  have e : 2 * (swaps ops : ℚ) * (worth w'.pool.sqrtPrice 1 / worth w.cfg.sqrtStartPrice 1) =
      2 * (swaps ops : ℚ) / worth w.cfg.sqrtStartPrice 1 * worth w'.pool.sqrtPrice 1 := by ring
  rw [e]
  have key : (((sumGot xs .base + sumFees xs .base : ℕ) : ℚ) - sumPaid xs .base) = reserve w .base - reserve w' .base := by
    linarith
  rw [key]
  nlinarith

/-- Somebody buys for 2000 quote tokens and sells everything at once. They get 1914 back; 46.6 are fees of the sale, and the fee of
the buy, taken in base, was worth 39.5. The bound leaves 165 thousandths of a token for the rise of the price by that fee. The same
two trades are a history for the second theorem. -/
theorem C99_example :
    Reachable (sandwiched []) ∧ (stored (sandwiched []).cfg.curve).length = 2 ∧
    frontBuy.dir = .quoteToBase ∧ backSale.dir = .baseToQuote ∧
    (sandwiched []).step (.swap frontBuy) = .ok (sandwiched [frontBuy]) ∧
    (sandwiched [frontBuy]).step (.swap backSale) = .ok (sandwiched [frontBuy, backSale]) ∧
    Trades (sandwiched []) [.swap frontBuy, .swap backSale] (sandwiched [frontBuy, backSale])
      [(.quoteToBase, ⟨2000000000000, 284760456418111, .base, 2774174128421, 2774174128420, 1387087064210, 0⟩),
        (.baseToQuote, ⟨284760456418111, 1914010406111, .quote, 18646543193, 18646543193, 9323271596, 0⟩)] ∧
    (sandwiched [frontBuy, backSale]).pool.sqrtPrice = 1392807817367999169 ∧
    (1914010406111 : ℚ) + 46616357982 + worth 1392807817367999169 (6935435321051 + 2 * 2) + (2 * 2 + 4) ≤ 2000165000000 := by
  refine ⟨_root_.Ex.reachTradingC, by decide +kernel, rfl, rfl, by decide +kernel, by decide +kernel, ?_, by decide +kernel, ?_⟩
  · refine .swap (w1 := sandwiched [frontBuy]) (by decide +kernel) ?_
      (.swap (w1 := sandwiched [frontBuy, backSale]) (by decide +kernel) ?_ (.nil _)) <;>
    · constructor <;> intro t <;> cases t <;> decide +kernel
  · unfold worth
    norm_num

end Props

import Verif.Props.TurnBack

/-!
# C100: no discount for size
-/

namespace Props
open Dbc Spec

/-- On the curve, going further up takes in more quote per base, going further down gives less. -/
theorem steeper {w : World} (h : Reachable w) {x y z : Nat} (hx : w.cfg.sqrtStartPrice ≤ x) (hxy : x ≤ y) (hyz : y ≤ z)
    (hz : z ≤ w.cfg.migrationSqrtPrice) :
    (baseTo (Spec.curve w.cfg) z - baseTo (Spec.curve w.cfg) y) * (quoteTo (Spec.curve w.cfg) y - quoteTo (Spec.curve w.cfg) x) ≤
      (quoteTo (Spec.curve w.cfg) z - quoteTo (Spec.curve w.cfg) y) * (baseTo (Spec.curve w.cfg) y - baseTo (Spec.curve w.cfg) x) ∧
    0 ≤ baseTo (Spec.curve w.cfg) y - baseTo (Spec.curve w.cfg) x ∧ 0 ≤ quoteTo (Spec.curve w.cfg) y - quoteTo (Spec.curve w.cfg) x ∧
    0 ≤ baseTo (Spec.curve w.cfg) z - baseTo (Spec.curve w.cfg) y ∧ 0 ≤ quoteTo (Spec.curve w.cfg) z - quoteTo (Spec.curve w.cfg) y := by
  obtain ⟨ps, hc⟩ := h.core
  have hg := hc.good
  have hp := hg.curve.proper
  have hup := chainUp_of (onPiece_curve hp)
  have hmig := hg.curve.migHi
  rw [curve_eq hg.curve]
  have a := (chainUp_value hup hp hx hxy (hyz.trans (hz.trans hmig))).2
  have b := (chainUp_value hup hp (hx.trans hxy) hyz (hz.trans hmig)).1
  obtain ⟨m1, m2⟩ := chainUp_mono hup hp hx hxy (hyz.trans (hz.trans hmig))
  obtain ⟨m3, m4⟩ := chainUp_mono hup hp (hx.trans hxy) hyz (hz.trans hmig)
  refine ⟨?_, by linarith, by linarith, by linarith, by linarith⟩
  have k1 := mul_le_mul_of_nonneg_left a (sub_nonneg.2 m3)
  have k2 := mul_le_mul_of_nonneg_right b (sub_nonneg.2 m1)
  refine le_of_mul_le_mul_right ?_ (by positivity : (0 : ℚ) < 2 ^ 128)
  linarith

theorem worth_pos {w : World} (h : Reachable w) : (0 : ℚ) < worth w.pool.sqrtPrice 1 := by
  obtain ⟨ps, hc⟩ := h.core
  have h0 : (0 : ℚ) < w.pool.sqrtPrice := by exact_mod_cast lt_of_lt_of_le (Dbc.Proper.lo_pos hc.good.curve.proper) hc.lo
  unfold worth
  positivity

theorem worth_bound {p : Nat} {b q : ℚ} (hp : 0 < worth p 1) (h : worth p b ≤ q) : b ≤ q / worth p 1 := by
  rw [worth_one] at h
  exact (le_div_iff₀ hp).2 h

/-- C100, buys: of two buys in the same state, the one that puts more into the reserve takes no more base per quote than the
other, up to rounding: `n` units of quote and `n` units of base on a curve of `n` points, and what two units of quote buy. -/
theorem C100_buy {w v u : World} {a b : SwapArgs} (h : Reachable w) (ha : a.dir = .quoteToBase) (hb : b.dir = .quoteToBase)
    (hs : w.step (.swap a) = .ok v) (ht : w.step (.swap b) = .ok u) (hle : reserve v .quote ≤ reserve u .quote)
    (hn : ((stored w.cfg.curve).length : ℚ) ≤ (reserve v .quote : ℚ) - reserve w .quote) :
    ((reserve w .base : ℚ) - reserve u .base) * ((reserve v .quote : ℚ) - reserve w .quote - (stored w.cfg.curve).length) ≤
      ((reserve u .quote : ℚ) - reserve w .quote) *
        ((reserve w .base : ℚ) - reserve v .base + (stored w.cfg.curve).length + 2 / worth v.pool.sqrtPrice 1) := by
  have e := worth_bound (worth_pos (h.step hs)) (swap_end h hs)
  have q := C67_swap h hs
  have bk := backed_run h (Run.single ht)
  have b1 := bk.base
  have b2 := bk.quote
  have up := (C07_price_direction h hs).1 a rfl ha
  have up' := (C07_price_direction h ht).1 b rfl hb
  have hi := (C07_price_range (h.step ht)).2
  have hi' := (C07_price_range (h.step hs)).2
  rw [step_cfg ht] at hi
  rw [step_cfg hs] at hi'
  have hle' : (reserve v .quote : ℚ) ≤ reserve u .quote := by exact_mod_cast hle
  set n : ℚ := ((stored w.cfg.curve).length : ℚ)
  have hn0 : 0 ≤ n := Nat.cast_nonneg _
  rcases Nat.le_total v.pool.sqrtPrice u.pool.sqrtPrice with hp | hp
  · obtain ⟨k, k1, k2, k3, k4⟩ := steeper h (start_le h) up hp hi
    have s1 : ((reserve w .base : ℚ) - reserve u .base) * ((reserve v .quote : ℚ) - reserve w .quote - n) ≤
        (baseTo (Spec.curve w.cfg) u.pool.sqrtPrice - baseTo (Spec.curve w.cfg) w.pool.sqrtPrice) *
          (quoteTo (Spec.curve w.cfg) v.pool.sqrtPrice - quoteTo (Spec.curve w.cfg) w.pool.sqrtPrice) :=
      (mul_le_mul_of_nonneg_right (by linarith) (by linarith)).trans (mul_le_mul_of_nonneg_left (by linarith) (by linarith))
    have s2 : (quoteTo (Spec.curve w.cfg) u.pool.sqrtPrice - quoteTo (Spec.curve w.cfg) w.pool.sqrtPrice) *
        (baseTo (Spec.curve w.cfg) v.pool.sqrtPrice - baseTo (Spec.curve w.cfg) w.pool.sqrtPrice) ≤
        ((reserve u .quote : ℚ) - reserve w .quote) *
          ((reserve w .base : ℚ) - reserve v .base + n + 2 / worth v.pool.sqrtPrice 1) :=
      (mul_le_mul_of_nonneg_right (by linarith) (by linarith)).trans (mul_le_mul_of_nonneg_left (by linarith) (by linarith))
    linarith
  · obtain ⟨-, k1, k2, k3, k4⟩ := steeper h (start_le h) up' hp hi'
    exact (mul_le_mul_of_nonneg_right (show _ ≤ (reserve w .base : ℚ) - reserve v .base + n + 2 / worth v.pool.sqrtPrice 1 by
      linarith) (by linarith)).trans (by
        rw [mul_comm]
        exact mul_le_mul_of_nonneg_right (by linarith) (by linarith))

/-- C100, sales: of two sales in the same state, the one that puts more into the reserve takes no more quote per base than the
other, up to rounding: `n` units of quote and `n` units of base, and what two units of quote buy. -/
theorem C100_sale {w v u : World} {a b : SwapArgs} (h : Reachable w) (ha : a.dir = .baseToQuote) (hb : b.dir = .baseToQuote)
    (hs : w.step (.swap a) = .ok v) (ht : w.step (.swap b) = .ok u) (hle : reserve v .base ≤ reserve u .base)
    (hn : ((stored w.cfg.curve).length : ℚ) + 2 / worth v.pool.sqrtPrice 1 ≤ (reserve v .base : ℚ) - reserve w .base) :
    ((reserve w .quote : ℚ) - reserve u .quote) *
        ((reserve v .base : ℚ) - reserve w .base - (stored w.cfg.curve).length - 2 / worth v.pool.sqrtPrice 1) ≤
      ((reserve u .base : ℚ) - reserve w .base) *
        ((reserve w .quote : ℚ) - reserve v .quote + (stored w.cfg.curve).length) := by
  have e := worth_bound (worth_pos (h.step hs)) (swap_end h hs)
  have q := C67_swap h hs
  have bk := backed_run h (Run.single ht)
  have b1 := bk.base
  have b2 := bk.quote
  have dn := (C07_price_direction h hs).2.1 a rfl ha
  have dn' := (C07_price_direction h ht).2.1 b rfl hb
  have hi := (C07_price_range h).2
  have lo := start_le (h.step ht)
  have lo' := start_le (h.step hs)
  rw [step_cfg ht] at lo
  rw [step_cfg hs] at lo'
  have hle' : (reserve v .base : ℚ) ≤ reserve u .base := by exact_mod_cast hle
  have hw : (0 : ℚ) ≤ 2 / worth v.pool.sqrtPrice 1 := div_nonneg (by norm_num) (worth_pos (h.step hs)).le
  set n : ℚ := ((stored w.cfg.curve).length : ℚ)
  have hn0 : 0 ≤ n := Nat.cast_nonneg _
  rcases Nat.le_total u.pool.sqrtPrice v.pool.sqrtPrice with hp | hp
  · obtain ⟨k, k1, k2, k3, k4⟩ := steeper h lo hp dn hi
    have s1 : ((reserve w .quote : ℚ) - reserve u .quote) *
        ((reserve v .base : ℚ) - reserve w .base - n - 2 / worth v.pool.sqrtPrice 1) ≤
        (quoteTo (Spec.curve w.cfg) w.pool.sqrtPrice - quoteTo (Spec.curve w.cfg) u.pool.sqrtPrice) *
          (baseTo (Spec.curve w.cfg) w.pool.sqrtPrice - baseTo (Spec.curve w.cfg) v.pool.sqrtPrice) :=
      (mul_le_mul_of_nonneg_right (by linarith) (by linarith)).trans (mul_le_mul_of_nonneg_left (by linarith) (by linarith))
    have s2 : (baseTo (Spec.curve w.cfg) w.pool.sqrtPrice - baseTo (Spec.curve w.cfg) u.pool.sqrtPrice) *
        (quoteTo (Spec.curve w.cfg) w.pool.sqrtPrice - quoteTo (Spec.curve w.cfg) v.pool.sqrtPrice) ≤
        ((reserve u .base : ℚ) - reserve w .base) * ((reserve w .quote : ℚ) - reserve v .quote + n) :=
      (mul_le_mul_of_nonneg_right (by linarith) (by linarith)).trans (mul_le_mul_of_nonneg_left (by linarith) (by linarith))
    linarith
  · obtain ⟨-, k1, k2, k3, k4⟩ := steeper h lo' hp dn' hi
    exact (mul_le_mul_of_nonneg_right (show _ ≤ (reserve w .quote : ℚ) - reserve v .quote + n by linarith) (by linarith)).trans (by
        rw [mul_comm]
        exact mul_le_mul_of_nonneg_right (by linarith) (by linarith))

def bigSale : SwapArgs := Ex.oneWay .baseToQuote 250000000000000 false 1001310

/-- Buys for 2000 and for 3000 quote tokens, and sales of 10^14 and of 2.5 * 10^14 base units, in the same state: the larger ones
get less per unit paid. -/
theorem C100_example :
    Reachable (sandwiched []) ∧ (stored (sandwiched []).cfg.curve).length = 2 ∧
    (frontBuy.dir = .quoteToBase ∧ midBuy.dir = .quoteToBase ∧ frontSale.dir = .baseToQuote ∧ bigSale.dir = .baseToQuote) ∧
    (∀ a ∈ [frontBuy, midBuy, frontSale, bigSale], (sandwiched []).step (.swap a) = .ok (sandwiched [a])) ∧
    (reserve (sandwiched []) .base = 1303096095345611 ∧ reserve (sandwiched []) .quote = 1586159648128) ∧
    (reserve (sandwiched [frontBuy]) .base = 1303096095345611 - 291695891739162 ∧
      reserve (sandwiched [frontBuy]) .quote = 1586159648128 + 2000000000000) ∧
    (reserve (sandwiched [midBuy]) .base = 1303096095345611 - 402254229697385 ∧
      reserve (sandwiched [midBuy]) .quote = 1586159648128 + 3000000000000) ∧
    (reserve (sandwiched [frontSale]) .base = 1303096095345611 + 100000000000000 ∧
      reserve (sandwiched [frontSale]) .quote = 1586159648128 - 533266030458) ∧
    (reserve (sandwiched [bigSale]) .base = 1303096095345611 + 250000000000000 ∧
      reserve (sandwiched [bigSale]) .quote = 1586159648128 - 1228601529063) ∧
    402254229697385 * 2000000000000 < 3000000000000 * 291695891739162 ∧
    1228601529063 * 100000000000000 < 250000000000000 * 533266030458 ∧
    (2 : ℚ) + 2 / worth (sandwiched [frontSale]).pool.sqrtPrice 1 ≤ 100000000000000 := by
  refine ⟨_root_.Ex.reachTradingC, by decide +kernel, ⟨rfl, rfl, rfl, rfl⟩, by decide +kernel, by decide +kernel, by decide +kernel,
    by decide +kernel, by decide +kernel, by decide +kernel, by decide, by decide, ?_⟩
  rw [show (sandwiched [frontSale]).pool.sqrtPrice = 1308301177422448838 by decide +kernel]
  unfold worth
  norm_num

end Props

import Verif.Lemmas.Vesting
import Mathlib.Tactic.Linarith

/-!
# Arithmetic of the two positions: what the second one falls short of its plan, and what stays locked
-/

namespace Dbc

/-! ### What a schedule still holds, as the amount varies -/

theorem LiqVesting.per_mono (v : LiqVesting) {s t : Nat} (h : s ≤ t) : v.per s ≤ v.per t :=
  Nat.div_le_div_right (Nat.div_le_div_right (Nat.mul_le_mul_right _ h))

/-- At least a second after the start, what is held is all before the cliff and a number of periods after. -/
theorem LiqVesting.held_late (v : LiqVesting) (s now n : Nat) (hT : v.bpsPerPeriod * v.numPeriods ≤ 10000) (hn : 0 < n) :
    v.held s now (now + n) = if n < v.cliffDuration then s
      else v.per s * (v.numPeriods - min ((n - v.cliffDuration) / v.frequency) v.numPeriods) := by
  rw [v.held_eq s now n (v.per_mul_le s hT)]
  have : (n < if v.per s = 0 then max v.cliffDuration 1 else v.cliffDuration) ↔ n < v.cliffDuration := by
    split <;> omega
  simp only [this]

theorem LiqVesting.held_mono (v : LiqVesting) {s t : Nat} (now n : Nat) (hT : v.bpsPerPeriod * v.numPeriods ≤ 10000) (hn : 0 < n)
    (h : s ≤ t) : v.held s now (now + n) ≤ v.held t now (now + n) := by
  rw [v.held_late s now n hT hn, v.held_late t now n hT hn]
  split
  · exact h
  · exact Nat.mul_le_mul_right _ (v.per_mono h)

theorem LiqVesting.per_lip (v : LiqVesting) {s t : Nat} (hT : v.bpsPerPeriod * v.numPeriods ≤ 10000) (h : s ≤ t) :
    v.per t * v.numPeriods ≤ v.per s * v.numPeriods + (t - s) + v.numPeriods := by
  rcases Nat.eq_zero_or_pos v.numPeriods with h0 | hn
  · rw [h0]; omega
  have a1 : v.per t * (10000 * v.numPeriods) ≤ t * (v.bpsPerPeriod * v.numPeriods) := by
    unfold LiqVesting.per
    rw [Nat.div_div_eq_div_mul]
    exact Nat.div_mul_le_self _ _
  have a2 : s * (v.bpsPerPeriod * v.numPeriods) ≤ (v.per s + 1) * (10000 * v.numPeriods) := per_bounds s _ _ hn
  have a3 : (t - s) * (v.bpsPerPeriod * v.numPeriods) ≤ (t - s) * 10000 := Nat.mul_le_mul_left _ hT
  generalize v.bpsPerPeriod * v.numPeriods = T at *
  have a4 : t * T = s * T + (t - s) * T := by rw [← Nat.add_mul]; congr 1; omega
  have a5 : v.per t * (10000 * v.numPeriods) = 10000 * (v.per t * v.numPeriods) := by ring
  have a6 : (v.per s + 1) * (10000 * v.numPeriods) = 10000 * (v.per s * v.numPeriods) + 10000 * v.numPeriods := by ring
  omega

/-- More vested liquidity holds back at most that much more, up to one unit per period. -/
theorem LiqVesting.held_lip (v : LiqVesting) {s t : Nat} (now n : Nat) (hT : v.bpsPerPeriod * v.numPeriods ≤ 10000) (hn : 0 < n)
    (h : s ≤ t) : v.held t now (now + n) ≤ v.held s now (now + n) + (t - s) + 10000 := by
  rw [v.held_late s now n hT hn, v.held_late t now n hT hn]
  split
  · omega
  · generalize hm : v.numPeriods - min ((n - v.cliffDuration) / v.frequency) v.numPeriods = m
    have hmn : m ≤ v.numPeriods := by rw [← hm]; exact Nat.sub_le _ _
    by_cases hb : v.bpsPerPeriod = 0
    · have : v.per t = 0 := by unfold LiqVesting.per; rw [hb]; simp
      rw [this]; omega
    have hn1 : v.numPeriods ≤ 10000 := (Nat.le_mul_of_pos_left _ (Nat.pos_of_ne_zero hb)).trans hT
    have hl := v.per_lip hT h
    have hp := v.per_mono h
    obtain ⟨e, he⟩ := Nat.exists_eq_add_of_le hp
    rw [he] at hl ⊢
    have b1 : (v.per s + e) * v.numPeriods = v.per s * v.numPeriods + e * v.numPeriods := Nat.add_mul _ _ _
    have b2 : (v.per s + e) * m = v.per s * m + e * m := Nat.add_mul _ _ _
    have b3 : e * m ≤ e * v.numPeriods := Nat.mul_le_mul_left _ hmn
    omega

/-! ### Dividing what the second position got -/

/-- A share of `x` out of `X0` planned, divided in proportion, keeps `short` less of the locked parts at most. -/
theorem redivided_locked (v : LiqVesting) {liq pp unl amount perm vest short now n : Nat}
    (hT : v.bpsPerPeriod * v.numPeriods ≤ 10000) (hn : 0 < n) (hpos : pp + v.pct ≠ 0)
    (hv : vest = (amount - min amount unl) * v.pct / (v.pct + pp)) (hp : perm + vest = amount - min amount unl)
    (hs : unl + liq * pp / 100 + liq * v.pct / 100 ≤ amount + short) :
    liq * pp / 100 + v.held (liq * v.pct / 100) now (now + n) ≤ perm + v.held vest now (now + n) + short + 10000 := by
  have hX : liq * pp / 100 + liq * v.pct / 100 ≤ amount - min amount unl + short := by omega
  generalize amount - min amount unl = X at *
  clear hs
  rcases Nat.lt_or_ge vest (liq * v.pct / 100) with hlt | hge
  · have := v.held_lip now n hT hn hlt.le
    omega
  · have hm := v.held_mono now n hT hn hge
    -- the permanent part
    have c1 : liq * pp / 100 * 100 ≤ liq * pp := Nat.div_mul_le_self _ _
    have c2 : liq * v.pct < liq * v.pct / 100 * 100 + 100 := Nat.lt_div_mul_add (by decide)
    have c3 : vest * (v.pct + pp) ≤ X * v.pct := by rw [hv]; exact Nat.div_mul_le_self _ _
    generalize liq * pp / 100 = P at *
    generalize liq * v.pct / 100 = V at *
    have hP : P ≤ perm + short + 1 := by
      by_contra hc
      have hc : perm + short + 2 ≤ P := by omega
      -- P * vp ≤ (V + 1) * pp
      have d1 : P * v.pct ≤ (V + 1) * pp := by
        have e1 : P * 100 * v.pct ≤ liq * pp * v.pct := Nat.mul_le_mul_right _ c1
        have e2 : liq * v.pct * pp ≤ (V * 100 + 100) * pp := Nat.mul_le_mul_right _ c2.le
        have e3 : liq * pp * v.pct = liq * v.pct * pp := by ring
        have e4 : P * 100 * v.pct = 100 * (P * v.pct) := by ring
        have e5 : (V * 100 + 100) * pp = 100 * ((V + 1) * pp) := by ring
        omega
      have d2 : X * pp ≤ perm * (v.pct + pp) := by
        have e1 : perm * (v.pct + pp) + vest * (v.pct + pp) = X * v.pct + X * pp := by rw [← Nat.add_mul, hp, Nat.mul_add]
        omega
      have d3 : (perm + short + 2) * (v.pct + pp) ≤ P * (v.pct + pp) := Nat.mul_le_mul_right _ hc
      have d4 : (P + V) * pp ≤ (X + short) * pp := Nat.mul_le_mul_right _ hX
      have e1 : (perm + short + 2) * (v.pct + pp) = perm * (v.pct + pp) + (short * v.pct + short * pp) + 2 * v.pct + 2 * pp := by ring
      have e2 : P * (v.pct + pp) = P * v.pct + P * pp := Nat.mul_add _ _ _
      have e3 : (V + 1) * pp = V * pp + pp := by ring
      have e4 : (P + V) * pp = P * pp + V * pp := Nat.add_mul _ _ _
      have e5 : (X + short) * pp = X * pp + short * pp := Nat.add_mul _ _ _
      omega
    omega

/-! ### How far the second position falls short -/

/-- Constant needs per unit of liquidity, `A / D` each, rounded up once for each position. -/
theorem short_constant {A D L1 L2 l2 amt n1 : Nat} (h1 : (L1 + L2) * A ≤ amt * D) (h2 : n1 * D < L1 * A + D)
    (h3 : n1 ≤ amt) (h4 : (amt - n1) * D < (l2 + 1) * A) (hD : 0 < D) : (L2 - l2 - 1) * A < D := by
  have e1 : (amt - n1) * D = amt * D - n1 * D := Nat.sub_mul _ _ _
  have e2 : n1 * D ≤ amt * D := Nat.mul_le_mul_right _ h3
  have e3 : (L1 + L2) * A = L1 * A + L2 * A := Nat.add_mul _ _ _
  rcases Nat.lt_or_ge L2 (l2 + 1) with h | h
  · have : L2 - l2 - 1 = 0 := by omega
    rw [this, Nat.zero_mul]; omega
  · have e4 : L2 * A = (L2 - l2 - 1) * A + (l2 + 1) * A := by rw [← Nat.add_mul]; congr 1; omega
    omega

theorem excess_constant {A D L1 L2 l2 amt n1 : Nat} (h1 : amt * D < (L1 + L2 + 1) * A) (h2 : L1 * A ≤ n1 * D)
    (h3 : n1 ≤ amt) (h4 : l2 * A ≤ (amt - n1) * D) : l2 ≤ L2 := by
  by_contra hc
  have e1 : (amt - n1) * D = amt * D - n1 * D := Nat.sub_mul _ _ _
  have e2 : n1 * D ≤ amt * D := Nat.mul_le_mul_right _ h3
  have e3 : (L1 + L2 + 1) * A = L1 * A + (L2 + 1) * A := by ring
  have e4 : (L2 + 1) * A ≤ l2 * A := Nat.mul_le_mul_right _ (by omega)
  omega

/-- Needs in proportion to what the first position put in, `n1` for `T1` units. -/
theorem short_proRata {u v T1 L2 l2 amt n1 : Nat} (h1 : (T1 + L2) * u ≤ amt * v) (h2 : n1 * v < T1 * u + v)
    (h3 : n1 ≤ amt) (h4 : (amt - n1) * T1 < (l2 + 1) * n1) (hT : 0 < T1) : (L2 - l2 - 1) * n1 < T1 + L2 := by
  by_contra hc
  have hc : T1 + L2 ≤ (L2 - l2 - 1) * n1 := by omega
  have hn1 : n1 ≠ 0 := by rintro rfl; rw [Nat.mul_zero] at hc; omega
  obtain ⟨k, rfl⟩ : ∃ k, n1 = k + 1 := ⟨n1 - 1, by omega⟩
  have hL : l2 + 1 ≤ L2 := by
    by_contra h
    have : L2 - l2 - 1 = 0 := by omega
    rw [this, Nat.zero_mul] at hc; omega
  obtain ⟨e, he⟩ := Nat.exists_eq_add_of_le hL
  have he' : L2 - l2 - 1 = e := by omega
  rw [he'] at hc
  have f1 : (amt - (k + 1)) * T1 = amt * T1 - (k + 1) * T1 := Nat.sub_mul _ _ _
  have f2 : (k + 1) * T1 ≤ amt * T1 := Nat.mul_le_mul_right _ h3
  -- amt * T1 < (T1 + L2) * k
  have f3 : amt * T1 < (T1 + L2) * k := by
    have g1 : (T1 + L2) * k = (k + 1) * T1 + (l2 + 1) * (k + 1) + e * (k + 1) - (T1 + L2) := by
      rw [he]
      have : (k + 1) * T1 + (l2 + 1) * (k + 1) + e * (k + 1) = (T1 + (l2 + 1 + e)) * k + (T1 + (l2 + 1 + e)) := by ring
      omega
    omega
  have f4 : k * v < T1 * u := by
    have : (k + 1) * v = k * v + v := by ring
    omega
  have g1 : amt * T1 * v ≤ (T1 + L2) * k * v := Nat.mul_le_mul_right _ f3.le
  have g2 : (T1 + L2) * (k * v) < (T1 + L2) * (T1 * u) := Nat.mul_lt_mul_of_pos_left f4 (by omega)
  have g3 : (T1 + L2) * u * T1 ≤ amt * v * T1 := Nat.mul_le_mul_right _ h1
  have g4 : amt * T1 * v = amt * v * T1 := by ring
  have g5 : (T1 + L2) * k * v = (T1 + L2) * (k * v) := by ring
  have g6 : (T1 + L2) * (T1 * u) = (T1 + L2) * u * T1 := by ring
  omega

theorem excess_proRata {u v T1 L2 l2 slack amt n1 : Nat} (h1 : amt * v < (T1 + L2 + slack + 1) * u) (h2 : T1 * u ≤ n1 * v)
    (h3 : n1 ≤ amt) (h4 : l2 * n1 ≤ (amt - n1) * T1) (hT : 0 < T1) : l2 ≤ L2 + slack := by
  by_contra hc
  have f1 : (amt - n1) * T1 = amt * T1 - n1 * T1 := Nat.sub_mul _ _ _
  have f2 : n1 * T1 ≤ amt * T1 := Nat.mul_le_mul_right _ h3
  have f3 : (T1 + L2 + slack + 1) * n1 ≤ amt * T1 := by
    have g1 : (L2 + slack + 1) * n1 ≤ l2 * n1 := Nat.mul_le_mul_right _ (by omega)
    have g2 : (T1 + L2 + slack + 1) * n1 = (L2 + slack + 1) * n1 + n1 * T1 := by ring
    omega
  have g1 : (T1 + L2 + slack + 1) * n1 * v ≤ amt * T1 * v := Nat.mul_le_mul_right _ f3
  have g2 : amt * v * T1 < (T1 + L2 + slack + 1) * u * T1 := Nat.mul_lt_mul_of_pos_right h1 hT
  have g3 : (T1 + L2 + slack + 1) * (T1 * u) ≤ (T1 + L2 + slack + 1) * (n1 * v) := Nat.mul_le_mul_left _ h2
  have g4 : (T1 + L2 + slack + 1) * n1 * v = (T1 + L2 + slack + 1) * (n1 * v) := by ring
  have g5 : (T1 + L2 + slack + 1) * u * T1 = (T1 + L2 + slack + 1) * (T1 * u) := by ring
  have g6 : amt * T1 * v = amt * v * T1 := by ring
  omega

end Dbc

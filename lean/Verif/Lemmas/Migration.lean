import Verif.Lemmas.Ops
import Verif.Lemmas.FeeMath

/-!
# Liquidity computed at migration against the amounts set aside
-/

namespace Dbc

theorem concentratedLiquidity_ok {b q p l : Nat} (h : concentratedLiquidity b q p = .ok l) :
    MIN_SQRT_PRICE < p ∧ p < MAX_SQRT_PRICE ∧ l ≤ u128Max ∧
    l * (MAX_SQRT_PRICE - p) ≤ b * p * MAX_SQRT_PRICE ∧ l * (p - MIN_SQRT_PRICE) ≤ q * 2 ^ 128 := by
  simp only [concentratedLiquidity, liqFromDeltaBase, liqFromDeltaQuote, bind_ok, safeSub_ok, safeMul_ok, safeDiv_ok,
    safeShl256_ok, castTo_ok] at h
  generalize 2 ^ 128 = K at *
  generalize MAX_SQRT_PRICE = M at *
  generalize MIN_SQRT_PRICE = m at *
  obtain ⟨lb, ⟨_, ⟨h1, d1⟩, _, ⟨_, d2⟩, _, ⟨_, d3⟩, h2, d4⟩, lq, ⟨_, ⟨h3, d5⟩, _, ⟨_, d6⟩, _, ⟨h4, d7⟩, h5, d8⟩, h⟩ := h
  subst d1 d2 d3 d4 d5 d6 d7 d8
  have e1 := Nat.div_mul_le_self (b * p * M) (M - p)
  have e2 := Nat.div_mul_le_self (q * K) (p - m)
  generalize b * p * M / (M - p) = x at *
  generalize q * K / (p - m) = y at *
  rw [ite_ok] at h
  refine ⟨by omega, by omega, ?_⟩
  rcases h with ⟨g, h⟩ | ⟨g, h⟩
  · rw [ok_inj] at h
    subst h
    exact ⟨h5, (Nat.mul_le_mul_right _ g.le).trans e1, e2⟩
  · rw [castTo_ok] at h
    obtain ⟨h6, rfl⟩ := h
    exact ⟨h6, e1, (Nat.mul_le_mul_right _ (by omega)).trans e2⟩

theorem divCeil_le_of {a b c : Nat} (h : a ≤ c * b) : divCeil a b ≤ c := by
  rcases Nat.eq_zero_or_pos b with rfl | hb
  · unfold divCeil; simp
  · rwa [divCeil_le_iff hb]

/-- The amounts needed for the liquidity computed from what is left are at most what is left. -/
theorem needs_le {h : Handler} {p b q pb pq pl l : Nat} (hl : liquidityDelta h p b q pb pq pl = .ok l) :
    (dammNeeds h p l pb pq pl).1 ≤ b ∧ (dammNeeds h p l pb pq pl).2 ≤ q := by
  cases h with
  | concentrated =>
    obtain ⟨h1, h2, _, h3, h4⟩ := concentratedLiquidity_ok hl
    refine ⟨divCeil_le_of ?_, divCeil_le_of h4⟩
    rw [← Nat.mul_assoc]; exact h3
  | compounding =>
    simp only [liquidityDelta, bind_ok, ok_inj] at hl
    obtain ⟨x, hx, y, hy, rfl⟩ := hl
    obtain ⟨_, _, rfl, _⟩ := mulDivU128_down.1 hx
    obtain ⟨_, _, rfl, _⟩ := mulDivU128_down.1 hy
    refine ⟨divCeil_le_of ?_, divCeil_le_of ?_⟩
    · exact (Nat.mul_le_mul_right _ (Nat.min_le_left _ _)).trans (Nat.div_mul_le_self _ _)
    · exact (Nat.mul_le_mul_right _ (Nat.min_le_right _ _)).trans (Nat.div_mul_le_self _ _)

theorem initialPrice {h : Handler} {p b q price liq dead : Nat}
    (hi : initialPoolInformation h p b q = .ok (price, liq, dead)) : h = .concentrated → price = p := by
  rintro rfl
  simp only [initialPoolInformation, bind_ok, ok_inj, Prod.mk.injEq] at hi
  obtain ⟨_, _, rfl, _⟩ := hi
  rfl

/-- The second position takes at most what the first one left. -/
theorem second_taken {h : Handler} {p b q b1 q1 price liq dead : Nat} {a : V2Args} {s : Position} {l2 : Nat} {rest : List DammPosition}
    (hi : initialPoolInformation h p b q = .ok (price, liq, dead))
    (hl : liquidityDelta h p b1 q1 a.poolBase a.poolQuote a.poolLiq = .ok l2)
    (hs : secondPosition h price a s l2 = .ok rest) : a.base2 ≤ b1 ∧ a.quote2 ≤ q1 := by
  have hn := needs_le hl
  have he : dammNeeds h price l2 a.poolBase a.poolQuote a.poolLiq = dammNeeds h p l2 a.poolBase a.poolQuote a.poolLiq := by
    cases h with
    | concentrated => rw [initialPrice hi rfl]
    | compounding => rfl
  simp only [secondPosition, bind_ok, req_ok, ite_ok, ok_inj] at hs
  rcases hs with ⟨_, _, _, _, ⟨h1, h2⟩, _⟩ | ⟨_, _, ⟨h1, h2⟩, _⟩
  · rw [he] at h1 h2
    exact ⟨h1.trans hn.1, h2.trans hn.2⟩
  · omega

/-- Initial liquidity of a compounding pool. -/
theorem compoundingInitial_ok {a b s l : Nat} (h : compoundingInitial a b = .ok (s, l)) :
    0 < a ∧ 0 < s ∧ l ≤ a * s ∧ l * s ≤ b * 2 ^ 128 := by
  simp only [compoundingInitial, bind_ok, safeShl256_ok, req_ok, safeMul_ok, ok_inj, Prod.mk.injEq] at h
  obtain ⟨_, ⟨hq, rfl⟩, _, ha, s1, h1, _, _, _, ⟨h2, _⟩, s2, h3, _, _, _, ⟨_, rfl⟩, rfl, rfl⟩ := h
  have hs1 : sqrtU256 (divCeil (b * 2 ^ 128) a) = some s1 := by
    split at h1
    · rename_i s hs; rw [ok_inj] at h1; rw [hs, h1]
    · cases h1
  have hs2 : sqrtU256 (b * 2 ^ 128 / a) = some s2 := by
    split at h3
    · rename_i s hs; rw [ok_inj] at h3; rw [hs, h3]
    · cases h3
  have hpos : 0 < a := by omega
  generalize b * 2 ^ 128 = q at *
  have hle : q / a ≤ u256Max := (Nat.div_le_self _ _).trans hq
  have hceil : divCeil q a ≤ u256Max := by
    refine le_trans ?_ hq
    rw [divCeil_le_iff hpos]
    exact Nat.le_mul_of_pos_right _ hpos
  obtain ⟨r1, e1, l1, g1⟩ := sqrtU256_ok hceil
  obtain ⟨r2, e2, l2, g2⟩ := sqrtU256_ok hle
  rw [hs1, Option.some.injEq] at e1
  rw [hs2, Option.some.injEq] at e2
  subst e1 e2
  have hs0 : 0 < s1 := lt_of_lt_of_le (by decide) h2
  have h12 : q / a ≤ divCeil q a ∧ divCeil q a ≤ q / a + 1 := by
    refine ⟨div_le_divCeil _ _ , ?_⟩
    rw [divCeil_le_iff hpos, Nat.add_mul, Nat.one_mul]
    have e := Nat.div_add_mod q a
    have := Nat.mod_lt q hpos
    rw [Nat.mul_comm a] at e
    omega
  have hle12 : s2 ≤ s1 := by
    by_contra hc
    have : (s1 + 1) * (s1 + 1) ≤ s2 * s2 := Nat.mul_le_mul (by omega) (by omega)
    omega
  refine ⟨hpos, hs0, ?_, ?_⟩
  · rw [Nat.mul_comm a]; exact Nat.mul_le_mul_right _ hle12
  · have key : s2 * s1 ≤ q / a := by
      rcases hle12.eq_or_lt with e | hlt
      · rw [e] at l2 ⊢; exact l2
      · have e1 : s2 * s1 + s1 ≤ s1 * s1 := by
          rw [← Nat.succ_mul]; exact Nat.mul_le_mul_right _ hlt
        omega
    calc s2 * a * s1 = s2 * s1 * a := by ring
      _ ≤ q / a * a := Nat.mul_le_mul_right _ key
      _ ≤ q := Nat.div_mul_le_self _ _

end Dbc

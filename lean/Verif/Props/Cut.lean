import Mathlib.Tactic.Linarith
import Mathlib.Tactic.Ring
import Verif.Props.NewPool

/-!
# The protocol's share at migration: C71

At migration the protocol keeps 0.2% of what was set aside for the new pool. This file shows what that costs the new pool: at
most 0.2% of its liquidity, and less than one unit of either token in its price.
-/

namespace Props
open Dbc Spec

theorem cut_le (x : Nat) : 500 * protocolCut x ≤ x := by unfold protocolCut; omega
theorem lt_cut (x : Nat) : x ≤ 500 * protocolCut x + 499 := by unfold protocolCut; omega

/-- The arithmetic of `C71_price`. -/
theorem cut_ratio {B Q b q : Nat} (hb : b + protocolCut B = B) (hq : q + protocolCut Q = Q) :
    499 * B ≤ 500 * b ∧ 499 * Q ≤ 500 * q ∧ 500 * (q * B) ≤ 500 * (Q * b) + 499 * B ∧
      500 * (Q * b) ≤ 500 * (q * B) + 499 * Q := by
  have b1 := cut_le B
  have b2 := lt_cut B
  have q1 := cut_le Q
  have q2 := lt_cut Q
  refine ⟨by omega, by omega, ?_, ?_⟩
  all_goals
    generalize protocolCut B = fb at *
    generalize protocolCut Q = fq at *
    have e1 : q * B = q * b + q * fb := by rw [← Nat.mul_add, hb]
    have e2 : Q * b = q * b + fq * b := by rw [← Nat.add_mul, hq]
    rw [e1, e2]
  · have : 500 * (q * fb) ≤ 500 * (fq * b) + 499 * B := by
      subst hb hq
      nlinarith [Nat.mul_le_mul_left (q + fq) b1, Nat.mul_le_mul_left (b + fb) q2]
    omega
  · have : 500 * (fq * b) ≤ 500 * (q * fb) + 499 * Q := by
      subst hb hq
      nlinarith [Nat.mul_le_mul_left (q + fq) b2, Nat.mul_le_mul_left (b + fb) q1]
    omega

/-- C71, price: what remains of the two amounts for a constant-product pool is at least 99.8% of each, and their ratio is that
of the amounts set aside up to less than one unit of quote (upwards) or of quote against the base set aside (downwards). -/
theorem C71_price {w w' : World} (h : Reachable w) {op : Op} (hop : isMigrate op = true) (hs : w.step op = .ok w')
    (hc : Compounds w.cfg) :
    ∃ base quote, base + w'.pool.protocolMigBaseFee = w.cfg.migrationBaseThreshold ∧
      quote + w'.pool.protocolMigQuoteFee = migrationQuote w ∧
      w'.led.migBase ≤ base ∧ w'.led.migQuote ≤ quote ∧
      499 * w.cfg.migrationBaseThreshold ≤ 500 * base ∧ 499 * migrationQuote w ≤ 500 * quote ∧
      500 * (quote * w.cfg.migrationBaseThreshold) ≤ 500 * (migrationQuote w * base) + 499 * w.cfg.migrationBaseThreshold ∧
      500 * (migrationQuote w * base) ≤ 500 * (quote * w.cfg.migrationBaseThreshold) + 499 * migrationQuote w := by
  obtain ⟨h1, h2, h3, -, -⟩ := C21_migration h hop hs
  obtain ⟨h3, h4⟩ := h3 hc
  have b1 := cut_le w.cfg.migrationBaseThreshold
  have q1 := cut_le (migrationQuote w)
  refine ⟨w.cfg.migrationBaseThreshold - w'.pool.protocolMigBaseFee, migrationQuote w - w'.pool.protocolMigQuoteFee,
    by omega, by omega, by omega, by omega, ?_⟩
  exact cut_ratio (by omega) (by omega)

/-- The arithmetic of `C71_liquidity` for a concentrated pool, with `D = p - pmin`, `N = pmax - p`, `P = p * pmax`. -/
theorem cut_concentrated {K P N D B T Q b q bf qf l lq lf L : Nat} (hN : 0 < N) (hD : 0 < D) (hb : b + bf = B)
    (hq : q + qf = Q) (hqf : 500 * qf ≤ Q) (hT : T ≤ B) (h1 : lq * N ≤ T * P) (h2 : Q * K < (lq + 1) * D)
    (h3 : bf * P ≤ lf * N) (h4 : lf * D ≤ qf * K) (hno : ¬((l + 1) * N ≤ b * P ∧ (l + 1) * D ≤ q * K))
    (hL : L * D ≤ Q * K) : 499 * L ≤ 500 * (l + 1) := by
  by_cases hc : (l + 1) * N ≤ b * P
  · have hno : q * K < (l + 1) * D := by
      by_contra hn
      exact hno ⟨hc, by omega⟩
    have h5 : 499 * Q ≤ 500 * q := by omega
    have h6 : 499 * L * D ≤ 500 * (l + 1) * D := by
      calc 499 * L * D = 499 * (L * D) := by ring
        _ ≤ 499 * (Q * K) := Nat.mul_le_mul_left _ hL
        _ = 499 * Q * K := by ring
        _ ≤ 500 * q * K := Nat.mul_le_mul_right _ h5
        _ = 500 * (q * K) := by ring
        _ ≤ 500 * ((l + 1) * D) := Nat.mul_le_mul_left _ hno.le
        _ = 500 * (l + 1) * D := by ring
    exact Nat.le_of_mul_le_mul_right h6 hD
  · have h5 : L < lq + 1 := Nat.lt_of_mul_lt_mul_right (a := D) (by omega)
    have h6 : lq < l + 1 + lf := by
      refine Nat.lt_of_mul_lt_mul_right (a := N) ?_
      have : lq * N ≤ B * P := h1.trans (Nat.mul_le_mul_right _ hT)
      rw [← hb, Nat.add_mul] at this
      rw [Nat.add_mul]
      omega
    have h7 : 500 * lf < lq + 1 := by
      refine Nat.lt_of_mul_lt_mul_right (a := D) ?_
      calc 500 * lf * D = 500 * (lf * D) := by ring
        _ ≤ 500 * (qf * K) := Nat.mul_le_mul_left _ h4
        _ = 500 * qf * K := by ring
        _ ≤ Q * K := Nat.mul_le_mul_right _ hqf
        _ < (lq + 1) * D := h2
    omega

/-- The arithmetic of `C71_liquidity` for a compounding pool. -/
theorem cut_compounding {K B Q b q s s' s2 L : Nat} (hs : 0 < s) (hb : 499 * B ≤ 500 * b) (hq : 499 * Q ≤ 500 * q)
    (h1 : L ≤ B * s) (h2 : L * s ≤ Q * K) (h3 : s' ≤ s2 + 1) (h4 : q * K ≤ b * (s' * s' + 2 * s')) :
    499 * L ≤ 500 * (s2 * b + 2 * b) := by
  have k1 : L * L ≤ B * (Q * K) := by
    refine Nat.le_of_mul_le_mul_right (c := s) ?_ hs
    calc L * L * s = L * (L * s) := by ring
      _ ≤ L * (Q * K) := Nat.mul_le_mul_left _ h2
      _ ≤ B * s * (Q * K) := Nat.mul_le_mul_right _ h1
      _ = B * (Q * K) * s := by ring
  have k2 : b * (s' * s' + 2 * s') ≤ b * ((s2 + 2) * (s2 + 2)) := by
    refine Nat.mul_le_mul_left _ ?_
    have := Nat.mul_le_mul h3 h3
    nlinarith
  have k3 : (499 * L) * (499 * L) ≤ (500 * (s2 * b + 2 * b)) * (500 * (s2 * b + 2 * b)) := by
    calc (499 * L) * (499 * L) = 499 * 499 * (L * L) := by ring
      _ ≤ 499 * 499 * (B * (Q * K)) := Nat.mul_le_mul_left _ k1
      _ = (499 * B) * (499 * Q) * K := by ring
      _ ≤ (500 * b) * (500 * q) * K := Nat.mul_le_mul_right _ (Nat.mul_le_mul hb hq)
      _ = 500 * 500 * b * (q * K) := by ring
      _ ≤ 500 * 500 * b * (b * ((s2 + 2) * (s2 + 2))) := Nat.mul_le_mul_left _ (h4.trans k2)
      _ = (500 * (s2 * b + 2 * b)) * (500 * (s2 * b + 2 * b)) := by ring
  exact Nat.mul_self_le_mul_self_iff.1 k3

/-- C71, liquidity: the liquidity distributed at a migration to DAMM v2 is at least 99.8% (up to one unit, or one part in
`2^31`) of what any pool made from all that was set aside could have: for a concentrated pool, any amount whose quote at the
migration price is covered; for a compounding one, any amount whose base and quote are covered at any price. -/
theorem C71_liquidity {w w' : World} {a : V2Args} (h : Reachable w) (hs : w.step (.migrateV2 a) = .ok w') :
    ∃ (np : NewPool) (price liq dead : Nat) (f : Side) (first : DammPosition),
      w'.newPool = some np ∧ opening np = some (price, (planned w.cfg liq f).total + dead) ∧
      w'.positions.head? = some first ∧ first.liquidity = (planned w.cfg liq f).total ∧
      (planned w.cfg liq f.other).total + (planned w.cfg liq f).total = liq ∧
      (¬Compounds w.cfg → price = w.cfg.migrationSqrtPrice ∧ dead = 0 ∧
        ∀ l, (concentratedNeeds price l).2 ≤ migrationQuote w → 499 * l ≤ 500 * (liq + 1)) ∧
      (Compounds w.cfg → dead = 100 * 2 ^ 64 ∧
        ∀ s l, 0 < s → Fits (compoundingNeeds s l) w.cfg.migrationBaseThreshold (migrationQuote w) →
          2 ^ 31 * (499 * l) ≤ (2 ^ 31 + 1) * (500 * (liq + dead))) := by
  obtain ⟨hd, m, burn, fee, price, liq, dead, pa, cr, first, second, liq2, out, rfl, h1, h2, h3, h4, hma, -, hi, hdist, hord,
      -, -, -, -, hl2, ⟨rest, t1, lock, hrest, ht1, hlock, -, hout, hcp, -⟩, -, -, -, -, e⟩ := migrateV2_ok hs
  obtain ⟨q1, q2, q3, -, q5⟩ := amounts_fees h h2 (by rw [h4]) hma
  obtain ⟨rfl, rfl, hsum⟩ := distribution_planned hdist
  obtain ⟨f, rfl, rfl, hle, hlt⟩ := order_planned hord
  have ht1' : t1 = (planned w.cfg liq f).total := total_ok ht1
  have hop : opening out.2 = some (price, t1 + dead) := by
    unfold createPoolV2 at hcp
    split at hcp
    · simp only [bind_ok, ok_inj] at hcp
      obtain ⟨_, -, _, -, eo⟩ := hcp
      rw [← eo]
      rfl
    · rw [ok_inj] at hcp
      rw [← hcp]
      rfl
  have hm := h.migCfg
  rw [e]
  refine ⟨out.2, price, liq, dead, f, ⟨ownerOf w f, t1, lock.1, lock.2⟩, rfl, by rw [← ht1']; exact hop, by rw [hout]; rfl,
    ht1', by cases f <;> simp only [Side.other] <;> omega, fun hc => ?_, fun hc => ?_⟩
  · have hh := (handler_eq h4).2 hc
    rw [hh] at hi
    obtain ⟨c0, c1, -, c3⟩ := C44_concentrated hi
    refine ⟨c0, c1, fun L hL => ?_⟩
    obtain ⟨fe, hfe, -, -, g1, g2, e1, e2, e3, -, -⟩ := migAmounts_ok hma
    have hb2 := h.solvent.base2 h2
    have hT : w.cfg.migrationBaseThreshold ≤ w.baseVault - fe := by
      unfold World.baseFees at hb2
      omega
    have hrs : migrationHandler w.cfg.migrationOption w.cfg.migratedFee.collectFeeMode = .concentrated := by rw [h4]; exact hh
    obtain ⟨lq, hlq, hlb⟩ := hm.concentrated hrs
    rw [hh] at g1 g2
    simp only [migrationAmounts2, bind_ok, Prod.exists, ok_inj, Prod.mk.injEq] at g1
    obtain ⟨_, _, -, gb, -⟩ := g1
    simp only [migrationProtocolFees, bind_ok, ok_inj, Prod.mk.injEq] at g2
    obtain ⟨qf, -, lf, hlf, bf, hbf, e5, e6⟩ := g2
    obtain ⟨d1, d2, -, d3, -⟩ := liqFromDeltaQuote_ok.1 hlq
    obtain ⟨-, -, -, d4, -⟩ := liqFromDeltaQuote_ok.1 hlf
    have hbf' : bf = lf * (MAX_SQRT_PRICE - w.cfg.migrationSqrtPrice) / (w.cfg.migrationSqrtPrice * MAX_SQRT_PRICE) := by
      simp only [deltaBase, bind_ok, req_ok, castTo_ok] at hbf
      obtain ⟨_, h1, _, _, _, rfl⟩ := hbf
      exact (deltaBase256_ok.1 h1).2.2.2.2
    have hp0 : 0 < w.cfg.migrationSqrtPrice := by omega
    have hM0 : 0 < MAX_SQRT_PRICE := by decide
    have hPM : 0 < w.cfg.migrationSqrtPrice * MAX_SQRT_PRICE := Nat.mul_pos hp0 hM0
    have hprice := hm.price
    rw [c0] at c3 hL
    unfold Fits concentratedNeeds at c3
    unfold concentratedNeeds at hL
    rw [ceilDiv_eq (by omega), ceilDiv_eq (by positivity)] at c3
    rw [ceilDiv_eq (by omega), ceilDiv_eq (by positivity)] at hL
    dsimp only at c3 hL
    rw [divCeil_le_iff hPM, divCeil_le_iff (by positivity)] at c3
    rw [divCeil_le_iff (by positivity)] at hL
    refine cut_concentrated (K := 2 ^ 128) (by omega) (by omega) (e1.trans gb.symm) q2 ?_ hT
      (by rw [← hlb]; exact le_divCeil_mul _ hPM) (lq := lq) (lf := lf) ?_ ?_ ?_ c3 hL
    · rw [q1]; exact (cut_le _)
    · rw [migrationQuote_eq, d3, Nat.add_mul, Nat.one_mul]; exact Nat.lt_div_mul_add (by omega)
    · rw [← e5, hbf']; exact Nat.div_mul_le_self _ _
    · rw [← e6, d4]; exact Nat.div_mul_le_self _ _
  · have hh := (handler_eq h4).1 hc
    obtain ⟨q3, q4⟩ := q3 hh
    rw [hh] at hi
    obtain ⟨-, -, hbig⟩ := C44_compounding hi
    simp only [initialPoolInformation, bind_ok, Prod.exists, safeSub_ok, ok_inj, Prod.mk.injEq] at hi
    obtain ⟨s', l', hsl, l0, ⟨hle, d1⟩, d0, d2, d3⟩ := hi
    refine ⟨d3.symm, fun s L hpos ⟨f1, f2⟩ => ?_⟩
    obtain ⟨s2, e, -, -, g2, g3, -, -⟩ := compoundingInitial_full hsl
    unfold compoundingNeeds at f1 f2
    dsimp only at f1 f2
    rw [ceilDiv_eq hpos.ne', divCeil_le_iff hpos] at f1
    rw [ceilDiv_eq (by positivity), divCeil_le_iff (by positivity)] at f2
    have hc1 := cut_le w.cfg.migrationBaseThreshold
    have hc2 := cut_le (migrationQuote w)
    have := cut_compounding (B := w.cfg.migrationBaseThreshold) (Q := migrationQuote w) hpos (by omega) (by omega) f1 f2 g2 g3
    have hll : liq + dead = s2 * m.exBase := by rw [← d2, ← d3, d1, Nat.sub_add_cancel hle, e]
    rw [hll] at hbig ⊢
    generalize s2 * m.exBase = X at *
    omega

/-- Configuration C with a threshold that is not a multiple of 500, and its completed pool. -/
def oddC : ConfigParams := { Ex.paramsC with migrationQuoteThreshold := 10000000000499 }
def readyOdd : World := Ex.after oddC Ex.completing
def v2Odd : V2Args := { Ex.v2C with base1 := 233906249900000, base2 := 155937499900000 }

theorem reachOdd : Reachable readyOdd :=
  ⟨_, _, ⟨oddC, Ex.env, Ex.initArgs 1, Ex.configOf oddC,
    by constructor <;> first | decide | (intro pre post h; cases h; done) | (intro q hq; revert q hq; decide),
    by decide +kernel, by decide +kernel⟩, Ex.exec_run (w := Ex.worldOf oddC) (ops := Ex.completing) (by decide +kernel)⟩

/-- The ratio of quote to base can rise: both shares round down, here the quote share by more. A test of the program
(`test_damm_v1_protocol_fee_rounding_avoid_price_increment`) states that it never does; `C71_price` bounds the rise. -/
theorem C71_price_can_rise : ∃ w', Reachable readyOdd ∧ Compounds readyOdd.cfg ∧
    readyOdd.step (.migrateV2 v2Odd) = .ok w' ∧
    migrationQuote readyOdd * (readyOdd.cfg.migrationBaseThreshold - w'.pool.protocolMigBaseFee) <
      (migrationQuote readyOdd - w'.pool.protocolMigQuoteFee) * readyOdd.cfg.migrationBaseThreshold := by
  refine ⟨(readyOdd.step (.migrateV2 v2Odd)).toOption.getD readyOdd, reachOdd, ?_⟩
  decide +kernel

/-- Each case of the theorems is met: a migration into DAMM v1 and one into each kind of DAMM v2 pool. -/
theorem C71_example :
    (∃ w', Reachable Ex.readyA ∧ Compounds Ex.readyA.cfg ∧ Ex.readyA.step (Ex.finishA[4]) = .ok w' ∧
      isMigrate (Ex.finishA[4]) = true) ∧
    (∃ w', Reachable Ex.readyB ∧ ¬Compounds Ex.readyB.cfg ∧ Ex.readyB.step (.migrateV2 Ex.v2B) = .ok w' ∧
      (concentratedNeeds Ex.readyB.cfg.migrationSqrtPrice 1000).2 ≤ migrationQuote Ex.readyB) ∧
    (∃ w', Reachable Ex.readyC ∧ Compounds Ex.readyC.cfg ∧ Ex.readyC.step (.migrateV2 Ex.v2C) = .ok w' ∧
      Fits (compoundingNeeds Ex.readyC.cfg.migrationSqrtPrice (1000 * 2 ^ 64)) Ex.readyC.cfg.migrationBaseThreshold
        (migrationQuote Ex.readyC)) := by
  refine ⟨⟨(Ex.readyA.step (Ex.finishA[4])).toOption.getD Ex.readyA, Ex.reachReadyA, ?_⟩,
    ⟨(Ex.readyB.step (.migrateV2 Ex.v2B)).toOption.getD Ex.readyB, Ex.reachCompleteB, ?_⟩,
    ⟨(Ex.readyC.step (.migrateV2 Ex.v2C)).toOption.getD Ex.readyC, Ex.reachCompleteC, ?_⟩⟩
  · decide +kernel
  · decide +kernel
  · unfold Fits
    decide +kernel

end Props

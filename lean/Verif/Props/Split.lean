import Verif.Props.Compare
import Verif.Props.Claims

/-!
# Splitting a trade, fees included: C42

`C42_split` (Props/Compare) is about the walk along the curve. Here the same is shown for whole swaps with their fees,
where the rate does not depend on the size and there is no volatility fee, and it is shown by example that both conditions
are needed.
-/

namespace Props
open Dbc Spec

/-- Fees rounded up make splitting no cheaper, even when the parts pay a higher rate. -/
theorem feeOnAmount_super {n1 n2 n m1 m2 m e1 e2 e : Nat} {ref : Bool} {f1 f2 f : FeeSplit} (hn1 : n ≤ n1)
    (hn2 : n ≤ n2) (hle : m1 + m2 ≤ m) (h1 : feeOnAmount n1 m1 ref = .ok (e1, f1))
    (h2 : feeOnAmount n2 m2 ref = .ok (e2, f2)) (h : feeOnAmount n m ref = .ok (e, f)) : e1 + e2 ≤ e := by
  obtain ⟨a1, a2, -⟩ := feeOnAmount_ok h1
  obtain ⟨b1, b2, -⟩ := feeOnAmount_ok h2
  obtain ⟨c1, c2, -⟩ := feeOnAmount_ok h
  have hD : 0 < FEE_DENOMINATOR := by decide
  have hb : f.sum ≤ f1.sum + f2.sum + (m - (m1 + m2)) := by
    rcases Nat.eq_zero_or_pos m with h0 | h0
    · rw [c2, h0, Nat.zero_mul, divCeil_zero _ hD]
      omega
    · have hnum : n ≤ FEE_DENOMINATOR := by
        have h3 := le_divCeil_mul (m * n) hD
        rw [← c2] at h3
        have h4 : f.sum * FEE_DENOMINATOR ≤ m * FEE_DENOMINATOR := Nat.mul_le_mul_right _ (by omega)
        exact Nat.le_of_mul_le_mul_left (h3.trans h4) h0
      rw [c2, divCeil_le_iff hD, Nat.add_mul, Nat.add_mul]
      have h3 := le_divCeil_mul (m1 * n1) hD
      have h4 := le_divCeil_mul (m2 * n2) hD
      rw [← a2] at h3
      rw [← b2] at h4
      have h5 : (m - (m1 + m2)) * n ≤ (m - (m1 + m2)) * FEE_DENOMINATOR := Nat.mul_le_mul_left _ hnum
      have h6 : m1 * n ≤ m1 * n1 := Nat.mul_le_mul_left _ hn1
      have h7 : m2 * n ≤ m2 * n2 := Nat.mul_le_mul_left _ hn2
      have h8 : m * n = m1 * n + m2 * n + (m - (m1 + m2)) * n := by
        rw [← Nat.add_mul, ← Nat.add_mul]; congr 1; omega
      omega
  omega

/-- The parts of an exact-in swap. -/
theorem exact_in_parts {c : PoolConfig} {p : Pool} {a : SwapArgs} {fm : FeeMode} {cur : Nat} {fst : Bool}
    {r : SwapResult} (hm : a.mode = 0) (h : processSwap c p a fm cur fst = .ok r) :
    ∃ num net f wk, numeratorIncluded c p cur a.amount0 a.dir fst = .ok num ∧
      (if fm.feesOnInput then feeOnAmount num a.amount0 fm.hasReferral else .ok (a.amount0, FeeSplit.zero)) = .ok (net, f) ∧
      walkIn c p a.dir net = .ok wk ∧ wk.left = 0 ∧ r.next = wk.next ∧
      ((fm.feesOnInput = true ∧ r.out = wk.out) ∨
        (fm.feesOnInput = false ∧ ∃ g, feeOnAmount num wk.out fm.hasReferral = .ok (r.out, g))) := by
  unfold processSwap at h
  simp only [hm, exactIn, bind_ok, req_ok, ok_inj, Prod.exists] at h
  obtain ⟨_, ⟨num, hnum, net, f, hnet, wk, hwk, _, hz, ao, fo, hout, rfl⟩, _, _, rfl⟩ := h
  refine ⟨num, net, f, wk, hnum, hnet, hwk, hz, rfl, ?_⟩
  cases hf : fm.feesOnInput with
  | true =>
    rw [hf, if_pos rfl, ok_inj, Prod.mk.injEq] at hout
    exact .inl ⟨rfl, hout.1.symm⟩
  | false =>
    rw [hf, if_neg (by simp)] at hout
    exact .inr ⟨rfl, _, hout⟩

/-- Without a volatility fee the rate is the base fee, at most the cap. -/
theorem totalFee_off {f : PoolFeesConfig} {v : VolTracker} {cur act m n : Nat} {d : TradeDirection}
    (h0 : f.dyn.initialized = 0) (h : totalFeeFromIncluded f v cur act m d = .ok n) :
    ∃ b, baseFeeFromIncluded f.base cur act d m = .ok b ∧ n = min b MAX_FEE_NUMERATOR := by
  simp only [totalFeeFromIncluded, bind_ok] at h
  obtain ⟨b, hb, hn⟩ := h
  have e := totalFee_ok hn
  unfold volatilityPart at e
  rw [if_pos h0, Nat.add_zero] at e
  exact ⟨b, hb, e⟩

/-- C42 with fees: an exact-in swap made in two parts in the same slot pays out no more than the same swap made at once,
whenever the rate does not depend on the size and there is no volatility fee. Either part may carry its own minimum, and
the single swap is assumed to get the first-swap discount if the first part does. -/
theorem C42_swap_split {w w1 w2 w3 : World} {a b s : SwapArgs} {x y z : Trade} (h : Reachable w)
    (hma : a.mode = 0) (hmb : b.mode = 0) (hms : s.mode = 0) (hflat : FlatRate w a)
    (hdyn : w.cfg.fees.dyn.initialized = 0) (hu : s.amount0 ≤ u64Max)
    (hsum : a.amount0 + b.amount0 = s.amount0) (hdir : b.dir = a.dir ∧ s.dir = a.dir)
    (hclk : b.clk = a.clk ∧ s.clk = a.clk) (href : b.referral = a.referral ∧ s.referral = a.referral)
    (hfirst : EligibleFirst w a → EligibleFirst w s)
    (h1 : w.step (.swap a) = .ok w1) (h2 : w1.step (.swap b) = .ok w2) (h3 : w.step (.swap s) = .ok w3)
    (o1 : Observed w w1 a.dir x) (o2 : Observed w1 w2 a.dir y) (o3 : Observed w w3 a.dir z) :
    x.got + y.got ≤ z.got := by
  rw [← firstMin_iff, ← firstMin_iff] at hfirst
  obtain ⟨ps, hc⟩ := h.core
  obtain ⟨p, env, hcfg⟩ : ∃ p env, createConfig p env = .ok w.cfg := by
    obtain ⟨p, env, _, hcfg⟩ := h.config
    exact ⟨p, env, hcfg⟩
  obtain ⟨floor, hfl, hmin, hlo, hhi⟩ := accepted_floor hcfg
  obtain ⟨cur, fm, r1, v1, _, s1⟩ := swap_ok h1
  obtain ⟨cur2, fm2, r2, v2, _, s2⟩ := swap_ok h2
  obtain ⟨cur3, fm3, r3, v3, _, s3⟩ := swap_ok h3
  have ecfg : w1.cfg = w.cfg := step_cfg h1
  have eact : w1.pool.activationPoint = w.pool.activationPoint := by rw [s1.poolFrame]
  have ec2 : cur2 = cur := by
    have q1 := s1.hcur; have q2 := s2.hcur
    rw [hclk.1, ecfg, q1, ok_inj] at q2; exact q2.symm
  have ec3 : cur3 = cur := by
    have q1 := s1.hcur; have q2 := s3.hcur
    rw [hclk.2, q1, ok_inj] at q2; exact q2.symm
  have ef2 : fm2 = fm := by
    have q1 := s1.hfm; have q2 := s2.hfm
    rw [hdir.1, href.1, ecfg, q1, ok_inj] at q2; exact q2.symm
  have ef3 : fm3 = fm := by
    have q1 := s1.hfm; have q2 := s3.hfm
    rw [hdir.2, href.2, q1, ok_inj] at q2; exact q2.symm
  rw [ec2, ef2] at s2
  rw [ec3, ef3] at s3
  have hb0 : w1.firstMin b = false := by
    unfold World.firstMin
    rw [s1.hasSwap]; simp
  have p1 := s1.proc
  have p2 := s2.proc
  have p3 := s3.proc
  rw [hb0, ecfg] at p2
  obtain ⟨n1, net1, f1, k1, a1, a2, a3, a4, a5, a6⟩ := exact_in_parts hma p1
  obtain ⟨n2, net2, f2, k2, b1, b2, b3, b4, b5, b6⟩ := exact_in_parts hmb p2
  obtain ⟨n3, net3, f3, k3, c1, c2, c3, c4, c5, c6⟩ := exact_in_parts hms p3
  rw [hdir.1] at b1 b3
  rw [hdir.2] at c1 c3
  -- the rate of the single swap is no higher than that of either part
  have fin : ∀ m v n, m ≤ u64Max →
      totalFeeFromIncluded w.cfg.fees v cur w.pool.activationPoint m a.dir = .ok n → floor ≤ n := by
    intro m v n hm hn
    obtain ⟨b', hb', e⟩ := totalFee_off hdyn hn
    have := hfl.included _ _ _ _ _ hm hb'
    have hmx : floor ≤ MAX_FEE_NUMERATOR := hhi
    omega
  have same : ∀ m m' v v' n n', totalFeeFromIncluded w.cfg.fees v cur w.pool.activationPoint m a.dir = .ok n →
      totalFeeFromIncluded w.cfg.fees v' cur w.pool.activationPoint m' a.dir = .ok n' → n' ≤ n := by
    intro m m' v v' n n' hn hn'
    obtain ⟨b', hb', e⟩ := totalFee_off hdyn hn
    obtain ⟨b'', hb'', e'⟩ := totalFee_off hdyn hn'
    rw [baseFee_flat_included hflat _ _ m m', hb'', ok_inj] at hb'
    omega
  have hn : n3 ≤ n1 ∧ n3 ≤ n2 := by
    unfold numeratorIncluded at a1 b1 c1
    rw [if_neg (by simp)] at b1
    dsimp only at a1 b1 c1
    rw [eact] at b1
    cases hfs : w.firstMin s with
    | true =>
      rw [hfs, if_pos rfl, hmin, ok_inj] at c1
      subst c1
      refine ⟨?_, fin _ _ _ (by omega) b1⟩
      cases hfa : w.firstMin a with
      | true =>
        rw [hfa, if_pos rfl, hmin, ok_inj] at a1
        omega
      | false =>
        rw [hfa, if_neg (by simp)] at a1
        exact fin _ _ _ (by omega) a1
    | false =>
      have hfa : w.firstMin a = false := by
        cases hfa : w.firstMin a with
        | true => rw [hfirst hfa] at hfs; exact hfs
        | false => rfl
      rw [hfs, if_neg (by simp)] at c1
      rw [hfa, if_neg (by simp)] at a1
      exact ⟨same _ _ _ _ _ _ a1 c1, same _ _ _ _ _ _ b1 c1⟩
  -- so at least as much of the input is traded
  have hnet : net1 + net2 ≤ net3 := by
    cases hf : fm.feesOnInput with
    | true =>
      rw [hf, if_pos rfl] at a2 b2 c2
      exact feeOnAmount_super hn.1 hn.2 hsum.le a2 b2 c2
    | false =>
      rw [hf, if_neg (by simp), ok_inj, Prod.mk.injEq] at a2 b2 c2
      omega
  have hnu : net3 ≤ u64Max := by
    cases hf : fm.feesOnInput with
    | true =>
      rw [hf, if_pos rfl] at c2
      have := (feeOnAmount_ok c2).1
      omega
    | false =>
      rw [hf, if_neg (by simp), ok_inj, Prod.mk.injEq] at c2
      omega
  -- and the walk along the curve gives at least as much
  have e1 : walkIn w.cfg (atPrice w w.pool.sqrtPrice) a.dir net1 = .ok k1 := by
    rw [← a3]; cases a.dir <;> rfl
  have e2 : walkIn w.cfg (atPrice w k1.next) a.dir net2 = .ok k2 := by
    have hx : w1.pool.sqrtPrice = k1.next := s1.price.trans a5
    rw [← b3, ← hx]; cases a.dir <;> rfl
  obtain ⟨k, ek, hk, -⟩ := C42_split h hc.lo hc.hi (hnet.trans hnu) e1 a4 e2
  have hk3 := (walkIn_mono hc.good (p := atPrice w w.pool.sqrtPrice) hc.lo hc.hi hnet ek
    (r' := k3) (by rw [← c3]; cases a.dir <;> rfl)).1
  have hgross : k1.out + k2.out ≤ k3.out := hk.trans hk3
  have hout : r1.out + r2.out ≤ r3.out := by
    rcases a6 with ⟨i1, i2⟩ | ⟨i1, g1, i2⟩ <;> rcases b6 with ⟨j1, j2⟩ | ⟨j1, g2, j2⟩ <;>
      rcases c6 with ⟨l1, l2⟩ | ⟨l1, g3, l2⟩
    · omega
    all_goals first
      | exact feeOnAmount_super hn.1 hn.2 hgross i2 j2 l2
      | (rw [i1] at j1; exact absurd j1 (by decide))
      | (rw [i1] at l1; exact absurd l1 (by decide))
  have q1 := o1.got (outToken a.dir)
  have q2 := (SwapStep.observed s1).got (outToken a.dir)
  have q3 := o2.got (outToken a.dir)
  have q4 := (SwapStep.observed s2).got (outToken a.dir)
  have q5 := o3.got (outToken a.dir)
  have q6 := (SwapStep.observed s3).got (outToken a.dir)
  rw [inTok_self] at q1 q3 q5
  rw [hdir.1] at q4
  rw [hdir.2] at q6
  unfold tradeOf at q2 q4 q6
  dsimp only at q2 q4 q6
  rw [inTok_self] at q2 q4 q6
  omega

/-! ### Concrete cases -/

/-- The base tokens received for a buy in two parts and for the same buy at once, as growth of what traders have received. -/
def splitOuts (w : World) (a b s : SwapArgs) : Res (Nat × Nat) := do
  let w1 ← w.step (.swap a)
  let w2 ← w1.step (.swap b)
  let w3 ← w.step (.swap s)
  .ok (traderOut w2 .base - traderOut w .base, traderOut w3 .base - traderOut w .base)

/-- A plain exact-in buy at a given time. -/
def plainBuy (t n : Nat) : SwapArgs := ⟨0, n, 0, .quoteToBase, false, ⟨100 + t, 1000000 + t⟩, Ex.txSwap⟩

/-- A buy in two parts that meets all conditions of `C42_swap_split` and is worse than the single buy because of
rounding. -/
theorem C42_swap_example : Reachable (Ex.worldOf Ex.paramsC) ∧ FlatRate (Ex.worldOf Ex.paramsC) (plainBuy 50 1000022) ∧
    (Ex.worldOf Ex.paramsC).cfg.fees.dyn.initialized = 0 ∧
    (EligibleFirst (Ex.worldOf Ex.paramsC) (plainBuy 50 1000022) →
      EligibleFirst (Ex.worldOf Ex.paramsC) (plainBuy 50 4000042)) ∧
    splitOuts (Ex.worldOf Ex.paramsC) (plainBuy 50 1000022) (plainBuy 50 3000020) (plainBuy 50 4000042) =
      .ok (584334014, 584334015) := by
  rw [← firstMin_iff, ← firstMin_iff]
  refine ⟨Ex.genesisC.reachable, .inl (by decide +kernel), ?_⟩
  decide +kernel

/-- Why the rate must not depend on the size: under a rate limiter two buys of 1 quote token together receive more than one
buy of 2 (the program therefore allows one such buy per transaction, C41). -/
theorem C42_limiter_rewards_splitting : Reachable (Ex.worldOf Ex.paramsB) ∧
    ¬ FlatRate (Ex.worldOf Ex.paramsB) (plainBuy 50 1000000000) ∧
    splitOuts (Ex.worldOf Ex.paramsB) (plainBuy 50 1000000000) (plainBuy 50 1000000000) (plainBuy 50 2000000000) =
      .ok (506751568881, 504192862727) := by
  refine ⟨Ex.genesisB.reachable, ?_, by decide +kernel⟩
  rintro (h | h)
  · exact h (by decide +kernel)
  · cases h

/-- Why there must be no volatility fee: a tiny buy first writes the faded volatility to the record, so the rest of the buy
pays a lower rate than the whole would have paid (C66). -/
theorem C42_volatility_rewards_splitting : Reachable Ex.tradingA ∧
    FlatRate Ex.tradingA (plainBuy 1300 1000) ∧ Ex.tradingA.cfg.fees.dyn.initialized = 1 ∧
    splitOuts Ex.tradingA (plainBuy 1300 1000) (plainBuy 1300 1000000000) (plainBuy 1300 1000001000) =
      .ok (176345285804, 176285403816) := by
  refine ⟨Ex.reachTradingA, .inl (by decide +kernel), ?_⟩
  decide +kernel

end Props

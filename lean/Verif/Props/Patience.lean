import Verif.Lemmas.Patience
import Verif.Props.Steady
import Verif.Props.Pieces

/-!
# Waiting never makes a trade worse: C86
-/

namespace Props
open Dbc Spec

/-! ### The fee rate falls with time -/

theorem totalFee_less {d : DynamicFeeConfig} {v v' : VolTracker} {b b' n : Nat} (hv : v'.volAcc = v.volAcc) (hb : b' ≤ b)
    (h : totalFee d v b = .ok n) : ∃ n', totalFee d v' b' = .ok n' ∧ n' ≤ n := by
  have e : variableFee d v' = variableFee d v := by
    unfold variableFee
    rw [hv]
  unfold totalFee at h ⊢
  rw [e]
  simp only [bind_ok, safeAdd_ok, ok_inj] at h
  obtain ⟨x, hx, _, ⟨h1, rfl⟩, rfl⟩ := h
  refine ⟨_, by rw [hx, ok_bind, safeAdd_eq (by omega), ok_bind], ?_⟩
  split <;> split <;> omega

theorem totalFee_same {d : DynamicFeeConfig} {v v' : VolTracker} (hv : v'.volAcc = v.volAcc) (b : Nat) :
    totalFee d v' b = totalFee d v b := by
  unfold totalFee variableFee
  rw [hv]

/-- The rates of two moments, the second not before the first: either they are the same, or the later one does not depend on
the size and is at most the earlier one. -/
structure SameRates (c : PoolConfig) (p p' : Pool) (cur cur' : Nat) (dir : TradeDirection) (fst : Bool) : Prop where
  incl : ∀ m, numeratorIncluded c p' cur' m dir fst = numeratorIncluded c p cur m dir fst
  excl : ∀ m, numeratorExcluded c p' cur' m dir fst = numeratorExcluded c p cur m dir fst

structure LowerRates (c : PoolConfig) (p p' : Pool) (cur cur' : Nat) (dir : TradeDirection) (fst : Bool) (k : Res Nat) :
    Prop where
  incl : ∀ m, numeratorIncluded c p' cur' m dir fst = k
  excl : ∀ m, numeratorExcluded c p' cur' m dir fst = k
  inclLess : ∀ m n, m ≤ u64Max → numeratorIncluded c p cur m dir fst = .ok n → ∃ n', k = .ok n' ∧ n' ≤ n
  exclLess : ∀ m n, numeratorExcluded c p cur m dir fst = .ok n → ∃ n', k = .ok n' ∧ n' ≤ n

theorem limiterApplied_before {b : BaseFeeConfig} {cur cur' act : Nat} {dir : TradeDirection} (h : cur ≤ cur')
    (ha : limiterApplied b cur' act dir = true) : limiterApplied b cur act dir = true := by
  unfold limiterApplied at ha ⊢
  split at ha
  · cases ha
  · next h0 =>
    rw [if_neg h0]
    split at ha
    · cases ha
    · next h1 =>
      rw [if_neg h1]
      split at ha
      · cases ha
      · rw [if_neg (by omega)]

theorem rates_later {q : ConfigParams} {env : ConfigEnv} {c : PoolConfig} (hacc : createConfig q env = .ok c) {p p' : Pool}
    (hact : p'.activationPoint = p.activationPoint) (hv : p'.vol.volAcc = p.vol.volAcc) {cur cur' : Nat} (hcur : cur ≤ cur')
    (dir : TradeDirection) (fst : Bool) :
    SameRates c p p' cur cur' dir fst ∨ ∃ k, LowerRates c p p' cur cur' dir fst k := by
  cases fst with
  | true =>
    left
    constructor <;> intro m <;> simp only [numeratorIncluded, numeratorExcluded, if_true]
  | false =>
    by_cases hm : c.fees.base.mode = 2
    · by_cases ha : limiterApplied c.fees.base cur' p.activationPoint dir = true
      · have ha' := limiterApplied_before hcur ha
        left
        constructor <;> intro m
        · simp only [numeratorIncluded, Bool.false_eq_true, if_false, totalFeeFromIncluded, baseFeeFromIncluded, hm, hact, ha,
            ha', if_true, totalFee_same hv]
        · simp only [numeratorExcluded, Bool.false_eq_true, if_false, totalFeeFromExcluded, baseFeeFromExcluded, hm, hact, ha,
            ha', if_true, totalFee_same hv]
      · right
        refine ⟨totalFee c.fees.dyn p'.vol c.fees.base.cliff, ?_, ?_, ?_, ?_⟩
        · intro m
          simp only [numeratorIncluded, Bool.false_eq_true, if_false, totalFeeFromIncluded, baseFeeFromIncluded, hm, hact, ha,
            ok_bind]
        · intro m
          simp only [numeratorExcluded, Bool.false_eq_true, if_false, totalFeeFromExcluded, baseFeeFromExcluded, hm, hact, ha,
            ok_bind]
        · intro m n hmu h
          simp only [numeratorIncluded, Bool.false_eq_true, if_false, totalFeeFromIncluded, baseFeeFromIncluded, hm,
            bind_ok] at h
          obtain ⟨b, hb, ht⟩ := h
          refine totalFee_less hv ?_ ht
          by_cases ha1 : limiterApplied c.fees.base cur p.activationPoint dir = true
          · rw [if_pos ha1] at hb
            rcases accepted_limiter hacc hm with ⟨hz, -⟩ | l
            · unfold limiterApplied at ha1
              rw [if_pos hz] at ha1
              cases ha1
            · exact limiterFromIncluded_ge l hmu hb
          · rw [if_neg ha1, ok_inj] at hb
            exact hb.le
        · intro m n h
          simp only [numeratorExcluded, Bool.false_eq_true, if_false, totalFeeFromExcluded, baseFeeFromExcluded, hm,
            bind_ok] at h
          obtain ⟨b, hb, ht⟩ := h
          refine totalFee_less hv ?_ ht
          by_cases ha1 : limiterApplied c.fees.base cur p.activationPoint dir = true
          · rw [if_pos ha1] at hb
            rcases accepted_limiter hacc hm with ⟨hz, -⟩ | l
            · unfold limiterApplied at ha1
              rw [if_pos hz] at ha1
              cases ha1
            · exact limiterFromExcluded_ge l hb
          · rw [if_neg ha1, ok_inj] at hb
            exact hb.le
    · have hm' : c.fees.base.mode = 0 ∨ c.fees.base.mode = 1 := by
        have := accepted_mode hacc
        omega
      have eI : ∀ cu act m, baseFeeFromIncluded c.fees.base cu act dir m = schedulerNumerator c.fees.base cu act := by
        intro cu act m
        rcases hm' with e | e <;> simp only [baseFeeFromIncluded, e]
      have eE : ∀ cu act m, baseFeeFromExcluded c.fees.base cu act dir m = schedulerNumerator c.fees.base cu act := by
        intro cu act m
        rcases hm' with e | e <;> simp only [baseFeeFromExcluded, e]
      have less : ∀ b, schedulerNumerator c.fees.base cur p.activationPoint = .ok b →
          ∃ b', schedulerNumerator c.fees.base cur' p.activationPoint = .ok b' ∧ b' ≤ b := by
        intro b hb
        by_cases hle : p.activationPoint ≤ cur
        · obtain ⟨fee, mn, k1, -, -, -, k2, -⟩ := schedule_core hacc hm' p.activationPoint
          have a1 := k1 (cur - p.activationPoint) dir 0
          have a2 := k1 (cur' - p.activationPoint) dir 0
          rw [eI, Nat.add_sub_cancel' hle] at a1
          rw [eI, Nat.add_sub_cancel' (by omega)] at a2
          rw [hb, ok_inj] at a1
          exact ⟨_, a2, by rw [a1]; exact k2 _ _ (by omega)⟩
        · unfold schedulerNumerator at hb ⊢
          by_cases h0 : c.fees.base.second = 0
          · rw [if_pos h0] at hb ⊢
            rw [ok_inj] at hb
            exact ⟨_, rfl, hb.le⟩
          · rw [if_neg h0] at hb
            simp only [bind_ok, safeSub_ok] at hb
            obtain ⟨_, ⟨h1, -⟩, -⟩ := hb
            exact absurd h1 hle
      right
      refine ⟨do let b ← schedulerNumerator c.fees.base cur' p.activationPoint; totalFee c.fees.dyn p'.vol b, ?_, ?_, ?_, ?_⟩
      · intro m
        simp only [numeratorIncluded, Bool.false_eq_true, if_false, totalFeeFromIncluded, eI, hact]
      · intro m
        simp only [numeratorExcluded, Bool.false_eq_true, if_false, totalFeeFromExcluded, eE, hact]
      · intro m n hmu h
        simp only [numeratorIncluded, Bool.false_eq_true, if_false, totalFeeFromIncluded, eI, bind_ok] at h
        obtain ⟨b, hb, ht⟩ := h
        obtain ⟨b', e1, e2⟩ := less b hb
        rw [e1, ok_bind]
        exact totalFee_less hv e2 ht
      · intro m n h
        simp only [numeratorExcluded, Bool.false_eq_true, if_false, totalFeeFromExcluded, eE, bind_ok] at h
        obtain ⟨b, hb, ht⟩ := h
        obtain ⟨b', e1, e2⟩ := less b hb
        rw [e1, ok_bind]
        exact totalFee_less hv e2 ht

/-! ### A lower rate takes less -/

theorem feeOnAmount_rate {n n' m ex ex' : Nat} {ref : Bool} {f f' : FeeSplit} (hn : n' ≤ n)
    (h : feeOnAmount n m ref = .ok (ex, f)) (h' : feeOnAmount n' m ref = .ok (ex', f')) : ex ≤ ex' ∧ f'.sum ≤ f.sum := by
  obtain ⟨e1, e2, -⟩ := feeOnAmount_ok h
  obtain ⟨e1', e2', -⟩ := feeOnAmount_ok h'
  have : f'.sum ≤ f.sum := by
    rw [e2, e2']
    exact divCeil_mono (by decide) (Nat.mul_le_mul_left _ hn)
  omega

theorem divCeil_anti {a b b' : Nat} (hb : 0 < b) (h : b ≤ b') : divCeil a b' ≤ divCeil a b := by
  rw [divCeil_le_iff (by omega)]
  exact (le_divCeil_mul a hb).trans (Nat.mul_le_mul_left _ h)

theorem includedFee_rate {n n' m inc f : Nat} (hn : n' ≤ n) (h : includedFeeAmount n m = .ok (inc, f)) :
    ∃ inc' f', includedFeeAmount n' m = .ok (inc', f') ∧ inc' ≤ inc ∧ f' ≤ f := by
  obtain ⟨a1, a2, a3, a4, a5⟩ := includedFeeAmount_ok h
  have := divCeil_anti (a := m * FEE_DENOMINATOR) (b := FEE_DENOMINATOR - n) (b' := FEE_DENOMINATOR - n') (by omega) (by omega)
  have e := includedFeeAmount_total' (num := n') (ex := m) (by omega) (by omega) (by omega)
  exact ⟨_, _, e, by omega, by omega⟩

/-! ### What the two kinds of offer and an exact-output swap charge -/

theorem offer_parts {c : PoolConfig} {p : Pool} {a : SwapArgs} {fm : FeeMode} {cur : Nat} {fst : Bool} {r : SwapResult}
    (hm : a.mode ≤ 1) (h : processSwap c p a fm cur fst = .ok r) :
    ∃ num net f wk, numeratorIncluded c p cur a.amount0 a.dir fst = .ok num ∧ a.amount1 ≤ r.out ∧
      walkIn c p a.dir net = .ok wk ∧ r.excludedIn = net - wk.left ∧
      ((fm.feesOnInput = true ∧ r.out = wk.out ∧ feeOnAmount num a.amount0 fm.hasReferral = .ok (net, f) ∧
          ((wk.left = 0 ∧ r.includedIn = a.amount0 ∧ r.fee = f) ∨
            (wk.left ≠ 0 ∧ ∃ num' g, numeratorExcluded c p cur r.excludedIn a.dir fst = .ok num' ∧
              includedFeeAmount num' r.excludedIn = .ok (r.includedIn, g) ∧ splitFees g fm.hasReferral = .ok r.fee))) ∨
        (fm.feesOnInput = false ∧ net = a.amount0 ∧ r.includedIn = r.excludedIn ∧
          feeOnAmount num wk.out fm.hasReferral = .ok (r.out, r.fee))) := by
  unfold processSwap at h
  have h01 : a.mode = 0 ∨ a.mode = 1 := by omega
  rcases h01 with e | e
  · simp only [e, exactIn, bind_ok, req_ok, ok_inj, Prod.exists] at h
    obtain ⟨_, ⟨num, hnum, net, f, hnet, wk, hwk, _, hl, ao, fo, hout, rfl⟩, _, hmin, rfl⟩ := h
    refine ⟨num, net, f, wk, hnum, hmin, hwk, by dsimp only; omega, ?_⟩
    cases hf : fm.feesOnInput with
    | true =>
      rw [hf, if_pos rfl] at hnet hout
      rw [ok_inj, Prod.mk.injEq] at hout
      exact .inl ⟨rfl, hout.1.symm, hnet, .inl ⟨hl, rfl, hout.2.symm⟩⟩
    | false =>
      rw [hf, if_neg Bool.false_ne_true] at hnet hout
      rw [ok_inj, Prod.mk.injEq] at hnet
      exact .inr ⟨rfl, hnet.1.symm, hnet.1, hout⟩
  · simp only [e, partialIn, bind_ok, req_ok, ok_inj, Prod.exists] at h
    obtain ⟨_, ⟨num, hnum, net, f, hnet, wk, hwk, inc, ai, inf, hmid, ao, fo, hout, rfl⟩, _, hmin, rfl⟩ := h
    refine ⟨num, net, f, wk, hnum, hmin, hwk, ?_⟩
    by_cases hl : wk.left = 0
    · rw [if_neg (by simpa using hl), ok_inj, Prod.mk.injEq, Prod.mk.injEq] at hmid
      obtain ⟨rfl, rfl, rfl⟩ := hmid
      refine ⟨by dsimp only; omega, ?_⟩
      cases hf : fm.feesOnInput with
      | true =>
        rw [hf, if_pos rfl] at hnet hout
        rw [ok_inj, Prod.mk.injEq] at hout
        exact .inl ⟨rfl, hout.1.symm, hnet, .inl ⟨hl, rfl, hout.2.symm⟩⟩
      | false =>
        rw [hf, if_neg Bool.false_ne_true] at hnet hout
        rw [ok_inj, Prod.mk.injEq] at hnet
        exact .inr ⟨rfl, hnet.1.symm, hnet.1, hout⟩
    · rw [if_pos hl] at hmid
      simp only [bind_ok, safeSub_ok] at hmid
      obtain ⟨_, ⟨hle, rfl⟩, hmid⟩ := hmid
      cases hf : fm.feesOnInput with
      | true =>
        rw [hf, if_pos rfl] at hnet hout hmid
        simp only [bind_ok, ok_inj, Prod.exists, Prod.mk.injEq] at hmid hout
        obtain ⟨num', hn', i, g, hi, sp, hsp, rfl, rfl, rfl⟩ := hmid
        refine ⟨rfl, .inl ⟨rfl, hout.1.symm, hnet, .inr ⟨hl, num', g, hn', hi, ?_⟩⟩⟩
        rw [← hout.2]; exact hsp
      | false =>
        rw [hf, if_neg Bool.false_ne_true] at hnet hout hmid
        simp only [ok_inj, Prod.mk.injEq] at hmid hnet
        obtain ⟨rfl, rfl, rfl⟩ := hmid
        exact ⟨rfl, .inr ⟨rfl, hnet.1.symm, rfl, hout⟩⟩

theorem demand_parts {c : PoolConfig} {p : Pool} {a : SwapArgs} {fm : FeeMode} {cur : Nat} {fst : Bool} {r : SwapResult}
    (hm : a.mode = 2) (h : processSwap c p a fm cur fst = .ok r) :
    ∃ gross wk g num, walkOut c p a.dir gross = .ok wk ∧ wk.next ≤ c.migrationSqrtPrice ∧ r.out = a.amount0 ∧
      r.includedIn ≤ a.amount1 ∧ r.excludedIn = wk.amountIn ∧ splitFees g fm.hasReferral = .ok r.fee ∧
      ((fm.feesOnInput = true ∧ gross = a.amount0 ∧ numeratorExcluded c p cur wk.amountIn a.dir fst = .ok num ∧
          includedFeeAmount num wk.amountIn = .ok (r.includedIn, g)) ∨
        (fm.feesOnInput = false ∧ r.includedIn = wk.amountIn ∧ numeratorExcluded c p cur a.amount0 a.dir fst = .ok num ∧
          includedFeeAmount num a.amount0 = .ok (gross, g))) := by
  unfold processSwap at h
  simp only [hm, exactOut, bind_ok, req_ok, ok_inj, Prod.exists] at h
  obtain ⟨_, ⟨gross, f, hg, wk, hwk, _, hle, inc, f', hi, rfl⟩, _, hmax, rfl⟩ := h
  cases hf : fm.feesOnInput with
  | true =>
    rw [hf, if_pos rfl] at hg hi
    simp only [bind_ok, ok_inj, Prod.exists, Prod.mk.injEq] at hg hi
    obtain ⟨num, hn, i, g, hinc, s, hs, rfl, rfl⟩ := hi
    exact ⟨gross, wk, g, num, hwk, hle, rfl, hmax, rfl, hs, .inl ⟨rfl, hg.1.symm, hn, hinc⟩⟩
  | false =>
    rw [hf, if_neg (by simp)] at hg hi
    simp only [bind_ok, ok_inj, Prod.exists, Prod.mk.injEq] at hg hi
    obtain ⟨num, hn, i, g, hinc, s, hs, rfl, rfl⟩ := hg
    refine ⟨i, wk, g, num, hwk, hle, rfl, hmax, rfl, ?_, .inr ⟨rfl, hi.1.symm, hn, hinc⟩⟩
    rw [← hi.2]; exact hs

/-- A buy with more to spend. -/
theorem walkIn_spent {c : PoolConfig} {ps : List Point} (hg : Good c ps) {p : Pool} (h1 : c.sqrtStartPrice ≤ p.sqrtPrice)
    {x x' : Nat} {r r' : FromInput} (hle : x ≤ x')
    (h : walkIn c p .quoteToBase x = .ok r) (h' : walkIn c p .quoteToBase x' = .ok r') :
    x + r'.left ≤ x' + r.left ∧ (r.left ≠ 0 → x + r'.left = x' + r.left) := by
  simp only [walkIn, buyIn_loop hg.curve] at h h'
  exact buyInLoop_spent hg.curve.proper h1 hle h h'

/-! ### The same swap at two moments -/

/-- The two pools are at the same price, belong to the same configuration, and are asked the same. -/
structure Twice (w : World) (a a' : SwapArgs) (v v' : VolTracker) (cur cur' : Nat) : Prop where
  amount0 : a'.amount0 = a.amount0
  dir : a'.dir = a.dir
  vol : v'.volAcc = v.volAcc
  later : cur ≤ cur'

theorem offer_later {w : World} (h : Reachable w) {a a' : SwapArgs} {v v' : VolTracker} {cur cur' : Nat} {fm : FeeMode}
    {fst : Bool} {r r' : SwapResult} (t : Twice w a a' v v' cur cur') (hu : a.amount0 ≤ u64Max) (hm : a.mode ≤ 1) (hm' : a'.mode ≤ 1)
    (hbuy : fm.feesOnInput = true → a.dir = .quoteToBase)
    (hr : processSwap w.cfg { w.pool with vol := v } a fm cur fst = .ok r)
    (hr' : processSwap w.cfg { w.pool with vol := v' } a' fm cur' fst = .ok r') :
    r.out ≤ r'.out ∧ r'.includedIn ≤ r.includedIn ∧ r'.fee.sum ≤ r.fee.sum := by
  obtain ⟨ps, hc⟩ := h.core
  obtain ⟨q, env, -, hacc⟩ := h.config
  obtain ⟨num, net, f, wk, n1, n2, n3, n4, n5⟩ := offer_parts hm hr
  obtain ⟨num', net', f', wk', m1, m2, m3, m4, m5⟩ := offer_parts hm' hr'
  rw [t.amount0, t.dir] at m1 m5
  rw [t.dir] at m3
  have m3' : walkIn w.cfg { w.pool with vol := v } a.dir net' = .ok wk' := m3
  have l1 := (walkIn_ok (p := { w.pool with vol := v }) hc.good.curve hc.lo hc.hi n3).1
  have l2 := (walkIn_ok (p := { w.pool with vol := v }) hc.good.curve hc.lo hc.hi m3').1
  -- the two rates, and the rates on what a partial fill takes
  have hrate : num' ≤ num ∧ (∀ e k k', numeratorExcluded w.cfg { w.pool with vol := v } cur e a.dir fst = .ok k →
      numeratorExcluded w.cfg { w.pool with vol := v' } cur' e a.dir fst = .ok k' → k' ≤ k) ∧
      (num' = num ∨ ∀ e k', numeratorExcluded w.cfg { w.pool with vol := v' } cur' e a.dir fst = .ok k' → k' = num') := by
    rcases rates_later (p := { w.pool with vol := v }) (p' := { w.pool with vol := v' }) hacc rfl t.vol t.later a.dir fst with
      s | ⟨k, s⟩
    · rw [s.incl, n1, ok_inj] at m1
      refine ⟨m1.ge, fun e k k' h1 h2 => ?_, .inl m1.symm⟩
      rw [s.excl, h1, ok_inj] at h2
      exact h2.ge
    · rw [s.incl] at m1
      refine ⟨?_, fun e k0 k' h1 h2 => ?_, .inr fun e k' h2 => ?_⟩
      · obtain ⟨n', e1, e2⟩ := s.inclLess _ _ hu n1
        rw [m1, ok_inj] at e1
        omega
      · obtain ⟨n', e1, e2⟩ := s.exclLess _ _ h1
        rw [s.excl, e1, ok_inj] at h2
        omega
      · rw [s.excl, m1, ok_inj] at h2
        exact h2.symm
  obtain ⟨hnum, hexc, hfree⟩ := hrate
  rcases n5 with ⟨hf, a1, a2, a3⟩ | ⟨hf, a1, a2, a3⟩
  · rcases m5 with ⟨-, b1, b2, b3⟩ | ⟨hf', -⟩
    swap
    · rw [hf] at hf'; cases hf'
    have hd := hbuy hf
    rw [hd] at n3 m3'
    obtain ⟨k1, k2⟩ := feeOnAmount_rate hnum a2 b2
    obtain ⟨o1, -, o2⟩ := walkIn_mono (p := { w.pool with vol := v }) hc.good hc.lo hc.hi k1 n3 m3'
    obtain ⟨s1, s2⟩ := walkIn_spent (p := { w.pool with vol := v }) hc.good hc.lo k1 n3 m3'
    have e2 := (feeOnAmount_ok a2).1
    have e2' := (feeOnAmount_ok b2).1
    refine ⟨by omega, ?_⟩
    rcases a3 with ⟨c1, c2, c3⟩ | ⟨c1, x, g, c2, c3, c4⟩
    · rcases b3 with ⟨d1, d2, d3⟩ | ⟨d1, x', g', d2, d3, d4⟩
      · rw [c3, d3]
        omega
      · have z := (splitFees_ok d4).1
        have y := (includedFeeAmount_ok d3).2.2.2.1
        rcases hfree with e | e
        · -- the same rate: the earlier swap would have been a partial fill too
          subst e
          rw [a2, ok_inj, Prod.mk.injEq] at b2
          obtain ⟨rfl, rfl⟩ := b2
          rw [n3, ok_inj] at m3'
          rw [m3'] at c1
          exact absurd c1 d1
        · rw [e _ _ d2] at d3
          have := includedFee_le b2 (by omega) d3
          rw [c3]
          omega
    · rcases b3 with ⟨d1, d2, d3⟩ | ⟨d1, x', g', d2, d3, d4⟩
      · omega
      · have ee : r'.excludedIn = r.excludedIn := by have := s2 c1; omega
        rw [ee] at d2 d3
        obtain ⟨i, j, q1, q2, q3⟩ := includedFee_rate (hexc _ _ _ c2 d2) c3
        rw [q1, ok_inj, Prod.mk.injEq] at d3
        have z := (splitFees_ok c4).1
        have z' := (splitFees_ok d4).1
        omega
  · rcases m5 with ⟨hf', -⟩ | ⟨-, b1, b2, b3⟩
    · rw [hf] at hf'; cases hf'
    subst a1 b1
    rw [n3, ok_inj] at m3'
    subst m3'
    obtain ⟨k1, k2⟩ := feeOnAmount_rate hnum a3 b3
    omega

theorem demand_later {w : World} (h : Reachable w) {a a' : SwapArgs} {v v' : VolTracker} {cur cur' : Nat} {fm : FeeMode}
    {fst : Bool} {r : SwapResult} (t : Twice w a a' v v' cur cur') (hm : a.mode = 2) (hm' : a'.mode = 2)
    (hmax : a'.amount1 = a.amount1) (hin : r.includedIn ≤ u64Max)
    (hr : processSwap w.cfg { w.pool with vol := v } a fm cur fst = .ok r) :
    ∃ r', processSwap w.cfg { w.pool with vol := v' } a' fm cur' fst = .ok r' ∧
      r'.out = r.out ∧ r'.includedIn ≤ r.includedIn ∧ r'.fee.sum ≤ r.fee.sum ∧ r'.fee.protocol ≤ r.fee.protocol ∧
      r'.fee.trading ≤ r.fee.trading := by
  obtain ⟨ps, hc⟩ := h.core
  obtain ⟨q, env, -, hacc⟩ := h.config
  obtain ⟨gross, wk, g, num, n1, n2, n3, n4, n5, n6, n7⟩ := demand_parts hm hr
  have hrate : ∀ e k, numeratorExcluded w.cfg { w.pool with vol := v } cur e a.dir fst = .ok k →
      ∃ k', numeratorExcluded w.cfg { w.pool with vol := v' } cur' e a.dir fst = .ok k' ∧ k' ≤ k := by
    intro e k hk
    rcases rates_later (p := { w.pool with vol := v }) (p' := { w.pool with vol := v' }) hacc rfl t.vol t.later a.dir fst with
      s | ⟨k0, s⟩
    · exact ⟨k, by rw [s.excl]; exact hk, le_rfl⟩
    · obtain ⟨n', e1, e2⟩ := s.exclLess _ _ hk
      exact ⟨n', by rw [s.excl]; exact e1, e2⟩
  have z := (splitFees_ok n6).1
  rcases n7 with ⟨hf, a1, a2, a3⟩ | ⟨hf, a1, a2, a3⟩
  · obtain ⟨num', b1, b2⟩ := hrate _ _ a2
    obtain ⟨inc, g', q1, q2, q3⟩ := includedFee_rate b2 a3
    have y := includedFeeAmount_ok q1
    obtain ⟨s, hs⟩ := splitFees_some (fee := g') fm.hasReferral (by omega)
    have z' := (splitFees_ok hs).1
    have q4 := splitFees_mono n6 hs q3
    refine ⟨⟨inc, wk.amountIn, 0, a.amount0, wk.next, s⟩, ?_, n3.symm, q2, by dsimp only; omega, q4.1, q4.2⟩
    subst a1
    have n1' : walkOut w.cfg { w.pool with vol := v' } a.dir a.amount0 = .ok wk := n1
    have hx : exactOut w.cfg { w.pool with vol := v' } a.amount0 fm a.dir cur' fst =
        .ok ⟨inc, wk.amountIn, 0, a.amount0, wk.next, s⟩ := by
      unfold exactOut
      rw [hf, if_pos rfl, ok_bind]
      dsimp only
      rw [n1', ok_bind, (req_ok (u := ())).2 n2, ok_bind, if_pos rfl, b1, ok_bind, q1, ok_bind]
      dsimp only
      rw [hs, ok_bind, ok_bind]
    unfold processSwap
    rw [hm', t.amount0, hmax, t.dir]
    simp only [bind_ok, req_ok, ok_inj]
    exact ⟨_, hx, (), by dsimp only; omega, rfl⟩
  · obtain ⟨num', b1, b2⟩ := hrate _ _ a2
    obtain ⟨gross', g', q1, q2, q3⟩ := includedFee_rate b2 a3
    have y := includedFeeAmount_ok q1
    obtain ⟨s, hs⟩ := splitFees_some (fee := g') fm.hasReferral (by omega)
    have z' := (splitFees_ok hs).1
    have q4 := splitFees_mono n6 hs q3
    obtain ⟨wk', e1, e2⟩ := walkOut_less (p := { w.pool with vol := v }) hc.good hc.lo hc.hi n1 q2 (by omega) (by omega)
    have e3 : wk'.next ≤ w.cfg.migrationSqrtPrice := by
      have k := (walkOut_mono (p := { w.pool with vol := v }) hc.good hc.lo hc.hi q2 e1 n1).2
      cases hd : a.dir with
      | quoteToBase =>
        rw [hd] at k
        exact k.trans n2
      | baseToQuote =>
        rw [hd] at e1
        simp only [walkOut, sellOut_down hc.good.curve hc.hi] at e1
        exact ((sellDownOut_grow (downs_ok hc.good.curve.proper) hc.lo e1).1).trans hc.hi
    have e1' : walkOut w.cfg { w.pool with vol := v' } a.dir gross' = .ok wk' := e1
    refine ⟨⟨wk'.amountIn, wk'.amountIn, 0, a.amount0, wk'.next, s⟩, ?_, n3.symm, by dsimp only; omega, by dsimp only; omega,
      q4.1, q4.2⟩
    have hx : exactOut w.cfg { w.pool with vol := v' } a.amount0 fm a.dir cur' fst =
        .ok ⟨wk'.amountIn, wk'.amountIn, 0, a.amount0, wk'.next, s⟩ := by
      unfold exactOut
      rw [hf, if_neg Bool.false_ne_true, b1, ok_bind, q1, ok_bind]
      dsimp only
      rw [hs, ok_bind, ok_bind]
      dsimp only
      rw [e1', ok_bind, (req_ok (u := ())).2 e3, ok_bind, if_neg Bool.false_ne_true, ok_bind]
    unfold processSwap
    rw [hm', t.amount0, hmax, t.dir]
    simp only [bind_ok, req_ok, ok_inj]
    exact ⟨_, hx, (), by dsimp only; omega, rfl⟩

theorem numerator_max {w : World} (h : Reachable w) {p : Pool} {cur m num : Nat} {dir : TradeDirection} {fst : Bool}
    (hn : numeratorIncluded w.cfg p cur m dir fst = .ok num) : num ≤ MAX_FEE_NUMERATOR := by
  obtain ⟨q, env, -, hacc⟩ := h.config
  unfold numeratorIncluded at hn
  rw [ite_ok] at hn
  rcases hn with ⟨_, hn⟩ | ⟨_, hn⟩
  · obtain ⟨floor, -, e, -, hle⟩ := accepted_floor hacc
    rw [e, ok_inj] at hn
    have : floor ≤ MAX_FEE_NUMERATOR := hle
    omega
  · unfold totalFeeFromIncluded totalFee at hn
    simp only [bind_ok, ok_inj] at hn
    obtain ⟨b, -, v, -, t, -, rfl⟩ := hn
    split <;> omega

theorem offer_split {c : PoolConfig} {p : Pool} {a : SwapArgs} {fm : FeeMode} {cur : Nat} {fst : Bool} {r : SwapResult}
    (hm : a.mode ≤ 1) (h : processSwap c p a fm cur fst = .ok r) : splitFees r.fee.sum fm.hasReferral = .ok r.fee := by
  obtain ⟨num, net, f, wk, -, -, -, -, ⟨-, -, k, ⟨-, -, e⟩ | ⟨-, _, g, -, -, e⟩⟩ | ⟨-, -, -, k⟩⟩ := offer_parts hm h
  · rw [e]; exact (feeOnAmount_ok k).2.2
  · rw [(splitFees_ok e).1]; exact e
  · exact (feeOnAmount_ok k).2.2

/-- What was offered can still be offered later, at least as a partial fill. -/
theorem offer_stays {w : World} (h : Reachable w) {a a' : SwapArgs} {v v' : VolTracker} {cur cur' : Nat} {fm : FeeMode}
    {fst : Bool} {r : SwapResult} (t : Twice w a a' v v' cur cur') (hu : a.amount0 ≤ u64Max) (hm : a.mode ≤ 1)
    (hm' : a'.mode = 1) (hmin : a'.amount1 = a.amount1) (hbuy : fm.feesOnInput = true → a.dir = .quoteToBase)
    (hr : processSwap w.cfg { w.pool with vol := v } a fm cur fst = .ok r) :
    ∃ r', processSwap w.cfg { w.pool with vol := v' } a' fm cur' fst = .ok r' ∧
      r.out ≤ r'.out ∧ r'.includedIn ≤ r.includedIn ∧ r'.fee.sum ≤ r.fee.sum ∧ r'.fee.protocol ≤ r.fee.protocol ∧
      r'.fee.trading ≤ r.fee.trading := by
  obtain ⟨ps, hc⟩ := h.core
  obtain ⟨q, env, -, hacc⟩ := h.config
  obtain ⟨num, -, -, -, n1, n2, -⟩ := offer_parts hm hr
  have hx : ∃ r', partialIn w.cfg { w.pool with vol := v' } a.amount0 fm a.dir cur' fst = .ok r' := by
    rcases rates_later (p := { w.pool with vol := v }) (p' := { w.pool with vol := v' }) hacc rfl t.vol t.later a.dir fst with
      s | ⟨k, s⟩
    · have hp : ∃ r', partialIn w.cfg { w.pool with vol := v } a.amount0 fm a.dir cur fst = .ok r' := by
        unfold processSwap at hr
        have h01 : a.mode = 0 ∨ a.mode = 1 := by omega
        rcases h01 with e | e
        · simp only [e, bind_ok, req_ok, ok_inj] at hr
          obtain ⟨r0, hr, -⟩ := hr
          exact ⟨r0, partial_of_exactIn hr⟩
        · simp only [e, bind_ok, req_ok, ok_inj] at hr
          obtain ⟨r0, hr, -⟩ := hr
          exact ⟨r0, hr⟩
      obtain ⟨r', hp⟩ := hp
      refine ⟨r', ?_⟩
      have n3 : ∀ m, walkIn w.cfg { w.pool with vol := v' } a.dir m = walkIn w.cfg { w.pool with vol := v } a.dir m :=
        fun _ => rfl
      rw [← hp]
      unfold partialIn
      simp only [s.incl, s.excl, n3]
    · obtain ⟨n', e1, e2⟩ := s.inclLess _ _ hu n1
      have hn' : n' ≤ MAX_FEE_NUMERATOR := e2.trans (numerator_max h n1)
      have hM : MAX_FEE_NUMERATOR < FEE_DENOMINATOR := by decide
      obtain ⟨r', k1, -⟩ := partialIn_total (p := { w.pool with vol := v' }) hc.good hc.lo hc.hi hu hn' le_rfl fm
        (by rw [s.incl]; exact e1)
        (fun net f hfee m hm => by
          obtain ⟨inc, g, q1, q2⟩ := includedFee_total hfee (lt_of_le_of_lt hn' hM) hu hm.le
          exact ⟨n', inc, g, by rw [s.excl]; exact e1, q1, q2⟩)
        (fun y wk hwk => walkIn_fits h hwk)
      exact ⟨r', k1⟩
  obtain ⟨r', hx⟩ := hx
  have h0 : processSwap w.cfg { w.pool with vol := v' } { a' with amount1 := 0 } fm cur' fst = .ok r' := by
    unfold processSwap
    dsimp only
    rw [hm', t.amount0, t.dir]
    simp only [bind_ok, req_ok, ok_inj]
    exact ⟨r', hx, (), Nat.zero_le _, rfl⟩
  obtain ⟨k1, k2, k3⟩ := offer_later h (a' := { a' with amount1 := 0 }) ⟨t.amount0, t.dir, t.vol, t.later⟩ hu hm
    (show a'.mode ≤ 1 by omega) hbuy hr h0
  have k4 := splitFees_mono (offer_split hm hr) (offer_split (a := { a' with amount1 := 0 }) (show a'.mode ≤ 1 by omega) h0) k3
  refine ⟨r', ?_, k1, k2, k3, k4.1, k4.2⟩
  unfold processSwap
  rw [hm', t.amount0, t.dir]
  simp only [bind_ok, req_ok, ok_inj]
  exact ⟨r', hx, (), by omega, rfl⟩

/-! ### C86 -/

/-- The clock `clk` is not before the one the swap names. -/
structure NotBefore (a : SwapArgs) (clk : Clock) : Prop where
  slot : a.clk.slot ≤ clk.slot
  time : a.clk.time ≤ clk.time

theorem NotBefore.point {a : SwapArgs} {clk : Clock} (h : NotBefore a clk) {k cur : Nat}
    (hcur : currentPoint k a.clk = .ok cur) : ∃ cur', currentPoint k clk = .ok cur' ∧ cur ≤ cur' := by
  unfold currentPoint at hcur ⊢
  split at hcur
  · cases hcur
  · rw [ok_inj] at hcur
    exact ⟨_, rfl, by rw [← hcur]; exact h.slot⟩
  · rw [ok_inj] at hcur
    exact ⟨_, rfl, by rw [← hcur]; exact h.time⟩

theorem pre_volAcc {p : Pool} {c : PoolConfig} {now : Nat} {v : VolTracker}
    (h : p.updatePreSwap c now = .ok { p with vol := v }) : v.volAcc = p.vol.volAcc := by
  obtain ⟨v1, e, k1, k2⟩ := updatePreSwap_ok h
  have e1 : v = v1 := congrArg Pool.vol e
  rw [e1]
  by_cases h0 : c.fees.dyn.initialized = 0
  · rw [k1 h0]
  · exact updateReferences_acc (k2 h0)

theorem pre_total {w : World} (h : Reachable w) (now : Nat) :
    ∃ v, w.pool.updatePreSwap w.cfg now = .ok { w.pool with vol := v } := by
  unfold Pool.updatePreSwap
  by_cases h0 : w.cfg.fees.dyn.initialized = 0
  · rw [if_neg (not_not.2 h0)]
    exact ⟨w.pool.vol, rfl⟩
  · rw [if_pos h0, updateReferences_eq (h.dyn h0) h.volOK.acc, ok_bind]
    exact ⟨_, rfl⟩

theorem feesOnInput_buy {cm : Nat} {dir : TradeDirection} {ref : Bool} {fm : FeeMode} (h : getFeeMode cm dir ref = .ok fm)
    (hf : fm.feesOnInput = true) : dir = .quoteToBase := by
  rcases feeMode_cases h with ⟨-, k, -⟩ | ⟨k, -⟩ | ⟨k, -⟩
  · rw [k] at hf; cases hf
  · exact k
  · exact k

/-- C86, both go through: a swap made later, with nothing but other operations than trades in between, receives at least as
much, pays no more and is charged no more than the same swap made now. -/
theorem C86_later_is_no_worse {w w1 w2 w3 : World} {ops : List Op} {a : SwapArgs} {clk : Clock} {x x' : Trade}
    (h : Reachable w) (hu : a.amount0 ≤ u64Max) (hr : Run w ops w1) (hno : ∀ b, Op.swap b ∉ ops)
    (hs : w.step (.swap a) = .ok w2) (o : Observed w w2 a.dir x) (hlate : NotBefore a clk)
    (hs' : w1.step (.swap { a with clk := clk }) = .ok w3) (o' : Observed w1 w3 a.dir x') :
    x.got ≤ x'.got ∧ x'.paid ≤ x.paid ∧ x'.fee ≤ x.fee := by
  have h1 := h.run hr
  have e := quiet_run hr hno
  obtain ⟨cur, fm, r, v1, v2, s⟩ := swap_ok hs
  obtain ⟨cur', fm', r', v1', v2', s'⟩ := swap_ok hs'
  obtain ⟨k1, -, -, k4, k5, k6⟩ := result_same e s
  have ef : fm' = fm := by
    have := s'.hfm
    dsimp only at this
    rw [k4, ok_inj] at this
    exact this.symm
  subst ef
  obtain ⟨cur0, c1, c2⟩ := hlate.point k1
  have ec : cur0 = cur' := by
    have := s'.hcur
    dsimp only at this
    rw [c1, ok_inj] at this
    exact this
  subst ec
  have ev : v1'.volAcc = v1.volAcc := by rw [pre_volAcc s'.pre, pre_volAcc k5]
  have tw : Twice w1 a { a with clk := clk } v1 v1' cur cur0 := ⟨rfl, rfl, ev, c2⟩
  obtain ⟨p1, p2, p3, p4, p5, p6⟩ := trade_eq o (SwapStep.observed s)
  obtain ⟨q1, q2, q3, q4, q5, q6⟩ := trade_eq (dir := a.dir) o' (SwapStep.observed (a := { a with clk := clk }) s')
  have f1 : x.fee = r.fee.sum := by
    rw [← tradeOf_fee s]; unfold Trade.fee; rw [p3, p4, p5, p6]
  have f2 : x'.fee = r'.fee.sum := by
    rw [← tradeOf_fee s']; unfold Trade.fee; rw [q3, q4, q5, q6]
  have key : r.out ≤ r'.out ∧ r'.includedIn ≤ r.includedIn ∧ r'.fee.sum ≤ r.fee.sum := by
    by_cases hm : a.mode ≤ 1
    · exact offer_later h1 tw hu hm hm (feesOnInput_buy k4) k6 s'.proc
    · have hm2 : a.mode = 2 := by have := s.mode; omega
      have room := swap_room hs s
      have hsup := h.solvent.supMax
      have hin : r.includedIn ≤ u64Max := by
        cases hd : a.dir with
        | quoteToBase => have := room.buy hd; omega
        | baseToQuote => have := room.sell hd; omega
      obtain ⟨r0, g1, g2, g3, g4, -⟩ := demand_later h1 tw hm2 hm2 rfl hin k6
      have : r0 = r' := by
        have := s'.proc
        have ef : w1.firstMin { a with clk := clk } = w1.firstMin a := rfl
        rw [ef, g1, ok_inj] at this
        exact this
      subst this
      omega
  unfold tradeOf at p1 p2 q1 q2
  dsimp only at p1 p2 q1 q2
  omega

/-- The part common to the two theorems below. -/
theorem stays_core {w w1 w2 : World} {ops : List Op} {a a' : SwapArgs} {x : Trade}
    (h : Reachable w) (hr : Run w ops w1) (hno : ∀ b, Op.swap b ∉ ops)
    (hs : w.step (.swap a) = .ok w2) (o : Observed w w2 a.dir x) (hlate : NotBefore a a'.clk)
    (hsame : a' = { a with mode := a'.mode, clk := a'.clk }) (hm' : a'.mode ≤ 2) (own : Exists w1 a x.paid)
    (hproc : ∀ cur cur' fm r v v' fst, Twice w1 a a' v v' cur cur' → getFeeMode w1.cfg.collectFeeMode a.dir a.referral = .ok fm →
      r.includedIn ≤ u64Max →
      processSwap w1.cfg { w1.pool with vol := v } a fm cur fst = .ok r →
      ∃ r', processSwap w1.cfg { w1.pool with vol := v' } a' fm cur' fst = .ok r' ∧
        r.out ≤ r'.out ∧ r'.includedIn ≤ r.includedIn ∧ r'.fee.sum ≤ r.fee.sum ∧ r'.fee.protocol ≤ r.fee.protocol ∧
        r'.fee.trading ≤ r.fee.trading) :
    ∃ w3 x', w1.step (.swap a') = .ok w3 ∧ Observed w1 w3 a.dir x' ∧ x.got ≤ x'.got ∧ x'.paid ≤ x.paid ∧ x'.fee ≤ x.fee := by
  have h1 := h.run hr
  have e := quiet_run hr hno
  obtain ⟨cur, fm, r, v1, v2, s⟩ := swap_ok hs
  obtain ⟨k1, k2, k3, k4, k5, k6⟩ := result_same e s
  obtain ⟨cur', c1, c2⟩ := hlate.point k1
  obtain ⟨v1', hpre⟩ := pre_total h1 a'.clk.time
  have ed : a'.dir = a.dir := by rw [hsame]
  have er : a'.referral = a.referral := by rw [hsame]
  have e0 : a'.amount0 = a.amount0 := by rw [hsame]
  have et : a'.tx = a.tx := by rw [hsame]
  have ef : w1.firstMin a' = w1.firstMin a := by rw [hsame]; rfl
  have tw : Twice w1 a a' v1 v1' cur cur' := ⟨e0, ed, by rw [pre_volAcc hpre, pre_volAcc k5], c2⟩
  have room := swap_room hs s
  have hsup := h.solvent.supMax
  have hin : r.includedIn ≤ u64Max := by
    cases hd : a.dir with
    | quoteToBase => have := room.buy hd; omega
    | baseToQuote => have := room.sell hd; omega
  obtain ⟨r', g1, g2, g3, g4, g5, g6⟩ := hproc cur cur' fm r v1 v1' _ tw k4 hin k6
  obtain ⟨p1, p2, p3, p4, p5, p6⟩ := trade_eq o (SwapStep.observed s)
  have f1 : x.fee = r.fee.sum := by
    rw [← tradeOf_fee s]; unfold Trade.fee; rw [p3, p4, p5, p6]
  unfold tradeOf at p1 p2
  dsimp only at p1 p2
  rw [p1] at own
  have hlim : w1.checkLimiter a' cur' = .ok () := by
    unfold World.checkLimiter at k2 ⊢
    by_cases ha : w1.cfg.fees.base.mode = 2 ∧ limiterApplied w1.cfg.fees.base cur' w1.pool.activationPoint a'.dir = true
    · rw [if_pos ha, et]
      rw [ed] at ha
      rwa [if_pos ⟨ha.1, limiterApplied_before c2 ha.2⟩] at k2
    · rw [if_neg ha]
  obtain ⟨ps, hc⟩ := h.core
  have hR := processSwap_ok (p := { w.pool with vol := v1 }) hc.good.curve hc.lo hc.hi s.proc
  have hnext : 0 < r.next := by
    have hm := hc.good.startMin
    have : w.cfg.sqrtStartPrice ≤ r.next := by
      cases hd : a.dir with
      | baseToQuote => exact (hR.sell hd).ge hc.good.curve.proper hc.lo
      | quoteToBase => exact hc.lo.trans (hR.buy hd).1.le
    have : 0 < MIN_SQRT_PRICE := by decide
    omega
  have hclk := swap_clock s hnext
  rw [← e.vol, ← e.cfg] at hclk
  obtain ⟨w3, h3⟩ := swap_commits h1 (a := a') hm' (by rw [e0]; exact s.pos) c1 hlim k3
    (by have := hlate.time; omega) hpre (by rw [ed, er]; exact k4) (by rw [ef]; exact g1) (by
    unfold Exists at own
    refine ⟨fun hd => ?_, fun hd => ?_, fun hf => ?_, fun hf => ?_⟩
    · rw [ed] at hd; rw [hd] at own; dsimp only at own; omega
    · rw [ed] at hd; rw [hd] at own; dsimp only at own; omega
    · rw [e.metrics]; have := room.base hf; omega
    · rw [e.metrics]; have := room.quote hf; omega)
  obtain ⟨cur3, fm3, r3, v3, v4, s3⟩ := swap_ok h3
  have e1 : cur3 = cur' := by
    have := s3.hcur
    rw [c1, ok_inj] at this
    exact this.symm
  have e2 : fm3 = fm := by
    have := s3.hfm
    rw [ed, er, k4, ok_inj] at this
    exact this.symm
  have e3 : ({ w1.pool with vol := v3 } : Pool) = { w1.pool with vol := v1' } := by
    have := s3.pre
    rw [hpre, ok_inj] at this
    exact this.symm
  have e4 : r' = r3 := by
    have := s3.proc
    rw [e1, e2, e3, ef, g1, ok_inj] at this
    exact this
  subst e4
  have ob := SwapStep.observed s3
  rw [ed] at ob
  refine ⟨w3, _, h3, ob, ?_, ?_, ?_⟩
  · unfold tradeOf; dsimp only; omega
  · unfold tradeOf; dsimp only; omega
  · rw [tradeOf_fee s3]; omega

/-- C86, exact output: a swap for an exact output that goes through now goes through later too, if the trader still owns what
it takes now. -/
theorem C86_demand_stays {w w1 w2 : World} {ops : List Op} {a : SwapArgs} {clk : Clock} {x : Trade}
    (h : Reachable w) (hm : a.mode = 2) (hr : Run w ops w1) (hno : ∀ b, Op.swap b ∉ ops)
    (hs : w.step (.swap a) = .ok w2) (o : Observed w w2 a.dir x) (hlate : NotBefore a clk) (own : Exists w1 a x.paid) :
    ∃ w3 x', w1.step (.swap { a with clk := clk }) = .ok w3 ∧ Observed w1 w3 a.dir x' ∧
      x.got ≤ x'.got ∧ x'.paid ≤ x.paid ∧ x'.fee ≤ x.fee := by
  refine stays_core (a' := { a with clk := clk }) h hr hno hs o hlate rfl hm.le own
    fun cur cur' fm r v v' fst t _ hin hp => ?_
  obtain ⟨r', g1, g2, g3⟩ := demand_later (h.run hr) t hm hm rfl hin hp
  exact ⟨r', g1, g2.ge, g3⟩

/-- C86, exact input and partial fill: what was offered and would have gone through can be offered later, asking for the same
minimum; as a partial fill it goes through. -/
theorem C86_offer_stays {w w1 w2 : World} {ops : List Op} {a : SwapArgs} {clk : Clock} {x : Trade}
    (h : Reachable w) (hu : a.amount0 ≤ u64Max) (hm : a.mode ≤ 1) (hr : Run w ops w1) (hno : ∀ b, Op.swap b ∉ ops)
    (hs : w.step (.swap a) = .ok w2) (o : Observed w w2 a.dir x) (hlate : NotBefore a clk) (own : Exists w1 a x.paid) :
    ∃ w3 x', w1.step (.swap { a with mode := 1, clk := clk }) = .ok w3 ∧ Observed w1 w3 a.dir x' ∧
      x.got ≤ x'.got ∧ x'.paid ≤ x.paid ∧ x'.fee ≤ x.fee :=
  stays_core (a' := { a with mode := 1, clk := clk }) h hr hno hs o hlate rfl (show 1 ≤ 2 by omega) own
    fun _ _ _ _ _ _ _ t hf _ hp => offer_stays (h.run hr) t hu hm rfl rfl (feesOnInput_buy hf) hp

/-! ### Concrete cases -/

def exWait (mode a0 a1 : Nat) (dir : TradeDirection) : SwapArgs :=
  ⟨mode, a0, a1, dir, true, ⟨420, 1000320⟩, Ex.txSwap⟩

def exWaiting : List Op := [.claimPartnerFee 11 100 100, .donate 1 2 3]

/-- The swap is possible now; after a claim and a donation it is possible at the later clock; what is paid and received now and
then. -/
def Waits (p : ConfigParams) (a a' : SwapArgs) (paid got paid' got' : Nat) : Prop :=
  ∃ w2 w3, (Ex.after p Ex.trading).step (.swap a) = .ok w2 ∧ (Ex.after p (Ex.trading ++ exWaiting)).step (.swap a') = .ok w3 ∧
    traderIn w2 (inToken a.dir) = traderIn (Ex.after p Ex.trading) (inToken a.dir) + paid ∧
    traderOut w2 (outToken a.dir) = traderOut (Ex.after p Ex.trading) (outToken a.dir) + got ∧
    traderIn w3 (inToken a.dir) = traderIn (Ex.after p (Ex.trading ++ exWaiting)) (inToken a.dir) + paid' ∧
    traderOut w3 (outToken a.dir) = traderOut (Ex.after p (Ex.trading ++ exWaiting)) (outToken a.dir) + got' ∧
    Exists (Ex.after p (Ex.trading ++ exWaiting)) a paid

/-- Reachable pools with a linear schedule, an exponential schedule and a rate limiter, and the same swap now and after some
waiting: an exact input, an exact output, and, inside the limiter's window, a large exact input. After the window the last one
no longer fits the curve as a whole (the fee is lower), but as a partial fill it receives ten times as much for less than a
quarter of the price. -/
theorem C86_example :
    (Reachable (Ex.after Ex.paramsA Ex.trading) ∧ Reachable (Ex.after Ex.paramsB Ex.trading) ∧
      Reachable (Ex.after Ex.paramsC Ex.trading)) ∧
    (∀ b, Op.swap b ∉ exWaiting) ∧
    (Run (Ex.after Ex.paramsA Ex.trading) exWaiting (Ex.after Ex.paramsA (Ex.trading ++ exWaiting)) ∧
      Run (Ex.after Ex.paramsB Ex.trading) exWaiting (Ex.after Ex.paramsB (Ex.trading ++ exWaiting)) ∧
      Run (Ex.after Ex.paramsC Ex.trading) exWaiting (Ex.after Ex.paramsC (Ex.trading ++ exWaiting))) ∧
    (∀ m a0 a1 d, NotBefore (exWait m a0 a1 d) ⟨1200, 1001100⟩) ∧
    Waits Ex.paramsA (exWait 0 1000000000 1 .quoteToBase) { exWait 0 1000000000 1 .quoteToBase with clk := ⟨1200, 1001100⟩ }
      1000000000 172722700084 1000000000 176285227549 ∧
    Waits Ex.paramsC (exWait 2 1000000000 10000000000000 .baseToQuote)
      { exWait 2 1000000000 10000000000000 .baseToQuote with clk := ⟨1200, 1001100⟩ }
      218041377394 1000000000 181211664186 1000000000 ∧
    Waits Ex.paramsB (exWait 0 40000000000000 1 .quoteToBase)
      { exWait 0 40000000000000 1 .quoteToBase with mode := 1, clk := ⟨1200, 1001100⟩ }
      40000000000000 84141534869231 8997759224695 864062723413679 := by
  refine ⟨⟨Ex.reachTradingA, Ex.reachTradingB, Ex.reachTradingC⟩, ?_, ⟨Ex.exec_run (by decide +kernel),
    Ex.exec_run (by decide +kernel), Ex.exec_run (by decide +kernel)⟩, ?_, ?_, ?_, ?_⟩
  · intro b hb
    simp [exWaiting] at hb
  · intro m a0 a1 d
    exact ⟨show 420 ≤ 1200 by decide, show 1000320 ≤ 1001100 by decide⟩
  · exact ⟨Ex.after Ex.paramsA (Ex.trading ++ [.swap (exWait 0 1000000000 1 .quoteToBase)]),
      Ex.after Ex.paramsA (Ex.trading ++ exWaiting ++
        [.swap { exWait 0 1000000000 1 .quoteToBase with clk := ⟨1200, 1001100⟩ }]),
      by decide +kernel, by decide +kernel, by decide +kernel, by decide +kernel, by decide +kernel, by decide +kernel,
      show (Ex.after Ex.paramsA (Ex.trading ++ exWaiting)).quoteVault + 1000000000 ≤ u64Max by decide +kernel⟩
  · exact ⟨Ex.after Ex.paramsC (Ex.trading ++ [.swap (exWait 2 1000000000 10000000000000 .baseToQuote)]),
      Ex.after Ex.paramsC (Ex.trading ++ exWaiting ++
        [.swap { exWait 2 1000000000 10000000000000 .baseToQuote with clk := ⟨1200, 1001100⟩ }]),
      by decide +kernel, by decide +kernel, by decide +kernel, by decide +kernel, by decide +kernel, by decide +kernel,
      show (Ex.after Ex.paramsC (Ex.trading ++ exWaiting)).baseVault + 218041377394 ≤
        (Ex.after Ex.paramsC (Ex.trading ++ exWaiting)).supply by decide +kernel⟩
  · exact ⟨Ex.after Ex.paramsB (Ex.trading ++ [.swap (exWait 0 40000000000000 1 .quoteToBase)]),
      Ex.after Ex.paramsB (Ex.trading ++ exWaiting ++
        [.swap { exWait 0 40000000000000 1 .quoteToBase with mode := 1, clk := ⟨1200, 1001100⟩ }]),
      by decide +kernel, by decide +kernel, by decide +kernel, by decide +kernel, by decide +kernel, by decide +kernel,
      show (Ex.after Ex.paramsB (Ex.trading ++ exWaiting)).quoteVault + 40000000000000 ≤ u64Max by decide +kernel⟩

end Props

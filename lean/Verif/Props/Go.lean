import Verif.Lemmas.Go
import Verif.Props.Partial
import Verif.Props.Extract

/-!
# Swaps that always go through: completing the curve (C46) and selling back (C53)
-/

namespace Props
open Dbc Spec

/-! ### Totality of the fee computation -/

theorem variableFee_small {d : DynamicFeeConfig} {v : VolTracker} {x : Nat} (h : variableFee d v = .ok x) :
    x ≤ u128Max / 100000000000 := by
  unfold variableFee at h
  rw [ite_ok] at h
  rcases h with ⟨_, h⟩ | ⟨_, h⟩
  · rw [ok_inj] at h; omega
  · simp only [bind_ok, safeMul_ok, safeAdd_ok, safeDiv_ok] at h
    obtain ⟨_, -, _, -, _, -, _, ⟨h1, rfl⟩, -, rfl⟩ := h
    exact Nat.div_le_div_right h1

theorem notLimited {w : World} {a : SwapArgs} {cur : Nat} (hr : Reachable w) (h : ¬ LimitedBuy w a)
    (hcur : currentPoint w.cfg.activationType a.clk = .ok cur) (e2 : w.cfg.fees.base.mode = 2) :
    limiterApplied w.cfg.fees.base cur w.pool.activationPoint a.dir = false := by
  unfold limiterApplied
  by_cases hz : limiterZero w.cfg.fees.base
  · rw [if_pos hz]
  · rw [if_neg hz]
    by_cases hd : a.dir = .baseToQuote
    · rw [if_pos hd]
    · rw [if_neg hd]
      have hd' : a.dir = .quoteToBase := by
        cases e : a.dir with
        | baseToQuote => exact absurd e hd
        | quoteToBase => rfl
      obtain ⟨q, env, -, hacc⟩ := hr.config
      rcases accepted_limiter hacc e2 with ⟨hz', -⟩ | l
      · exact absurd hz' hz
      · rw [if_pos]
        by_contra hle
        have hdur := l.dur
        exact h ⟨e2, by omega, hd', cur, hcur, by omega⟩

theorem checkLimiter_free {w : World} {a : SwapArgs} {cur : Nat} (hr : Reachable w) (h : ¬ LimitedBuy w a)
    (hcur : currentPoint w.cfg.activationType a.clk = .ok cur) : w.checkLimiter a cur = .ok () := by
  unfold World.checkLimiter
  rw [if_neg]
  rintro ⟨e2, e⟩
  rw [notLimited hr h hcur e2] at e
  cases e

/-- Outside the window of a rate limiter every amount is charged one rate, at most 99%. -/
theorem rate_total {w : World} {a : SwapArgs} {cur : Nat} (hr : Reachable w) (h : ¬ LimitedBuy w a)
    (hcur : currentPoint w.cfg.activationType a.clk = .ok cur) (hact : w.pool.activationPoint ≤ cur)
    {p : Pool} (hp : p.activationPoint = w.pool.activationPoint) {vf : Nat} (hv : variableFee w.cfg.fees.dyn p.vol = .ok vf) :
    ∃ num, num ≤ MAX_FEE_NUMERATOR ∧ ∀ m, numeratorIncluded w.cfg p cur m a.dir (w.firstMin a) = .ok num ∧
      numeratorExcluded w.cfg p cur m a.dir (w.firstMin a) = .ok num := by
  obtain ⟨q, env, -, hacc⟩ := hr.config
  suffices ∃ num, num ≤ MAX_FEE_NUMERATOR ∧ ∀ m, numeratorIncluded w.cfg p cur m a.dir (w.firstMin a) = .ok num by
    obtain ⟨num, h1, h2⟩ := this
    exact ⟨num, h1, fun m => ⟨h2 m, by rw [sizeFree_rate hr (.inl h) hcur p hp m m]; exact h2 m⟩⟩
  have hbase : ∃ b, b ≤ MAX_FEE_NUMERATOR ∧
      ∀ m, baseFeeFromIncluded w.cfg.fees.base cur p.activationPoint a.dir m = .ok b := by
    rcases accepted_mode hacc with e | e | e
    · obtain ⟨g, s⟩ := accepted_scheduler hacc (.inl e)
      refine ⟨g ((cur - p.activationPoint) / w.cfg.fees.base.second), ?_, fun m => ?_⟩
      · have := s.anti 0 ((cur - p.activationPoint) / w.cfg.fees.base.second) (Nat.zero_le _)
        rw [s.zero] at this
        exact this.trans s.cap
      · simp only [baseFeeFromIncluded, e]
        exact s.numerator (by omega)
    · obtain ⟨g, s⟩ := accepted_scheduler hacc (.inr e)
      refine ⟨g ((cur - p.activationPoint) / w.cfg.fees.base.second), ?_, fun m => ?_⟩
      · have := s.anti 0 ((cur - p.activationPoint) / w.cfg.fees.base.second) (Nat.zero_le _)
        rw [s.zero] at this
        exact this.trans s.cap
      · simp only [baseFeeFromIncluded, e]
        exact s.numerator (by omega)
    · refine ⟨w.cfg.fees.base.cliff, ?_, fun m => ?_⟩
      · rcases accepted_limiter hacc e with ⟨_, _, k⟩ | l
        · exact k
        · exact l.hi
      · have happ : limiterApplied w.cfg.fees.base cur p.activationPoint a.dir = false := by
          rw [hp]
          exact notLimited hr h hcur e
        simp only [baseFeeFromIncluded, e, happ, Bool.false_eq_true, if_false]
  obtain ⟨b, hb, hbm⟩ := hbase
  unfold numeratorIncluded
  cases w.firstMin a with
  | true =>
    rcases accepted_mode hacc with e | e | e
    · obtain ⟨g, s⟩ := accepted_scheduler hacc (.inl e)
      have := s.anti 0 w.cfg.fees.base.first (Nat.zero_le _)
      rw [s.zero] at this
      exact ⟨_, this.trans s.cap, fun m => by rw [if_pos rfl]; exact s.min⟩
    · obtain ⟨g, s⟩ := accepted_scheduler hacc (.inr e)
      have := s.anti 0 w.cfg.fees.base.first (Nat.zero_le _)
      rw [s.zero] at this
      exact ⟨_, this.trans s.cap, fun m => by rw [if_pos rfl]; exact s.min⟩
    · refine ⟨w.cfg.fees.base.cliff, ?_, fun m => ?_⟩
      · rcases accepted_limiter hacc e with ⟨_, _, k⟩ | l
        · exact k
        · exact l.hi
      · rw [if_pos rfl]
        simp only [minBaseFee, e]
  | false =>
    have hvs := variableFee_small hv
    have hadd : vf + b ≤ u128Max := by
      have : u128Max / 100000000000 + MAX_FEE_NUMERATOR ≤ u128Max := by decide +kernel
      omega
    refine ⟨if MAX_FEE_NUMERATOR < vf + b then MAX_FEE_NUMERATOR else vf + b, by split <;> omega, fun m => ?_⟩
    rw [if_neg Bool.false_ne_true]
    unfold totalFeeFromIncluded totalFee
    rw [hbm m, ok_bind, hv, ok_bind, safeAdd_eq hadd, ok_bind]

theorem feeOnAmount_total {num amt : Nat} (ref : Bool) (hn : num ≤ FEE_DENOMINATOR) (ha : amt ≤ u64Max) :
    ∃ ex s, feeOnAmount num amt ref = .ok (ex, s) := by
  have hD : 0 < FEE_DENOMINATOR := by decide
  have h1 : amt * num ≤ amt * FEE_DENOMINATOR := Nat.mul_le_mul_left _ hn
  have h2 : amt * FEE_DENOMINATOR ≤ u64Max * FEE_DENOMINATOR := Nat.mul_le_mul_right _ ha
  have h3 : u64Max * FEE_DENOMINATOR + FEE_DENOMINATOR ≤ u128Max := by decide +kernel
  have hle : divCeil (amt * num) FEE_DENOMINATOR ≤ amt := by rw [divCeil_le_iff hD]; exact h1
  have e : safeMulDivCastU64 amt num FEE_DENOMINATOR .up = .ok (divCeil (amt * num) FEE_DENOMINATOR) := by
    rw [mulDivU64_up (by omega)]
    exact ⟨by omega, rfl, by omega⟩
  obtain ⟨s, hs⟩ := splitFees_some (fee := divCeil (amt * num) FEE_DENOMINATOR) ref (by omega)
  unfold feeOnAmount excludedFeeAmount
  rw [e, ok_bind, safeSub_eq hle, ok_bind, ok_bind]
  dsimp only
  rw [hs, ok_bind]
  exact ⟨_, _, rfl⟩

theorem includedFee_total {num x net n : Nat} {s : FeeSplit} {ref : Bool} (h1 : feeOnAmount num x ref = .ok (net, s))
    (hnum : num < FEE_DENOMINATOR) (hx : x ≤ u64Max) (hn : n ≤ net) :
    ∃ inc f, includedFeeAmount num n = .ok (inc, f) ∧ inc ≤ x := by
  obtain ⟨e1, e2, -⟩ := feeOnAmount_ok h1
  have hD : 0 < FEE_DENOMINATOR := by decide
  have hd : 0 < FEE_DENOMINATOR - num := by omega
  have hle : divCeil (n * FEE_DENOMINATOR) (FEE_DENOMINATOR - num) ≤ x := by
    rw [divCeil_le_iff hd, Nat.mul_sub]
    have h3 := le_divCeil_mul (x * num) hD
    rw [← e2] at h3
    have h4 : n * FEE_DENOMINATOR ≤ net * FEE_DENOMINATOR := Nat.mul_le_mul_right _ hn
    have h5 : x * FEE_DENOMINATOR = net * FEE_DENOMINATOR + s.sum * FEE_DENOMINATOR := by
      rw [← Nat.add_mul]; congr 1; omega
    omega
  have hge : n ≤ divCeil (n * FEE_DENOMINATOR) (FEE_DENOMINATOR - num) := by
    have h6 := le_divCeil_mul (n * FEE_DENOMINATOR) hd
    generalize divCeil (n * FEE_DENOMINATOR) (FEE_DENOMINATOR - num) = y at h6
    by_contra hlt
    have h7 : (y + 1) * FEE_DENOMINATOR ≤ n * FEE_DENOMINATOR := Nat.mul_le_mul_right _ (by omega)
    have h8 : y * (FEE_DENOMINATOR - num) ≤ y * FEE_DENOMINATOR := Nat.mul_le_mul_left _ (by omega)
    rw [Nat.add_mul] at h7
    omega
  have h2 : n * FEE_DENOMINATOR ≤ u64Max * FEE_DENOMINATOR := Nat.mul_le_mul_right _ (by omega)
  have h3 : u64Max * FEE_DENOMINATOR + FEE_DENOMINATOR ≤ u128Max := by decide +kernel
  have e : safeMulDivCastU64 n FEE_DENOMINATOR (FEE_DENOMINATOR - num) .up =
      .ok (divCeil (n * FEE_DENOMINATOR) (FEE_DENOMINATOR - num)) := by
    rw [mulDivU64_up (by omega)]
    exact ⟨by omega, rfl, by omega⟩
  unfold includedFeeAmount
  rw [safeSub_eq (by omega), ok_bind, e, ok_bind, safeSub_eq hge, ok_bind]
  exact ⟨_, _, rfl, hle⟩

/-- `X` covers an offer of `x`: the offer itself and, for a buy inside the window of a rate limiter, the most a partial fill
can take beyond it (`C06_overcharge_bounded`). -/
structure Covers (w : World) (a : SwapArgs) (X : Nat) : Prop where
  offer : a.amount0 ≤ X
  limited : LimitedBuy w a → a.amount0 + a.amount0 / 1000000 + 30300 ≤ X

/-- An offer can always be priced, and so can every smaller amount it leaves for the curve. -/
theorem prices_total {w : World} {a : SwapArgs} {cur : Nat} (hr : Reachable w)
    (hcur : currentPoint w.cfg.activationType a.clk = .ok cur) (hact : w.pool.activationPoint ≤ cur)
    {p : Pool} (hp : p.activationPoint = w.pool.activationPoint) {vf : Nat} (hv : variableFee w.cfg.fees.dyn p.vol = .ok vf)
    {X : Nat} (hX : Covers w a X) (hXu : X ≤ u64Max) (ref : Bool) :
    ∃ num, num ≤ MAX_FEE_NUMERATOR ∧ numeratorIncluded w.cfg p cur a.amount0 a.dir (w.firstMin a) = .ok num ∧
      ∀ net f, feeOnAmount num a.amount0 ref = .ok (net, f) → ∀ m, m < net → ∃ num' inc g,
        numeratorExcluded w.cfg p cur m a.dir (w.firstMin a) = .ok num' ∧ includedFeeAmount num' m = .ok (inc, g) ∧ inc ≤ X := by
  have hxu : a.amount0 ≤ u64Max := hX.offer.trans hXu
  have hM : MAX_FEE_NUMERATOR < FEE_DENOMINATOR := by decide
  by_cases hl : LimitedBuy w a
  · obtain ⟨q, env, hty, hacc⟩ := hr.config
    have l : Limiter w.cfg.fees.base := by
      rcases accepted_limiter hacc hl.limiter with ⟨hz, _⟩ | l
      · exact absurd hz.2.1 hl.configured
      · exact l
    have h3 : w.cfg.fees.base.third ≤ u64Max := by rw [(createConfig_ok hacc).eq]; exact hty.third
    have happ : limiterApplied w.cfg.fees.base cur p.activationPoint a.dir = true := by
      obtain ⟨cur', hcur', hle⟩ := hl.inWindow
      rw [hcur, ok_inj] at hcur'
      subst hcur'
      rw [hp]
      exact limiterActive_applied ⟨l.x0.ne', hl.buy, hle⟩
    cases hf : w.firstMin a with
    | true =>
      refine ⟨w.cfg.fees.base.cliff, l.hi, ?_, fun net f hfee m hm => ?_⟩
      · simp only [numeratorIncluded, if_true, minBaseFee, hl.limiter]
      · obtain ⟨inc, g, e1, e2⟩ := includedFee_total hfee (lt_of_le_of_lt l.hi hM) hxu hm.le
        refine ⟨_, inc, g, ?_, e1, e2.trans hX.offer⟩
        simp only [numeratorExcluded, if_true, minBaseFee, hl.limiter]
    | false =>
      obtain ⟨n, e, hI⟩ := incl_total l hxu
      have hvs := variableFee_small hv
      have htot : ∀ n ≤ FEE_DENOMINATOR, totalFee w.cfg.fees.dyn p.vol n = .ok (min (vf + n) MAX_FEE_NUMERATOR) := by
        intro n hn
        have hadd : vf + n ≤ u128Max := by
          have : u128Max / 100000000000 + FEE_DENOMINATOR ≤ u128Max := by decide +kernel
          omega
        unfold totalFee
        rw [hv, ok_bind, safeAdd_eq hadd, ok_bind, ok_inj]
        by_cases h : MAX_FEE_NUMERATOR < vf + n
        · rw [if_pos h]; omega
        · rw [if_neg h]; omega
      refine ⟨min (vf + n) MAX_FEE_NUMERATOR, Nat.min_le_right _ _, ?_, fun net f hfee m hm => ?_⟩
      · simp only [numeratorIncluded, Bool.false_eq_true, if_false, totalFeeFromIncluded, baseFeeFromIncluded, hl.limiter,
          happ, if_true]
        rw [hI.rate, ok_bind]
        exact htot n hI.numMax
      · obtain ⟨e1, e2, -⟩ := feeOnAmount_ok hfee
        obtain ⟨n', hn', t, g, ht, hle⟩ := limiter_part_total l h3 ((hX.limited hl).trans hXu) hI.rate rfl e2 e1 hm
        refine ⟨_, t, g, ?_, ht, hle.trans (hX.limited hl)⟩
        simp only [numeratorExcluded, Bool.false_eq_true, if_false, totalFeeFromExcluded, baseFeeFromExcluded, hl.limiter,
          happ, if_true]
        rw [hn', ok_bind]
        obtain ⟨t0, hE⟩ := limiterFromExcluded_facts l h3 hn'
        exact htot n' hE.le
  · obtain ⟨num, hn, hnum⟩ := rate_total hr hl hcur hact hp hv
    refine ⟨num, hn, (hnum _).1, fun net f hfee m hm => ?_⟩
    obtain ⟨inc, g, e1, e2⟩ := includedFee_total hfee (lt_of_le_of_lt hn hM) hxu hm.le
    exact ⟨num, inc, g, (hnum _).2, e1, e2.trans hX.offer⟩

/-! ### Totality of the swap computation -/

/-- A partial fill whose amounts can be priced can always be computed. Unless it reaches the end of the curve, the curve
receives all of the offered amount but at most 99% of it. -/
theorem partialIn_total {c : PoolConfig} {ps : List Point} (hg : Good c ps) {p : Pool}
    (h1 : c.sqrtStartPrice ≤ p.sqrtPrice) (h2 : p.sqrtPrice ≤ c.migrationSqrtPrice) {x : Nat} (hx : x ≤ u64Max)
    {dir : TradeDirection} {cur num X : Nat} {fst : Bool} (hn : num ≤ MAX_FEE_NUMERATOR) (hxX : x ≤ X)
    (fm : FeeMode) (hnum : numeratorIncluded c p cur x dir fst = .ok num)
    (hpart : ∀ net f, feeOnAmount num x fm.hasReferral = .ok (net, f) → ∀ m, m < net → ∃ num' inc g,
      numeratorExcluded c p cur m dir fst = .ok num' ∧ includedFeeAmount num' m = .ok (inc, g) ∧ inc ≤ X)
    (hmaxOut : ∀ y wk, walkIn c p dir y = .ok wk → wk.out ≤ u64Max) :
    ∃ r, partialIn c p x fm dir cur fst = .ok r ∧ r.includedIn ≤ X ∧
      (r.left = 0 → x / 100 ≤ r.excludedIn) ∧ (fm.feesOnInput = false → r.excludedIn + r.left = x) := by
  have hlt : num < FEE_DENOMINATOR := lt_of_le_of_lt hn (by decide)
  have hnet : ∃ net f, (if fm.feesOnInput = true then feeOnAmount num x fm.hasReferral else .ok (x, FeeSplit.zero)) =
      .ok (net, f) ∧ net ≤ x ∧ x / 100 ≤ net ∧ (fm.feesOnInput = false → net = x) := by
    by_cases g : fm.feesOnInput = true
    · obtain ⟨net, f, e⟩ := feeOnAmount_total (amt := x) fm.hasReferral hlt.le hx
      obtain ⟨k1, k2, -⟩ := feeOnAmount_ok e
      refine ⟨net, f, by rw [if_pos g]; exact e, by omega, ?_, fun g' => by rw [g'] at g; cases g⟩
      have k3 : f.sum ≤ x - x / 100 := by
        rw [k2, divCeil_le_iff (by decide)]
        have k4 : x * num ≤ x * MAX_FEE_NUMERATOR := Nat.mul_le_mul_left _ hn
        have k5 : x / 100 * 100 ≤ x := Nat.div_mul_le_self _ _
        rw [Nat.sub_mul]
        simp only [FEE_DENOMINATOR, MAX_FEE_NUMERATOR] at k4 ⊢
        omega
      omega
    · exact ⟨x, _, by rw [if_neg g], le_rfl, Nat.div_le_self _ _, fun _ => rfl⟩
  obtain ⟨net, f, hnet, hle, hge, hfull⟩ := hnet
  obtain ⟨wk, hwk⟩ := walkIn_total hg dir h1 h2 (hle.trans hx)
  have hleft := (walkIn_ok hg.curve h1 h2 hwk).1
  have hmid : ∃ inc ai inf, (if wk.left ≠ 0 then do
        let actualIn ← safeSub net wk.left
        if fm.feesOnInput then do
          let num ← numeratorExcluded c p cur actualIn dir fst
          let (inc, f) ← includedFeeAmount num actualIn
          let s ← splitFees f fm.hasReferral
          .ok (inc, actualIn, s)
        else .ok (actualIn, actualIn, f)
      else (.ok (x, net, f) : Res (Nat × Nat × FeeSplit))) = .ok (inc, ai, inf) ∧ inc ≤ X ∧
        (wk.left = 0 → ai = net) ∧ ai + wk.left = net := by
    by_cases hl : wk.left = 0
    · exact ⟨x, net, f, by rw [if_neg (by simpa using hl)], hxX, fun _ => rfl, by omega⟩
    · rw [if_pos hl, safeSub_eq hleft, ok_bind]
      by_cases g : fm.feesOnInput = true
      · rw [if_pos g] at hnet ⊢
        obtain ⟨num', inc, fe, e0, e1, e2⟩ := hpart _ _ hnet (net - wk.left) (by omega)
        have e3 := includedFeeAmount_ok e1
        obtain ⟨s, hs⟩ := splitFees_some (fee := fe) fm.hasReferral (by omega)
        rw [e0, ok_bind, e1, ok_bind]
        dsimp only
        rw [hs, ok_bind]
        exact ⟨_, _, _, rfl, e2, fun h => absurd h hl, by omega⟩
      · rw [if_neg g]
        exact ⟨_, _, _, rfl, by omega, fun h => absurd h hl, by omega⟩
  obtain ⟨inc, ai, inf, hmid, hinc, hai, hai2⟩ := hmid
  have hout : ∃ ao fo, (if fm.feesOnInput = true then .ok (wk.out, inf) else feeOnAmount num wk.out fm.hasReferral) =
      .ok (ao, fo) := by
    by_cases g : fm.feesOnInput = true
    · exact ⟨_, _, by rw [if_pos g]⟩
    · rw [if_neg g]
      exact feeOnAmount_total _ hlt.le (hmaxOut _ _ hwk)
  obtain ⟨ao, fo, hout⟩ := hout
  refine ⟨⟨inc, ai, wk.left, ao, wk.next, fo⟩, ?_, hinc, fun h => by have := hai h; dsimp only; omega,
    fun g => by have := hfull g; dsimp only; omega⟩
  unfold partialIn
  rw [hnum, ok_bind, hnet, ok_bind]
  dsimp only
  rw [hwk, ok_bind, hmid, ok_bind]
  dsimp only
  rw [hout, ok_bind]

/-- The same computation, when it stays inside the curve, is also the exact-input one. -/
theorem exactIn_of_partial {c : PoolConfig} {p : Pool} {x : Nat} {fm : FeeMode} {dir : TradeDirection} {cur : Nat}
    {fst : Bool} {r : SwapResult} (h : partialIn c p x fm dir cur fst = .ok r) (hl : r.left = 0) :
    exactIn c p x fm dir cur fst = .ok r := by
  simp only [partialIn, bind_ok, ok_inj, Prod.exists] at h
  obtain ⟨num, hnum, net, f, hnet, wk, hwk, inc, ai, inf, hmid, ao, fo, hout, rfl⟩ := h
  dsimp only at hl
  rw [if_neg (by simpa using hl), ok_inj, Prod.mk.injEq, Prod.mk.injEq] at hmid
  obtain ⟨rfl, rfl, rfl⟩ := hmid
  simp only [exactIn, bind_ok, ok_inj, Prod.exists, req_ok]
  exact ⟨num, hnum, _, _, hnet, wk, hwk, (), hl, ao, fo, hout, rfl⟩

/-! ### The properties -/

/-- A transaction in which the swap is a top-level instruction (with the instructions sysvar supplied) and nothing before it
can have swapped the pool: earlier instructions of other programs do not mention it, and earlier swaps are of other pools. -/
structure Alone (w : World) (t : TxCtx) : Prop where
  sysvar : t.sysvar = true
  top : ∃ cur, t.top[t.idx]? = some cur ∧ cur.program = PROGRAM_ID
  others : ∀ i ∈ t.top.take t.idx, i.program ≠ PROGRAM_ID → w.key ∉ i.accounts
  own : ∀ i ∈ t.top.take t.idx, i.program = PROGRAM_ID → i.kind = .swap ∨ i.kind = .swap2 →
    ∃ k, i.accounts[2]? = some k ∧ k ≠ w.key

theorem checkEarlier_alone {pool : Nat} : ∀ {is : List Ix}, (∀ i ∈ is, i.program ≠ PROGRAM_ID → pool ∉ i.accounts) →
    (∀ i ∈ is, i.program = PROGRAM_ID → i.kind = .swap ∨ i.kind = .swap2 → ∃ k, i.accounts[2]? = some k ∧ k ≠ pool) →
    checkEarlier pool is = .ok ()
  | [], _, _ => rfl
  | i :: is, h1, h2 => by
    have ih := checkEarlier_alone (is := is) (fun j hj => h1 j (List.mem_cons_of_mem _ hj))
      (fun j hj => h2 j (List.mem_cons_of_mem _ hj))
    unfold checkEarlier
    by_cases hp : i.program = PROGRAM_ID
    · rw [if_neg (by simpa using hp)]
      have : isPoolSwap pool i = .ok false := by
        unfold isPoolSwap
        by_cases hk : i.kind = .swap ∨ i.kind = .swap2
        · obtain ⟨k, e, hne⟩ := h2 i List.mem_cons_self hp hk
          rw [if_pos hk, e]
          dsimp only
          rw [decide_eq_false hne]
        · rw [if_neg hk]
      rw [this, ok_bind, req_ok (u := ()).2 rfl, ok_bind, ih]
    · rw [if_pos hp, req_ok (u := ()).2 (h1 i List.mem_cons_self hp), ok_bind, ih]

/-- Nothing outside the pool's control delays the swap: the pool is activated, the clock is past 1 January 1970 by more than
the dynamic fee's filter period (this matters for the first swap only), and a buy inside the window of a rate limiter is alone
in its transaction. -/
structure Ordinary (w : World) (a : SwapArgs) : Prop where
  active : ∃ cur, currentPoint w.cfg.activationType a.clk = .ok cur ∧ w.pool.activationPoint ≤ cur
  clock : w.pool.hasSwap = 1 ∨ w.cfg.fees.dyn.filterPeriod ≤ a.clk.time
  alone : LimitedBuy w a → Alone w a.tx

theorem Ordinary.limiter {w : World} {a : SwapArgs} (h : Ordinary w a) (hr : Reachable w) {cur : Nat}
    (hcur : currentPoint w.cfg.activationType a.clk = .ok cur) : w.checkLimiter a cur = .ok () := by
  by_cases hl : LimitedBuy w a
  · obtain ⟨h1, ⟨ix, e1, e2⟩, h3, h4⟩ := h.alone hl
    unfold World.checkLimiter
    split
    · unfold validateSingleSwap
      rw [if_pos h1, e1]
      dsimp only
      rw [if_neg (by simpa using e2), ok_bind]
      exact checkEarlier_alone h3 h4
    · rfl
  · exact checkLimiter_free hr hl hcur

/-- The pool's 64-bit counters of all fees ever charged are not about to overflow. -/
structure CountersFit (w : World) (x : Nat) : Prop where
  base : w.pool.metrics.protocolBase + w.pool.baseReserve ≤ u64Max ∧
    w.pool.metrics.tradingBase + w.pool.baseReserve ≤ u64Max
  quote : w.pool.metrics.protocolQuote + (w.pool.quoteReserve + x) ≤ u64Max ∧
    w.pool.metrics.tradingQuote + (w.pool.quoteReserve + x) ≤ u64Max

/-- The trader's tokens exist: together with what the pool's vault holds they do not exceed the base supply, respectively
what a 64-bit token supply allows. -/
def Exists (w : World) (a : SwapArgs) (X : Nat) : Prop :=
  match a.dir with
  | .baseToQuote => w.baseVault + X ≤ w.supply
  | .quoteToBase => w.quoteVault + X ≤ u64Max

theorem feeMode_total {w : World} (h : Reachable w) (dir : TradeDirection) (ref : Bool) :
    ∃ fm, getFeeMode w.cfg.collectFeeMode dir ref = .ok fm := by
  obtain ⟨p, env, -, hacc⟩ := h.config
  have ha := createConfig_ok hacc
  have hv := (validate_ok ha.validated).collect
  have e : w.cfg.collectFeeMode = p.collectFeeMode := by rw [ha.eq]; rfl
  unfold getFeeMode
  rw [e]
  revert hv
  cases CollectFeeMode.tryFrom p.collectFeeMode with
  | none => intro hv; cases hv
  | some m => intro _; cases m <;> cases dir <;> exact ⟨_, rfl⟩

/-- The result of a partial fill, and that it (or, when it takes everything, the exact-input swap) commits. -/
theorem partial_goes {w : World} {a : SwapArgs} (h : Reachable w)
    (hinc : w.pool.quoteReserve < w.cfg.migrationQuoteThreshold) (hpos : 0 < a.amount0) (hmin : a.amount1 = 0)
    (ho : Ordinary w a) {x X : Nat} (hm : CountersFit w x) (hX : Covers w a X) (hxm : a.dir = .quoteToBase → X ≤ x)
    (he : Exists w a X) :
    ∃ cur v1 fm r, currentPoint w.cfg.activationType a.clk = .ok cur ∧
      partialIn w.cfg { w.pool with vol := v1 } a.amount0 fm a.dir cur (w.firstMin a) = .ok r ∧
      (r.left = 0 → a.amount0 / 100 ≤ r.excludedIn) ∧
      (fm.feesOnInput = false → r.excludedIn + r.left = a.amount0) ∧ r.includedIn ≤ X ∧
      getFeeMode w.cfg.collectFeeMode a.dir a.referral = .ok fm ∧
      w.pool.updatePreSwap w.cfg a.clk.time = .ok { w.pool with vol := v1 } ∧
      (∀ ps, Core w ps → Result w.cfg ps w.pool.sqrtPrice fm a.dir r) ∧
      (a.mode = 1 ∨ a.mode = 0 ∧ r.left = 0 → ∃ w', w.step (.swap a) = .ok w' ∧
        traderIn w' (inToken a.dir) = traderIn w (inToken a.dir) + r.includedIn) := by
  obtain ⟨ps, hc⟩ := h.core
  have hs := h.solvent
  obtain ⟨cur, hcur, hact⟩ := ho.active
  obtain ⟨fm, hfm⟩ := feeMode_total h a.dir a.referral
  have hXu : X ≤ u64Max := by
    have m1 := hs.supMax
    unfold Exists at he
    cases hd : a.dir with
    | baseToQuote => rw [hd] at he; dsimp only at he; omega
    | quoteToBase => rw [hd] at he; dsimp only at he; omega
  obtain ⟨p1, vf, hpre, hvf, -⟩ := C30_never_blocks h ho.clock (next := w.pool.sqrtPrice)
    (hc.good.startMin.trans hc.lo) (hc.hi.trans hc.good.migMax.le)
  obtain ⟨v1, rfl, -, -⟩ := updatePreSwap_ok hpre
  obtain ⟨num, hn, hnum, hpart⟩ := prices_total (p := { w.pool with vol := v1 }) h hcur hact rfl hvf hX hXu fm.hasReferral
  have h0 := h.life.start.2 hinc
  have sb := hs.base0 h0
  have sq := hs.quote0 h0
  have m1 := hs.supMax
  have m2 := hs.baseMax
  have m3 := hs.quoteMax
  obtain ⟨r, hr, hri, hrl, hrf⟩ := partialIn_total (p := { w.pool with vol := v1 }) hc.good hc.lo hc.hi
    (hX.offer.trans hXu) hn hX.offer fm hnum hpart (fun y wk hwk => by
      obtain ⟨-, k1, k2, -⟩ := walkIn_ok (p := { w.pool with vol := v1 }) hc.good.curve hc.lo hc.hi hwk
      dsimp only at k1 k2
      cases hd : a.dir with
      | baseToQuote =>
        have t := (k2 hd).quoteUp hc.good.curve.proper
        have := hc.quote
        omega
      | quoteToBase =>
        obtain ⟨t1, t2⟩ := k1 hd
        have d1 := t1.baseDown hc.good.curve.proper
        have d2 := baseToDown_mono hc.good.curve.proper t2
        have d3 : baseToDown (segs w.cfg.sqrtStartPrice ps) w.cfg.migrationSqrtPrice ≤ w.cfg.swapBaseAmount := by
          rw [hc.good.swap]; exact total_le_total baseSegDown_le_up _ _
        have := hc.good.swapMax
        omega)
  have hproc : a.mode = 1 ∨ a.mode = 0 ∧ r.left = 0 →
      processSwap w.cfg { w.pool with vol := v1 } a fm cur (w.firstMin a) = .ok r := by
    have e : req (a.amount1 ≤ r.out) Err.exceededSlippage = .ok () := req_ok.2 (by omega)
    rintro (hm | ⟨hm, hl⟩)
    · simp only [processSwap, hm]
      rw [hr, ok_bind, e, ok_bind]
    · simp only [processSwap, hm]
      rw [exactIn_of_partial hr hl, ok_bind, e, ok_bind]
  have hres : ∀ ps, Core w ps → Result w.cfg ps w.pool.sqrtPrice fm a.dir r := fun ps hc => by
    have e : processSwap w.cfg { w.pool with vol := v1 } { a with mode := 1 } fm cur (w.firstMin a) = .ok r := by
      have e : req (a.amount1 ≤ r.out) Err.exceededSlippage = .ok () := req_ok.2 (by omega)
      simp only [processSwap]
      rw [hr, ok_bind, e, ok_bind]
    exact processSwap_ok (p := { w.pool with vol := v1 }) (a := { a with mode := 1 }) hc.good.curve hc.lo hc.hi e
  refine ⟨cur, v1, fm, r, hcur, hr, hrl, hrf, hri, hfm, hpre, hres, fun hmode => ?_⟩
  have hR := hres ps hc
  obtain ⟨o1, o2⟩ := hc.outputs hR
  have hin := hR.input
  suffices hgo : ∃ w', w.swap a = .ok w' by
    obtain ⟨w', hw'⟩ := hgo
    refine ⟨w', hw', ?_⟩
    obtain ⟨cur', fm', r', v1', v2', s⟩ := swap_ok hw'
    have e1 := s.hcur
    rw [hcur, ok_inj] at e1
    subst e1
    have e2 := s.hfm
    rw [hfm, ok_inj] at e2
    subst e2
    have e3 := s.proc
    have e4 := s.pre
    rw [hpre, ok_inj] at e4
    rw [← e4, hproc hmode, ok_inj] at e3
    have := (SwapStep.observed s).paid (inToken a.dir)
    rw [inTok_self] at this
    rw [this, e3]
    rfl
  refine swap_commits h (by omega) hpos hcur (ho.limiter h hcur) hinc (clock_fine h ho.clock) hpre hfm (hproc hmode)
    { buy := fun hd => ?_, sell := fun hd => ?_, base := fun e => ?_, quote := fun e => ?_ }
  · unfold Exists at he; rw [hd] at he; dsimp only at he; omega
  · unfold Exists at he; rw [hd] at he; dsimp only at he; omega
  · have := hm.base
    rcases feeMode_cases hfm with ⟨_, _, g⟩ | ⟨hd, g, _⟩ | ⟨_, _, g⟩
    · rw [e] at g; cases g
    · have := o2 hd
      unfold outFee FeeSplit.sum at this
      rw [g, if_neg Bool.false_ne_true] at this
      omega
    · rw [e] at g; cases g
  · have := hm.quote
    rcases feeMode_cases hfm with ⟨hd, g, _⟩ | ⟨_, _, g⟩ | ⟨hd, g, _⟩
    · have := o1 hd
      unfold outFee FeeSplit.sum at this
      rw [g, if_neg Bool.false_ne_true] at this
      omega
    · rw [e] at g; cases g
    · unfold inFee FeeSplit.sum at hin
      rw [g, if_pos rfl] at hin
      have := hxm hd
      omega

/-- C46: in every reachable state whose curve is not complete, a partial-fill buy that offers a hundred times what the curve
still lacks goes through and completes the curve (at the highest possible fee rate, 99%, this is what it takes). `X` is what
the buyer must own: the offer, and inside the window of a rate limiter a millionth and 30300 units more. -/
theorem C46_completable {w : World} {a : SwapArgs} (h : Reachable w)
    (hinc : w.pool.quoteReserve < w.cfg.migrationQuoteThreshold) (hm : a.mode = 1) (hd : a.dir = .quoteToBase)
    (hmin : a.amount1 = 0) (hx : 100 * (w.cfg.migrationQuoteThreshold - w.pool.quoteReserve) ≤ a.amount0)
    {X : Nat} (hX : Covers w a X) (he : w.quoteVault + X ≤ u64Max) (ho : Ordinary w a) (hc : CountersFit w X) :
    ∃ w', w.step (.swap a) = .ok w' ∧ w'.cfg.migrationQuoteThreshold ≤ w'.pool.quoteReserve ∧
      w'.pool.migrationProgress ≠ 0 ∧ traderIn w' .quote ≤ traderIn w .quote + X := by
  obtain ⟨cur, v1, fm, r, hcur, hr, hrl, -, hri, hfm, hpre, hres, hgo⟩ := partial_goes h hinc (by omega) hmin ho hc hX
    (fun _ => le_rfl) (by unfold Exists; rw [hd]; exact he)
  obtain ⟨w', hw', hpd⟩ := hgo (.inl hm)
  clear hgo
  rw [hd] at hpd
  have hpd : traderIn w' .quote ≤ traderIn w .quote + X := by
    have : traderIn w' .quote = traderIn w .quote + r.includedIn := hpd
    omega
  have h' : Reachable w' := h.step hw'
  have hdone : w'.cfg.migrationQuoteThreshold ≤ w'.pool.quoteReserve := by
    obtain ⟨cur', fm', r', v1', v2', s⟩ := swap_ok hw'
    obtain ⟨ps, hc'⟩ := h'.core
    obtain ⟨hq, -⟩ := s.buyRes hd
    have e1 := s.hcur
    rw [hcur, ok_inj] at e1
    subst e1
    have e2 := s.hfm
    rw [hfm, ok_inj] at e2
    subst e2
    have e3 := s.proc
    have e4 := s.pre
    rw [hpre, ok_inj] at e4
    rw [← e4] at e3
    simp only [processSwap, hm] at e3
    rw [hr, ok_bind] at e3
    simp only [bind_ok, req_ok, ok_inj] at e3
    obtain ⟨_, _, rfl⟩ := e3
    obtain ⟨ps0, hc0⟩ := h.core
    have hq3 := fun hl => (hres ps0 hc0).leftBuy hl hd
    by_cases hl : r.left = 0
    · have := hrl hl
      rw [s.cfg]
      omega
    · have hpr : w'.pool.sqrtPrice = w'.cfg.migrationSqrtPrice := by rw [s.price, s.cfg]; exact hq3 hl
      have := hc'.quote
      rw [hpr, hc'.good.cost] at this
      exact this
  refine ⟨w', hw', hdone, fun e => ?_, ?_⟩
  · have := h'.life.start.1 e
    omega
  · exact hpd

/-- C46, any size: a partial-fill buy of any amount that the buyer owns goes through. -/
theorem C46_buy_any {w : World} {a : SwapArgs} (h : Reachable w)
    (hinc : w.pool.quoteReserve < w.cfg.migrationQuoteThreshold) (hm : a.mode = 1) (hd : a.dir = .quoteToBase)
    (hmin : a.amount1 = 0) (hpos : 0 < a.amount0) {X : Nat} (hX : Covers w a X) (he : w.quoteVault + X ≤ u64Max)
    (ho : Ordinary w a) (hc : CountersFit w X) :
    ∃ w', w.step (.swap a) = .ok w' ∧ traderIn w' .quote ≤ traderIn w .quote + X := by
  obtain ⟨cur, v1, fm, r, -, -, -, -, hri, -, -, -, hgo⟩ := partial_goes h hinc hpos hmin ho hc hX (fun _ => le_rfl)
    (by unfold Exists; rw [hd]; exact he)
  obtain ⟨w', hw', hpd⟩ := hgo (.inl hm)
  rw [hd] at hpd
  have : traderIn w' .quote = traderIn w .quote + r.includedIn := hpd
  exact ⟨w', hw', by omega⟩

/-- Net base tokens that traders and referral accounts took out of the pool are covered by the curve below the price. -/
theorem outside_le {w : World} (h : Reachable w) {ps : List Point} (hc : Core w ps) :
    traderOut w .base + referrals w .base ≤ traderIn w .base + baseToDown (segs w.cfg.sqrtStartPrice ps) w.pool.sqrtPrice := by
  obtain ⟨g, ops, hg, hrun⟩ := h
  have hb := backed_run hg.reachable hrun
  have hgain := hb.gain .base
  obtain ⟨s, hs, hle⟩ := hc.base
  rw [hb.cfg] at hs
  obtain ⟨p, env, a, c, _, _, hi⟩ := hg
  obtain ⟨_, _, _, _, _, _, _, _, hsup, _, _, _, _, rfl⟩ := initPool_ok hi
  dsimp only at hs
  rw [hsup, ok_inj] at hs
  subst hs
  simp only [gained, traderOut, traderIn, referrals, reserve, Pool.initial] at hgain ⊢
  omega

/-- C53: while the curve is not complete, everything that traders (and referral accounts) together still hold of what they
took out of the pool can be sold back in one exact-input swap, and so can any smaller amount. -/
theorem C53_sell_back {w : World} {a : SwapArgs} (h : Reachable w)
    (hinc : w.pool.quoteReserve < w.cfg.migrationQuoteThreshold) (hm : a.mode = 0) (hd : a.dir = .baseToQuote)
    (hmin : a.amount1 = 0) (hpos : 0 < a.amount0)
    (hx : traderIn w .base + a.amount0 ≤ traderOut w .base + referrals w .base)
    (he : w.baseVault + a.amount0 ≤ w.supply)
    (hcur : ∃ cur, currentPoint w.cfg.activationType a.clk = .ok cur ∧ w.pool.activationPoint ≤ cur)
    (hclk : w.pool.hasSwap = 1 ∨ w.cfg.fees.dyn.filterPeriod ≤ a.clk.time) (hfit : CountersFit w 0) :
    ∃ w', w.step (.swap a) = .ok w' := by
  have ho : Ordinary w a := ⟨hcur, hclk, fun hl => by have := hl.buy; rw [hd] at this; cases this⟩
  obtain ⟨cur, v1, fm, r, -, hr, -, hrf, -, hfm, -, hres, hgo⟩ := partial_goes h hinc hpos hmin ho hfit
    (X := a.amount0) ⟨le_rfl, fun hl => by have := hl.buy; rw [hd] at this; cases this⟩ (fun e => by rw [hd] at e; cases e) (by unfold Exists; rw [hd]; exact he)
  suffices hl : r.left = 0 by
    obtain ⟨w', hw', -⟩ := hgo (.inr ⟨hm, hl⟩)
    exact ⟨w', hw'⟩
  obtain ⟨ps, hc⟩ := h.core
  have hR := hres ps hc
  have hf : fm.feesOnInput = false := by
    rcases feeMode_cases hfm with ⟨_, g, _⟩ | ⟨hd', _⟩ | ⟨hd', _⟩
    · exact g
    · rw [hd] at hd'; cases hd'
    · rw [hd] at hd'; cases hd'
  by_contra hl
  have e := hR.leftSell hl hd
  have t := (hR.sell hd).baseDown hc.good.curve.proper
  rw [e, baseToDown_start hc.good.curve.proper le_rfl] at t
  have := outside_le h hc
  have := hrf hf
  omega

/-- C53, sizes beyond that: a partial-fill sale of any amount of tokens that exist goes through. -/
theorem C53_sell_any {w : World} {a : SwapArgs} (h : Reachable w)
    (hinc : w.pool.quoteReserve < w.cfg.migrationQuoteThreshold) (hm : a.mode = 1) (hd : a.dir = .baseToQuote)
    (hmin : a.amount1 = 0) (hpos : 0 < a.amount0) (he : w.baseVault + a.amount0 ≤ w.supply)
    (hcur : ∃ cur, currentPoint w.cfg.activationType a.clk = .ok cur ∧ w.pool.activationPoint ≤ cur)
    (hclk : w.pool.hasSwap = 1 ∨ w.cfg.fees.dyn.filterPeriod ≤ a.clk.time) (hfit : CountersFit w 0) :
    ∃ w', w.step (.swap a) = .ok w' := by
  have ho : Ordinary w a := ⟨hcur, hclk, fun hl => by have := hl.buy; rw [hd] at this; cases this⟩
  obtain ⟨cur, v1, fm, r, -, -, -, -, -, -, -, -, hgo⟩ := partial_goes h hinc hpos hmin ho hfit
    (X := a.amount0) ⟨le_rfl, fun hl => by have := hl.buy; rw [hd] at this; cases this⟩ (fun e => by rw [hd] at e; cases e) (by unfold Exists; rw [hd]; exact he)
  obtain ⟨w', hw', -⟩ := hgo (.inl hm)
  exact ⟨w', hw'⟩

/-! Examples -/

theorem exUnlimited (m x y : Nat) (r : Bool) :
    ¬ LimitedBuy (Ex.after Ex.paramsB Ex.trading) ⟨m, x, y, .quoteToBase, r, ⟨1400, 1001300⟩, Ex.txSwap⟩ := by
  rintro ⟨-, -, -, cur, h1, h2⟩
  have e1 : currentPoint (Ex.after Ex.paramsB Ex.trading).cfg.activationType ⟨1400, 1001300⟩ = .ok 1400 := by
    decide +kernel
  dsimp only at h1
  rw [e1, ok_inj] at h1
  subst h1
  exact absurd h2 (by decide +kernel)

/-- Configuration B after some trading meets the hypotheses of C46, after the window of its rate limiter and inside it (for
a swap alone in its transaction). -/
theorem C46_example : Reachable (Ex.after Ex.paramsB Ex.trading) ∧
    (∃ w', (Ex.after Ex.paramsB Ex.trading).step
        (.swap ⟨1, 900000000000000, 0, .quoteToBase, true, ⟨1400, 1001300⟩, Ex.txSwap⟩) = .ok w' ∧
      w'.cfg.migrationQuoteThreshold ≤ w'.pool.quoteReserve ∧ w'.pool.migrationProgress ≠ 0 ∧
      traderIn w' .quote ≤ traderIn (Ex.after Ex.paramsB Ex.trading) .quote + 900000000000000) ∧
    LimitedBuy (Ex.after Ex.paramsB Ex.trading) ⟨1, 900000000000000, 0, .quoteToBase, true, ⟨900, 1001300⟩, Ex.txSwap⟩ ∧
    (∃ w', (Ex.after Ex.paramsB Ex.trading).step
        (.swap ⟨1, 900000000000000, 0, .quoteToBase, true, ⟨900, 1001300⟩, Ex.txSwap⟩) = .ok w' ∧
      w'.cfg.migrationQuoteThreshold ≤ w'.pool.quoteReserve ∧ w'.pool.migrationProgress ≠ 0 ∧
      traderIn w' .quote ≤ traderIn (Ex.after Ex.paramsB Ex.trading) .quote + 900900000030300) := by
  refine ⟨Ex.reachTradingB, C46_completable Ex.reachTradingB (by decide +kernel) rfl rfl rfl (by decide +kernel)
    (X := 900000000000000) ⟨le_rfl, fun h => absurd h (exUnlimited _ _ _ _)⟩ (by decide +kernel)
    ⟨⟨1400, by decide +kernel, by decide +kernel⟩, .inl (by decide +kernel), fun h => absurd h (exUnlimited _ _ _ _)⟩
    ⟨by decide +kernel, by decide +kernel⟩, ⟨by decide +kernel, by decide +kernel, rfl, 900, by decide +kernel, by decide +kernel⟩,
    C46_completable Ex.reachTradingB (by decide +kernel) rfl rfl rfl (by decide +kernel)
    (X := 900900000030300) ⟨by decide, fun _ => by decide⟩ (by decide +kernel)
    ⟨⟨900, by decide +kernel, by decide +kernel⟩, .inl (by decide +kernel), fun _ => ⟨rfl, ⟨_, rfl, rfl⟩, ?_, ?_⟩⟩
    ⟨by decide +kernel, by decide +kernel⟩⟩
  · decide +kernel
  · intro i hi; revert i hi; decide +kernel

/-- Configurations A and B after some trading: everything bought, not yet sold and not given to the vault is sold back at once. -/
theorem C53_example :
    (∃ w', (Ex.after Ex.paramsA Ex.trading).step
      (.swap ⟨0, 325745183160890, 0, .baseToQuote, true, ⟨1400, 1001300⟩, Ex.txSwap⟩) = .ok w') ∧
    (∃ w', (Ex.after Ex.paramsB Ex.trading).step
      (.swap ⟨0, 245312276586241, 0, .baseToQuote, true, ⟨1400, 1001300⟩, Ex.txSwap⟩) = .ok w') :=
  ⟨C53_sell_back Ex.reachTradingA (by decide +kernel) rfl rfl rfl (by decide) (by decide +kernel) (by decide +kernel)
      ⟨1001300, by decide +kernel, by decide +kernel⟩ (.inl (by decide +kernel)) ⟨by decide +kernel, by decide +kernel⟩,
   C53_sell_back Ex.reachTradingB (by decide +kernel) rfl rfl rfl (by decide) (by decide +kernel) (by decide +kernel)
      ⟨1400, by decide +kernel, by decide +kernel⟩ (.inl (by decide +kernel)) ⟨by decide +kernel, by decide +kernel⟩⟩

end Props

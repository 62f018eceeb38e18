import Verif.Props.Split
import Verif.Props.Partial
import Verif.Props.Serve
import Verif.Lemmas.SplitOut

/-!
# Cutting a trade into any number of pieces: C42

`C42_swap_split` (Props/Split) compares one swap with two. Here the swap is cut into any number of pieces, made at any time up
to the moment of the single swap.
-/

namespace Props
open Dbc Spec

/-- What is left of `m` after a fee at rate `n`, rounded up. -/
def keep (n m : Nat) : Nat := m - divCeil (m * n) FEE_DENOMINATOR

theorem keep_fee {n m : Nat} (hn : n ≤ FEE_DENOMINATOR) : divCeil (m * n) FEE_DENOMINATOR ≤ m := by
  rw [divCeil_le_iff (by decide)]
  exact Nat.mul_le_mul_left _ hn

theorem keep_of_fee {num m e : Nat} {ref : Bool} {f : FeeSplit} (h : feeOnAmount num m ref = .ok (e, f)) :
    e = keep num m := by
  obtain ⟨a1, a2, -⟩ := feeOnAmount_ok h
  unfold keep
  omega

theorem keep_rate {n n' m : Nat} (h : n ≤ n') : keep n' m ≤ keep n m := by
  have := divCeil_mono (b := FEE_DENOMINATOR) (by decide) (Nat.mul_le_mul_left m h)
  unfold keep
  omega

theorem keep_add {n x y : Nat} (hn : n ≤ FEE_DENOMINATOR) : keep n x + keep n y ≤ keep n (x + y) := by
  have h1 := keep_fee (m := x) hn
  have h2 := keep_fee (m := y) hn
  have h3 : divCeil ((x + y) * n) FEE_DENOMINATOR ≤ divCeil (x * n) FEE_DENOMINATOR + divCeil (y * n) FEE_DENOMINATOR := by
    rw [divCeil_le_iff (by decide), Nat.add_mul, Nat.add_mul]
    exact Nat.add_le_add (le_divCeil_mul _ (by decide)) (le_divCeil_mul _ (by decide))
  unfold keep
  omega

theorem keep_mono {n x y : Nat} (hn : n ≤ FEE_DENOMINATOR) (h : x ≤ y) : keep n x ≤ keep n y := by
  obtain ⟨k, rfl⟩ := Nat.exists_eq_add_of_le h
  exact le_trans (Nat.le_add_right _ _) (keep_add hn)

theorem walkIn_price {c : PoolConfig} {p q : Pool} (h : p.sqrtPrice = q.sqrtPrice) (d : TradeDirection) (n : Nat) :
    walkIn c p d n = walkIn c q d n := by
  cases d <;> simp only [walkIn, h]

/-- The side a fee is taken from depends only on the configuration and the direction. -/
theorem feesOnInput_same {cm : Nat} {d : TradeDirection} {r1 r2 : Bool} {f1 f2 : FeeMode}
    (h1 : getFeeMode cm d r1 = .ok f1) (h2 : getFeeMode cm d r2 = .ok f2) : f1.feesOnInput = f2.feesOnInput := by
  unfold getFeeMode at h1 h2
  split at h1
  · cases h1
  all_goals
    rename_i e
    rw [e] at h2
    cases d <;> simp only [ok_inj] at h1 h2 <;> subst h1 h2 <;> rfl

/-- Pieces that each pay at least the rate `n` receive together at most what one walk with all their net input gives. -/
theorem pieces_core {n act : Nat} {d : TradeDirection} {onIn : Bool} {F : Prop} {c : PoolConfig}
    (hn : n ≤ FEE_DENOMINATOR) (hin : ∀ ref fm, getFeeMode c.collectFeeMode d ref = .ok fm → fm.feesOnInput = onIn)
    {bs : List SwapArgs} {w w' : World} (h : Reachable w) (hcfg : w.cfg = c) (hact : w.pool.activationPoint = act)
    (hm : ∀ b ∈ bs, b.mode = 0 ∧ b.dir = d)
    (hrate : ∀ b ∈ bs, ∀ (p : Pool) cur fst num, p.activationPoint = act → currentPoint c.activationType b.clk = .ok cur →
      (fst = true → F) → numeratorIncluded c p cur b.amount0 d fst = .ok num → n ≤ num)
    (hfirst : ∀ b ∈ bs, w.firstMin b = true → F) (hu : (bs.map (·.amount0)).sum ≤ u64Max)
    (hrun : Run w (bs.map .swap) w') :
    ∃ M r, walkIn c w.pool d M = .ok r ∧
      M ≤ (if onIn then keep n (bs.map (·.amount0)).sum else (bs.map (·.amount0)).sum) ∧
      traderOut w' (outToken d) ≤ traderOut w (outToken d) + (if onIn then r.out else keep n r.out) := by
  induction bs generalizing w with
  | nil =>
    subst hcfg
    obtain ⟨ps, hc⟩ := h.core
    obtain ⟨r, hr⟩ := walkIn_total hc.good (p := w.pool) d hc.lo hc.hi (a := 0) (Nat.zero_le _)
    cases hrun
    exact ⟨0, r, hr, Nat.zero_le _, Nat.le_add_right _ _⟩
  | cons b bs ih =>
    cases hrun with | cons h1 hr1 => ?_
    rename_i w1
    simp only [List.map_cons, List.sum_cons] at hu ⊢
    obtain ⟨hmb, hdb⟩ := hm b (List.mem_cons_self ..)
    obtain ⟨cur, fm, r1, v1, _, s1⟩ := swap_ok h1
    have hf0 : ∀ b', w1.firstMin b' = false := by
      intro b'
      unfold World.firstMin
      rw [s1.hasSwap]; simp
    have ecfg : w1.cfg = w.cfg := step_cfg h1
    obtain ⟨M2, r2, k1, k2, k3⟩ := ih (h.step h1) (ecfg.trans hcfg) ((step_activation h1).trans hact)
      (fun b' hb' => hm b' (List.mem_cons_of_mem _ hb')) (fun b' hb' => hrate b' (List.mem_cons_of_mem _ hb'))
      (fun b' _ hb' => by rw [hf0 b'] at hb'; cases hb') (by omega) hr1
    subst hcfg
    obtain ⟨ps, hc⟩ := h.core
    obtain ⟨n1, net1, f1, g1, a1, a2, a3, a4, a5, a6⟩ := exact_in_parts hmb s1.proc
    have hmode := s1.hfm
    rw [hdb] at a1 a3 hmode
    have hni := hrate b (List.mem_cons_self ..) _ cur _ n1 (by exact hact) s1.hcur (hfirst b (List.mem_cons_self ..)) a1
    have hon := hin _ _ hmode
    have hnet1 : net1 ≤ (if onIn then keep n b.amount0 else b.amount0) := by
      cases hf : onIn with
      | true =>
        rw [hon, hf, if_pos rfl] at a2
        rw [keep_of_fee a2, if_pos rfl]
        exact keep_rate hni
      | false =>
        rw [hon, hf, if_neg (by simp), ok_inj, Prod.mk.injEq] at a2
        rw [if_neg (by simp)]
        omega
    have hsum : net1 + M2 ≤ (if onIn then keep n (b.amount0 + (bs.map (·.amount0)).sum)
        else b.amount0 + (bs.map (·.amount0)).sum) := by
      cases hf : onIn with
      | true =>
        rw [hf, if_pos rfl] at hnet1 k2
        rw [if_pos rfl]
        have := keep_add (x := b.amount0) (y := (bs.map (·.amount0)).sum) hn
        omega
      | false =>
        rw [hf, if_neg (by simp)] at hnet1 k2
        rw [if_neg (by simp)]
        omega
    have hmax : net1 + M2 ≤ u64Max := by
      refine hsum.trans ?_
      split
      · exact (Nat.sub_le _ _).trans hu
      · exact hu
    have e1 : walkIn w.cfg (atPrice w w.pool.sqrtPrice) d net1 = .ok g1 := by
      rw [← a3]; exact walkIn_price rfl _ _
    have e2 : walkIn w.cfg (atPrice w g1.next) d M2 = .ok r2 := by
      have hx : w1.pool.sqrtPrice = g1.next := s1.price.trans a5
      rw [← k1]; exact walkIn_price hx.symm _ _
    obtain ⟨r, er, hr, -⟩ := C42_split h hc.lo hc.hi hmax e1 a4 e2
    refine ⟨net1 + M2, r, by rw [← er]; exact walkIn_price rfl _ _, hsum, ?_⟩
    have q2 := (SwapStep.observed s1).got (outToken d)
    rw [hdb] at q2
    unfold tradeOf at q2
    dsimp only at q2
    rw [inTok_self] at q2
    cases hf : onIn with
    | true =>
      rw [hf, if_pos rfl] at k3
      rw [if_pos rfl]
      rcases a6 with ⟨i1, i2⟩ | ⟨i1, _⟩
      · omega
      · rw [hon, hf] at i1; cases i1
    | false =>
      rw [hf, if_neg (by simp)] at k3
      rw [if_neg (by simp)]
      rcases a6 with ⟨i1, _⟩ | ⟨_, g, i2⟩
      · rw [hon, hf] at i1; cases i1
      · have e := keep_of_fee i2
        have := keep_rate (m := g1.out) hni
        have := keep_add (x := g1.out) (y := r2.out) hn
        have := keep_mono (n := n) hn hr
        omega

theorem limiter_idle {w : World} {a : SwapArgs} {cur : Nat} (hr : Reachable w) (h : ¬ LimitedBuy w a)
    (e2 : w.cfg.fees.base.mode = 2) (hcur : currentPoint w.cfg.activationType a.clk = .ok cur) :
    limiterApplied w.cfg.fees.base cur w.pool.activationPoint a.dir = false := by
  unfold limiterApplied
  by_cases hz : limiterZero w.cfg.fees.base
  · rw [if_pos hz]
  · rw [if_neg hz]
    by_cases hd : a.dir = .baseToQuote
    · rw [if_pos hd]
    · rw [if_neg hd]
      have hd' : a.dir = .quoteToBase := by
        cases e : a.dir with
        | baseToQuote => exact absurd e hd
        | quoteToBase => rfl
      obtain ⟨q, env, -, hacc⟩ := hr.config
      rcases accepted_limiter hacc e2 with ⟨hz', -⟩ | l
      · exact absurd hz' hz
      · rw [if_pos]
        by_contra hle
        have hdur := l.dur
        exact h ⟨e2, by omega, hd', cur, hcur, by omega⟩

/-- Without volatility fee no swap made up to that moment pays a lower rate than a swap whose rate does not depend on size. -/
theorem rate_lowest {w : World} {s : SwapArgs} {p q : Pool} {cur cur' m m' n num : Nat} {fst : Bool} (hr : Reachable w)
    (hfree : SizeFree w s) (hdyn : w.cfg.fees.dyn.initialized = 0)
    (hp : p.activationPoint = w.pool.activationPoint) (hq : q.activationPoint = w.pool.activationPoint)
    (hcur : currentPoint w.cfg.activationType s.clk = .ok cur) (hm : m ≤ u64Max) (hm' : m' ≤ u64Max)
    (h1 : w.pool.activationPoint ≤ cur') (h2 : cur' ≤ cur) (hfst : fst = true → w.firstMin s = true)
    (hn : numeratorIncluded w.cfg p cur m s.dir (w.firstMin s) = .ok n)
    (hnum : numeratorIncluded w.cfg q cur' m' s.dir fst = .ok num) : n ≤ num := by
  obtain ⟨ps, env, -, hacc⟩ := hr.config
  obtain ⟨floor, hfl, hmin, hlo, hhi⟩ := accepted_floor hacc
  have hmx : floor ≤ MAX_FEE_NUMERATOR := hhi
  have hD : MAX_FEE_NUMERATOR ≤ FEE_DENOMINATOR := by decide
  unfold numeratorIncluded at hn hnum
  rw [hp] at hn
  rw [hq] at hnum
  cases hs : w.firstMin s with
  | true =>
    rw [hs, if_pos rfl, hmin, ok_inj] at hn
    subst hn
    cases hf : fst with
    | true =>
      rw [hf, if_pos rfl, hmin, ok_inj] at hnum
      omega
    | false =>
      rw [hf, if_neg (by simp)] at hnum
      obtain ⟨b, hb, e⟩ := totalFee_off hdyn hnum
      have := hfl.included _ _ _ _ _ hm' hb
      omega
  | false =>
    have hf : fst = false := by
      cases hf : fst with
      | true => rw [hfst hf] at hs; exact hs
      | false => rfl
    rw [hs, if_neg (by simp)] at hn
    rw [hf, if_neg (by simp)] at hnum
    obtain ⟨b, hb, e⟩ := totalFee_off hdyn hn
    obtain ⟨b', hb', e'⟩ := totalFee_off hdyn hnum
    have hle : b ≤ b' := by
      by_cases e2 : w.cfg.fees.base.mode = 2
      · have hna := limiter_idle hr (hfree.resolve_right (by rw [hs]; simp)) e2 hcur
        have hl := (C29_limiter_rate hacc e2 cur' w.pool.activationPoint s.dir m' hm').2.2.1 b' (.inl hb')
        simp only [baseFeeFromIncluded, e2, hna, Bool.false_eq_true, if_false, ok_inj] at hb
        omega
      · by_cases e01 : w.cfg.fees.base.mode = 0 ∨ w.cfg.fees.base.mode = 1
        · obtain ⟨fee, mn, hin, -, -, -, hanti, -⟩ := schedule_core hacc e01 w.pool.activationPoint
          obtain ⟨t, rfl⟩ := Nat.exists_eq_add_of_le h1
          obtain ⟨u, rfl⟩ := Nat.exists_eq_add_of_le (h1.trans h2)
          rw [hin, ok_inj] at hb hb'
          have := hanti t u (by omega)
          omega
        · obtain ⟨k, e3⟩ : ∃ k, w.cfg.fees.base.mode = k + 3 := ⟨w.cfg.fees.base.mode - 3, by omega⟩
          simp only [baseFeeFromIncluded, e3] at hb
          cases hb
    omega

theorem rate_capped {w : World} {p : Pool} {cur m n : Nat} {d : TradeDirection} {fst : Bool} (hr : Reachable w)
    (hdyn : w.cfg.fees.dyn.initialized = 0) (hn : numeratorIncluded w.cfg p cur m d fst = .ok n) :
    n ≤ FEE_DENOMINATOR := by
  obtain ⟨ps, env, -, hacc⟩ := hr.config
  obtain ⟨floor, hfl, hmin, hlo, hhi⟩ := accepted_floor hacc
  have hmx : floor ≤ MAX_FEE_NUMERATOR := hhi
  have hD : MAX_FEE_NUMERATOR ≤ FEE_DENOMINATOR := by decide
  unfold numeratorIncluded at hn
  rw [ite_ok] at hn
  rcases hn with ⟨-, hn⟩ | ⟨-, hn⟩
  · rw [hmin, ok_inj] at hn
    omega
  · obtain ⟨b, -, e⟩ := totalFee_off hdyn hn
    omega

/-- C42 with fees, any number of pieces: exact-in swaps of the same direction, made one after the other, together receive no
more than one exact-in swap of the sum of their inputs made at the start, if no piece is made later than the clock the single
swap is made at, the single swap's rate does not depend on its size, and there is no volatility fee. (The rate of a schedule
falls with time, so waiting can pay; cutting up cannot.) The single swap is assumed to get the first-swap discount if a piece
could. -/
theorem C42_pieces {w w' w3 : World} {bs : List SwapArgs} {s : SwapArgs} {z : Trade} (h : Reachable w)
    (hms : s.mode = 0) (hfree : SizeFree w s) (hdyn : w.cfg.fees.dyn.initialized = 0) (hu : s.amount0 ≤ u64Max)
    (hsum : (bs.map (·.amount0)).sum ≤ s.amount0)
    (hb : ∀ b ∈ bs, b.mode = 0 ∧ b.dir = s.dir ∧
      w.pool.activationPoint ≤ moment w.cfg.activationType b.clk.slot b.clk.time ∧
      moment w.cfg.activationType b.clk.slot b.clk.time ≤ moment w.cfg.activationType s.clk.slot s.clk.time)
    (hfirst : ∀ b ∈ bs, EligibleFirst w b → EligibleFirst w s)
    (hrun : Run w (bs.map .swap) w') (hone : w.step (.swap s) = .ok w3) (o3 : Observed w w3 s.dir z) :
    traderOut w' (outToken s.dir) ≤ traderOut w (outToken s.dir) + z.got := by
  obtain ⟨ps, hc⟩ := h.core
  obtain ⟨cur, fm, r3, v3, _, s3⟩ := swap_ok hone
  obtain ⟨n3, net3, f3, k3, c1, c2, c3, c4, c5, c6⟩ := exact_in_parts hms s3.proc
  have hlow : ∀ b ∈ bs, ∀ (p : Pool) cur' fst num, p.activationPoint = w.pool.activationPoint →
      currentPoint w.cfg.activationType b.clk = .ok cur' → (fst = true → w.firstMin s = true) →
      numeratorIncluded w.cfg p cur' b.amount0 s.dir fst = .ok num → n3 ≤ num := by
    intro b hbm p cur' fst num hp hcur' hfst hnum
    obtain ⟨-, -, i1, i2⟩ := hb b hbm
    rw [← currentPoint_moment hcur'] at i1 i2
    rw [← currentPoint_moment s3.hcur] at i2
    have hle : b.amount0 ≤ (bs.map (·.amount0)).sum := List.le_sum_of_mem (List.mem_map_of_mem hbm)
    exact (rate_lowest h hfree hdyn (by rfl) hp s3.hcur hu (by omega) i1 i2 hfst c1 hnum)
  have hD : n3 ≤ FEE_DENOMINATOR := rate_capped h hdyn c1
  obtain ⟨M, r, e1, e2, e3⟩ := pieces_core (F := w.firstMin s = true) hD
    (onIn := fm.feesOnInput) (fun ref fm' hfm' => feesOnInput_same hfm' s3.hfm) h rfl rfl (fun b hbm => ⟨(hb b hbm).1, (hb b hbm).2.1⟩)
    hlow (fun b hbm => by rw [firstMin_iff, firstMin_iff]; exact hfirst b hbm) (hsum.trans hu) hrun
  have hnet : M ≤ net3 := by
    cases hf : fm.feesOnInput with
    | true =>
      rw [hf, if_pos rfl] at c2 e2
      rw [keep_of_fee c2]
      exact e2.trans (keep_mono hD hsum)
    | false =>
      rw [hf, if_neg (by simp)] at e2
      rw [hf, if_neg (by simp), ok_inj, Prod.mk.injEq] at c2
      omega
  have hwk := (walkIn_mono hc.good (p := w.pool) hc.lo hc.hi hnet e1 (r' := k3) (by rw [← c3]; exact walkIn_price rfl _ _)).1
  have q1 := o3.got (outToken s.dir)
  have q2 := (SwapStep.observed s3).got (outToken s.dir)
  rw [inTok_self] at q1
  unfold tradeOf at q2
  dsimp only at q2
  rw [inTok_self] at q2
  cases hf : fm.feesOnInput with
  | true =>
    rw [hf, if_pos rfl] at e3
    rcases c6 with ⟨i1, i2⟩ | ⟨i1, _⟩
    · omega
    · rw [hf] at i1; cases i1
  | false =>
    rw [hf, if_neg (by simp)] at e3
    rcases c6 with ⟨i1, _⟩ | ⟨_, g, i2⟩
    · rw [hf] at i1; cases i1
    · have e := keep_of_fee i2
      have := keep_mono hD hwk
      omega

/-! ### Exact output -/

/-- The amount that leaves `m` after a fee at rate `n`, rounded up. -/
def raise (n m : Nat) : Nat := divCeil (m * FEE_DENOMINATOR) (FEE_DENOMINATOR - n)

theorem raise_of_fee {num m inc f : Nat} (h : includedFeeAmount num m = .ok (inc, f)) :
    inc = raise num m ∧ num < FEE_DENOMINATOR ∧ inc ≤ u64Max ∧ m ≤ u64Max := by
  obtain ⟨a1, a2, a3, a4, a5⟩ := includedFeeAmount_ok h
  exact ⟨a3, by omega, a5, by omega⟩

theorem raise_mono {n x y : Nat} (hn : n < FEE_DENOMINATOR) (h : x ≤ y) : raise n x ≤ raise n y :=
  divCeil_mono (by omega) (Nat.mul_le_mul_right _ h)

theorem raise_add {n x y : Nat} (hn : n < FEE_DENOMINATOR) : raise n (x + y) ≤ raise n x + raise n y := by
  unfold raise
  rw [divCeil_le_iff (by omega), Nat.add_mul, Nat.add_mul]
  exact Nat.add_le_add (le_divCeil_mul _ (by omega)) (le_divCeil_mul _ (by omega))

theorem raise_rate {n n' m : Nat} (hn : n' < FEE_DENOMINATOR) (h : n ≤ n') : raise n m ≤ raise n' m := by
  unfold raise
  rw [divCeil_le_iff (by omega)]
  exact (le_divCeil_mul (m * FEE_DENOMINATOR) (b := FEE_DENOMINATOR - n') (by omega)).trans
    (Nat.mul_le_mul_left _ (by omega))

theorem walkOut_price {c : PoolConfig} {p q : Pool} (h : p.sqrtPrice = q.sqrtPrice) (d : TradeDirection) (n : Nat) :
    walkOut c p d n = walkOut c q d n := by
  cases d <;> simp only [walkOut, h]

/-- Where two exact-out walks go through one after the other, so does one for the sum or less, and it takes no more. -/
theorem walkOut_split {c : PoolConfig} {ps : List Point} (hg : Good c ps) {p q : Pool} {d : TradeDirection} {a b t : Nat}
    {r1 r2 : FromOutput} (hlo : c.sqrtStartPrice ≤ p.sqrtPrice) (hhi : p.sqrtPrice ≤ c.migrationSqrtPrice)
    (h1 : walkOut c p d a = .ok r1) (hq : q.sqrtPrice = r1.next) (hq2 : r1.next ≤ c.migrationSqrtPrice)
    (h2 : walkOut c q d b = .ok r2) (ht : t ≤ a + b) (htu : t ≤ u64Max) (hu : r1.amountIn + r2.amountIn ≤ u64Max) :
    ∃ r, walkOut c p d t = .ok r ∧ r.amountIn ≤ r1.amountIn + r2.amountIn := by
  have hp := hg.curve.proper
  have hm := hg.migMax
  cases d with
  | quoteToBase =>
    simp only [walkOut] at h1 h2
    rw [hq] at h2
    obtain ⟨i, n, e1, e2, e3⟩ := buyOutLoop_split hp hlo (fun q hq => (price_le_top hp q hq).trans hg.topMax) hg.liqMax
      (buyOut_loop hg.curve h1) (buyOut_loop hg.curve h2) ht htu hu
    refine ⟨⟨i, n⟩, ?_, e2⟩
    obtain ⟨k, hn⟩ := hg.curve.stored
    simp only [walkOut, buyOut]
    rw [hn, buyOutLoop_pad, e1, ok_bind]
    dsimp only
    rw [(req_ok (u := ())).2 rfl, ok_bind]
  | baseToQuote =>
    simp only [walkOut] at h1 h2
    rw [hq, sellOut_down hg.curve hq2] at h2
    rw [sellOut_down hg.curve hhi] at h1
    have hliq : c.liq0 ≤ u128Max := by
      obtain ⟨k, hn⟩ := hg.curve.stored
      cases hps : ps with
      | nil => exact absurd hps hg.curve.nonempty
      | cons q qs =>
        unfold PoolConfig.liq0
        rw [hn, hps]
        exact hg.liqMax q (by rw [hps]; exact List.mem_cons_self)
    obtain ⟨r, e1, e2, e3⟩ := sellDownOut_split (downs_ok hp) hliq
      (fun d hd => by obtain ⟨q, hq, e⟩ := downs_liq_mem hd; rw [← e]; exact hg.liqMax q hq)
      (Dbc.Proper.lo_pos hp) hlo (by omega) h1 h2 ht htu hu
    exact ⟨r, by simp only [walkOut, sellOut_down hg.curve hhi]; exact e1, e2⟩

/-- Where an exact-out walk goes through, so does one for less, and it takes no more. -/
theorem walkOut_less {c : PoolConfig} {ps : List Point} (hg : Good c ps) {p : Pool} {d : TradeDirection} {a t : Nat}
    {r1 : FromOutput} (hlo : c.sqrtStartPrice ≤ p.sqrtPrice) (hhi : p.sqrtPrice ≤ c.migrationSqrtPrice)
    (h1 : walkOut c p d a = .ok r1) (ht : t ≤ a) (htu : t ≤ u64Max) (hu : r1.amountIn ≤ u64Max) :
    ∃ r, walkOut c p d t = .ok r ∧ r.amountIn ≤ r1.amountIn := by
  have hp := hg.curve.proper
  have hm := hg.migMax
  cases d with
  | quoteToBase =>
    simp only [walkOut] at h1
    obtain ⟨i, n, e1, e2, e3⟩ := buyOutLoop_less (e := 0) (inp' := 0) hp hlo
      (fun q hq => (price_le_top hp q hq).trans hg.topMax) hg.liqMax (buyOut_loop hg.curve h1) ht (by omega) htu hu
    refine ⟨⟨i, n⟩, ?_, e2⟩
    obtain ⟨k, hn⟩ := hg.curve.stored
    simp only [walkOut, buyOut]
    rw [hn, buyOutLoop_pad, e1, ok_bind]
    dsimp only
    rw [(req_ok (u := ())).2 rfl, ok_bind]
  | baseToQuote =>
    simp only [walkOut] at h1
    rw [sellOut_down hg.curve hhi] at h1
    have hliq : c.liq0 ≤ u128Max := by
      obtain ⟨k, hn⟩ := hg.curve.stored
      cases hps : ps with
      | nil => exact absurd hps hg.curve.nonempty
      | cons q qs =>
        unfold PoolConfig.liq0
        rw [hn, hps]
        exact hg.liqMax q (by rw [hps]; exact List.mem_cons_self)
    obtain ⟨r, e1, e2, e3⟩ := sellDownOut_less (e := 0) (acc' := 0) (downs_ok hp) hliq
      (fun d hd => by obtain ⟨q, hq, e⟩ := downs_liq_mem hd; rw [← e]; exact hg.liqMax q hq)
      (Dbc.Proper.lo_pos hp) hlo (by omega) h1 ht (by omega) htu hu
    exact ⟨r, by simp only [walkOut, sellOut_down hg.curve hhi]; exact e1, e2⟩

/-- What an exact-output swap charges, and where it ends. -/
theorem out_swap_parts {c : PoolConfig} {p : Pool} {a : SwapArgs} {fm : FeeMode} {cur : Nat} {fst : Bool} {r : SwapResult}
    (hm : a.mode = 2) (h : processSwap c p a fm cur fst = .ok r) :
    ∃ gross wk m num, walkOut c p a.dir gross = .ok wk ∧ r.next = wk.next ∧ wk.next ≤ c.migrationSqrtPrice ∧
      (r.excludedIn = wk.amountIn ∧ r.out = a.amount0) ∧
      numeratorExcluded c p cur m a.dir fst = .ok num ∧ m ≤ u64Max ∧ num < FEE_DENOMINATOR ∧
      ((fm.feesOnInput = true ∧ gross = a.amount0 ∧ r.includedIn = raise num wk.amountIn ∧ r.includedIn ≤ u64Max) ∨
        (fm.feesOnInput = false ∧ r.includedIn = wk.amountIn ∧ gross = raise num a.amount0 ∧ gross ≤ u64Max)) := by
  unfold processSwap at h
  simp only [hm, exactOut, bind_ok, req_ok, ok_inj, Prod.exists] at h
  obtain ⟨_, ⟨gross, f, hg, wk, hwk, _, hle, inc, f', hi, rfl⟩, _, _, rfl⟩ := h
  cases hf : fm.feesOnInput with
  | true =>
    rw [hf, if_pos rfl] at hg hi
    simp only [bind_ok, ok_inj, Prod.exists, Prod.mk.injEq] at hg hi
    obtain ⟨num, hn, i, g, hinc, _, _, rfl, _⟩ := hi
    obtain ⟨q1, q2, q3, q4⟩ := raise_of_fee hinc
    exact ⟨gross, wk, _, num, hwk, rfl, hle, ⟨rfl, rfl⟩, hn, q4, q2, .inl ⟨rfl, hg.1.symm, q1, q3⟩⟩
  | false =>
    rw [hf, if_neg (by simp)] at hg hi
    simp only [bind_ok, ok_inj, Prod.exists, Prod.mk.injEq] at hg hi
    obtain ⟨num, hn, i, g, hinc, _, _, rfl, _⟩ := hg
    obtain ⟨q1, q2, q3, q4⟩ := raise_of_fee hinc
    exact ⟨i, wk, _, num, hwk, rfl, hle, ⟨rfl, rfl⟩, hn, q4, q2, .inr ⟨rfl, hi.1.symm, q1, q3⟩⟩

/-- What goes into the reserve of a pool by one swap fits a balance. -/
theorem swap_excluded_max {w w' : World} {a : SwapArgs} {cur : Nat} {fm : FeeMode} {r : SwapResult} {v1 v2 : VolTracker}
    (h : Reachable w) (hs : w.step (.swap a) = .ok w') (s : SwapStep w a w' cur fm r v1 v2) : r.excludedIn ≤ u64Max := by
  have hm := (h.step hs).resMax
  cases hd : a.dir with
  | baseToQuote => have := (s.sellRes hd).1; omega
  | quoteToBase => have := (s.buyRes hd).1; omega

/-- The output a list of pieces takes from the curve when the fee has rate `n`. -/
def grossOf (n : Nat) (onIn : Bool) (m : Nat) : Nat := if onIn then m else raise n m

/-- What a walk costs when the fee has rate `n`. -/
def costOf (n : Nat) (onIn : Bool) (m : Nat) : Nat := if onIn then raise n m else m

theorem grossOf_add {n x y : Nat} {o : Bool} (hn : n < FEE_DENOMINATOR) : grossOf n o (x + y) ≤ grossOf n o x + grossOf n o y := by
  cases o
  · exact raise_add hn
  · exact le_rfl

theorem grossOf_mono {n x y : Nat} {o : Bool} (hn : n < FEE_DENOMINATOR) (h : x ≤ y) : grossOf n o x ≤ grossOf n o y := by
  cases o
  · exact raise_mono hn h
  · exact h

theorem costOf_add {n x y : Nat} {o : Bool} (hn : n < FEE_DENOMINATOR) : costOf n o (x + y) ≤ costOf n o x + costOf n o y := by
  cases o
  · exact le_rfl
  · exact raise_add hn

theorem costOf_mono {n x y : Nat} {o : Bool} (hn : n < FEE_DENOMINATOR) (h : x ≤ y) : costOf n o x ≤ costOf n o y := by
  cases o
  · exact h
  · exact raise_mono hn h

theorem le_costOf {n x : Nat} {o : Bool} (hn : n < FEE_DENOMINATOR) : x ≤ costOf n o x := by
  cases o
  · exact le_rfl
  · have h1 := le_divCeil_mul (x * FEE_DENOMINATOR) (b := FEE_DENOMINATOR - n) (by omega)
    have h2 : raise n x * (FEE_DENOMINATOR - n) ≤ raise n x * FEE_DENOMINATOR := Nat.mul_le_mul_left _ (by omega)
    exact Nat.le_of_mul_le_mul_right (h1.trans h2) (by decide)

/-- One exact-output piece against the rate `n`. -/
theorem out_piece {n num o0 paid : Nat} {onIn : Bool} {gross : Nat} {wk : FromOutput} (hn : n ≤ num) (hD : num < FEE_DENOMINATOR)
    (h : (onIn = true ∧ gross = o0 ∧ paid = raise num wk.amountIn ∧ paid ≤ u64Max) ∨
      (onIn = false ∧ paid = wk.amountIn ∧ gross = raise num o0 ∧ gross ≤ u64Max)) :
    grossOf n onIn o0 ≤ gross ∧ costOf n onIn wk.amountIn ≤ paid := by
  rcases h with ⟨rfl, rfl, rfl, -⟩ | ⟨rfl, rfl, rfl, -⟩
  · exact ⟨le_rfl, raise_rate hD hn⟩
  · exact ⟨raise_rate hD hn, le_rfl⟩

/-- Pieces that each pay at least the rate `n` pay together at least what one walk for all their output costs. -/
theorem out_pieces_core {n act : Nat} {d : TradeDirection} {onIn : Bool} {F : Prop} {c : PoolConfig}
    (hn : n < FEE_DENOMINATOR) (hin : ∀ ref fm, getFeeMode c.collectFeeMode d ref = .ok fm → fm.feesOnInput = onIn)
    {b : SwapArgs} {bs : List SwapArgs} {w w' : World} {t : Nat} (h : Reachable w) (hcfg : w.cfg = c)
    (hact : w.pool.activationPoint = act) (hm : ∀ x ∈ b :: bs, x.mode = 2 ∧ x.dir = d)
    (hrate : ∀ x ∈ b :: bs, ∀ (p : Pool) cur fst num m, p.activationPoint = act →
      currentPoint c.activationType x.clk = .ok cur → (fst = true → F) → m ≤ u64Max →
      numeratorExcluded c p cur m d fst = .ok num → n ≤ num)
    (hfirst : ∀ x ∈ b :: bs, w.firstMin x = true → F)
    (ht : t ≤ grossOf n onIn ((b :: bs).map (·.amount0)).sum) (hu : t ≤ u64Max)
    (hrun : Run w ((b :: bs).map .swap) w') (hpaid : traderIn w' (inToken d) ≤ traderIn w (inToken d) + u64Max) :
    ∃ r, walkOut c w.pool d t = .ok r ∧
      traderIn w (inToken d) + costOf n onIn r.amountIn ≤ traderIn w' (inToken d) := by
  induction bs generalizing b w t with
  | nil =>
    cases hrun with | cons h1 hr1 => ?_
    rename_i w1
    obtain ⟨hmb, hdb⟩ := hm b List.mem_cons_self
    obtain ⟨cur, fm, r1, v1, _, s1⟩ := swap_ok h1
    cases hr1
    subst hcfg
    obtain ⟨ps, hc⟩ := h.core
    obtain ⟨gross, wk, m, num, a1, a2, a3, a4, a5, a6, a7, a8⟩ := out_swap_parts hmb s1.proc
    have hmode := s1.hfm
    rw [hdb] at a1 a5 hmode
    have hni := hrate b List.mem_cons_self _ cur _ num m (by exact hact) s1.hcur (hfirst b List.mem_cons_self) a6 a5
    rw [hin _ _ hmode] at a8
    obtain ⟨g1, g2⟩ := out_piece hni a7 a8
    have hx := swap_excluded_max h h1 s1
    simp only [List.map_cons, List.map_nil, List.sum_cons, List.sum_nil, Nat.add_zero] at ht
    obtain ⟨r, e1, e2⟩ := walkOut_less hc.good (p := w.pool) hc.lo hc.hi (by rw [← a1]; exact walkOut_price rfl _ _)
      (ht.trans g1) hu (by omega)
    refine ⟨r, e1, ?_⟩
    have q2 := (SwapStep.observed s1).paid (inToken d)
    rw [hdb] at q2
    unfold tradeOf at q2
    dsimp only at q2
    rw [inTok_self] at q2
    have := costOf_mono (n := n) (o := onIn) hn e2
    omega
  | cons b2 bs ih =>
    cases hrun with | cons h1 hr1 => ?_
    rename_i w1
    obtain ⟨hmb, hdb⟩ := hm b List.mem_cons_self
    obtain ⟨cur, fm, r1, v1, _, s1⟩ := swap_ok h1
    have hf0 : ∀ b', w1.firstMin b' = false := by
      intro b'
      unfold World.firstMin
      rw [s1.hasSwap]; simp
    have ecfg : w1.cfg = w.cfg := step_cfg h1
    have q2 := (SwapStep.observed s1).paid (inToken d)
    rw [hdb] at q2
    unfold tradeOf at q2
    dsimp only at q2
    rw [inTok_self] at q2
    have hsum : ((b :: b2 :: bs).map (·.amount0)).sum = b.amount0 + ((b2 :: bs).map (·.amount0)).sum := by
      rw [List.map_cons (a := b), List.sum_cons]
    rw [hsum] at ht
    subst hcfg
    obtain ⟨ps, hc⟩ := h.core
    obtain ⟨gross, wk, m, num, a1, a2, a3, a4, a5, a6, a7, a8⟩ := out_swap_parts hmb s1.proc
    have hmode := s1.hfm
    rw [hdb] at a1 a5 hmode
    have hni := hrate b List.mem_cons_self _ cur _ num m (by exact hact) s1.hcur (hfirst b List.mem_cons_self) a6 a5
    rw [hin _ _ hmode] at a8
    obtain ⟨g1, g2⟩ := out_piece hni a7 a8
    have hadd := grossOf_add (n := n) (o := onIn) (x := b.amount0) (y := ((b2 :: bs).map (·.amount0)).sum) hn
    obtain ⟨r2, k1, k2⟩ := ih (t := t - gross) (h.step h1) ecfg ((step_activation h1).trans hact)
      (fun x hx => hm x (List.mem_cons_of_mem _ hx)) (fun x hx => hrate x (List.mem_cons_of_mem _ hx))
      (fun x _ hx => by rw [hf0 x] at hx; cases hx) (by omega) (by omega) hr1 (by omega)
    have l1 := le_costOf (n := n) (x := wk.amountIn) (o := onIn) hn
    have l2 := le_costOf (n := n) (x := r2.amountIn) (o := onIn) hn
    obtain ⟨r, e1, e2⟩ := walkOut_split hc.good (p := w.pool) (q := w1.pool) hc.lo hc.hi
      (by rw [← a1]; exact walkOut_price rfl _ _) (s1.price.trans a2) a3 k1 (t := t) (by omega) hu (by omega)
    refine ⟨r, e1, ?_⟩
    have c1 := costOf_mono (n := n) (o := onIn) hn e2
    have c2 := costOf_add (n := n) (o := onIn) (x := wk.amountIn) (y := r2.amountIn) hn
    omega

theorem totalFeeOut_off {f : PoolFeesConfig} {v : VolTracker} {cur act m n : Nat} {d : TradeDirection}
    (h0 : f.dyn.initialized = 0) (h : totalFeeFromExcluded f v cur act m d = .ok n) :
    ∃ b, baseFeeFromExcluded f.base cur act d m = .ok b ∧ n = min b MAX_FEE_NUMERATOR := by
  simp only [totalFeeFromExcluded, bind_ok] at h
  obtain ⟨b, hb, hn⟩ := h
  have e := totalFee_ok hn
  unfold volatilityPart at e
  rw [if_pos h0, Nat.add_zero] at e
  exact ⟨b, hb, e⟩

/-- The same as `rate_lowest` for exact-output swaps. -/
theorem rate_lowest_out {w : World} {s : SwapArgs} {p q : Pool} {cur cur' m m' n num : Nat} {fst : Bool} (hr : Reachable w)
    (hfree : SizeFree w s) (hdyn : w.cfg.fees.dyn.initialized = 0)
    (hp : p.activationPoint = w.pool.activationPoint) (hq : q.activationPoint = w.pool.activationPoint)
    (hcur : currentPoint w.cfg.activationType s.clk = .ok cur) (hm' : m' ≤ u64Max)
    (h1 : w.pool.activationPoint ≤ cur') (h2 : cur' ≤ cur) (hfst : fst = true → w.firstMin s = true)
    (hn : numeratorExcluded w.cfg p cur m s.dir (w.firstMin s) = .ok n)
    (hnum : numeratorExcluded w.cfg q cur' m' s.dir fst = .ok num) : n ≤ num := by
  obtain ⟨ps, env, -, hacc⟩ := hr.config
  obtain ⟨floor, hfl, hmin, hlo, hhi⟩ := accepted_floor hacc
  have hmx : floor ≤ MAX_FEE_NUMERATOR := hhi
  unfold numeratorExcluded at hn hnum
  rw [hp] at hn
  rw [hq] at hnum
  cases hs : w.firstMin s with
  | true =>
    rw [hs, if_pos rfl, hmin, ok_inj] at hn
    subst hn
    cases hf : fst with
    | true =>
      rw [hf, if_pos rfl, hmin, ok_inj] at hnum
      omega
    | false =>
      rw [hf, if_neg (by simp)] at hnum
      obtain ⟨b, hb, e⟩ := totalFeeOut_off hdyn hnum
      have := hfl.excluded _ _ _ _ _ hb
      omega
  | false =>
    have hf : fst = false := by
      cases hf : fst with
      | true => rw [hfst hf] at hs; exact hs
      | false => rfl
    rw [hs, if_neg (by simp)] at hn
    rw [hf, if_neg (by simp)] at hnum
    obtain ⟨b, hb, e⟩ := totalFeeOut_off hdyn hn
    obtain ⟨b', hb', e'⟩ := totalFeeOut_off hdyn hnum
    have hle : b ≤ b' := by
      by_cases e2 : w.cfg.fees.base.mode = 2
      · have hna := limiter_idle hr (hfree.resolve_right (by rw [hs]; simp)) e2 hcur
        have hl := (C29_limiter_rate hacc e2 cur' w.pool.activationPoint s.dir m' hm').2.2.1 b' (.inr hb')
        simp only [baseFeeFromExcluded, e2, hna, Bool.false_eq_true, if_false, ok_inj] at hb
        omega
      · by_cases e01 : w.cfg.fees.base.mode = 0 ∨ w.cfg.fees.base.mode = 1
        · obtain ⟨fee, mn, -, hex, -, -, hanti, -⟩ := schedule_core hacc e01 w.pool.activationPoint
          obtain ⟨t, rfl⟩ := Nat.exists_eq_add_of_le h1
          obtain ⟨u, rfl⟩ := Nat.exists_eq_add_of_le (h1.trans h2)
          rw [hex, ok_inj] at hb hb'
          have := hanti t u (by omega)
          omega
        · obtain ⟨k, e3⟩ : ∃ k, w.cfg.fees.base.mode = k + 3 := ⟨w.cfg.fees.base.mode - 3, by omega⟩
          simp only [baseFeeFromExcluded, e3] at hb
          cases hb
    omega

/-- C42, exact output: exact-out swaps of the same direction, made one after the other, together pay at least what one exact-out
swap for the sum of their outputs pays at the start, under the conditions of `C42_pieces`. -/
theorem C42_out_pieces {w w' w3 : World} {bs : List SwapArgs} {s : SwapArgs} {z : Trade} (h : Reachable w)
    (hms : s.mode = 2) (hfree : SizeFree w s) (hdyn : w.cfg.fees.dyn.initialized = 0)
    (hsum : s.amount0 ≤ (bs.map (·.amount0)).sum)
    (hb : ∀ b ∈ bs, b.mode = 2 ∧ b.dir = s.dir ∧
      w.pool.activationPoint ≤ moment w.cfg.activationType b.clk.slot b.clk.time ∧
      moment w.cfg.activationType b.clk.slot b.clk.time ≤ moment w.cfg.activationType s.clk.slot s.clk.time)
    (hfirst : ∀ b ∈ bs, EligibleFirst w b → EligibleFirst w s)
    (hrun : Run w (bs.map .swap) w') (hone : w.step (.swap s) = .ok w3) (o3 : Observed w w3 s.dir z) :
    traderIn w (inToken s.dir) + z.paid ≤ traderIn w' (inToken s.dir) := by
  obtain ⟨ps, hc⟩ := h.core
  obtain ⟨cur, fm, r3, v3, _, s3⟩ := swap_ok hone
  obtain ⟨gross, wk, m, n3, c1, c2, c3, c4, c5, c6, c7, c8⟩ := out_swap_parts hms s3.proc
  have q1 := o3.paid (inToken s.dir)
  have q2 := (SwapStep.observed s3).paid (inToken s.dir)
  rw [inTok_self] at q1
  unfold tradeOf at q2
  dsimp only at q2
  rw [inTok_self] at q2
  have hx := swap_excluded_max h hone s3
  have hmaxp : r3.includedIn ≤ u64Max := by
    rcases c8 with ⟨_, _, _, i⟩ | ⟨_, i, _⟩
    · exact i
    · omega
  by_cases hpaid : traderIn w' (inToken s.dir) ≤ traderIn w (inToken s.dir) + u64Max
  · cases bs with
    | nil =>
      simp only [List.map_nil, List.sum_nil] at hsum
      have := s3.pos
      omega
    | cons b bs =>
      have hlow : ∀ x ∈ b :: bs, ∀ (p : Pool) cur' fst num m', p.activationPoint = w.pool.activationPoint →
          currentPoint w.cfg.activationType x.clk = .ok cur' → (fst = true → w.firstMin s = true) → m' ≤ u64Max →
          numeratorExcluded w.cfg p cur' m' s.dir fst = .ok num → n3 ≤ num := by
        intro x hxm p cur' fst num m' hp hcur' hfst hm' hnum
        obtain ⟨-, -, i1, i2⟩ := hb x hxm
        rw [← currentPoint_moment hcur'] at i1 i2
        rw [← currentPoint_moment s3.hcur] at i2
        exact (rate_lowest_out h hfree hdyn (by rfl) hp s3.hcur hm' i1 i2 hfst c5 hnum)
      have hgross : gross = grossOf n3 fm.feesOnInput s.amount0 ∧ gross ≤ u64Max ∧
          r3.includedIn = costOf n3 fm.feesOnInput wk.amountIn := by
        rcases c8 with ⟨i1, i2, i3, i4⟩ | ⟨i1, i2, i3, i4⟩
        · rw [i1]
          refine ⟨i2, ?_, i3⟩
          have hm := h.resMax
          cases hd : s.dir with
          | baseToQuote => have := (s3.sellRes hd).2; omega
          | quoteToBase => have := (s3.buyRes hd).2; omega
        · rw [i1]
          exact ⟨i3, i4, i2⟩
      obtain ⟨g1, g2, g3⟩ := hgross
      obtain ⟨r, e1, e2⟩ := out_pieces_core (F := w.firstMin s = true) c7 (t := gross)
        (onIn := fm.feesOnInput) (fun ref fm' hfm' => feesOnInput_same hfm' s3.hfm) h rfl rfl
        (fun b hbm => ⟨(hb b hbm).1, (hb b hbm).2.1⟩)
        hlow (fun b hbm => by rw [firstMin_iff, firstMin_iff]; exact hfirst b hbm)
        (by rw [g1]; exact grossOf_mono c7 hsum) g2 hrun hpaid
      have e3 : walkOut w.cfg w.pool s.dir gross = .ok wk := by rw [← c1]; exact walkOut_price rfl _ _
      rw [e3, ok_inj] at e1
      subst e1
      omega
  · omega

/-- A plain exact-out buy at a given time. -/
def plainBuyOut (t n : Nat) : SwapArgs := ⟨2, n, u64Max, .quoteToBase, false, ⟨100 + t, 1000000 + t⟩, Ex.txSwap⟩

/-- Both tokens' trader totals after the given swaps. -/
def totalsAfter (w : World) : List SwapArgs → Res (Nat × Nat)
  | [] => .ok (traderIn w .quote, traderOut w .base)
  | b :: bs => do
    let w1 ← w.step (.swap b)
    totalsAfter w1 bs

/-- Three buys at three times, meeting all conditions of `C42_pieces` and of `C42_out_pieces`: together they receive less for the
same payment, and pay more for the same output, than the single buy. -/
theorem C42_pieces_example : Reachable (Ex.worldOf Ex.paramsC) ∧
    SizeFree (Ex.worldOf Ex.paramsC) (plainBuy 50 6000063) ∧ SizeFree (Ex.worldOf Ex.paramsC) (plainBuyOut 50 600000003) ∧
    (Ex.worldOf Ex.paramsC).cfg.fees.dyn.initialized = 0 ∧
    (Ex.worldOf Ex.paramsC).pool.activationPoint ≤ moment (Ex.worldOf Ex.paramsC).cfg.activationType 130 1000030 ∧
    totalsAfter (Ex.worldOf Ex.paramsC) [plainBuy 30 1000022, plainBuy 40 3000020, plainBuy 50 2000021] = .ok (6000063, 859397823) ∧
    totalsAfter (Ex.worldOf Ex.paramsC) [plainBuy 50 6000063] = .ok (6000063, 876500799) ∧
    totalsAfter (Ex.worldOf Ex.paramsC) [plainBuyOut 30 100000001, plainBuyOut 40 200000001, plainBuyOut 50 300000001] =
      .ok (4173863, 600000003) ∧
    totalsAfter (Ex.worldOf Ex.paramsC) [plainBuyOut 50 600000003] = .ok (4107284, 600000003) := by
  refine ⟨Ex.genesisC.reachable, .inl fun h => absurd h.1 (by decide +kernel), .inl fun h => absurd h.1 (by decide +kernel), ?_⟩
  decide +kernel

end Props

import Verif.Lemmas.Walk

/-!
# What `create_config` guarantees
-/

namespace Dbc
open Spec

/-! ### Sums over pieces -/

theorem total_cons {α : Type} [AddCommMonoid α] (f : Seg → Nat → α) (lo : Nat) (p : Point) (ps : List Point) (P : Nat) :
    total f (segs lo (p :: ps)) P =
      f ⟨lo, p.price, p.liq⟩ (clamp ⟨lo, p.price, p.liq⟩ P) + total f (segs p.price ps) P := by
  simp [total, segs]

theorem total_nil {α : Type} [AddCommMonoid α] (f : Seg → Nat → α) (lo P : Nat) :
    total f (segs lo []) P = 0 := by
  simp [total, segs]

/-- Nothing is accumulated at or below the start. -/
theorem total_start_nat (f : Seg → Nat → Nat) (hf : ∀ s, f s s.lo = 0) {lo : Nat} {ps : List Point}
    (h : Proper lo ps) {P : Nat} (hP : P ≤ lo) : total f (segs lo ps) P = 0 := by
  induction ps generalizing lo with
  | nil => exact total_nil f lo P
  | cons p ps ih =>
    simp only [Proper] at h
    rw [total_cons, ih h.2.2.2 (by omega), clamp_below (by exact hP), hf]

theorem quoteSegUp_lo (s : Seg) : quoteSegUp s s.lo = 0 := by
  rw [quoteSegUp_eq, Nat.sub_self, Nat.mul_zero]; exact divCeil_zero _ (by positivity)

theorem baseSegDown_lo (s : Seg) : baseSegDown s s.lo = 0 := by
  simp [baseSegDown]

theorem quoteToUp_start {lo : Nat} {ps : List Point} (h : Proper lo ps) {P : Nat} (hP : P ≤ lo) :
    quoteToUp (segs lo ps) P = 0 := total_start_nat _ quoteSegUp_lo h hP

theorem baseToDown_start {lo : Nat} {ps : List Point} (h : Proper lo ps) {P : Nat} (hP : P ≤ lo) :
    baseToDown (segs lo ps) P = 0 := total_start_nat _ baseSegDown_lo h hP

/-- A sum over pieces is monotone when each summand is. -/
theorem total_mono {f : Seg → Nat → Nat} {lo : Nat} {ps : List Point}
    (hf : ∀ s ∈ segs lo ps, ∀ x y, s.lo ≤ x → x ≤ y → f s x ≤ f s y) {P Q : Nat} (hPQ : P ≤ Q) :
    total f (segs lo ps) P ≤ total f (segs lo ps) Q := by
  unfold total
  apply List.sum_le_sum
  intro s hs
  apply hf s hs
  · unfold clamp; omega
  · unfold clamp; omega

theorem quoteSegUp_mono (s : Seg) {x y : Nat} (h : x ≤ y) : quoteSegUp s x ≤ quoteSegUp s y := by
  rw [quoteSegUp_eq, quoteSegUp_eq]
  exact divCeil_mono (by positivity) (Nat.mul_le_mul_left _ (by omega))

theorem baseSegDown_mono {s : Seg} (h0 : 0 < s.lo) {x y : Nat} (h1 : s.lo ≤ x) (h : x ≤ y) :
    baseSegDown s x ≤ baseSegDown s y := by
  have := baseSegDown_buy (s := s) (amt := 0) h0 h1 h (by simp)
  omega

theorem quoteToUp_mono {lo : Nat} {ps : List Point} (h : Proper lo ps) {P Q : Nat} (hPQ : P ≤ Q) :
    quoteToUp (segs lo ps) P ≤ quoteToUp (segs lo ps) Q :=
  total_mono (fun s _ _ _ _ h => quoteSegUp_mono s h) hPQ

theorem baseToDown_mono {lo : Nat} {ps : List Point} (h : Proper lo ps) {P Q : Nat} (hPQ : P ≤ Q) :
    baseToDown (segs lo ps) P ≤ baseToDown (segs lo ps) Q :=
  total_mono (fun _ hs _ _ h1 h' => baseSegDown_mono (segs_bounds h hs).2.2.1 h1 h') hPQ

/-! ### The migration price -/

theorem divCeil_exact' {L a D : Nat} (hL : 0 < L) (hL' : L ≤ D) : divCeil (L * (a * D / L)) D = a := by
  have hD : 0 < D := by omega
  have h1 : L * (a * D / L) ≤ a * D := Nat.mul_div_le _ _
  have h2 : a * D < L * (a * D / L) + L := by
    have := Nat.lt_div_mul_add (a := a * D) hL
    rw [Nat.mul_comm L]; exact this
  have hle : divCeil (L * (a * D / L)) D ≤ a := (divCeil_le_iff hD).2 h1
  have hge : a ≤ divCeil (L * (a * D / L)) D := by
    by_contra hlt
    have hlt : divCeil (L * (a * D / L)) D + 1 ≤ a := by omega
    have h3 := le_divCeil_mul (L * (a * D / L)) hD
    have h4 := Nat.mul_le_mul_right D hlt
    rw [Nat.add_mul] at h4
    omega
  omega

/-- The exact-cost step: for liquidity below `2^128` the price reached with `a` costs exactly `a`. -/
theorem divCeil_exact {L a : Nat} (hL : 0 < L) (hL' : L ≤ u128Max) :
    divCeil (L * (a * 2 ^ 128 / L)) (2 ^ 128) = a :=
  divCeil_exact' hL (le_trans hL' (by decide))

theorem thresholdPriceLoop_ok {ps : List Point} {lo left P : Nat} (hp : Proper lo ps)
    (hL : ∀ q ∈ ps, q.liq ≤ u128Max) (h : thresholdPriceLoop ps lo left = .ok (0, P)) :
    lo ≤ P ∧ P ≤ topPrice lo ps ∧ quoteToUp (segs lo ps) P = left ∧
      ∀ Q, Q ≤ topPrice lo ps → quoteToUp (segs lo ps) Q ≤ left → Q ≤ P := by
  induction ps generalizing lo left with
  | nil =>
    simp only [thresholdPriceLoop, ok_inj, Prod.mk.injEq] at h
    obtain ⟨rfl, rfl⟩ := h
    refine ⟨le_rfl, le_rfl, total_nil _ _ _, fun Q h1 _ => by simpa [topPrice] using h1⟩
  | cons p ps ih =>
    simp only [Proper] at hp
    obtain ⟨hlo, hlt, hliq, hp'⟩ := hp
    have hLp := hL p (List.mem_cons_self ..)
    have htop := Proper.lo_le_top hp'
    simp only [thresholdPriceLoop, bind_ok, deltaQuote256_ok] at h
    obtain ⟨mx, ⟨-, -, hmx⟩, h⟩ := h
    replace hmx : mx = divCeil (p.liq * (p.price - lo)) (2 ^ 128) := hmx
    rw [ite_ok] at h
    rcases h with ⟨hc, h⟩ | ⟨hc, h⟩
    · simp only [bind_ok, nextIn_quote_ok, ok_inj, Prod.mk.injEq] at h
      obtain ⟨n, ⟨-, -, -, -, hn, -⟩, -, rfl⟩ := h
      rw [hmx] at hc
      have hs := buyIn_step hliq hc hn
      have hrest : ∀ Q, Q ≤ p.price → quoteToUp (segs p.price ps) Q = 0 :=
        fun Q hQ => quoteToUp_start hp' hQ
      refine ⟨hs.1, by simp only [topPrice]; omega, ?_, ?_⟩
      · unfold quoteToUp at hrest ⊢
        rw [total_cons, hrest n (by omega), clamp_of_mem (by exact hs.1) (by somega), quoteSegUp_eq]
        dsimp only
        rw [hn, Nat.add_sub_cancel_left, divCeil_exact hliq hLp, Nat.add_zero]
      · intro Q hQ hcost
        by_contra hgt
        have hgt : n + 1 ≤ Q := by omega
        have hm := quoteToUp_mono (lo := lo) (ps := p :: ps) (by simp only [Proper]; exact ⟨hlo, hlt, hliq, hp'⟩) hgt
        have hcost2 := le_trans hm hcost
        unfold quoteToUp at hcost2
        rw [total_cons, clamp_of_mem (by somega) (by somega), quoteSegUp_eq] at hcost2
        dsimp only at hcost2
        have : divCeil (p.liq * (n + 1 - lo)) (2 ^ 128) ≤ left := le_trans (Nat.le_add_right _ _) hcost2
        rw [divCeil_le_iff (by positivity)] at this
        have e : n + 1 - lo = left * 2 ^ 128 / p.liq + 1 := by omega
        rw [e, Nat.mul_comm] at this
        have := (Nat.le_div_iff_mul_le hliq).2 this
        omega
    · simp only [bind_ok, castTo_ok, safeSub_ok] at h
      obtain ⟨m64, ⟨-, hm64⟩, left', ⟨hle, hleft⟩, h⟩ := h
      rw [← hm64] at hmx
      obtain ⟨i1, i2, i3, i4⟩ := ih hp' (fun q hq => hL q (List.mem_cons_of_mem _ hq)) h
      have hfull : ∀ Q, p.price ≤ Q → quoteToUp (segs lo (p :: ps)) Q = m64 + quoteToUp (segs p.price ps) Q := by
        intro Q hQ
        unfold quoteToUp
        rw [total_cons, clamp_above (by somega) (by exact hQ), quoteSegUp_eq]
        dsimp only
        rw [← hmx]
      refine ⟨by omega, by simpa only [topPrice] using i2, ?_, ?_⟩
      · rw [hfull P i1, i3]; omega
      · intro Q hQ hcost
        rcases Nat.lt_or_ge Q p.price with hq | hq
        · omega
        · rw [hfull Q hq] at hcost
          exact i4 Q (by simpa only [topPrice] using hQ) (by omega)

theorem migrationThresholdPrice_eq (threshold start : Nat) (p : Point) (ps : List Point) {P : Nat}
    (h : migrationThresholdPrice threshold start (p :: ps) = .ok P) :
    thresholdPriceLoop (p :: ps) start threshold = .ok (0, P) := by
  simp only [migrationThresholdPrice, bind_ok] at h
  obtain ⟨t, ht, h⟩ := h
  simp only [thresholdPriceLoop, ht, ok_bind]
  rw [ite_ok] at h
  rcases h with ⟨hc, h⟩ | ⟨hc, h⟩
  · rw [if_pos hc, h]; rfl
  · rw [if_neg hc]
    simp only [bind_ok, req_ok, ok_inj] at h
    obtain ⟨t', h1, l, h2, ⟨l', P'⟩, h3, h⟩ := h
    simp only [bind_ok, req_ok, ok_inj] at h
    obtain ⟨_, rfl, rfl⟩ := h
    rw [h1, ok_bind, h2, ok_bind, h3]

/-! ### Base needed for swaps -/

/-- Base amount of one piece, rounded up. -/
def baseSegUp (s : Seg) (x : Nat) : Nat := divCeil (s.L * (x - s.lo)) (s.lo * x)

theorem baseSegDown_le_up (s : Seg) (x : Nat) : baseSegDown s x ≤ baseSegUp s x := div_le_divCeil _ _

theorem baseSegUp_mono {s : Seg} (h0 : 0 < s.lo) {x y : Nat} (h1 : s.lo ≤ x) (h : x ≤ y) :
    baseSegUp s x ≤ baseSegUp s y := by
  unfold baseSegUp
  have hx : 0 < x := by omega
  have hy : 0 < y := by omega
  rw [divCeil_le_iff (by positivity)]
  have h2 := le_divCeil_mul (s.L * (y - s.lo)) (b := s.lo * y) (by positivity)
  have h3 := base_add (L := s.L) h1 h
  set q := divCeil (s.L * (y - s.lo)) (s.lo * y)
  have h4 : s.L * (x - s.lo) * y ≤ q * (s.lo * x) * y := by
    calc s.L * (x - s.lo) * y ≤ s.L * (y - s.lo) * x := by omega
      _ ≤ q * (s.lo * y) * x := Nat.mul_le_mul_right _ h2
      _ = q * (s.lo * x) * y := by ring
  exact Nat.le_of_mul_le_mul_right h4 hy

theorem total_le_total {f g : Seg → Nat → Nat} (hfg : ∀ s x, f s x ≤ g s x) (ss : List Seg) (P : Nat) :
    total f ss P ≤ total g ss P := by
  unfold total
  apply List.sum_le_sum
  intro s _
  exact hfg s _

theorem baseSegUp_lo (s : Seg) (h : 0 < s.lo) : baseSegUp s s.lo = 0 := by
  unfold baseSegUp; rw [Nat.sub_self, Nat.mul_zero]; exact divCeil_zero _ (by positivity)

theorem total_start_baseUp {lo : Nat} {ps : List Point} (h : Proper lo ps) {P : Nat} (hP : P ≤ lo) :
    total baseSegUp (segs lo ps) P = 0 := by
  induction ps generalizing lo with
  | nil => exact total_nil _ lo P
  | cons p ps ih =>
    simp only [Proper] at h
    rw [total_cons, ih h.2.2.2 (by omega), clamp_below (by exact hP), baseSegUp_lo _ h.1]

theorem baseTokenForSwapLoop_ok {mig : Nat} {ps : List Point} {lo acc r : Nat} (hp : Proper lo ps)
    (hlo : lo ≤ mig) (h : baseTokenForSwapLoop mig ps lo acc = .ok r) :
    r = acc + total baseSegUp (segs lo ps) mig := by
  induction ps generalizing lo acc with
  | nil =>
    simp only [baseTokenForSwapLoop, ok_inj] at h
    rw [total_nil]; omega
  | cons p ps ih =>
    simp only [Proper] at hp
    obtain ⟨h0, hlt, hliq, hp'⟩ := hp
    simp only [baseTokenForSwapLoop] at h
    rw [ite_ok] at h
    rw [total_cons]
    rcases h with ⟨hc, h⟩ | ⟨hc, h⟩
    · simp only [bind_ok, deltaBase256_ok, safeAdd_ok] at h
      obtain ⟨d, ⟨-, -, -, -, hd⟩, -, hr⟩ := h
      rw [total_start_baseUp hp' (by omega), clamp_of_mem (by exact hlo) (by somega), hr, hd]
      rfl
    · simp only [bind_ok, deltaBase256_ok, safeAdd_ok] at h
      obtain ⟨d, ⟨-, -, -, -, hd⟩, _, ⟨-, rfl⟩, h⟩ := h
      rw [ih hp' (by omega) h, clamp_above (by somega) (by somega), hd]
      simp only [divRound, baseSegUp]
      omega

/-! ### Curve validation -/

theorem validateCurveTail_ok {lo : Nat} {ps : List Point} (h0 : 0 < lo) :
    validateCurveTail lo ps = .ok () ↔ Proper lo ps := by
  induction ps generalizing lo with
  | nil => simp [validateCurveTail, Proper, h0]
  | cons p ps ih =>
    simp only [validateCurveTail, bind_ok, req_ok, Proper]
    constructor
    · rintro ⟨_, ⟨h1, h2⟩, h3⟩
      exact ⟨h0, h1, h2, (ih (by omega)).1 h3⟩
    · rintro ⟨_, h1, h2, h3⟩
      exact ⟨(), ⟨h1, h2⟩, (ih (by omega)).2 h3⟩

theorem topPrice_getLast (lo : Nat) (p : Point) (ps : List Point) :
    topPrice lo (p :: ps) = (List.getLast (p :: ps) (by simp)).price := by
  induction ps generalizing lo p with
  | nil => rfl
  | cons q qs ih =>
    simp only [topPrice]
    rw [List.getLast_cons (by simp)]
    have := ih p.price q
    simpa only [topPrice] using this

theorem validateCurve_ok {start : Nat} {ps : List Point} (h : validateCurve start ps = .ok ()) :
    MIN_SQRT_PRICE ≤ start ∧ start < MAX_SQRT_PRICE ∧ ps ≠ [] ∧ ps.length ≤ MAX_CURVE_POINT ∧ Proper start ps ∧
      topPrice start ps ≤ MAX_SQRT_PRICE := by
  simp only [validateCurve, bind_ok, req_ok] at h
  obtain ⟨_, ⟨h1, h2⟩, _, ⟨h3, h4⟩, h⟩ := h
  cases ps with
  | nil => simp at h3
  | cons p ps =>
    simp only [bind_ok, req_ok] at h
    obtain ⟨_, ⟨h5, h6, h7⟩, _, h8, h9⟩ := h
    have hs : 0 < start := by unfold MIN_SQRT_PRICE at h1; omega
    refine ⟨h1, h2, by simp, h4, ?_, ?_⟩
    · simp only [Proper]
      exact ⟨hs, h5, h6, (validateCurveTail_ok (by omega)).1 h8⟩
    · rw [topPrice_getLast]; exact h9

/-! ### Inversion of `create_config` -/

/-- The facts established by a successful `create_config`. -/
structure Accepted (p : ConfigParams) (env : ConfigEnv) (c : PoolConfig) : Prop where
  validated : p.validate env = .ok ()
  price : migrationThresholdPrice p.migrationQuoteThreshold p.sqrtStartPrice p.curve = .ok c.migrationSqrtPrice
  priceLt : c.migrationSqrtPrice < MAX_SQRT_PRICE
  swap : baseTokenForSwap p.sqrtStartPrice c.migrationSqrtPrice p.curve = .ok c.swapBaseAmount
  swapMax : c.swapBaseAmount ≤ u64Max
  mode : p.migratedFee.collectFeeMode ≤ 2
  amounts : ∃ q, migrationAmounts1 (migrationHandler p.migrationOption p.migratedFee.collectFeeMode)
      c.migrationSqrtPrice p.migrationQuoteThreshold p.migrationFeePct = .ok (c.migrationBaseThreshold, q) ∧
      validateCompounding p c.migrationSqrtPrice c.migrationBaseThreshold q = .ok ()
  basePos : 0 < c.migrationBaseThreshold
  swapPos : 0 < c.swapBaseAmount
  supply : resolveTokenSupply p env c.swapBaseAmount c.migrationBaseThreshold =
    .ok (c.fixedSupplyFlag, c.preMigrationSupply, c.postMigrationSupply)
  locked : ∃ b, c.lockedBpsAt SECONDS_PER_DAY = .ok b ∧ MIN_LOCKED_LIQUIDITY_BPS ≤ b
  eq : c = PoolConfig.init p env c.migrationSqrtPrice c.swapBaseAmount c.migrationBaseThreshold c.fixedSupplyFlag
    c.preMigrationSupply c.postMigrationSupply

theorem createConfig_ok {p : ConfigParams} {env : ConfigEnv} {c : PoolConfig} (h : createConfig p env = .ok c) :
    Accepted p env c := by
  simp only [createConfig, bind_ok, req_ok, castTo_ok, ok_inj] at h
  obtain ⟨_, h1, price, h2, _, h3, sw, h4, _, ⟨h5, rfl⟩, _, h6, ⟨base, q⟩, h7, _, ⟨h8, h8'⟩, _, h9, ⟨flag, pre, post⟩, h10,
    bps, h11, _, h12, rfl⟩ := h
  exact
    { validated := h1, price := h2, priceLt := h3, swap := h4, swapMax := h5, mode := h6, amounts := ⟨q, h7, h9⟩
      basePos := h8, swapPos := h8', supply := h10, locked := ⟨bps, h11, h12⟩, eq := rfl }

/-- The facts checked by `ConfigParameters::validate`. -/
structure Valid (p : ConfigParams) (env : ConfigEnv) : Prop where
  act : ∃ a, ActivationType.tryFrom p.activationType = some a ∧ poolFeesValidate p.fees p.collectFeeMode a = .ok ()
  creatorPct : p.creatorTradingFeePct ≤ 100
  migFee : p.migrationFeePct ≤ 99
  migCreator : p.creatorMigrationFeePct ≤ 100
  migZero : p.migrationFeePct = 0 → p.creatorMigrationFeePct = 0
  collect : (CollectFeeMode.tryFrom p.collectFeeMode).isSome
  option : p.migrationOption ≤ 1
  feeOption : p.migrationFeeOption ≤ 6
  tokenType : p.tokenType ≤ 1
  optionOk : validateMigrationOption p env = .ok ()
  authority : p.tokenUpdateAuthority ≤ 4
  decimals : 6 ≤ p.tokenDecimal ∧ p.tokenDecimal ≤ 9
  pct : p.partnerLiqPct + p.partnerPermLockedPct + p.creatorLiqPct + p.creatorPermLockedPct + p.partnerVesting.pct +
    p.creatorVesting.pct = 100
  threshold : 0 < p.migrationQuoteThreshold
  vesting : p.lockedVesting.validate = .ok ()
  creationFee : p.poolCreationFee = 0 ∨
    (MIN_POOL_CREATION_FEE ≤ p.poolCreationFee ∧ p.poolCreationFee ≤ MAX_POOL_CREATION_FEE)
  curve : validateCurve p.sqrtStartPrice p.curve = .ok ()
  quoteOk : env.quoteSupported = true

theorem validatePercentages_ok {p : ConfigParams} (h : validatePercentages p = .ok ()) :
    p.partnerLiqPct + p.partnerPermLockedPct + p.creatorLiqPct + p.creatorPermLockedPct + p.partnerVesting.pct +
      p.creatorVesting.pct = 100 := by
  simp only [validatePercentages, bind_ok, safeAdd_ok, req_ok] at h
  obtain ⟨_, ⟨_, rfl⟩, _, ⟨_, rfl⟩, _, ⟨_, rfl⟩, _, ⟨_, rfl⟩, _, ⟨_, rfl⟩, h⟩ := h
  exact h

theorem validate_ok {p : ConfigParams} {env : ConfigEnv} (h : p.validate env = .ok ()) : Valid p env := by
  simp only [ConfigParams.validate, bind_ok, req_ok] at h
  obtain ⟨_, h0, h⟩ := h
  split at h
  · cases h
  · rename_i act hact
    simp only [bind_ok, req_ok] at h
    obtain ⟨_, h1, _, h2, _, h3, _, h4, _, h5, _, h6, _, h7, _, h8, _, h9, _, h10, _, h11, _, h12, _, h13, _, h14, h15⟩ := h
    have h3' : p.migrationFeePct ≤ 99 ∧ p.creatorMigrationFeePct ≤ 100 ∧
        (p.migrationFeePct = 0 → p.creatorMigrationFeePct = 0) := by
      simp only [validateMigrationFee, bind_ok, req_ok, ite_ok] at h3
      obtain ⟨_, h3, h3'⟩ := h3
      have : p.migrationFeePct ≤ 99 := h3
      omega
    refine { act := ⟨act, hact, h1⟩, creatorPct := h2, migFee := h3'.1, migCreator := h3'.2.1, migZero := h3'.2.2,
             collect := h4, option := h5, feeOption := h6, tokenType := h7, optionOk := h8, authority := h9,
             decimals := h10, pct := validatePercentages_ok h11, threshold := h12, vesting := h13, creationFee := ?_,
             curve := h15, quoteOk := h0 }
    rw [ite_ok, req_ok] at h14
    rcases h14 with ⟨_, h⟩ | ⟨h, _⟩
    · exact .inr h
    · left; omega

/-! ### Supply -/

theorem usedCurve_pad {lo : Nat} {ps : List Point} (h : Proper lo ps) (n : Nat) :
    usedCurve (ps ++ List.replicate n ⟨0, 0⟩) = ps := by
  induction ps generalizing lo with
  | nil =>
    cases n with
    | zero => rfl
    | succ n => simp [List.replicate_succ, usedCurve]
  | cons p ps ih =>
    simp only [Proper] at h
    simp only [List.cons_append, usedCurve]
    rw [if_neg (by omega), ih h.2.2.2]

theorem swapAmountWithBuffer_ge {sw start mig s : Nat} {ps : List Point} (hp : Proper start ps)
    (h1 : start ≤ mig) (h2 : mig ≤ MAX_SQRT_PRICE)
    (hsw : sw = total baseSegUp (segs start ps) mig) (h : swapAmountWithBuffer sw start ps = .ok s) : sw ≤ s := by
  simp only [swapAmountWithBuffer, bind_ok, safeMul_ok, safeDiv_ok, safeAdd_ok] at h
  obtain ⟨_, ⟨_, rfl⟩, _, ⟨_, rfl⟩, _, ⟨_, rfl⟩, mx, hmx, h⟩ := h
  have e := baseTokenForSwapLoop_ok hp (by omega) hmx
  have hm : sw ≤ mx := by
    rw [hsw, e, Nat.zero_add]
    exact total_mono (fun s hs _ _ a b => baseSegUp_mono (segs_bounds hp hs).2.2.1 a b) h2
  simp only [ite_ok, ok_inj] at h
  rcases h with ⟨_, h⟩ | ⟨_, h⟩
  · rcases h with ⟨_, rfl⟩ | ⟨_, h⟩
    · omega
    · cases h
  · rcases h with ⟨_, rfl⟩ | ⟨_, h⟩
    · omega
    · cases h

theorem totalTokenSupply_ok {a b s : Nat} {v : LockedVesting} (h : totalTokenSupply a b v = .ok s) :
    ∃ t, v.total = .ok t ∧ s = a + b + t ∧ s ≤ u64Max := by
  simp only [totalTokenSupply, bind_ok, safeAdd_ok] at h
  obtain ⟨_, ⟨_, rfl⟩, t, ht, h1, rfl⟩ := h
  exact ⟨t, ht, rfl, h1⟩

theorem vesting_total_ok {v : LockedVesting} {t : Nat} :
    v.total = .ok t ↔ v.amountPerPeriod * v.numberOfPeriod ≤ u64Max ∧
      v.cliffUnlock + v.amountPerPeriod * v.numberOfPeriod ≤ u64Max ∧
      t = v.cliffUnlock + v.amountPerPeriod * v.numberOfPeriod := by
  simp only [LockedVesting.total, bind_ok, safeMul_ok, safeAdd_ok]
  constructor
  · rintro ⟨_, ⟨h1, rfl⟩, h2, rfl⟩; exact ⟨h1, h2, rfl⟩
  · rintro ⟨h1, h2, rfl⟩; exact ⟨_, ⟨h1, rfl⟩, h2, rfl⟩

/-- Everything later proofs use about an accepted configuration. -/
structure Good (c : PoolConfig) (ps : List Point) : Prop where
  curve : CurveOK c ps
  liqMax : ∀ q ∈ ps, q.liq ≤ u128Max
  cost : quoteToUp (segs c.sqrtStartPrice ps) c.migrationSqrtPrice = c.migrationQuoteThreshold
  highest : ∀ Q, Q ≤ topPrice c.sqrtStartPrice ps →
    quoteToUp (segs c.sqrtStartPrice ps) Q ≤ c.migrationQuoteThreshold → Q ≤ c.migrationSqrtPrice
  startMin : MIN_SQRT_PRICE ≤ c.sqrtStartPrice
  topMax : topPrice c.sqrtStartPrice ps ≤ MAX_SQRT_PRICE
  migMax : c.migrationSqrtPrice < MAX_SQRT_PRICE
  swap : c.swapBaseAmount = total baseSegUp (segs c.sqrtStartPrice ps) c.migrationSqrtPrice
  swapMax : c.swapBaseAmount ≤ u64Max
  swapPos : 0 < c.swapBaseAmount
  basePos : 0 < c.migrationBaseThreshold
  thresholdPos : 0 < c.migrationQuoteThreshold
  thresholdMax : c.migrationQuoteThreshold ≤ u64Max
  supply : ∀ s, c.initialBaseSupply = .ok s →
    ∃ t, c.lockedVesting.total = .ok t ∧ c.swapBaseAmount + c.migrationBaseThreshold + t ≤ s ∧ s ≤ u64Max
  fixed : c.fixedSupplyFlag = 1 → c.postMigrationSupply ≤ c.preMigrationSupply ∧ c.preMigrationSupply ≤ u64Max ∧
    ∃ t, c.lockedVesting.total = .ok t ∧ c.swapBaseAmount + c.migrationBaseThreshold + t ≤ c.postMigrationSupply
  flag : c.fixedSupplyFlag = 0 ∨ c.fixedSupplyFlag = 1
  creatorPct : c.creatorTradingFeePct ≤ 100
  migFee : c.migrationFeePct ≤ 99
  migCreator : c.creatorMigrationFeePct ≤ 100

theorem createConfig_curve {p : ConfigParams} {env : ConfigEnv} {c : PoolConfig} (h : createConfig p env = .ok c) :
    c.curve = padCurve p.curve ∧ c.sqrtStartPrice = p.sqrtStartPrice := by
  have ha := createConfig_ok h
  rw [ha.eq]; exact ⟨rfl, rfl⟩

theorem createConfig_good {p : ConfigParams} {env : ConfigEnv} {c : PoolConfig} (ht : p.Typed)
    (h : createConfig p env = .ok c) : Good c p.curve := by
  have ha := createConfig_ok h
  have hv := validate_ok ha.validated
  obtain ⟨c1, c2, c3, c4, c5, c6⟩ := validateCurve_ok hv.curve
  have es : c.sqrtStartPrice = p.sqrtStartPrice := by rw [ha.eq]; rfl
  have et : c.migrationQuoteThreshold = p.migrationQuoteThreshold := by rw [ha.eq]; rfl
  have ec : c.curve = padCurve p.curve := by rw [ha.eq]; rfl
  have ev : c.lockedVesting = p.lockedVesting := by rw [ha.eq]; rfl
  have hL : ∀ q ∈ p.curve, q.liq ≤ u128Max := fun q hq => (ht.curve q hq).2
  obtain ⟨q0, qs, hqs⟩ : ∃ q qs, p.curve = q :: qs := by
    cases hcv : p.curve with
    | nil => exact absurd hcv c3
    | cons q qs => exact ⟨q, qs, rfl⟩
  have hprice := ha.price
  rw [hqs] at hprice
  have hloop := migrationThresholdPrice_eq _ _ _ _ hprice
  rw [← hqs] at hloop
  obtain ⟨t1, t2, t3, t4⟩ := thresholdPriceLoop_ok c5 hL hloop
  have hsw := baseTokenForSwapLoop_ok c5 t1 ha.swap
  rw [Nat.zero_add] at hsw
  have hres := ha.supply
  unfold resolveTokenSupply at hres
  have hfix : (c.fixedSupplyFlag = 0 ∨ c.fixedSupplyFlag = 1) ∧
      (c.fixedSupplyFlag = 1 → c.postMigrationSupply ≤ c.preMigrationSupply ∧ c.preMigrationSupply ≤ u64Max ∧
      ∃ t, p.lockedVesting.total = .ok t ∧ c.swapBaseAmount + c.migrationBaseThreshold + t ≤ c.postMigrationSupply) := by
    split at hres
    · rename_i pre post hts
      simp only [bind_ok, req_ok, ok_inj, Prod.mk.injEq] at hres
      obtain ⟨b, hb, mw, hmw, mo, hmo, _, _, _, ⟨r1, r2, r3⟩, e1, e2, e3⟩ := hres
      refine ⟨.inr e1.symm, fun _ => ?_⟩
      obtain ⟨t, a1, a2, a3⟩ := totalTokenSupply_ok hmo
      have := ht.supply pre post hts
      refine ⟨by omega, by omega, t, a1, by omega⟩
    · simp only [ok_inj, Prod.mk.injEq] at hres
      exact ⟨.inl hres.1.symm, fun hh => by omega⟩
  refine
    { curve := ⟨⟨_, ec⟩, by rw [es]; exact c5, c3, by rw [es]; exact t1, by rw [es]; exact t2⟩
      liqMax := hL
      cost := by rw [es, et]; exact t3
      highest := by rw [es, et]; exact t4
      startMin := by rw [es]; exact c1
      topMax := by rw [es]; exact c6
      migMax := ha.priceLt
      swap := by rw [es]; exact hsw
      swapMax := ha.swapMax
      swapPos := ha.swapPos
      basePos := ha.basePos
      thresholdPos := by rw [et]; exact hv.threshold
      thresholdMax := by rw [et]; exact ht.threshold
      supply := ?_
      fixed := by rw [ev]; exact hfix.2
      flag := hfix.1
      creatorPct := by rw [ha.eq]; exact hv.creatorPct
      migFee := by rw [ha.eq]; exact hv.migFee
      migCreator := by rw [ha.eq]; exact hv.migCreator }
  intro s hs
  unfold PoolConfig.initialBaseSupply at hs
  rw [ite_ok] at hs
  rcases hs with ⟨hf, hs⟩ | ⟨hf, hs⟩
  · obtain ⟨a1, a2, t, a3, a4⟩ := hfix.2 hf
    rw [ok_inj] at hs
    exact ⟨t, by rw [ev]; exact a3, by omega, by omega⟩
  · simp only [bind_ok] at hs
    obtain ⟨b, hb, hs⟩ := hs
    obtain ⟨t, a1, a2, a3⟩ := totalTokenSupply_ok hs
    rw [ec, es] at hb
    unfold padCurve at hb
    rw [usedCurve_pad c5] at hb
    have := swapAmountWithBuffer_ge c5 t1 (by omega) hsw hb
    exact ⟨t, a1, by omega, a3⟩

end Dbc

import Verif.Lemmas.Damm
import Verif.Lemmas.Limiter
import Verif.Lemmas.Vesting
import Verif.Spec.Accept

/-!
# When the checks of `create_config` pass: fees and vesting
-/

namespace Dbc

open Spec

theorem ceil_up (a b : Nat) : ceilDiv a b = divCeil a b := by
  unfold ceilDiv divCeil
  rcases Nat.eq_zero_or_pos b with rfl | hb
  · rw [Nat.div_zero, Nat.div_zero]
  · congr 1; omega

/-! ### Exponential rates -/

/-- An exponential rate that stays above 0.01% can be computed. -/
theorem getFeeInPeriod_some {cliff rf n : Nat} (h0 : 0 < rf) (hrf : rf ≤ 10000) (hn : n ≤ u16Max)
    (hc : cliff ≤ MAX_FEE_NUMERATOR) (hx : (100000 : ℚ) ≤ cliff * (1 - (rf : ℚ) / 10000) ^ n) :
    ∃ f, getFeeInPeriod cliff rf n = .ok f := by
  obtain ⟨e0, e1, e2, e3, -⟩ := expBase_bounds h0 hrf
  have hx0 : (0 : ℚ) ≤ 1 - (rf : ℚ) / 10000 := by
    have : (rf : ℚ) ≤ 10000 := by exact_mod_cast hrf
    rw [sub_nonneg, div_le_one (by norm_num)]; exact this
  have hle : rf * 2 ^ 64 / 10000 ≤ 2 ^ 64 := Nat.div_le_of_le_mul (Nat.mul_le_mul_right _ hrf)
  have hb : 2 ^ 64 - rf * 2 ^ 64 / 10000 < 2 ^ 64 := by
    have : 0 < rf * 2 ^ 64 / 10000 := by
      rw [Nat.div_pos_iff]; refine ⟨by decide, ?_⟩
      have : 1 * 2 ^ 64 ≤ rf * 2 ^ 64 := Nat.mul_le_mul_right _ h0
      omega
    omega
  have hpow : (1 - (rf : ℚ) / 10000) ^ n ≤ expBase rf ^ n := pow_le_pow_left₀ hx0 e2 n
  have hc' : (cliff : ℚ) ≤ 990000000 := by exact_mod_cast hc
  have hp0 : (0 : ℚ) ≤ (1 - (rf : ℚ) / 10000) ^ n := pow_nonneg hx0 n
  have hbig : (1 : ℚ) / 9900 ≤ expBase rf ^ n := by
    have : (cliff : ℚ) * (1 - (rf : ℚ) / 10000) ^ n ≤ 990000000 * (1 - (rf : ℚ) / 10000) ^ n :=
      mul_le_mul_of_nonneg_right hc' hp0
    have h9 : (100000 : ℚ) ≤ 990000000 * expBase rf ^ n := by linarith
    linarith
  have hnm : n < MAX_EXPONENTIAL := lt_of_le_of_lt hn (by decide)
  have hn' : (n : ℚ) ≤ 65535 := by exact_mod_cast hn
  obtain ⟨r, hr⟩ := powQ64_defined hb hnm (by
    have : (2 : ℚ) ^ 64 * (1 / 9900) ≤ 2 ^ 64 * expBase rf ^ n := mul_le_mul_of_nonneg_left hbig (by positivity)
    have h2 : (65535 : ℚ) < 2 ^ 64 * (1 / 9900) := by norm_num
    unfold expBase at this
    linarith)
  obtain ⟨-, -, -, k4⟩ := powQ64_ok hb hnm hr
  have hc2 : cliff ≤ 990000000 := hc
  have hm : r * cliff ≤ 2 ^ 64 * 990000000 := Nat.mul_le_mul k4 hc2
  have h128 : 2 ^ 64 * 990000000 ≤ u128Max := by decide
  have hu : 990000000 ≤ u64Max := by decide
  have hq : r * cliff / 2 ^ 64 ≤ 990000000 := Nat.div_le_of_le_mul hm
  exact ⟨_, getFeeInPeriod_ok.2 ⟨hle, r, hr, hm.trans h128, rfl, hq.trans hu⟩⟩

/-- With two units to spare above a floor of at least 0.01%, the computed rate is above the floor. -/
theorem getFeeInPeriod_floor {cliff rf n F : Nat} (h0 : 0 < rf) (hrf : rf ≤ 10000) (hn : n ≤ u16Max)
    (hc : cliff ≤ MAX_FEE_NUMERATOR) (hF : 100000 ≤ F) (hx : (F : ℚ) + 2 ≤ cliff * (1 - (rf : ℚ) / 10000) ^ n) :
    ∃ f, getFeeInPeriod cliff rf n = .ok f ∧ F ≤ f ∧ f ≤ cliff := by
  have hF' : (100000 : ℚ) ≤ F := by exact_mod_cast hF
  obtain ⟨f, hf⟩ := getFeeInPeriod_some h0 hrf hn hc (by linarith)
  obtain ⟨b1, b2⟩ := getFeeInPeriod_accurate h0 hn hc hf
  refine ⟨f, hf, ?_, ?_⟩
  · have : (F : ℚ) ≤ f := by linarith
    exact_mod_cast this
  · obtain ⟨e0, e1, -⟩ := expBase_bounds h0 hrf
    obtain ⟨c1, -⟩ := getFeeInPeriod_bounds h0 hn hf
    have hp : expBase rf ^ n ≤ 1 := pow_le_one₀ e0 e1.le
    have hcl : (0 : ℚ) ≤ cliff := by positivity
    have : (f : ℚ) ≤ cliff := by
      have := mul_le_mul_of_nonneg_left hp hcl
      linarith
    exact_mod_cast this

theorem getFeeInPeriod_floor' {cliff rf n F f : Nat} (h0 : 0 < rf) (hn : n ≤ u16Max)
    (hc : cliff ≤ MAX_FEE_NUMERATOR) (h : getFeeInPeriod cliff rf n = .ok f) (hF : F ≤ f) :
    rf ≤ 10000 ∧ (F : ℚ) + (-2) ≤ cliff * (1 - (rf : ℚ) / 10000) ^ n := by
  obtain ⟨b1, b2⟩ := getFeeInPeriod_accurate h0 hn hc h
  have : (F : ℚ) ≤ f := by exact_mod_cast hF
  exact ⟨rf_le (getFeeInPeriod_ok.1 h).1, by linarith⟩

theorem validateFeeFraction_ok {n : Nat} {u : Unit} : validateFeeFraction n FEE_DENOMINATOR = .ok u ↔ n < 1000000000 := by
  unfold validateFeeFraction
  have e : FEE_DENOMINATOR = 1000000000 := rfl
  rw [e]
  split
  · rename_i h; constructor
    · intro h; cases h
    · intro h2; omega
  · rename_i h; constructor
    · intro _; omega
    · intro _; rfl

/-! ### The trading fee -/

theorem scheduler_shape {b : BaseFeeConfig} {u : Unit} :
    (if b.second ≠ 0 ∨ b.first ≠ 0 ∨ b.third ≠ 0 then
      req (b.first ≠ 0 ∧ b.second ≠ 0 ∧ b.third ≠ 0) Err.invalidFeeScheduler
    else .ok ()) = .ok u ↔ AllOrNone b.first b.second b.third := by
  rw [ite_ok, req_ok]
  unfold AllOrNone
  constructor
  · rintro (⟨_, h⟩ | ⟨h, _⟩) <;> omega
  · rintro (h | h)
    · exact .inr ⟨by omega, rfl⟩
    · exact .inl ⟨by omega, by omega⟩

/-- The linear schedule. -/
theorem schedulerValidate_linear {b : BaseFeeConfig} (hm : b.mode = 0) : schedulerValidate b = .ok () ↔
    b.cliff ≤ 990000000 ∧ AllOrNone b.first b.second b.third ∧ 2500000 + b.third * b.first ≤ b.cliff := by
  have hu : 990000000 ≤ u64Max := by decide
  have e1 : MIN_FEE_NUMERATOR = 2500000 := rfl
  have e2 : MAX_FEE_NUMERATOR = 990000000 := rfl
  simp only [schedulerValidate, bind_ok, scheduler_shape, req_ok, schedulerByPeriod, hm, Nat.min_self, safeMul_ok, safeSub_ok,
    validateFeeFraction_ok, e1, e2]
  constructor
  · rintro ⟨_, h1, mn, ⟨_, ⟨_, rfl⟩, h2, rfl⟩, _, _, _, _, h3, h4⟩
    exact ⟨h4, h1, by omega⟩
  · rintro ⟨h1, h2, h3⟩
    exact ⟨(), h2, _, ⟨_, ⟨by omega, rfl⟩, by omega, rfl⟩, (), by omega, (), by omega, by omega, h1⟩

/-- The exponential schedule, accepted with two units to spare. -/
theorem schedulerValidate_exp {b : BaseFeeConfig} (hm : b.mode = 1) (h16 : b.first ≤ u16Max) (h1 : b.cliff ≤ 990000000)
    (h2 : AllOrNone b.first b.second b.third) (h3 : b.third ≤ 10000)
    (h4 : 2500000 + (2 : ℚ) ≤ b.cliff * (1 - (b.third : ℚ) / 10000) ^ b.first) : schedulerValidate b = .ok () := by
  have hu : 990000000 ≤ u64Max := by decide
  have e1 : MIN_FEE_NUMERATOR = 2500000 := rfl
  have e2 : MAX_FEE_NUMERATOR = 990000000 := rfl
  have key : ∃ f, getFeeInPeriod b.cliff b.third b.first = .ok f ∧ 2500000 ≤ f ∧ f ≤ b.cliff := by
    rcases h2 with ⟨k1, k2, k3⟩ | ⟨k1, k2, k3⟩
    · rw [k1, k3] at h4 ⊢
      refine ⟨b.cliff, getFeeInPeriod_zero (by omega) (by omega), ?_, le_rfl⟩
      rw [pow_zero, mul_one] at h4
      have : (2500000 : ℚ) ≤ b.cliff := by linarith
      exact_mod_cast this
    · exact getFeeInPeriod_floor (F := 2500000) k3 h3 h16 h1 (by omega) (by exact_mod_cast h4)
  obtain ⟨f, hf, f1, f2⟩ := key
  simp only [schedulerValidate, bind_ok, scheduler_shape, req_ok, schedulerByPeriod, hm, Nat.min_self, if_pos h16,
    validateFeeFraction_ok, e1, e2]
  exact ⟨(), h2, f, hf, (), by omega, (), by omega, f1, h1⟩

/-- What acceptance of an exponential schedule tells. -/
theorem schedulerValidate_exp' {b : BaseFeeConfig} (hm : b.mode = 1) (h : schedulerValidate b = .ok ()) :
    b.cliff ≤ 990000000 ∧ AllOrNone b.first b.second b.third ∧ b.third ≤ 10000 ∧
      2500000 + (-2 : ℚ) ≤ b.cliff * (1 - (b.third : ℚ) / 10000) ^ b.first := by
  have e1 : MIN_FEE_NUMERATOR = 2500000 := rfl
  have e2 : MAX_FEE_NUMERATOR = 990000000 := rfl
  simp only [schedulerValidate, bind_ok, scheduler_shape, req_ok, schedulerByPeriod, hm, Nat.min_self, e1, e2] at h
  obtain ⟨_, h1, mn, hf, _, _, _, _, h3, h4⟩ := h
  simp only [ite_ok, reduceCtorEq, and_false, or_false] at hf
  obtain ⟨h16, hf⟩ := hf
  have h1' := h1
  rcases h1' with ⟨k1, k2, k3⟩ | ⟨k1, k2, k3⟩
  · refine ⟨h4, h1, by omega, ?_⟩
    rw [k1, k3] at hf ⊢
    rw [getFeeInPeriod_zero (by omega) (h4.trans (by decide)), ok_inj] at hf
    rw [pow_zero, mul_one]
    have : (2500000 : ℚ) ≤ b.cliff := by exact_mod_cast (by omega : 2500000 ≤ b.cliff)
    linarith
  · obtain ⟨r1, r2⟩ := getFeeInPeriod_floor' (F := 2500000) k3 h16 h4 hf h3
    exact ⟨h4, h1, r1, by exact_mod_cast r2⟩

/-- The rate limiter. -/
theorem limiterValidate_iff {b : BaseFeeConfig} {cm act : Nat} {a : ActivationType} (ha : ActivationType.tryFrom act = some a)
    (h3u : b.third ≤ u64Max) : limiterValidate b cm a = .ok () ↔ b.cliff ≤ 990000000 ∧ AllOrNone b.first b.second b.third ∧
      cm = 0 ∧ 2500000 ≤ b.cliff ∧ (0 < b.first → b.first < 10000 ∧ b.second ≤ (if act = 0 then 108000 else 43200) ∧
        TopFeeFits b.third b.cliff (b.first * 100000)) := by
  have e1 : MIN_FEE_NUMERATOR = 2500000 := rfl
  have e2 : MAX_FEE_NUMERATOR = 990000000 := rfl
  have e3 : FEE_DENOMINATOR = 1000000000 := rfl
  have e4 : u64Max = 2 ^ 64 - 1 := rfl
  have hu : 10000 * 100000 ≤ u64Max := by decide
  have hU : 0 < u64Max := by decide
  have ha' : (a = .slot ∧ act = 0) ∨ (a = .timestamp ∧ act = 1) := by
    unfold ActivationType.tryFrom at ha
    split at ha <;> cases ha
    · exact .inl ⟨rfl, rfl⟩
    · exact .inr ⟨rfl, rfl⟩
  have htop : ∀ l : Limiter b, (∃ mx, limiterFromIncluded b u64Max = .ok mx ∧ 2500000 ≤ b.cliff ∧ mx ≤ 990000000) ↔
      TopFeeFits b.third b.cliff (b.first * 100000) := by
    intro l
    have hl := l.lo
    have hh := l.hi
    rw [e1] at hl
    rw [e2] at hh
    unfold TopFeeFits
    rw [← e4, ceil_up]
    rcases Nat.lt_or_ge b.third u64Max with hlt | hge
    · rw [limiterFromIncluded_eq l hlt le_rfl]
      constructor
      · rintro ⟨mx, h1, _, h2⟩
        right
        rw [ok_inj] at h1
        rw [← h1, divCeil_le_iff hU] at h2
        exact h2
      · rintro (h | h)
        · omega
        · exact ⟨_, rfl, hl, (divCeil_le_iff hU).2 h⟩
    · constructor
      · intro _; left; omega
      · intro _
        refine ⟨b.cliff, ?_, hl, hh⟩
        unfold limiterFromIncluded
        rw [if_pos hge]
  unfold limiterValidate
  constructor
  · intro h
    have hl := limiter_ok h
    cases hc : CollectFeeMode.tryFrom cm with
    | none => rw [hc] at h; cases h
    | some m =>
      rw [hc] at h
      simp only [bind_ok, req_ok, ite_ok] at h
      obtain ⟨_, hq, _, ⟨h1, h2⟩, h⟩ := h
      have hcm : cm = 0 := by
        subst hq
        unfold CollectFeeMode.tryFrom at hc
        split at hc <;> first | rfl | cases hc
      rcases h with ⟨hz, _⟩ | ⟨hz, _, hnz, _, hd, i, hi, _, hlt, mn, hmn, mx, hmx, _, hle⟩
      · obtain ⟨z1, z2, z3⟩ := hz
        exact ⟨h2, .inl ⟨z3, z2, z1⟩, hcm, h1, fun h => by omega⟩
      · obtain ⟨n1, n2, n3⟩ := hnz
        rw [toNumerator_ok] at hi
        obtain ⟨_, rfl⟩ := hi
        rw [e3] at hlt
        have hd' : b.second ≤ if act = 0 then 108000 else 43200 := by
          rcases ha' with ⟨rfl, rfl⟩ | ⟨rfl, rfl⟩ <;> exact hd
        have hf : b.first < 10000 := by omega
        have l : Limiter b := ⟨by omega, by omega, hf, by omega, h1, h2⟩
        exact ⟨h2, .inr ⟨by omega, by omega, by omega⟩, hcm, h1, fun _ => ⟨hf, hd', (htop l).1 ⟨mx, hmx, h1, hle⟩⟩⟩
  · rintro ⟨h1, h2, rfl, h4, h5⟩
    have hc : CollectFeeMode.tryFrom 0 = some .quoteToken := rfl
    rw [hc]
    simp only [bind_ok, req_ok, ite_ok]
    refine ⟨(), trivial, (), ⟨h4, h1⟩, ?_⟩
    rcases h2 with ⟨k1, k2, k3⟩ | ⟨k1, k2, k3⟩
    · exact .inl ⟨⟨k3, k2, k1⟩, trivial⟩
    · obtain ⟨h5, h6, h7⟩ := h5 k1
      have l : Limiter b := ⟨k3, k1, h5, k2, h4, h1⟩
      obtain ⟨mx, m1, m2, m3⟩ := (htop l).2 h7
      have hto : toNumerator b.first = .ok (b.first * 100000) :=
        toNumerator_ok.2 ⟨(Nat.mul_le_mul_right _ h5.le).trans hu, rfl⟩
      have hlt : b.first * 100000 < FEE_DENOMINATOR := by rw [e3]; omega
      refine .inr ⟨fun hz => by have := hz.1; omega, (), ⟨by omega, by omega, by omega⟩, (), by
        rcases ha' with ⟨rfl, rfl⟩ | ⟨rfl, rfl⟩ <;> exact h6, _, hto, (), hlt, b.cliff, ?_, mx, m1, h4, m3⟩
      simp only [limiterFromIncluded, Nat.zero_le, if_true]

/-- The trading fee: what is enough. -/
theorem baseFee_enough {p : ConfigParams} {a : ActivationType} (ha : ActivationType.tryFrom p.activationType = some a)
    (ht : p.Typed) (h : BaseFeeRules 2 p) : baseFeeValidate p.fees.base p.collectFeeMode a = .ok () := by
  obtain ⟨h1, h2, ⟨hm, h3⟩ | ⟨hm, h3, h4⟩ | ⟨hm, h3, h4, h5⟩⟩ := h
  · simp only [baseFeeValidate, hm]
    exact (schedulerValidate_linear hm).2 ⟨h1, h2, h3⟩
  · simp only [baseFeeValidate, hm]
    exact schedulerValidate_exp hm ht.first h1 h2 h3 h4
  · simp only [baseFeeValidate, hm]
    exact (limiterValidate_iff ha ht.third).2 ⟨h1, h2, h3, h4, h5⟩

/-- The trading fee: what is needed. -/
theorem baseFee_needed {p : ConfigParams} {a : ActivationType} (ha : ActivationType.tryFrom p.activationType = some a)
    (ht : p.Typed) (h : baseFeeValidate p.fees.base p.collectFeeMode a = .ok ()) : BaseFeeRules (-2) p := by
  unfold baseFeeValidate at h
  split at h
  · next hm =>
    obtain ⟨h1, h2, h3⟩ := (schedulerValidate_linear hm).1 h
    exact ⟨h1, h2, .inl ⟨hm, h3⟩⟩
  · next hm =>
    obtain ⟨h1, h2, h3, h4⟩ := schedulerValidate_exp' hm h
    exact ⟨h1, h2, .inr (.inl ⟨hm, h3, h4⟩)⟩
  · next hm =>
    obtain ⟨h1, h2, h3, h4, h5⟩ := (limiterValidate_iff ha ht.third).1 h
    exact ⟨h1, h2, .inr (.inr ⟨hm, h3, h4, h5⟩)⟩
  · cases h

theorem dynFee_iff {p : ConfigParams} :
    (if p.fees.dyn.initialized = 0 then (.ok () : Res Unit) else dynFeeValidate p.fees.dyn) = .ok () ↔ DynFeeRules p := by
  have e1 : BIN_STEP_BPS_DEFAULT = 1 := rfl
  have e2 : BIN_STEP_BPS_U128_DEFAULT = 1844674407370955 := rfl
  have e3 : U24_MAX = 16777215 := rfl
  have e4 : BASIS_POINT_MAX = 10000 := rfl
  rw [ite_ok]
  unfold DynFeeRules
  simp only [dynFeeValidate, bind_ok, req_ok, e1, e2, e3, e4]
  constructor
  · rintro (⟨h, _⟩ | ⟨_, _, d1, _, d2, _, d3, _, d4, _, d5, d6⟩)
    · exact .inl h
    · exact .inr ⟨d1, d2, d3, d4, by omega, by omega⟩
  · intro h
    by_cases h0 : p.fees.dyn.initialized = 0
    · exact .inl ⟨h0, trivial⟩
    · rcases h with h | ⟨d1, d2, d3, d4, d5, d6⟩
      · exact absurd h h0
      · exact .inr ⟨h0, (), d1, (), d2, (), d3, (), d4, (), by omega, by omega⟩

/-! ### Fees after migration -/

theorem marketCap_linear {m : MigratedFee} (hm : m.baseFeeMode = 3) {c : Nat} (hc : c ≤ 100000000) :
    m.marketCapValidate c = .ok () ↔ 0 < m.numberOfPeriod ∧ 0 < m.sqrtPriceStepBps ∧ 0 < m.expiration ∧ 0 < m.reduction ∧
      100000 + m.reduction * m.numberOfPeriod ≤ c := by
  have e1 : DAMM_V2_MIN_FEE_NUMERATOR = 100000 := rfl
  have e2 : DAMM_V2_MAX_FEE_NUMERATOR = 990000000 := rfl
  have hu : 100000000 ≤ u64Max := by decide
  simp only [MigratedFee.marketCapValidate, MigratedFee.marketCapMinFee, MigratedFee.marketCapFee, hm, Nat.min_self, bind_ok,
    req_ok, safeMul_ok, safeSub_ok, validateFeeFraction_ok, e1, e2]
  constructor
  · rintro ⟨_, h1, _, h2, _, h3, _, h4, _, ⟨_, ⟨_, rfl⟩, h5, rfl⟩, _, _, _, _, h6, _⟩
    exact ⟨h4, h2, h3, h1, by omega⟩
  · rintro ⟨h4, h2, h3, h1, h5⟩
    exact ⟨(), h1, (), h2, (), h3, (), h4, _, ⟨_, ⟨by omega, rfl⟩, by omega, rfl⟩, (), by omega, (), by omega, by omega, by omega⟩

theorem marketCap_exp {m : MigratedFee} (hm : m.baseFeeMode = 4) {c : Nat} (hc : c ≤ 100000000)
    (h : 0 < m.numberOfPeriod ∧ 0 < m.sqrtPriceStepBps ∧ 0 < m.expiration ∧ 0 < m.reduction)
    (h1 : m.reduction ≤ 10000) (h2 : m.numberOfPeriod < 2 ^ 16)
    (h3 : 100000 + (2 : ℚ) ≤ c * (1 - (m.reduction : ℚ) / 10000) ^ m.numberOfPeriod) : m.marketCapValidate c = .ok () := by
  have e1 : DAMM_V2_MIN_FEE_NUMERATOR = 100000 := rfl
  have e2 : DAMM_V2_MAX_FEE_NUMERATOR = 990000000 := rfl
  have e3 : MAX_FEE_NUMERATOR = 990000000 := rfl
  have h16 : m.numberOfPeriod ≤ u16Max := Nat.le_sub_one_of_lt h2
  obtain ⟨f, hf, f1, f2⟩ := getFeeInPeriod_floor (F := 100000) h.2.2.2 h1 h16 (by omega : c ≤ MAX_FEE_NUMERATOR) le_rfl
    (by exact_mod_cast h3)
  simp only [MigratedFee.marketCapValidate, MigratedFee.marketCapMinFee, MigratedFee.marketCapFee, hm, Nat.min_self, bind_ok,
    req_ok, if_pos h16, validateFeeFraction_ok, e1, e2]
  exact ⟨(), h.2.2.2, (), h.2.1, (), h.2.2.1, (), h.1, f, hf, (), by omega, (), by omega, f1, by omega⟩

theorem marketCap_exp' {m : MigratedFee} (hm : m.baseFeeMode = 4) {c : Nat} (hc : c ≤ 100000000)
    (h : m.marketCapValidate c = .ok ()) :
    0 < m.numberOfPeriod ∧ 0 < m.sqrtPriceStepBps ∧ 0 < m.expiration ∧ 0 < m.reduction ∧ m.reduction ≤ 10000 ∧
      m.numberOfPeriod < 2 ^ 16 ∧
      100000 + (-2 : ℚ) ≤ c * (1 - (m.reduction : ℚ) / 10000) ^ m.numberOfPeriod := by
  have e1 : DAMM_V2_MIN_FEE_NUMERATOR = 100000 := rfl
  have e3 : MAX_FEE_NUMERATOR = 990000000 := rfl
  simp only [MigratedFee.marketCapValidate, MigratedFee.marketCapMinFee, MigratedFee.marketCapFee, hm, Nat.min_self, bind_ok,
    req_ok, ite_ok, reduceCtorEq, and_false, or_false, e1] at h
  obtain ⟨_, h1, _, h2, _, h3, _, h4, f, ⟨h16, hf⟩, _, _, _, _, h6, _⟩ := h
  obtain ⟨r1, r2⟩ := getFeeInPeriod_floor' (F := 100000) h1 h16 (by omega) hf h6
  have hu : u16Max < 2 ^ 16 := by decide
  exact ⟨h4, h2, h3, h1, r1, by omega, by exact_mod_cast r2⟩

theorem migrated_enough {m : MigratedFee} (h : MigratedRules 2 m) : m.validate = .ok () := by
  have e1 : MIN_MIGRATED_POOL_FEE_BPS = 10 := rfl
  have e2 : MAX_MIGRATED_POOL_FEE_BPS = 1000 := rfl
  have e3 : MAX_BASIS_POINT = 10000 := rfl
  have hu : 100000000 ≤ u64Max := by decide
  obtain ⟨h1, h2, h3, h4, h5, h6⟩ := h
  have hto : toNumerator m.poolFeeBps = .ok (m.poolFeeBps * 100000) := toNumerator_ok.2 ⟨by omega, rfl⟩
  have hcomp : (if m.collectFeeMode = 2 then
      req (0 < m.compoundingBps ∧ m.compoundingBps ≤ MAX_BASIS_POINT) Err.invalidMigratedPoolFee
    else req (m.compoundingBps = 0) .invalidMigratedPoolFee) = .ok () := by
    split
    · next hc => rw [if_pos hc] at h5; exact (req_ok (u := ())).2 h5
    · next hc => rw [if_neg hc] at h5; exact (req_ok (u := ())).2 h5
  unfold MigratedFee.validate
  rw [(req_ok (u := ())).2 ⟨h1, h2⟩, ok_bind, (req_ok (u := ())).2 h3, ok_bind, hcomp, ok_bind, (req_ok (u := ())).2 h4, ok_bind]
  rcases h6 with ⟨hm, z⟩ | ⟨p1, p2, p3, p4, ⟨hm, h6⟩ | ⟨hm, h6, h7, h8⟩⟩
  · rcases (by omega : m.baseFeeMode = 0 ∨ m.baseFeeMode = 1) with hm | hm <;> rw [hm] <;> exact (req_ok (u := ())).2 z
  · rw [hm]
    rw [hto, ok_bind]
    exact (marketCap_linear hm (by omega)).2 ⟨p1, p2, p3, p4, h6⟩
  · rw [hm]
    rw [hto, ok_bind]
    exact marketCap_exp hm (by omega) ⟨p1, p2, p3, p4⟩ h6 h7 (by push_cast; exact h8)

theorem migrated_needed {m : MigratedFee} (h : m.validate = .ok ()) : MigratedRules (-2) m := by
  have e1 : MIN_MIGRATED_POOL_FEE_BPS = 10 := rfl
  have e2 : MAX_MIGRATED_POOL_FEE_BPS = 1000 := rfl
  have e3 : MAX_BASIS_POINT = 10000 := rfl
  have hu : 100000000 ≤ u64Max := by decide
  simp only [MigratedFee.validate, bind_ok, req_ok, e1, e2, e3] at h
  obtain ⟨_, ⟨h1, h2⟩, _, h3, _, h5, _, h4, h⟩ := h
  have hto : toNumerator m.poolFeeBps = .ok (m.poolFeeBps * 100000) := toNumerator_ok.2 ⟨by omega, rfl⟩
  have hcomp : if m.collectFeeMode = 2 then 0 < m.compoundingBps ∧ m.compoundingBps ≤ 10000 else m.compoundingBps = 0 := by
    split at h5
    · next hc => rw [if_pos hc]; exact req_ok.1 h5
    · next hc => rw [if_neg hc]; exact req_ok.1 h5
  refine ⟨h1, h2, h3, h4, hcomp, ?_⟩
  split at h
  · next hm => rw [req_ok] at h; exact .inl ⟨by omega, h⟩
  · next hm => rw [req_ok] at h; exact .inl ⟨by omega, h⟩
  · cases h
  · next hm =>
    rw [hto, ok_bind] at h
    obtain ⟨p1, p2, p3, p4, p5⟩ := (marketCap_linear hm (by omega)).1 h
    exact .inr ⟨p1, p2, p3, p4, .inl ⟨hm, p5⟩⟩
  · next hm =>
    rw [hto, ok_bind] at h
    obtain ⟨p1, p2, p3, p4, p5, p6, p7⟩ := marketCap_exp' hm (by omega) h
    exact .inr ⟨p1, p2, p3, p4, .inr ⟨hm, p5, p6, by push_cast at p7; exact p7⟩⟩
  · cases h

/-! ### Vesting -/

theorem lockedVesting_iff {p : ConfigParams} : p.lockedVesting.validate = .ok () ↔ LockedRules p := by
  have hu : u64Max = 2 ^ 64 - 1 := rfl
  unfold LockedVesting.validate LockedRules
  by_cases hh : p.lockedVesting.has
  · rw [if_pos hh]
    have hz : ¬ p.lockedVesting = ⟨0, 0, 0, 0, 0⟩ := hh
    simp only [bind_ok, vesting_total_ok, req_ok]
    constructor
    · rintro ⟨t, ⟨_, t2, rfl⟩, t3, t4⟩
      exact .inr ⟨by omega, by omega, by omega⟩
    · rintro (h | ⟨h1, h2, h3⟩)
      · exact absurd h hz
      · exact ⟨_, ⟨by omega, by omega, rfl⟩, by omega, by omega⟩
  · rw [if_neg hh]
    have hz : p.lockedVesting = ⟨0, 0, 0, 0, 0⟩ := by
      by_contra h; exact hh h
    exact ⟨fun _ => .inl hz, fun _ => rfl⟩

theorem vest_enough {v : LiqVestingParams} {now : Nat} (hp : v.pct ≤ 100) (hnow : now + 63072000 < 2 ^ 64) (h : VestRules v)
    (hn : v.numPeriods ≤ u16Max) : v.validate now = .ok () := by
  obtain ⟨h1, h2, h3, h4⟩ := h
  have hu : u64Max = 2 ^ 64 - 1 := rfl
  have e1 : MAX_LOCK_DURATION_IN_SECONDS = 63072000 := rfl
  unfold LiqVestingParams.validate
  split
  · rfl
  · have b1 : v.toInfo.bpsPerPeriod = v.bpsPerPeriod := rfl
    have b2 : v.toInfo.numPeriods = v.numPeriods := rfl
    have b3 : v.toInfo.cliffDuration = v.cliffDuration := rfl
    have b4 : v.toInfo.frequency = v.frequency := rfl
    have ht := mulDivU128_pct (x := u128Max) (y := v.pct) (d := 100) le_rfl hp (by decide) (by decide)
    have hle := (mulDivU128_down.1 ht).2.2.2
    rw [ht, ok_bind]
    have htl : u128Max / 100 ≤ u128Max * v.pct / 100 := Nat.div_le_div_right (Nat.le_mul_of_pos_right _ h1)
    have hbig : 10000 * 65535 * 10 ≤ u128Max / 100 := by decide
    generalize u128Max * v.pct / 100 = t at *
    rw [LiqVesting.params_some hle h2 (by rw [b3]; omega), ok_bind]
    have hm := v.toInfo.per_mul_le t h2
    have hs := v.toInfo.sched_total t now hm
    have k3 : v.toInfo.per t = t * (v.bpsPerPeriod * v.numPeriods) / 10000 / v.numPeriods := rfl
    have hper : 0 < v.bpsPerPeriod * v.numPeriods ↔ v.toInfo.per t ≠ 0 := by
      constructor
      · intro hpos h0
        have hnp : 0 < v.numPeriods := Nat.pos_of_mul_pos_left hpos
        have k1 := per_bounds t (v.bpsPerPeriod * v.numPeriods) v.numPeriods hnp
        rw [← k3, h0] at k1
        have k2 : t * 1 ≤ t * (v.bpsPerPeriod * v.numPeriods) := Nat.mul_le_mul_left _ hpos
        have hn' : v.numPeriods ≤ 65535 := hn
        omega
      · intro h0
        by_contra hc
        apply h0
        rw [k3, (by omega : v.bpsPerPeriod * v.numPeriods = 0), Nat.mul_zero, Nat.zero_div]
    simp only [VestParams.validate, bind_ok, req_ok, safeSub_ok, safeMul_ok, safeAdd_ok, ite_ok, e1]
    rw [Nat.mul_comm] at hs
    by_cases h0 : v.toInfo.per t = 0
    · simp only [LiqVesting.sched, h0, if_true, b3, Nat.mul_zero, Nat.zero_mul, Nat.sub_zero] at hs ⊢
      exact ⟨(), by omega, (), .inr ⟨by omega, trivial⟩, (), .inr ⟨by omega, trivial⟩, _, ⟨by omega, rfl⟩, _, ⟨by omega, rfl⟩, _,
        ⟨by omega, rfl⟩, (), by omega, _, ⟨by omega, rfl⟩, _, ⟨by omega, rfl⟩, by omega⟩
    · obtain ⟨f1, f2⟩ := h4 (hper.2 h0)
      have hnp : 0 < v.numPeriods := Nat.pos_of_mul_pos_left (hper.2 h0)
      simp only [LiqVesting.sched, h0, if_false, b2, b3, b4] at hs ⊢
      rw [b2] at hm
      refine ⟨(), by omega, (), ?_, (), .inl ⟨hnp, f1, by omega⟩, _, ⟨by omega, rfl⟩, _, ⟨by omega, rfl⟩, _,
        ⟨by omega, rfl⟩, (), by omega, _, ⟨by omega, rfl⟩, _, ⟨by omega, rfl⟩, by omega⟩
      by_cases hc : now + v.cliffDuration = now
      · exact .inl ⟨hc, hnp⟩
      · exact .inr ⟨hc, trivial⟩

theorem vest_iff {v : LiqVestingParams} {now : Nat} (hp : v.pct ≤ 100) (hnow : now + 63072000 < 2 ^ 64)
    (hn : v.numPeriods ≤ u16Max) : v.validate now = .ok () ↔ NoVesting v ∨ VestRules v := by
  constructor
  · intro h
    by_cases hz : v.isZero
    · exact .inl hz
    · have o := VestOK.of_validate h hz hn
      have hc : max v.cliffDuration 1 ≤ 63072000 := o.cliff
      exact .inr ⟨o.pctPos, o.bps, by omega, fun h => ⟨o.freq h, o.dur h⟩⟩
  · rintro (h | h)
    · unfold LiqVestingParams.validate
      rw [if_pos (show v.isZero from h)]
    · exact vest_enough hp hnow h hn

theorem target_enough {p : ConfigParams} {env : ConfigEnv} (ht : p.Typed) (hp : p.partnerVesting.pct ≤ 100)
    (hc : p.creatorVesting.pct ≤ 100) (hnow : env.now + 63072000 < 2 ^ 64) (h : TargetRules 2 p env) :
    validateMigrationOption p env = .ok () := by
  unfold validateMigrationOption
  rcases h with ⟨h0, h1, h2, h3, h4, h5, h6⟩ | ⟨h0, h1, h3, h5, h6⟩
  · rw [if_pos h0]
    simp only [bind_ok, req_ok]
    exact ⟨(), h1, (), h2, (), ⟨by omega, h4⟩, (), h5, h6⟩
  · rw [if_neg (by omega)]
    simp only [bind_ok]
    refine ⟨(), ?_, (), (vest_iff hp hnow ht.pvNum).2 h5, (vest_iff hc hnow ht.cvNum).2 h6⟩
    rcases h3 with ⟨h3, h4⟩ | ⟨h3, h4⟩
    · rw [if_neg (by omega)]; exact (req_ok (u := ())).2 h4
    · rw [if_pos h3]; exact migrated_enough h4

theorem target_needed {p : ConfigParams} {env : ConfigEnv} (ht : p.Typed) (hp : p.partnerVesting.pct ≤ 100)
    (hc : p.creatorVesting.pct ≤ 100) (hnow : env.now + 63072000 < 2 ^ 64) (ho : p.migrationOption ≤ 1)
    (hf : p.migrationFeeOption ≤ 6) (hty : p.tokenType ≤ 1) (h : validateMigrationOption p env = .ok ()) :
    TargetRules (-2) p env := by
  unfold validateMigrationOption at h
  by_cases h0 : p.migrationOption = 0
  · rw [if_pos h0] at h
    simp only [bind_ok, req_ok] at h
    obtain ⟨_, h1, _, h2, _, ⟨h3, h4⟩, _, h5, h6⟩ := h
    exact .inl ⟨h0, h1, h2, by omega, h4, h5, h6⟩
  · rw [if_neg h0] at h
    simp only [bind_ok] at h
    obtain ⟨_, h3, _, h5, h6⟩ := h
    refine .inr ⟨by omega, hty, ?_, (vest_iff hp hnow ht.pvNum).1 h5, (vest_iff hc hnow ht.cvNum).1 h6⟩
    by_cases h6 : p.migrationFeeOption = 6
    · rw [if_pos h6] at h3; exact .inr ⟨h6, migrated_needed h3⟩
    · rw [if_neg h6, req_ok] at h3; exact .inl ⟨by omega, h3⟩

end Dbc

import Verif.Lemmas.Config
import Verif.Lemmas.Limiter
import Verif.Spec.Damm

/-!
# DAMM configurations and fees of the pool migrated to
-/

namespace Dbc

open Spec

theorem toBps_ok {n d b : Nat} : toBps n d = .ok b ↔ n * 10000 ≤ u128Max ∧ d ≠ 0 ∧ b = n * 10000 / d ∧ b ≤ u64Max := by
  simp only [toBps, bind_ok, safeMul_ok, safeDiv_ok, castTo_ok, MAX_BASIS_POINT]
  constructor
  · rintro ⟨_, ⟨h1, rfl⟩, _, ⟨h2, rfl⟩, h3, rfl⟩; exact ⟨h1, h2, rfl, h3⟩
  · rintro ⟨h1, h2, rfl, h3⟩; exact ⟨_, ⟨h1, rfl⟩, _, ⟨h2, rfl⟩, h3, rfl⟩

theorem div_eq_iff_within {n d b : Nat} (hd : 0 < d) : n * 10000 / d = b ↔ WithinOneBp b n d := by
  unfold WithinOneBp
  constructor
  · rintro rfl
    exact ⟨Nat.div_mul_le_self _ _, by rw [Nat.add_mul, Nat.one_mul]; exact Nat.lt_div_mul_add hd⟩
  · rintro ⟨h1, h2⟩
    exact Nat.div_eq_of_lt_le h1 h2

theorem within_pos {n d b : Nat} (h : WithinOneBp b n d) : 0 < d := by
  rcases Nat.eq_zero_or_pos d with rfl | h'
  · exact absurd h.2 (by simp)
  · exact h'

theorem validateBaseFee_ok {opt bps : Nat} : validateBaseFee opt bps = .ok () ↔ promisedBps opt = some bps ∨ opt = 6 := by
  unfold validateBaseFee promisedBps
  split <;> simp only [req_ok, Option.some.injEq, reduceCtorEq, false_or, or_false, true_iff, false_iff, or_true] <;>
    first | omega | (constructor <;> intro h <;> omega) | skip

theorem promised_le {opt bps : Nat} (h : promisedBps opt = some bps) : bps ≤ 600 ∧ opt ≤ 5 := by
  unfold promisedBps at h
  split at h <;> simp only [Option.some.injEq, reduceCtorEq] at h <;> omega

theorem v1Validate_ok {d : DammV1Config} {opt : Nat} (h : d.validate opt = .ok ()) (ho : opt ≠ 6) : FitV1 opt d := by
  simp only [DammV1Config.validate, bind_ok, req_ok, toBps_ok] at h
  obtain ⟨b, ⟨-, h2, rfl, -⟩, _, h5, _, h6, _, h7, _, h8, h9⟩ := h
  rcases validateBaseFee_ok.1 h5 with h5 | h5
  · exact ⟨h6, ⟨_, h5, (div_eq_iff_within (Nat.pos_of_ne_zero h2)).1 rfl⟩, h7, h8, h9⟩
  · exact absurd h5 ho

theorem v1Validate_of {d : DammV1Config} {opt : Nat} (h : FitV1 opt d) (hn : d.tradeFeeNumerator ≤ u64Max) :
    d.validate opt = .ok () := by
  obtain ⟨h6, ⟨b, hb, hw⟩, h7, h8, h9⟩ := h
  have hp := within_pos hw
  have h600 := (promised_le hb).1
  simp only [DammV1Config.validate, bind_ok, req_ok, toBps_ok]
  refine ⟨b, ⟨?_, by omega, ((div_eq_iff_within hp).2 hw).symm, ?_⟩, (), validateBaseFee_ok.2 (.inl hb), (), h6, (), h7, (), h8, h9⟩
  · exact (Nat.mul_le_mul_right _ hn).trans (by decide)
  · exact h600.trans (by decide)

theorem v2Fixed_ok {d : DammV2Config} {opt : Nat} (h : d.validate opt = .ok ()) (ho : opt ≠ 6) : FitV2 opt d := by
  simp only [DammV2Config.validate, DammV2Config.validateFixed, if_neg ho, bind_ok, req_ok, toBps_ok] at h
  obtain ⟨_, -, _, ⟨_, -, _, h1, b, ⟨-, h2, rfl, -⟩, _, ⟨h3, h4, h4'⟩, _, h5, _, h6, _, h7, _, h8, _, -, h9⟩, h10⟩ := h
  rcases validateBaseFee_ok.1 h5 with h5 | h5
  · exact ⟨h10, ⟨_, h5, (div_eq_iff_within (by decide)).1 rfl⟩, ⟨h1, h4', h3, h4⟩, ⟨h6, h7⟩, h8, h9⟩
  · exact absurd h5 ho

theorem v2Custom_ok {d : DammV2Config} (h : d.poolCreatorAuthority = POOL_AUTHORITY) : d.validate 6 = .ok () := by
  simp only [DammV2Config.validate, bind_ok, req_ok]
  exact ⟨(), by decide, (), rfl, h⟩

theorem v2Validate_of {d : DammV2Config} {opt : Nat} (h : FitV2 opt d) (hn : d.cliffFeeNumerator ≤ u64Max) :
    d.validate opt = .ok () := by
  obtain ⟨h10, ⟨b, hb, hw⟩, ⟨h1, h4', h3, h4⟩, ⟨h6, h7⟩, h8, h9⟩ := h
  obtain ⟨h600, h5⟩ := promised_le hb
  have ho : opt ≠ 6 := by omega
  simp only [DammV2Config.validate, DammV2Config.validateFixed, if_neg ho, bind_ok, req_ok, toBps_ok]
  refine ⟨(), by omega, (), ⟨(), by omega, (), h1, b, ⟨?_, by decide, ((div_eq_iff_within (by decide)).2 hw).symm, ?_⟩, (),
    ⟨h3, h4, h4'⟩, (), validateBaseFee_ok.2 (.inl hb), (), h6, (), h7, (), h8, (), by omega, h9⟩, h10⟩
  · exact (Nat.mul_le_mul_right _ hn).trans (by decide)
  · exact h600.trans (by decide)

/-- The market-cap fee schedule: defined for every number of steps, starting at the cliff fee, never rising. -/
structure MarketCap (m : MigratedFee) (cliff : Nat) (g : Nat → Nat) : Prop where
  eq : ∀ n, m.marketCapFee cliff n = .ok (g n)
  zero : g 0 = cliff
  anti : ∀ i j, i ≤ j → g j ≤ g i
  last : ∀ n, m.numberOfPeriod ≤ n → g n = g m.numberOfPeriod

theorem marketCap_ok {m : MigratedFee} {cliff : Nat} (hm : m.baseFeeMode = 3 ∨ m.baseFeeMode = 4) (hc : cliff ≤ 100000000)
    (h : m.marketCapValidate cliff = .ok ()) :
    ∃ g, MarketCap m cliff g ∧ 100000 ≤ g m.numberOfPeriod ∧ 0 < m.reduction ∧ 0 < m.sqrtPriceStepBps ∧ 0 < m.expiration ∧
      0 < m.numberOfPeriod ∧ (m.baseFeeMode = 3 → g m.numberOfPeriod + m.reduction * m.numberOfPeriod = cliff) ∧
      (m.baseFeeMode = 4 →
        m.numberOfPeriod ≤ u16Max ∧ getFeeInPeriod cliff m.reduction m.numberOfPeriod = .ok (g m.numberOfPeriod)) := by
  simp only [MigratedFee.marketCapValidate, bind_ok, req_ok] at h
  obtain ⟨_, h1, _, h2, _, h3, _, h4, mn, hmn, _, -, _, -, hfl, -⟩ := h
  have hfl' : 100000 ≤ mn := hfl
  have hu : cliff ≤ u64Max := hc.trans (by decide)
  have hmin := hmn
  unfold MigratedFee.marketCapMinFee at hmin
  rcases hm with hm | hm
  · simp only [MigratedFee.marketCapFee, hm, min_self, bind_ok, safeMul_ok, safeSub_ok] at hmin
    obtain ⟨_, ⟨_, rfl⟩, k1, rfl⟩ := hmin
    have hle : ∀ n, m.reduction * min n m.numberOfPeriod ≤ m.reduction * m.numberOfPeriod :=
      fun n => Nat.mul_le_mul_left _ (Nat.min_le_right _ _)
    refine ⟨fun n => cliff - m.reduction * min n m.numberOfPeriod, ⟨?_, by simp, ?_, ?_⟩, ?_, h1, h2, h3, h4, ?_, ?_⟩
    · intro n
      have := hle n
      simp only [MigratedFee.marketCapFee, hm, bind_ok, safeMul_ok, safeSub_ok]
      exact ⟨_, ⟨by omega, rfl⟩, by omega, rfl⟩
    · intro i j hij
      have : m.reduction * min i m.numberOfPeriod ≤ m.reduction * min j m.numberOfPeriod :=
        Nat.mul_le_mul_left _ (min_le_min_right _ hij)
      omega
    · intro n hn; simp only [min_self, min_eq_right hn]
    · simp only [min_self]; exact hfl'
    · intro _; simp only [min_self]; omega
    · intro h; omega
  · simp only [MigratedFee.marketCapFee, hm, min_self, ite_ok, reduceCtorEq, and_false, or_false] at hmin
    obtain ⟨h16, hmin⟩ := hmin
    have hcap : cliff ≤ MAX_FEE_NUMERATOR := hc.trans (by decide)
    have mono := getFeeInPeriod_mono h1 h16 hcap (by omega) (by omega) hmin
    have hrf : m.reduction ≤ 10000 := rf_le (getFeeInPeriod_ok.1 hmin).1
    have ex : ∀ n, ∃ f, m.marketCapFee cliff n = .ok f := by
      intro n
      obtain ⟨f, hf, _⟩ := mono (min n m.numberOfPeriod) (min_le_right _ _)
      refine ⟨f, ?_⟩
      simp only [MigratedFee.marketCapFee, hm]
      rw [if_pos (le_trans (min_le_right _ _) h16)]
      exact hf
    choose g hg using ex
    have hgp : ∀ n, n ≤ m.numberOfPeriod → getFeeInPeriod cliff m.reduction n = .ok (g n) := by
      intro n hn
      have := hg n
      simp only [MigratedFee.marketCapFee, hm, min_eq_left hn, ite_ok, reduceCtorEq, and_false, or_false] at this
      exact this.2
    have hlast : ∀ n, m.numberOfPeriod ≤ n → g n = g m.numberOfPeriod := by
      intro n hn
      have h1 := hg n
      simp only [MigratedFee.marketCapFee, hm, min_eq_right hn, ite_ok, reduceCtorEq, and_false, or_false] at h1
      have h2 := h1.2
      rw [hgp _ le_rfl, ok_inj] at h2
      exact h2.symm
    have hgm : g m.numberOfPeriod = mn := by
      have := hgp _ le_rfl
      rw [hmin, ok_inj] at this
      exact this.symm
    refine ⟨g, ⟨hg, ?_, ?_, hlast⟩, by omega, h1, h2, h3, h4, fun h => by omega, fun _ => ⟨h16, hgp _ le_rfl⟩⟩
    · have := hgp 0 (Nat.zero_le _)
      rw [getFeeInPeriod_zero hrf hu, ok_inj] at this
      exact this.symm
    · apply anti_of_step
      intro n
      by_cases hn : n < m.numberOfPeriod
      · obtain ⟨f, hf, hs⟩ := mono n hn.le
        have := hs (g (n + 1)) hn (hgp _ hn)
        rw [hgp n hn.le, ok_inj] at hf
        omega
      · rw [hlast n (by omega), hlast (n + 1) (by omega)]

theorem dynamicFeeParams_ok {low : Nat} (h1 : 100000 ≤ low) (h2 : low ≤ 100000000) :
    ∃ d, dynamicFeeParams low = .ok d ∧ (∀ v, v ≤ d.maxVolatility → dynamicPart d v ≤ low * 20 / 100) ∧
      low * 20 / 100 ≤ dynamicPart d d.maxVolatility + 2092 := by
  have hmx : 20000 ≤ low * 20 / 100 ∧ low * 20 / 100 ≤ 20000000 := by omega
  generalize hm : low * 20 / 100 = mx at hmx ⊢
  have hu : u32Max = 4294967295 := by decide
  have hd := Nat.div_add_mod (mx * 100000000000 - 99999999999) 209091600000000
  have hl := Nat.mod_lt (mx * 100000000000 - 99999999999) (y := 209091600000000) (by decide)
  generalize hv : (mx * 100000000000 - 99999999999) / 209091600000000 = vfc at hd
  generalize (mx * 100000000000 - 99999999999) % 209091600000000 = r at hd hl
  refine ⟨⟨DAMM_BIN_STEP, DAMM_BIN_STEP_U128, DAMM_FILTER_PERIOD, DAMM_DECAY_PERIOD, DAMM_REDUCTION_FACTOR,
    DAMM_MAX_VOLATILITY, vfc⟩, ?_, ?_, ?_⟩
  · have hw : (low * 20 ≤ u128Max) ∧ mx * 100000000000 ≤ u128Max := by
      have : u128Max = 340282366920938463463374607431768211455 := by decide
      omega
    simp only [dynamicFeeParams, bind_ok, safeMul_ok, safeDiv_ok, safeSub_ok, castTo_ok]
    refine ⟨_, ⟨hw.1, rfl⟩, _, ⟨by decide, rfl⟩, _, ⟨?_, rfl⟩, _, ⟨?_, rfl⟩, _, ⟨by decide, rfl⟩, _, ⟨?_, rfl⟩, ?_⟩
    all_goals simp only [DAMM_MAX_DYNAMIC_FEE_PERCENT, SQUARE_VFA_BIN, hm, hv]
    · exact hw.2
    · omega
    · omega
  · intro v hv'
    unfold dynamicPart volatilityRate
    rw [show ceilDiv _ _ = divCeil _ _ from up_eq_divCeil _ _ (by decide)]
    show divCeil ((v * 1) ^ 2 * vfc) 100000000000 ≤ mx
    rw [divCeil_le_iff (by decide)]
    have hsq : (v * 1) ^ 2 ≤ 209091600000000 := by
      have : v * 1 ≤ 14460000 := by simpa [DAMM_MAX_VOLATILITY] using hv'
      exact (Nat.pow_le_pow_left this 2).trans (by decide)
    have := Nat.mul_le_mul_right vfc hsq
    omega
  · unfold dynamicPart volatilityRate
    rw [show ceilDiv _ _ = divCeil _ _ from up_eq_divCeil _ _ (by decide)]
    show mx ≤ divCeil ((14460000 * 1) ^ 2 * vfc) 100000000000 + 2092
    have := le_divCeil_mul ((14460000 * 1) ^ 2 * vfc) (b := 100000000000) (by decide)
    have e : (14460000 * 1) ^ 2 * vfc = 209091600000000 * vfc := by norm_num
    rw [e] at this ⊢
    omega

/-- The fees sent to DAMM v2 for an accepted custom fee. -/
structure FeesOk (m : MigratedFee) (fees : DammFees) (low : Nat) : Prop where
  built : m.buildFees = .ok fees
  base : BaseAsConfigured m fees.base
  compounding : fees.compoundingBps = m.compoundingBps
  lowest : IsLowestFee m low
  dynamic : DynamicAsConfigured m low fees.dynamic
  range : 100000 ≤ low ∧ low ≤ m.poolFeeBps * 100000 ∧ m.poolFeeBps * 100000 ≤ 100000000
  collect : m.collectFeeMode ≤ 2

theorem buildFees_ok {m : MigratedFee} (h : m.validate = .ok ()) : ∃ fees low, FeesOk m fees low := by
  simp only [MigratedFee.validate, bind_ok, req_ok] at h
  obtain ⟨_, ⟨h1, h2⟩, _, hc, _, -, _, hdyn, h⟩ := h
  have h1' : 10 ≤ m.poolFeeBps := h1
  have h2' : m.poolFeeBps ≤ 1000 := h2
  have hu : m.poolFeeBps * 100000 ≤ u64Max := by
    have : u64Max = 18446744073709551615 := by decide
    omega
  have hto : toNumerator m.poolFeeBps = .ok (m.poolFeeBps * 100000) := toNumerator_ok.2 ⟨hu, rfl⟩
  have hcl : m.poolFeeBps * 100000 * 10000 = m.poolFeeBps * unit := by
    have : unit = 1000000000 := rfl
    rw [this, Nat.mul_assoc]
  have key : ∀ base low, m.buildBase = .ok base → m.minBaseFee = .ok low → BaseAsConfigured m base → IsLowestFee m low →
      100000 ≤ low → low ≤ m.poolFeeBps * 100000 → ∃ fees low, FeesOk m fees low := by
    intro base low e1 e2 hb hl r1 r2
    obtain ⟨d, hd, d1, d2⟩ := dynamicFeeParams_ok r1 (by omega)
    rcases (by omega : m.dynamicFee = 0 ∨ m.dynamicFee = 1) with h0 | h0
    · refine ⟨⟨base, m.compoundingBps, none⟩, low, ?_, hb, rfl, hl, h0, ⟨r1, r2, by omega⟩, hc⟩
      simp only [MigratedFee.buildFees, MigratedFee.buildDynamic, h0, e1, e2, ok_bind]
    · refine ⟨⟨base, m.compoundingBps, some d⟩, low, ?_, hb, rfl, hl, ⟨h0, d1, d2⟩, ⟨r1, r2, by omega⟩, hc⟩
      simp only [MigratedFee.buildFees, MigratedFee.buildDynamic, h0, e1, e2, hd, ok_bind]
  split at h
  · next hm =>
    exact key (.time m.baseFeeMode (m.poolFeeBps * 100000) 0 0 0) (m.poolFeeBps * 100000)
      (by simp only [MigratedFee.buildBase, hm, hto, ok_bind]) (by simp only [MigratedFee.minBaseFee, hm, hto])
      ⟨.inl hm, rfl, hcl, rfl, rfl, rfl⟩ (.inl ⟨.inl hm, rfl⟩) (by omega) le_rfl
  · next hm =>
    exact key (.time m.baseFeeMode (m.poolFeeBps * 100000) 0 0 0) (m.poolFeeBps * 100000)
      (by simp only [MigratedFee.buildBase, hm, hto, ok_bind]) (by simp only [MigratedFee.minBaseFee, hm, hto])
      ⟨.inr hm, rfl, hcl, rfl, rfl, rfl⟩ (.inl ⟨.inr hm, rfl⟩) (by omega) le_rfl
  · exact nomatch h
  · next hm =>
    rw [hto, ok_bind] at h
    obtain ⟨g, hg, g1, g2, g3, g4, g5, g6, -⟩ := marketCap_ok (.inl hm) (by omega) h
    have hle := hg.anti 0 m.numberOfPeriod (Nat.zero_le _)
    rw [hg.zero] at hle
    exact key (.marketCap m.baseFeeMode (m.poolFeeBps * 100000) m.numberOfPeriod m.sqrtPriceStepBps m.expiration m.reduction)
      (g m.numberOfPeriod) (by simp only [MigratedFee.buildBase, hm, hto, ok_bind])
      (by simp only [MigratedFee.minBaseFee, hm, hto, ok_bind, MigratedFee.marketCapMinFee]; exact hg.eq _)
      ⟨.inl hm, rfl, hcl, rfl, rfl, rfl, rfl, g5, g3, g4, g2⟩ (.inr (.inl ⟨hm, g6 hm⟩)) g1 hle
  · next hm =>
    rw [hto, ok_bind] at h
    obtain ⟨g, hg, g1, g2, g3, g4, g5, -, g7⟩ := marketCap_ok (.inr hm) (by omega) h
    have hle := hg.anti 0 m.numberOfPeriod (Nat.zero_le _)
    rw [hg.zero] at hle
    exact key (.marketCap m.baseFeeMode (m.poolFeeBps * 100000) m.numberOfPeriod m.sqrtPriceStepBps m.expiration m.reduction)
      (g m.numberOfPeriod) (by simp only [MigratedFee.buildBase, hm, hto, ok_bind])
      (by simp only [MigratedFee.minBaseFee, hm, hto, ok_bind, MigratedFee.marketCapMinFee]; exact hg.eq _)
      ⟨.inr hm, rfl, hcl, rfl, rfl, rfl, rfl, g5, g3, g4, g2⟩
      (.inr (.inr ⟨hm, getFeeInPeriod_accurate g2 (g7 hm).1 ((by omega : m.poolFeeBps * 100000 ≤ 100000000).trans (by decide))
        (g7 hm).2⟩)) g1 hle
  · exact nomatch h

end Dbc

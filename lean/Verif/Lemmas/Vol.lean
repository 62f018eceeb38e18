import Verif.Lemmas.History
import Mathlib.Tactic.Linarith

/-!
# The volatility tracker
-/

namespace Dbc

/-- What `create_config` guarantees about the dynamic-fee parameters. -/
structure DynOK (d : DynamicFeeConfig) : Prop where
  step : d.binStep = 1
  step128 : d.binStepU128 = 1844674407370955
  periods : d.filterPeriod < d.decayPeriod
  reduction : d.reductionFactor ≤ 10000
  vfc : d.vfc ≤ 16777215
  max : d.maxVolAcc ≤ 16777215

theorem accepted_dyn {p : ConfigParams} {env : ConfigEnv} {c : PoolConfig} (h : createConfig p env = .ok c)
    (hi : c.fees.dyn.initialized ≠ 0) : DynOK c.fees.dyn := by
  have ha := createConfig_ok h
  have hv := validate_ok ha.validated
  have ef : c.fees = p.fees := by rw [ha.eq]; rfl
  rw [ef] at hi ⊢
  obtain ⟨a, _, hf⟩ := hv.act
  simp only [poolFeesValidate, bind_ok, ite_ok] at hf
  obtain ⟨_, _, ⟨h0, _⟩ | ⟨_, hd⟩⟩ := hf
  · exact absurd h0 hi
  · simp only [dynFeeValidate, bind_ok, req_ok] at hd
    obtain ⟨_, d1, _, d2, _, d3, _, d4, _, d5, d6⟩ := hd
    exact ⟨d1, d2, d3, d4, d5, d6⟩

/-- The bin distance computed by `get_delta_bin_id`. -/
def binDelta (a b : Nat) : Nat := (max a b * 2 ^ 64 / min a b - 2 ^ 64) / 1844674407370955 * 2

theorem deltaBinId_eq {a b : Nat} (ha : MIN_SQRT_PRICE ≤ a) (ha' : a ≤ MAX_SQRT_PRICE) (hb : MIN_SQRT_PRICE ≤ b)
    (hb' : b ≤ MAX_SQRT_PRICE) :
    deltaBinId 1844674407370955 a b = .ok (binDelta a b) ∧ binDelta a b ≤ 2 ^ 80 := by
  have key : ∀ hi lo : Nat, lo ≤ hi → MIN_SQRT_PRICE ≤ lo → hi ≤ MAX_SQRT_PRICE →
      ((safeShlDivCastDown hi lo 64 >>= fun ratio => safeSub ratio ONE_Q64 >>= fun d =>
        safeDiv d 1844674407370955 >>= fun d => safeMul u128Max d 2) : Res Nat) =
        .ok ((hi * 2 ^ 64 / lo - 2 ^ 64) / 1844674407370955 * 2) ∧
      (hi * 2 ^ 64 / lo - 2 ^ 64) / 1844674407370955 * 2 ≤ 2 ^ 80 := by
    intro hi lo h1 h2 h3
    have hlo : 0 < lo := by unfold MIN_SQRT_PRICE at h2; omega
    have hp : hi * 2 ^ 64 ≤ 79226673521066979257578248091 * 2 ^ 64 := Nat.mul_le_mul_right _ h3
    have hr : hi * 2 ^ 64 / lo ≤ 79226673521066979257578248091 * 2 ^ 64 / 4295048016 := Nat.div_le_div hp h2 (by decide)
    have hn : (79226673521066979257578248091 * 2 ^ 64 / 4295048016 : Nat) = 340269576686954494453065731100974713951 := by
      decide +kernel
    rw [hn] at hr
    have hge : 2 ^ 64 ≤ hi * 2 ^ 64 / lo := by
      rw [Nat.le_div_iff_mul_le hlo, Nat.mul_comm]
      exact Nat.mul_le_mul_right _ h1
    have hq : (hi * 2 ^ 64 / lo - 2 ^ 64) / 1844674407370955 ≤ 340269576686954494453065731100974713951 / 1844674407370955 :=
      Nat.div_le_div_right (by omega)
    have hn2 : (340269576686954494453065731100974713951 / 1844674407370955 : Nat) = 184460507137359523754658 := by
      decide +kernel
    rw [hn2] at hq
    have b1 : hi * 2 ^ 64 ≤ u256Max := hp.trans (by decide +kernel)
    have b2 : hi * 2 ^ 64 / lo ≤ u128Max := hr.trans (by decide +kernel)
    constructor
    · simp only [bind_ok]
      refine ⟨hi * 2 ^ 64 / lo, ?_, hi * 2 ^ 64 / lo - 2 ^ 64, ?_, _, safeDiv_ok.2 ⟨by decide, rfl⟩, ?_⟩
      · unfold safeShlDivCastDown
        rw [if_neg (by omega)]
        simp only [bind_ok]
        exact ⟨_, safeShl256_ok.2 ⟨b1, rfl⟩, if_pos b2⟩
      · exact safeSub_ok.2 ⟨hge, rfl⟩
      · refine safeMul_ok.2 ⟨?_, rfl⟩
        refine (Nat.mul_le_mul_right 2 hq).trans (by decide +kernel)
    · exact (Nat.mul_le_mul_right 2 hq).trans (by decide +kernel)
  unfold deltaBinId binDelta
  by_cases h : b < a
  · rw [Nat.max_eq_left (by omega), Nat.min_eq_right (by omega)]
    simp only [if_pos h]
    exact key a b (by omega) hb ha'
  · rw [Nat.max_eq_right (by omega), Nat.min_eq_left (by omega)]
    simp only [if_neg h]
    exact key b a (by omega) ha hb'

theorem deltaBinId_zero {s a : Nat} : ∃ e, deltaBinId s a 0 = .error e := by
  unfold deltaBinId
  by_cases h : 0 < a
  · simp only [if_pos h, safeShlDivCastDown, if_true]; exact ⟨_, rfl⟩
  · have : a = 0 := by omega
    subst this
    simp only [Nat.lt_irrefl, if_false, safeShlDivCastDown, if_true]; exact ⟨_, rfl⟩

/-- The invariant of the tracker. -/
structure VolOK (w : World) : Prop where
  acc : w.pool.vol.volAcc ≤ w.cfg.fees.dyn.maxVolAcc
  ref : w.pool.vol.volRef ≤ w.cfg.fees.dyn.maxVolAcc
  price : (w.pool.vol.priceRef = 0 ∧ w.pool.vol.lastUpdate = 0 ∧ w.pool.hasSwap ≠ 1) ∨
    w.cfg.fees.dyn.initialized = 0 ∨
    (w.cfg.sqrtStartPrice ≤ w.pool.vol.priceRef ∧ w.pool.vol.priceRef ≤ w.cfg.migrationSqrtPrice)

/-- `update_references` as a plain function. -/
def refsOf (d : DynamicFeeConfig) (v : VolTracker) (price now : Nat) : VolTracker :=
  if now - v.lastUpdate < d.filterPeriod then v
  else if now - v.lastUpdate < d.decayPeriod then
    { v with priceRef := price, volRef := v.volAcc * d.reductionFactor / 10000 }
  else { v with priceRef := price, volRef := 0 }

theorem updateReferences_eq {d : DynamicFeeConfig} (hd : DynOK d) {v : VolTracker} (hv : v.volAcc ≤ d.maxVolAcc)
    (price now : Nat) : updateReferences d v price now = .ok (refsOf d v price now) := by
  unfold updateReferences refsOf
  have hb : v.volAcc * d.reductionFactor ≤ 16777215 * 10000 := Nat.mul_le_mul (hv.trans hd.max) hd.reduction
  by_cases h1 : d.filterPeriod ≤ now - v.lastUpdate
  · rw [if_neg (show ¬ now - v.lastUpdate < d.filterPeriod by omega)]
    simp only [if_pos h1]
    by_cases h2 : now - v.lastUpdate < d.decayPeriod
    · rw [if_pos h2, if_pos h2]
      simp only [bind_ok, safeMul_ok, safeDiv_ok, ok_inj]
      exact ⟨_, ⟨hb.trans (by decide +kernel), rfl⟩, _, ⟨by decide, rfl⟩, rfl⟩
    · rw [if_neg h2, if_neg h2]
  · rw [if_pos (show now - v.lastUpdate < d.filterPeriod by omega)]
    simp only [if_neg h1]

theorem refsOf_acc (d : DynamicFeeConfig) (v : VolTracker) (price now : Nat) :
    (refsOf d v price now).volAcc = v.volAcc ∧ (refsOf d v price now).lastUpdate = v.lastUpdate := by
  unfold refsOf
  split
  · exact ⟨rfl, rfl⟩
  · split <;> exact ⟨rfl, rfl⟩

theorem refsOf_ref {d : DynamicFeeConfig} (hd : DynOK d) {v : VolTracker} (hv : v.volAcc ≤ d.maxVolAcc)
    (hr : v.volRef ≤ d.maxVolAcc) (price now : Nat) : (refsOf d v price now).volRef ≤ d.maxVolAcc := by
  unfold refsOf
  split
  · exact hr
  · split
    · show v.volAcc * d.reductionFactor / 10000 ≤ _
      have : v.volAcc * d.reductionFactor ≤ d.maxVolAcc * 10000 := Nat.mul_le_mul hv hd.reduction
      omega
    · exact Nat.zero_le _

theorem updateVolAcc_eq {d : DynamicFeeConfig} (hd : DynOK d) {v : VolTracker} {price : Nat}
    (hr : v.volRef ≤ d.maxVolAcc) (h1 : MIN_SQRT_PRICE ≤ price) (h2 : price ≤ MAX_SQRT_PRICE)
    (h3 : MIN_SQRT_PRICE ≤ v.priceRef) (h4 : v.priceRef ≤ MAX_SQRT_PRICE) :
    updateVolAcc d v price =
      .ok { v with volAcc := min (v.volRef + binDelta price v.priceRef * 10000) d.maxVolAcc } := by
  obtain ⟨e, b⟩ := deltaBinId_eq h1 h2 h3 h4
  have hm := hd.max
  simp only [updateVolAcc, hd.step128, bind_ok, safeMul_ok, safeAdd_ok, ok_inj]
  have b1 : binDelta price v.priceRef * BASIS_POINT_MAX ≤ 2 ^ 80 * 10000 := Nat.mul_le_mul_right _ b
  refine ⟨_, e, _, ⟨b1.trans (by decide +kernel), rfl⟩, _, ⟨?_, rfl⟩, rfl⟩
  have : v.volRef + binDelta price v.priceRef * BASIS_POINT_MAX ≤ 16777215 + 2 ^ 80 * 10000 :=
    Nat.add_le_add (hr.trans hm) b1
  exact this.trans (by decide +kernel)

theorem variableFee_total {d : DynamicFeeConfig} (hd : d.initialized ≠ 0 → DynOK d) {v : VolTracker}
    (hv : v.volAcc ≤ d.maxVolAcc) : ∃ x, variableFee d v = .ok x ∧ x ≤ 2 ^ 72 := by
  unfold variableFee
  by_cases h : d.initialized = 0
  · rw [if_pos h]; exact ⟨0, rfl, Nat.zero_le _⟩
  · rw [if_neg h]
    have hd := hd h
    have a1 : v.volAcc * d.binStep ≤ 16777215 := by rw [hd.step, Nat.mul_one]; exact hv.trans hd.max
    have a2 : v.volAcc * d.binStep * (v.volAcc * d.binStep) ≤ 16777215 * 16777215 := Nat.mul_le_mul a1 a1
    have a3 : v.volAcc * d.binStep * (v.volAcc * d.binStep) * d.vfc ≤ 16777215 * 16777215 * 16777215 :=
      Nat.mul_le_mul a2 hd.vfc
    simp only [bind_ok, safeMul_ok, safeAdd_ok, safeDiv_ok]
    refine ⟨_, ⟨_, ⟨a1.trans (by decide +kernel), rfl⟩, _, ⟨a2.trans (by decide +kernel), rfl⟩, _,
      ⟨a3.trans (by decide +kernel), rfl⟩, _, ⟨?_, rfl⟩, by decide, rfl⟩, ?_⟩
    · exact (Nat.add_le_add_right a3 _).trans (by decide +kernel)
    · refine (Nat.div_le_self _ _).trans ((Nat.add_le_add_right a3 _).trans (by decide +kernel))

theorem VolOK.swap {w w' : World} {ps : List Point} (hc : Core w ps) (hd : w.cfg.fees.dyn.initialized ≠ 0 → DynOK w.cfg.fees.dyn)
    (v : VolOK w) {a : SwapArgs} {cur : Nat} {fm : FeeMode} {r : SwapResult} {v1 v2 : VolTracker}
    (s : SwapStep w a w' cur fm r v1 v2) : VolOK w' := by
  have e := s.cfg
  by_cases hi : w.cfg.fees.dyn.initialized = 0
  · obtain ⟨rfl, rfl⟩ := s.preOff hi
    have ev := s.vol
    exact ⟨by rw [ev, e]; exact v.acc, by rw [ev, e]; exact v.ref, .inr (.inl (by rw [e]; exact hi))⟩
  · have hd := hd hi
    have h1 := s.preOn hi
    rw [updateReferences_eq hd v.acc, ok_inj] at h1
    obtain ⟨u, db, hu, _, hv2⟩ := s.postOn hi
    have hacc := refsOf_acc w.cfg.fees.dyn w.pool.vol w.pool.sqrtPrice a.clk.time
    have href := refsOf_ref hd v.acc v.ref w.pool.sqrtPrice a.clk.time
    rw [h1] at hacc href
    have hpr : w.cfg.sqrtStartPrice ≤ v1.priceRef ∧ v1.priceRef ≤ w.cfg.migrationSqrtPrice := by
      have hlo := hc.lo
      have hhi := hc.hi
      have hcase : v1.priceRef = w.pool.sqrtPrice ∨ v1.priceRef = w.pool.vol.priceRef := by
        rw [← h1]; unfold refsOf
        split
        · exact .inr rfl
        · split <;> exact .inl rfl
      rcases hcase with h | h
      · rw [h]; exact ⟨hlo, hhi⟩
      · rcases v.price with ⟨h0, _⟩ | h0 | h0
        · exfalso
          unfold updateVolAcc at hu
          rw [h, h0] at hu
          obtain ⟨er, her⟩ := @deltaBinId_zero w.cfg.fees.dyn.binStepU128 r.next
          rw [her] at hu
          cases hu
        · exact absurd h0 hi
        · rw [h]; exact h0
    simp only [updateVolAcc, bind_ok, ok_inj] at hu
    obtain ⟨dl, _, m, _, acc, _, rfl⟩ := hu
    have hv : v2.volAcc ≤ w.cfg.fees.dyn.maxVolAcc ∧ v2.volRef = v1.volRef ∧ v2.priceRef = v1.priceRef := by
      rw [hv2]; split <;> exact ⟨Nat.min_le_right _ _, rfl, rfl⟩
    refine ⟨?_, ?_, .inr (.inr ?_)⟩
    · rw [s.vol, e]; exact hv.1
    · rw [s.vol, e, hv.2.1]; exact href
    · rw [s.vol, e, hv.2.2]; exact hpr

theorem Reachable.dyn {w : World} (h : Reachable w) : w.cfg.fees.dyn.initialized ≠ 0 → DynOK w.cfg.fees.dyn := by
  obtain ⟨p, env, _, hc⟩ := h.config
  exact accepted_dyn hc

theorem Reachable.volOK {w : World} (h : Reachable w) : VolOK w := by
  refine Reachable.induct (P := VolOK) ?_ ?_ h
  · intro w hg
    obtain ⟨p, env, a, c, ht, hc, hi⟩ := hg
    obtain ⟨supply, mint, upd, act, b, h1, h2, h3, h4, h5, h6, h7, h8, rfl⟩ := initPool_ok hi
    exact ⟨Nat.zero_le _, Nat.zero_le _, .inl ⟨rfl, rfl, fun h => by cases h⟩⟩
  · intro w op w' hr v hs
    rcases step_cases hs with ⟨a, rfl, hs⟩ | ⟨e1, e2, e3, e4, e5, e6, e7, -⟩
    · obtain ⟨cur, fm, r, v1, v2, s⟩ := swap_ok hs
      obtain ⟨ps, hc⟩ := hr.core
      exact v.swap hc hr.dyn s
    · exact ⟨by rw [e1, e6]; exact v.acc, by rw [e1, e6]; exact v.ref, by rw [e1, e6, e7]; exact v.price⟩

end Dbc

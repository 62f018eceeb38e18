import Verif.Lemmas.Config
import Verif.Spec.Vesting

/-!
# Liquidity vesting: inversion of the schedule built at migration
-/

namespace Dbc

/-- Liquidity released per period out of `total`. -/
def LiqVesting.per (v : LiqVesting) (total : Nat) : Nat :=
  total * (v.bpsPerPeriod * v.numPeriods) / 10000 / v.numPeriods

/-- The schedule built for `total` at time `now`. -/
def LiqVesting.sched (v : LiqVesting) (total now : Nat) : VestParams :=
  ⟨now + (if v.per total = 0 then max v.cliffDuration 1 else v.cliffDuration), v.per total,
    total - v.per total * (if v.per total = 0 then 0 else v.numPeriods),
    if v.per total = 0 then 0 else v.frequency, if v.per total = 0 then 0 else v.numPeriods⟩

theorem LiqVesting.per_div {v : LiqVesting} {total x : Nat} :
    (if 0 < v.numPeriods then safeDiv (total * (v.bpsPerPeriod * v.numPeriods) / MAX_BASIS_POINT) v.numPeriods
      else (.ok 0 : Res Nat)) = .ok x ↔ x = v.per total := by
  unfold LiqVesting.per
  rcases Nat.eq_zero_or_pos v.numPeriods with h | h
  · simp [h, eq_comm]
  · rw [if_pos h, safeDiv_ok]
    constructor
    · rintro ⟨_, rfl⟩; rfl
    · rintro rfl; exact ⟨by omega, rfl⟩

theorem LiqVesting.params_ok {v : LiqVesting} {total now : Nat} {P : VestParams} (h : v.params total now = .ok P) :
    v.bpsPerPeriod * v.numPeriods ≤ u16Max ∧ v.per total * v.numPeriods ≤ total ∧
      (v.sched total now).cliffPoint ≤ u64Max ∧ P = v.sched total now := by
  simp only [LiqVesting.params, bind_ok, safeMul_ok, mulDivU128_down, safeSub_ok, safeAdd_ok, ok_inj] at h
  obtain ⟨_, ⟨h1, rfl⟩, _, ⟨_, _, rfl, h2⟩, x, hx, _, ⟨h3, rfl⟩, _, ⟨h4, rfl⟩, _, ⟨h5, rfl⟩, rfl⟩ := h
  have := per_div.1 hx
  subst this
  refine ⟨h1, ?_, h5, rfl⟩
  split at h4
  · rename_i h0; rw [h0, Nat.zero_mul]; exact Nat.zero_le _
  · exact h4

theorem LiqVesting.per_mul_le (v : LiqVesting) (total : Nat) (hT : v.bpsPerPeriod * v.numPeriods ≤ 10000) :
    v.per total * v.numPeriods ≤ total := by
  unfold LiqVesting.per
  have h1 := Nat.div_mul_le_self (total * (v.bpsPerPeriod * v.numPeriods) / 10000) v.numPeriods
  have h2 : total * (v.bpsPerPeriod * v.numPeriods) / 10000 ≤ total := by
    apply Nat.div_le_of_le_mul
    rw [Nat.mul_comm 10000]
    exact Nat.mul_le_mul_left _ hT
  exact h1.trans h2

/-- The schedule is always built for a share that fits the liquidity type. -/
theorem LiqVesting.params_some {v : LiqVesting} {total now : Nat} (ht : total ≤ u128Max)
    (hT : v.bpsPerPeriod * v.numPeriods ≤ 10000) (hc : now + max v.cliffDuration 1 ≤ u64Max) :
    v.params total now = .ok (v.sched total now) := by
  simp only [LiqVesting.params, bind_ok, safeMul_ok, mulDivU128_down, safeSub_ok, safeAdd_ok, ok_inj]
  have h0 := v.per_mul_le total hT
  have h1 : total * (v.bpsPerPeriod * v.numPeriods) / MAX_BASIS_POINT ≤ total := by
    apply Nat.div_le_of_le_mul
    rw [Nat.mul_comm MAX_BASIS_POINT]
    exact Nat.mul_le_mul_left _ hT
  have h2 : (v.per total * if v.per total = 0 then 0 else v.numPeriods) ≤ total := by
    split
    · omega
    · exact h0
  have h3 : total * (v.bpsPerPeriod * v.numPeriods) ≤ u256Max := by
    have h5 : total * (v.bpsPerPeriod * v.numPeriods) ≤ u128Max * 10000 := Nat.mul_le_mul ht hT
    have h6 : u128Max * 10000 ≤ u256Max := by decide
    exact h5.trans h6
  have h4 : (10000 : Nat) ≤ u16Max := by decide
  refine ⟨_, ⟨hT.trans h4, rfl⟩, _, ⟨h3, by decide, rfl, h1.trans ht⟩, _, per_div.2 rfl, _, ⟨h2.trans ht, rfl⟩, _,
    ⟨h2, rfl⟩, _, ⟨?_, rfl⟩, rfl⟩
  split <;> omega

/-- The share used when a vesting schedule is validated: `pct` percent of the largest liquidity. -/
theorem share_eq {pct t : Nat} (h : safeMulDivCastU128 u128Max pct 100 .down = .ok t) : t = u128Max * pct / 100 :=
  (mulDivU128_down.1 h).2.2.1

/-- What a validated liquidity vesting guarantees. -/
structure VestOK (v : LiqVestingParams) : Prop where
  pctPos : 0 < v.pct
  bps : v.bpsPerPeriod * v.numPeriods ≤ 10000
  cliff : max v.cliffDuration 1 ≤ MAX_LOCK_DURATION_IN_SECONDS
  freq : 0 < v.bpsPerPeriod * v.numPeriods → 0 < v.frequency
  dur : 0 < v.bpsPerPeriod * v.numPeriods → v.cliffDuration + v.frequency * v.numPeriods ≤ MAX_LOCK_DURATION_IN_SECONDS

theorem per_bounds (a T n : Nat) (hn : 0 < n) :
    a * T ≤ (a * T / 10000 / n + 1) * (10000 * n) := by
  rw [Nat.div_div_eq_div_mul]
  have := Nat.lt_div_mul_add (a := a * T) (b := 10000 * n) (by positivity)
  rw [Nat.add_mul, Nat.one_mul]
  omega

theorem VestOK.of_validate {v : LiqVestingParams} {now : Nat} (h : v.validate now = .ok ()) (hz : ¬ v.isZero)
    (hn : v.numPeriods ≤ u16Max) : VestOK v := by
  simp only [LiqVestingParams.validate, if_neg hz, bind_ok] at h
  obtain ⟨t, ht, P, hP, h⟩ := h
  have et := share_eq ht
  obtain ⟨h1, h2, h3, rfl⟩ := LiqVesting.params_ok hP
  simp only [VestParams.validate, bind_ok, req_ok, safeSub_ok, safeMul_ok, safeAdd_ok] at h
  obtain ⟨_, _, _, g1, _, g2, _, ⟨_, rfl⟩, _, ⟨_, rfl⟩, _, ⟨_, rfl⟩, _, g3, _, ⟨_, rfl⟩, _, ⟨_, rfl⟩, g4⟩ := h
  have b1 : v.toInfo.bpsPerPeriod = v.bpsPerPeriod := rfl
  have b2 : v.toInfo.numPeriods = v.numPeriods := rfl
  have b3 : v.toInfo.cliffDuration = v.cliffDuration := rfl
  have b4 : v.toInfo.frequency = v.frequency := rfl
  have hpct : 0 < v.pct := by
    rcases Nat.eq_zero_or_pos v.pct with h0 | h0
    · exfalso
      have e : t = 0 := by rw [et, h0]; rfl
      subst e
      have : v.toInfo.per 0 = 0 := by unfold LiqVesting.per; simp
      simp [LiqVesting.sched, this] at g4
    · exact h0
  have htl : u128Max / 100 ≤ t := by
    rw [et]; exact Nat.div_le_div_right (Nat.le_mul_of_pos_right _ hpct)
  have hbig : 10000 * 65535 * 10 ≤ u128Max / 100 := by decide
  have hn' : v.numPeriods ≤ 65535 := hn
  have hT : v.bpsPerPeriod * v.numPeriods ≤ 10000 := by
    by_contra hlt
    have hnp : 0 < v.numPeriods := by
      rcases Nat.eq_zero_or_pos v.numPeriods with h0 | h0
      · rw [h0] at hlt; omega
      · exact h0
    have k1 := per_bounds t (v.bpsPerPeriod * v.numPeriods) v.numPeriods hnp
    have k2 : t * 10001 ≤ t * (v.bpsPerPeriod * v.numPeriods) := Nat.mul_le_mul_left _ (by omega)
    have k3 : v.toInfo.per t = t * (v.bpsPerPeriod * v.numPeriods) / 10000 / v.numPeriods := rfl
    rw [← k3] at k1
    rw [b2] at h2
    have k4 : (v.toInfo.per t + 1) * (10000 * v.numPeriods) = (v.toInfo.per t * v.numPeriods) * 10000 + 10000 * v.numPeriods := by ring
    omega
  have hper : 0 < v.bpsPerPeriod * v.numPeriods → v.toInfo.per t ≠ 0 := by
    intro hpos h0
    have hnp : 0 < v.numPeriods := Nat.pos_of_mul_pos_left hpos
    have k1 := per_bounds t (v.bpsPerPeriod * v.numPeriods) v.numPeriods hnp
    have k3 : v.toInfo.per t = t * (v.bpsPerPeriod * v.numPeriods) / 10000 / v.numPeriods := rfl
    rw [← k3, h0] at k1
    have k2 : t * 1 ≤ t * (v.bpsPerPeriod * v.numPeriods) := Nat.mul_le_mul_left _ hpos
    omega
  refine ⟨hpct, hT, ?_, ?_, ?_⟩
  · by_cases hp : v.toInfo.per t = 0
    · simp only [LiqVesting.sched, hp, if_true, b3] at g3
      omega
    · simp only [LiqVesting.sched, hp, if_false, b3] at g3
      have : 1 ≤ MAX_LOCK_DURATION_IN_SECONDS := by decide
      rw [Nat.max_le]
      exact ⟨by omega, this⟩
  · intro hpos
    have hp := hper hpos
    have hnp : 0 < v.numPeriods := Nat.pos_of_mul_pos_left hpos
    simp only [LiqVesting.sched, hp, if_false, b2, b4, if_pos hnp, req_ok] at g2
    exact g2.1
  · intro hpos
    have hp := hper hpos
    simp only [LiqVesting.sched, hp, if_false, b2, b3, b4] at g3
    omega

/-! ### Release over time -/

theorem VestParams.unlockedAt_ok {P : VestParams} {t : Nat} (h : P.cliffUnlock + P.numPeriods * P.perPeriod ≤ u128Max) :
    P.unlockedAt t = .ok (Spec.released P.cliffPoint P.cliffUnlock P.perPeriod P.frequency P.numPeriods t) := by
  unfold VestParams.unlockedAt Spec.released
  split
  · rfl
  · rename_i h1
    split
    · rfl
    · rename_i h2
      have h3 : min ((t - P.cliffPoint) / P.frequency) P.numPeriods * P.perPeriod ≤ P.numPeriods * P.perPeriod :=
        Nat.mul_le_mul_right _ (Nat.min_le_right _ _)
      simp only [bind_ok, safeSub_ok, safeDiv_ok, safeMul_ok, safeAdd_ok]
      exact ⟨_, ⟨by omega, rfl⟩, _, ⟨h2, rfl⟩, _, ⟨by omega, rfl⟩, by omega, rfl⟩

/-- What of `total` is still locked at time `t` by the schedule built at `now`. -/
def LiqVesting.held (v : LiqVesting) (total now t : Nat) : Nat :=
  total - Spec.released (v.sched total now).cliffPoint (v.sched total now).cliffUnlock (v.sched total now).perPeriod
    (v.sched total now).frequency (v.sched total now).numPeriods t

theorem LiqVesting.sched_total (v : LiqVesting) (total now : Nat) (h : v.per total * v.numPeriods ≤ total) :
    (v.sched total now).cliffUnlock + (v.sched total now).numPeriods * (v.sched total now).perPeriod = total := by
  by_cases hp : v.per total = 0
  · simp [LiqVesting.sched, hp]
  · simp only [LiqVesting.sched, hp, if_false]
    rw [Nat.mul_comm v.numPeriods]
    omega

theorem LiqVesting.held_eq (v : LiqVesting) (total now n : Nat) (h : v.per total * v.numPeriods ≤ total) :
    v.held total now (now + n) = if n < (if v.per total = 0 then max v.cliffDuration 1 else v.cliffDuration) then total
      else v.per total * (v.numPeriods - min ((n - v.cliffDuration) / v.frequency) v.numPeriods) := by
  have ht := v.sched_total total now h
  unfold LiqVesting.held Spec.released
  by_cases hp : v.per total = 0
  · simp only [LiqVesting.sched, hp, if_true] at ht ⊢
    by_cases hn : n < max v.cliffDuration 1
    · rw [if_pos (by omega), if_pos hn]; rfl
    · rw [if_neg (by omega), if_neg hn]; simp
  · simp only [LiqVesting.sched, hp, if_false] at ht ⊢
    by_cases hn : n < v.cliffDuration
    · rw [if_pos (by omega), if_pos hn]; rfl
    · rw [if_neg (by omega), if_neg hn]
      have e : now + n - (now + v.cliffDuration) = n - v.cliffDuration := by omega
      rw [e]
      by_cases hf : v.frequency = 0
      · rw [if_pos hf, hf, Nat.div_zero, Nat.zero_min, Nat.sub_zero]
        omega
      · rw [if_neg hf]
        generalize min ((n - v.cliffDuration) / v.frequency) v.numPeriods = k
        rw [Nat.mul_sub, Nat.mul_comm k]
        omega

theorem LiqVesting.lockedBpsAt_ok {v : LiqVesting} {n b : Nat} (hi : v.isInit ≠ 0) (h : v.lockedBpsAt n = .ok b) :
    b = v.held (u128Max * v.pct / 100) 0 n * 10000 / u128Max := by
  simp only [LiqVesting.lockedBpsAt, if_neg hi, bind_ok, safeSub_ok, castTo_ok] at h
  obtain ⟨t, ht, P, hP, u, hu, l, ⟨_, rfl⟩, x, hx, _, rfl⟩ := h
  have ht2 := (mulDivU128_down.1 ht).2.2.2
  have et := share_eq ht
  rw [et] at hP ht2 hx
  obtain ⟨_, h2, _, rfl⟩ := LiqVesting.params_ok hP
  have hs := v.sched_total _ 0 h2
  rw [VestParams.unlockedAt_ok (by rw [hs]; exact ht2), ok_inj] at hu
  have hx := (mulDivU128_down.1 hx).2.2.1
  rw [hx, ← hu]
  rfl

/-- The locked fraction checked at creation survives, up to rounding, for every amount of liquidity. -/
theorem LiqVesting.locked_scales {v : LiqVesting} {n b L : Nat} (hi : v.isInit ≠ 0) (h : v.lockedBpsAt n = .ok b)
    (hpct : v.pct ≤ 100) (hT : v.bpsPerPeriod * v.numPeriods ≤ 10000) (hL : L ≤ u128Max) (now : Nat) :
    b * L ≤ 10000 * (v.held (L * v.pct / 100) now (now + n) + 20000) := by
  have hb := lockedBpsAt_ok hi h
  have hU : 0 < u128Max := by decide
  set U := u128Max with hUdef
  clear_value U
  have hm0 := v.per_mul_le (U * v.pct / 100) hT
  have hm1 := v.per_mul_le (L * v.pct / 100) hT
  have e0 := v.held_eq (U * v.pct / 100) 0 n hm0
  rw [Nat.zero_add] at e0
  have e1 := v.held_eq (L * v.pct / 100) now n hm1
  rw [e1]
  rw [e0] at hb
  have hmono : v.per (L * v.pct / 100) ≤ v.per (U * v.pct / 100) := by
    unfold LiqVesting.per
    exact Nat.div_le_div_right (Nat.div_le_div_right (Nat.mul_le_mul_right _ (Nat.div_le_div_right (Nat.mul_le_mul_right _ hL))))
  set t := U * v.pct / 100 with ht
  set s := L * v.pct / 100 with hs
  have hbU : ∀ X, b = X * 10000 / U → b * U ≤ X * 10000 := fun X hX => by rw [hX]; exact Nat.div_mul_le_self _ _
  have hb2 := hbU _ hb
  clear hbU hb e0 e1
  have ht1 : t * 100 ≤ U * v.pct := Nat.div_mul_le_self _ _
  have hs1 : L * v.pct < s * 100 + 100 := by
    have := Nat.lt_div_mul_add (a := L * v.pct) (b := 100) (by decide); exact this
  -- scaling of the whole share
  have hshare : t * L ≤ U * (s + 1) := by
    have a1 : t * 100 * L ≤ U * v.pct * L := Nat.mul_le_mul_right _ ht1
    have a2 : U * (L * v.pct) ≤ U * (s * 100 + 100) := Nat.mul_le_mul_left _ hs1.le
    have a3 : t * 100 * L = 100 * (t * L) := by ring
    have a4 : U * v.pct * L = U * (L * v.pct) := by ring
    have a5 : U * (s * 100 + 100) = 100 * (U * (s + 1)) := by ring
    omega
  have fin : ∀ X Y, b * U ≤ X * 10000 → X * L ≤ U * Y → b * L ≤ 10000 * Y := by
    intro X Y h1 h2
    have a1 : b * U * L ≤ X * 10000 * L := Nat.mul_le_mul_right _ h1
    have a2 : U * (b * L) ≤ U * (10000 * Y) := by
      calc U * (b * L) = b * U * L := by ring
        _ ≤ X * 10000 * L := a1
        _ = 10000 * (X * L) := by ring
        _ ≤ 10000 * (U * Y) := Nat.mul_le_mul_left _ h2
        _ = U * (10000 * Y) := by ring
    exact Nat.le_of_mul_le_mul_left a2 hU
  have up : ∀ Y Y', Y ≤ Y' → b * L ≤ 10000 * Y → b * L ≤ 10000 * Y' := fun Y Y' h1 h2 =>
    h2.trans (Nat.mul_le_mul_left _ h1)
  by_cases hcase : n < (if v.per t = 0 then max v.cliffDuration 1 else v.cliffDuration)
  · rw [if_pos hcase] at hb2
    have : n < (if v.per s = 0 then max v.cliffDuration 1 else v.cliffDuration) := by
      by_cases h0 : v.per t = 0
      · rw [if_pos h0] at hcase; rw [if_pos (by omega)]; exact hcase
      · rw [if_neg h0] at hcase
        split <;> omega
    rw [if_pos this]
    exact up _ _ (by omega) (fin _ _ hb2 hshare)
  · rw [if_neg hcase] at hb2
    generalize hm : v.numPeriods - min ((n - v.cliffDuration) / v.frequency) v.numPeriods = m at hb2 ⊢
    have hmn : m ≤ v.numPeriods := by rw [← hm]; exact Nat.sub_le _ _
    by_cases hp : v.per t = 0
    · rw [hp, Nat.zero_mul, Nat.zero_mul] at hb2
      have : b = 0 := by
        rcases Nat.eq_zero_or_pos b with h0 | h0
        · exact h0
        · have := Nat.mul_pos h0 hU; omega
      rw [this, Nat.zero_mul]; exact Nat.zero_le _
    · have hTpos : 0 < v.bpsPerPeriod * v.numPeriods := by
        rcases Nat.eq_zero_or_pos (v.bpsPerPeriod * v.numPeriods) with h0 | h0
        · exfalso; apply hp; unfold LiqVesting.per; rw [h0]; simp
        · exact h0
      have hnp : 0 < v.numPeriods := Nat.pos_of_mul_pos_left hTpos
      have hbp : 0 < v.bpsPerPeriod := Nat.pos_of_mul_pos_right hTpos
      have hn1 : v.numPeriods ≤ 10000 := (Nat.le_mul_of_pos_left _ hbp).trans hT
      have hper : v.per t * L ≤ U * (v.per s + 2) := by
        have a1 : v.per t * (10000 * v.numPeriods) ≤ t * (v.bpsPerPeriod * v.numPeriods) := by
          unfold LiqVesting.per
          rw [Nat.div_div_eq_div_mul]
          exact Nat.div_mul_le_self _ _
        have a2 : s * (v.bpsPerPeriod * v.numPeriods) ≤ (v.per s + 1) * (10000 * v.numPeriods) :=
          per_bounds s _ _ hnp
        generalize v.bpsPerPeriod * v.numPeriods = T at *
        have a3 : v.per t * L * (10000 * v.numPeriods) ≤ U * (v.per s + 2) * (10000 * v.numPeriods) := by
          calc v.per t * L * (10000 * v.numPeriods) = v.per t * (10000 * v.numPeriods) * L := by ring
            _ ≤ t * T * L := Nat.mul_le_mul_right _ a1
            _ = t * L * T := by ring
            _ ≤ U * (s + 1) * T := Nat.mul_le_mul_right _ hshare
            _ = U * (s * T + T) := by ring
            _ ≤ U * ((v.per s + 1) * (10000 * v.numPeriods) + 10000 * v.numPeriods) := by
                apply Nat.mul_le_mul_left
                have : T ≤ 10000 * v.numPeriods := hT.trans (Nat.le_mul_of_pos_right _ hnp)
                omega
            _ = U * (v.per s + 2) * (10000 * v.numPeriods) := by ring
        exact Nat.le_of_mul_le_mul_right a3 (by positivity)
      have hX : v.per t * m * L ≤ U * (v.per s * m + 20000) := by
        calc v.per t * m * L = v.per t * L * m := by ring
          _ ≤ U * (v.per s + 2) * m := Nat.mul_le_mul_right _ hper
          _ = U * (v.per s * m + 2 * m) := by ring
          _ ≤ _ := Nat.mul_le_mul_left _ (by omega)
      have hbL := fin _ _ hb2 hX
      refine up _ _ ?_ hbL
      generalize (if v.per s = 0 then max v.cliffDuration 1 else v.cliffDuration) = d
      split
      · have k1 : v.per s * m ≤ v.per s * v.numPeriods := Nat.mul_le_mul_left _ hmn
        exact Nat.add_le_add_right (k1.trans hm1) _
      · exact le_rfl

end Dbc

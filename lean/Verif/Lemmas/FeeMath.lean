import Verif.Lemmas.Base
import Verif.Model.Fee
import Mathlib.Tactic.Linarith
import Mathlib.Tactic.Ring
import Mathlib.Tactic.Positivity
import Mathlib.Tactic.FieldSimp
import Mathlib.Data.Rat.Cast.Order
import Mathlib.Algebra.Order.Field.Basic

/-!
# Square root, fixed-point powers, fee schedules
-/

namespace Dbc

/-! ### Integer square root -/

theorem sqrtLoop_ok (k : Nat) : ∀ (q n N : Nat), k ≤ 128 → N ≤ u256Max → n + (2 ^ k * q) * (2 ^ k * q) = N →
    N < (2 ^ k * q + 2 ^ k) * (2 ^ k * q + 2 ^ k) →
    ∃ s, sqrtLoop k n (2 ^ k * (2 ^ k * q)) = some s ∧ s * s ≤ N ∧ N < (s + 1) * (s + 1) := by
  induction k with
  | zero =>
    intro q n N _ _ h1 h2
    simp only [pow_zero, one_mul] at *
    exact ⟨q, rfl, by omega, h2⟩
  | succ k ih =>
    intro q n N hk hN h1 h2
    unfold sqrtLoop
    have hpow : (2 : Nat) ^ (k + 1) = 2 * 2 ^ k := by rw [pow_succ]; ring
    have h4 : (4 : Nat) ^ k = 2 ^ k * 2 ^ k := by rw [show (4 : Nat) = 2 * 2 from rfl, mul_pow]
    rw [hpow] at h1 h2 ⊢
    rw [h4]
    dsimp only
    clear hpow h4
    generalize ht : (2 : Nat) ^ k = t at *
    have hsum : 2 * t * (2 * t * q) + t * t + (2 * t * q) * (2 * t * q) = (2 * t * q + t) * (2 * t * q + t) := by ring
    have hr : (2 * t * q) * (2 * t * q) ≤ N := by omega
    have hlt : 2 * t * q < 2 ^ 128 := by
      by_contra hc
      have : 2 ^ 128 * 2 ^ 128 ≤ (2 * t * q) * (2 * t * q) := Nat.mul_le_mul (by omega) (by omega)
      have e : (2 : Nat) ^ 128 * 2 ^ 128 = u256Max + 1 := by decide
      omega
    -- the partial root is a multiple of `2t`, so adding `t` stays below `2^128`
    have hlt' : 2 * t * q + t < 2 ^ 128 := by
      have hdvd : 2 * t ∣ 2 ^ 128 := by rw [← ht, ← pow_succ']; exact pow_dvd_pow 2 (by omega)
      obtain ⟨m, hm⟩ := hdvd
      have htp : 0 < t := by rw [← ht]; positivity
      rw [hm] at hlt ⊢
      have : q < m := by
        by_contra hc
        have := Nat.mul_le_mul_left (2 * t) (by omega : m ≤ q)
        omega
      have := Nat.mul_le_mul_left (2 * t) (by omega : q + 1 ≤ m)
      rw [Nat.mul_add] at this
      omega
    have hbit : 2 * t * (2 * t * q) + t * t ≤ u256Max := by
      have h1 : (2 * t * q + t) * (2 * t * q + t) ≤ (2 ^ 128 - 1) * (2 ^ 128 - 1) :=
        Nat.mul_le_mul (by omega) (by omega)
      have e : (2 ^ 128 - 1) * (2 ^ 128 - 1) ≤ u256Max := by decide
      omega
    have heven : 2 * t * (2 * t * q) % 2 = 0 := by
      rw [show 2 * t * (2 * t * q) = 2 * (t * (2 * t * q)) by ring]; omega
    have hhalf : 2 * t * (2 * t * q) / 2 = t * (2 * t * q) := by
      rw [show 2 * t * (2 * t * q) = 2 * (t * (2 * t * q)) by ring]; omega
    rw [if_pos hbit, if_pos heven, hhalf]
    by_cases hc : 2 * t * (2 * t * q) + t * t ≤ n
    · rw [if_pos hc]
      have hle : t * (2 * t * q) + t * t ≤ u256Max := by
        have : 2 * t * (2 * t * q) = t * (2 * t * q) + t * (2 * t * q) := by ring
        omega
      rw [if_pos hle]
      have e1 : t * (2 * t * q) + t * t = t * (t * (2 * q + 1)) := by ring
      rw [e1]
      refine ih (2 * q + 1) _ N (by omega) hN ?_ ?_
      · have : (t * (2 * q + 1)) * (t * (2 * q + 1)) = (2 * t * q + t) * (2 * t * q + t) := by ring
        omega
      · have : (t * (2 * q + 1) + t) * (t * (2 * q + 1) + t) = (2 * t * q + 2 * t) * (2 * t * q + 2 * t) := by ring
        omega
    · rw [if_neg hc, if_pos heven]
      have e1 : t * (2 * t * q) = t * (t * (2 * q)) := by ring
      rw [e1]
      refine ih (2 * q) _ N (by omega) hN ?_ ?_
      · have : (t * (2 * q)) * (t * (2 * q)) = (2 * t * q) * (2 * t * q) := by ring
        omega
      · have : (t * (2 * q) + t) * (t * (2 * q) + t) = (2 * t * q + t) * (2 * t * q + t) := by ring
        omega

theorem sqrtU256_ok {n : Nat} (h : n ≤ u256Max) : ∃ s, sqrtU256 n = some s ∧ s * s ≤ n ∧ n < (s + 1) * (s + 1) := by
  unfold sqrtU256
  by_cases h0 : n = 0
  · rw [if_pos h0]; exact ⟨0, rfl, by omega, by omega⟩
  · rw [if_neg h0]
    have hl : Nat.log2 n < 256 := by
      rw [Nat.log2_lt h0]
      have : u256Max < 2 ^ 256 := by decide
      omega
    have := sqrtLoop_ok (highBit n / 2 + 1) 0 n n (by unfold highBit; omega) h (by simp) (by
      simp only [Nat.mul_zero, Nat.zero_add]
      have h1 : n < 2 ^ (Nat.log2 n + 1) := Nat.lt_log2_self
      have h2 : 2 ^ (Nat.log2 n + 1) ≤ 2 ^ (highBit n / 2 + 1) * 2 ^ (highBit n / 2 + 1) := by
        rw [← pow_add]
        exact Nat.pow_le_pow_right (by decide) (by unfold highBit; omega)
      omega)
    simpa using this

/-! ### Fixed-point power -/

theorem floor_mul_bounds (r s : Nat) :
    ((r * s / 2 ^ 64 : Nat) : ℚ) ≤ r * s / 2 ^ 64 ∧ (r * s : ℚ) / 2 ^ 64 - 1 < ((r * s / 2 ^ 64 : Nat) : ℚ) := by
  have h1 : r * s / 2 ^ 64 * 2 ^ 64 ≤ r * s := Nat.div_mul_le_self _ _
  have h2 : r * s < (r * s / 2 ^ 64 + 1) * 2 ^ 64 := by
    have := Nat.lt_div_mul_add (a := r * s) (b := 2 ^ 64) (by positivity)
    rw [Nat.add_mul]; omega
  generalize r * s / 2 ^ 64 = f at *
  have h1' : (f : ℚ) * 2 ^ 64 ≤ r * s := by exact_mod_cast h1
  have h2' : (r * s : ℚ) < (f + 1) * 2 ^ 64 := by exact_mod_cast h2
  constructor
  · rw [le_div_iff₀ (by positivity)]; exact h1'
  · rw [sub_lt_iff_lt_add, div_lt_iff₀ (by positivity)]; exact h2'

theorem powLoop_ok (fuel : Nat) : ∀ (sq exp result : Nat) (x y d e : ℚ), exp < 2 ^ fuel → sq < 2 ^ 64 → result ≤ 2 ^ 64 →
    0 ≤ x → x ≤ 1 → 0 ≤ y → y ≤ 1 → 0 ≤ d → 0 ≤ e →
    (sq : ℚ) ≤ 2 ^ 64 * x → 2 ^ 64 * x - e ≤ sq → (result : ℚ) ≤ 2 ^ 64 * y → 2 ^ 64 * y - d ≤ result →
    ∃ out, powLoop fuel sq exp result = some out ∧ (out : ℚ) ≤ 2 ^ 64 * (y * x ^ exp) ∧
      2 ^ 64 * (y * x ^ exp) - d - exp * (e + 1) ≤ out ∧ out ≤ result := by
  induction fuel with
  | zero =>
    intro sq exp result x y d e h1 _ _ _ _ _ _ _ _ _ _ h3 h4
    have : exp = 0 := by simpa using h1
    subst this
    exact ⟨result, rfl, by simpa using h3, by simpa using h4, le_rfl⟩
  | succ fuel ih =>
    intro sq exp result x y d e h1 hs hr hx0 hx1 hy0 hy1 hd he h5 h6 h7 h8
    have hb : (2 ^ 64 - 1) * 2 ^ 64 ≤ u128Max := by decide
    have m1 : result * sq ≤ u128Max := by
      have : result * sq ≤ 2 ^ 64 * (2 ^ 64 - 1) := Nat.mul_le_mul hr (by omega)
      omega
    have m2 : sq * sq ≤ u128Max := by
      have : sq * sq ≤ (2 ^ 64 - 1) * (2 ^ 64 - 1) := Nat.mul_le_mul (by omega) (by omega)
      have : (2 ^ 64 - 1) * (2 ^ 64 - 1) ≤ (2 ^ 64 - 1) * 2 ^ 64 := by decide
      omega
    have hsq' : sq * sq / 2 ^ 64 < 2 ^ 64 := by
      have h1 : sq * sq < 2 ^ 64 * 2 ^ 64 := by have : u128Max < 2 ^ 64 * 2 ^ 64 := by decide
                                                omega
      exact Nat.div_lt_of_lt_mul h1
    have hrs : result * sq / 2 ^ 64 ≤ result := by
      apply Nat.div_le_of_le_mul
      rw [Nat.mul_comm]
      exact Nat.mul_le_mul_right _ (by omega)
    obtain ⟨f1, f2⟩ := floor_mul_bounds result sq
    obtain ⟨g1, g2⟩ := floor_mul_bounds sq sq
    -- squaring
    have hQ : (0 : ℚ) < 2 ^ 64 := by positivity
    have sq0 : (0 : ℚ) ≤ sq := by positivity
    have re0 : (0 : ℚ) ≤ result := by positivity
    have up2 : ((sq * sq / 2 ^ 64 : Nat) : ℚ) ≤ 2 ^ 64 * (x * x) := by
      refine le_trans g1 ?_
      rw [div_le_iff₀ hQ]
      nlinarith [mul_le_mul h5 h5 sq0 (by positivity)]
    have lo2 : 2 ^ 64 * (x * x) - (2 * e + 1) ≤ ((sq * sq / 2 ^ 64 : Nat) : ℚ) := by
      have : 2 ^ 64 * (x * x) - 2 * e ≤ (sq : ℚ) * sq / 2 ^ 64 := by
        rw [le_div_iff₀ hQ]
        have hx2 : 2 ^ 64 * x ≤ (sq : ℚ) + e := by linarith
        have h0 : 0 ≤ 2 ^ 64 * x - (sq : ℚ) := by linarith
        have h1 : 2 ^ 64 * x * (2 ^ 64 * x) - (sq : ℚ) * sq = (2 ^ 64 * x - sq) * (2 ^ 64 * x + sq) := by ring
        have h2 : (2 ^ 64 * x - (sq : ℚ)) * (2 ^ 64 * x + sq) ≤ e * (2 * 2 ^ 64) :=
          mul_le_mul (by linarith) (by nlinarith) (by positivity) he
        nlinarith
      linarith
    have hxx0 : 0 ≤ x * x := by positivity
    have hxx1 : x * x ≤ 1 := by nlinarith
    unfold powLoop
    have hexp : exp / 2 < 2 ^ fuel := by rw [pow_succ] at h1; omega
    have hxp : ∀ k, x ^ (2 * k) = (x * x) ^ k := by intro k; rw [pow_mul]; congr 1; ring
    by_cases hodd : exp % 2 = 1
    · rw [if_pos hodd, if_pos m1]
      have hdec : exp = 2 * (exp / 2) + 1 := by omega
      -- one multiplication
      have up1 : ((result * sq / 2 ^ 64 : Nat) : ℚ) ≤ 2 ^ 64 * (y * x) := by
        refine le_trans f1 ?_
        rw [div_le_iff₀ hQ]
        nlinarith [mul_le_mul h7 h5 sq0 (by positivity)]
      have lo1 : 2 ^ 64 * (y * x) - (d + e + 1) ≤ ((result * sq / 2 ^ 64 : Nat) : ℚ) := by
        have : 2 ^ 64 * (y * x) - (d + e) ≤ (result : ℚ) * sq / 2 ^ 64 := by
          rw [le_div_iff₀ hQ]
          have a1 : 2 ^ 64 * y * (2 ^ 64 * x) - (result : ℚ) * sq =
              (2 ^ 64 * y - result) * (2 ^ 64 * x) + result * (2 ^ 64 * x - sq) := by ring
          have a2 : (2 ^ 64 * y - (result : ℚ)) * (2 ^ 64 * x) ≤ d * 2 ^ 64 :=
            mul_le_mul (by linarith) (by nlinarith) (by positivity) hd
          have hr' : (result : ℚ) ≤ 2 ^ 64 := by exact_mod_cast hr
          have a3 : (result : ℚ) * (2 ^ 64 * x - sq) ≤ 2 ^ 64 * e :=
            mul_le_mul hr' (by linarith) (by linarith) (by positivity)
          nlinarith
        linarith
      have hyx0 : 0 ≤ y * x := by positivity
      have hyx1 : y * x ≤ 1 := by nlinarith
      have key := ih (sq * sq / 2 ^ 64) (exp / 2) (result * sq / 2 ^ 64) (x * x) (y * x) (d + e + 1) (2 * e + 1)
        hexp hsq' (by omega) hxx0 hxx1 hyx0 hyx1 (by linarith) (by linarith) up2 lo2 up1 lo1
      have hpw : y * x ^ exp = y * x * (x * x) ^ (exp / 2) := by
        rw [← hxp]; conv_lhs => rw [hdec, pow_succ]
        ring
      have hcast : (exp : ℚ) = 2 * ((exp / 2 : Nat) : ℚ) + 1 := by exact_mod_cast hdec
      by_cases hf : fuel = 0
      · rw [if_pos hf]
        subst hf
        obtain ⟨out, k1, k2, k3, k4⟩ := key
        simp only [powLoop, Option.some.injEq] at k1
        subst k1
        refine ⟨_, rfl, ?_, ?_, hrs⟩
        · rw [hpw]; exact k2
        · rw [hpw, hcast]; refine le_trans (le_of_eq ?_) k3; ring
      · rw [if_neg hf, if_pos m2]
        obtain ⟨out, k1, k2, k3, k4⟩ := key
        refine ⟨out, k1, ?_, ?_, by omega⟩
        · rw [hpw]; exact k2
        · rw [hpw, hcast]; refine le_trans (le_of_eq ?_) k3; ring
    · rw [if_neg hodd]
      have hdec : exp = 2 * (exp / 2) := by omega
      have key := ih (sq * sq / 2 ^ 64) (exp / 2) result (x * x) y d (2 * e + 1)
        hexp hsq' hr hxx0 hxx1 hy0 hy1 hd (by linarith) up2 lo2 h7 h8
      have hpw : y * x ^ exp = y * (x * x) ^ (exp / 2) := by
        rw [← hxp]; conv_lhs => rw [hdec]
      have hcast : (exp : ℚ) = 2 * ((exp / 2 : Nat) : ℚ) := by exact_mod_cast hdec
      by_cases hf : fuel = 0
      · rw [if_pos hf]
        subst hf
        obtain ⟨out, k1, k2, k3, k4⟩ := key
        simp only [powLoop, Option.some.injEq] at k1
        subst k1
        refine ⟨_, rfl, ?_, ?_, le_rfl⟩
        · rw [hpw]; exact k2
        · rw [hpw, hcast]; refine le_trans (le_of_eq ?_) k3; ring
      · rw [if_neg hf, if_pos m2]
        obtain ⟨out, k1, k2, k3, k4⟩ := key
        refine ⟨out, k1, ?_, ?_, by omega⟩
        · rw [hpw]; exact k2
        · rw [hpw, hcast]; refine le_trans (le_of_eq ?_) k3; ring

/-- The fixed-point power of a base below one: at most the true power, and at most `exp` units below it. -/
theorem powQ64_ok {base exp : Nat} (hb : base < 2 ^ 64) (he : exp < MAX_EXPONENTIAL) {out : Nat}
    (h : powQ64 base exp = some out) :
    (out : ℚ) ≤ 2 ^ 64 * ((base : ℚ) / 2 ^ 64) ^ exp ∧ 2 ^ 64 * ((base : ℚ) / 2 ^ 64) ^ exp - exp ≤ out ∧
      0 < out ∧ out ≤ 2 ^ 64 := by
  unfold powQ64 at h
  by_cases h0 : exp = 0
  · rw [if_pos h0, Option.some.injEq] at h
    subst h0; subst h
    refine ⟨?_, ?_, by decide, by decide⟩ <;> norm_num
  · have hne : ¬ ONE_Q64 ≤ base := by unfold ONE_Q64; omega
    rw [if_neg h0, if_neg (by omega)] at h
    simp only [hne, decide_false, if_false, Bool.false_eq_true] at h
    have hQ : (0 : ℚ) < 2 ^ 64 := by positivity
    have hb' : (base : ℚ) ≤ 2 ^ 64 := by exact_mod_cast hb.le
    obtain ⟨o, k1, k2, k3, k4⟩ := powLoop_ok 19 base exp ONE_Q64 ((base : ℚ) / 2 ^ 64) 1 0 0
      (by unfold MAX_EXPONENTIAL at he; omega) hb (by decide) (by positivity)
      (by rw [div_le_one hQ]; exact hb') (by norm_num) (by norm_num) le_rfl le_rfl
      (by rw [mul_div_cancel₀ _ hQ.ne']) (by rw [mul_div_cancel₀ _ hQ.ne']; linarith)
      (by norm_num [ONE_Q64]) (by norm_num [ONE_Q64])
    rw [k1] at h
    simp only at h
    by_cases ho : o = 0
    · rw [if_pos ho] at h; cases h
    · rw [if_neg ho, Option.some.injEq] at h
      subst h
      refine ⟨by simpa using k2, ?_, by omega, k4⟩
      have : 2 ^ 64 * (1 * ((base : ℚ) / 2 ^ 64) ^ exp) - 0 - exp * (0 + 1) = 2 ^ 64 * ((base : ℚ) / 2 ^ 64) ^ exp - exp := by ring
      linarith

/-- When the true power is large enough the fixed-point power is defined. -/
theorem powQ64_defined {base exp : Nat} (hb : base < 2 ^ 64) (he : exp < MAX_EXPONENTIAL)
    (hbig : (exp : ℚ) < 2 ^ 64 * ((base : ℚ) / 2 ^ 64) ^ exp) : ∃ out, powQ64 base exp = some out := by
  unfold powQ64
  by_cases h0 : exp = 0
  · rw [if_pos h0]; exact ⟨_, rfl⟩
  · have hne : ¬ ONE_Q64 ≤ base := by unfold ONE_Q64; omega
    rw [if_neg h0, if_neg (by omega)]
    simp only [hne, decide_false, if_false, Bool.false_eq_true]
    have hQ : (0 : ℚ) < 2 ^ 64 := by positivity
    have hb' : (base : ℚ) ≤ 2 ^ 64 := by exact_mod_cast hb.le
    obtain ⟨o, k1, k2, k3, k4⟩ := powLoop_ok 19 base exp ONE_Q64 ((base : ℚ) / 2 ^ 64) 1 0 0
      (by unfold MAX_EXPONENTIAL at he; omega) hb (by decide) (by positivity)
      (by rw [div_le_one hQ]; exact hb') (by norm_num) (by norm_num) le_rfl le_rfl
      (by rw [mul_div_cancel₀ _ hQ.ne']) (by rw [mul_div_cancel₀ _ hQ.ne']; linarith)
      (by norm_num [ONE_Q64]) (by norm_num [ONE_Q64])
    rw [k1]
    simp only
    have hpos : (0 : ℚ) < o := by
      have : 2 ^ 64 * (1 * ((base : ℚ) / 2 ^ 64) ^ exp) - 0 - exp * (0 + 1) = 2 ^ 64 * ((base : ℚ) / 2 ^ 64) ^ exp - exp := by ring
      linarith
    have : o ≠ 0 := by rintro rfl; simp at hpos
    rw [if_neg this]
    exact ⟨_, rfl⟩

/-! ### Exponential schedule -/

/-- The base used by the exponential schedule, as a fraction. -/
def expBase (rf : Nat) : ℚ := ((2 ^ 64 - rf * 2 ^ 64 / 10000 : Nat) : ℚ) / 2 ^ 64

theorem expBase_bounds {rf : Nat} (h0 : 0 < rf) (h1 : rf ≤ 10000) :
    0 ≤ expBase rf ∧ expBase rf < 1 ∧ 1 - (rf : ℚ) / 10000 ≤ expBase rf ∧
      expBase rf < 1 - (rf : ℚ) / 10000 + 1 / 2 ^ 64 ∧ (1844674407370955 : ℚ) / 2 ^ 64 ≤ 1 - expBase rf := by
  unfold expBase
  have hle : rf * 2 ^ 64 / 10000 ≤ 2 ^ 64 := by
    apply Nat.div_le_of_le_mul
    exact Nat.mul_le_mul_right _ h1
  have hge : 1844674407370955 ≤ rf * 2 ^ 64 / 10000 := by
    rw [Nat.le_div_iff_mul_le (by decide)]
    have : 1 * 2 ^ 64 ≤ rf * 2 ^ 64 := Nat.mul_le_mul_right _ h0
    omega
  have d1 : rf * 2 ^ 64 / 10000 * 10000 ≤ rf * 2 ^ 64 := Nat.div_mul_le_self _ _
  have d2 : rf * 2 ^ 64 < (rf * 2 ^ 64 / 10000 + 1) * 10000 := by
    have := Nat.lt_div_mul_add (a := rf * 2 ^ 64) (b := 10000) (by decide)
    rw [Nat.add_mul]; omega
  generalize rf * 2 ^ 64 / 10000 = q at *
  have hq : ((2 ^ 64 - q : Nat) : ℚ) = 2 ^ 64 - q := by rw [Nat.cast_sub hle]; norm_num
  rw [hq]
  have d1' : (q : ℚ) * 10000 ≤ rf * 2 ^ 64 := by exact_mod_cast d1
  have d2' : (rf : ℚ) * 2 ^ 64 < (q + 1) * 10000 := by exact_mod_cast d2
  have hge' : (1844674407370955 : ℚ) ≤ q := by exact_mod_cast hge
  have hle' : (q : ℚ) ≤ 2 ^ 64 := by exact_mod_cast hle
  have hQ : (0 : ℚ) < 2 ^ 64 := by positivity
  have e : ((2 : ℚ) ^ 64 - q) / 2 ^ 64 = 1 - q / 2 ^ 64 := by field_simp
  rw [e]
  have q1 : (q : ℚ) / 2 ^ 64 ≤ rf / 10000 := by
    rw [div_le_div_iff₀ hQ (by norm_num)]; linarith
  have q2 : (rf : ℚ) / 10000 < q / 2 ^ 64 + 1 / 2 ^ 64 := by
    rw [← add_div, div_lt_div_iff₀ (by norm_num) hQ]; linarith
  have q3 : (1844674407370955 : ℚ) / 2 ^ 64 ≤ q / 2 ^ 64 := by
    rw [div_le_div_iff_of_pos_right hQ]; exact hge'
  have q4 : (q : ℚ) / 2 ^ 64 ≤ 1 := by rw [div_le_one hQ]; exact hle'
  refine ⟨by linarith, ?_, by linarith, by linarith, by linarith⟩
  have : (0 : ℚ) < 1844674407370955 / 2 ^ 64 := by positivity
  linarith

theorem pow_sub_le {a b : ℚ} (ha : 0 ≤ a) (hab : a ≤ b) (hb : b ≤ 1) (n : Nat) : b ^ n - a ^ n ≤ n * (b - a) := by
  induction n with
  | zero => simp
  | succ n ih =>
    have h1 : b ^ (n + 1) - a ^ (n + 1) = b * (b ^ n - a ^ n) + a ^ n * (b - a) := by ring
    have h2 : 0 ≤ b ^ n - a ^ n := sub_nonneg.2 (pow_le_pow_left₀ ha hab n)
    have h3 : a ^ n ≤ 1 := pow_le_one₀ ha (hab.trans hb)
    have h4 : b * (b ^ n - a ^ n) ≤ 1 * (b ^ n - a ^ n) := mul_le_mul_of_nonneg_right hb h2
    have h5 : a ^ n * (b - a) ≤ 1 * (b - a) := mul_le_mul_of_nonneg_right h3 (by linarith)
    push_cast
    linarith

/-- What `get_fee_in_period` computes: `⌊result · cliff / 2^64⌋` with `result` the fixed-point power. -/
theorem getFeeInPeriod_ok {cliff rf n f : Nat} : getFeeInPeriod cliff rf n = .ok f ↔
    rf * 2 ^ 64 / 10000 ≤ 2 ^ 64 ∧ ∃ r, powQ64 (2 ^ 64 - rf * 2 ^ 64 / 10000) n = some r ∧ r * cliff ≤ u128Max ∧
      f = r * cliff / 2 ^ 64 ∧ f ≤ u64Max := by
  simp only [getFeeInPeriod, bind_ok, safeDiv_ok, safeSub_ok, safeMul_ok, castTo_ok, BASIS_POINT_MAX, ONE_Q64]
  constructor
  · rintro ⟨_, ⟨_, rfl⟩, _, ⟨h1, rfl⟩, r, hr, _, ⟨h2, rfl⟩, h3, rfl⟩
    refine ⟨h1, r, ?_, h2, rfl, h3⟩
    revert hr
    cases powQ64 (2 ^ 64 - rf * 2 ^ 64 / 10000) n <;> simp
  · rintro ⟨h1, r, hr, h2, rfl, h3⟩
    refine ⟨_, ⟨by decide, rfl⟩, _, ⟨h1, rfl⟩, r, ?_, _, ⟨h2, rfl⟩, h3, rfl⟩
    rw [hr]

theorem getFeeInPeriod_zero {cliff rf : Nat} (h : rf ≤ 10000) (hc : cliff ≤ u64Max) : getFeeInPeriod cliff rf 0 = .ok cliff := by
  rw [getFeeInPeriod_ok]
  refine ⟨?_, 2 ^ 64, rfl, ?_, ?_, hc⟩
  · exact Nat.div_le_of_le_mul (Nat.mul_le_mul_right _ h)
  · have : 2 ^ 64 * cliff ≤ 2 ^ 64 * u64Max := Nat.mul_le_mul_left _ hc
    have : 2 ^ 64 * u64Max ≤ u128Max := by decide
    omega
  · rw [Nat.mul_div_cancel_left _ (by positivity)]

theorem rf_le {rf : Nat} (h : rf * 2 ^ 64 / 10000 ≤ 2 ^ 64) : rf ≤ 10000 := by
  by_contra hc
  have h1 : 10001 * 2 ^ 64 ≤ rf * 2 ^ 64 := Nat.mul_le_mul_right _ (by omega)
  have h2 : 10001 * 2 ^ 64 / 10000 ≤ rf * 2 ^ 64 / 10000 := Nat.div_le_div_right h1
  have h3 : ¬ 10001 * 2 ^ 64 / 10000 ≤ 2 ^ 64 := by decide
  omega

/-- Bounds against the exact power of the rounded base. -/
theorem getFeeInPeriod_bounds {cliff rf n f : Nat} (h0 : 0 < rf) (hn : n ≤ u16Max) (h : getFeeInPeriod cliff rf n = .ok f) :
    (f : ℚ) ≤ cliff * expBase rf ^ n ∧ (cliff : ℚ) * expBase rf ^ n - cliff * n / 2 ^ 64 - 1 < f := by
  rw [getFeeInPeriod_ok] at h
  obtain ⟨h1, r, hr, _, rfl, _⟩ := h
  have hrf := rf_le h1
  have hb : 2 ^ 64 - rf * 2 ^ 64 / 10000 < 2 ^ 64 := by
    have : 0 < rf * 2 ^ 64 / 10000 := by
      rw [Nat.div_pos_iff]; refine ⟨by decide, ?_⟩
      have : 1 * 2 ^ 64 ≤ rf * 2 ^ 64 := Nat.mul_le_mul_right _ h0
      omega
    omega
  obtain ⟨k1, k2, k3, k4⟩ := powQ64_ok hb (by unfold MAX_EXPONENTIAL; unfold u16Max at hn; omega) hr
  obtain ⟨g1, g2⟩ := floor_mul_bounds r cliff
  change (r : ℚ) ≤ 2 ^ 64 * expBase rf ^ n at k1
  change 2 ^ 64 * expBase rf ^ n - n ≤ (r : ℚ) at k2
  have hc : (0 : ℚ) ≤ cliff := by positivity
  have hQ : (0 : ℚ) < 2 ^ 64 := by positivity
  constructor
  · refine le_trans g1 ?_
    rw [div_le_iff₀ hQ]
    nlinarith
  · refine lt_of_le_of_lt ?_ g2
    have : (cliff : ℚ) * expBase rf ^ n - cliff * n / 2 ^ 64 ≤ r * cliff / 2 ^ 64 := by
      rw [le_div_iff₀ hQ, sub_mul, div_mul_cancel₀ _ hQ.ne']
      nlinarith
    linarith

/-- An exponential schedule whose final fee is at least a thousandth of the cliff fee is defined and non-increasing throughout. -/
theorem getFeeInPeriod_mono {cliff rf N mn : Nat} (h0 : 0 < rf) (hN : N ≤ u16Max) (hc : cliff ≤ MAX_FEE_NUMERATOR)
    (hmn : 0 < mn) (hcm : cliff ≤ 1000 * mn) (h : getFeeInPeriod cliff rf N = .ok mn) :
    ∀ n, n ≤ N → ∃ f, getFeeInPeriod cliff rf n = .ok f ∧ ∀ f', n < N → getFeeInPeriod cliff rf (n + 1) = .ok f' → f' ≤ f := by
  obtain ⟨b1, _⟩ := getFeeInPeriod_bounds h0 hN h
  rw [getFeeInPeriod_ok] at h
  obtain ⟨h1, _⟩ := h
  have hrf := rf_le h1
  obtain ⟨e0, e1, _, _, e4⟩ := expBase_bounds h0 hrf
  have hQ : (0 : ℚ) < 2 ^ 64 := by positivity
  have hc' : (cliff : ℚ) ≤ 990000000 := by exact_mod_cast hc
  have hmn' : (cliff : ℚ) ≤ 1000 * mn := by exact_mod_cast hcm
  have hmn0 : (0 : ℚ) < mn := by exact_mod_cast hmn
  have hN' : (N : ℚ) ≤ 65535 := by exact_mod_cast hN
  have hlow : (1 : ℚ) / 1000 ≤ expBase rf ^ N := by
    have hc0 : (0 : ℚ) < cliff := by
      rcases Nat.eq_zero_or_pos cliff with e | e
      · rw [e] at b1; simp at b1; linarith
      · exact_mod_cast e
    rw [div_le_iff₀ (by norm_num)]
    by_contra hlt
    rw [not_le] at hlt
    have : (cliff : ℚ) * (expBase rf ^ N * 1000) < cliff * 1 := mul_lt_mul_of_pos_left hlt hc0
    linarith
  have hlown : ∀ n, n ≤ N → (1 : ℚ) / 1000 ≤ expBase rf ^ n := fun n hn =>
    hlow.trans (pow_le_pow_of_le_one e0 e1.le hn)
  have hb : 2 ^ 64 - rf * 2 ^ 64 / 10000 < 2 ^ 64 := by
    have : 0 < rf * 2 ^ 64 / 10000 := by
      rw [Nat.div_pos_iff]; refine ⟨by decide, ?_⟩
      have : 1 * 2 ^ 64 ≤ rf * 2 ^ 64 := Nat.mul_le_mul_right _ h0
      omega
    omega
  have hcm' : cliff ≤ 990000000 := hc
  intro n hn
  have hnM : ∀ n, n ≤ N → n < MAX_EXPONENTIAL := fun n hn => by unfold MAX_EXPONENTIAL; unfold u16Max at hN; omega
  obtain ⟨r, hr⟩ := powQ64_defined (exp := n) hb (hnM n hn) (by
    change (n : ℚ) < 2 ^ 64 * expBase rf ^ n
    have h2 := hlown n hn
    have h3 : (n : ℚ) ≤ 65535 := by
      have : (n : ℚ) ≤ N := by exact_mod_cast hn
      linarith
    have h4 : (2 : ℚ) ^ 64 * (1 / 1000) ≤ 2 ^ 64 * expBase rf ^ n := mul_le_mul_of_nonneg_left h2 hQ.le
    have h5 : (65535 : ℚ) < 2 ^ 64 * (1 / 1000) := by norm_num
    linarith)
  obtain ⟨k1, k2, k3, k4⟩ := powQ64_ok hb (hnM n hn) hr
  have hprod : r * cliff ≤ 2 ^ 64 * 990000000 := Nat.mul_le_mul k4 hcm'
  have hbig : 2 ^ 64 * 990000000 ≤ u128Max := by decide
  refine ⟨r * cliff / 2 ^ 64, ?_, ?_⟩
  · rw [getFeeInPeriod_ok]
    refine ⟨h1, r, hr, by omega, rfl, ?_⟩
    have : r * cliff / 2 ^ 64 ≤ cliff := Nat.div_le_of_le_mul (Nat.mul_le_mul_right _ k4)
    have : 990000000 ≤ u64Max := by decide
    omega
  · intro f' hlt hf'
    rw [getFeeInPeriod_ok] at hf'
    obtain ⟨_, r', hr', _, rfl, _⟩ := hf'
    obtain ⟨m1, m2, m3, m4⟩ := powQ64_ok hb (hnM (n + 1) (by omega)) hr'
    apply Nat.div_le_div_right
    apply Nat.mul_le_mul_right
    change (r' : ℚ) ≤ 2 ^ 64 * expBase rf ^ (n + 1) at m1
    change 2 ^ 64 * expBase rf ^ n - n ≤ (r : ℚ) at k2
    have h2 := hlown n hn
    have h3 : (n : ℚ) ≤ 65535 := by
      have : (n : ℚ) ≤ N := by exact_mod_cast hn
      linarith
    have h6 : (1 : ℚ) / 1000 * (1844674407370955 / 2 ^ 64) ≤ expBase rf ^ n * (1 - expBase rf) :=
      mul_le_mul h2 e4 (by positivity) (by linarith)
    have h7 : (65535 : ℚ) ≤ 2 ^ 64 * (1 / 1000 * (1844674407370955 / 2 ^ 64)) := by norm_num
    have h8 : (2 : ℚ) ^ 64 * expBase rf ^ (n + 1) = 2 ^ 64 * expBase rf ^ n - 2 ^ 64 * (expBase rf ^ n * (1 - expBase rf)) := by ring
    have h9 : (2 : ℚ) ^ 64 * (1 / 1000 * (1844674407370955 / 2 ^ 64)) ≤ 2 ^ 64 * (expBase rf ^ n * (1 - expBase rf)) :=
      mul_le_mul_of_nonneg_left h6 hQ.le
    have : (r' : ℚ) ≤ r := by linarith
    exact_mod_cast this

/-- The fixed-point fee against the real number `cliff * (1 - rf/10000)^n`. -/
theorem getFeeInPeriod_accurate {cliff rf n f : Nat} (h0 : 0 < rf) (h16 : n ≤ u16Max) (hcap : cliff ≤ MAX_FEE_NUMERATOR)
    (h : getFeeInPeriod cliff rf n = .ok f) :
    (f : ℚ) < cliff * (1 - (rf : ℚ) / 10000) ^ n + 4 / 1000000 ∧
      cliff * (1 - (rf : ℚ) / 10000) ^ n - (1 + 4 / 1000000) < (f : ℚ) := by
  have hrf := rf_le (getFeeInPeriod_ok.1 h).1
  obtain ⟨b1, b2⟩ := getFeeInPeriod_bounds h0 h16 h
  obtain ⟨e0, e1, e2, e3, _⟩ := expBase_bounds h0 hrf
  have hx0 : (0 : ℚ) ≤ 1 - (rf : ℚ) / 10000 := by
    have : (rf : ℚ) ≤ 10000 := by exact_mod_cast hrf
    rw [sub_nonneg, div_le_one (by norm_num)]; exact this
  have hd := pow_sub_le hx0 e2 e1.le n
  have hp := pow_le_pow_left₀ hx0 e2 n
  have hc : (cliff : ℚ) ≤ 990000000 := by exact_mod_cast hcap
  have hc0 : (0 : ℚ) ≤ cliff := by positivity
  have hn : (n : ℚ) ≤ 65535 := by exact_mod_cast h16
  have hn0 : (0 : ℚ) ≤ n := by positivity
  generalize (cliff : ℚ) = C at *
  generalize (1 - (rf : ℚ) / 10000) = x at *
  generalize expBase rf = y at *
  have hyx : y - x ≤ 1 / 2 ^ 64 := by linarith
  have hd' : y ^ n - x ^ n ≤ 65535 * (1 / 2 ^ 64) := hd.trans (mul_le_mul hn hyx (by linarith) (by norm_num))
  have hCn : C * n ≤ 990000000 * 65535 := mul_le_mul hc hn hn0 (by norm_num)
  constructor
  · have h1 : C * (y ^ n - x ^ n) ≤ 990000000 * (65535 * (1 / 2 ^ 64)) :=
      mul_le_mul hc hd' (by linarith) (by norm_num)
    have h2 : (990000000 : ℚ) * (65535 * (1 / 2 ^ 64)) < 4 / 1000000 := by norm_num
    have h3 : C * y ^ n = C * x ^ n + C * (y ^ n - x ^ n) := by ring
    linarith
  · have h1 : C * x ^ n ≤ C * y ^ n := mul_le_mul_of_nonneg_left hp hc0
    have h2 : C * n / 2 ^ 64 < 4 / 1000000 := by
      rw [div_lt_div_iff₀ (by positivity) (by norm_num)]
      have : (990000000 : ℚ) * 65535 * 1000000 < 4 * 2 ^ 64 := by norm_num
      linarith
    linarith

/-! ### Scheduler -/

theorem schedulerByPeriod_min {b : BaseFeeConfig} (n : Nat) : schedulerByPeriod b n = schedulerByPeriod b (min n b.first) := by
  unfold schedulerByPeriod
  simp only [min_assoc, min_self]

structure Sched (b : BaseFeeConfig) (g : Nat → Nat) : Prop where
  eq : ∀ n, schedulerByPeriod b n = .ok (g n)
  zero : g 0 = b.cliff
  anti : ∀ m n, m ≤ n → g n ≤ g m
  min : minBaseFee b = .ok (g b.first)
  floor : MIN_FEE_NUMERATOR ≤ g b.first
  last : ∀ n, b.first ≤ n → g n = g b.first
  cap : b.cliff ≤ MAX_FEE_NUMERATOR
  shape : (b.second = 0 ∧ b.first = 0 ∧ b.third = 0) ∨ (0 < b.second ∧ 0 < b.first ∧ 0 < b.third)

theorem anti_of_step {g : Nat → Nat} (h : ∀ n, g (n + 1) ≤ g n) : ∀ m n, m ≤ n → g n ≤ g m := by
  intro m n hmn
  induction hmn with
  | refl => exact le_rfl
  | step _ ih => exact (h _).trans ih

theorem scheduler_ok {b : BaseFeeConfig} (hm : b.mode = 0 ∨ b.mode = 1) {u : Unit} (h : schedulerValidate b = .ok u) :
    ∃ g, Sched b g := by
  simp only [schedulerValidate, bind_ok, ite_ok, req_ok] at h
  obtain ⟨_, hshape, mn, hmn, _, _, _, _, hfl, hcap⟩ := h
  have hcap' : b.cliff ≤ 990000000 := hcap
  have hfl' : 2500000 ≤ mn := hfl
  have shape : (b.second = 0 ∧ b.first = 0 ∧ b.third = 0) ∨ (0 < b.second ∧ 0 < b.first ∧ 0 < b.third) := by
    rcases hshape with ⟨_, h1, h2, h3⟩ | ⟨h1, _⟩
    · right; omega
    · left; omega
  have hu : 990000000 ≤ u64Max := by decide
  rcases hm with hm | hm
  · -- linear
    have key : ∀ n, schedulerByPeriod b n = .ok (b.cliff - b.third * min n b.first) := by
      intro n
      have h1 := hmn
      simp only [schedulerByPeriod, hm, min_self, bind_ok, safeMul_ok, safeSub_ok] at h1 ⊢
      obtain ⟨_, ⟨h2, rfl⟩, h3, _⟩ := h1
      have : b.third * min n b.first ≤ b.third * b.first := Nat.mul_le_mul_left _ (min_le_right _ _)
      exact ⟨_, ⟨by omega, rfl⟩, by omega, rfl⟩
    have hg : mn = b.cliff - b.third * b.first := by
      have := key b.first; rw [hmn, min_self, ok_inj] at this; exact this
    refine ⟨fun n => b.cliff - b.third * min n b.first, key, by simp, ?_, ?_, ?_, ?_, hcap, shape⟩
    · intro m n hmn
      have : b.third * min m b.first ≤ b.third * min n b.first := Nat.mul_le_mul_left _ (min_le_min_right _ hmn)
      omega
    · unfold minBaseFee; rw [hm]; exact key _
    · rw [min_self, ← hg]; exact hfl
    · intro n hn; rw [min_self, min_eq_right hn]
  · -- exponential
    have hmn' := hmn
    simp only [schedulerByPeriod, hm, min_self, ite_ok, reduceCtorEq, and_false, or_false] at hmn'
    obtain ⟨h16, hmn'⟩ := hmn'
    rcases shape with ⟨s1, s2, s3⟩ | ⟨s1, s2, s3⟩
    · have key : ∀ n, schedulerByPeriod b n = .ok b.cliff := by
        intro n
        simp only [schedulerByPeriod, hm, s2, s3, Nat.min_zero]
        rw [if_pos (by decide)]
        exact getFeeInPeriod_zero (by omega) (by omega)
      have : mn = b.cliff := by have := key b.first; rw [hmn, ok_inj] at this; exact this
      refine ⟨fun _ => b.cliff, key, rfl, fun _ _ _ => le_rfl, ?_, ?_, fun _ _ => rfl, hcap, Or.inl ⟨s1, s2, s3⟩⟩
      · unfold minBaseFee; rw [hm]; exact key _
      · rw [← this]; exact hfl
    · have mono := getFeeInPeriod_mono s3 h16 hcap (by omega) (by omega) hmn'
      have hrf : b.third ≤ 10000 := rf_le (getFeeInPeriod_ok.1 hmn').1
      have ex : ∀ n, ∃ f, schedulerByPeriod b n = .ok f := by
        intro n
        obtain ⟨f, hf, _⟩ := mono (min n b.first) (min_le_right _ _)
        refine ⟨f, ?_⟩
        simp only [schedulerByPeriod, hm]
        rw [if_pos (le_trans (min_le_right _ _) h16)]
        exact hf
      choose g hg using ex
      have hgp : ∀ n, n ≤ b.first → getFeeInPeriod b.cliff b.third n = .ok (g n) := by
        intro n hn
        have := hg n
        simp only [schedulerByPeriod, hm, min_eq_left hn, ite_ok, reduceCtorEq, and_false, or_false] at this
        exact this.2
      have hlast : ∀ n, b.first ≤ n → g n = g b.first := by
        intro n hn
        have h1 := hg n
        rw [schedulerByPeriod_min, min_eq_right hn, hg, ok_inj] at h1
        exact h1.symm
      refine ⟨g, hg, ?_, ?_, ?_, ?_, hlast, hcap, Or.inr ⟨s1, s2, s3⟩⟩
      · have := hgp 0 (by omega)
        rw [getFeeInPeriod_zero hrf (by omega), ok_inj] at this
        exact this.symm
      · apply anti_of_step
        intro n
        by_cases hn : n < b.first
        · obtain ⟨f, hf, hs⟩ := mono n hn.le
          have := hs (g (n + 1)) hn (hgp _ hn)
          rw [hgp n hn.le, ok_inj] at hf
          omega
        · rw [hlast n (by omega), hlast (n + 1) (by omega)]
      · unfold minBaseFee; rw [hm]; exact hg _
      · have := hgp b.first le_rfl
        rw [hmn', ok_inj] at this
        rw [← this]; exact hfl

theorem Sched.numerator {b : BaseFeeConfig} {g : Nat → Nat} (s : Sched b g) {cur act : Nat} (h : act ≤ cur) :
    schedulerNumerator b cur act = .ok (g ((cur - act) / b.second)) := by
  unfold schedulerNumerator
  by_cases h0 : b.second = 0
  · rw [if_pos h0, h0, Nat.div_zero, s.zero]
  · rw [if_neg h0]
    simp only [bind_ok, safeSub_ok, safeDiv_ok]
    exact ⟨_, ⟨h, rfl⟩, _, ⟨h0, rfl⟩, s.eq _⟩

end Dbc

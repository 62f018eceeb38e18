import Verif.Lemmas.Limiter
import Mathlib.Tactic.Linarith
import Mathlib.Tactic.Ring

/-!
# The rate limiter's rate for an amount without fee

`limiterFromExcluded` inverts the block fee by solving a quadratic. `net x` is `10⁹` times what is left of `x` tokens after
the block fee, as a real number; it is concave, and between block boundaries it lies below the quadratic `quad`.
-/

namespace Dbc
open Spec

/-- `10⁹` times what is left of `x` tokens after the exact block fee. -/
def net (x0 c i : Nat) : Nat → Nat
  | 0 => 0
  | x + 1 => net x0 c i x + (Spec.unit - blockRate c i (x / x0))

theorem blockRate_le (c i k : Nat) : blockRate c i k ≤ 990000000 := by unfold blockRate Spec.maxRate; omega

theorem net_add (x0 c i x : Nat) : net x0 c i x + blockFee x0 c i x = x * Spec.unit := by
  induction x with
  | zero => simp [net, blockFee]
  | succ x ih =>
    have := blockRate_le c i (x / x0)
    rw [net, blockFee, Nat.succ_mul]
    have e : Spec.unit = 1000000000 := rfl
    omega

theorem blockRate_mono (c i : Nat) {j k : Nat} (h : j ≤ k) : blockRate c i j ≤ blockRate c i k := by
  unfold blockRate
  have := Nat.mul_le_mul_right i h
  omega

/-- Every token adds at least 1%. -/
theorem net_grow (x0 c i : Nat) (x n : Nat) : net x0 c i x + n * 10000000 ≤ net x0 c i (x + n) := by
  induction n with
  | zero => simp
  | succ n ih =>
    have := blockRate_le c i ((x + n) / x0)
    have e1 : net x0 c i (x + (n + 1)) = net x0 c i (x + n) + (Spec.unit - blockRate c i ((x + n) / x0)) := rfl
    rw [e1, show Spec.unit = 1000000000 from rfl]
    clear e1
    generalize net x0 c i (x + n) = A at *
    generalize net x0 c i x = B at *
    generalize blockRate c i ((x + n) / x0) = R at *
    rw [Nat.add_mul, Nat.one_mul]
    generalize n * 10000000 = T at *
    omega

theorem net_mono (x0 c i : Nat) {x y : Nat} (h : x ≤ y) : net x0 c i x ≤ net x0 c i y := by
  obtain ⟨n, rfl⟩ := Nat.exists_eq_add_of_le h
  have := net_grow x0 c i x n
  omega

/-- Concavity, to the right of `x`. -/
theorem net_right (x0 c i : Nat) (x n : Nat) :
    net x0 c i (x + n) ≤ net x0 c i x + n * (Spec.unit - blockRate c i (x / x0)) := by
  induction n with
  | zero => simp
  | succ n ih =>
    have := blockRate_mono c i (Nat.div_le_div_right (c := x0) (Nat.le_add_right x n))
    rw [← Nat.add_assoc, net, Nat.succ_mul]
    omega

/-- Concavity, to the left of `x`. -/
theorem net_left (x0 c i : Nat) (x : Nat) : ∀ n, n ≤ x → n * (Spec.unit - blockRate c i (x / x0)) ≤ net x0 c i n := by
  intro n
  induction n with
  | zero => simp
  | succ n ih =>
    intro h
    have h1 := ih (by omega)
    have := blockRate_mono c i (Nat.div_le_div_right (c := x0) (show n ≤ x by omega))
    rw [net, Nat.succ_mul]
    omega

/-- The average rate grows with the amount. -/
theorem net_avg (x0 c i : Nat) {x y : Nat} (h : x ≤ y) : x * net x0 c i y ≤ y * net x0 c i x := by
  obtain ⟨n, rfl⟩ := Nat.exists_eq_add_of_le h
  have h1 := net_right x0 c i x n
  have h2 := net_left x0 c i x x le_rfl
  generalize Spec.unit - blockRate c i (x / x0) = s at *
  generalize net x0 c i x = A at *
  calc x * net x0 c i (x + n) ≤ x * (A + n * s) := Nat.mul_le_mul_left _ h1
    _ = x * A + n * (x * s) := by ring
    _ ≤ x * A + n * A := Nat.add_le_add_left (Nat.mul_le_mul_left _ h2) _
    _ = (x + n) * A := by ring

/-- Within one block `net` is linear. -/
theorem net_block (x0 c i k n : Nat) (hn : n ≤ x0) (h0 : 0 < x0) :
    net x0 c i (x0 * k + n) = net x0 c i (x0 * k) + n * (Spec.unit - blockRate c i k) := by
  have h1 := net_add x0 c i (x0 * k + n)
  have h2 := net_add x0 c i (x0 * k)
  have h3 := blockFee_block x0 c i k n hn h0
  have h4 := blockRate_le c i k
  have e : n * (Spec.unit - blockRate c i k) + n * blockRate c i k = n * Spec.unit := by
    rw [← Nat.mul_add, Nat.sub_add_cancel (h4.trans (by decide))]
  rw [Nat.add_mul] at h1
  omega

/-- Twice `x0` times the smooth version of `net`: `u·x0·(2·10⁹ - 2c + i) - i·u²`. -/
def quad (x0 c i : Nat) (u : ℤ) : ℤ := u * (x0 * (2 * 1000000000 + i - 2 * c)) - i * (u * u)

theorem net_mult (x0 c i m : Nat) (h0 : 0 < x0) (hm : c + m * i ≤ 990000000) : ∀ k, k ≤ m + 1 →
    2 * (x0 : ℤ) * net x0 c i (x0 * k) = quad x0 c i ((x0 : ℤ) * k) := by
  intro k
  induction k with
  | zero => intro _; simp [net, quad]
  | succ k ih =>
    intro hk
    have h1 := net_block x0 c i k x0 le_rfl h0
    have h2 := ih (by omega)
    have hki : k * i ≤ m * i := Nat.mul_le_mul_right _ (by omega)
    have hr : blockRate c i k = c + k * i := by unfold blockRate Spec.maxRate; omega
    rw [hr] at h1
    have h3 : ((Spec.unit - (c + k * i) : Nat) : ℤ) = 1000000000 - (c + k * i) := by
      have e : Spec.unit = 1000000000 := rfl
      omega
    rw [Nat.mul_succ, h1]
    push_cast
    rw [h3, mul_add, h2]
    unfold quad
    ring

/-- The quadratic lies above `net`, and touches it at block boundaries. -/
theorem net_quad (x0 c i m : Nat) (h0 : 0 < x0) (hm : c + m * i ≤ 990000000) {k n : Nat} (hk : k ≤ m) (hn : n ≤ x0) :
    2 * (x0 : ℤ) * net x0 c i (x0 * k + n) + i * (n * (x0 - n)) = quad x0 c i ((x0 : ℤ) * k + n) := by
  have h1 := net_block x0 c i k n hn h0
  have h2 := net_mult x0 c i m h0 hm k (by omega)
  have hki : k * i ≤ m * i := Nat.mul_le_mul_right _ hk
  have hr : blockRate c i k = c + k * i := by unfold blockRate Spec.maxRate; omega
  rw [hr] at h1
  have h3 : ((Spec.unit - (c + k * i) : Nat) : ℤ) = 1000000000 - (c + k * i) := by
    have e : Spec.unit = 1000000000 := rfl
    omega
  rw [h1]
  push_cast
  rw [h3, mul_add, h2]
  unfold quad
  ring

theorem net_le_quad (x0 c i m : Nat) (h0 : 0 < x0) (hm : c + m * i ≤ 990000000) {u : Nat} (hu : u ≤ x0 * (m + 1)) :
    2 * (x0 : ℤ) * net x0 c i u ≤ quad x0 c i u := by
  obtain ⟨k, n, hk, hn, rfl⟩ : ∃ k n, k ≤ m ∧ n ≤ x0 ∧ u = x0 * k + n := by
    by_cases h : u = x0 * (m + 1)
    · exact ⟨m, x0, le_rfl, le_rfl, by rw [h]; ring⟩
    · refine ⟨u / x0, u % x0, ?_, (Nat.mod_lt _ h0).le, (Nat.div_add_mod u x0).symm⟩
      have : u / x0 < m + 1 := (Nat.div_lt_iff_lt_mul h0).2 (by rw [Nat.mul_comm]; omega)
      omega
  have h1 := net_quad x0 c i m h0 hm hk hn
  have h2 : (0 : ℤ) ≤ i * (n * (x0 - n)) := by
    apply mul_nonneg (by positivity)
    apply mul_nonneg (by positivity)
    have : (n : ℤ) ≤ x0 := by exact_mod_cast hn
    linarith
  push_cast
  linarith

/-- The root used by the program: `r` is the floor of `(y - s) / 2i`, `s` the floor of the square root of `y² - 4iz`. -/
theorem root_facts {i Y z s r C : ℤ} (hi : 1 ≤ i) (hs0 : 0 ≤ s) (hs1 : s * s ≤ Y * Y - 4 * i * z)
    (hs2 : Y * Y - 4 * i * z < (s + 1) * (s + 1)) (hr1 : 2 * i * r ≤ Y - s) (hr2 : Y - s < 2 * i * (r + 1))
    (hC : 2 * i * z + s < 2 * i * (C * Y - i * (C * C))) :
    4 * i * (r * Y - i * (r * r)) ≤ 4 * i * z + 2 * s ∧ r < C ∧
      ∀ B, r + 1 ≤ B → B ≤ C → z ≤ B * Y - i * (B * B) := by
  have key : ∀ u : ℤ, 4 * i * (u * Y - i * (u * u)) = Y * Y - (Y - 2 * i * u) * (Y - 2 * i * u) := fun u => by ring
  have a : 4 * i * (r * Y - i * (r * r)) ≤ 4 * i * z + 2 * s := by
    rw [key]
    nlinarith
  have hrC : r < C := by
    by_contra hc
    have h1 : 2 * i * C ≤ 2 * i * r := by nlinarith
    have h2 : s ≤ Y - 2 * i * C := by linarith
    have h3 : s * s ≤ (Y - 2 * i * C) * (Y - 2 * i * C) := by nlinarith
    have h4 := key C
    nlinarith
  refine ⟨a, hrC, ?_⟩
  -- the value at r + 1
  have hB : ∀ B, r + 1 ≤ B → B ≤ C → z ≤ B * Y - i * (B * B) := by
    intro B b1 b2
    by_cases hb : 2 * i * B ≤ Y
    · have h1 : Y - 2 * i * B < s + 0 + 1 := by nlinarith
      have h2 : (Y - 2 * i * B) * (Y - 2 * i * B) ≤ s * s := by nlinarith
      have h3 := key B
      nlinarith
    · have h1 : 0 < 2 * i * B - Y := by linarith
      have h2 : 2 * i * B - Y ≤ 2 * i * C - Y := by nlinarith
      have h3 : (2 * i * B - Y) * (2 * i * B - Y) ≤ (2 * i * C - Y) * (2 * i * C - Y) := by nlinarith
      have h4 := key B
      have h5 := key C
      nlinarith
  exact hB

/-- What the program computes for an amount that includes the fee. -/
structure Incl (b : BaseFeeConfig) (x num e : Nat) : Prop where
  rate : limiterFromIncluded b x = .ok num
  excl : limiterExcluded b x = .ok e
  numMax : num ≤ FEE_DENOMINATOR
  ge : b.cliff ≤ num
  feeLo : blockFee b.third b.cliff (b.first * 100000) x ≤ x * num
  feeHi : x * num ≤ blockFee b.third b.cliff (b.first * 100000) x + FEE_DENOMINATOR + x
  exLo : e * FEE_DENOMINATOR ≤ x * (FEE_DENOMINATOR - num)
  exHi : x * (FEE_DENOMINATOR - num) < e * FEE_DENOMINATOR + FEE_DENOMINATOR

theorem excludedFeeAmount_total {x num : Nat} (hu : x ≤ u64Max) (hn : num ≤ FEE_DENOMINATOR) :
    excludedFeeAmount num x = .ok (x - divCeil (x * num) FEE_DENOMINATOR, divCeil (x * num) FEE_DENOMINATOR) ∧
      divCeil (x * num) FEE_DENOMINATOR ≤ x := by
  have hD : 0 < FEE_DENOMINATOR := by decide
  have hle : divCeil (x * num) FEE_DENOMINATOR ≤ x := (divCeil_le_iff hD).2 (Nat.mul_le_mul_left _ hn)
  have hb : x * num + FEE_DENOMINATOR ≤ u128Max := by
    have h1 : x * num ≤ u64Max * FEE_DENOMINATOR := Nat.mul_le_mul hu hn
    have h2 : u64Max * FEE_DENOMINATOR + FEE_DENOMINATOR ≤ u128Max := by decide
    omega
  refine ⟨?_, hle⟩
  simp only [excludedFeeAmount, bind_ok, safeSub_ok, ok_inj, Prod.mk.injEq]
  exact ⟨_, (mulDivU64_up hb).2 ⟨hD.ne', rfl, hle.trans hu⟩, _, ⟨hle, rfl⟩, rfl, rfl⟩

theorem blockFee_first {x0 c i x : Nat} (h0 : 0 < x0) (hx : x ≤ x0) (hc : c ≤ Spec.maxRate) :
    blockFee x0 c i x = x * c := by
  have h := blockFee_block x0 c i 0 x hx h0
  simp only [Nat.mul_zero, Nat.zero_add, blockFee] at h
  rw [h]
  unfold blockRate
  rw [Nat.zero_mul, Nat.add_zero, Nat.min_eq_left hc]

theorem incl_total {b : BaseFeeConfig} (l : Limiter b) {x : Nat} (hu : x ≤ u64Max) : ∃ num e, Incl b x num e := by
  have hD : 0 < FEE_DENOMINATOR := by decide
  obtain ⟨num, h1, h2, h3, h4, h5⟩ : ∃ num, limiterFromIncluded b x = .ok num ∧ num ≤ FEE_DENOMINATOR ∧ b.cliff ≤ num ∧
      blockFee b.third b.cliff (b.first * 100000) x ≤ x * num ∧
      x * num ≤ blockFee b.third b.cliff (b.first * 100000) x + FEE_DENOMINATOR + x := by
    by_cases hin : b.third < x
    · have hx : 0 < x := by omega
      have he := limiterFromIncluded_eq l hin hu
      refine ⟨_, he, ?_, limiterFromIncluded_ge l hu he, ?_⟩
      · rw [divCeil_le_iff hx]
        have hle : blockFee b.third b.cliff (b.first * 100000) x ≤ x * FEE_DENOMINATOR :=
          (blockFee_le b.third b.cliff (b.first * 100000) x).trans (Nat.mul_le_mul_left _ (by decide))
        have := (divCeil_le_iff hD).2 hle
        rw [Nat.mul_comm FEE_DENOMINATOR]
        exact Nat.mul_le_mul_right _ this
      · generalize blockFee b.third b.cliff (b.first * 100000) x = raw
        have a1 := le_divCeil_mul raw hD
        have a2 := divCeil_mul_lt raw hD
        have a3 := le_divCeil_mul (divCeil raw FEE_DENOMINATOR * FEE_DENOMINATOR) hx
        have a4 := divCeil_mul_lt (divCeil raw FEE_DENOMINATOR * FEE_DENOMINATOR) hx
        rw [Nat.mul_comm _ x] at a3 a4
        omega
    · refine ⟨b.cliff, ?_, l.hi.trans (by decide), le_rfl, ?_⟩
      · unfold limiterFromIncluded; rw [if_pos (by omega)]
      · rw [blockFee_first l.x0 (by omega) l.hi]
        omega
  obtain ⟨g1, g2⟩ := excludedFeeAmount_total hu h2
  have a1 := le_divCeil_mul (x * num) hD
  have a2 := divCeil_mul_lt (x * num) hD
  have e1 : x * (FEE_DENOMINATOR - num) + x * num = x * FEE_DENOMINATOR := by
    rw [← Nat.mul_add, Nat.sub_add_cancel h2]
  have e2 : (x - divCeil (x * num) FEE_DENOMINATOR) * FEE_DENOMINATOR + divCeil (x * num) FEE_DENOMINATOR * FEE_DENOMINATOR =
      x * FEE_DENOMINATOR := by
    rw [← Nat.add_mul, Nat.sub_add_cancel g2]
  refine ⟨num, x - divCeil (x * num) FEE_DENOMINATOR, h1, ?_, h2, h3, h4, h5, ?_, ?_⟩
  · unfold limiterExcluded
    rw [h1, ok_bind, g1, ok_bind]
  · omega
  · omega

/-- In terms of `net`. -/
theorem Incl.net {b : BaseFeeConfig} {x num e : Nat} (h : Incl b x num e) :
    e * FEE_DENOMINATOR ≤ net b.third b.cliff (b.first * 100000) x ∧
    net b.third b.cliff (b.first * 100000) x < e * FEE_DENOMINATOR + 2 * FEE_DENOMINATOR + x ∧
    x * (FEE_DENOMINATOR - num) ≤ net b.third b.cliff (b.first * 100000) x := by
  have h1 := net_add b.third b.cliff (b.first * 100000) x
  have e : Spec.unit = FEE_DENOMINATOR := rfl
  rw [e] at h1
  have e1 : x * (FEE_DENOMINATOR - num) + x * num = x * FEE_DENOMINATOR := by
    rw [← Nat.mul_add, Nat.sub_add_cancel h.numMax]
  have := h.feeLo
  have := h.feeHi
  have := h.exLo
  have := h.exHi
  refine ⟨by omega, by omega, by omega⟩

/-! ### The quadratic -/

theorem wsub256_eq {a b : Nat} (h : b ≤ a) (ha : a < 2 ^ 256) : wsub256 a b = a - b := by
  unfold wsub256
  generalize 2 ^ 256 = M at *
  rw [Nat.mod_eq_of_lt (by omega : b < M), show a + M - b = (a - b) + M by omega, Nat.add_mod_right,
    Nat.mod_eq_of_lt (by omega)]

/-- The root the program computes. -/
theorem limiterRoot_eq {b : BaseFeeConfig} {i x0 c ex Y z : Nat} (hx : b.third = x0) (hc : b.cliff = c)
    (hi : 0 < i) (hY : Y + 2 * c * x0 = 2 * FEE_DENOMINATOR * x0 + i * x0) (hz : z = 2 * ex * FEE_DENOMINATOR * x0)
    (y1 : 2 * FEE_DENOMINATOR * x0 + i * x0 < 2 ^ 256) (y2 : Y * Y ≤ u256Max) (hd : 4 * i * z ≤ Y * Y) :
    ∃ s r, limiterRoot b i ex = .ok r ∧ s * s ≤ Y * Y - 4 * i * z ∧ Y * Y - 4 * i * z < (s + 1) * (s + 1) ∧ s ≤ Y ∧
      r * (2 * i) ≤ Y - s ∧ Y - s < r * (2 * i) + 2 * i := by
  have y4 : u256Max < 2 ^ 256 := by decide
  have e1 : wsub256 (2 * FEE_DENOMINATOR * x0 + i * x0) (2 * c * x0) = Y := by
    rw [wsub256_eq (by omega) y1]; omega
  have e2 : wsub256 (Y * Y) (4 * i * z) = Y * Y - 4 * i * z := wsub256_eq hd (lt_of_le_of_lt y2 y4)
  obtain ⟨s, hs, hs1, hs2⟩ := sqrtU256_ok (n := Y * Y - 4 * i * z) (by omega)
  have hsY : s ≤ Y := by
    by_contra hcon
    have : Y * Y < s * s := Nat.mul_self_lt_mul_self (by omega)
    omega
  have e3 : wsub256 Y s = Y - s := wsub256_eq hsY (lt_of_le_of_lt (by omega) y1)
  refine ⟨s, (Y - s) / (2 * i), ?_, hs1, hs2, hsY, Nat.div_mul_le_self _ _, Nat.lt_div_mul_add (by omega)⟩
  unfold limiterRoot
  simp only [hx, hc]
  rw [e1, ← hz, e2, hs]
  simp only [ok_bind]
  rw [show req (2 * i ≠ 0) Err.panic = .ok () from req_ok.2 (by omega), ok_bind, e3]

/-- What the root is, when some amount `C` is worth more than `ex`. -/
theorem root_nat {i x0 c ex Y z s r C : Nat} (i1 : 100000 ≤ i) (l1 : 0 < x0)
    (hYi : (Y : ℤ) = x0 * (2 * 1000000000 + i - 2 * c)) (hzi : (z : ℤ) = 2 * (x0 : ℤ) * ((ex : ℤ) * 1000000000))
    (y6 : Y ≤ (2000000000 + i) * x0) (hd : 4 * i * z ≤ Y * Y)
    (hs1 : s * s ≤ Y * Y - 4 * i * z) (hs2 : Y * Y - 4 * i * z < (s + 1) * (s + 1)) (hsY : s ≤ Y)
    (r1 : r * (2 * i) ≤ Y - s) (r2 : Y - s < r * (2 * i) + 2 * i)
    (hC : 2 * (x0 : ℤ) * (((ex + 1 : Nat) : ℤ) * 1000000000) ≤ quad x0 c i C) :
    r < C ∧ quad x0 c i r < 2 * (x0 : ℤ) * ((ex : ℤ) * 1000000000 + 1000000000) ∧
      ∀ B : Nat, r + 1 ≤ B → B ≤ C → 2 * (x0 : ℤ) * ((ex : ℤ) * 1000000000) ≤ quad x0 c i B := by
  have hq : ∀ u : ℤ, quad x0 c i u = u * Y - i * (u * u) := fun u => by unfold quad; rw [hYi]
  have hx1 : (1 : ℤ) ≤ x0 := by exact_mod_cast l1
  have hii : (100000 : ℤ) ≤ i := by exact_mod_cast i1
  rw [hq] at hC
  have hC' : (z : ℤ) + 2 * x0 * 1000000000 ≤ C * Y - i * (C * C) := by
    rw [hzi]; push_cast at hC; linarith
  have d1 : (s : ℤ) * s ≤ Y * Y - 4 * i * z := by
    have : s * s + 4 * i * z ≤ Y * Y := by omega
    have : (s : ℤ) * s + 4 * i * z ≤ Y * Y := by exact_mod_cast this
    linarith
  have d2 : (Y : ℤ) * Y - 4 * i * z < (s + 1) * (s + 1) := by
    have : Y * Y < (s + 1) * (s + 1) + 4 * i * z := by omega
    have : (Y : ℤ) * Y < (s + 1) * (s + 1) + 4 * i * z := by exact_mod_cast this
    linarith
  have r1' : 2 * (i : ℤ) * r ≤ Y - s := by
    have : r * (2 * i) + s ≤ Y := by omega
    have : (r : ℤ) * (2 * i) + s ≤ Y := by exact_mod_cast this
    linarith
  have r2' : (Y : ℤ) - s < 2 * i * (r + 1) := by
    have : Y < r * (2 * i) + 2 * i + s := by omega
    have : (Y : ℤ) < r * (2 * i) + 2 * i + s := by exact_mod_cast this
    linarith
  -- the square root is small against `4·i·x0·10⁹`
  have hsmall : (s : ℤ) ≤ (2000000000 + i) * x0 := by exact_mod_cast hsY.trans y6
  have hsm2 : 2 * (s : ℤ) < 4 * i * (2 * x0 * 1000000000) := by
    have h1 : 2 * (2000000000 + (i : ℤ)) < 4 * i * (2 * 1000000000) := by linarith
    have h2 : 2 * ((2000000000 + (i : ℤ)) * x0) < 4 * i * (2 * 1000000000) * x0 := by
      have := mul_lt_mul_of_pos_right h1 (by linarith : (0 : ℤ) < x0)
      linarith
    linarith
  have hm := mul_le_mul_of_nonneg_left hC' (by linarith : (0 : ℤ) ≤ 2 * i)
  obtain ⟨f1, f2, f3⟩ := root_facts (i := (i : ℤ)) (Y := Y) (z := z) (s := s) (r := r) (C := C) (by linarith) (by positivity)
    d1 d2 r1' r2' (by linarith)
  refine ⟨by exact_mod_cast f2, ?_, ?_⟩
  · rw [hq]
    have hsm3 : 4 * (i : ℤ) * (r * Y - i * (r * r)) < 4 * i * (z + 2 * x0 * 1000000000) := by linarith
    have := lt_of_mul_lt_mul_left hsm3 (by positivity)
    rw [hzi] at this
    linarith
  · intro B b1 b2
    rw [hq, ← hzi]
    exact f3 B (by exact_mod_cast b1) (by exact_mod_cast b2)

theorem limiterRoot_facts {b : BaseFeeConfig} (l : Limiter b) (h3 : b.third ≤ u64Max) {ex C : Nat}
    (hC : 2 * (b.third : ℤ) * (((ex + 1 : Nat) : ℤ) * 1000000000) ≤ quad b.third b.cliff (b.first * 100000) C) :
    ∃ r, limiterRoot b (b.first * 100000) ex = .ok r ∧ r < C ∧
      quad b.third b.cliff (b.first * 100000) r < 2 * (b.third : ℤ) * ((ex : ℤ) * 1000000000 + 1000000000) ∧
      ∀ B : Nat, r + 1 ≤ B → B ≤ C →
        2 * (b.third : ℤ) * ((ex : ℤ) * 1000000000) ≤ quad b.third b.cliff (b.first * 100000) B := by
  have l1 := l.x0
  have l2 := l.bps
  have l3 := l.bpsMax
  have l5 : b.cliff ≤ 990000000 := l.hi
  obtain ⟨i, hi⟩ : ∃ i, i = b.first * 100000 := ⟨_, rfl⟩
  rw [← hi] at hC ⊢
  have i1 : 100000 ≤ i := by omega
  have i2 : i < 1000000000 := by omega
  clear hi l2 l3
  obtain ⟨x0, hx0⟩ : ∃ x0, b.third = x0 := ⟨_, rfl⟩
  obtain ⟨c, hc⟩ : ∃ c, b.cliff = c := ⟨_, rfl⟩
  rw [hx0] at h3 l1 hC ⊢
  rw [hc] at l5 hC ⊢
  have y0 : 2 * c * x0 ≤ 2 * FEE_DENOMINATOR * x0 + i * x0 := by
    have : 2 * c * x0 ≤ 2 * FEE_DENOMINATOR * x0 := Nat.mul_le_mul_right _ (Nat.mul_le_mul_left _ (l5.trans (by decide)))
    omega
  have y1' : 2 * FEE_DENOMINATOR * x0 + i * x0 = (2000000000 + i) * x0 := by
    rw [show FEE_DENOMINATOR = 1000000000 from rfl]; ring
  have y1 : 2 * FEE_DENOMINATOR * x0 + i * x0 ≤ 3000000000 * u64Max := by
    rw [y1']
    exact Nat.mul_le_mul (by omega) h3
  have y2 : 3000000000 * u64Max < 2 ^ 256 := by decide
  have y3 : 3000000000 * u64Max * (3000000000 * u64Max) ≤ u256Max := by decide
  obtain ⟨Y, hY⟩ : ∃ Y, Y + 2 * c * x0 = 2 * FEE_DENOMINATOR * x0 + i * x0 := ⟨_, Nat.sub_add_cancel y0⟩
  have y5 : Y ≤ 3000000000 * u64Max := by omega
  have y6 : Y ≤ (2000000000 + i) * x0 := by omega
  have hYi : (Y : ℤ) = x0 * (2 * 1000000000 + i - 2 * c) := by
    have : (Y : ℤ) + 2 * c * x0 = (2000000000 + i) * x0 := by exact_mod_cast hY.trans y1'
    linarith
  have hzi : ((2 * ex * FEE_DENOMINATOR * x0 : Nat) : ℤ) = 2 * (x0 : ℤ) * ((ex : ℤ) * 1000000000) := by
    rw [show FEE_DENOMINATOR = 1000000000 from rfl]; push_cast; ring
  obtain ⟨z, hz⟩ : ∃ z, z = 2 * ex * FEE_DENOMINATOR * x0 := ⟨_, rfl⟩
  rw [← hz] at hzi
  have hd : 4 * i * z ≤ Y * Y := by
    have key : 4 * (i : ℤ) * (C * Y - i * (C * C)) = Y * Y - (Y - 2 * i * C) * (Y - 2 * i * C) := by ring
    have hq : quad x0 c i C = C * Y - i * (C * C) := by unfold quad; rw [hYi]
    rw [hq] at hC
    have h0 : (0 : ℤ) ≤ 2 * x0 * 1000000000 := by positivity
    have h1 : (z : ℤ) ≤ C * Y - i * (C * C) := by rw [hzi]; push_cast at hC; linarith
    have h2 := mul_le_mul_of_nonneg_left h1 (by positivity : (0 : ℤ) ≤ 4 * i)
    have h3 := mul_self_nonneg ((Y : ℤ) - 2 * i * C)
    have : 4 * (i : ℤ) * z ≤ Y * Y := by linarith
    exact_mod_cast this
  obtain ⟨s, r, h1, h2, h3, h4, h5, h6⟩ := limiterRoot_eq (b := b) (i := i) (ex := ex) hx0 hc (by omega) hY hz
    (lt_of_le_of_lt y1 y2) ((Nat.mul_le_mul y5 y5).trans y3) hd
  exact ⟨r, h1, root_nat i1 l1 hYi hzi y6 hd h2 h3 h4 h5 h6 hC⟩

/-! ### The included amount -/

/-- The last block below the maximum rate. -/
def lastIdx (b : BaseFeeConfig) : Nat := (MAX_FEE_NUMERATOR - b.cliff) / (b.first * 100000)

theorem Limiter.num {b : BaseFeeConfig} (l : Limiter b) : toNumerator b.first = .ok (b.first * 100000) := by
  rw [toNumerator_ok]
  have h2 : b.first * 100000 ≤ 10000 * 100000 := Nat.mul_le_mul_right _ l.bpsMax.le
  exact ⟨h2.trans (by decide), rfl⟩

theorem Limiter.maxIndex {b : BaseFeeConfig} (l : Limiter b) : limiterMaxIndex b = .ok (lastIdx b) := by
  have hpos : 0 < b.first * 100000 := Nat.mul_pos l.bps (by decide)
  simp only [limiterMaxIndex, bind_ok, safeSub_ok, safeDiv_ok]
  exact ⟨_, ⟨l.hi, rfl⟩, _, l.num, hpos.ne', rfl⟩

theorem Limiter.last {b : BaseFeeConfig} (l : Limiter b) :
    b.cliff + lastIdx b * (b.first * 100000) ≤ 990000000 ∧
      990000000 < b.cliff + (lastIdx b + 1) * (b.first * 100000) := by
  have hpos : 0 < b.first * 100000 := Nat.mul_pos l.bps (by decide)
  have h1 : b.cliff ≤ 990000000 := l.hi
  unfold lastIdx
  rw [show MAX_FEE_NUMERATOR = 990000000 from rfl]
  have h2 := Nat.div_mul_le_self (990000000 - b.cliff) (b.first * 100000)
  have h3 := Nat.lt_div_mul_add (a := 990000000 - b.cliff) hpos
  rw [Nat.add_mul, Nat.one_mul]
  generalize (990000000 - b.cliff) / (b.first * 100000) * (b.first * 100000) = T at *
  omega

/-- The checked point: the end of the last block below the maximum rate, or the largest amount. -/
structure Checked (b : BaseFeeConfig) (num ex inc : Nat) (ovf : Bool) : Prop where
  eq : limiterChecked b = .ok (ex, inc, ovf)
  incl : Incl b inc num ex
  le : inc ≤ u64Max
  below : inc ≤ b.third * (lastIdx b + 1)
  no : ovf = false → inc = b.third * (lastIdx b + 1)
  yes : ovf = true → inc = u64Max

theorem checked_total {b : BaseFeeConfig} (l : Limiter b) : ∃ num ex inc ovf, Checked b num ex inc ovf := by
  by_cases h : (lastIdx b + 1) * b.third ≤ u64Max
  · obtain ⟨num, e, hi⟩ := incl_total l h
    refine ⟨num, e, _, false, ?_, hi, h, (Nat.mul_comm _ _).le, fun _ => Nat.mul_comm _ _, fun e => by cases e⟩
    unfold limiterChecked
    rw [l.maxIndex, ok_bind, if_pos h, hi.excl, ok_bind]
  · obtain ⟨num, e, hi⟩ := incl_total l (le_refl u64Max)
    refine ⟨num, e, _, true, ?_, hi, le_rfl, ?_, (fun e => by cases e), fun _ => rfl⟩
    · unfold limiterChecked
      rw [l.maxIndex, ok_bind, if_neg h, hi.excl, ok_bind]
    · rw [Nat.mul_comm]; omega

theorem includedFeeAmount_total' {num ex : Nat} (hn : num < FEE_DENOMINATOR) (hex : ex ≤ u64Max)
    (h : divCeil (ex * FEE_DENOMINATOR) (FEE_DENOMINATOR - num) ≤ u64Max) :
    includedFeeAmount num ex = .ok (divCeil (ex * FEE_DENOMINATOR) (FEE_DENOMINATOR - num),
      divCeil (ex * FEE_DENOMINATOR) (FEE_DENOMINATOR - num) - ex) := by
  have hd : 0 < FEE_DENOMINATOR - num := by omega
  have hle : ex ≤ divCeil (ex * FEE_DENOMINATOR) (FEE_DENOMINATOR - num) := by
    have h1 := le_divCeil_mul (ex * FEE_DENOMINATOR) hd
    have h2 : divCeil (ex * FEE_DENOMINATOR) (FEE_DENOMINATOR - num) * (FEE_DENOMINATOR - num) ≤
      divCeil (ex * FEE_DENOMINATOR) (FEE_DENOMINATOR - num) * FEE_DENOMINATOR := Nat.mul_le_mul_left _ (by omega)
    exact Nat.le_of_mul_le_mul_right (h1.trans h2) (by decide)
  have hb : ex * FEE_DENOMINATOR + (FEE_DENOMINATOR - num) ≤ u128Max := by
    have h1 : ex * FEE_DENOMINATOR ≤ u64Max * FEE_DENOMINATOR := Nat.mul_le_mul_right _ hex
    have h2 : u64Max * FEE_DENOMINATOR + FEE_DENOMINATOR ≤ u128Max := by decide
    omega
  simp only [includedFeeAmount, bind_ok, safeSub_ok, ok_inj, Prod.mk.injEq]
  exact ⟨_, ⟨hn.le, rfl⟩, _, (mulDivU64_up hb).2 ⟨hd.ne', rfl, h⟩, _, ⟨hle, rfl⟩, rfl, rfl⟩

theorem includedFeeAmount_ok' {num ex inc f : Nat} (h : includedFeeAmount num ex = .ok (inc, f)) :
    num < FEE_DENOMINATOR ∧ inc = divCeil (ex * FEE_DENOMINATOR) (FEE_DENOMINATOR - num) ∧ inc ≤ u64Max := by
  simp only [includedFeeAmount, bind_ok, safeSub_ok, ok_inj, Prod.mk.injEq] at h
  obtain ⟨_, ⟨h1, rfl⟩, _, h2, _, _, rfl, _⟩ := h
  obtain ⟨a, b, c, _⟩ := mulDivU64_up' h2
  exact ⟨by omega, b, c⟩

/-- Below the checked point: the amount the program finds. -/
structure Found (b : BaseFeeConfig) (ex r e t : Nat) : Prop where
  root : limiterRoot b (b.first * 100000) ex = .ok r
  rMax : r ≤ u64Max
  excl : limiterExcluded b r = .ok e
  le : e ≤ ex
  num : b.cliff + b.first * 100000 * (r / b.third) ≤ 990000000
  eq : t = r + divCeil ((ex - e) * FEE_DENOMINATOR) (FEE_DENOMINATOR - (b.cliff + b.first * 100000 * (r / b.third)))
  hi : net b.third b.cliff (b.first * 100000) t < ex * FEE_DENOMINATOR + 3 * FEE_DENOMINATOR + t
  lo : t ≤ u64Max → ex * FEE_DENOMINATOR ≤ net b.third b.cliff (b.first * 100000) t

theorem found_total {b : BaseFeeConfig} (l : Limiter b) (h3 : b.third ≤ u64Max) {nc ec ic ex : Nat} {ovf : Bool}
    (hc : Checked b nc ec ic ovf) (hex : ex < ec) : ∃ r e t, Found b ex r e t := by
  obtain ⟨hl1, hl2⟩ := l.last
  have h0 := l.x0
  have hcN := (hc.incl.net).1
  have hq := net_le_quad b.third b.cliff (b.first * 100000) (lastIdx b) h0 hl1 hc.below
  have hstep : (ex + 1) * 1000000000 ≤ net b.third b.cliff (b.first * 100000) ic :=
    (Nat.mul_le_mul_right _ (by omega : ex + 1 ≤ ec)).trans hcN
  have hC : 2 * (b.third : ℤ) * (((ex + 1 : Nat) : ℤ) * 1000000000) ≤ quad b.third b.cliff (b.first * 100000) ic := by
    have : (((ex + 1 : Nat) : ℤ) * 1000000000) ≤ net b.third b.cliff (b.first * 100000) ic := by exact_mod_cast hstep
    have := mul_le_mul_of_nonneg_left this (by positivity : (0 : ℤ) ≤ 2 * b.third)
    linarith
  obtain ⟨r, hr, hrC, hrQ, hB⟩ := limiterRoot_facts l h3 hC
  have hrU : r ≤ u64Max := (hrC.le).trans hc.le
  obtain ⟨nr, e, hI⟩ := incl_total l hrU
  obtain ⟨n1, n2, -⟩ := hI.net
  -- the block of the root
  have hk : r / b.third ≤ lastIdx b := by
    have : r / b.third < lastIdx b + 1 := (Nat.div_lt_iff_lt_mul h0).2 (by
      rw [Nat.mul_comm]; exact lt_of_lt_of_le hrC hc.below)
    omega
  have hknum : b.cliff + b.first * 100000 * (r / b.third) ≤ 990000000 := by
    have := Nat.mul_le_mul_left (b.first * 100000) hk
    rw [Nat.mul_comm (b.first * 100000) (lastIdx b)] at this
    omega
  have hrate : blockRate b.cliff (b.first * 100000) (r / b.third) = b.cliff + b.first * 100000 * (r / b.third) := by
    unfold blockRate Spec.maxRate
    rw [Nat.mul_comm (r / b.third)]
    omega
  -- what the root is worth
  have hrn := net_le_quad b.third b.cliff (b.first * 100000) (lastIdx b) h0 hl1 (hrC.le.trans hc.below)
  have hrN : net b.third b.cliff (b.first * 100000) r < (ex + 1) * 1000000000 := by
    have h1 : 2 * (b.third : ℤ) * net b.third b.cliff (b.first * 100000) r <
        2 * (b.third : ℤ) * (((ex + 1) * 1000000000 : Nat) : ℤ) := by
      push_cast; linarith
    have := lt_of_mul_lt_mul_left h1 (by positivity)
    exact_mod_cast this
  have hle : e ≤ ex := by
    have : e * 1000000000 < (ex + 1) * 1000000000 := lt_of_le_of_lt n1 hrN
    have := Nat.lt_of_mul_lt_mul_right this
    omega
  have hd : 0 < FEE_DENOMINATOR - (b.cliff + b.first * 100000 * (r / b.third)) := by
    rw [show FEE_DENOMINATOR = 1000000000 from rfl]; omega
  have g1 := le_divCeil_mul ((ex - e) * FEE_DENOMINATOR) hd
  have g2 := divCeil_mul_lt ((ex - e) * FEE_DENOMINATOR) hd
  have e1 : (ex - e) * FEE_DENOMINATOR + e * FEE_DENOMINATOR = ex * FEE_DENOMINATOR := by
    rw [← Nat.add_mul, Nat.sub_add_cancel hle]
  have hright := net_right b.third b.cliff (b.first * 100000) r
    (divCeil ((ex - e) * FEE_DENOMINATOR) (FEE_DENOMINATOR - (b.cliff + b.first * 100000 * (r / b.third))))
  rw [hrate, show Spec.unit = FEE_DENOMINATOR from rfl] at hright
  refine ⟨r, e, _, hr, hrU, hI.excl, hle, hknum, rfl, ?_, ?_⟩
  · omega
  · intro ht
    by_cases hin : r + divCeil ((ex - e) * FEE_DENOMINATOR) (FEE_DENOMINATOR - (b.cliff + b.first * 100000 * (r / b.third))) ≤
        b.third * (r / b.third + 1)
    · have hdm := Nat.div_add_mod r b.third
      have hb1 := net_block b.third b.cliff (b.first * 100000) (r / b.third) (r % b.third)
        (Nat.mod_lt _ h0).le h0
      have hb2 := net_block b.third b.cliff (b.first * 100000) (r / b.third)
        (r % b.third + divCeil ((ex - e) * FEE_DENOMINATOR) (FEE_DENOMINATOR - (b.cliff + b.first * 100000 * (r / b.third))))
        (by rw [Nat.mul_add, Nat.mul_one] at hin; omega) h0
      rw [hrate, show Spec.unit = FEE_DENOMINATOR from rfl] at hb1 hb2
      rw [← Nat.add_assoc, hdm] at hb2
      rw [hdm] at hb1
      rw [Nat.add_mul] at hb2
      omega
    · have hBc : b.third * (r / b.third + 1) ≤ ic := by
        cases hv : ovf with
        | false =>
          rw [hc.no hv]
          exact Nat.mul_le_mul_left _ (by omega)
        | true => rw [hc.yes hv]; omega
      have hrB : r + 1 ≤ b.third * (r / b.third + 1) := by
        have hdm := Nat.div_add_mod r b.third
        have := Nat.mod_lt r h0
        rw [Nat.mul_add, Nat.mul_one]
        omega
      have h1 := hB _ hrB hBc
      have h2 := net_mult b.third b.cliff (b.first * 100000) (lastIdx b) h0 hl1 (r / b.third + 1) (by omega)
      have h4 : ex * 1000000000 ≤ net b.third b.cliff (b.first * 100000) (b.third * (r / b.third + 1)) := by
        have h5 : 2 * (b.third : ℤ) * ((ex * 1000000000 : Nat) : ℤ) ≤
            2 * (b.third : ℤ) * net b.third b.cliff (b.first * 100000) (b.third * (r / b.third + 1)) := by
          rw [h2]; push_cast at h1 ⊢; linarith
        have h6 : (0 : ℤ) < 2 * b.third := by
          have : (0 : ℤ) < b.third := by exact_mod_cast h0
          linarith
        exact_mod_cast le_of_mul_le_mul_left h5 h6
      exact h4.trans (net_mono _ _ _ (by omega))

/-- No more than the first block's share is left. -/
theorem net_le_first (x0 c i x : Nat) (hc : c ≤ 990000000) : net x0 c i x ≤ x * (FEE_DENOMINATOR - c) := by
  have h := net_right x0 c i 0 x
  have e : blockRate c i (0 / x0) = c := by
    unfold blockRate Spec.maxRate; rw [Nat.zero_div, Nat.zero_mul]; omega
  rw [Nat.zero_add, e, show Spec.unit = FEE_DENOMINATOR from rfl] at h
  simpa [net] using h

/-- The rate `n` found for a trade that must leave `ex`, with the amount `t` it was computed from. -/
structure Excl (b : BaseFeeConfig) (ex n t : Nat) : Prop where
  ge : b.cliff ≤ n
  le : n ≤ FEE_DENOMINATOR
  lo : ex * FEE_DENOMINATOR ≤ net b.third b.cliff (b.first * 100000) t
  hi : net b.third b.cliff (b.first * 100000) t < ex * FEE_DENOMINATOR + 3 * FEE_DENOMINATOR + t
  avg : t * (FEE_DENOMINATOR - n) ≤ net b.third b.cliff (b.first * 100000) t
  near : ex * FEE_DENOMINATOR ≤ t * (FEE_DENOMINATOR - n) + t

/-- The last stage of the search: from the amount to the rate. -/
theorem rate_of_amount {b : BaseFeeConfig} (l : Limiter b) {ex t : Nat} (hu : t ≤ u64Max) (hpos : 0 < ex)
    (lo : ex * FEE_DENOMINATOR ≤ net b.third b.cliff (b.first * 100000) t)
    (hi : net b.third b.cliff (b.first * 100000) t < ex * FEE_DENOMINATOR + 3 * FEE_DENOMINATOR + t) :
    ∃ n, ex ≤ t ∧ safeMulDivCastU64 (t - ex) FEE_DENOMINATOR t .up = .ok n ∧ Excl b ex n t := by
  have hc : b.cliff ≤ 990000000 := l.hi
  have h1 := net_le_first b.third b.cliff (b.first * 100000) t hc
  have hD : 0 < FEE_DENOMINATOR := by decide
  have hcD : b.cliff ≤ FEE_DENOMINATOR := hc.trans (by decide)
  have e1 : t * (FEE_DENOMINATOR - b.cliff) + t * b.cliff = t * FEE_DENOMINATOR := by
    rw [← Nat.mul_add, Nat.sub_add_cancel hcD]
  have hle : ex ≤ t := by
    refine Nat.le_of_mul_le_mul_right (c := FEE_DENOMINATOR) ?_ hD
    omega
  have ht : 0 < t := by omega
  have e2 : (t - ex) * FEE_DENOMINATOR + ex * FEE_DENOMINATOR = t * FEE_DENOMINATOR := by
    rw [← Nat.add_mul, Nat.sub_add_cancel hle]
  have hn : divCeil ((t - ex) * FEE_DENOMINATOR) t ≤ FEE_DENOMINATOR := by
    rw [divCeil_le_iff ht, Nat.mul_comm FEE_DENOMINATOR]; omega
  have hb : (t - ex) * FEE_DENOMINATOR + t ≤ u128Max := by
    have h1 : (t - ex) * FEE_DENOMINATOR ≤ u64Max * FEE_DENOMINATOR := Nat.mul_le_mul_right _ (by omega)
    have h2 : u64Max * FEE_DENOMINATOR + u64Max ≤ u128Max := by decide
    omega
  have g1 := le_divCeil_mul ((t - ex) * FEE_DENOMINATOR) ht
  have g2 := divCeil_mul_lt ((t - ex) * FEE_DENOMINATOR) ht
  refine ⟨_, hle, (mulDivU64_up hb).2 ⟨ht.ne', rfl, hn.trans (by decide)⟩, ?_⟩
  generalize divCeil ((t - ex) * FEE_DENOMINATOR) t = n at *
  have e3 : t * (FEE_DENOMINATOR - n) + n * t = t * FEE_DENOMINATOR := by
    rw [Nat.mul_comm n t, ← Nat.mul_add, Nat.sub_add_cancel hn]
  refine ⟨?_, hn, lo, hi, by omega, by omega⟩
  refine Nat.le_of_mul_le_mul_right (c := t) ?_ ht
  rw [Nat.mul_comm b.cliff]
  omega

theorem net_zero_of {x0 c i t : Nat} (h : net x0 c i t = 0) : t = 0 := by
  have := net_grow x0 c i 0 t
  rw [Nat.zero_add, h] at this
  omega

/-- Everything past the largest block is charged 99%. -/
theorem net_past {b : BaseFeeConfig} (l : Limiter b) (d : Nat) :
    net b.third b.cliff (b.first * 100000) (b.third * (lastIdx b + 1) + d) ≤
      net b.third b.cliff (b.first * 100000) (b.third * (lastIdx b + 1)) + d * 10000000 := by
  have h := net_right b.third b.cliff (b.first * 100000) (b.third * (lastIdx b + 1)) d
  have e : blockRate b.cliff (b.first * 100000) (b.third * (lastIdx b + 1) / b.third) = 990000000 := by
    rw [Nat.mul_div_cancel_left _ l.x0]
    have := l.last.2
    unfold blockRate Spec.maxRate
    omega
  rw [e] at h
  exact h

theorem divCeil_of_le {a b c : Nat} (hb : 0 < b) (h : a ≤ c * b) : divCeil a b ≤ c := (divCeil_le_iff hb).2 h

/-- The first block: the cliff rate. -/
theorem excl_first {b : BaseFeeConfig} (l : Limiter b) {ex n0 e0 : Nat} (h0 : Incl b b.third n0 e0) (h : ex ≤ e0) :
    Excl b ex b.cliff (divCeil (ex * FEE_DENOMINATOR) (FEE_DENOMINATOR - b.cliff)) ∧
      divCeil (ex * FEE_DENOMINATOR) (FEE_DENOMINATOR - b.cliff) ≤ b.third := by
  have hc : b.cliff ≤ 990000000 := l.hi
  have hcD : b.cliff < FEE_DENOMINATOR := lt_of_le_of_lt hc (by decide)
  have hd : 0 < FEE_DENOMINATOR - b.cliff := by omega
  have h1 := net_le_first b.third b.cliff (b.first * 100000) b.third hc
  have h2 := h0.net.1
  have h3 : ex * FEE_DENOMINATOR ≤ e0 * FEE_DENOMINATOR := Nat.mul_le_mul_right _ h
  have ht : divCeil (ex * FEE_DENOMINATOR) (FEE_DENOMINATOR - b.cliff) ≤ b.third := divCeil_of_le hd (by omega)
  have hn : net b.third b.cliff (b.first * 100000) (divCeil (ex * FEE_DENOMINATOR) (FEE_DENOMINATOR - b.cliff)) =
      divCeil (ex * FEE_DENOMINATOR) (FEE_DENOMINATOR - b.cliff) * (FEE_DENOMINATOR - b.cliff) := by
    have h4 := net_block b.third b.cliff (b.first * 100000) 0 _ ht l.x0
    have e : blockRate b.cliff (b.first * 100000) 0 = b.cliff := by
      unfold blockRate Spec.maxRate; rw [Nat.zero_mul]; omega
    rw [e, Nat.mul_zero, Nat.zero_add, show Spec.unit = FEE_DENOMINATOR from rfl] at h4
    simpa [net] using h4
  have g1 := le_divCeil_mul (ex * FEE_DENOMINATOR) hd
  have g2 := divCeil_mul_lt (ex * FEE_DENOMINATOR) hd
  refine ⟨⟨le_rfl, hcD.le, ?_, ?_, ?_, ?_⟩, ht⟩ <;> omega

/-- Exactly the largest graduated amount. -/
theorem excl_checked {b : BaseFeeConfig} {C n ex : Nat} (h : Incl b C n ex) : Excl b ex n C := by
  obtain ⟨h1, h2, h3⟩ := h.net
  have h4 := h.numMax
  have h5 := h.exLo
  have e3 : C * (FEE_DENOMINATOR - n) + C * n = C * FEE_DENOMINATOR := by
    rw [← Nat.mul_add, Nat.sub_add_cancel h4]
  refine ⟨h.ge, h4, h1, by omega, h3, ?_⟩
  omega

/-- Past the largest graduated amount. -/
theorem past_amount {b : BaseFeeConfig} (l : Limiter b) {n ex ec C : Nat} (hI : Incl b C n ec)
    (hC : C = b.third * (lastIdx b + 1)) (h : ec ≤ ex) {d : Nat}
    (hd : d = divCeil ((ex - ec) * FEE_DENOMINATOR) (FEE_DENOMINATOR - MAX_FEE_NUMERATOR)) :
    ex * FEE_DENOMINATOR ≤ net b.third b.cliff (b.first * 100000) (d + C) ∧
    net b.third b.cliff (b.first * 100000) (d + C) < ex * FEE_DENOMINATOR + 3 * FEE_DENOMINATOR + (d + C) := by
  have hp : FEE_DENOMINATOR - MAX_FEE_NUMERATOR = 10000000 := rfl
  rw [hp] at hd
  have g1 := le_divCeil_mul ((ex - ec) * FEE_DENOMINATOR) (b := 10000000) (by decide)
  have g2 := divCeil_mul_lt ((ex - ec) * FEE_DENOMINATOR) (b := 10000000) (by decide)
  rw [← hd] at g1 g2
  obtain ⟨h1, h2, -⟩ := hI.net
  have h3 := net_grow b.third b.cliff (b.first * 100000) C d
  have h4 := net_past l d
  rw [← hC] at h4
  have e1 : (ex - ec) * FEE_DENOMINATOR + ec * FEE_DENOMINATOR = ex * FEE_DENOMINATOR := by
    rw [← Nat.add_mul, Nat.sub_add_cancel h]
  have hD : 10000000 ≤ FEE_DENOMINATOR := by decide
  rw [Nat.add_comm d C]
  have : ∃ T, T = d * 10000000 := ⟨_, rfl⟩
  obtain ⟨T, hT⟩ := this
  rw [← hT] at g1 g2 h3 h4
  clear hT
  constructor <;> omega

theorem castTo_ok' {m a b : Nat} (h : castTo m a = .ok b) : b = a ∧ a ≤ m := by
  have := castTo_ok.1 h
  exact ⟨by omega, by omega⟩

/-- What the program's search for the rate of an excluded amount finds. -/
theorem limiterFromExcluded_facts {b : BaseFeeConfig} (l : Limiter b) (h3 : b.third ≤ u64Max) {ex n : Nat}
    (h : limiterFromExcluded b ex = .ok n) : ∃ t, Excl b ex n t := by
  obtain ⟨n0, e0, hI0⟩ := incl_total l h3
  obtain ⟨nc, ec, C, ovf, hc⟩ := checked_total l
  unfold limiterFromExcluded at h
  rw [hI0.excl, ok_bind] at h
  by_cases h1 : ex ≤ e0
  · rw [if_pos h1, ok_inj] at h
    subst h
    exact ⟨_, (excl_first l hI0 h1).1⟩
  rw [if_neg h1, hc.eq, ok_bind] at h
  dsimp only at h
  by_cases h2 : ex = ec
  · rw [if_pos h2, hc.incl.rate, ok_inj] at h
    subst h h2
    exact ⟨_, excl_checked hc.incl⟩
  rw [if_neg h2] at h
  simp only [bind_ok, req_ok, ok_inj] at h
  obtain ⟨t, ht, f, hf, n', hn', _, hge, rfl⟩ := h
  have key : t ≤ u64Max ∧ ex * FEE_DENOMINATOR ≤ net b.third b.cliff (b.first * 100000) t ∧
      net b.third b.cliff (b.first * 100000) t < ex * FEE_DENOMINATOR + 3 * FEE_DENOMINATOR + t := by
    by_cases h4 : ex < ec
    · obtain ⟨r, e, t', hF⟩ := found_total l h3 hc h4
      rw [if_pos h4, l.num, ok_bind, hF.root, ok_bind] at ht
      simp only [bind_ok, safeDiv_ok, castTo_ok, safeSub_ok, safeAdd_ok, Prod.exists] at ht
      obtain ⟨_, ⟨_, rfl⟩, _, ⟨_, rfl⟩, _, he, _, ⟨_, rfl⟩, _, ⟨_, rfl⟩, i, _, hi, _, ⟨_, rfl⟩, hu, rfl⟩ := ht
      rw [hF.excl, ok_inj] at he
      subst he
      obtain ⟨-, rfl, -⟩ := includedFeeAmount_ok' hi
      have e2 := hF.eq
      have h5 := hF.hi
      have h6 := hF.lo
      rw [e2] at h5 h6
      exact ⟨hu, h6 hu, h5⟩
    · rw [if_neg h4] at ht
      cases hv : ovf with
      | true => rw [hv] at ht; simp at ht
      | false =>
        rw [hv] at ht
        simp only [Bool.false_eq_true, if_false, bind_ok, safeSub_ok, safeAdd_ok, Prod.exists] at ht
        obtain ⟨_, ⟨h5, rfl⟩, i, _, hi, hu, rfl⟩ := ht
        obtain ⟨-, hd, -⟩ := includedFeeAmount_ok' hi
        obtain ⟨k1, k2⟩ := past_amount l hc.incl (hc.no hv) h5 hd
        exact ⟨hu, k1, k2⟩
  obtain ⟨hu, lo, hi⟩ := key
  obtain ⟨n2, hle, hn2, hE⟩ := rate_of_amount l hu (by omega) lo hi
  rw [safeSub_ok] at hf
  obtain ⟨-, rfl⟩ := hf
  rw [hn2, ok_inj] at hn'
  subst hn'
  exact ⟨_, hE⟩

/-- The search succeeds whenever some 64-bit amount comfortably leaves `ex`. -/
theorem limiterFromExcluded_total {b : BaseFeeConfig} (l : Limiter b) (h3 : b.third ≤ u64Max) {ex y : Nat}
    (hex : ex ≤ u64Max) (hy : y ≤ u64Max)
    (h : ex * FEE_DENOMINATOR + 3 * FEE_DENOMINATOR + y ≤ net b.third b.cliff (b.first * 100000) y) :
    ∃ n, limiterFromExcluded b ex = .ok n := by
  have hD : FEE_DENOMINATOR = 1000000000 := rfl
  -- amounts beyond `y` leave too much
  have hbound : ∀ t, net b.third b.cliff (b.first * 100000) t < ex * FEE_DENOMINATOR + 3 * FEE_DENOMINATOR + t → t ≤ y := by
    intro t ht
    by_contra hlt
    obtain ⟨d, rfl⟩ := Nat.exists_eq_add_of_le (by omega : y ≤ t)
    have := net_grow b.third b.cliff (b.first * 100000) y d
    have h9 : d ≤ d * 10000000 := Nat.le_mul_of_pos_right _ (by decide)
    obtain ⟨T, hT⟩ : ∃ T, T = d * 10000000 := ⟨_, rfl⟩
    rw [← hT] at this h9
    clear hT
    omega
  obtain ⟨n0, e0, hI0⟩ := incl_total l h3
  obtain ⟨nc, ec, C, ovf, hc⟩ := checked_total l
  unfold limiterFromExcluded
  rw [hI0.excl, ok_bind]
  by_cases h1 : ex ≤ e0
  · rw [if_pos h1]; exact ⟨_, rfl⟩
  rw [if_neg h1, hc.eq, ok_bind]
  dsimp only
  by_cases h2 : ex = ec
  · rw [if_pos h2, hc.incl.rate]; exact ⟨_, rfl⟩
  rw [if_neg h2]
  simp only [bind_ok, req_ok, ok_inj]
  by_cases h4 : ex < ec
  · obtain ⟨r, e, t, hF⟩ := found_total l h3 hc h4
    have htu : t ≤ u64Max := (hbound t hF.hi).trans hy
    obtain ⟨n, hle, hn, hE⟩ := rate_of_amount l htu (by omega) (hF.lo htu) hF.hi
    refine ⟨n, t, ?_, t - ex, by rw [safeSub_ok]; exact ⟨hle, rfl⟩, n, hn, (), hE.ge, rfl⟩
    have hin := includedFeeAmount_total' (num := b.cliff + b.first * 100000 * (r / b.third)) (ex := ex - e)
      (lt_of_le_of_lt hF.num (by decide)) (by omega) (by have := hF.eq; omega)
    rw [if_pos h4, l.num, ok_bind, hF.root, ok_bind]
    simp only [bind_ok, safeDiv_ok, castTo_ok, safeSub_ok, safeAdd_ok, Prod.exists]
    refine ⟨_, ⟨l.x0.ne', rfl⟩, _, ⟨hF.rMax, rfl⟩, _, hF.excl, _, ⟨hF.le, rfl⟩, _,
      ⟨hF.num.trans (by decide), rfl⟩, _, _, hin, _, ⟨?_, rfl⟩, ?_, hF.eq⟩
    · rw [← hF.eq]; exact htu.trans (by decide)
    · rw [← hF.eq]; exact htu
  · have hlt : ec ≤ ex := by omega
    cases hv : ovf with
    | true =>
      exfalso
      have h5 := hc.yes hv
      have h6 := hc.incl.net.2.1
      rw [h5] at h6
      obtain ⟨d, hd⟩ := Nat.exists_eq_add_of_le hy
      have h7 := net_grow b.third b.cliff (b.first * 100000) y d
      rw [← hd] at h7
      have h9 : d ≤ d * 10000000 := Nat.le_mul_of_pos_right _ (by decide)
      obtain ⟨T, hT⟩ : ∃ T, T = d * 10000000 := ⟨_, rfl⟩
      rw [← hT] at h7 h9
      clear hT
      have h8 : ec * FEE_DENOMINATOR ≤ ex * FEE_DENOMINATOR := Nat.mul_le_mul_right _ hlt
      omega
    | false =>
      obtain ⟨k1, k2⟩ := past_amount l hc.incl (hc.no hv) hlt rfl
      have htu := (hbound _ k2).trans hy
      obtain ⟨n, hle, hn, hE⟩ := rate_of_amount l htu (by omega) k1 k2
      have hin := includedFeeAmount_total' (num := MAX_FEE_NUMERATOR) (ex := ex - ec) (by decide) (by omega) (by omega)
      refine ⟨n, _, ?_, _, by rw [safeSub_ok]; exact ⟨hle, rfl⟩, n, hn, (), hE.ge, rfl⟩
      rw [if_neg h4]
      simp only [Bool.false_eq_true, if_false, bind_ok, safeSub_ok, safeAdd_ok, Prod.exists]
      exact ⟨_, ⟨hlt, rfl⟩, _, _, hin, htu, rfl⟩

theorem charge_below {X A B t t0 s D P : Nat} (hP : 2 ≤ P) (hD : D = 100 * P) (hs : P ≤ s) (g1 : X ≤ t * s)
    (avg : t0 * s ≤ B) (hi : B < X + 3 * D + t0) (hAB : A ≤ B) (hle : t ≤ t0) : A ≤ X + 8 * D + 3 * t := by
  obtain ⟨d, rfl⟩ := Nat.exists_eq_add_of_le hle
  have h1 : d * P ≤ d * s := Nat.mul_le_mul_left _ hs
  rw [Nat.add_mul] at avg
  have h2 : d * 2 ≤ d * P := Nat.mul_le_mul_left _ hP
  have h3 : d ≤ 3 * D + t := by omega
  have h4 : A < X + 3 * D + (t + d) := by omega
  by_cases hd : d ≤ D + 2 * t
  · omega
  · omega

theorem charge_above {X A B t0 d s D P : Nat} (hP : 300 ≤ P) (hD : D = 100 * P) (hs : P ≤ s) (hsD : s ≤ D)
    (g2 : (t0 + d) * s < X + s) (near : X ≤ t0 * s + t0) (hi : B < X + 3 * D + t0) (hd0 : 0 < d)
    (h1 : t0 * A ≤ (t0 + d) * B) : A ≤ X + 8 * D + 3 * (t0 + d) := by
  have hstep : d * s < s + t0 := by
    rw [Nat.add_mul] at g2; omega
  have hz : 0 < t0 := by
    rcases Nat.eq_zero_or_pos t0 with hz | hz
    · exfalso
      subst hz
      have h5 : 1 * s ≤ d * s := Nat.mul_le_mul_right _ hd0
      omega
    · exact hz
  have hB : B ≤ t0 * s + 2 * t0 + 3 * D := by omega
  have hd1 : d * P ≤ P + t0 := by
    obtain ⟨k, rfl⟩ : ∃ k, d = k + 1 := ⟨d - 1, by omega⟩
    rw [Nat.add_mul, Nat.one_mul] at hstep ⊢
    have h6 : k * P ≤ k * s := Nat.mul_le_mul_left _ hs
    omega
  have h7 : d * B ≤ t0 * (4 * D + 300 + t0 + 2 * d) := by
    have a1 : d * B ≤ d * (t0 * s + 2 * t0 + 3 * D) := Nat.mul_le_mul_left _ hB
    have a2 : d * (t0 * s + 2 * t0 + 3 * D) = t0 * (d * s) + t0 * (2 * d) + 300 * (d * P) := by rw [hD]; ring
    have a3 : t0 * (d * s) ≤ t0 * (s + t0) := Nat.mul_le_mul_left _ hstep.le
    have a4 : 1 * P ≤ t0 * P := Nat.mul_le_mul_right _ hz
    have a5 : t0 * s ≤ t0 * D := Nat.mul_le_mul_left _ hsD
    have a6 : t0 * (4 * D + 300 + t0 + 2 * d) =
        t0 * D + 300 * (t0 * P) + t0 * 300 + t0 * t0 + t0 * (2 * d) := by rw [hD]; ring
    have a7 : t0 * (s + t0) = t0 * s + t0 * t0 := by ring
    omega
  have h8 : t0 * A ≤ t0 * (B + (4 * D + 300 + t0 + 2 * d)) := by
    rw [Nat.mul_add]
    rw [Nat.add_mul] at h1
    omega
  have := Nat.le_of_mul_le_mul_left h8 hz
  omega

/-- What a buy that must leave `ex` pays in all, at the rate found (capped at 99%): at least enough for the block fee, and
not much more. -/
theorem Excl.charge {b : BaseFeeConfig} {ex n t0 : Nat} (h : Excl b ex n t0) {t : Nat}
    (ht : t = divCeil (ex * FEE_DENOMINATOR) (FEE_DENOMINATOR - min n 990000000)) :
    ex * FEE_DENOMINATOR ≤ net b.third b.cliff (b.first * 100000) t ∧
    net b.third b.cliff (b.first * 100000) t ≤ ex * FEE_DENOMINATOR + 8 * FEE_DENOMINATOR + 3 * t := by
  have hD : FEE_DENOMINATOR = 1000000000 := rfl
  obtain ⟨-, -, lo, hi, avg, near⟩ := h
  have hd : 0 < FEE_DENOMINATOR - min n 990000000 := by omega
  have g1 := le_divCeil_mul (ex * FEE_DENOMINATOR) hd
  have g2 := divCeil_mul_lt (ex * FEE_DENOMINATOR) hd
  rw [← ht] at g1 g2
  clear ht
  have hgt := net_grow b.third b.cliff (b.first * 100000) 0 t
  have hg0 := net_grow b.third b.cliff (b.first * 100000) 0 t0
  rw [Nat.zero_add] at hgt hg0
  have e0 : net b.third b.cliff (b.first * 100000) 0 = 0 := rfl
  rw [e0, Nat.zero_add] at hgt hg0
  by_cases hn : 990000000 < n
  · have em : FEE_DENOMINATOR - min n 990000000 = 10000000 := by omega
    rw [em] at g1 g2
    have hle : t ≤ t0 := by
      have h9 : t0 * (FEE_DENOMINATOR - n) + t0 ≤ t0 * 10000000 := by
        have : t0 * (FEE_DENOMINATOR - n + 1) ≤ t0 * 10000000 := Nat.mul_le_mul_left _ (by omega)
        rwa [Nat.mul_add, Nat.mul_one] at this
      have h10 : t * 10000000 < (t0 + 1) * 10000000 := by rw [Nat.add_mul, Nat.one_mul]; omega
      have := Nat.lt_of_mul_lt_mul_right h10
      omega
    exact ⟨g1.trans hgt, charge_below (P := 10000000) (by decide) hD le_rfl g1 hg0 hi (net_mono _ _ _ hle) hle⟩
  · have em : min n 990000000 = n := by omega
    rw [em] at g1 g2 hd
    have hs : 10000000 ≤ FEE_DENOMINATOR - n := by omega
    have hsD : FEE_DENOMINATOR - n ≤ FEE_DENOMINATOR := Nat.sub_le _ _
    by_cases hle : t ≤ t0
    · refine ⟨?_, charge_below (P := 10000000) (by decide) hD hs g1 avg hi (net_mono _ _ _ hle) hle⟩
      rcases Nat.eq_zero_or_pos t0 with hz | hz
      · have : t = t0 := by omega
        rw [this]
        exact lo
      · have h1 := net_avg b.third b.cliff (b.first * 100000) hle
        have h2 := Nat.mul_le_mul_left t avg
        have h3 : t0 * (t * (FEE_DENOMINATOR - n)) ≤ t0 * net b.third b.cliff (b.first * 100000) t := by
          calc t0 * (t * (FEE_DENOMINATOR - n)) = t * (t0 * (FEE_DENOMINATOR - n)) := by ring
            _ ≤ _ := h2.trans h1
        exact g1.trans (Nat.le_of_mul_le_mul_left h3 hz)
    · obtain ⟨d, rfl⟩ := Nat.exists_eq_add_of_le (by omega : t0 ≤ t)
      exact ⟨lo.trans (net_mono _ _ _ (by omega)), charge_above (P := 10000000) (by decide) hD hs hsD g2 near hi
        (by omega) (net_avg _ _ _ (by omega))⟩

/-! ### Offering `x`, of which only part is used -/

theorem over_plain {X A B t x D P : Nat} (hP : 4 ≤ P) (hD : D = 100 * P) (h1 : X + D ≤ B) (h2 : A ≤ X + 8 * D + 3 * t)
    (h3 : ∀ d, t = x + d → B + d * P ≤ A) : (t - x) * P ≤ 7 * D + 3 * t := by
  by_cases h : x ≤ t
  · obtain ⟨d, rfl⟩ := Nat.exists_eq_add_of_le h
    have := h3 d rfl
    rw [Nat.add_sub_cancel_left]
    omega
  · rw [Nat.sub_eq_zero_of_le (by omega), Nat.zero_mul]; omega

/-- The volatility part `V ≥ 1` on top: integers only. `kx` and `k` are what is left of the base rates, `B` and `T` the exact
amounts kept of `x` and of `t0`. -/
theorem over_volatile {E x e t t0 kx k s s' V B T D P : Nat} (hP : 400 ≤ P) (hD : D = 100 * P) (hV : 1 ≤ V)
    (hE : E = e * D) (hkx : kx = s + V) (hs' : k ≤ s' + V) (hsP : P ≤ s') (hkD : k ≤ D)
    (off : E + D ≤ x * s) (hB : x * kx ≤ B) (hT0 : E ≤ T) (hT1 : T < E + 3 * D + t0) (near : E ≤ t0 * k + t0)
    (ht : t * s' < E + s') (het : e ≤ t0) (avg : t0 ≤ x → t0 * B ≤ x * T) (grow : ∀ d, t0 = x + d → B + d * P ≤ T) :
    (t - x) * P ≤ 302 * D + 2 * x := by
  by_cases hx : t ≤ x
  · rw [Nat.sub_eq_zero_of_le hx, Nat.zero_mul]; omega
  obtain ⟨m, rfl⟩ : ∃ m, t = x + (m + 1) := ⟨t - x - 1, by omega⟩
  rw [Nat.add_sub_cancel_left, Nat.add_mul, Nat.one_mul]
  have g1 : (x + m) * s' < E := by
    rw [show x + (m + 1) = (x + m) + 1 by omega, Nat.add_mul, Nat.one_mul] at ht
    omega
  rw [Nat.add_mul] at g1
  have g2 : m * P ≤ m * s' := Nat.mul_le_mul_left _ hsP
  -- so it is enough to bound `x * s` by `x * s'`
  have suff : ∀ K, x * s ≤ x * s' + K → m * P + D ≤ K := by intro K hK; omega
  by_cases h0 : t0 ≤ x
  · -- average argument
    have h100 : x ≤ 100 * t0 := by
      have a1 : x * P ≤ x * s' := Nat.mul_le_mul_left _ hsP
      have a2 : e * D ≤ t0 * D := Nat.mul_le_mul_right _ het
      have a3 : x * P ≤ 100 * t0 * P := by
        have : t0 * D = 100 * t0 * P := by rw [hD]; ring
        omega
      exact Nat.le_of_mul_le_mul_right a3 (by omega)
    have hz : 0 < t0 := by
      rcases Nat.eq_zero_or_pos t0 with hz | hz
      · have : x = 0 := by omega
        subst this
        omega
      · exact hz
    have hxz : 0 < x := by omega
    have a1 : t0 * (x * kx) ≤ x * T := (Nat.mul_le_mul_left _ hB).trans (avg h0)
    have a2 : x * (t0 * kx) ≤ x * T := by
      calc x * (t0 * kx) = t0 * (x * kx) := by ring
        _ ≤ _ := a1
    have a3 := Nat.le_of_mul_le_mul_left a2 hxz
    have a4 : t0 * kx ≤ t0 * k + 2 * t0 + 3 * D := by omega
    have a5 : t0 * s ≤ t0 * s' + 2 * t0 + 3 * D := by
      have b1 : t0 * kx = t0 * s + t0 * V := by rw [hkx]; ring
      have b2 : t0 * k ≤ t0 * (s' + V) := Nat.mul_le_mul_left _ hs'
      have b3 : t0 * (s' + V) = t0 * s' + t0 * V := by ring
      omega
    have a6 : t0 * (x * s) ≤ t0 * (x * s' + (2 * x + 300 * D)) := by
      have b1 := Nat.mul_le_mul_left x a5
      have b2 : x * (t0 * s) = t0 * (x * s) := by ring
      have b3 : x * (t0 * s' + 2 * t0 + 3 * D) = t0 * (x * s') + t0 * (2 * x) + 3 * (x * D) := by ring
      have b4 : x * D ≤ 100 * t0 * D := Nat.mul_le_mul_right _ h100
      have b5 : t0 * (x * s' + (2 * x + 300 * D)) = t0 * (x * s') + t0 * (2 * x) + 3 * (100 * t0 * D) := by ring
      omega
    have a7 := Nat.le_of_mul_le_mul_left a6 hz
    have := suff _ a7
    omega
  · -- `t0` is at most 200 units and a bit beyond `x`
    obtain ⟨d, rfl⟩ := Nat.exists_eq_add_of_le (by omega : x ≤ t0)
    have b1 := grow d rfl
    have b2 : x * kx = x * s + x * V := by rw [hkx]; ring
    have b3 : x * 1 ≤ x * V := Nat.mul_le_mul_left _ hV
    have b4 : d * P ≤ 2 * D + d := by omega
    have b5 : d * k ≤ 200 * D + 100 * d := by
      have : d * k ≤ d * D := Nat.mul_le_mul_left _ hkD
      have : d * D = 100 * (d * P) := by rw [hD]; ring
      omega
    have b6 : d ≤ D := by
      have : d * 400 ≤ d * P := Nat.mul_le_mul_left _ hP
      omega
    have b6' : d * P ≤ 300 * P := by omega
    have b6'' : d ≤ 300 := Nat.le_of_mul_le_mul_right b6' (by omega)
    have b7 : x * s ≤ x * s' + (x * 2 + 302 * D) := by
      have c1 : x * k ≤ x * (s' + V) := Nat.mul_le_mul_left _ hs'
      have c2 : x * (s' + V) = x * s' + x * V := by ring
      have c3 : (x + d) * k = x * k + d * k := by ring
      omega
    have := suff _ b7
    omega

/-- The total rate: base plus volatility part, at most 99%. -/
theorem totalFee_min {d : DynamicFeeConfig} {v : VolTracker} {n num : Nat} (h : totalFee d v n = .ok num) :
    ∃ V, variableFee d v = .ok V ∧ num = min (V + n) MAX_FEE_NUMERATOR := by
  simp only [totalFee, bind_ok, safeAdd_ok, ok_inj] at h
  obtain ⟨V, hV, _, ⟨_, rfl⟩, rfl⟩ := h
  refine ⟨V, hV, ?_⟩
  by_cases h : MAX_FEE_NUMERATOR < V + n
  · rw [if_pos h]; omega
  · rw [if_neg h]; omega

/-- A buy of `x` inside the window, of which only part is used: what is charged for that part. -/
theorem limiter_over {b : BaseFeeConfig} (l : Limiter b) (h3 : b.third ≤ u64Max) {x n V num kept fee e n' num' t : Nat}
    (hx : x ≤ u64Max) (hn : limiterFromIncluded b x = .ok n) (hnum : num = min (V + n) MAX_FEE_NUMERATOR)
    (hfee : fee = divCeil (x * num) FEE_DENOMINATOR) (hkept : kept + fee = x) (he : e < kept)
    (hn' : limiterFromExcluded b e = .ok n') (hnum' : num' = min (V + n') MAX_FEE_NUMERATOR)
    (ht : t = divCeil (e * FEE_DENOMINATOR) (FEE_DENOMINATOR - num')) :
    t ≤ x + x / 1000000 + 30300 ∧ (V = 0 → t ≤ x + x / 1000000 + 800) := by
  have hD : FEE_DENOMINATOR = 100 * 10000000 := rfl
  have hD' : 0 < FEE_DENOMINATOR := by decide
  have hM : MAX_FEE_NUMERATOR = 990000000 := rfl
  have hd : 0 < FEE_DENOMINATOR - num' := by omega
  have g1 := le_divCeil_mul (e * FEE_DENOMINATOR) hd
  have g2 := divCeil_mul_lt (e * FEE_DENOMINATOR) hd
  rw [← ht] at g1 g2
  have hnumD : num ≤ FEE_DENOMINATOR := by omega
  -- what the offer pays for
  have off : e * FEE_DENOMINATOR + FEE_DENOMINATOR ≤ x * (FEE_DENOMINATOR - num) := by
    have a1 := le_divCeil_mul (x * num) hD'
    rw [← hfee] at a1
    have a2 : x * (FEE_DENOMINATOR - num) + x * num = x * FEE_DENOMINATOR := by
      rw [← Nat.mul_add, Nat.sub_add_cancel hnumD]
    have a3 : x * FEE_DENOMINATOR = kept * FEE_DENOMINATOR + fee * FEE_DENOMINATOR := by rw [← Nat.add_mul, hkept]
    have a4 : (e + 1) * FEE_DENOMINATOR ≤ kept * FEE_DENOMINATOR := Nat.mul_le_mul_right _ he
    rw [Nat.add_mul, Nat.one_mul] at a4
    omega
  obtain ⟨n2, ex2, hI⟩ := incl_total l hx
  have : n2 = n := by have := hI.rate; rw [hn, ok_inj] at this; exact this.symm
  subst this
  obtain ⟨-, -, hB⟩ := hI.net
  obtain ⟨t0, hE⟩ := limiterFromExcluded_facts l h3 hn'
  by_cases hmax : num' ≤ num
  · -- not even a higher rate
    have : t ≤ x := by
      rw [ht]
      refine divCeil_of_le hd ?_
      have : x * (FEE_DENOMINATOR - num) ≤ x * (FEE_DENOMINATOR - num') := Nat.mul_le_mul_left _ (by omega)
      omega
    exact ⟨by omega, fun _ => by omega⟩
  have hlt2 : num = V + n2 := by omega
  have hV0 : V = 0 → t ≤ x + x / 1000000 + 800 := by
    intro hV
    subst hV
    rw [Nat.zero_add] at hlt2 hnum'
    subst hlt2
    obtain ⟨k1, k2⟩ := hE.charge (t := t) (by rw [ht, hnum', hM])
    have hg : ∀ d, t = x + d → net b.third b.cliff (b.first * 100000) x + d * 10000000 ≤
        net b.third b.cliff (b.first * 100000) t := by rintro d rfl; exact net_grow _ _ _ _ _
    have := over_plain (P := 10000000) (by decide) hD (off.trans hB) k2 hg
    omega
  refine ⟨?_, hV0⟩
  rcases Nat.eq_zero_or_pos V with hV | hV
  · have := hV0 hV
    omega
  · have hle := hE.le
    have het : e ≤ t0 := by
      have a1 := hE.lo
      have a2 := net_le_first b.third b.cliff (b.first * 100000) t0 l.hi
      have a3 : t0 * (FEE_DENOMINATOR - b.cliff) ≤ t0 * FEE_DENOMINATOR := Nat.mul_le_mul_left _ (Nat.sub_le _ _)
      exact Nat.le_of_mul_le_mul_right (a1.trans (a2.trans a3)) hD'
    have := over_volatile (E := e * FEE_DENOMINATOR) (x := x) (e := e) (t := t) (t0 := t0) (kx := FEE_DENOMINATOR - n2)
      (k := FEE_DENOMINATOR - n') (s := FEE_DENOMINATOR - num) (s' := FEE_DENOMINATOR - num') (V := V)
      (B := net b.third b.cliff (b.first * 100000) x) (T := net b.third b.cliff (b.first * 100000) t0)
      (D := FEE_DENOMINATOR) (P := 10000000) (by decide) hD hV rfl (by omega) (by omega) (by omega) (by omega) off hB
      hE.lo hE.hi hE.near g2 het (fun h => net_avg _ _ _ h) (by rintro d rfl; exact net_grow _ _ _ _ _)
    omega

/-- What an offer of `x` must leave for the curve is at most what the blocks leave. -/
theorem limiter_kept {b : BaseFeeConfig} {x n V num kept fee : Nat} {e : Nat} (hI : Incl b x n e)
    (hnum : num = min (V + n) MAX_FEE_NUMERATOR) (hfee : fee = divCeil (x * num) FEE_DENOMINATOR) (hkept : kept + fee = x) :
    kept * FEE_DENOMINATOR ≤ net b.third b.cliff (b.first * 100000) x := by
  have hM : MAX_FEE_NUMERATOR = 990000000 := rfl
  have hD : FEE_DENOMINATOR = 1000000000 := rfl
  have a1 := le_divCeil_mul (x * num) (by decide : 0 < FEE_DENOMINATOR)
  rw [← hfee] at a1
  have a2 : x * (FEE_DENOMINATOR - num) + x * num = x * FEE_DENOMINATOR := by
    rw [← Nat.mul_add, Nat.sub_add_cancel (by omega)]
  have a3 : x * FEE_DENOMINATOR = kept * FEE_DENOMINATOR + fee * FEE_DENOMINATOR := by rw [← Nat.add_mul, hkept]
  have a4 : x * (FEE_DENOMINATOR - num) ≤ net b.third b.cliff (b.first * 100000) x := by
    by_cases h : V + n ≤ 990000000
    · exact (Nat.mul_le_mul_left _ (by omega)).trans hI.net.2.2
    · have h1 := net_grow b.third b.cliff (b.first * 100000) 0 x
      have e0 : net b.third b.cliff (b.first * 100000) 0 = 0 := rfl
      rw [Nat.zero_add, e0, Nat.zero_add] at h1
      rw [show FEE_DENOMINATOR - num = 10000000 by omega]
      exact h1
  omega

theorem slack (x : Nat) : 3000000000 + (x + (x / 1000000 + 30300)) ≤ (x / 1000000 + 30300) * 10000000 := by
  have h := Nat.div_add_mod x 1000000
  have h2 := Nat.mod_lt x (by decide : 0 < 1000000)
  rw [Nat.add_mul]
  omega

/-- A buy of `x` inside the window can always be priced, whatever part of it is used, if a little more than `x` still fits in
64 bits. -/
theorem limiter_part_total {b : BaseFeeConfig} (l : Limiter b) (h3 : b.third ≤ u64Max) {x n V num kept fee e : Nat}
    (hx : x + x / 1000000 + 30300 ≤ u64Max) (hn : limiterFromIncluded b x = .ok n)
    (hnum : num = min (V + n) MAX_FEE_NUMERATOR) (hfee : fee = divCeil (x * num) FEE_DENOMINATOR) (hkept : kept + fee = x)
    (he : e < kept) :
    ∃ n', limiterFromExcluded b e = .ok n' ∧ ∃ t g,
      includedFeeAmount (min (V + n') MAX_FEE_NUMERATOR) e = .ok (t, g) ∧ t ≤ x + x / 1000000 + 30300 := by
  have hM : MAX_FEE_NUMERATOR = 990000000 := rfl
  have hD : FEE_DENOMINATOR = 1000000000 := rfl
  obtain ⟨n2, e2, hI⟩ := incl_total l (by omega : x ≤ u64Max)
  have : n2 = n := by have := hI.rate; rw [hn, ok_inj] at this; exact this.symm
  subst this
  have hk := limiter_kept hI hnum hfee hkept
  have hyu : x + (x / 1000000 + 30300) ≤ u64Max := by rw [← Nat.add_assoc]; exact hx
  have hsl := slack x
  have hxu : x ≤ u64Max := le_trans (Nat.le_add_right _ _) hyu
  have heu : e ≤ u64Max := by clear hsl hyu hx; omega
  obtain ⟨n', hn'⟩ := limiterFromExcluded_total l h3 (ex := e) (y := x + (x / 1000000 + 30300)) heu hyu (by
    have h1 := net_grow b.third b.cliff (b.first * 100000) x (x / 1000000 + 30300)
    obtain ⟨T, hT⟩ : ∃ T, T = (x / 1000000 + 30300) * 10000000 := ⟨_, rfl⟩
    obtain ⟨S, hS⟩ : ∃ S, S = x + (x / 1000000 + 30300) := ⟨_, rfl⟩
    rw [← hT] at h1 hsl
    rw [← hS] at h1 hsl ⊢
    clear hT hS
    have h2 : (e + 1) * FEE_DENOMINATOR ≤ kept * FEE_DENOMINATOR := Nat.mul_le_mul_right _ he
    rw [Nat.add_mul, Nat.one_mul] at h2
    omega)
  have hle := (limiter_over l h3 hxu hn hnum hfee hkept he hn' rfl rfl).1
  exact ⟨n', hn', _, _, includedFeeAmount_total' (by omega) heu (hle.trans hx), hle⟩

end Dbc

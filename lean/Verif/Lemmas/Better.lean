import Verif.Lemmas.Average

/-!
# The same amount exchanged at two prices

The curve gives more for the same amount where the price is better.
-/

namespace Dbc
open Spec

variable {B Q : Nat → ℚ}

theorem buy_better {lo : Nat} {ps : List Point} (hch : ChainUp B Q lo ps) (hp : Proper lo ps) {x1 y1 x2 y2 : Nat}
    (h0 : lo ≤ x1) (h1 : x1 ≤ y1) (h2 : x2 ≤ y2) (hx : x1 ≤ x2) (t1 : y1 ≤ topPrice lo ps) (t2 : y2 ≤ topPrice lo ps) {d : ℚ}
    (hd : 0 ≤ d) (hq : Q y2 - Q x2 ≤ Q y1 - Q x1 + d) :
    (B y2 - B x2 - (B y1 - B x1)) * (x2 : ℚ) ^ 2 ≤ d * 2 ^ 128 := by
  have hM : (0 : ℚ) < 2 ^ 128 := by positivity
  have hx2 : (0 : ℚ) ≤ (x2 : ℚ) ^ 2 := by positivity
  by_cases hy : y2 ≤ y1
  · have m1 := (chainUp_mono hch hp h0 hx (by omega)).1
    have m2 := (chainUp_mono hch hp (x := y2) (y := y1) (by omega) hy t1).1
    refine (mul_nonpos_of_nonpos_of_nonneg (by linarith) hx2).trans (by positivity)
  · by_cases hm : x2 ≤ y1
    · have v2 := (chainUp_value hch hp (x := y1) (y := y2) (by omega) (by omega) t2).1
      have v1 := (chainUp_value hch hp h0 hx (by omega)).2
      have m2 := (chainUp_mono hch hp (x := y1) (y := y2) (by omega) (by omega) t2).1
      have e : (x2 : ℚ) ^ 2 ≤ (y1 : ℚ) ^ 2 := pow_le_pow_left₀ (by positivity) (by exact_mod_cast hm) 2
      have k1 := mul_le_mul_of_nonneg_left e (sub_nonneg.2 m2)
      have k2 := mul_le_mul_of_nonneg_right (show Q y2 - Q y1 ≤ Q x2 - Q x1 + d by linarith) hM.le
      linarith
    · have v2 := (chainUp_value hch hp (x := x2) (y := y2) (by omega) h2 t2).1
      have v1 := (chainUp_value hch hp h0 h1 t1).2
      have m1 := (chainUp_mono hch hp h0 h1 t1).1
      have e : (y1 : ℚ) ^ 2 ≤ (x2 : ℚ) ^ 2 := pow_le_pow_left₀ (by positivity) (by exact_mod_cast (by omega : y1 ≤ x2)) 2
      have k1 := mul_le_mul_of_nonneg_left e (sub_nonneg.2 m1)
      have k2 := mul_le_mul_of_nonneg_right hq hM.le
      linarith

theorem sell_better {lo : Nat} {ps : List Point} (hch : ChainUp B Q lo ps) (hp : Proper lo ps) {x1 y1 x2 y2 : Nat}
    (h01 : lo ≤ y1) (h02 : lo ≤ y2) (h1 : y1 ≤ x1) (h2 : y2 ≤ x2) (hx : x2 ≤ x1) (t1 : x1 ≤ topPrice lo ps) {n f d : ℚ}
    (hn : 0 ≤ n) (hd : 0 ≤ d) (hf : f * (y1 : ℚ) ^ 2 ≤ d * 2 ^ 128) (hb : B x2 - B y2 ≤ B x1 - B y1 + n + f) :
    (Q x2 - Q y2 - (Q x1 - Q y1) - d) * 2 ^ 128 ≤ n * (x2 : ℚ) ^ 2 := by
  have hM : (0 : ℚ) < 2 ^ 128 := by positivity
  by_cases hy : y1 ≤ y2
  · have m1 := (chainUp_mono hch hp (x := x2) (y := x1) (by omega) hx t1).2
    have m2 := (chainUp_mono hch hp (x := y1) (y := y2) h01 hy (by omega)).2
    exact (mul_nonpos_of_nonpos_of_nonneg (by linarith) hM.le).trans (by positivity)
  · by_cases hm : y1 ≤ x2
    · have v2 := (chainUp_value hch hp (x := y2) (y := y1) h02 (by omega) (by omega)).2
      have v1 := (chainUp_value hch hp (x := x2) (y := x1) (by omega) hx t1).1
      have m1 := (chainUp_mono hch hp (x := x2) (y := x1) (by omega) hx t1).1
      have e : (y1 : ℚ) ^ 2 ≤ (x2 : ℚ) ^ 2 := pow_le_pow_left₀ (by positivity) (by exact_mod_cast hm) 2
      have k1 := mul_le_mul_of_nonneg_left e (sub_nonneg.2 m1)
      have k2 := mul_le_mul_of_nonneg_left e hn
      have k3 := mul_le_mul_of_nonneg_right (show B y1 - B y2 ≤ B x1 - B x2 + n + f by linarith)
        (show (0 : ℚ) ≤ (y1 : ℚ) ^ 2 by positivity)
      linarith
    · have v2 := (chainUp_value hch hp (x := y2) (y := x2) h02 h2 (by omega)).2
      have v1 := (chainUp_value hch hp (x := y1) (y := x1) h01 h1 t1).1
      have m1 := (chainUp_mono hch hp (x := y1) (y := x1) h01 h1 t1).1
      have e : (x2 : ℚ) ^ 2 ≤ (y1 : ℚ) ^ 2 := pow_le_pow_left₀ (by positivity) (by exact_mod_cast (by omega : x2 ≤ y1)) 2
      have k1 := mul_le_mul_of_nonneg_left e (sub_nonneg.2 m1)
      have k3 := mul_le_mul_of_nonneg_right hb (show (0 : ℚ) ≤ (x2 : ℚ) ^ 2 by positivity)
      have k4 : f * (x2 : ℚ) ^ 2 ≤ d * 2 ^ 128 := by
        by_cases h : 0 ≤ f
        · exact (mul_le_mul_of_nonneg_left e h).trans hf
        · exact (mul_nonpos_of_nonpos_of_nonneg (by linarith) (by positivity)).trans (by positivity)
      linarith

end Dbc

import Verif.Lemmas.FeeMath
import Verif.Spec.Fee
/-! ### Rate limiter -/
namespace Dbc
open Spec (blockFee blockRate)

theorem toNumerator_ok {bps i : Nat} : toNumerator bps = .ok i ↔ bps * 100000 ≤ u64Max ∧ i = bps * 100000 := by
  simp only [toNumerator, bind_ok, safeMul_ok, safeDiv_ok, castTo_ok, FEE_DENOMINATOR, MAX_BASIS_POINT]
  have e : bps * 1000000000 / 10000 = bps * 100000 := by omega
  constructor
  · rintro ⟨_, ⟨_, rfl⟩, _, ⟨_, rfl⟩, h, rfl⟩
    rw [e] at h ⊢; exact ⟨h, rfl⟩
  · rintro ⟨h, rfl⟩
    refine ⟨_, ⟨?_, rfl⟩, _, ⟨by decide, rfl⟩, ?_, ?_⟩
    · have h1 : u64Max * 10000 ≤ u128Max := by decide
      have h2 : bps * 100000 * 10000 ≤ u64Max * 10000 := Nat.mul_le_mul_right _ h
      rw [Nat.mul_assoc] at h2
      exact h2.trans h1
    · rw [e]; exact h
    · rw [e]

theorem blockFee_add (x0 c i x n : Nat) (k : Nat) (h : ∀ j, x ≤ j → j < x + n → j / x0 = k) :
    blockFee x0 c i (x + n) = blockFee x0 c i x + n * blockRate c i k := by
  induction n with
  | zero => simp
  | succ n ih =>
    rw [← Nat.add_assoc, blockFee, ih (fun j h1 h2 => h j h1 (by omega)), h (x + n) (by omega) (by omega)]
    ring

theorem blockFee_block (x0 c i k n : Nat) (hn : n ≤ x0) (h0 : 0 < x0) :
    blockFee x0 c i (x0 * k + n) = blockFee x0 c i (x0 * k) + n * blockRate c i k := by
  apply blockFee_add
  intro j h1 h2
  rw [Nat.div_eq_iff h0]
  have : x0 * k = k * x0 := Nat.mul_comm _ _
  omega

theorem blockFee_tail (x0 c i k n : Nat) (h0 : 0 < x0) (hk : ∀ j, k ≤ j → blockRate c i j = Spec.maxRate) :
    blockFee x0 c i (x0 * k + n) = blockFee x0 c i (x0 * k) + n * Spec.maxRate := by
  induction n with
  | zero => simp
  | succ n ih =>
    rw [← Nat.add_assoc, blockFee, ih, hk]
    · ring
    · rw [Nat.le_div_iff_mul_le h0, Nat.mul_comm]; omega

theorem blockFee_head (x0 c i a : Nat) (h0 : 0 < x0) (h : ∀ k, k ≤ a → blockRate c i k = c + k * i) :
    blockFee x0 c i (x0 * (a + 1)) = x0 * (c + c * a + i * a * (a + 1) / 2) := by
  induction a with
  | zero =>
    have := blockFee_block x0 c i 0 x0 le_rfl h0
    simp only [Nat.mul_zero, Nat.zero_add, blockFee] at this
    simp only [Nat.zero_add, Nat.mul_one, Nat.mul_zero, Nat.zero_mul, Nat.zero_div, Nat.add_zero]
    rw [this, h 0 le_rfl]; simp
  | succ a ih =>
    have := blockFee_block x0 c i (a + 1) x0 le_rfl h0
    rw [Nat.mul_succ x0 (a + 1), this, ih (fun k hk => h k (by omega)), h (a + 1) le_rfl]
    have e : i * (a + 1) * (a + 1 + 1) / 2 = i * a * (a + 1) / 2 + i * (a + 1) := by
      rw [show i * (a + 1) * (a + 1 + 1) = i * a * (a + 1) + i * (a + 1) * 2 by ring,
        Nat.add_mul_div_right _ _ (by decide)]
    rw [e]; ring

theorem limiterRawFee_eq {x0 c i input : Nat} (h0 : 0 < x0) (hi : 0 < i) (hc : c ≤ MAX_FEE_NUMERATOR) (hin : x0 ≤ input) :
    limiterRawFee x0 c i ((MAX_FEE_NUMERATOR - c) / i) input = blockFee x0 c i input := by
  unfold limiterRawFee
  have hdm := Nat.div_add_mod (input - x0) x0
  have hb := Nat.mod_lt (input - x0) h0
  dsimp only
  generalize (input - x0) / x0 = a at *
  generalize (input - x0) % x0 = b at *
  have hc' : c ≤ 990000000 := hc
  have hrate : ∀ k, k ≤ (MAX_FEE_NUMERATOR - c) / i → blockRate c i k = c + k * i := by
    intro k hk
    rw [Nat.le_div_iff_mul_le hi] at hk
    have : k * i ≤ 990000000 - c := hk
    unfold blockRate Spec.maxRate
    omega
  have hrate' : ∀ k, (MAX_FEE_NUMERATOR - c) / i < k → blockRate c i k = Spec.maxRate := by
    intro k hk
    rw [Nat.div_lt_iff_lt_mul hi] at hk
    have : 990000000 - c < k * i := hk
    unfold blockRate Spec.maxRate
    omega
  generalize (MAX_FEE_NUMERATOR - c) / i = m at *
  by_cases ham : a < m
  · rw [if_pos ham]
    have hin' : input = x0 * (a + 1) + b := by rw [Nat.mul_add]; omega
    rw [hin', blockFee_block _ _ _ _ _ hb.le h0, blockFee_head _ _ _ _ h0 (fun k hk => hrate k (by omega)),
      hrate (a + 1) (by omega)]
    ring
  · rw [if_neg ham]
    have e : x0 * (m + 1) + ((a - m) * x0 + b) = input := by
      obtain ⟨d, rfl⟩ : ∃ d, a = m + d := ⟨a - m, by omega⟩
      rw [Nat.add_sub_cancel_left]
      rw [Nat.mul_add] at hdm ⊢
      rw [Nat.mul_comm d x0]
      omega
    rw [← e, blockFee_tail _ _ _ _ _ h0 (fun j hj => hrate' j (by omega)),
      blockFee_head _ _ _ _ h0 (fun k hk => hrate k hk)]
    rfl

theorem blockFee_mono (x0 c i : Nat) {x y : Nat} (h : x ≤ y) : blockFee x0 c i x ≤ blockFee x0 c i y := by
  induction h with
  | refl => exact le_rfl
  | step _ ih => rw [blockFee]; omega

theorem blockFee_ge (x0 c i x : Nat) (hc : c ≤ Spec.maxRate) : x * c ≤ blockFee x0 c i x := by
  induction x with
  | zero => simp
  | succ x ih =>
    rw [blockFee, Nat.succ_mul]
    have : c ≤ blockRate c i (x / x0) := by unfold blockRate; omega
    omega

theorem blockFee_le (x0 c i x : Nat) : blockFee x0 c i x ≤ x * Spec.maxRate := by
  induction x with
  | zero => simp [blockFee]
  | succ x ih =>
    rw [blockFee, Nat.succ_mul]
    have : blockRate c i (x / x0) ≤ Spec.maxRate := by unfold blockRate; omega
    omega

/-- A non-trivial rate limiter accepted by validation. -/
structure Limiter (b : BaseFeeConfig) : Prop where
  x0 : 0 < b.third
  bps : 0 < b.first
  bpsMax : b.first < 10000
  dur : 0 < b.second
  lo : MIN_FEE_NUMERATOR ≤ b.cliff
  hi : b.cliff ≤ MAX_FEE_NUMERATOR

/-- The un-normalised fee stays far below `2^256`, so the `U256` arithmetic never wraps. -/
theorem limiterRawFee_lt {x0 c i input : Nat} (h0 : 0 < x0) (hi : 0 < i) (hc : c ≤ MAX_FEE_NUMERATOR) (hin : x0 ≤ input)
    (hu : input ≤ u64Max) : limiterRawFee x0 c i ((MAX_FEE_NUMERATOR - c) / i) input < 2 ^ 128 := by
  rw [limiterRawFee_eq h0 hi hc hin]
  have := blockFee_le x0 c i input
  have h2 : input * Spec.maxRate ≤ u64Max * Spec.maxRate := Nat.mul_le_mul_right _ hu
  have h3 : u64Max * Spec.maxRate < 2 ^ 128 := by decide
  omega

theorem limiter_rate_fits {raw D input : Nat} (hD : 0 < D) (hD2 : D ≤ FEE_DENOMINATOR) (hin : 0 < input) (hu : input ≤ u64Max)
    (hle : raw ≤ input * D) : divCeil raw D ≤ u64Max ∧ divCeil raw D * D + input ≤ u128Max ∧
      divCeil (divCeil raw D * D) input ≤ u64Max := by
  have hfee : divCeil raw D ≤ input := (divCeil_le_iff hD).2 hle
  have hp : divCeil raw D * D ≤ input * D := Nat.mul_le_mul_right _ hfee
  have hp2 : input * D ≤ u64Max * FEE_DENOMINATOR := Nat.mul_le_mul hu hD2
  have hp3 : u64Max * FEE_DENOMINATOR + u64Max ≤ u128Max := by decide
  have hD3 : FEE_DENOMINATOR ≤ u64Max := by decide
  refine ⟨hfee.trans hu, (Nat.add_le_add (hp.trans hp2) hu).trans hp3, ?_⟩
  refine le_trans ((divCeil_le_iff (c := D) hin).2 ?_) (hD2.trans hD3)
  rw [Nat.mul_comm D]; exact hp

theorem limiterFromIncluded_eq {b : BaseFeeConfig} (l : Limiter b) {input : Nat} (hin : b.third < input) (hu : input ≤ u64Max) :
    limiterFromIncluded b input =
      .ok (divCeil (divCeil (blockFee b.third b.cliff (b.first * 100000) input) FEE_DENOMINATOR * FEE_DENOMINATOR) input) := by
  have hbps := l.bps
  have h1 : toNumerator b.first = .ok (b.first * 100000) := by
    rw [toNumerator_ok]; refine ⟨?_, rfl⟩
    have h2 : b.first * 100000 ≤ 10000 * 100000 := Nat.mul_le_mul_right _ l.bpsMax.le
    exact h2.trans (by decide)
  have hpos : 0 < b.first * 100000 := Nat.mul_pos hbps (by decide)
  have hm : limiterMaxIndex b = .ok ((MAX_FEE_NUMERATOR - b.cliff) / (b.first * 100000)) := by
    simp only [limiterMaxIndex, bind_ok, safeSub_ok, safeDiv_ok]
    exact ⟨_, ⟨l.hi, rfl⟩, _, h1, hpos.ne', rfl⟩
  have hraw := limiterRawFee_eq l.x0 hpos l.hi hin.le
  have hle : blockFee b.third b.cliff (b.first * 100000) input ≤ input * FEE_DENOMINATOR :=
    (blockFee_le b.third b.cliff (b.first * 100000) input).trans (Nat.mul_le_mul_left _ (by decide))
  have hD : 0 < FEE_DENOMINATOR := by decide
  have hin0 : 0 < input := Nat.zero_lt_of_lt hin
  obtain ⟨f1, f2, f3⟩ := limiter_rate_fits hD le_rfl hin0 hu hle
  unfold limiterFromIncluded
  rw [if_neg (Nat.not_le.2 hin)]
  simp only [bind_ok, req_ok, castTo_ok]
  refine ⟨(), l.x0.ne', _, hm, _, h1, _, ⟨?_, rfl⟩, ?_⟩
  · rw [hraw, up_eq_divCeil _ _ hD.ne']; exact f1
  · rw [hraw, up_eq_divCeil _ _ hD.ne', mulDivU64_up f2]
    exact ⟨hin0.ne', rfl, f3⟩

theorem limiterFromIncluded_ge {b : BaseFeeConfig} (l : Limiter b) {input num : Nat} (hu : input ≤ u64Max)
    (h : limiterFromIncluded b input = .ok num) : b.cliff ≤ num := by
  by_cases hin : b.third < input
  · rw [limiterFromIncluded_eq l hin hu, ok_inj] at h
    subst h
    have hge := blockFee_ge b.third b.cliff (b.first * 100000) input l.hi
    by_contra hc
    have := (divCeil_le_iff (c := b.cliff - 1) (by omega)).1 (by omega : divCeil (divCeil
      (blockFee b.third b.cliff (b.first * 100000) input) FEE_DENOMINATOR * FEE_DENOMINATOR) input ≤ b.cliff - 1)
    have h2 := le_divCeil_mul (blockFee b.third b.cliff (b.first * 100000) input) (b := FEE_DENOMINATOR) (by decide)
    have h3 : (b.cliff - 1) * input + input = input * b.cliff := by
      obtain ⟨k, hk⟩ : ∃ k, b.cliff = k + 1 := ⟨b.cliff - 1, by have h1 := l.lo; unfold MIN_FEE_NUMERATOR at h1; omega⟩
      rw [hk, Nat.add_sub_cancel]; ring
    omega
  · unfold limiterFromIncluded at h
    rw [if_pos (by omega), ok_inj] at h
    omega

theorem limiterFromExcluded_ge {b : BaseFeeConfig} (l : Limiter b) {ex num : Nat}
    (h : limiterFromExcluded b ex = .ok num) : b.cliff ≤ num := by
  simp only [limiterFromExcluded, bind_ok, ite_ok, ok_inj, Prod.exists, req_ok] at h
  obtain ⟨exRef, _, ⟨_, rfl⟩ | ⟨_, chkEx, chkIn, ovf, hchk, ⟨_, h⟩ | ⟨_, inc, _, fee, _, n, hn, _, hreq, rfl⟩⟩⟩ := h
  · exact le_rfl
  · refine limiterFromIncluded_ge l ?_ h
    simp only [limiterChecked, bind_ok, ite_ok, ok_inj, Prod.mk.injEq] at hchk
    obtain ⟨m, _, ⟨hle, _, _, _, rfl, _⟩ | ⟨_, _, _, _, rfl, _⟩⟩ := hchk
    · exact hle
    · exact le_rfl
  · exact hreq

theorem limiter_ok {b : BaseFeeConfig} {cm : Nat} {act : ActivationType} {u : Unit} (h : limiterValidate b cm act = .ok u) :
    (limiterZero b ∧ MIN_FEE_NUMERATOR ≤ b.cliff ∧ b.cliff ≤ MAX_FEE_NUMERATOR) ∨ Limiter b := by
  unfold limiterValidate at h
  cases hc : CollectFeeMode.tryFrom cm with
  | none => rw [hc] at h; cases h
  | some m =>
    rw [hc] at h
    simp only [bind_ok, req_ok, ite_ok] at h
    obtain ⟨_, _, _, ⟨h1, h2⟩, ⟨hz, _⟩ | ⟨hz, _, hnz, _, hdur, i, hi, _, hlt, _⟩⟩ := h
    · exact Or.inl ⟨hz, h1, h2⟩
    · right
      rw [toNumerator_ok] at hi
      obtain ⟨_, rfl⟩ := hi
      obtain ⟨n1, n2, n3⟩ := hnz
      exact ⟨by omega, by omega, by unfold FEE_DENOMINATOR at hlt; omega, by omega, h1, h2⟩

/-! ### Token fees of the limiter -/

/-- The tokens charged on an input at a numerator. -/
theorem limiter_charge_bounds {raw x : Nat} (hx : 0 < x) :
    divCeil raw FEE_DENOMINATOR ≤ divCeil (x * divCeil (divCeil raw FEE_DENOMINATOR * FEE_DENOMINATOR) x) FEE_DENOMINATOR ∧
    divCeil (x * divCeil (divCeil raw FEE_DENOMINATOR * FEE_DENOMINATOR) x) FEE_DENOMINATOR ≤
      divCeil raw FEE_DENOMINATOR + divCeil x FEE_DENOMINATOR := by
  generalize divCeil raw FEE_DENOMINATOR = F
  have hD : 0 < FEE_DENOMINATOR := by decide
  have h1 := le_divCeil_mul (F * FEE_DENOMINATOR) hx
  have h2 := divCeil_mul_lt (F * FEE_DENOMINATOR) hx
  rw [Nat.mul_comm _ x] at h1 h2
  generalize x * divCeil (F * FEE_DENOMINATOR) x = t at *
  constructor
  · by_contra hc
    have := (divCeil_le_iff (c := F - 1) hD).1 (by omega : divCeil t FEE_DENOMINATOR ≤ F - 1)
    have h3 : (F - 1) * FEE_DENOMINATOR + FEE_DENOMINATOR = F * FEE_DENOMINATOR := by
      obtain ⟨k, rfl⟩ : ∃ k, F = k + 1 := ⟨F - 1, by omega⟩
      rw [Nat.add_sub_cancel]; ring
    omega
  · rw [divCeil_le_iff hD, Nat.add_mul]
    have := le_divCeil_mul x hD
    omega

end Dbc

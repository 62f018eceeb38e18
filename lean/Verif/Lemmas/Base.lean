import Verif.Model.Pool
import Mathlib.Tactic.Linarith
import Mathlib.Tactic.Ring
import Mathlib.Tactic.Positivity

/-!
# Inversion lemmas for checked arithmetic
-/

namespace Dbc

theorem bind_ok {α β : Type} {x : Res α} {f : α → Res β} {b : β} :
    (x >>= f) = Except.ok b ↔ ∃ a, x = .ok a ∧ f a = .ok b := by
  cases x with
  | error e => simp [bind, Except.bind]
  | ok a => simp [bind, Except.bind]

theorem bind_err {α β : Type} {x : Res α} {f : α → Res β} {e : Err} :
    (x >>= f) = Except.error e ↔ x = .error e ∨ ∃ a, x = .ok a ∧ f a = .error e := by
  cases x with
  | error e => simp [bind, Except.bind]
  | ok a => simp [bind, Except.bind]

theorem ok_bind {α β : Type} (a : α) (f : α → Res β) : ((Except.ok a : Res α) >>= f) = f a := rfl
theorem err_bind {α β : Type} (e : Err) (f : α → Res β) : ((Except.error e : Res α) >>= f) = .error e := rfl

theorem req_ok {c : Prop} [Decidable c] {e : Err} {u : Unit} : req c e = .ok u ↔ c := by
  unfold req; split <;> simp_all

theorem req_err {c : Prop} [Decidable c] {e e' : Err} : req c e = .error e' ↔ ¬ c ∧ e = e' := by
  unfold req; split <;> simp_all

theorem safeAdd_ok {mx a b c : Nat} : safeAdd mx a b = .ok c ↔ a + b ≤ mx ∧ c = a + b := by
  unfold safeAdd; split <;> simp_all [eq_comm]

theorem safeSub_ok {a b c : Nat} : safeSub a b = .ok c ↔ b ≤ a ∧ c = a - b := by
  unfold safeSub; split <;> simp_all [eq_comm]

theorem safeMul_ok {mx a b c : Nat} : safeMul mx a b = .ok c ↔ a * b ≤ mx ∧ c = a * b := by
  unfold safeMul; split <;> simp_all [eq_comm]

theorem safeDiv_ok {a b c : Nat} : safeDiv a b = .ok c ↔ b ≠ 0 ∧ c = a / b := by
  unfold safeDiv; split <;> simp_all [eq_comm]

theorem safeShl256_ok {a k c : Nat} : safeShl256 a k = .ok c ↔ a * 2 ^ k ≤ u256Max ∧ c = a * 2 ^ k := by
  unfold safeShl256; split <;> simp_all [eq_comm]

theorem castTo_ok {mx a c : Nat} : castTo mx a = .ok c ↔ a ≤ mx ∧ c = a := by
  unfold castTo; split <;> simp_all [eq_comm]

theorem subPanic_ok {a b c : Nat} : subPanic a b = .ok c ↔ b ≤ a ∧ c = a - b := by
  unfold subPanic; split <;> simp_all [eq_comm]

theorem ok_inj {α : Type} {a b : α} : (Except.ok a : Res α) = .ok b ↔ a = b := by
  constructor
  · intro h; injection h
  · intro h; rw [h]

theorem ite_ok {α : Type} {c : Prop} [Decidable c] {x y : Res α} {a : α} :
    (if c then x else y) = .ok a ↔ (c ∧ x = .ok a) ∨ (¬ c ∧ y = .ok a) := by
  split <;> simp_all

/-! ### Ceiling division -/

theorem divCeil_le_iff {a b c : Nat} (hb : 0 < b) : divCeil a b ≤ c ↔ a ≤ c * b := by
  unfold divCeil
  constructor
  · intro h
    have h1 := Nat.lt_div_mul_add (a := a + (b - 1)) hb
    have h2 : (a + (b - 1)) / b * b ≤ c * b := Nat.mul_le_mul_right _ h
    omega
  · intro h
    have : (a + (b - 1)) / b < c + 1 := by
      rw [Nat.div_lt_iff_lt_mul hb]
      have : (c + 1) * b = c * b + b := by ring
      omega
    omega

theorem le_divCeil_mul (a : Nat) {b : Nat} (hb : 0 < b) : a ≤ divCeil a b * b :=
  (divCeil_le_iff hb).1 le_rfl

theorem lt_divCeil_iff {a b c : Nat} (hb : 0 < b) : c < divCeil a b ↔ c * b < a := by
  rw [← not_le, divCeil_le_iff hb, not_le]

theorem divCeil_mul_lt (a : Nat) {b : Nat} (hb : 0 < b) : divCeil a b * b < a + b := by
  unfold divCeil
  have := Nat.div_mul_le_self (a + (b - 1)) b
  omega

theorem divCeil_zero (b : Nat) (hb : 0 < b) : divCeil 0 b = 0 := by
  have := (divCeil_le_iff (a := 0) (c := 0) hb).2 (by omega)
  omega

theorem divCeil_mono {a a' b : Nat} (hb : 0 < b) (h : a ≤ a') : divCeil a b ≤ divCeil a' b := by
  rw [divCeil_le_iff hb]; exact le_trans h (le_divCeil_mul a' hb)

theorem div_le_divCeil (a b : Nat) : a / b ≤ divCeil a b := by
  unfold divCeil; exact Nat.div_le_div_right (by omega)

/-- The `.up` branch of `safe_mul_div_cast_*` is the ceiling. -/
theorem up_eq_divCeil (a d : Nat) (hd : d ≠ 0) : (a + d - 1) / d = divCeil a d := by
  unfold divCeil; congr 1; omega

theorem mulDivU64_down {x y d c : Nat} :
    safeMulDivCastU64 x y d .down = .ok c ↔ x * y ≤ u128Max ∧ d ≠ 0 ∧ c = x * y / d ∧ c ≤ u64Max := by
  simp only [safeMulDivCastU64, bind_ok, safeMul_ok, safeDiv_ok, castTo_ok]
  constructor
  · rintro ⟨_, ⟨h1, rfl⟩, _, ⟨h2, rfl⟩, h3, rfl⟩
    exact ⟨h1, h2, rfl, h3⟩
  · rintro ⟨h1, h2, rfl, h3⟩
    exact ⟨_, ⟨h1, rfl⟩, _, ⟨h2, rfl⟩, h3, rfl⟩

theorem mulDivU64_up {x y d c : Nat} (hb : x * y + d ≤ u128Max) :
    safeMulDivCastU64 x y d .up = .ok c ↔ d ≠ 0 ∧ c = divCeil (x * y) d ∧ c ≤ u64Max := by
  simp only [safeMulDivCastU64, bind_ok, safeMul_ok, safeDiv_ok, castTo_ok, safeAdd_ok, safeSub_ok]
  constructor
  · rintro ⟨_, ⟨h1, rfl⟩, _, ⟨_, ⟨h2, rfl⟩, _, ⟨h3, rfl⟩, h4, rfl⟩, h5, rfl⟩
    exact ⟨h4, up_eq_divCeil _ _ h4, h5⟩
  · rintro ⟨h1, rfl, h3⟩
    refine ⟨_, ⟨by omega, rfl⟩, (x * y + d - 1) / d, ⟨_, ⟨hb, rfl⟩, _, ⟨by omega, rfl⟩, h1, rfl⟩, ?_, ?_⟩
    · rw [up_eq_divCeil _ _ h1]; exact h3
    · rw [up_eq_divCeil _ _ h1]

theorem mulDivU64_up' {x y d c : Nat} (h : safeMulDivCastU64 x y d .up = .ok c) :
    d ≠ 0 ∧ c = divCeil (x * y) d ∧ c ≤ u64Max ∧ x * y + d ≤ u128Max := by
  have h0 := h
  simp only [safeMulDivCastU64, bind_ok, safeMul_ok, safeDiv_ok, castTo_ok, safeAdd_ok, safeSub_ok] at h0
  obtain ⟨_, ⟨h1, rfl⟩, _, ⟨_, ⟨h2, rfl⟩, _, ⟨h3, rfl⟩, h4, rfl⟩, h5, rfl⟩ := h0
  exact ⟨h4, up_eq_divCeil _ _ h4, h5, h2⟩

theorem mulDivU128_down {x y d c : Nat} :
    safeMulDivCastU128 x y d .down = .ok c ↔ x * y ≤ u256Max ∧ d ≠ 0 ∧ c = x * y / d ∧ c ≤ u128Max := by
  simp only [safeMulDivCastU128, bind_ok, safeMul_ok, safeDiv_ok, castTo_ok]
  constructor
  · rintro ⟨_, ⟨h1, rfl⟩, _, ⟨h2, rfl⟩, h3, rfl⟩
    exact ⟨h1, h2, rfl, h3⟩
  · rintro ⟨h1, h2, rfl, h3⟩
    exact ⟨_, ⟨h1, rfl⟩, _, ⟨h2, rfl⟩, h3, rfl⟩

/-- Percentages of a 64-bit amount are always computed without error. -/
theorem mulDivU64_pct {x y d : Nat} (hx : x ≤ u64Max) (hy : y ≤ d) (hd : d ≠ 0) (hd2 : d ≤ u64Max) :
    safeMulDivCastU64 x y d .down = .ok (x * y / d) := by
  rw [mulDivU64_down]
  have h1 : x * y ≤ x * d := Nat.mul_le_mul_left _ hy
  have h2 : x * y / d ≤ x := by
    calc x * y / d ≤ x * d / d := Nat.div_le_div_right h1
      _ = x := Nat.mul_div_cancel _ (by omega)
  refine ⟨?_, hd, rfl, by omega⟩
  have h3 : x * y ≤ u64Max * u64Max := Nat.mul_le_mul hx (by omega)
  have : u64Max * u64Max ≤ u128Max := by decide
  omega

theorem mulDivU128_pct {x y d : Nat} (hx : x ≤ u128Max) (hy : y ≤ d) (hd : d ≠ 0) (hd2 : d ≤ u128Max) :
    safeMulDivCastU128 x y d .down = .ok (x * y / d) := by
  rw [mulDivU128_down]
  have h1 : x * y ≤ x * d := Nat.mul_le_mul_left _ hy
  have h2 : x * y / d ≤ x := by
    calc x * y / d ≤ x * d / d := Nat.div_le_div_right h1
      _ = x := Nat.mul_div_cancel _ (by omega)
  refine ⟨?_, hd, rfl, by omega⟩
  have h3 : x * y ≤ u128Max * u128Max := Nat.mul_le_mul hx (by omega)
  have : u128Max * u128Max ≤ u256Max := by decide
  omega

end Dbc

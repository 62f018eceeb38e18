import Verif.Spec.Curve
import Verif.Lemmas.Base
import Mathlib.Algebra.Order.Field.Basic
import Mathlib.Tactic.FieldSimp

/-!
# Curve pieces: potentials and single steps
-/

namespace Dbc
open Spec

theorem Proper.lo_pos {lo : Nat} {ps : List Point} (h : Proper lo ps) : 0 < lo := by
  cases ps <;> simp [Proper] at h <;> omega

theorem Proper.lo_le_top {lo : Nat} {ps : List Point} (h : Proper lo ps) : lo ≤ topPrice lo ps := by
  induction ps generalizing lo with
  | nil => simp [topPrice]
  | cons p ps ih =>
    simp only [Proper] at h
    have := ih h.2.2.2
    simp only [topPrice]
    omega

/-- Every piece of a proper curve lies above its start. -/
theorem segs_bounds {lo : Nat} {ps : List Point} (h : Proper lo ps) {s : Seg} (hs : s ∈ segs lo ps) :
    lo ≤ s.lo ∧ s.lo < s.hi ∧ 0 < s.lo ∧ 0 < s.L ∧ s.hi ≤ topPrice lo ps := by
  induction ps generalizing lo with
  | nil => simp [segs] at hs
  | cons p ps ih =>
    simp only [Proper] at h
    simp only [segs, List.mem_cons] at hs
    rcases hs with rfl | hs
    · have := Proper.lo_le_top h.2.2.2
      simp only [topPrice]
      refine ⟨le_rfl, h.2.1, h.1, h.2.2.1, this⟩
    · have := ih h.2.2.2 hs
      simp only [topPrice]
      refine ⟨by omega, this.2.1, this.2.2.1, this.2.2.2.1, this.2.2.2.2⟩

theorem clamp_of_mem {s : Seg} {x : Nat} (h1 : s.lo ≤ x) (h2 : x ≤ s.hi) : clamp s x = x := by
  unfold clamp; omega

theorem clamp_below {s : Seg} {x : Nat} (h1 : x ≤ s.lo) : clamp s x = s.lo := by
  unfold clamp; omega

theorem clamp_above {s : Seg} {x : Nat} (h0 : s.lo ≤ s.hi) (h1 : s.hi ≤ x) : clamp s x = s.hi := by
  unfold clamp; omega

/-- All the pieces above a price contribute nothing that depends on it. -/
theorem total_below {α : Type} [AddCommMonoid α] (f : Seg → Nat → α) {lo : Nat} {ps : List Point}
    (h : Proper lo ps) {x y : Nat} (hx : x ≤ lo) (hy : y ≤ lo) :
    total f (segs lo ps) x = total f (segs lo ps) y := by
  unfold total
  congr 1
  apply List.map_congr_left
  intro s hs
  have := segs_bounds h hs
  rw [clamp_below (by omega), clamp_below (by omega)]

/-- Moving the price inside one piece changes only that piece's contribution. -/
theorem total_move {α : Type} [AddCommMonoid α] (f : Seg → Nat → α) {lo : Nat} {ps : List Point}
    (h : Proper lo ps) {s : Seg} (hs : s ∈ segs lo ps) :
    ∃ r : α, ∀ x, s.lo ≤ x → x ≤ s.hi → total f (segs lo ps) x = r + f s x := by
  induction ps generalizing lo with
  | nil => simp [segs] at hs
  | cons p ps ih =>
    simp only [Proper] at h
    simp only [segs, List.mem_cons] at hs
    rcases hs with rfl | hs
    · refine ⟨total f (segs p.price ps) lo, fun x h1 h2 => ?_⟩
      have h1' : lo ≤ x := h1
      have h2' : x ≤ p.price := h2
      have hb := total_below f h.2.2.2 (x := x) (y := lo) h2' (by omega)
      simp only [segs, total, List.map_cons, List.sum_cons] at hb ⊢
      rw [hb, clamp_of_mem h1 h2, add_comm]
    · obtain ⟨r, hr⟩ := ih h.2.2.2 hs
      have hb := segs_bounds h.2.2.2 hs
      refine ⟨f ⟨lo, p.price, p.liq⟩ p.price + r, fun x h1 h2 => ?_⟩
      have := hr x h1 h2
      simp only [segs, total, List.map_cons, List.sum_cons] at this ⊢
      rw [this]
      rw [clamp_above (s := ⟨lo, p.price, p.liq⟩) (by simp; omega) (by simp; omega)]
      rw [add_assoc]

/-! ### One step inside one piece -/

theorem quoteSegUp_eq (s : Seg) (x : Nat) : quoteSegUp s x = divCeil (s.L * (x - s.lo)) (2 ^ 128) := rfl

/-- K3: paying at least the exact quote amount raises the rounded-up cost by at most the payment. -/
theorem quoteSegUp_buy {s : Seg} {x y amt : Nat} (h1 : s.lo ≤ x) (h2 : x ≤ y)
    (h : s.L * (y - x) ≤ 2 ^ 128 * amt) : quoteSegUp s y ≤ quoteSegUp s x + amt := by
  rw [quoteSegUp_eq, quoteSegUp_eq, divCeil_le_iff (by positivity)]
  have h3 := le_divCeil_mul (s.L * (x - s.lo)) (b := 2 ^ 128) (by positivity)
  have h4 : s.L * (y - s.lo) = s.L * (y - x) + s.L * (x - s.lo) := by
    rw [← Nat.mul_add]; congr 1; omega
  rw [h4, Nat.add_mul]
  linarith

/-- K4: receiving at most the exact quote amount lowers the rounded-up cost by at least that. -/
theorem quoteSegUp_sell {s : Seg} {x y amt : Nat} (h1 : s.lo ≤ y) (h2 : y ≤ x)
    (h : 2 ^ 128 * amt ≤ s.L * (x - y)) : quoteSegUp s y + amt ≤ quoteSegUp s x := by
  rw [quoteSegUp_eq, quoteSegUp_eq]
  have h3 := le_divCeil_mul (s.L * (x - s.lo)) (b := 2 ^ 128) (by positivity)
  have h4 : s.L * (x - s.lo) = s.L * (x - y) + s.L * (y - s.lo) := by
    rw [← Nat.mul_add]; congr 1; omega
  have h5 : amt ≤ divCeil (s.L * (x - s.lo)) (2 ^ 128) := by
    by_contra hlt
    have : divCeil (s.L * (x - s.lo)) (2 ^ 128) < amt := by omega
    have h6 : (divCeil (s.L * (x - s.lo)) (2 ^ 128) + 1) * 2 ^ 128 ≤ amt * 2 ^ 128 :=
      Nat.mul_le_mul_right _ this
    rw [Nat.add_mul] at h6
    have : 0 ≤ s.L * (y - s.lo) := Nat.zero_le _
    linarith
  have h6 : divCeil (s.L * (y - s.lo)) (2 ^ 128) ≤ divCeil (s.L * (x - s.lo)) (2 ^ 128) - amt := by
    rw [divCeil_le_iff (by positivity), Nat.sub_mul]
    have h7 : amt * 2 ^ 128 ≤ divCeil (s.L * (x - s.lo)) (2 ^ 128) * 2 ^ 128 := Nat.mul_le_mul_right _ h5
    omega
  omega

/-- Additivity of the exact base amount, cleared of denominators. -/
theorem base_add {L lo x y : Nat} (h1 : lo ≤ x) (h2 : x ≤ y) :
    L * (y - lo) * x = L * (x - lo) * y + L * (y - x) * lo := by
  obtain ⟨a, rfl⟩ := Nat.exists_eq_add_of_le h1
  obtain ⟨b, rfl⟩ := Nat.exists_eq_add_of_le h2
  have e1 : lo + a + b - lo = a + b := by omega
  have e2 : lo + a - lo = a := by omega
  have e3 : lo + a + b - (lo + a) = b := by omega
  rw [e1, e2, e3]; ring

/-- B3: releasing at most the exact base amount is covered by the rounded-down potential. -/
theorem baseSegDown_buy {s : Seg} {x y amt : Nat} (h0 : 0 < s.lo) (h1 : s.lo ≤ x) (h2 : x ≤ y)
    (h : amt * (x * y) ≤ s.L * (y - x)) : baseSegDown s x + amt ≤ baseSegDown s y := by
  unfold baseSegDown
  have hx : 0 < x := by omega
  have hy : 0 < y := by omega
  rw [Nat.le_div_iff_mul_le (by positivity)]
  have h3 := Nat.div_mul_le_self (s.L * (x - s.lo)) (s.lo * x)
  have h4 := base_add (L := s.L) h1 h2
  set q := s.L * (x - s.lo) / (s.lo * x)
  have : (q + amt) * (s.lo * y) * x ≤ s.L * (y - s.lo) * x := by
    rw [h4]
    have a1 : q * (s.lo * x) * y ≤ s.L * (x - s.lo) * y := Nat.mul_le_mul_right _ h3
    have a2 : amt * (x * y) * s.lo ≤ s.L * (y - x) * s.lo := Nat.mul_le_mul_right _ h
    calc (q + amt) * (s.lo * y) * x = q * (s.lo * x) * y + amt * (x * y) * s.lo := by ring
      _ ≤ _ := Nat.add_le_add a1 a2
  exact Nat.le_of_mul_le_mul_right this hx

/-- B4: taking in at least the exact base amount covers the drop of the potential. -/
theorem baseSegDown_sell {s : Seg} {x y amt : Nat} (h0 : 0 < s.lo) (h1 : s.lo ≤ y) (h2 : y ≤ x)
    (h : s.L * (x - y) ≤ amt * (y * x)) : baseSegDown s x ≤ baseSegDown s y + amt := by
  unfold baseSegDown
  have hy : 0 < y := by omega
  have hx : 0 < x := by omega
  have : s.L * (x - s.lo) / (s.lo * x) < s.L * (y - s.lo) / (s.lo * y) + amt + 1 := by
    rw [Nat.div_lt_iff_lt_mul (by positivity)]
    have h3 := Nat.lt_div_mul_add (a := s.L * (y - s.lo)) (b := s.lo * y) (by positivity)
    have h4 := base_add (L := s.L) h1 h2
    set q := s.L * (y - s.lo) / (s.lo * y)
    have : s.L * (x - s.lo) * y < (q + amt + 1) * (s.lo * x) * y := by
      rw [h4]
      have a1 : s.L * (y - s.lo) * x < (q * (s.lo * y) + s.lo * y) * x := Nat.mul_lt_mul_of_pos_right h3 hx
      have a2 : s.L * (x - y) * s.lo ≤ amt * (y * x) * s.lo := Nat.mul_le_mul_right _ h
      calc s.L * (y - s.lo) * x + s.L * (x - y) * s.lo
          < (q * (s.lo * y) + s.lo * y) * x + amt * (y * x) * s.lo := Nat.add_lt_add_of_lt_of_le a1 a2
        _ = (q + amt + 1) * (s.lo * x) * y := by ring
    exact Nat.lt_of_mul_lt_mul_right this
  omega

/-- Exact version of a buy step for quote. -/
theorem quoteSeg_step {s : Seg} {x y : Nat} (h2 : x ≤ y) :
    quoteSeg s y - quoteSeg s x = ((s.L * (y - x) : Nat) : ℚ) / 2 ^ 128 := by
  unfold quoteSeg
  push_cast [Nat.cast_sub h2]
  ring

theorem baseSeg_step {s : Seg} {x y : Nat} (h0 : 0 < x) (h2 : x ≤ y) :
    baseSeg s y - baseSeg s x = ((s.L * (y - x) : Nat) : ℚ) / ((x * y : Nat) : ℚ) := by
  unfold baseSeg
  have hx : (x : ℚ) ≠ 0 := by positivity
  have hy : (y : ℚ) ≠ 0 := by
    have : 0 < y := by omega
    positivity
  push_cast [Nat.cast_sub h2]
  field_simp
  ring

/-! ### Traces of swaps -/

/-- The steps of a buy over the pieces `ss` from price `x` to `y`: `inp` quote in, `out` base out. Every step pays
at least the exact quote amount and gets at most the exact base amount. -/
inductive BuyTrace (ss : List Seg) : Nat → Nat → Nat → Nat → Prop
  | nil (x : Nat) : BuyTrace ss x x 0 0
  | step {s : Seg} {x m y i o inp out : Nat} (hs : s ∈ ss) (h1 : s.lo ≤ x) (h2 : x ≤ m) (h3 : m ≤ s.hi)
      (hi : s.L * (m - x) ≤ 2 ^ 128 * i) (ho : o * (x * m) ≤ s.L * (m - x)) (rest : BuyTrace ss m y inp out) :
      BuyTrace ss x y (i + inp) (o + out)

/-- The steps of a sell from price `x` down to `y`: `inp` base in, `out` quote out. -/
inductive SellTrace (ss : List Seg) : Nat → Nat → Nat → Nat → Prop
  | nil (x : Nat) : SellTrace ss x x 0 0
  | step {s : Seg} {x m y i o inp out : Nat} (hs : s ∈ ss) (h1 : s.lo ≤ m) (h2 : m ≤ x) (h3 : x ≤ s.hi)
      (hi : s.L * (x - m) ≤ i * (m * x)) (ho : 2 ^ 128 * o ≤ s.L * (x - m)) (rest : SellTrace ss m y inp out) :
      SellTrace ss x y (i + inp) (o + out)

theorem BuyTrace.single {ss : List Seg} {s : Seg} {x m i o : Nat} (hs : s ∈ ss) (h1 : s.lo ≤ x) (h2 : x ≤ m)
    (h3 : m ≤ s.hi) (hi : s.L * (m - x) ≤ 2 ^ 128 * i) (ho : o * (x * m) ≤ s.L * (m - x)) :
    BuyTrace ss x m i o := by
  have := BuyTrace.step hs h1 h2 h3 hi ho (BuyTrace.nil m)
  simpa using this

theorem SellTrace.trans {ss : List Seg} {x y z i o i' o' : Nat} (h : SellTrace ss x y i o)
    (h' : SellTrace ss y z i' o') : SellTrace ss x z (i + i') (o + o') := by
  induction h with
  | nil x => simpa using h'
  | step hs h1 h2 h3 hi ho _ ih =>
    rw [Nat.add_assoc, Nat.add_assoc]
    exact SellTrace.step hs h1 h2 h3 hi ho (ih h')

theorem SellTrace.single {ss : List Seg} {s : Seg} {x m i o : Nat} (hs : s ∈ ss) (h1 : s.lo ≤ m) (h2 : m ≤ x)
    (h3 : x ≤ s.hi) (hi : s.L * (x - m) ≤ i * (m * x)) (ho : 2 ^ 128 * o ≤ s.L * (x - m)) :
    SellTrace ss x m i o := by
  have := SellTrace.step hs h1 h2 h3 hi ho (SellTrace.nil m)
  simpa using this

theorem BuyTrace.le {ss : List Seg} {x y i o : Nat} (h : BuyTrace ss x y i o) : x ≤ y := by
  induction h with
  | nil => exact le_rfl
  | step => omega

theorem SellTrace.le {ss : List Seg} {x y i o : Nat} (h : SellTrace ss x y i o) : y ≤ x := by
  induction h with
  | nil => exact le_rfl
  | step => omega

section
variable {lo : Nat} {ps : List Point} (hp : Proper lo ps)
include hp

theorem BuyTrace.quoteUp {x y i o : Nat} (h : BuyTrace (segs lo ps) x y i o) :
    quoteToUp (segs lo ps) y ≤ quoteToUp (segs lo ps) x + i := by
  induction h with
  | nil => simp
  | step hs h1 h2 h3 hi ho _ ih =>
    obtain ⟨r, hr⟩ := total_move quoteSegUp hp hs
    have e1 := hr _ h1 (le_trans h2 h3)
    have e2 := hr _ (le_trans h1 h2) h3
    have := quoteSegUp_buy h1 h2 hi
    simp only [quoteToUp] at ih ⊢
    omega

theorem BuyTrace.baseDown {x y i o : Nat} (h : BuyTrace (segs lo ps) x y i o) :
    baseToDown (segs lo ps) x + o ≤ baseToDown (segs lo ps) y := by
  induction h with
  | nil => simp
  | step hs h1 h2 h3 hi ho _ ih =>
    obtain ⟨r, hr⟩ := total_move baseSegDown hp hs
    have e1 := hr _ h1 (le_trans h2 h3)
    have e2 := hr _ (le_trans h1 h2) h3
    have := baseSegDown_buy (segs_bounds hp hs).2.2.1 h1 h2 ho
    simp only [baseToDown] at ih ⊢
    omega

theorem SellTrace.quoteUp {x y i o : Nat} (h : SellTrace (segs lo ps) x y i o) :
    quoteToUp (segs lo ps) y + o ≤ quoteToUp (segs lo ps) x := by
  induction h with
  | nil => simp
  | step hs h1 h2 h3 hi ho _ ih =>
    obtain ⟨r, hr⟩ := total_move quoteSegUp hp hs
    have e1 := hr _ h1 (le_trans h2 h3)
    have e2 := hr _ (le_trans h1 h2) h3
    have := quoteSegUp_sell h1 h2 ho
    simp only [quoteToUp] at ih ⊢
    omega

theorem SellTrace.baseDown {x y i o : Nat} (h : SellTrace (segs lo ps) x y i o) :
    baseToDown (segs lo ps) x ≤ baseToDown (segs lo ps) y + i := by
  induction h with
  | nil => simp
  | step hs h1 h2 h3 hi ho _ ih =>
    obtain ⟨r, hr⟩ := total_move baseSegDown hp hs
    have e1 := hr _ h1 (le_trans h2 h3)
    have e2 := hr _ (le_trans h1 h2) h3
    have := baseSegDown_sell (segs_bounds hp hs).2.2.1 h1 h2 hi
    simp only [baseToDown] at ih ⊢
    omega

/-- A buy pays at least the exact curve integral of quote. -/
theorem BuyTrace.quote {x y i o : Nat} (h : BuyTrace (segs lo ps) x y i o) :
    quoteTo (segs lo ps) y - quoteTo (segs lo ps) x ≤ (i : ℚ) := by
  induction h with
  | nil => simp
  | @step s x m y i o inp out hs h1 h2 h3 hi ho _ ih =>
    obtain ⟨r, hr⟩ := total_move quoteSeg hp hs
    have e1 := hr _ h1 (le_trans h2 h3)
    have e2 := hr _ (le_trans h1 h2) h3
    have e3 := quoteSeg_step (s := s) h2
    have hle : ((s.L * (m - x) : Nat) : ℚ) / 2 ^ 128 ≤ (i : ℚ) := by
      rw [div_le_iff₀ (by positivity)]
      have : ((s.L * (m - x) : Nat) : ℚ) ≤ ((2 ^ 128 * i : Nat) : ℚ) := Nat.cast_le.2 hi
      push_cast at this ⊢
      linarith
    simp only [quoteTo] at ih ⊢
    push_cast
    linarith

/-- A buy gets at most the exact curve integral of base. -/
theorem BuyTrace.base {x y i o : Nat} (h : BuyTrace (segs lo ps) x y i o) :
    (o : ℚ) ≤ baseTo (segs lo ps) y - baseTo (segs lo ps) x := by
  induction h with
  | nil => simp
  | @step s x m y i o inp out hs h1 h2 h3 hi ho _ ih =>
    have hb := segs_bounds hp hs
    obtain ⟨r, hr⟩ := total_move baseSeg hp hs
    have e1 := hr _ h1 (le_trans h2 h3)
    have e2 := hr _ (le_trans h1 h2) h3
    have e3 := baseSeg_step (s := s) (x := x) (y := m) (by omega) h2
    have hx : 0 < x := by omega
    have hm : 0 < m := by omega
    have hle : (o : ℚ) ≤ ((s.L * (m - x) : Nat) : ℚ) / ((x * m : Nat) : ℚ) := by
      rw [le_div_iff₀ (by exact_mod_cast Nat.mul_pos hx hm)]
      exact_mod_cast ho
    simp only [baseTo] at ih ⊢
    push_cast at *
    linarith

/-- A sell pays at least the exact curve integral of base. -/
theorem SellTrace.base {x y i o : Nat} (h : SellTrace (segs lo ps) x y i o) :
    baseTo (segs lo ps) x - baseTo (segs lo ps) y ≤ (i : ℚ) := by
  induction h with
  | nil => simp
  | @step s x m y i o inp out hs h1 h2 h3 hi ho _ ih =>
    have hb := segs_bounds hp hs
    obtain ⟨r, hr⟩ := total_move baseSeg hp hs
    have e1 := hr _ h1 (le_trans h2 h3)
    have e2 := hr _ (le_trans h1 h2) h3
    have e3 := baseSeg_step (s := s) (x := m) (y := x) (by omega) h2
    have hx : 0 < x := by omega
    have hm : 0 < m := by omega
    have hle : ((s.L * (x - m) : Nat) : ℚ) / ((m * x : Nat) : ℚ) ≤ (i : ℚ) := by
      rw [div_le_iff₀ (by exact_mod_cast Nat.mul_pos hm hx)]
      exact_mod_cast hi
    simp only [baseTo] at ih ⊢
    push_cast at *
    linarith

/-- A sell gets at most the exact curve integral of quote. -/
theorem SellTrace.quote {x y i o : Nat} (h : SellTrace (segs lo ps) x y i o) :
    (o : ℚ) ≤ quoteTo (segs lo ps) x - quoteTo (segs lo ps) y := by
  induction h with
  | nil => simp
  | @step s x m y i o inp out hs h1 h2 h3 hi ho _ ih =>
    obtain ⟨r, hr⟩ := total_move quoteSeg hp hs
    have e1 := hr _ h1 (le_trans h2 h3)
    have e2 := hr _ (le_trans h1 h2) h3
    have e3 := quoteSeg_step (s := s) h2
    have hle : (o : ℚ) ≤ ((s.L * (x - m) : Nat) : ℚ) / 2 ^ 128 := by
      rw [le_div_iff₀ (by positivity)]
      have : ((2 ^ 128 * o : Nat) : ℚ) ≤ ((s.L * (x - m) : Nat) : ℚ) := Nat.cast_le.2 ho
      push_cast at this ⊢
      linarith
    simp only [quoteTo] at ih ⊢
    push_cast at *
    linarith

end

end Dbc

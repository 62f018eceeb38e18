import Verif.Lemmas.Keep

/-!
# What the curve exchanges between two prices, valued at one of them

Between two prices the curve exchanges base for quote at prices that lie between the two.
-/

namespace Dbc
open Spec

variable {B Q : Nat → ℚ}

theorem OnPiece.value {lo hi L x y : Nat} (h : OnPiece B Q lo hi L) (h0 : 0 < x) (h1 : lo ≤ x) (h2 : x ≤ y) (h3 : y ≤ hi) :
    (B y - B x) * (x : ℚ) ^ 2 ≤ (Q y - Q x) * 2 ^ 128 ∧ (Q y - Q x) * 2 ^ 128 ≤ (B y - B x) * (y : ℚ) ^ 2 := by
  obtain ⟨hQ, hB⟩ := h x y h1 h2 h3
  rw [hQ, hB, div_mul_cancel₀ _ (by positivity)]
  push_cast
  have hx : (0 : ℚ) < x := by exact_mod_cast h0
  have hxy : (x : ℚ) ≤ y := by exact_mod_cast h2
  have hy : (0 : ℚ) < y := lt_of_lt_of_le hx hxy
  generalize hD : (L : ℚ) * ((y - x : Nat) : ℚ) = D
  have hD0 : 0 ≤ D := by rw [← hD]; positivity
  constructor
  · rw [div_mul_eq_mul_div, div_le_iff₀ (by positivity)]
    nlinarith [mul_nonneg hD0 (mul_nonneg hx.le (sub_nonneg.2 hxy))]
  · rw [div_mul_eq_mul_div, le_div_iff₀ (by positivity)]
    nlinarith [mul_nonneg hD0 (mul_nonneg hy.le (sub_nonneg.2 hxy))]

/-- Moving the price from `x` to `y` exchanges base and quote at an average price between the two. -/
theorem chainUp_value {lo : Nat} {ps : List Point} (hch : ChainUp B Q lo ps) (hp : Proper lo ps) {x y : Nat}
    (h1 : lo ≤ x) (h2 : x ≤ y) (h3 : y ≤ topPrice lo ps) :
    (B y - B x) * (x : ℚ) ^ 2 ≤ (Q y - Q x) * 2 ^ 128 ∧ (Q y - Q x) * 2 ^ 128 ≤ (B y - B x) * (y : ℚ) ^ 2 := by
  induction ps generalizing lo x with
  | nil =>
    simp only [topPrice] at h3
    have : x = y := by omega
    subst this
    simp
  | cons p ps ih =>
    have hp' := hp
    simp only [Proper] at hp
    simp only [topPrice] at h3
    by_cases hx : p.price ≤ x
    · exact ih hch.2 hp.2.2.2 hx h2 h3
    · by_cases hy : y ≤ p.price
      · exact hch.1.value (by omega) h1 h2 hy
      · have hmx : (x : ℚ) ≤ p.price := by exact_mod_cast (by omega : x ≤ p.price)
        have hmy : (p.price : ℚ) ≤ y := by exact_mod_cast (by omega : p.price ≤ y)
        obtain ⟨a1, a2⟩ := hch.1.value (by omega) h1 (by omega : x ≤ p.price) le_rfl
        obtain ⟨b1, b2⟩ := ih hch.2 hp.2.2.2 (x := p.price) le_rfl (by omega) h3
        have c1 := (hch.1.mono h1 (by omega : x ≤ p.price) le_rfl).1
        have c2 := (chainUp_mono hch.2 hp.2.2.2 (x := p.price) (y := y) le_rfl (by omega) h3).1
        have d1 : (x : ℚ) ^ 2 ≤ (p.price : ℚ) ^ 2 := pow_le_pow_left₀ (by positivity) hmx 2
        have d2 : (p.price : ℚ) ^ 2 ≤ (y : ℚ) ^ 2 := pow_le_pow_left₀ (by positivity) hmy 2
        have e1 := mul_le_mul_of_nonneg_left d1 (sub_nonneg.2 c2)
        have e2 := mul_le_mul_of_nonneg_left d2 (sub_nonneg.2 c1)
        constructor <;> linarith

/-- One step of the price costs at most one unit of quote. -/
theorem chainUp_tick {lo : Nat} {ps : List Point} (hch : ChainUp B Q lo ps) (hm : ∀ q ∈ ps, q.liq ≤ u128Max) {y : Nat}
    (h1 : lo ≤ y) (h3 : y + 1 ≤ topPrice lo ps) : Q (y + 1) - Q y ≤ 1 := by
  induction ps generalizing lo with
  | nil => simp only [topPrice] at h3; omega
  | cons p ps ih =>
    simp only [topPrice] at h3
    by_cases hx : p.price ≤ y
    · exact ih hch.2 (fun q hq => hm q (List.mem_cons_of_mem _ hq)) hx h3
    · rw [(hch.1 y (y + 1) h1 (by omega) (by omega)).1, div_le_one (by positivity)]
      have : p.liq ≤ 2 ^ 128 := by have := hm p List.mem_cons_self; unfold u128Max at this; omega
      have e : p.liq * (y + 1 - y) = p.liq := by rw [Nat.add_sub_cancel_left, Nat.mul_one]
      rw [e]
      exact_mod_cast this

/-- The base an exact-in sell uses on the piece where it stops, beyond what the curve asks for its price move, is worth at
most two units of quote. -/
theorem OnPiece.sell_used {lo hi L cur next left : Nat} (hpc : OnPiece B Q lo hi L) (hL : 0 < L) (hm : L ≤ u128Max)
    (h2 : 2 ≤ next) (h1 : lo ≤ next) (hn : next ≤ cur) (ht : cur ≤ hi) (e : next = divCeil (L * cur) (L + left * cur)) :
    ((left : ℚ) - (B cur - B next)) * (next : ℚ) ^ 2 ≤ 2 * 2 ^ 128 := by
  have k := divCeil_mul_lt (L * cur) (b := L + left * cur) (by omega)
  rw [← e] at k
  have k' : (next : ℚ) * (L + left * cur) ≤ L * cur + (L + left * cur) := by exact_mod_cast k.le
  rw [(hpc next cur h1 hn ht).2]
  push_cast [Nat.cast_sub hn]
  have hL' : (L : ℚ) ≤ 2 ^ 128 := by
    have : L ≤ 2 ^ 128 := by unfold u128Max at hm; omega
    exact_mod_cast this
  have hL0 : (0 : ℚ) < L := by exact_mod_cast hL
  have hn2 : (2 : ℚ) ≤ next := by exact_mod_cast h2
  have hnc : (next : ℚ) ≤ cur := by exact_mod_cast hn
  generalize (2 : ℚ) ^ 128 = M at *
  generalize (L : ℚ) = l at *
  generalize (next : ℚ) = n at *
  generalize (cur : ℚ) = c at *
  generalize (left : ℚ) = a at *
  have hn0 : 0 < n := by linarith
  have hc0 : 0 < c := by linarith
  have hnn : 0 < n - 1 := by linarith
  have e1 : (a - l * (c - n) / (n * c)) * n ^ 2 = (a * c * n ^ 2 - l * (c - n) * n) / c := by
    field_simp
  rw [e1, div_le_iff₀ hc0]
  have k2 : a * c * (n - 1) ≤ l * (c - n + 1) := by linarith
  have k3 := mul_le_mul_of_nonneg_right k2 (sq_nonneg n)
  have k4 : l * n * c ≤ M * n * c := mul_le_mul_of_nonneg_right (mul_le_mul_of_nonneg_right hL' hn0.le) hc0.le
  have hM : 0 ≤ M := by linarith
  have k5 : M * n * c ≤ M * (2 * (n - 1)) * c :=
    mul_le_mul_of_nonneg_right (mul_le_mul_of_nonneg_left (by linarith) hM) hc0.le
  have k6 : (a * c * n ^ 2 - l * (c - n) * n) * (n - 1) ≤ (2 * M * c) * (n - 1) := by nlinarith
  exact le_of_mul_le_mul_right k6 hnn

theorem sellIn_used {start L0 top cur left acc : Nat} {ds : List (Point × Nat)} {r : FromInput}
    (hch : ChainDown B Q start L0 top ds) (hd : Downs start ds) (hm0 : L0 ≤ u128Max) (hm : ∀ d ∈ ds, d.2 ≤ u128Max)
    (h0 : 2 ≤ start) (hs : start ≤ cur) (ht : cur ≤ top)
    (h : sellDown start L0 ds ⟨cur, left, acc, false⟩ = .ok r) :
    ((left : ℚ) - r.left - (B cur - B r.next) - (ds.length + 1)) * (r.next : ℚ) ^ 2 ≤ 2 * 2 ^ 128 := by
  have hM : (0 : ℚ) ≤ 2 * 2 ^ 128 := by positivity
  induction ds generalizing top cur left acc with
  | nil =>
    simp only [List.length_nil, Nat.cast_zero, zero_add]
    rcases sellDown_nil h with ⟨a1, a2, a3, a4⟩ | ⟨a1, a2, a3, a4, a5, a6, a7, a8⟩ | ⟨a1, a2, a3, a4, a5, a6, a7, a8⟩
    · rw [a1, a2, a4]
      refine le_trans (mul_nonpos_of_nonpos_of_nonneg (by simp) (by positivity)) hM
    · have hb := (OnPiece.baseUp hch (by omega) le_rfl a3 ht).2
      rw [a6, a8, Nat.cast_sub a5]
      refine le_trans (mul_nonpos_of_nonpos_of_nonneg (by linarith) (by positivity)) hM
    · have := OnPiece.sell_used hch a2 hm0 (by omega) a3 a7 ht a4
      have hsq : (0 : ℚ) ≤ (r.next : ℚ) ^ 2 := by positivity
      rw [a5, Nat.cast_zero]
      linarith
  | cons d ds ih =>
    obtain ⟨c1, hpc, hch'⟩ := hch
    have hh := hd.head
    have hpos : (0 : ℚ) ≤ ds.length := by positivity
    have hm' : ∀ d ∈ ds, d.2 ≤ u128Max := fun q hq => hm q (List.mem_cons_of_mem _ hq)
    have hsq : (0 : ℚ) ≤ (r.next : ℚ) ^ 2 := by positivity
    simp only [List.length_cons, Nat.cast_add, Nat.cast_one]
    rcases sellDown_cons hh h with ⟨a1, a2, a3, a4, a5, a6, a7, a8⟩ | ⟨a1, a2, a3⟩ | ⟨a1, a2⟩
    · have := hpc.sell_used hh.2.2 (hm d List.mem_cons_self) (by omega) (le_of_lt a6) a7 ht a3
      have := mul_nonneg hpos hsq
      rw [a4, Nat.cast_zero]
      linarith
    · have := ih hch' hd.tail hm' (le_of_lt hh.1) le_rfl a3
      have hb := (hpc.baseUp (by omega) le_rfl (le_of_lt a1) ht).2
      rw [Nat.cast_sub a2] at this
      refine le_trans (mul_le_mul_of_nonneg_right ?_ hsq) this
      linarith
    · have := ih hch' hd.tail hm' hs a1 a2
      refine le_trans (mul_le_mul_of_nonneg_right ?_ hsq) this
      linarith

end Dbc

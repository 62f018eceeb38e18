import Verif.Lemmas.Seg

/-!
# The curve integrals increase with the price
-/

namespace Dbc
open Spec

theorem totalQ_mono {f : Seg → Nat → ℚ} {lo : Nat} {ps : List Point} (h : Proper lo ps)
    (hf : ∀ s ∈ segs lo ps, ∀ x y, s.lo ≤ x → x ≤ y → y ≤ s.hi → f s x ≤ f s y) {P Q : Nat} (hPQ : P ≤ Q) :
    total f (segs lo ps) P ≤ total f (segs lo ps) Q := by
  induction ps generalizing lo with
  | nil => simp [total, segs]
  | cons p ps ih =>
    simp only [Proper] at h
    simp only [segs, List.mem_cons, forall_eq_or_imp] at hf
    have h1 := ih h.2.2.2 hf.2
    simp only [segs, total, List.map_cons, List.sum_cons] at h1 ⊢
    refine add_le_add (hf.1 _ _ ?_ ?_ ?_) h1 <;> unfold clamp <;> dsimp only <;> omega

theorem totalQ_strict {f : Seg → Nat → ℚ} {lo : Nat} {ps : List Point} (h : Proper lo ps)
    (hf : ∀ s ∈ segs lo ps, ∀ x y, s.lo ≤ x → x < y → y ≤ s.hi → f s x < f s y) {P Q : Nat} (hP : lo ≤ P) (hPQ : P < Q)
    (hQ : Q ≤ topPrice lo ps) : total f (segs lo ps) P < total f (segs lo ps) Q := by
  have hf' : ∀ s ∈ segs lo ps, ∀ x y, s.lo ≤ x → x ≤ y → y ≤ s.hi → f s x ≤ f s y := by
    intro s hs x y h1 h2 h3
    rcases Nat.eq_or_lt_of_le h2 with rfl | h2
    · exact le_refl _
    · exact (hf s hs x y h1 h2 h3).le
  induction ps generalizing lo with
  | nil => simp only [topPrice] at hQ; omega
  | cons p ps ih =>
    simp only [Proper] at h
    simp only [segs, List.mem_cons, forall_eq_or_imp] at hf hf'
    have hm := totalQ_mono h.2.2.2 hf'.2 hPQ.le
    by_cases hlt : P < p.price
    · simp only [segs, total, List.map_cons, List.sum_cons] at hm ⊢
      refine add_lt_add_of_lt_of_le (hf.1 _ _ ?_ ?_ ?_) hm <;> unfold clamp <;> dsimp only <;> omega
    · have hs := ih h.2.2.2 hf.2 (by omega) hQ hf'.2
      simp only [segs, total, List.map_cons, List.sum_cons] at hs ⊢
      refine add_lt_add_of_le_of_lt (hf'.1 _ _ ?_ ?_ ?_) hs <;> unfold clamp <;> dsimp only <;> omega

theorem segs_liq {lo : Nat} {ps : List Point} (h : Proper lo ps) {s : Seg} (hs : s ∈ segs lo ps) : 0 < s.L := by
  induction ps generalizing lo with
  | nil => simp [segs] at hs
  | cons p ps ih =>
    simp only [Proper] at h
    simp only [segs, List.mem_cons] at hs
    rcases hs with rfl | hs
    · exact h.2.2.1
    · exact ih h.2.2.2 hs

theorem quoteTo_strict {lo : Nat} {ps : List Point} (h : Proper lo ps) {P Q : Nat} (hP : lo ≤ P) (hPQ : P < Q)
    (hQ : Q ≤ topPrice lo ps) : quoteTo (segs lo ps) P < quoteTo (segs lo ps) Q := by
  refine totalQ_strict h (fun s hs x y h1 h2 h3 => ?_) hP hPQ hQ
  have := quoteSeg_step (s := s) h2.le
  have hpos : (0 : ℚ) < ((s.L * (y - x) : Nat) : ℚ) / 2 ^ 128 := by
    have : 0 < s.L * (y - x) := Nat.mul_pos (segs_liq h hs) (by omega)
    positivity
  linarith

theorem baseTo_strict {lo : Nat} {ps : List Point} (h : Proper lo ps) {P Q : Nat} (hP : lo ≤ P) (hPQ : P < Q)
    (hQ : Q ≤ topPrice lo ps) : baseTo (segs lo ps) P < baseTo (segs lo ps) Q := by
  refine totalQ_strict h (fun s hs x y h1 h2 h3 => ?_) hP hPQ hQ
  have hb := segs_bounds h hs
  have := baseSeg_step (s := s) (x := x) (y := y) (by omega) h2.le
  have hpos : (0 : ℚ) < ((s.L * (y - x) : Nat) : ℚ) / ((x * y : Nat) : ℚ) := by
    have h1 : 0 < s.L * (y - x) := Nat.mul_pos (segs_liq h hs) (by omega)
    have h2 : 0 < x * y := Nat.mul_pos (by omega) (by omega)
    positivity
  linarith

end Dbc

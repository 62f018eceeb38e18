import Verif.Lemmas.CompareOut

/-!
# Offering what an exact-out trade costs yields at least its output
-/

namespace Dbc

open Spec

theorem Bf_self (L x : Nat) : Bf L x x = 0 := by
  unfold Bf
  rw [Nat.sub_self, Nat.mul_zero, Nat.zero_div]

theorem Qf_self (L x : Nat) : Qf L x x = 0 := by
  unfold Qf
  rw [Nat.sub_self, Nat.mul_zero, Nat.zero_div]

theorem nextUp_reach {L x n a : Nat} (hL : 0 < L) (h : Qc L x n ≤ a) : n ≤ x + a * 2 ^ 128 / L := by
  unfold Qc at h
  rw [divCeil_le_iff (by positivity)] at h
  have : n - x ≤ a * 2 ^ 128 / L := by
    rw [Nat.le_div_iff_mul_le hL, Nat.mul_comm]
    exact h
  omega

theorem nextDown_reach {L x n a : Nat} (hL : 0 < L) (hn : 0 < n) (hnx : n ≤ x) (h : Bc L n x ≤ a) :
    divCeil (L * x) (L + a * x) ≤ n := by
  unfold Bc at h
  have hx : 0 < x := by omega
  rw [divCeil_le_iff (by positivity)] at h
  rw [divCeil_le_iff (by omega)]
  obtain ⟨k, rfl⟩ := Nat.exists_eq_add_of_le hnx
  rw [Nat.add_sub_cancel_left] at h
  calc L * (n + k) = L * n + L * k := by ring
    _ ≤ L * n + a * (n * (n + k)) := by omega
    _ = n * (L + a * (n + k)) := by ring

/-! ### Buys -/

/-- An exact-out buy that does not move the price gives nothing. -/
theorem buyOutLoop_still {ps : List Point} {lo cur left inp i n : Nat} (hp : Proper lo ps) (hlo : lo ≤ cur)
    (h : buyOutLoop ps cur left inp = .ok (0, i, n)) (hn : n ≤ cur) : left = 0 := by
  induction ps generalizing lo cur left inp with
  | nil =>
    simp only [buyOutLoop, ok_inj, Prod.mk.injEq] at h
    omega
  | cons p ps ih =>
    simp only [Proper] at hp
    have hc0 : 0 < cur := by omega
    rcases buyOutLoop_cons (by omega) (by omega) hc0 h with ⟨b1, b2, b3, b4, b5, b6, b7, b8⟩ | ⟨b1, b2, b3⟩ | ⟨b1, b2⟩
    · have h3 := (buyOut_step hc0 (le_of_lt b1) (le_of_lt b2) b3 b4).2.2
      have e : n = cur := by omega
      rw [e, Nat.sub_self, Nat.mul_zero] at h3
      have : 0 < cur * cur := by positivity
      rcases Nat.eq_zero_or_pos left with h0 | h0
      · exact h0
      · have := Nat.mul_pos h0 this
        omega
    · have := buyOutLoop_grow hp.2.2.2 le_rfl b3
      omega
    · exact ih hp.2.2.2 b1 b2 hn

theorem buyInLoop_covers {stop : Nat} {ps : List Point} {lo cur a o out inp i n : Nat} {r : FromInput} (hp : Proper lo ps)
    (hlo : lo ≤ cur) (h : buyInLoop stop ps cur a out = .ok r) (h' : buyOutLoop ps cur o inp = .ok (0, i, n))
    (hn : n ≤ stop) (ha : i ≤ inp + a) : out + o ≤ r.out := by
  induction ps generalizing lo cur a o out inp with
  | nil =>
    simp only [buyOutLoop, ok_inj, Prod.mk.injEq] at h'
    simp only [buyInLoop, ok_inj] at h
    subst h
    dsimp only
    omega
  | cons p ps ih =>
    simp only [Proper] at hp
    have hc0 : 0 < cur := by omega
    rcases buyOutLoop_cons (by omega) (by omega) hc0 h' with ⟨b1, b2, b3, b4, b5, b6, b7, b8⟩ | ⟨b1, b2, b3⟩ | ⟨b1, b2⟩
    · have ho : o ≤ Bf p.liq cur n := by
        unfold Bf
        rw [Nat.le_div_iff_mul_le (Nat.mul_pos hc0 (by omega))]
        exact (buyOut_step hc0 (le_of_lt b1) (le_of_lt b2) b3 b4).2.2
      rcases buyInLoop_cons (by omega) (by omega) h with ⟨a1, a2, a3, a4, a5, a6, a7, a8⟩ | ⟨a1, a2, a3, a4, a5, a6⟩ |
        ⟨a1, a2, a3, a4⟩ | ⟨a1, a2⟩
      · have h3 := nextUp_reach (L := p.liq) (x := cur) (n := n) (a := a) (by omega) (by omega)
        rw [← a3] at h3
        have := Bf_mono (L := p.liq) hc0 b7 h3
        omega
      · have := Bf_mono (L := p.liq) hc0 b7 hn
        omega
      · have := Bf_mono (L := p.liq) hc0 b7 b8
        have := (buyInLoop_grow hp.2.2.2 le_rfl a4).2
        omega
      · have e := buyInLoop_stopped hp.2.2.2 (by omega) a2
        subst e
        have e : n = cur := by omega
        rw [e, Bf_self] at ho
        dsimp only
        omega
    · have hg := buyOutLoop_grow hp.2.2.2 le_rfl b3
      rcases buyInLoop_cons (by omega) (by omega) h with ⟨a1, a2, a3, a4, a5, a6, a7, a8⟩ | ⟨a1, a2, a3, a4, a5, a6⟩ |
        ⟨a1, a2, a3, a4⟩ | ⟨a1, a2⟩
      · rw [Nat.min_eq_right (by omega)] at a2
        omega
      · have e : stop = p.price := by omega
        have := buyOutLoop_still hp.2.2.2 le_rfl b3 (by omega)
        rw [e] at a5
        omega
      · have := ih hp.2.2.2 le_rfl a4 b3 (by omega)
        omega
      · omega
    · rcases buyInLoop_cons (by omega) (by omega) h with ⟨a1, a2, a3, a4, a5, a6, a7, a8⟩ | ⟨a1, a2, a3, a4, a5, a6⟩ |
        ⟨a1, a2, a3, a4⟩ | ⟨a1, a2⟩
      · omega
      · omega
      · omega
      · exact ih hp.2.2.2 b1 a2 b2 ha

/-! ### Sells -/

theorem le_Qf_of {L o x n : Nat} (hL : 0 < L) (hle : divCeil (o * 2 ^ 128) L ≤ x)
    (hn : n = x - divCeil (o * 2 ^ 128) L) : o ≤ Qf L n x := by
  have := (sellOut_step hL hle hn).2
  unfold Qf
  rw [Nat.le_div_iff_mul_le (by positivity), Nat.mul_comm o]
  exact this

theorem sellDown_covers {start L0 cur a o out acc : Nat} {ds : List (Point × Nat)} {r : FromInput} {r' : FromOutput}
    (hd : Downs start ds) (hs0 : 0 < start) (hs : start ≤ cur)
    (h : sellDown start L0 ds ⟨cur, a, out, false⟩ = .ok r)
    (h' : sellDownOut start L0 ds ⟨cur, o, acc, false⟩ = .ok r') (ha : r'.amountIn ≤ acc + a) : out + o ≤ r.out := by
  induction ds generalizing cur a o out acc with
  | nil =>
    have hg := sellDown_grow hd hs h
    rcases sellDownOut_nil h' with ⟨b1, b2, b3⟩ | ⟨b1, b2, b3, b4, b5, b6, b7, b8⟩
    · omega
    · have ho := le_Qf_of b2 b5 b6
      rcases sellDown_nil h with ⟨a1, a2, a3, a4⟩ | ⟨a1, a2, a3, a4, a5, a6, a7, a8⟩ |
        ⟨a1, a2, a3, a4, a5, a6, a7, a8⟩
      · have h3 := nextDown_reach (L := L0) (x := cur) (n := r'.next) (a := 0) b2 (by omega) (by omega) (by omega)
        rw [Nat.zero_mul, Nat.add_zero, divCeil_self_mul (by omega)] at h3
        have e : r'.next = cur := by omega
        rw [e, Qf_self] at ho
        omega
      · have := Qf_mono (L := L0) (z := cur) b7
        omega
      · have h3 := nextDown_reach (L := L0) (x := cur) (n := r'.next) (a := a) b2 (by omega) (by omega) (by omega)
        rw [← a4] at h3
        have := Qf_mono (L := L0) (z := cur) h3
        omega
  | cons d ds ih =>
    have hh := hd.head
    rcases sellDownOut_cons hh h' with ⟨b1, b2, b3, b4, b5, b6⟩ | ⟨b1, b2, b3⟩ | ⟨b1, b2⟩
    · have ho := le_Qf_of hh.2.2 b3 b4
      rcases sellDown_cons hh h with ⟨a1, a2, a3, a4, a5, a6, a7, a8⟩ | ⟨a1, a2, a3⟩ | ⟨a1, a2⟩
      · have h3 := nextDown_reach (L := d.2) (x := cur) (n := r'.next) (a := a) hh.2.2 (by omega) (by omega) (by omega)
        rw [← a3] at h3
        have := Qf_mono (L := d.2) (z := cur) h3
        omega
      · have := Qf_mono (L := d.2) (z := cur) b6
        have := sellDown_grow hd.tail (by omega) a3
        omega
      · omega
    · have hg := sellDownOut_grow hd.tail (by omega) b3
      rcases sellDown_cons hh h with ⟨a1, a2, a3, a4, a5, a6, a7, a8⟩ | ⟨a1, a2, a3⟩ | ⟨a1, a2⟩
      · omega
      · have := ih hd.tail (by omega) a3 b3 (by omega)
        omega
      · omega
    · rcases sellDown_cons hh h with ⟨a1, a2, a3, a4, a5, a6, a7, a8⟩ | ⟨a1, a2, a3⟩ | ⟨a1, a2⟩
      · omega
      · omega
      · exact ih hd.tail hs a2 b2 ha

end Dbc

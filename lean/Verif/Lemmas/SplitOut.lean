import Verif.Lemmas.Serve

/-!
# Exact output: two trades cost at least as much as one
-/

namespace Dbc

open Spec

theorem Qc_add {L x y z : Nat} (h1 : x ≤ y) (h2 : y ≤ z) : Qc L x z ≤ Qc L x y + Qc L y z :=
  Qc_after h1 h2 (by
    rw [Nat.mul_comm (2 ^ 128)]
    exact le_divCeil_mul (L * (y - x)) (b := 2 ^ 128) (by positivity))

theorem Bc_add {L x y z : Nat} (hx : 0 < x) (h1 : x ≤ y) (h2 : y ≤ z) : Bc L x z ≤ Bc L y z + Bc L x y :=
  Bc_after hx h1 h2 (le_divCeil_mul (L * (z - y)) (b := y * z) (by
    have hy : 0 < y := by omega
    have hz : 0 < z := by omega
    positivity))

/-! ### Buys -/

theorem buyOut_released {x L a hi n : Nat} (hx : 0 < x) (hxh : x ≤ hi) (ha : a ≤ Bf L x hi) (hal : a * x < L)
    (hn : n = divCeil (L * x) (L - a * x)) : a ≤ Bf L x n := by
  obtain ⟨h1, h2, h3⟩ := buyOut_step hx hxh ha hal hn
  have hn0 : 0 < n := by omega
  unfold Bf
  rw [Nat.le_div_iff_mul_le (by positivity)]
  exact h3

/-- Asking for less, with less already paid, also goes through and costs no more. -/
theorem buyOutLoop_less {ps : List Point} {lo cur left left' inp inp' e i n : Nat} (hp : Proper lo ps) (hlo : lo ≤ cur)
    (hM : ∀ q ∈ ps, q.price ≤ MAX_SQRT_PRICE) (hL : ∀ q ∈ ps, q.liq ≤ u128Max)
    (h : buyOutLoop ps cur left inp = .ok (0, i, n)) (hl : left' ≤ left) (hi : inp' ≤ inp + e) (hlu : left' ≤ u64Max)
    (hu : i + e ≤ u64Max) : ∃ i' n', buyOutLoop ps cur left' inp' = .ok (0, i', n') ∧ i' ≤ i + e ∧ n' ≤ n := by
  induction ps generalizing lo cur left left' inp inp' with
  | nil =>
    simp only [buyOutLoop, ok_inj, Prod.mk.injEq] at h
    obtain ⟨rfl, rfl, rfl⟩ := h
    refine ⟨inp', cur, ?_, hi, le_rfl⟩
    rw [buyOutLoop, show left' = 0 by omega]
  | cons p ps ih =>
    simp only [Proper] at hp
    have hc0 : 0 < cur := by omega
    have hpM := hM p List.mem_cons_self
    have hpL := hL p List.mem_cons_self
    have hM' : ∀ q ∈ ps, q.price ≤ MAX_SQRT_PRICE := fun q hq => hM q (List.mem_cons_of_mem _ hq)
    have hL' : ∀ q ∈ ps, q.liq ≤ u128Max := fun q hq => hL q (List.mem_cons_of_mem _ hq)
    rcases buyOutLoop_cons (by omega) (by omega) hc0 h with ⟨a1, a2, a3, a4, a5, a6, a7, a8⟩ | ⟨a1, a2, a3⟩ | ⟨a1, a2⟩
    · have h3 := nextUpOut_mono hl a3
      rw [← a4] at h3
      have h4 := Qc_mono (L := p.liq) (x := cur) h3
      exact ⟨_, _, buyOutLoop_inside hp.2.2.1 hpL hc0 hpM a1 (by omega) (by omega), by omega, h3⟩
    · have hg := buyOutLoop_grow hp.2.2.2 le_rfl a3
      by_cases hb : left' < Bf p.liq cur p.price
      · have hal := out_lt_liq hc0 a1.le hp.2.2.1 hb.le
        have h3 := nextUpOut_least hc0 a1.le hal hb.le
        have h4 := Qc_mono (L := p.liq) (x := cur) h3
        exact ⟨_, _, buyOutLoop_inside hp.2.2.1 hpL hc0 hpM a1 hb (by omega), by omega, by omega⟩
      · rw [buyOutLoop_across hp.2.2.1 hpL hc0 hpM a1 (by omega) hlu (by omega)]
        exact ih hp.2.2.2 le_rfl hM' hL' a3 (by omega) (by omega) (by omega)
    · rw [buyOutLoop_skip (by omega) hp.2.2.1 a1]
      exact ih hp.2.2.2 a1 hM' hL' a2 hl hi hlu

/-- Where two exact-out buys go through one after the other, so does one for the sum or less; it costs no more and ends no higher. -/
theorem buyOutLoop_split {ps : List Point} {lo cur a b t inp i1 n1 i2 n2 : Nat} (hp : Proper lo ps) (hlo : lo ≤ cur)
    (hM : ∀ q ∈ ps, q.price ≤ MAX_SQRT_PRICE) (hL : ∀ q ∈ ps, q.liq ≤ u128Max)
    (h1 : buyOutLoop ps cur a inp = .ok (0, i1, n1)) (h2 : buyOutLoop ps n1 b 0 = .ok (0, i2, n2))
    (ht : t ≤ a + b) (hab : t ≤ u64Max) (hu : i1 + i2 ≤ u64Max) :
    ∃ i n, buyOutLoop ps cur t inp = .ok (0, i, n) ∧ i ≤ i1 + i2 ∧ n ≤ n2 := by
  induction ps generalizing lo cur a t inp with
  | nil =>
    simp only [buyOutLoop, ok_inj, Prod.mk.injEq] at h1 h2
    obtain ⟨rfl, rfl, rfl⟩ := h1
    obtain ⟨rfl, rfl, rfl⟩ := h2
    refine ⟨inp, cur, ?_, by omega, le_rfl⟩
    rw [buyOutLoop, show t = 0 by omega]
  | cons p ps ih =>
    simp only [Proper] at hp
    have hc0 : 0 < cur := by omega
    have hpM := hM p List.mem_cons_self
    have hpL := hL p List.mem_cons_self
    have hM' : ∀ q ∈ ps, q.price ≤ MAX_SQRT_PRICE := fun q hq => hM q (List.mem_cons_of_mem _ hq)
    have hL' : ∀ q ∈ ps, q.liq ≤ u128Max := fun q hq => hL q (List.mem_cons_of_mem _ hq)
    rcases buyOutLoop_cons (by omega) (by omega) hc0 h1 with ⟨a1, a2, a3, a4, a5, a6, a7, a8⟩ | ⟨a1, a2, a3⟩ | ⟨a1, a2⟩
    · have hrel := buyOut_released hc0 a1.le a2.le a3 a4
      have hn0 : 0 < n1 := by omega
      have hinside : ∀ m, n1 ≤ m → m ≤ p.price → t ≤ Bf p.liq cur m → t < Bf p.liq cur p.price → m ≤ n2 →
          Qc p.liq n1 m ≤ i2 →
          ∃ i n, buyOutLoop (p :: ps) cur t inp = .ok (0, i, n) ∧ i ≤ i1 + i2 ∧ n ≤ n2 := by
        intro m m1 m2 m3 m4 m5 m6
        have hal := out_lt_liq hc0 (a7.trans m1) hp.2.2.1 m3
        have hn := nextUpOut_least hc0 (a7.trans m1) hal m3
        have hq := Qc_mono (L := p.liq) (x := cur) hn
        have hq2 := Qc_add (L := p.liq) a7 m1
        exact ⟨_, _, buyOutLoop_inside hp.2.2.1 hpL hc0 hpM a1 m4 (by omega), by omega, by omega⟩
      have hadd := Bf_add (L := p.liq) hc0 a7 a8
      rcases buyOutLoop_cons (by omega) (by omega) hn0 h2 with ⟨b1, b2, b3, b4, b5, b6, b7, b8⟩ | ⟨b1, b2, b3⟩ | ⟨b1, b2⟩
      · have hrel2 := buyOut_released hn0 b1.le b2.le b3 b4
        have hadd2 := Bf_add (L := p.liq) hc0 a7 b7
        exact hinside n2 b7 b8 (by omega) (by omega) le_rfl (by omega)
      · have hg := buyOutLoop_grow hp.2.2.2 le_rfl b3
        by_cases hb : t < Bf p.liq cur p.price
        · exact hinside p.price b1.le le_rfl hb.le hb hg.1 (by omega)
        · have hq2 := Qc_add (L := p.liq) a7 b1.le
          rw [buyOutLoop_across hp.2.2.1 hpL hc0 hpM a1 (by omega) hab (by omega)]
          obtain ⟨i, n, e1, e2, e3⟩ := buyOutLoop_less (e := i1) (left' := t - Bf p.liq cur p.price)
            (inp' := inp + Qc p.liq cur p.price) hp.2.2.2 le_rfl hM' hL' b3 (by omega) (by omega) (by omega) (by omega)
          exact ⟨i, n, e1, by omega, e3⟩
      · have e : n1 = p.price := by omega
        have hg := buyOutLoop_grow hp.2.2.2 b1 b2
        by_cases hb : t < Bf p.liq cur p.price
        · have hal := out_lt_liq hc0 a1.le hp.2.2.1 hb.le
          have hn := nextUpOut_least hc0 a1.le hal hb.le
          have hq := Qc_mono (L := p.liq) (x := cur) hn
          rw [← e] at hq
          exact ⟨_, _, buyOutLoop_inside hp.2.2.1 hpL hc0 hpM a1 hb (by omega), by omega, by omega⟩
        · rw [e] at a6 b2 hrel
          rw [buyOutLoop_across hp.2.2.1 hpL hc0 hpM a1 (by omega) hab (by omega)]
          obtain ⟨i, n, e1, e2, e3⟩ := buyOutLoop_less (e := i1) (left' := t - Bf p.liq cur p.price)
            (inp' := inp + Qc p.liq cur p.price) hp.2.2.2 le_rfl hM' hL' b2 (by omega) (by omega) (by omega) (by omega)
          exact ⟨i, n, e1, by omega, e3⟩
    · have hg := buyOutLoop_grow hp.2.2.2 le_rfl a3
      rw [buyOutLoop_skip (by omega) hp.2.2.1 (by omega)] at h2
      have hg2 := buyOutLoop_grow hp.2.2.2 hg.1 h2
      by_cases hb : t < Bf p.liq cur p.price
      · have hal := out_lt_liq hc0 a1.le hp.2.2.1 hb.le
        have hn := nextUpOut_least hc0 a1.le hal hb.le
        have hq := Qc_mono (L := p.liq) (x := cur) hn
        exact ⟨_, _, buyOutLoop_inside hp.2.2.1 hpL hc0 hpM a1 hb (by omega), by omega, by omega⟩
      · rw [buyOutLoop_across hp.2.2.1 hpL hc0 hpM a1 (by omega) hab (by omega)]
        exact ih hp.2.2.2 le_rfl hM' hL' a3 h2 (by omega) (by omega)
    · have hg := buyOutLoop_grow hp.2.2.2 a1 a2
      rw [buyOutLoop_skip (by omega) hp.2.2.1 (by omega)] at h2 ⊢
      exact ih hp.2.2.2 a1 hM' hL' a2 h2 ht hab

/-! ### Sells -/

theorem sellOut_released {x L a n : Nat} (hL : 0 < L) (hle : divCeil (a * 2 ^ 128) L ≤ x)
    (hn : n = x - divCeil (a * 2 ^ 128) L) : a ≤ Qf L n x := by
  unfold Qf
  rw [Nat.le_div_iff_mul_le (by positivity), Nat.mul_comm a]
  exact (sellOut_step hL hle hn).2

theorem sellDownOut_less {start L0 cur left left' acc acc' e : Nat} {ds : List (Point × Nat)} {r : FromOutput}
    (hd : Downs start ds) (hL0 : L0 ≤ u128Max) (hL : ∀ d ∈ ds, d.2 ≤ u128Max) (hs0 : 0 < start) (hs : start ≤ cur)
    (hM : cur ≤ MAX_SQRT_PRICE) (h : sellDownOut start L0 ds ⟨cur, left, acc, false⟩ = .ok r) (hl : left' ≤ left)
    (ha : acc' ≤ acc + e) (hlu : left' ≤ u64Max) (hu : r.amountIn + e ≤ u64Max) :
    ∃ r', sellDownOut start L0 ds ⟨cur, left', acc', false⟩ = .ok r' ∧ r'.amountIn ≤ r.amountIn + e ∧ r.next ≤ r'.next := by
  induction ds generalizing cur left left' acc acc' with
  | nil =>
    rcases sellDownOut_nil h with ⟨a1, a2, a3⟩ | ⟨a1, a2, a3, a4, a5, a6, a7, a8⟩
    · refine ⟨⟨acc', cur⟩, ?_, by dsimp only; omega, by dsimp only; omega⟩
      rw [show left' = 0 by omega]
      rfl
    · have h1 := sellOut_released a2 a5 a6
      obtain ⟨r', e1, e2, e3⟩ := sellDownOut_last (left := left') (acc := acc') a2 hL0 hs0 hM a7 (show r.next ≤ cur by omega)
        (by omega) hlu (by omega)
      exact ⟨r', e1, by omega, e2⟩
  | cons d ds ih =>
    have hh := hd.head
    have hdL := hL d List.mem_cons_self
    have hL' : ∀ d ∈ ds, d.2 ≤ u128Max := fun q hq => hL q (List.mem_cons_of_mem _ hq)
    rcases sellDownOut_cons hh h with ⟨a1, a2, a3, a4, a5, a6⟩ | ⟨a1, a2, a3⟩ | ⟨a1, a2⟩
    · have h3 := nextDownOut_mono hh.2.2 hl
      have hb := Bc_mono (L := d.2) (show 0 < r.next by omega)
        (show r.next ≤ cur - divCeil (left' * 2 ^ 128) d.2 by omega) (Nat.sub_le _ _)
      exact ⟨_, sellDownOut_inside hh hdL hM a1 (by omega) hlu (by omega), by dsimp only; omega, by dsimp only; omega⟩
    · have hg := sellDownOut_grow hd.tail (by omega) a3
      by_cases hb : left' < Qf d.2 d.1.price cur
      · have h3 := nextDownOut_least hh.2.2 a1.le hb.le
        have h4 := Bc_mono (L := d.2) (show 0 < d.1.price by omega)
          (show d.1.price ≤ cur - divCeil (left' * 2 ^ 128) d.2 by omega) (Nat.sub_le _ _)
        exact ⟨_, sellDownOut_inside hh hdL hM a1 hb hlu (by omega), by dsimp only; omega, by dsimp only; omega⟩
      · rw [sellDownOut_across hh hdL hM a1 (by omega) hlu (by omega)]
        exact ih hd.tail hL' (by omega) (by omega) a3 (by omega) (by omega) (by omega)
    · rw [sellDownOut_skip hh a1]
      exact ih hd.tail hL' hs hM a2 hl ha hlu

/-- Where two exact-out sales go through one after the other, so does one for the sum or less; it costs no more and ends no lower. -/
theorem sellDownOut_split {start L0 cur a b t acc : Nat} {ds : List (Point × Nat)} {r1 r2 : FromOutput}
    (hd : Downs start ds) (hL0 : L0 ≤ u128Max) (hL : ∀ d ∈ ds, d.2 ≤ u128Max) (hs0 : 0 < start) (hs : start ≤ cur)
    (hM : cur ≤ MAX_SQRT_PRICE) (h1 : sellDownOut start L0 ds ⟨cur, a, acc, false⟩ = .ok r1)
    (h2 : sellDownOut start L0 ds ⟨r1.next, b, 0, false⟩ = .ok r2) (ht : t ≤ a + b) (hab : t ≤ u64Max)
    (hu : r1.amountIn + r2.amountIn ≤ u64Max) :
    ∃ r, sellDownOut start L0 ds ⟨cur, t, acc, false⟩ = .ok r ∧ r.amountIn ≤ r1.amountIn + r2.amountIn ∧
      r2.next ≤ r.next := by
  induction ds generalizing cur a t acc with
  | nil =>
    rcases sellDownOut_nil h1 with ⟨a1, a2, a3⟩ | ⟨a1, a2, a3, a4, a5, a6, a7, a8⟩
    · rw [a3] at h2
      obtain ⟨r, e1, e2, e3⟩ := sellDownOut_less (e := acc) (left' := t) (acc' := acc) hd hL0 hL hs0 hs hM h2 (by omega)
        (by omega) hab (by omega)
      exact ⟨r, e1, by omega, e3⟩
    · rcases sellDownOut_nil h2 with ⟨b1, b2, b3⟩ | ⟨b1, b2, b3, b4, b5, b6, b7, b8⟩
      · subst b1
        obtain ⟨r, e1, e2, e3⟩ := sellDownOut_less (e := 0) (left' := t) (acc' := acc) hd hL0 hL hs0 hs hM h1 (by omega)
          (by omega) hab (by omega)
        exact ⟨r, e1, by omega, by omega⟩
      · have q1 := sellOut_released a2 a5 a6
        have q2 := sellOut_released b2 b5 b6
        have q3 := Qf_add (L := L0) (show r2.next ≤ r1.next by omega) (show r1.next ≤ cur by omega)
        have q4 := Bc_add (L := L0) (show 0 < r2.next by omega) (show r2.next ≤ r1.next by omega) (show r1.next ≤ cur by omega)
        obtain ⟨r, e1, e2, e3⟩ := sellDownOut_last (left := t) (acc := acc) a2 hL0 hs0 hM b7 (show r2.next ≤ cur by omega)
          (by omega) hab (by omega)
        exact ⟨r, e1, by omega, e2⟩
  | cons d ds ih =>
    have hh := hd.head
    have hdL := hL d List.mem_cons_self
    have hL' : ∀ d ∈ ds, d.2 ≤ u128Max := fun q hq => hL q (List.mem_cons_of_mem _ hq)
    rcases sellDownOut_cons hh h1 with ⟨a1, a2, a3, a4, a5, a6⟩ | ⟨a1, a2, a3⟩ | ⟨a1, a2⟩
    · have q1 := sellOut_released hh.2.2 a3 a4
      have hle : r1.next ≤ cur := by omega
      have hinside : ∀ m, d.1.price ≤ m → m ≤ r1.next → t ≤ Qf d.2 m cur → t < Qf d.2 d.1.price cur → r2.next ≤ m →
          Bc d.2 m r1.next ≤ r2.amountIn →
          ∃ r, sellDownOut start L0 (d :: ds) ⟨cur, t, acc, false⟩ = .ok r ∧ r.amountIn ≤ r1.amountIn + r2.amountIn ∧
            r2.next ≤ r.next := by
        intro m m1 m2 m3 m4 m5 m6
        have hn := nextDownOut_least hh.2.2 (m2.trans hle) m3
        have hb := Bc_mono (L := d.2) (show 0 < m by omega) (show m ≤ cur - divCeil (t * 2 ^ 128) d.2 by omega)
          (Nat.sub_le _ _)
        have hb2 := Bc_add (L := d.2) (show 0 < m by omega) m2 hle
        exact ⟨_, sellDownOut_inside hh hdL hM a1 m4 hab (by omega), by dsimp only; omega, by dsimp only; omega⟩
      have hadd := Qf_add (L := d.2) a6 hle
      rcases sellDownOut_cons hh h2 with ⟨b1, b2, b3, b4, b5, b6⟩ | ⟨b1, b2, b3⟩ | ⟨b1, b2⟩
      · have q2 := sellOut_released hh.2.2 b3 b4
        have hadd2 := Qf_add (L := d.2) (show r2.next ≤ r1.next by omega) hle
        exact hinside r2.next b6 (by omega) (by omega) (by omega) le_rfl (by omega)
      · have hg := sellDownOut_grow hd.tail (by omega) b3
        by_cases hb : t < Qf d.2 d.1.price cur
        · exact hinside d.1.price le_rfl b1.le hb.le hb hg.1 (by omega)
        · have hq2 := Bc_add (L := d.2) (show 0 < d.1.price by omega) b1.le hle
          rw [sellDownOut_across hh hdL hM a1 (by omega) hab (by omega)]
          obtain ⟨r, e1, e2, e3⟩ := sellDownOut_less (e := r1.amountIn) (left' := t - Qf d.2 d.1.price cur)
            (acc' := acc + Bc d.2 d.1.price cur) hd.tail hL0 hL' hs0 (by omega) (by omega) b3 (by omega) (by omega) (by omega)
            (by omega)
          exact ⟨r, e1, by omega, e3⟩
      · have e : r1.next = d.1.price := by omega
        have hg := sellDownOut_grow hd.tail (by omega) b2
        by_cases hb : t < Qf d.2 d.1.price cur
        · have hn := nextDownOut_least hh.2.2 a1.le hb.le
          have hb2 := Bc_mono (L := d.2) (show 0 < d.1.price by omega)
            (show d.1.price ≤ cur - divCeil (t * 2 ^ 128) d.2 by omega) (Nat.sub_le _ _)
          rw [e] at a5
          exact ⟨_, sellDownOut_inside hh hdL hM a1 hb hab (by omega), by dsimp only; omega, by dsimp only; omega⟩
        · rw [e] at a5 b2 q1
          rw [sellDownOut_across hh hdL hM a1 (by omega) hab (by omega)]
          obtain ⟨r, e1, e2, e3⟩ := sellDownOut_less (e := r1.amountIn) (left' := t - Qf d.2 d.1.price cur)
            (acc' := acc + Bc d.2 d.1.price cur) hd.tail hL0 hL' hs0 (by omega) (by omega) b2 (by omega) (by omega) (by omega)
            (by omega)
          exact ⟨r, e1, by omega, e3⟩
    · have hg := sellDownOut_grow hd.tail (by omega) a3
      rw [sellDownOut_skip hh (by omega)] at h2
      have hg2 := sellDownOut_grow hd.tail hg.2.1 h2
      by_cases hb : t < Qf d.2 d.1.price cur
      · have hn := nextDownOut_least hh.2.2 a1.le hb.le
        have hb2 := Bc_mono (L := d.2) (show 0 < d.1.price by omega)
          (show d.1.price ≤ cur - divCeil (t * 2 ^ 128) d.2 by omega) (Nat.sub_le _ _)
        exact ⟨_, sellDownOut_inside hh hdL hM a1 hb hab (by omega), by dsimp only; omega, by dsimp only; omega⟩
      · rw [sellDownOut_across hh hdL hM a1 (by omega) hab (by omega)]
        exact ih hd.tail hL' (by omega) (by omega) a3 h2 (by omega) (by omega)
    · have hg := sellDownOut_grow hd.tail hs a2
      rw [sellDownOut_skip hh (by omega)] at h2 ⊢
      exact ih hd.tail hL' hs hM a2 h2 ht hab

end Dbc

import Verif.Lemmas.Modes
import Verif.Lemmas.Total

/-!
# Exact-output walks go through whenever an exact-input walk yields more
-/

namespace Dbc

open Spec

theorem nextOut_base_eq {x L a m : Nat} (hx : 0 < x) (hL2 : L ≤ u128Max) (hxm : x ≤ m)
    (hM : m ≤ MAX_SQRT_PRICE) (ha : a ≤ Bf L x m) (hal : a * x < L) :
    nextPriceFromOutput x L a false = .ok (divCeil (L * x) (L - a * x)) := by
  have hle := nextUpOut_least hx hxm hal ha
  have hL : 0 < L := by omega
  simp only [nextPriceFromOutput, nextPriceBaseOut, bind_ok, req_ok, Bool.false_eq_true, if_false]
  refine ⟨(), hx, (), hL, ?_⟩
  by_cases h0 : a = 0
  · rw [if_pos h0, h0]
    simp [divCeil_self_mul hL]
  · simp only [h0, if_false, bind_ok, safeMul_ok, safeSub_ok, mulDivU256_ok, castTo_ok]
    refine ⟨_, ⟨(hal.le.trans hL2).trans (by decide +kernel), rfl⟩, _, ⟨hal.le, rfl⟩, _, ⟨by omega, ?_, rfl⟩, ?_, rfl⟩
    · exact (hle.trans hM).trans (by decide +kernel)
    · exact (hle.trans hM).trans (by decide +kernel)

theorem nextOut_quote_eq {x L a m : Nat} (hL : 0 < L) (hx : 0 < x) (hM : x ≤ MAX_SQRT_PRICE) (hmx : m ≤ x)
    (ha : a ≤ Qf L m x) (hu : a ≤ u64Max) :
    nextPriceFromOutput x L a true = .ok (x - divCeil (a * 2 ^ 128) L) ∧ divCeil (a * 2 ^ 128) L ≤ x - m := by
  have hle := nextDownOut_least hL hmx ha
  refine ⟨?_, hle⟩
  simp only [nextPriceFromOutput, nextPriceQuoteOut, bind_ok, req_ok, if_true, safeShl256_ok, safeSub_ok, castTo_ok]
  refine ⟨(), hx, (), hL, _, ⟨(Nat.mul_le_mul_right _ hu).trans (by decide +kernel), rfl⟩, _, ⟨by omega, rfl⟩, ?_, rfl⟩
  exact (Nat.sub_le _ _).trans (hM.trans (by decide +kernel))

theorem out_lt_liq {L x m a : Nat} (hx : 0 < x) (hxm : x ≤ m) (hL : 0 < L) (ha : a ≤ Bf L x m) : a * x < L := by
  unfold Bf at ha
  have hm : 0 < m := by omega
  rw [Nat.le_div_iff_mul_le (by positivity)] at ha
  have h1 : L * (m - x) < L * m := Nat.mul_lt_mul_of_pos_left (by omega) hL
  have h2 : a * x * m < L * m := by
    calc a * x * m = a * (x * m) := by ring
      _ ≤ L * (m - x) := ha
      _ < L * m := h1
  exact Nat.lt_of_mul_lt_mul_right h2

/-! ### Buys -/

theorem buyOutLoop_inside {p : Point} {ps : List Point} {cur left inp : Nat} (hL : 0 < p.liq) (hL2 : p.liq ≤ u128Max)
    (hc0 : 0 < cur) (hM : p.price ≤ MAX_SQRT_PRICE) (hc : cur < p.price) (hl : left < Bf p.liq cur p.price)
    (hu : inp + Qc p.liq cur (divCeil (p.liq * cur) (p.liq - left * cur)) ≤ u64Max) :
    buyOutLoop (p :: ps) cur left inp = .ok (0, inp + Qc p.liq cur (divCeil (p.liq * cur) (p.liq - left * cur)),
      divCeil (p.liq * cur) (p.liq - left * cur)) := by
  have hal := out_lt_liq hc0 hc.le hL hl.le
  have hst := buyOut_step hc0 hc.le hl.le hal rfl
  have hnx := nextOut_base_eq hc0 hL2 hc.le hM hl.le hal
  rw [buyOutLoop, if_neg (by omega), if_pos hc, deltaBase256_eq .down hc0 hc.le hM hL2, ok_bind]
  unfold Bf at hl
  simp only [divRound, hl, if_true]
  rw [hnx, ok_bind]
  generalize divCeil (p.liq * cur) (p.liq - left * cur) = n at *
  unfold Qc at hu ⊢
  rw [deltaQuote_eq .up hst.1 (hst.2.1.trans hM) hL2 (by simp only [divRound]; omega), ok_bind]
  simp only [divRound]
  rw [safeAdd_eq hu, ok_bind]

theorem buyOutLoop_across {p : Point} {ps : List Point} {cur left inp : Nat} (hL : 0 < p.liq) (hL2 : p.liq ≤ u128Max)
    (hc0 : 0 < cur) (hM : p.price ≤ MAX_SQRT_PRICE) (hc : cur < p.price) (hl : Bf p.liq cur p.price ≤ left)
    (hlu : left ≤ u64Max) (hu : inp + Qc p.liq cur p.price ≤ u64Max) :
    buyOutLoop (p :: ps) cur left inp =
      buyOutLoop ps p.price (left - Bf p.liq cur p.price) (inp + Qc p.liq cur p.price) := by
  rw [buyOutLoop, if_neg (by omega), if_pos hc, deltaBase256_eq .down hc0 hc.le hM hL2, ok_bind]
  unfold Bf at hl ⊢
  simp only [divRound, not_lt.2 hl, if_false]
  unfold Qc at hu ⊢
  rw [deltaQuote_eq .up hc.le hM hL2 (by simp only [divRound]; omega), ok_bind]
  simp only [divRound]
  rw [safeAdd_eq hu, ok_bind, castTo_eq (by omega), ok_bind, safeSub_eq hl, ok_bind]

theorem buyOutLoop_skip {p : Point} {ps : List Point} {cur left inp : Nat} (hp : 0 < p.price) (hL : 0 < p.liq)
    (hc : p.price ≤ cur) : buyOutLoop (p :: ps) cur left inp = buyOutLoop ps cur left inp := by
  rw [buyOutLoop, if_neg (by omega), if_neg (by omega)]

/-- Where an exact-in buy yields more than `o`, an exact-out buy of `o` goes through, costs no more and ends no higher. -/
theorem buyOutLoop_exists {stop : Nat} {ps : List Point} {lo cur a o out inp : Nat} {r : FromInput} (hp : Proper lo ps)
    (hlo : lo ≤ cur) (hM : ∀ q ∈ ps, q.price ≤ MAX_SQRT_PRICE) (hL : ∀ q ∈ ps, q.liq ≤ u128Max)
    (h : buyInLoop stop ps cur a out = .ok r) (ho : out + o < r.out) (hou : o ≤ u64Max) (hu : inp + (a - r.left) ≤ u64Max) :
    ∃ i n, buyOutLoop ps cur o inp = .ok (0, i, n) ∧ n ≤ r.next ∧ i ≤ inp + (a - r.left) := by
  induction ps generalizing lo cur a o out inp with
  | nil =>
    simp only [buyInLoop, ok_inj] at h
    subst h
    dsimp only at ho
    omega
  | cons p ps ih =>
    simp only [Proper] at hp
    have hc0 : 0 < cur := by omega
    have hpM := hM p List.mem_cons_self
    have hpL := hL p List.mem_cons_self
    have hM' : ∀ q ∈ ps, q.price ≤ MAX_SQRT_PRICE := fun q hq => hM q (List.mem_cons_of_mem _ hq)
    have hL' : ∀ q ∈ ps, q.liq ≤ u128Max := fun q hq => hL q (List.mem_cons_of_mem _ hq)
    have inside : ∀ m, cur ≤ m → m ≤ p.price → cur < p.price → o < Bf p.liq cur m → m ≤ r.next → Qc p.liq cur m ≤ a - r.left →
        ∃ i n, buyOutLoop (p :: ps) cur o inp = .ok (0, i, n) ∧ n ≤ r.next ∧ i ≤ inp + (a - r.left) := by
      intro m m1 m2 m3 m4 m5 m6
      have hal := out_lt_liq hc0 m1 hp.2.2.1 m4.le
      have hn := nextUpOut_least hc0 m1 hal m4.le
      have hq := Qc_mono (L := p.liq) (x := cur) hn
      have hb := Bf_mono (L := p.liq) hc0 m1 m2
      refine ⟨_, _, buyOutLoop_inside hp.2.2.1 hpL hc0 hpM m3 (by omega) (by omega), by omega, by omega⟩
    rcases buyInLoop_cons (by omega) (by omega) h with ⟨a1, a2, a3, a4, a5, a6, a7, a8⟩ | ⟨a1, a2, a3, a4, a5, a6⟩ |
        ⟨a1, a2, a3, a4⟩ | ⟨a1, a2⟩
    · refine inside r.next a6 (by omega) (by omega) (by omega) le_rfl ?_
      rw [a4, Nat.sub_zero]
      unfold Qc
      rw [divCeil_le_iff (by positivity), Nat.mul_comm a]; exact a8
    · exact inside stop (by omega) a2 (by omega) (by omega) (by omega) (by omega)
    · obtain ⟨_, _, -, hle, -⟩ := buyInLoop_trace hp.2.2.2 (fun _ h => h) le_rfl a4
      by_cases hb : o < Bf p.liq cur p.price
      · exact inside p.price (by omega) le_rfl a1 hb (buyInLoop_grow hp.2.2.2 le_rfl a4).1 (by omega)
      · obtain ⟨i, n, e1, e2, e3⟩ := ih (o := o - Bf p.liq cur p.price) (inp := inp + Qc p.liq cur p.price) hp.2.2.2 le_rfl
          hM' hL' a4 (by omega) (by omega) (by omega)
        exact ⟨i, n, by rw [buyOutLoop_across hp.2.2.1 hpL hc0 hpM a1 (by omega) hou (by omega)]; exact e1, e2, by omega⟩
    · by_cases hc : p.price ≤ cur
      · rw [buyOutLoop_skip (by omega) hp.2.2.1 hc]
        exact ih hp.2.2.2 hc hM' hL' a2 ho hou hu
      · have e := buyInLoop_stopped hp.2.2.2 (by omega) a2
        subst e
        dsimp only at ho
        omega

/-! ### Sells -/

theorem divRound_Qf (L x y : Nat) : divRound .down (L * (y - x)) (2 ^ 128) = Qf L x y := rfl

theorem sellDownOut_inside {start L0 cur left acc : Nat} {d : Point × Nat} {ds : List (Point × Nat)}
    (hd : start < d.1.price ∧ d.1.liq ≠ 0 ∧ 0 < d.2) (hL2 : d.2 ≤ u128Max) (hM : cur ≤ MAX_SQRT_PRICE)
    (hc : d.1.price < cur) (hl : left < Qf d.2 d.1.price cur) (hlu : left ≤ u64Max)
    (hu : acc + Bc d.2 (cur - divCeil (left * 2 ^ 128) d.2) cur ≤ u64Max) :
    sellDownOut start L0 (d :: ds) ⟨cur, left, acc, false⟩ =
      .ok ⟨acc + Bc d.2 (cur - divCeil (left * 2 ^ 128) d.2) cur, cur - divCeil (left * 2 ^ 128) d.2⟩ := by
  obtain ⟨hnx, hle⟩ := nextOut_quote_eq hd.2.2 (by omega) hM hc.le hl.le hlu
  simp only [sellDownOut, desc, sellOutStep, Bool.false_eq_true, if_false]
  rw [if_neg (by omega), if_pos hc, deltaQuote256_eq .down hc.le hM hL2, ok_bind]
  unfold Qf at hl
  simp only [divRound, hl, if_true]
  rw [hnx, ok_bind]
  generalize divCeil (left * 2 ^ 128) d.2 = z at *
  unfold Bc at hu ⊢
  rw [deltaBase_eq .up (by omega) (by omega) hM hL2 (by simp only [divRound]; omega), ok_bind]
  simp only [divRound]
  rw [safeAdd_eq hu, ok_bind, ok_bind, descOut_done _ _ rfl, ok_bind]
  simp only [sellOutFinish, ne_eq, not_true_eq_false, if_false]

theorem sellDownOut_across {start L0 cur left acc : Nat} {d : Point × Nat} {ds : List (Point × Nat)}
    (hd : start < d.1.price ∧ d.1.liq ≠ 0 ∧ 0 < d.2) (hL2 : d.2 ≤ u128Max) (hM : cur ≤ MAX_SQRT_PRICE)
    (hc : d.1.price < cur) (hl : Qf d.2 d.1.price cur ≤ left) (hlu : left ≤ u64Max)
    (hu : acc + Bc d.2 d.1.price cur ≤ u64Max) :
    sellDownOut start L0 (d :: ds) ⟨cur, left, acc, false⟩ =
      sellDownOut start L0 ds ⟨d.1.price, left - Qf d.2 d.1.price cur, acc + Bc d.2 d.1.price cur, false⟩ := by
  simp only [sellDownOut, desc, sellOutStep, Bool.false_eq_true, if_false]
  rw [if_neg (by omega), if_pos hc, deltaQuote256_eq .down hc.le hM hL2, ok_bind, divRound_Qf, if_neg (not_lt.2 hl)]
  unfold Bc at hu ⊢
  rw [deltaBase_eq .up (by omega) hc.le hM hL2 (by simp only [divRound]; omega), ok_bind]
  rw [show divRound .up (d.2 * (cur - d.1.price)) (d.1.price * cur) = divCeil (d.2 * (cur - d.1.price)) (d.1.price * cur) from rfl]
  rw [safeAdd_eq hu, ok_bind, (req_ok (u := ())).2 (by omega), ok_bind, safeSub_eq hl, ok_bind, ok_bind]

theorem sellDownOut_skip {start L0 cur left acc : Nat} {d : Point × Nat} {ds : List (Point × Nat)}
    (hd : start < d.1.price ∧ d.1.liq ≠ 0 ∧ 0 < d.2) (hc : cur ≤ d.1.price) :
    sellDownOut start L0 (d :: ds) ⟨cur, left, acc, false⟩ = sellDownOut start L0 ds ⟨cur, left, acc, false⟩ := by
  simp only [sellDownOut, desc, sellOutStep, Bool.false_eq_true, if_false]
  rw [if_neg (by omega), if_neg (by omega), ok_bind]

theorem sellDownOut_last {start L0 cur left acc m : Nat} (hL : 0 < L0) (hL2 : L0 ≤ u128Max) (hs0 : 0 < start)
    (hM : cur ≤ MAX_SQRT_PRICE) (h1 : start ≤ m) (h2 : m ≤ cur) (hl : left ≤ Qf L0 m cur) (hlu : left ≤ u64Max)
    (hu : acc + Bc L0 m cur ≤ u64Max) :
    ∃ r, sellDownOut start L0 [] ⟨cur, left, acc, false⟩ = .ok r ∧ m ≤ r.next ∧ r.amountIn ≤ acc + Bc L0 m cur := by
  obtain ⟨hnx, hle⟩ := nextOut_quote_eq hL (by omega) hM h2 hl hlu
  have hq := Qf_mono (L := L0) (z := cur) h1
  simp only [sellDownOut, desc, ok_bind, sellOutFinish]
  by_cases hz : left ≠ 0
  · simp only [hz, ne_eq, not_false_eq_true, if_true]
    rw [deltaQuote256_eq .down (by omega) hM hL2, ok_bind, divRound_Qf]
    rw [(req_ok (u := ())).2 (by omega), ok_bind, hnx, ok_bind]
    generalize divCeil (left * 2 ^ 128) L0 = z at *
    have hb := Bc_mono (L := L0) (show 0 < m by omega) (show m ≤ cur - z by omega) (Nat.sub_le _ _)
    unfold Bc at hb hu ⊢
    rw [(req_ok (u := ())).2 (by omega), ok_bind, deltaBase_eq .up (by omega) (by omega) hM hL2 (by simp only [divRound]; omega),
      ok_bind]
    simp only [divRound]
    rw [safeAdd_eq (by omega), ok_bind]
    exact ⟨_, rfl, by dsimp only; omega, by dsimp only; omega⟩
  · simp only [hz, if_false]
    exact ⟨_, rfl, h2, by dsimp only; omega⟩

theorem sellDown_left {start L0 cur a out : Nat} {ds : List (Point × Nat)} {r : FromInput} (hd : Downs start ds)
    (h : sellDown start L0 ds ⟨cur, a, out, false⟩ = .ok r) : r.left ≤ a := by
  induction ds generalizing cur a out with
  | nil =>
    rcases sellDown_nil h with h | h | h <;> omega
  | cons d ds ih =>
    rcases sellDown_cons hd.head h with h | ⟨a1, a2, a3⟩ | ⟨a1, a2⟩
    · omega
    · have := ih hd.tail a3
      omega
    · exact ih hd.tail a2

/-- Where an exact-in sale yields more than `o`, an exact-out sale of `o` goes through, costs no more and ends no lower. -/
theorem sellDownOut_exists {start L0 cur a o out acc : Nat} {ds : List (Point × Nat)} {r : FromInput} (hd : Downs start ds)
    (hL0 : L0 ≤ u128Max) (hL : ∀ d ∈ ds, d.2 ≤ u128Max) (hs0 : 0 < start) (hs : start ≤ cur) (hM : cur ≤ MAX_SQRT_PRICE)
    (h : sellDown start L0 ds ⟨cur, a, out, false⟩ = .ok r) (ho : out + o < r.out) (hou : o ≤ u64Max)
    (hu : acc + (a - r.left) ≤ u64Max) :
    ∃ r', sellDownOut start L0 ds ⟨cur, o, acc, false⟩ = .ok r' ∧ r.next ≤ r'.next ∧ r'.amountIn ≤ acc + (a - r.left) := by
  induction ds generalizing cur a o out acc with
  | nil =>
    rcases sellDown_nil h with ⟨a1, a2, a3, a4⟩ | ⟨a1, a2, a3, a4, a5, a6, a7, a8⟩ | ⟨a1, a2, a3, a4, a5, a6, a7, a8⟩
    · omega
    · obtain ⟨r', e1, e2, e3⟩ := sellDownOut_last (left := o) (acc := acc) a2 hL0 hs0 hM le_rfl a3 (by omega) hou (by omega)
      exact ⟨r', e1, by omega, by omega⟩
    · have h5 := Bc_le_of (by omega) (by omega) a8
      obtain ⟨r', e1, e2, e3⟩ := sellDownOut_last (left := o) (acc := acc) a2 hL0 hs0 hM a3 a7 (by omega) hou (by omega)
      exact ⟨r', e1, e2, by omega⟩
  | cons d ds ih =>
    have hh := hd.head
    have hdL := hL d List.mem_cons_self
    have hL' : ∀ d ∈ ds, d.2 ≤ u128Max := fun q hq => hL q (List.mem_cons_of_mem _ hq)
    have inside : ∀ m, d.1.price ≤ m → m ≤ cur → d.1.price < cur → o < Qf d.2 m cur → r.next ≤ m → Bc d.2 m cur ≤ a - r.left →
        ∃ r', sellDownOut start L0 (d :: ds) ⟨cur, o, acc, false⟩ = .ok r' ∧ r.next ≤ r'.next ∧ r'.amountIn ≤ acc + (a - r.left) := by
      intro m m1 m2 m3 m4 m5 m6
      have hn := nextDownOut_least hh.2.2 m2 m4.le
      have hb := Bc_mono (L := d.2) (show 0 < m by omega) (show m ≤ cur - divCeil (o * 2 ^ 128) d.2 by omega) (Nat.sub_le _ _)
      have hq := Qf_mono (L := d.2) (z := cur) m1
      exact ⟨_, sellDownOut_inside hh hdL hM m3 (by omega) hou (by omega), by dsimp only; omega, by dsimp only; omega⟩
    rcases sellDown_cons hh h with ⟨a1, a2, a3, a4, a5, a6, a7, a8⟩ | ⟨a1, a2, a3⟩ | ⟨a1, a2⟩
    · exact inside r.next (by omega) a7 a1 (by omega) le_rfl (by rw [a4, Nat.sub_zero]; exact Bc_le_of (by omega) (by omega) a8)
    · have hle := sellDown_left hd.tail a3
      by_cases hb : o < Qf d.2 d.1.price cur
      · exact inside d.1.price le_rfl a1.le a1 hb (sellDown_grow hd.tail (by omega) a3).1 (by omega)
      · obtain ⟨r', e1, e2, e3⟩ := ih (o := o - Qf d.2 d.1.price cur) (acc := acc + Bc d.2 d.1.price cur) hd.tail hL' (by omega)
          (by omega) a3 (by omega) (by omega) (by omega)
        exact ⟨r', by rw [sellDownOut_across hh hdL hM a1 (by omega) hou (by omega)]; exact e1, e2, by omega⟩
    · rw [sellDownOut_skip hh a1]
      exact ih hd.tail hL' hs hM a2 ho hou hu

theorem downs_liq_mem {ps : List Point} {d : Point × Nat} (h : d ∈ downs ps) : ∃ q ∈ ps, q.liq = d.2 := by
  induction ps with
  | nil => simp [downs] at h
  | cons p ps ih =>
    cases ps with
    | nil => simp [downs] at h
    | cons q rest =>
      simp only [downs, List.mem_append, List.mem_singleton] at h
      rcases h with h | rfl
      · obtain ⟨x, hx, e⟩ := ih h
        exact ⟨x, List.mem_cons_of_mem _ hx, e⟩
      · exact ⟨q, by simp, rfl⟩

theorem price_le_top {lo : Nat} {ps : List Point} (h : Proper lo ps) : ∀ q ∈ ps, q.price ≤ topPrice lo ps := by
  induction ps generalizing lo with
  | nil => intro q hq; cases hq
  | cons p ps ih =>
    simp only [Proper] at h
    intro q hq
    simp only [topPrice]
    rcases List.mem_cons.1 hq with rfl | hq
    · exact Proper.lo_le_top h.2.2.2
    · exact ih h.2.2.2 q hq

end Dbc

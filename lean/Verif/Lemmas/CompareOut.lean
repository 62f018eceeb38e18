import Verif.Lemmas.CompareDown

/-!
# Exact output: monotone in the output, and compared with exact input
-/

namespace Dbc

open Spec

/-! ### Buys -/

theorem buyOutLoop_cons {p : Point} {ps : List Point} {cur left inp l i n : Nat} (hp : p.price ≠ 0) (hL : p.liq ≠ 0)
    (hc0 : 0 < cur) (h : buyOutLoop (p :: ps) cur left inp = .ok (l, i, n)) :
    (cur < p.price ∧ left < Bf p.liq cur p.price ∧ left * cur < p.liq ∧
      n = divCeil (p.liq * cur) (p.liq - left * cur) ∧ l = 0 ∧ i = inp + Qc p.liq cur n ∧ cur ≤ n ∧ n ≤ p.price) ∨
    (cur < p.price ∧ Bf p.liq cur p.price ≤ left ∧
      buyOutLoop ps p.price (left - Bf p.liq cur p.price) (inp + Qc p.liq cur p.price) = .ok (l, i, n)) ∨
    (p.price ≤ cur ∧ buyOutLoop ps cur left inp = .ok (l, i, n)) := by
  rw [buyOutLoop, if_neg (by omega)] at h
  by_cases hc : cur < p.price
  · simp only [hc, if_true, bind_ok, deltaBase256_ok] at h
    obtain ⟨mx, ⟨h1, h2, h3, h4, rfl⟩, h⟩ := h
    simp only [divRound] at h
    by_cases hl : left < p.liq * (p.price - cur) / (cur * p.price)
    · simp only [hl, if_true, bind_ok, deltaQuote_ok, safeAdd_ok, ok_inj, Prod.mk.injEq] at h
      obtain ⟨n, hn, i, ⟨h5, h6, rfl, h7⟩, _, ⟨h8, rfl⟩, rfl, rfl, rfl⟩ := h
      have hno := nextOut_base_ok hn
      have hst := buyOut_step hc0 (le_of_lt hc) (le_of_lt hl) hno.2.2.1 hno.2.2.2
      exact .inl ⟨hc, hl, hno.2.2.1, hno.2.2.2, rfl, rfl, hst.1, hst.2.1⟩
    · simp only [hl, if_false, bind_ok, deltaQuote_ok, safeAdd_ok, castTo_ok, safeSub_ok] at h
      obtain ⟨i, ⟨h5, h6, rfl, h7⟩, _, ⟨h8, rfl⟩, _, ⟨h9, rfl⟩, _, ⟨h10, rfl⟩, h⟩ := h
      exact .inr (.inl ⟨hc, not_lt.1 hl, h⟩)
  · rw [if_neg hc] at h
    exact .inr (.inr ⟨not_lt.1 hc, h⟩)

theorem nextUpOut_mono {x L a b : Nat} (h : a ≤ b) (hb : b * x < L) :
    divCeil (L * x) (L - a * x) ≤ divCeil (L * x) (L - b * x) := by
  have hab : a * x ≤ b * x := Nat.mul_le_mul_right _ h
  rw [divCeil_le_iff (by omega)]
  exact (le_divCeil_mul (L * x) (b := L - b * x) (by omega)).trans (Nat.mul_le_mul_left _ (by omega))

/-- The price an exact-out buy moves to is the lowest one that releases the amount. -/
theorem nextUpOut_least {x L o m : Nat} (hx : 0 < x) (hxm : x ≤ m) (hol : o * x < L) (ho : o ≤ Bf L x m) :
    divCeil (L * x) (L - o * x) ≤ m := by
  unfold Bf at ho
  exact (buyOut_step hx hxm ho hol rfl).2.1

theorem buyOutLoop_grow {ps : List Point} {lo cur left inp l i n : Nat} (hp : Proper lo ps) (hlo : lo ≤ cur)
    (h : buyOutLoop ps cur left inp = .ok (l, i, n)) : cur ≤ n ∧ inp ≤ i := by
  obtain ⟨j, o, tr, -, e, -⟩ := buyOutLoop_trace hp (fun _ h => h) hlo h
  exact ⟨tr.le, by omega⟩

theorem buyOutLoop_mono {ps : List Point} {lo cur left left' inp inp' l l' i i' n n' : Nat} (hp : Proper lo ps)
    (hlo : lo ≤ cur) (hl : left ≤ left') (hi : inp ≤ inp') (h : buyOutLoop ps cur left inp = .ok (l, i, n))
    (h' : buyOutLoop ps cur left' inp' = .ok (l', i', n')) : i ≤ i' ∧ n ≤ n' ∧ l ≤ l' := by
  induction ps generalizing lo cur left left' inp inp' with
  | nil =>
    simp only [buyOutLoop, ok_inj, Prod.mk.injEq] at h h'
    omega
  | cons p ps ih =>
    simp only [Proper] at hp
    have hc0 : 0 < cur := by omega
    rcases buyOutLoop_cons (by omega) (by omega) hc0 h with ⟨a1, a2, a3, a4, a5, a6, a7, a8⟩ | ⟨a1, a2, a3⟩ | ⟨a1, a2⟩
    · rcases buyOutLoop_cons (by omega) (by omega) hc0 h' with ⟨b1, b2, b3, b4, b5, b6, b7, b8⟩ | ⟨b1, b2, b3⟩ | ⟨b1, b2⟩
      · have h3 := nextUpOut_mono hl b3
        rw [← a4, ← b4] at h3
        have := Qc_mono (L := p.liq) (x := cur) h3
        omega
      · have := Qc_mono (L := p.liq) (x := cur) a8
        have := buyOutLoop_grow hp.2.2.2 le_rfl b3
        omega
      · omega
    · rcases buyOutLoop_cons (by omega) (by omega) hc0 h' with ⟨b1, b2, b3, b4, b5, b6, b7, b8⟩ | ⟨b1, b2, b3⟩ | ⟨b1, b2⟩
      · omega
      · exact ih hp.2.2.2 le_rfl (by omega) (by omega) a3 b3
      · omega
    · rcases buyOutLoop_cons (by omega) (by omega) hc0 h' with ⟨b1, b2, b3, b4, b5, b6, b7, b8⟩ | ⟨b1, b2, b3⟩ | ⟨b1, b2⟩
      · omega
      · omega
      · exact ih hp.2.2.2 a1 hl hi a2 b2

/-- Asking for nothing moves the price to a curve point or not at all. -/
theorem buyOutLoop_zero {ps : List Point} {lo cur inp l i n : Nat} (hp : Proper lo ps) (hlo : lo ≤ cur)
    (h : buyOutLoop ps cur 0 inp = .ok (l, i, n)) : (n = cur ∧ i = inp) ∨ ∃ q ∈ ps, q.price = n := by
  induction ps generalizing lo cur inp with
  | nil =>
    simp only [buyOutLoop, ok_inj, Prod.mk.injEq] at h
    omega
  | cons p ps ih =>
    simp only [Proper] at hp
    have hc0 : 0 < cur := by omega
    rcases buyOutLoop_cons (by omega) (by omega) hc0 h with ⟨a1, a2, a3, a4, a5, a6, a7, a8⟩ | ⟨a1, a2, a3⟩ | ⟨a1, a2⟩
    · rw [Nat.zero_mul, Nat.sub_zero, divCeil_self_mul (by omega)] at a4
      subst a4
      have : Qc p.liq n n = 0 := by
        unfold Qc
        rw [Nat.sub_self, Nat.mul_zero]
        exact Nat.le_zero.1 ((divCeil_le_iff (by positivity)).2 (by omega))
      omega
    · rw [Nat.zero_sub] at a3
      rcases ih hp.2.2.2 le_rfl a3 with ⟨e, -⟩ | ⟨q, hq, e⟩
      · exact .inr ⟨p, List.mem_cons_self, e.symm⟩
      · exact .inr ⟨q, List.mem_cons_of_mem _ hq, e⟩
    · rcases ih hp.2.2.2 a1 a2 with e | ⟨q, hq, e⟩
      · exact .inl e
      · exact .inr ⟨q, List.mem_cons_of_mem _ hq, e⟩

/-- An exact-out buy costs no more than any exact-in buy that yields more, or as much unless it ends on a curve
point. -/
theorem buyOutLoop_le {stop : Nat} {ps : List Point} {lo cur a o out inp i n : Nat} {r : FromInput} (hp : Proper lo ps)
    (hlo : lo ≤ cur) (h : buyInLoop stop ps cur a out = .ok r) (h' : buyOutLoop ps cur o inp = .ok (0, i, n))
    (hcmp : out + o < r.out ∨ (out + o ≤ r.out ∧ ∀ q ∈ ps, q.price ≠ n)) : i ≤ inp + a := by
  induction ps generalizing lo cur a o out inp with
  | nil =>
    simp only [buyOutLoop, ok_inj, Prod.mk.injEq] at h'
    omega
  | cons p ps ih =>
    simp only [Proper] at hp
    have hc0 : 0 < cur := by omega
    have hneq : (∀ q ∈ p :: ps, q.price ≠ n) → p.price ≠ n ∧ ∀ q ∈ ps, q.price ≠ n := fun hq =>
      ⟨hq p List.mem_cons_self, fun q hm => hq q (List.mem_cons_of_mem _ hm)⟩
    rcases buyOutLoop_cons (by omega) (by omega) hc0 h' with ⟨b1, b2, b3, b4, b5, b6, b7, b8⟩ | ⟨b1, b2, b3⟩ | ⟨b1, b2⟩
    · rcases buyInLoop_cons (by omega) (by omega) h with ⟨a1, a2, a3, a4, a5, a6, a7, a8⟩ | ⟨a1, a2, a3, a4, a5, a6⟩ |
        ⟨a1, a2, a3, a4⟩ | ⟨a1, a2⟩
      · have h3 : n ≤ r.next := by rw [b4]; exact nextUpOut_least hc0 a6 b3 (by omega)
        have h4 : Qc p.liq cur n ≤ a := by
          refine (Qc_mono h3).trans ?_
          unfold Qc
          rw [divCeil_le_iff (by positivity), Nat.mul_comm a]; exact a8
        omega
      · have h3 : n ≤ stop := by rw [b4]; exact nextUpOut_least hc0 (by omega) b3 (by omega)
        have := Qc_mono (L := p.liq) (x := cur) h3
        omega
      · have := Qc_mono (L := p.liq) (x := cur) b8
        omega
      · have e := buyInLoop_stopped hp.2.2.2 (by omega) a2
        subst e
        dsimp only at hcmp
        have ho : o = 0 := by omega
        subst ho
        rw [Nat.zero_mul, Nat.sub_zero, divCeil_self_mul (by omega)] at b4
        subst b4
        have : Qc p.liq n n = 0 := by
          unfold Qc
          rw [Nat.sub_self, Nat.mul_zero]
          exact Nat.le_zero.1 ((divCeil_le_iff (by positivity)).2 (by omega))
        omega
    · -- the exact-out trade crosses the piece
      have hbound : r.out ≤ out + Bf p.liq cur p.price → False := by
        intro hle
        rcases hcmp with hc | ⟨hc, hq⟩
        · omega
        · have e : o - Bf p.liq cur p.price = 0 := by omega
          rw [e] at b3
          obtain ⟨hq1, hq2⟩ := hneq hq
          rcases buyOutLoop_zero hp.2.2.2 le_rfl b3 with ⟨e, -⟩ | ⟨q, hm, e⟩
          · exact hq1 e.symm
          · exact hq2 q hm e
      rcases buyInLoop_cons (by omega) (by omega) h with ⟨a1, a2, a3, a4, a5, a6, a7, a8⟩ | ⟨a1, a2, a3, a4, a5, a6⟩ |
        ⟨a1, a2, a3, a4⟩ | ⟨a1, a2⟩
      · have := Bf_mono (L := p.liq) hc0 a6 (show r.next ≤ p.price by omega)
        exact (hbound (by omega)).elim
      · have := Bf_mono (L := p.liq) hc0 (show cur ≤ stop by omega) (show stop ≤ p.price by omega)
        exact (hbound (by omega)).elim
      · have := ih hp.2.2.2 le_rfl a4 b3 (by
          rcases hcmp with hc | ⟨hc, hq⟩
          · exact .inl (by omega)
          · exact .inr ⟨by omega, (hneq hq).2⟩)
        omega
      · have e := buyInLoop_stopped hp.2.2.2 (by omega) a2
        subst e
        exact (hbound (by dsimp only; omega)).elim
    · rcases buyInLoop_cons (by omega) (by omega) h with ⟨a1, a2, a3, a4, a5, a6, a7, a8⟩ | ⟨a1, a2, a3, a4, a5, a6⟩ |
        ⟨a1, a2, a3, a4⟩ | ⟨a1, a2⟩
      · omega
      · omega
      · omega
      · exact ih hp.2.2.2 b1 a2 b2 (by
          rcases hcmp with hc | ⟨hc, hq⟩
          · exact .inl hc
          · exact .inr ⟨hc, (hneq hq).2⟩)

/-! ### Sells -/

/-- A whole exact-out sell. -/
def sellDownOut (start L0 : Nat) (ds : List (Point × Nat)) (s : Walk) : Res FromOutput := do
  let s ← desc sellOutStep ds s
  sellOutFinish start L0 s

theorem descOut_done (ds : List (Point × Nat)) (s : Walk) (h : s.done = true) : desc sellOutStep ds s = .ok s := by
  induction ds with
  | nil => rfl
  | cons d ds ih =>
    simp only [desc, sellOutStep]
    rw [if_pos h]
    exact ih

theorem sellDownOut_nil {start L0 cur left acc : Nat} {r : FromOutput}
    (h : sellDownOut start L0 [] ⟨cur, left, acc, false⟩ = .ok r) :
    (left = 0 ∧ r.amountIn = acc ∧ r.next = cur) ∨
    (left ≠ 0 ∧ 0 < L0 ∧ start ≤ cur ∧ left ≤ Qf L0 start cur ∧ divCeil (left * 2 ^ 128) L0 ≤ cur ∧
      r.next = cur - divCeil (left * 2 ^ 128) L0 ∧ start ≤ r.next ∧ r.amountIn = acc + Bc L0 r.next cur) := by
  simp only [sellDownOut, desc, ok_bind, sellOutFinish] at h
  by_cases hz : left ≠ 0
  · simp only [hz, if_true, bind_ok, ne_eq, not_false_eq_true, deltaQuote256_ok, req_ok, deltaBase_ok, safeAdd_ok,
      ok_inj] at h
    obtain ⟨mx, ⟨h1, h2, rfl⟩, _, h3, nx, hnx, _, h4, i, ⟨h5, h6, h7, rfl, h8⟩, _, ⟨h9, rfl⟩, rfl⟩ := h
    have hno := nextOut_quote_ok hnx
    exact .inr ⟨hz, hno.2.1, h1, h3, hno.2.2.1, hno.2.2.2, h4, rfl⟩
  · simp only [hz, if_false, ok_inj] at h
    subst h
    exact .inl ⟨by omega, rfl, rfl⟩

theorem sellDownOut_cons {start L0 cur left acc : Nat} {d : Point × Nat} {ds : List (Point × Nat)} {r : FromOutput}
    (hd : start < d.1.price ∧ d.1.liq ≠ 0 ∧ 0 < d.2)
    (h : sellDownOut start L0 (d :: ds) ⟨cur, left, acc, false⟩ = .ok r) :
    (d.1.price < cur ∧ left < Qf d.2 d.1.price cur ∧ divCeil (left * 2 ^ 128) d.2 ≤ cur ∧
      r.next = cur - divCeil (left * 2 ^ 128) d.2 ∧ r.amountIn = acc + Bc d.2 r.next cur ∧ d.1.price ≤ r.next) ∨
    (d.1.price < cur ∧ Qf d.2 d.1.price cur ≤ left ∧
      sellDownOut start L0 ds ⟨d.1.price, left - Qf d.2 d.1.price cur, acc + Bc d.2 d.1.price cur, false⟩ = .ok r) ∨
    (cur ≤ d.1.price ∧ sellDownOut start L0 ds ⟨cur, left, acc, false⟩ = .ok r) := by
  simp only [sellDownOut, desc, sellOutStep, Bool.false_eq_true, if_false] at h
  rw [if_neg (by omega)] at h
  by_cases hc : d.1.price < cur
  · simp only [hc, if_true, bind_ok, deltaQuote256_ok] at h
    obtain ⟨s', ⟨s1, ⟨mx, ⟨h3, h4, rfl⟩, h2⟩, hrest⟩, hf⟩ := h
    simp only [divRound] at h2
    by_cases hl : left < d.2 * (cur - d.1.price) / 2 ^ 128
    · simp only [hl, if_true, bind_ok, deltaBase_ok, safeAdd_ok, ok_inj] at h2
      obtain ⟨n, hn, q, ⟨h7, h8, h8', rfl, h9⟩, _, ⟨h10, rfl⟩, rfl⟩ := h2
      have hno := nextOut_quote_ok hn
      have hst := sellOut_step_lo hno.2.1 h3 (le_of_lt hl) hno.2.2.2
      rw [descOut_done _ _ rfl, ok_inj] at hrest
      subst hrest
      simp only [sellOutFinish, ne_eq, not_true_eq_false, if_false, ok_inj] at hf
      subst hf
      exact .inl ⟨hc, hl, hno.2.2.1, hno.2.2.2, rfl, hst⟩
    · simp only [hl, if_false, bind_ok, deltaBase_ok, safeAdd_ok, req_ok, safeSub_ok, ok_inj] at h2
      obtain ⟨q, ⟨h7, h8, h8', rfl, h9⟩, _, ⟨h10, rfl⟩, _, h11, _, ⟨h12, rfl⟩, rfl⟩ := h2
      refine .inr (.inl ⟨hc, not_lt.1 hl, ?_⟩)
      simp only [sellDownOut, bind_ok]
      exact ⟨_, hrest, hf⟩
  · simp only [hc, if_false, ok_bind] at h
    exact .inr (.inr ⟨not_lt.1 hc, h⟩)

theorem sellDownOut_grow {start L0 cur left acc : Nat} {ds : List (Point × Nat)} {r : FromOutput} (hd : Downs start ds)
    (hs : start ≤ cur) (h : sellDownOut start L0 ds ⟨cur, left, acc, false⟩ = .ok r) :
    r.next ≤ cur ∧ start ≤ r.next ∧ acc ≤ r.amountIn := by
  induction ds generalizing cur left acc with
  | nil =>
    rcases sellDownOut_nil h with h | h <;> omega
  | cons d ds ih =>
    have hh := hd.head
    rcases sellDownOut_cons hh h with h | ⟨a1, a2, a3⟩ | ⟨a1, a2⟩
    · omega
    · have := ih hd.tail (by omega) a3
      omega
    · exact ih hd.tail hs a2

theorem nextDownOut_mono {L a b : Nat} (hL : 0 < L) (h : a ≤ b) : divCeil (a * 2 ^ 128) L ≤ divCeil (b * 2 ^ 128) L :=
  divCeil_mono hL (Nat.mul_le_mul_right _ h)

theorem sellDownOut_mono {start L0 cur left left' acc acc' : Nat} {ds : List (Point × Nat)} {r r' : FromOutput}
    (hd : Downs start ds) (hs0 : 0 < start) (hs : start ≤ cur) (hl : left ≤ left') (ha : acc ≤ acc')
    (h : sellDownOut start L0 ds ⟨cur, left, acc, false⟩ = .ok r)
    (h' : sellDownOut start L0 ds ⟨cur, left', acc', false⟩ = .ok r') :
    r.amountIn ≤ r'.amountIn ∧ r'.next ≤ r.next := by
  induction ds generalizing cur left left' acc acc' with
  | nil =>
    rcases sellDownOut_nil h with ⟨a1, a2, a3⟩ | ⟨a1, a2, a3, a4, a5, a6, a7, a8⟩
    · have := sellDownOut_grow hd hs h'
      omega
    · rcases sellDownOut_nil h' with ⟨b1, b2, b3⟩ | ⟨b1, b2, b3, b4, b5, b6, b7, b8⟩
      · omega
      · have h3 := nextDownOut_mono a2 hl
        have := Bc_mono (L := L0) (show 0 < r'.next by omega) (show r'.next ≤ r.next by omega) (show r.next ≤ cur by omega)
        omega
  | cons d ds ih =>
    have hh := hd.head
    rcases sellDownOut_cons hh h with ⟨a1, a2, a3, a4, a5, a6⟩ | ⟨a1, a2, a3⟩ | ⟨a1, a2⟩
    · rcases sellDownOut_cons hh h' with ⟨b1, b2, b3, b4, b5, b6⟩ | ⟨b1, b2, b3⟩ | ⟨b1, b2⟩
      · have h3 := nextDownOut_mono hh.2.2 hl
        have := Bc_mono (L := d.2) (show 0 < r'.next by omega) (show r'.next ≤ r.next by omega) (show r.next ≤ cur by omega)
        omega
      · have := Bc_mono (L := d.2) (show 0 < d.1.price by omega) a6 (show r.next ≤ cur by omega)
        have := sellDownOut_grow hd.tail (by omega) b3
        omega
      · omega
    · rcases sellDownOut_cons hh h' with ⟨b1, b2, b3, b4, b5, b6⟩ | ⟨b1, b2, b3⟩ | ⟨b1, b2⟩
      · omega
      · exact ih hd.tail (by omega) (by omega) (by omega) a3 b3
      · omega
    · rcases sellDownOut_cons hh h' with ⟨b1, b2, b3, b4, b5, b6⟩ | ⟨b1, b2, b3⟩ | ⟨b1, b2⟩
      · omega
      · omega
      · exact ih hd.tail hs hl ha a2 b2

theorem Bc_self (L x : Nat) (hx : 0 < x) : Bc L x x = 0 := by
  unfold Bc
  rw [Nat.sub_self, Nat.mul_zero]
  exact Nat.le_zero.1 ((divCeil_le_iff (by positivity)).2 (by omega))


theorem sellDownOut_zero {start L0 cur acc : Nat} {ds : List (Point × Nat)} {r : FromOutput} (hd : Downs start ds)
    (hs0 : 0 < start) (hs : start ≤ cur) (h : sellDownOut start L0 ds ⟨cur, 0, acc, false⟩ = .ok r) :
    (r.next = cur ∧ r.amountIn = acc) ∨ ∃ d ∈ ds, d.1.price = r.next := by
  induction ds generalizing cur acc with
  | nil =>
    rcases sellDownOut_nil h with h | h <;> omega
  | cons d ds ih =>
    have hh := hd.head
    rcases sellDownOut_cons hh h with ⟨a1, a2, a3, a4, a5, a6⟩ | ⟨a1, a2, a3⟩ | ⟨a1, a2⟩
    · rw [Nat.zero_mul, divCeil_zero _ hh.2.2, Nat.sub_zero] at a4
      rw [a4, Bc_self _ _ (by omega)] at a5
      exact .inl ⟨a4, a5⟩
    · rw [Nat.zero_sub] at a3
      rcases ih hd.tail (by omega) a3 with ⟨e, -⟩ | ⟨q, hq, e⟩
      · exact .inr ⟨d, List.mem_cons_self, e.symm⟩
      · exact .inr ⟨q, List.mem_cons_of_mem _ hq, e⟩
    · rcases ih hd.tail hs a2 with e | ⟨q, hq, e⟩
      · exact .inl e
      · exact .inr ⟨q, List.mem_cons_of_mem _ hq, e⟩

/-- The price an exact-out sell moves to is the highest one that releases the amount. -/
theorem nextDownOut_least {x L o m : Nat} (hL : 0 < L) (hxm : m ≤ x) (ho : o ≤ Qf L m x) :
    divCeil (o * 2 ^ 128) L ≤ x - m := by
  unfold Qf at ho
  rw [Nat.le_div_iff_mul_le (by positivity)] at ho
  rw [divCeil_le_iff hL, Nat.mul_comm (x - m)]
  exact ho

theorem Bc_le_of {L n x a : Nat} (hn : 0 < n) (hx : 0 < x) (h : L * (x - n) ≤ a * (n * x)) : Bc L n x ≤ a := by
  unfold Bc
  rw [divCeil_le_iff (by positivity)]
  exact h

/-- An exact-out sell costs no more than any exact-in sell that yields more, or as much unless it ends on a curve
point. -/
theorem sellDownOut_le {start L0 cur a o out acc : Nat} {ds : List (Point × Nat)} {r : FromInput} {r' : FromOutput}
    (hd : Downs start ds) (hs0 : 0 < start) (hs : start ≤ cur)
    (h : sellDown start L0 ds ⟨cur, a, out, false⟩ = .ok r)
    (h' : sellDownOut start L0 ds ⟨cur, o, acc, false⟩ = .ok r')
    (hcmp : out + o < r.out ∨ (out + o ≤ r.out ∧ ∀ d ∈ ds, d.1.price ≠ r'.next)) : r'.amountIn ≤ acc + a := by
  induction ds generalizing cur a o out acc with
  | nil =>
    rcases sellDownOut_nil h' with ⟨b1, b2, b3⟩ | ⟨b1, b2, b3, b4, b5, b6, b7, b8⟩
    · omega
    · rcases sellDown_nil h with ⟨a1, a2, a3, a4⟩ | ⟨a1, a2, a3, a4, a5, a6, a7, a8⟩ |
        ⟨a1, a2, a3, a4, a5, a6, a7, a8⟩
      · omega
      · have := Bc_mono (L := L0) hs0 b7 (show r'.next ≤ cur by omega)
        omega
      · have h3 := nextDownOut_least b2 a7 (show o ≤ Qf L0 r.next cur by omega)
        have h4 := Bc_mono (L := L0) (show 0 < r.next by omega) (show r.next ≤ r'.next by omega)
          (show r'.next ≤ cur by omega)
        have h5 := Bc_le_of (by omega) (by omega) a8
        omega
  | cons d ds ih =>
    have hh := hd.head
    have hneq : (∀ e ∈ d :: ds, e.1.price ≠ r'.next) → d.1.price ≠ r'.next ∧ ∀ e ∈ ds, e.1.price ≠ r'.next := fun hq =>
      ⟨hq d List.mem_cons_self, fun q hm => hq q (List.mem_cons_of_mem _ hm)⟩
    rcases sellDownOut_cons hh h' with ⟨b1, b2, b3, b4, b5, b6⟩ | ⟨b1, b2, b3⟩ | ⟨b1, b2⟩
    · rcases sellDown_cons hh h with ⟨a1, a2, a3, a4, a5, a6, a7, a8⟩ | ⟨a1, a2, a3⟩ | ⟨a1, a2⟩
      · have h3 := nextDownOut_least hh.2.2 a7 (show o ≤ Qf d.2 r.next cur by omega)
        have h4 := Bc_mono (L := d.2) (show 0 < r.next by omega) (show r.next ≤ r'.next by omega)
          (show r'.next ≤ cur by omega)
        have h5 := Bc_le_of (by omega) (by omega) a8
        omega
      · have := Bc_mono (L := d.2) (show 0 < d.1.price by omega) b6 (show r'.next ≤ cur by omega)
        omega
      · omega
    · have hbound : r.out ≤ out + Qf d.2 d.1.price cur → False := by
        intro hle
        rcases hcmp with hc | ⟨hc, hq⟩
        · omega
        · have e : o - Qf d.2 d.1.price cur = 0 := by omega
          rw [e] at b3
          obtain ⟨hq1, hq2⟩ := hneq hq
          rcases sellDownOut_zero hd.tail hs0 (by omega) b3 with ⟨e, -⟩ | ⟨q, hm, e⟩
          · exact hq1 e.symm
          · exact hq2 q hm e
      rcases sellDown_cons hh h with ⟨a1, a2, a3, a4, a5, a6, a7, a8⟩ | ⟨a1, a2, a3⟩ | ⟨a1, a2⟩
      · have := Qf_mono (L := d.2) (z := cur) (show d.1.price ≤ r.next by omega)
        exact (hbound (by omega)).elim
      · have := ih hd.tail (by omega) a3 b3 (by
          rcases hcmp with hc | ⟨hc, hq⟩
          · exact .inl (by omega)
          · exact .inr ⟨by omega, (hneq hq).2⟩)
        omega
      · omega
    · rcases sellDown_cons hh h with ⟨a1, a2, a3, a4, a5, a6, a7, a8⟩ | ⟨a1, a2, a3⟩ | ⟨a1, a2⟩
      · omega
      · omega
      · exact ih hd.tail hs a2 b2 (by
          rcases hcmp with hc | ⟨hc, hq⟩
          · exact .inl hc
          · exact .inr ⟨hc, (hneq hq).2⟩)

end Dbc

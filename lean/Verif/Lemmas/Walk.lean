import Verif.Lemmas.Seg

/-!
# The walks over the curve are traces
-/

namespace Dbc
open Spec

/-- Linear arithmetic after projecting structure literals. -/
macro "somega" : tactic => `(tactic| first | omega | (dsimp only; omega) | (dsimp only at *; omega))

/-! ### Inversion of `curve.rs` -/

theorem deltaQuote256_ok {lo hi L : Nat} {r : Rounding} {d : Nat} :
    deltaQuote256 lo hi L r = .ok d ↔
      lo ≤ hi ∧ L * (hi - lo) ≤ u256Max ∧ d = divRound r (L * (hi - lo)) (2 ^ 128) := by
  simp only [deltaQuote256, bind_ok, subPanic_ok, safeMul_ok, ok_inj]
  constructor
  · rintro ⟨_, ⟨h1, rfl⟩, _, ⟨h2, rfl⟩, rfl⟩; exact ⟨h1, h2, rfl⟩
  · rintro ⟨h1, h2, rfl⟩; exact ⟨_, ⟨h1, rfl⟩, _, ⟨h2, rfl⟩, rfl⟩

theorem deltaQuote_ok {lo hi L : Nat} {r : Rounding} {d : Nat} :
    deltaQuote lo hi L r = .ok d ↔
      lo ≤ hi ∧ L * (hi - lo) ≤ u256Max ∧ d = divRound r (L * (hi - lo)) (2 ^ 128) ∧ d ≤ u64Max := by
  simp only [deltaQuote, bind_ok, deltaQuote256_ok, req_ok, castTo_ok]
  constructor
  · rintro ⟨_, ⟨h1, h2, rfl⟩, _, h3, h4, rfl⟩; exact ⟨h1, h2, rfl, h3⟩
  · rintro ⟨h1, h2, rfl, h3⟩; exact ⟨_, ⟨h1, h2, rfl⟩, (), h3, h3, rfl⟩

theorem mulDivU256_ok {x y d c : Nat} {r : Rounding} {e : Err} :
    mulDivU256 x y d r e = .ok c ↔ d ≠ 0 ∧ divRound r (x * y) d ≤ u256Max ∧ c = divRound r (x * y) d := by
  unfold mulDivU256
  split
  · simp_all
  · split <;> simp_all [eq_comm]

theorem deltaBase256_ok {lo hi L : Nat} {r : Rounding} {d : Nat} :
    deltaBase256 lo hi L r = .ok d ↔
      lo ≤ hi ∧ lo * hi ≤ u256Max ∧ 0 < lo * hi ∧ divRound r (L * (hi - lo)) (lo * hi) ≤ u256Max ∧
        d = divRound r (L * (hi - lo)) (lo * hi) := by
  simp only [deltaBase256, bind_ok, subPanic_ok, safeMul_ok, req_ok, mulDivU256_ok]
  constructor
  · rintro ⟨_, ⟨h1, rfl⟩, _, ⟨h2, rfl⟩, _, h3, h4, h5, rfl⟩; exact ⟨h1, h2, h3, h5, rfl⟩
  · rintro ⟨h1, h2, h3, h5, rfl⟩; exact ⟨_, ⟨h1, rfl⟩, _, ⟨h2, rfl⟩, (), h3, by omega, h5, rfl⟩

theorem deltaBase_ok {lo hi L : Nat} {r : Rounding} {d : Nat} :
    deltaBase lo hi L r = .ok d ↔
      lo ≤ hi ∧ lo * hi ≤ u256Max ∧ 0 < lo * hi ∧ d = divRound r (L * (hi - lo)) (lo * hi) ∧ d ≤ u64Max := by
  simp only [deltaBase, bind_ok, deltaBase256_ok, req_ok, castTo_ok]
  have hmx : u64Max ≤ u256Max := by decide
  constructor
  · rintro ⟨_, ⟨h1, h2, h3, h4, rfl⟩, _, h5, h6, rfl⟩; exact ⟨h1, h2, h3, rfl, h5⟩
  · rintro ⟨h1, h2, h3, rfl, h5⟩; exact ⟨_, ⟨h1, h2, h3, le_trans h5 hmx, rfl⟩, (), h5, h5, rfl⟩

theorem nextIn_quote_ok {p L a n : Nat} :
    nextPriceFromInput p L a false = .ok n ↔
      0 < p ∧ 0 < L ∧ a * 2 ^ 128 ≤ u256Max ∧ p + a * 2 ^ 128 / L ≤ u256Max ∧ n = p + a * 2 ^ 128 / L ∧ n ≤ u128Max := by
  simp only [nextPriceFromInput, nextPriceQuoteIn, bind_ok, req_ok, safeShl256_ok, safeDiv_ok, safeAdd_ok, castTo_ok,
    Bool.false_eq_true, if_false]
  constructor
  · rintro ⟨_, h1, _, h2, _, ⟨h3, rfl⟩, _, ⟨h4, rfl⟩, _, ⟨h5, rfl⟩, h6, rfl⟩
    exact ⟨h1, h2, h3, h5, rfl, h6⟩
  · rintro ⟨h1, h2, h3, h5, rfl, h6⟩
    exact ⟨(), h1, (), h2, _, ⟨h3, rfl⟩, _, ⟨by omega, rfl⟩, _, ⟨h5, rfl⟩, h6, rfl⟩

theorem divCeil_self_mul {L p : Nat} (hL : 0 < L) : divCeil (L * p) L = p := by
  apply le_antisymm
  · rw [divCeil_le_iff hL, Nat.mul_comm]
  · have := le_divCeil_mul (L * p) hL
    exact Nat.le_of_mul_le_mul_right (by rw [Nat.mul_comm p L]; exact this) hL

theorem nextIn_base_ok {p L a n : Nat} (h : nextPriceFromInput p L a true = .ok n) :
    0 < p ∧ 0 < L ∧ n = divCeil (L * p) (L + a * p) := by
  simp only [nextPriceFromInput, nextPriceBaseIn, bind_ok, req_ok, if_true] at h
  obtain ⟨_, h1, _, h2, h⟩ := h
  refine ⟨h1, h2, ?_⟩
  by_cases ha : a = 0
  · rw [if_pos ha, ok_inj] at h
    subst ha h
    simp [divCeil_self_mul h2]
  · simp only [ha, if_false, bind_ok, safeMul_ok, safeAdd_ok, mulDivU256_ok, castTo_ok] at h
    obtain ⟨_, ⟨h3, rfl⟩, _, ⟨h4, rfl⟩, _, ⟨h5, h6, rfl⟩, h7, rfl⟩ := h
    rfl

theorem nextOut_quote_ok {p L a n : Nat} (h : nextPriceFromOutput p L a true = .ok n) :
    0 < p ∧ 0 < L ∧ divCeil (a * 2 ^ 128) L ≤ p ∧ n = p - divCeil (a * 2 ^ 128) L := by
  simp only [nextPriceFromOutput, nextPriceQuoteOut, bind_ok, req_ok, if_true, safeShl256_ok, safeSub_ok,
    castTo_ok] at h
  obtain ⟨_, h1, _, h2, _, ⟨h3, rfl⟩, _, ⟨h4, rfl⟩, h5, rfl⟩ := h
  exact ⟨h1, h2, h4, rfl⟩

theorem nextOut_base_ok {p L a n : Nat} (h : nextPriceFromOutput p L a false = .ok n) :
    0 < p ∧ 0 < L ∧ a * p < L ∧ n = divCeil (L * p) (L - a * p) := by
  simp only [nextPriceFromOutput, nextPriceBaseOut, bind_ok, req_ok, Bool.false_eq_true, if_false] at h
  obtain ⟨_, h1, _, h2, h⟩ := h
  refine ⟨h1, h2, ?_⟩
  by_cases ha : a = 0
  · rw [if_pos ha, ok_inj] at h
    subst ha h
    simp [divCeil_self_mul h2, h2]
  · simp only [ha, if_false, bind_ok, safeMul_ok, safeSub_ok, mulDivU256_ok, castTo_ok] at h
    obtain ⟨_, ⟨h3, rfl⟩, _, ⟨h4, rfl⟩, _, ⟨h5, h6, rfl⟩, h7, rfl⟩ := h
    exact ⟨by omega, rfl⟩

/-! ### Single steps -/

theorem div_mul_le_swap (a b : Nat) : a / b * b ≤ a := Nat.div_mul_le_self a b

/-- Price after a partial buy. -/
theorem buyIn_step {x L a ref n : Nat} (hL : 0 < L) (hlt : a < divCeil (L * (ref - x)) (2 ^ 128))
    (hn : n = x + a * 2 ^ 128 / L) : x ≤ n ∧ n < ref ∧ L * (n - x) ≤ 2 ^ 128 * a := by
  rw [lt_divCeil_iff (by positivity)] at hlt
  have h1 : a * 2 ^ 128 / L < ref - x := by
    rw [Nat.div_lt_iff_lt_mul hL, Nat.mul_comm (ref - x)]; exact hlt
  have h2 := Nat.div_mul_le_self (a * 2 ^ 128) L
  rw [Nat.mul_comm (2 ^ 128)]
  generalize a * 2 ^ 128 / L = q at *
  subst hn
  refine ⟨by omega, by omega, ?_⟩
  have : x + q - x = q := by omega
  rw [this, Nat.mul_comm L]; exact h2

/-- Price after a partial exact-out buy. -/
theorem buyOut_step {x L a hi n : Nat} (hx : 0 < x) (hxh : x ≤ hi) (ha : a ≤ L * (hi - x) / (x * hi))
    (hal : a * x < L) (hn : n = divCeil (L * x) (L - a * x)) :
    x ≤ n ∧ n ≤ hi ∧ a * (x * n) ≤ L * (n - x) := by
  have hd : 0 < L - a * x := by omega
  have hhi : 0 < hi := by omega
  rw [Nat.le_div_iff_mul_le (by positivity)] at ha
  have h1 : L * x ≤ n * (L - a * x) := by rw [hn]; exact le_divCeil_mul _ hd
  have h2 : n * (L - a * x) ≤ n * L := Nat.mul_le_mul_left _ (by omega)
  have hLpos : 0 < L := by omega
  have hxn : x ≤ n := by
    have : x * L ≤ n * L := by linarith [Nat.mul_comm L x]
    exact Nat.le_of_mul_le_mul_right this hLpos
  refine ⟨hxn, ?_, ?_⟩
  · rw [hn, divCeil_le_iff hd, Nat.mul_sub]
    rw [Nat.mul_sub] at ha
    have e1 : L * x ≤ L * hi := Nat.mul_le_mul_left _ hxh
    have e2 : hi * (a * x) ≤ hi * L := Nat.mul_le_mul_left _ (by omega)
    have e3 : a * (x * hi) = hi * (a * x) := by ring
    have e4 : hi * L = L * hi := by ring
    omega
  · rw [Nat.mul_sub] at h1 ⊢
    have e2 : n * (a * x) ≤ n * L := Nat.mul_le_mul_left _ (by omega)
    have e3 : a * (x * n) = n * (a * x) := by ring
    have e4 : n * L = L * n := by ring
    have e1 : L * x ≤ L * n := Nat.mul_le_mul_left _ hxn
    omega

/-- Price after a partial sell, without the lower bound. -/
theorem sellIn_step0 {x L a n : Nat} (hL : 0 < L) (hn : n = divCeil (L * x) (L + a * x)) :
    n ≤ x ∧ L * (x - n) ≤ a * (n * x) := by
  have hd : 0 < L + a * x := by omega
  have h1 : L * x ≤ n * (L + a * x) := by rw [hn]; exact le_divCeil_mul _ hd
  have hnx : n ≤ x := by
    rw [hn, divCeil_le_iff hd, Nat.mul_add, Nat.mul_comm x L]; omega
  refine ⟨hnx, ?_⟩
  rw [Nat.mul_sub]
  rw [Nat.mul_add] at h1
  have e3 : a * (n * x) = n * (a * x) := by ring
  have e4 : n * L = L * n := by ring
  omega

/-- Price after a partial sell. -/
theorem sellIn_step {x L a lo n : Nat} (hL : 0 < L) (hlo : 0 < lo) (hlx : lo ≤ x)
    (ha : a < divCeil (L * (x - lo)) (lo * x)) (hn : n = divCeil (L * x) (L + a * x)) :
    lo < n ∧ n ≤ x ∧ L * (x - n) ≤ a * (n * x) := by
  have hx : 0 < x := by omega
  refine ⟨?_, sellIn_step0 hL hn⟩
  have hd : 0 < L + a * x := by omega
  rw [lt_divCeil_iff (by positivity)] at ha
  rw [hn, lt_divCeil_iff hd, Nat.mul_add]
  rw [Nat.mul_sub] at ha
  have e1 : L * lo ≤ L * x := Nat.mul_le_mul_left _ hlx
  have e3 : a * (lo * x) = lo * (a * x) := by ring
  have e4 : lo * L = L * lo := by ring
  omega

/-- Price after a partial exact-out sell. -/
theorem sellOut_step {x L a n : Nat} (hL : 0 < L) (hle : divCeil (a * 2 ^ 128) L ≤ x)
    (hn : n = x - divCeil (a * 2 ^ 128) L) : n ≤ x ∧ 2 ^ 128 * a ≤ L * (x - n) := by
  have h1 := le_divCeil_mul (a * 2 ^ 128) hL
  refine ⟨by omega, ?_⟩
  have : x - n = divCeil (a * 2 ^ 128) L := by omega
  rw [this, Nat.mul_comm L, Nat.mul_comm (2 ^ 128)]; exact h1

theorem sellOut_step_lo {x L a lo n : Nat} (hL : 0 < L) (hlx : lo ≤ x) (ha : a ≤ L * (x - lo) / 2 ^ 128)
    (hn : n = x - divCeil (a * 2 ^ 128) L) : lo ≤ n := by
  rw [Nat.le_div_iff_mul_le (by positivity)] at ha
  have : divCeil (a * 2 ^ 128) L ≤ x - lo := by
    rw [divCeil_le_iff hL, Nat.mul_comm (x - lo)]; exact ha
  omega

/-! ### Padding -/

theorem buyInLoop_zeros (stop n cur left out : Nat) :
    buyInLoop stop (List.replicate n ⟨0, 0⟩) cur left out = .ok ⟨left, out, cur⟩ := by
  cases n with
  | zero => simp [buyInLoop]
  | succ n => simp [List.replicate_succ, buyInLoop]

theorem buyInLoop_pad (stop n : Nat) (ps : List Point) (cur left out : Nat) :
    buyInLoop stop (ps ++ List.replicate n ⟨0, 0⟩) cur left out = buyInLoop stop ps cur left out := by
  induction ps generalizing cur left out with
  | nil => simp [buyInLoop_zeros, buyInLoop]
  | cons p ps ih => simp only [List.cons_append, buyInLoop, ih]

theorem buyOutLoop_zeros (n cur left inp : Nat) :
    buyOutLoop (List.replicate n ⟨0, 0⟩) cur left inp = .ok (left, inp, cur) := by
  cases n with
  | zero => simp [buyOutLoop]
  | succ n => simp [List.replicate_succ, buyOutLoop]

theorem buyOutLoop_pad (n : Nat) (ps : List Point) (cur left inp : Nat) :
    buyOutLoop (ps ++ List.replicate n ⟨0, 0⟩) cur left inp = buyOutLoop ps cur left inp := by
  induction ps generalizing cur left inp with
  | nil => simp [buyOutLoop_zeros, buyOutLoop]
  | cons p ps ih => simp only [List.cons_append, buyOutLoop, ih]

theorem sellInLoop_zeros (n : Nat) (s : Walk) : sellInLoop (List.replicate n ⟨0, 0⟩) s = .ok s := by
  induction n with
  | zero => simp [sellInLoop]
  | succ n ih =>
    cases n with
    | zero => simp [sellInLoop]
    | succ n =>
      rw [List.replicate_succ, List.replicate_succ, sellInLoop, ← List.replicate_succ, ih, ok_bind]
      unfold sellInStep; split <;> simp

theorem sellOutLoop_zeros (n : Nat) (s : Walk) : sellOutLoop (List.replicate n ⟨0, 0⟩) s = .ok s := by
  induction n with
  | zero => simp [sellOutLoop]
  | succ n ih =>
    cases n with
    | zero => simp [sellOutLoop]
    | succ n =>
      rw [List.replicate_succ, List.replicate_succ, sellOutLoop, ← List.replicate_succ, ih, ok_bind]
      unfold sellOutStep; split <;> simp

theorem sellInLoop_pad (n : Nat) (lo : Nat) (p : Point) (ps : List Point) (s : Walk)
    (h : s.cur ≤ topPrice lo (p :: ps)) :
    sellInLoop ((p :: ps) ++ List.replicate n ⟨0, 0⟩) s = sellInLoop (p :: ps) s := by
  induction ps generalizing p lo with
  | nil =>
    cases n with
    | zero => simp
    | succ n =>
      have hz := sellInLoop_zeros (n + 1) s
      have e : sellInLoop ([p] ++ List.replicate (n + 1) ⟨0, 0⟩) s =
        (sellInLoop (List.replicate (n + 1) ⟨0, 0⟩) s >>= fun s => sellInStep p 0 s) := rfl
      rw [e, hz, ok_bind, sellInLoop]
      simp only [topPrice] at h
      unfold sellInStep
      split
      · rfl
      · split
        · rfl
        · rw [if_neg (by omega)]
  | cons q rest ih =>
    have := ih (lo := p.price) (p := q) (by simpa only [topPrice] using h)
    simp only [List.cons_append, sellInLoop] at this ⊢
    rw [this]

theorem sellOutLoop_pad (n : Nat) (lo : Nat) (p : Point) (ps : List Point) (s : Walk)
    (h : s.cur ≤ topPrice lo (p :: ps)) :
    sellOutLoop ((p :: ps) ++ List.replicate n ⟨0, 0⟩) s = sellOutLoop (p :: ps) s := by
  induction ps generalizing p lo with
  | nil =>
    cases n with
    | zero => simp
    | succ n =>
      have hz := sellOutLoop_zeros (n + 1) s
      have e : sellOutLoop ([p] ++ List.replicate (n + 1) ⟨0, 0⟩) s =
        (sellOutLoop (List.replicate (n + 1) ⟨0, 0⟩) s >>= fun s => sellOutStep p 0 s) := rfl
      rw [e, hz, ok_bind, sellOutLoop]
      simp only [topPrice] at h
      unfold sellOutStep
      split
      · rfl
      · split
        · rfl
        · rw [if_neg (by omega)]
  | cons q rest ih =>
    have := ih (lo := p.price) (p := q) (by simpa only [topPrice] using h)
    simp only [List.cons_append, sellOutLoop] at this ⊢
    rw [this]

/-! ### Loops -/

theorem buyInLoop_trace {stop : Nat} {ss : List Seg} {ps : List Point} {lo cur left out : Nat} {r : FromInput}
    (hp : Proper lo ps) (hss : ∀ s ∈ segs lo ps, s ∈ ss) (hlo : lo ≤ cur)
    (h : buyInLoop stop ps cur left out = .ok r) :
    ∃ i o, BuyTrace ss cur r.next i o ∧ r.left + i = left ∧ r.out = out + o ∧
      (r.next ≤ stop ∨ r.next = cur) ∧ r.next ≤ max cur (topPrice lo ps) ∧
      (r.left ≠ 0 → min stop (topPrice lo ps) ≤ r.next) := by
  induction ps generalizing lo cur left out with
  | nil =>
    simp only [buyInLoop, ok_inj] at h
    subst h
    exact ⟨0, 0, BuyTrace.nil _, by simp, by simp, Or.inr rfl, by simp, fun _ => by simp [topPrice]; omega⟩
  | cons p ps ih =>
    simp only [Proper] at hp
    have hpp : Proper p.price ps := hp.2.2.2
    have hss' : ∀ s ∈ segs p.price ps, s ∈ ss := fun s hs => hss s (by simp [segs, hs])
    have hseg : (⟨lo, p.price, p.liq⟩ : Seg) ∈ ss := hss _ (by simp [segs])
    have htop := Proper.lo_le_top hpp
    rw [buyInLoop, if_neg (by omega)] at h
    by_cases hc : cur < min stop p.price
    · simp only [hc, if_true, bind_ok, deltaQuote256_ok] at h
      obtain ⟨mx, ⟨h1, h2, rfl⟩, h⟩ := h
      simp only [divRound] at h
      by_cases hl : left < divCeil (p.liq * (min stop p.price - cur)) (2 ^ 128)
      · simp only [hl, if_true, bind_ok, nextIn_quote_ok, deltaBase_ok, safeAdd_ok, ok_inj] at h
        obtain ⟨n, ⟨_, _, _, _, hn, _⟩, o, ⟨h3, h4, h5, rfl, h6⟩, _, ⟨h7, rfl⟩, rfl⟩ := h
        have hst := buyIn_step hp.2.2.1 hl hn
        refine ⟨left, _, BuyTrace.single hseg (by somega) hst.1 (by somega) hst.2.2 ?_, by simp, rfl,
          Or.inl (by somega), by simp only [topPrice]; omega, by simp⟩
        simp only [divRound]
        exact Nat.div_mul_le_self _ _
      · simp only [hl, if_false, bind_ok, deltaBase_ok, safeAdd_ok, castTo_ok, safeSub_ok] at h
        obtain ⟨o, ⟨h3, h4, h5, rfl, h6⟩, _, ⟨h7, rfl⟩, _, ⟨h8, rfl⟩, _, ⟨h9, rfl⟩, h⟩ := h
        simp only [divRound] at h
        have hst : p.liq * (min stop p.price - cur) ≤
            2 ^ 128 * divCeil (p.liq * (min stop p.price - cur)) (2 ^ 128) := by
          rw [Nat.mul_comm (2 ^ 128)]; exact le_divCeil_mul _ (by positivity)
        have hout : p.liq * (min stop p.price - cur) / (cur * min stop p.price) * (cur * min stop p.price) ≤
            p.liq * (min stop p.price - cur) := Nat.div_mul_le_self _ _
        by_cases he : min stop p.price = stop
        · rw [if_pos he, ok_inj] at h
          subst h
          refine ⟨_, _, BuyTrace.single hseg (by somega) h1 (by somega) hst hout, by somega, rfl,
            Or.inl (by somega), by simp only [topPrice]; omega, fun _ => by somega⟩
        · rw [if_neg he] at h
          have hmin : min stop p.price = p.price := by omega
          rw [hmin] at h hst hout hl h9
          obtain ⟨i, o, tr, e1, e2, e3, e4, e5⟩ := ih hpp hss' le_rfl h
          have tr' := BuyTrace.step hseg (s := ⟨lo, p.price, p.liq⟩) (x := cur) (m := p.price) (by somega) (by somega) le_rfl
            hst hout tr
          have := tr.le
          generalize divCeil (p.liq * (p.price - cur)) (2 ^ 128) = D at *
          generalize p.liq * (p.price - cur) / (cur * p.price) = E at *
          refine ⟨_, _, tr', by omega, by omega, ?_, by simp only [topPrice]; omega, ?_⟩
          · rcases e3 with e3 | e3
            · exact Or.inl e3
            · exact Or.inl (by omega)
          · simpa only [topPrice] using e5
    · rw [if_neg hc] at h
      by_cases hcp : p.price ≤ cur
      · obtain ⟨i, o, tr, e1, e2, e3, e4, e5⟩ := ih hpp hss' hcp h
        exact ⟨i, o, tr, e1, e2, e3, by simpa only [topPrice] using e4, by simpa only [topPrice] using e5⟩
      · -- stop ≤ cur < p.price: nothing more happens
        have hstop : stop ≤ cur := by omega
        have hrest : ∀ (qs : List Point), buyInLoop stop qs cur left out = .ok ⟨left, out, cur⟩ := by
          intro qs
          induction qs with
          | nil => rfl
          | cons q qs ihq =>
            rw [buyInLoop]
            split
            · rfl
            · rw [if_neg (by omega), ihq]
        rw [hrest, ok_inj] at h
        subst h
        refine ⟨0, 0, BuyTrace.nil _, by simp, by simp, Or.inr rfl, by simp, fun _ => ?_⟩
        simp only; omega

theorem buyOutLoop_trace {ss : List Seg} {ps : List Point} {lo cur left inp : Nat} {left' inp' next : Nat}
    (hp : Proper lo ps) (hss : ∀ s ∈ segs lo ps, s ∈ ss) (hlo : lo ≤ cur)
    (h : buyOutLoop ps cur left inp = .ok (left', inp', next)) :
    ∃ i o, BuyTrace ss cur next i o ∧ left' + o = left ∧ inp' = inp + i ∧ next ≤ max cur (topPrice lo ps) := by
  induction ps generalizing lo cur left inp with
  | nil =>
    simp only [buyOutLoop, ok_inj, Prod.mk.injEq] at h
    obtain ⟨rfl, rfl, rfl⟩ := h
    exact ⟨0, 0, BuyTrace.nil _, by simp, by simp, by simp⟩
  | cons p ps ih =>
    simp only [Proper] at hp
    have hpp : Proper p.price ps := hp.2.2.2
    have hss' : ∀ s ∈ segs p.price ps, s ∈ ss := fun s hs => hss s (by simp [segs, hs])
    have hseg : (⟨lo, p.price, p.liq⟩ : Seg) ∈ ss := hss _ (by simp [segs])
    have htop := Proper.lo_le_top hpp
    have hcur : 0 < cur := by omega
    rw [buyOutLoop, if_neg (by omega)] at h
    by_cases hc : cur < p.price
    · simp only [hc, if_true, bind_ok, deltaBase256_ok] at h
      obtain ⟨mx, ⟨h1, h2, h3, h4, rfl⟩, h⟩ := h
      simp only [divRound] at h
      by_cases hl : left < p.liq * (p.price - cur) / (cur * p.price)
      · simp only [hl, if_true, bind_ok, deltaQuote_ok, safeAdd_ok, ok_inj, Prod.mk.injEq] at h
        obtain ⟨n, hn, i, ⟨h5, h6, rfl, h7⟩, _, ⟨h8, rfl⟩, rfl, rfl, rfl⟩ := h
        have hno := nextOut_base_ok hn
        have hst := buyOut_step hcur (le_of_lt hc) (le_of_lt hl) hno.2.2.1 hno.2.2.2
        refine ⟨_, left, BuyTrace.single hseg (by somega) hst.1 (by somega) ?_ hst.2.2, by simp, rfl, ?_⟩
        · simp only [divRound]
          rw [Nat.mul_comm (2 ^ 128)]; exact le_divCeil_mul _ (by positivity)
        · simp only [topPrice]; omega
      · simp only [hl, if_false, bind_ok, deltaQuote_ok, safeAdd_ok, castTo_ok, safeSub_ok] at h
        obtain ⟨i, ⟨h5, h6, rfl, h7⟩, _, ⟨h8, rfl⟩, _, ⟨h9, rfl⟩, _, ⟨h10, rfl⟩, h⟩ := h
        obtain ⟨i, o, tr, e1, e2, e4⟩ := ih hpp hss' le_rfl h
        have tr' := BuyTrace.step hseg (s := ⟨lo, p.price, p.liq⟩) (x := cur)
          (i := divRound .up (p.liq * (p.price - cur)) (2 ^ 128))
          (o := p.liq * (p.price - cur) / (cur * p.price)) (by somega) (by somega) le_rfl
            (by simp only [divRound]; rw [Nat.mul_comm (2 ^ 128)]; exact le_divCeil_mul _ (by positivity))
            (Nat.div_mul_le_self _ _) tr
        exact ⟨_, _, tr', by omega, by omega, by simp only [topPrice]; omega⟩
    · rw [if_neg hc] at h
      obtain ⟨i, o, tr, e1, e2, e4⟩ := ih hpp hss' (by omega) h
      exact ⟨i, o, tr, e1, e2, by simpa only [topPrice] using e4⟩

theorem sellInLoop_trace {ss : List Seg} {ps : List Point} {p : Point} {lo : Nat} {s s' : Walk}
    (hp : Proper lo (p :: ps)) (hss : ∀ g ∈ segs lo (p :: ps), g ∈ ss) (hd : s.done = false)
    (htop : s.cur ≤ topPrice lo (p :: ps)) (h : sellInLoop (p :: ps) s = .ok s') :
    ∃ i o, SellTrace ss s.cur s'.cur i o ∧ s'.left + i = s.left ∧ s'.acc = s.acc + o ∧
      (s'.done = true → s'.left = 0) ∧ (s'.done = false → s'.cur ≤ p.price) := by
  induction ps generalizing lo p s' with
  | nil =>
    simp only [sellInLoop, ok_inj] at h
    subst h
    exact ⟨0, 0, SellTrace.nil _, by simp, by simp, by simp [hd], fun _ => by simpa only [topPrice] using htop⟩
  | cons q rest ih =>
    simp only [sellInLoop, bind_ok] at h
    obtain ⟨s1, h1, h2⟩ := h
    have hp0 := hp
    simp only [Proper] at hp
    have hpq : Proper p.price (q :: rest) := hp.2.2.2
    obtain ⟨i, o, tr, e1, e2, e3, e4⟩ := ih hpq (fun g hg => hss g (by simp only [segs, List.mem_cons] at hg ⊢; tauto))
      (by simpa only [topPrice] using htop) h1
    have hseg : (⟨p.price, q.price, q.liq⟩ : Seg) ∈ ss := hss _ (by simp [segs])
    unfold sellInStep at h2
    by_cases hdone : s1.done = true
    · rw [if_pos hdone, ok_inj] at h2
      subst h2
      exact ⟨i, o, tr, e1, e2, e3, by simp [hdone]⟩
    · rw [if_neg hdone, if_neg (by omega)] at h2
      have hcq := e4 (by simpa using hdone)
      by_cases hc : p.price < s1.cur
      · simp only [hc, if_true, bind_ok, deltaBase256_ok] at h2
        obtain ⟨mx, ⟨h3, h4, h5, h6, rfl⟩, h2⟩ := h2
        simp only [divRound] at h2
        by_cases hl : s1.left < divCeil (q.liq * (s1.cur - p.price)) (p.price * s1.cur)
        · simp only [hl, if_true, bind_ok, deltaQuote_ok, safeAdd_ok, ok_inj] at h2
          obtain ⟨n, hn, d, ⟨h7, h8, rfl, h9⟩, _, ⟨h10, rfl⟩, rfl⟩ := h2
          have hno := nextIn_base_ok hn
          have hst := sellIn_step hno.2.1 (by omega) h3 hl hno.2.2
          have t2 := SellTrace.single (i := s1.left) (o := divRound .down (q.liq * (s1.cur - n)) (2 ^ 128))
            hseg (by somega) hst.2.1 hcq hst.2.2 (by
              simp only [divRound]; rw [Nat.mul_comm]; exact Nat.div_mul_le_self _ _)
          exact ⟨_, _, tr.trans t2, by somega, by somega, by simp, by simp⟩
        · simp only [hl, if_false, bind_ok, deltaQuote_ok, safeAdd_ok, castTo_ok, safeSub_ok, ok_inj] at h2
          obtain ⟨d, ⟨h7, h8, rfl, h9⟩, _, ⟨h10, rfl⟩, _, ⟨h11, rfl⟩, _, ⟨h12, rfl⟩, rfl⟩ := h2
          have t2 := SellTrace.single (m := p.price) (x := s1.cur)
            (i := divCeil (q.liq * (s1.cur - p.price)) (p.price * s1.cur))
            (o := divRound .down (q.liq * (s1.cur - p.price)) (2 ^ 128))
            hseg le_rfl h3 hcq (le_divCeil_mul _ h5) (by
              simp only [divRound]; rw [Nat.mul_comm]; exact Nat.div_mul_le_self _ _)
          exact ⟨_, _, tr.trans t2, by somega, by somega, by simp, by simp⟩
      · rw [if_neg hc, ok_inj] at h2
        subst h2
        exact ⟨i, o, tr, e1, e2, e3, fun _ => by omega⟩

theorem sellOutLoop_trace {ss : List Seg} {ps : List Point} {p : Point} {lo : Nat} {s s' : Walk}
    (hp : Proper lo (p :: ps)) (hss : ∀ g ∈ segs lo (p :: ps), g ∈ ss) (hd : s.done = false)
    (htop : s.cur ≤ topPrice lo (p :: ps)) (h : sellOutLoop (p :: ps) s = .ok s') :
    ∃ i o, SellTrace ss s.cur s'.cur i o ∧ s'.left + o = s.left ∧ s'.acc = s.acc + i ∧
      (s'.done = true → s'.left = 0) ∧ (s'.done = false → s'.cur ≤ p.price) := by
  induction ps generalizing lo p s' with
  | nil =>
    simp only [sellOutLoop, ok_inj] at h
    subst h
    exact ⟨0, 0, SellTrace.nil _, by simp, by simp, by simp [hd], fun _ => by simpa only [topPrice] using htop⟩
  | cons q rest ih =>
    simp only [sellOutLoop, bind_ok] at h
    obtain ⟨s1, h1, h2⟩ := h
    have hp0 := hp
    simp only [Proper] at hp
    have hpq : Proper p.price (q :: rest) := hp.2.2.2
    obtain ⟨i, o, tr, e1, e2, e3, e4⟩ := ih hpq (fun g hg => hss g (by simp only [segs, List.mem_cons] at hg ⊢; tauto))
      (by simpa only [topPrice] using htop) h1
    have hseg : (⟨p.price, q.price, q.liq⟩ : Seg) ∈ ss := hss _ (by simp [segs])
    unfold sellOutStep at h2
    by_cases hdone : s1.done = true
    · rw [if_pos hdone, ok_inj] at h2
      subst h2
      exact ⟨i, o, tr, e1, e2, e3, by simp [hdone]⟩
    · rw [if_neg hdone, if_neg (by omega)] at h2
      have hcq := e4 (by simpa using hdone)
      by_cases hc : p.price < s1.cur
      · simp only [hc, if_true, bind_ok, deltaQuote256_ok] at h2
        obtain ⟨mx, ⟨h3, h4, rfl⟩, h2⟩ := h2
        simp only [divRound] at h2
        by_cases hl : s1.left < q.liq * (s1.cur - p.price) / 2 ^ 128
        · simp only [hl, if_true, bind_ok, deltaBase_ok, safeAdd_ok, ok_inj] at h2
          obtain ⟨n, hn, d, ⟨h7, h8, h8', rfl, h9⟩, _, ⟨h10, rfl⟩, rfl⟩ := h2
          have hno := nextOut_quote_ok hn
          have hst := sellOut_step hno.2.1 hno.2.2.1 hno.2.2.2
          have hlo := sellOut_step_lo hno.2.1 h3 (le_of_lt hl) hno.2.2.2
          have t2 := SellTrace.single (i := divRound .up (q.liq * (s1.cur - n)) (n * s1.cur)) (o := s1.left)
            hseg hlo hst.1 hcq (by simp only [divRound]; exact le_divCeil_mul _ h8') hst.2
          exact ⟨_, _, tr.trans t2, by somega, by somega, by simp, by simp⟩
        · simp only [hl, if_false, bind_ok, deltaBase_ok, safeAdd_ok, safeSub_ok, ok_inj] at h2
          obtain ⟨d, ⟨h7, h8, h8', rfl, h9⟩, _, ⟨h10, rfl⟩, _, h11, _, ⟨h12, rfl⟩, rfl⟩ := h2
          have t2 := SellTrace.single (m := p.price) (x := s1.cur)
            (i := divRound .up (q.liq * (s1.cur - p.price)) (p.price * s1.cur))
            (o := q.liq * (s1.cur - p.price) / 2 ^ 128)
            hseg le_rfl h3 hcq (by simp only [divRound]; exact le_divCeil_mul _ h8') (by
              rw [Nat.mul_comm]; exact Nat.div_mul_le_self _ _)
          exact ⟨_, _, tr.trans t2, by somega, by somega, by simp, by simp⟩
      · rw [if_neg hc, ok_inj] at h2
        subst h2
        exact ⟨i, o, tr, e1, e2, e3, fun _ => by omega⟩

theorem SellTrace.ge {lo : Nat} {ps : List Point} (hp : Proper lo ps) {x y i o : Nat}
    (h : SellTrace (segs lo ps) x y i o) (hx : lo ≤ x) : lo ≤ y := by
  induction h with
  | nil => exact hx
  | step hs h1 h2 h3 hi ho _ ih => exact ih (by have := segs_bounds hp hs; omega)

/-! ### Whole walks over a stored configuration -/

/-- The stored configuration holds the proper curve `ps`, and the migration price is on it. -/
structure CurveOK (c : PoolConfig) (ps : List Point) : Prop where
  stored : ∃ n, c.curve = ps ++ List.replicate n ⟨0, 0⟩
  proper : Proper c.sqrtStartPrice ps
  nonempty : ps ≠ []
  migLo : c.sqrtStartPrice ≤ c.migrationSqrtPrice
  migHi : c.migrationSqrtPrice ≤ topPrice c.sqrtStartPrice ps

theorem buyIn_trace {c : PoolConfig} {ps : List Point} (hc : CurveOK c ps) {price a : Nat} {r : FromInput}
    (h1 : c.sqrtStartPrice ≤ price) (h2 : price ≤ c.migrationSqrtPrice) (h : buyIn c price a = .ok r) :
    ∃ i, BuyTrace (segs c.sqrtStartPrice ps) price r.next i r.out ∧ r.left + i = a ∧
      r.next ≤ c.migrationSqrtPrice ∧ (r.left ≠ 0 → r.next = c.migrationSqrtPrice) := by
  obtain ⟨n, hn⟩ := hc.stored
  unfold buyIn at h
  rw [hn, buyInLoop_pad] at h
  obtain ⟨i, o, tr, e1, e2, e3, e4, e5⟩ := buyInLoop_trace hc.proper (fun s hs => hs) h1 h
  have hm := hc.migHi
  have e6 : r.next ≤ c.migrationSqrtPrice := by omega
  refine ⟨i, ?_, e1, e6, fun hl => ?_⟩
  · have : r.out = o := by omega
    rw [this]; exact tr
  · have := e5 hl; omega

theorem buyOut_trace {c : PoolConfig} {ps : List Point} (hc : CurveOK c ps) {price a : Nat} {r : FromOutput}
    (h1 : c.sqrtStartPrice ≤ price) (h : buyOut c price a = .ok r) :
    BuyTrace (segs c.sqrtStartPrice ps) price r.next r.amountIn a ∧
      r.next ≤ max price (topPrice c.sqrtStartPrice ps) := by
  obtain ⟨n, hn⟩ := hc.stored
  unfold buyOut at h
  rw [hn, buyOutLoop_pad] at h
  simp only [bind_ok, req_ok] at h
  obtain ⟨⟨l, i, nx⟩, hl, _, hz, hr⟩ := h
  simp only at hz hr
  rw [ok_inj] at hr
  subst hr
  obtain ⟨i', o, tr, e1, e2, e3⟩ := buyOutLoop_trace hc.proper (fun s hs => hs) h1 hl
  simp only
  have : o = a := by omega
  subst this
  have : i = i' := by omega
  subst this
  exact ⟨tr, e3⟩

theorem sellIn_trace {c : PoolConfig} {ps : List Point} (hc : CurveOK c ps) {price a : Nat} {r : FromInput}
    (h2 : price ≤ c.migrationSqrtPrice) (h : sellIn c price a = .ok r) :
    ∃ i, SellTrace (segs c.sqrtStartPrice ps) price r.next i r.out ∧ r.left + i = a ∧
      (r.left ≠ 0 → r.next = c.sqrtStartPrice) := by
  obtain ⟨n, hn⟩ := hc.stored
  have hm := hc.migHi
  have hpr := hc.proper
  cases ps with
  | nil => exact absurd rfl hc.nonempty
  | cons p ps =>
    unfold sellIn at h
    rw [hn, sellInLoop_pad n c.sqrtStartPrice p ps _ (by somega)] at h
    simp only [bind_ok] at h
    obtain ⟨s, hl, hf⟩ := h
    have hliq : c.liq0 = p.liq := by unfold PoolConfig.liq0; rw [hn]; rfl
    rw [hliq] at hf
    obtain ⟨i, o, tr, e1, e2, e3, e4⟩ := sellInLoop_trace hpr (fun s hs => hs) rfl (by somega) hl
    simp only at e1 e2 tr
    simp only [Nat.zero_add] at e2
    have hseg : (⟨c.sqrtStartPrice, p.price, p.liq⟩ : Seg) ∈ segs c.sqrtStartPrice (p :: ps) := by simp [segs]
    unfold sellInFinish at hf
    by_cases hz : s.left ≠ 0
    · have hcp : s.cur ≤ p.price := e4 (by
        by_contra hcon
        exact hz (e3 (by simpa using hcon)))
      simp only [hz, if_true, bind_ok, ne_eq, not_false_eq_true] at hf
      obtain ⟨nx, hnx, hf⟩ := hf
      have hno := nextIn_base_ok hnx
      have hst := sellIn_step0 hno.2.1 hno.2.2
      by_cases hlt : nx < c.sqrtStartPrice
      · simp only [hlt, if_true, bind_ok, deltaBase_ok, deltaQuote_ok, safeSub_ok, safeAdd_ok, ok_inj] at hf
        obtain ⟨_, ⟨g1, g2, g3, rfl, g4⟩, _, ⟨g5, rfl⟩, _, ⟨g6, g7, rfl, g8⟩, _, ⟨g9, rfl⟩, rfl⟩ := hf
        have t2 := SellTrace.single (m := c.sqrtStartPrice) (x := s.cur)
          (i := divRound .up (p.liq * (s.cur - c.sqrtStartPrice)) (c.sqrtStartPrice * s.cur))
          (o := divRound .down (p.liq * (s.cur - c.sqrtStartPrice)) (2 ^ 128))
          hseg le_rfl g1 hcp (by simp only [divRound]; exact le_divCeil_mul _ g3) (by
            simp only [divRound]; rw [Nat.mul_comm]; exact Nat.div_mul_le_self _ _)
        have t3 := tr.trans t2
        rw [← e2] at t3
        exact ⟨_, t3, by somega, fun _ => rfl⟩
      · simp only [hlt, if_false, bind_ok, deltaQuote_ok, safeAdd_ok, ok_inj] at hf
        obtain ⟨_, ⟨g6, g7, rfl, g8⟩, _, ⟨g9, rfl⟩, rfl⟩ := hf
        have t2 := SellTrace.single (m := nx) (x := s.cur) (i := s.left)
          (o := divRound .down (p.liq * (s.cur - nx)) (2 ^ 128))
          hseg (by somega) hst.1 hcp hst.2 (by
            simp only [divRound]; rw [Nat.mul_comm]; exact Nat.div_mul_le_self _ _)
        have t3 := tr.trans t2
        rw [← e2] at t3
        exact ⟨_, t3, by somega, by simp⟩
    · simp only [hz, if_false, ok_inj] at hf
      subst hf
      rw [← e2] at tr
      exact ⟨i, tr, e1, fun h => absurd h hz⟩

theorem sellOut_trace {c : PoolConfig} {ps : List Point} (hc : CurveOK c ps) {price a : Nat} {r : FromOutput}
    (h2 : price ≤ c.migrationSqrtPrice) (h : sellOut c price a = .ok r) :
    SellTrace (segs c.sqrtStartPrice ps) price r.next r.amountIn a := by
  obtain ⟨n, hn⟩ := hc.stored
  have hm := hc.migHi
  have hpr := hc.proper
  cases ps with
  | nil => exact absurd rfl hc.nonempty
  | cons p ps =>
    unfold sellOut at h
    rw [hn, sellOutLoop_pad n c.sqrtStartPrice p ps _ (by somega)] at h
    simp only [bind_ok] at h
    obtain ⟨s, hl, hf⟩ := h
    have hliq : c.liq0 = p.liq := by unfold PoolConfig.liq0; rw [hn]; rfl
    rw [hliq] at hf
    obtain ⟨i, o, tr, e1, e2, e3, e4⟩ := sellOutLoop_trace hpr (fun s hs => hs) rfl (by somega) hl
    simp only at e1 e2 tr
    simp only [Nat.zero_add] at e2
    have hseg : (⟨c.sqrtStartPrice, p.price, p.liq⟩ : Seg) ∈ segs c.sqrtStartPrice (p :: ps) := by simp [segs]
    unfold sellOutFinish at hf
    by_cases hz : s.left ≠ 0
    · have hcp : s.cur ≤ p.price := e4 (by
        by_contra hcon
        exact hz (e3 (by simpa using hcon)))
      simp only [hz, if_true, bind_ok, ne_eq, not_false_eq_true, deltaQuote256_ok, req_ok, deltaBase_ok, safeAdd_ok,
        ok_inj] at hf
      obtain ⟨_, ⟨g1, g2, rfl⟩, _, g3, nx, hnx, _, g4, _, ⟨g5, g6, g7, rfl, g8⟩, _, ⟨g9, rfl⟩, rfl⟩ := hf
      have hno := nextOut_quote_ok hnx
      have hst := sellOut_step hno.2.1 hno.2.2.1 hno.2.2.2
      have t2 := SellTrace.single (m := nx) (x := s.cur) (i := divRound .up (p.liq * (s.cur - nx)) (nx * s.cur))
        (o := s.left) hseg g4 hst.1 hcp (by simp only [divRound]; exact le_divCeil_mul _ g7) hst.2
      have t3 := tr.trans t2
      rw [← e2, show o + s.left = a by omega] at t3
      exact t3
    · simp only [hz, if_false, ok_inj] at hf
      subst hf
      have : o = a := by omega
      rw [← e2, this] at tr
      exact tr

end Dbc

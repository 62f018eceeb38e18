import Verif.Lemmas.Total

/-!
# Comparing walks: monotonicity, splitting, and exact input against exact output
-/

namespace Dbc

open Spec

/-- Quote for moving from `x` up to `y`, rounded up. -/
def Qc (L x y : Nat) : Nat := divCeil (L * (y - x)) (2 ^ 128)
/-- Quote for moving from `y` down to `x`, rounded down. -/
def Qf (L x y : Nat) : Nat := L * (y - x) / 2 ^ 128
/-- Base for moving from `x` up to `y`, rounded down. -/
def Bf (L x y : Nat) : Nat := L * (y - x) / (x * y)
/-- Base for moving from `y` down to `x`, rounded up. -/
def Bc (L x y : Nat) : Nat := divCeil (L * (y - x)) (x * y)

theorem div_add_div_le (a b c : Nat) : a / c + b / c ≤ (a + b) / c := by
  rcases Nat.eq_zero_or_pos c with rfl | hc
  · simp
  · rw [Nat.le_div_iff_mul_le hc, Nat.add_mul]
    exact Nat.add_le_add (Nat.div_mul_le_self _ _) (Nat.div_mul_le_self _ _)

theorem Qc_mono {L x y z : Nat} (h : y ≤ z) : Qc L x y ≤ Qc L x z :=
  divCeil_mono (by positivity) (Nat.mul_le_mul_left _ (by omega))

theorem Qf_mono {L x y z : Nat} (h : x ≤ y) : Qf L y z ≤ Qf L x z :=
  Nat.div_le_div_right (Nat.mul_le_mul_left _ (by omega))

theorem Qf_add {L x y z : Nat} (h1 : x ≤ y) (h2 : y ≤ z) : Qf L y z + Qf L x y ≤ Qf L x z := by
  have e : L * (z - x) = L * (z - y) + L * (y - x) := by rw [← Nat.mul_add]; congr 1; omega
  unfold Qf
  rw [e]
  exact div_add_div_le _ _ _

theorem Bf_mono {L x y z : Nat} (hx : 0 < x) (h1 : x ≤ y) (h2 : y ≤ z) : Bf L x y ≤ Bf L x z := by
  unfold Bf
  have hy : 0 < y := by omega
  have hz : 0 < z := by omega
  rw [Nat.le_div_iff_mul_le (by positivity)]
  have h := Nat.div_mul_le_self (L * (y - x)) (x * y)
  generalize L * (y - x) / (x * y) = o at *
  -- o * x * y ≤ L (y - x)  →  o * x * z ≤ L (z - x)
  have e := base_add (L := L) h1 h2
  have : o * (x * z) * y ≤ L * (z - x) * y := by
    calc o * (x * z) * y = o * (x * y) * z := by ring
      _ ≤ L * (y - x) * z := Nat.mul_le_mul_right _ h
      _ ≤ L * (y - x) * z + L * (z - y) * x := Nat.le_add_right _ _
      _ = L * (z - x) * y := e.symm
  exact Nat.le_of_mul_le_mul_right this hy

theorem Bf_add {L x y z : Nat} (hx : 0 < x) (h1 : x ≤ y) (h2 : y ≤ z) : Bf L x y + Bf L y z ≤ Bf L x z := by
  unfold Bf
  have hy : 0 < y := by omega
  have hz : 0 < z := by omega
  rw [Nat.le_div_iff_mul_le (by positivity)]
  have h := Nat.div_mul_le_self (L * (y - x)) (x * y)
  have h' := Nat.div_mul_le_self (L * (z - y)) (y * z)
  generalize L * (y - x) / (x * y) = o at *
  generalize L * (z - y) / (y * z) = o' at *
  have e := base_add (L := L) h1 h2
  have : (o + o') * (x * z) * y ≤ L * (z - x) * y := by
    calc (o + o') * (x * z) * y = o * (x * y) * z + o' * (y * z) * x := by ring
      _ ≤ L * (y - x) * z + L * (z - y) * x := Nat.add_le_add (Nat.mul_le_mul_right _ h) (Nat.mul_le_mul_right _ h')
      _ = L * (z - x) * y := e.symm
  exact Nat.le_of_mul_le_mul_right this hy

/-- `Bc` is monotone in the lower price. -/
theorem Bc_mono {L x y z : Nat} (hx : 0 < x) (h1 : x ≤ y) (h2 : y ≤ z) : Bc L y z ≤ Bc L x z := by
  unfold Bc
  have hy : 0 < y := by omega
  have hz : 0 < z := by omega
  rw [divCeil_le_iff (by positivity)]
  have h := le_divCeil_mul (L * (z - x)) (b := x * z) (by positivity)
  generalize divCeil (L * (z - x)) (x * z) = c at *
  have e := base_add (L := L) h1 h2
  have : L * (z - y) * x ≤ c * (y * z) * x := by
    calc L * (z - y) * x ≤ L * (y - x) * z + L * (z - y) * x := Nat.le_add_left _ _
      _ = L * (z - x) * y := e.symm
      _ ≤ c * (x * z) * y := Nat.mul_le_mul_right _ h
      _ = c * (y * z) * x := by ring
  exact Nat.le_of_mul_le_mul_right this hx

/-- Splitting a buy inside a piece saves nothing towards the end of the piece. -/
theorem Qc_after {L x y a n : Nat} (h1 : x ≤ n) (h2 : n ≤ y) (h : L * (n - x) ≤ 2 ^ 128 * a) :
    Qc L x y ≤ a + Qc L n y := by
  unfold Qc
  rw [divCeil_le_iff (by positivity), Nat.add_mul]
  have h3 := le_divCeil_mul (L * (y - n)) (b := 2 ^ 128) (by positivity)
  have e : L * (y - x) = L * (n - x) + L * (y - n) := by rw [← Nat.mul_add]; congr 1; omega
  rw [e, Nat.mul_comm a]
  exact Nat.add_le_add h h3

/-- The same for sells. -/
theorem Bc_after {L x y a n : Nat} (hx : 0 < x) (h1 : x ≤ n) (h2 : n ≤ y) (h : L * (y - n) ≤ a * (n * y)) :
    Bc L x y ≤ a + Bc L x n := by
  unfold Bc
  have hn : 0 < n := by omega
  have hy : 0 < y := by omega
  rw [divCeil_le_iff (by positivity)]
  have h3 := le_divCeil_mul (L * (n - x)) (b := x * n) (by positivity)
  generalize divCeil (L * (n - x)) (x * n) = c at *
  have e := base_add (L := L) h1 h2
  have : L * (y - x) * n ≤ (a + c) * (x * y) * n := by
    calc L * (y - x) * n = L * (n - x) * y + L * (y - n) * x := e
      _ ≤ c * (x * n) * y + a * (n * y) * x := Nat.add_le_add (Nat.mul_le_mul_right _ h3) (Nat.mul_le_mul_right _ h)
      _ = (a + c) * (x * y) * n := by ring
  exact Nat.le_of_mul_le_mul_right this hn

theorem nextUp_mono {x L a b : Nat} (h : a ≤ b) : x + a * 2 ^ 128 / L ≤ x + b * 2 ^ 128 / L :=
  Nat.add_le_add_left (Nat.div_le_div_right (Nat.mul_le_mul_right _ h)) _

theorem nextUp_add {x L a b : Nat} :
    x + a * 2 ^ 128 / L + b * 2 ^ 128 / L ≤ x + (a + b) * 2 ^ 128 / L := by
  rw [Nat.add_mul, Nat.add_assoc]
  exact Nat.add_le_add_left (div_add_div_le _ _ _) _

/-! ### Buys by exact input -/

/-- What one step of a buy does. -/
theorem buyInLoop_cons {stop : Nat} {p : Point} {ps : List Point} {cur left out : Nat} {r : FromInput} (hp : p.price ≠ 0)
    (hL : p.liq ≠ 0) (h : buyInLoop stop (p :: ps) cur left out = .ok r) :
    (cur < min stop p.price ∧ left < Qc p.liq cur (min stop p.price) ∧ r.next = cur + left * 2 ^ 128 / p.liq ∧ r.left = 0 ∧
      r.out = out + Bf p.liq cur r.next ∧ cur ≤ r.next ∧ r.next < min stop p.price ∧
      p.liq * (r.next - cur) ≤ 2 ^ 128 * left) ∨
    (cur < stop ∧ stop ≤ p.price ∧ Qc p.liq cur stop ≤ left ∧ r.left = left - Qc p.liq cur stop ∧
      r.out = out + Bf p.liq cur stop ∧ r.next = stop) ∨
    (cur < p.price ∧ p.price < stop ∧ Qc p.liq cur p.price ≤ left ∧
      buyInLoop stop ps p.price (left - Qc p.liq cur p.price) (out + Bf p.liq cur p.price) = .ok r) ∨
    (min stop p.price ≤ cur ∧ buyInLoop stop ps cur left out = .ok r) := by
  rw [buyInLoop, if_neg (by omega)] at h
  by_cases hc : cur < min stop p.price
  · simp only [hc, if_true, bind_ok, deltaQuote256_ok] at h
    obtain ⟨mx, ⟨h1, h2, rfl⟩, h⟩ := h
    simp only [divRound] at h
    by_cases hl : left < divCeil (p.liq * (min stop p.price - cur)) (2 ^ 128)
    · simp only [hl, if_true, bind_ok, nextIn_quote_ok, deltaBase_ok, safeAdd_ok, ok_inj] at h
      obtain ⟨n, ⟨_, _, _, _, hn, _⟩, o, ⟨h3, h4, h5, rfl, h6⟩, _, ⟨h7, rfl⟩, rfl⟩ := h
      have hst := buyIn_step (Nat.pos_of_ne_zero hL) hl hn
      exact .inl ⟨hc, hl, hn, rfl, rfl, hst.1, hst.2.1, hst.2.2⟩
    · simp only [hl, if_false, bind_ok, deltaBase_ok, safeAdd_ok, castTo_ok, safeSub_ok] at h
      obtain ⟨o, ⟨h3, h4, h5, rfl, h6⟩, _, ⟨h7, rfl⟩, _, ⟨h8, rfl⟩, _, ⟨h9, rfl⟩, h⟩ := h
      simp only [divRound] at h
      by_cases he : min stop p.price = stop
      · rw [if_pos he, ok_inj] at h
        subst h
        rw [he] at hc hl ⊢
        exact .inr (.inl ⟨hc, by omega, not_lt.1 hl, rfl, rfl, rfl⟩)
      · rw [if_neg he] at h
        have hmin : min stop p.price = p.price := by omega
        rw [hmin] at h hl hc
        exact .inr (.inr (.inl ⟨hc, by omega, not_lt.1 hl, h⟩))
  · rw [if_neg hc] at h
    exact .inr (.inr (.inr ⟨not_lt.1 hc, h⟩))

theorem buyInLoop_grow {stop : Nat} {ps : List Point} {lo cur left out : Nat} {r : FromInput} (hp : Proper lo ps)
    (hlo : lo ≤ cur) (h : buyInLoop stop ps cur left out = .ok r) : cur ≤ r.next ∧ out ≤ r.out := by
  obtain ⟨i, o, tr, -, e, -⟩ := buyInLoop_trace hp (fun _ h => h) hlo h
  exact ⟨tr.le, by omega⟩

theorem buyInLoop_stopped {stop : Nat} {ps : List Point} {lo cur left out : Nat} {r : FromInput} (hp : Proper lo ps)
    (hs : stop ≤ cur) (h : buyInLoop stop ps cur left out = .ok r) : r = ⟨left, out, cur⟩ := by
  induction ps generalizing lo with
  | nil => simp only [buyInLoop, ok_inj] at h; exact h.symm
  | cons p ps ih =>
    simp only [Proper] at hp
    rcases buyInLoop_cons (by omega) (by omega) h with h | h | h | h
    · omega
    · omega
    · omega
    · exact ih hp.2.2.2 h.2

/-- More in, no less out. -/
theorem buyInLoop_shift {d stop : Nat} {ps : List Point} {lo cur left left' out out' : Nat} {r r' : FromInput}
    (hp : Proper lo ps) (hlo : lo ≤ cur) (hl : left ≤ left') (ho : out + d ≤ out') (h : buyInLoop stop ps cur left out = .ok r)
    (h' : buyInLoop stop ps cur left' out' = .ok r') : r.out + d ≤ r'.out ∧ r.next ≤ r'.next ∧ r.left ≤ r'.left := by
  induction ps generalizing lo cur left left' out out' with
  | nil =>
    simp only [buyInLoop, ok_inj] at h h'
    subst h h'
    exact ⟨ho, le_rfl, hl⟩
  | cons p ps ih =>
    simp only [Proper] at hp
    have hc0 : 0 < cur := by omega
    have g' := h'
    rcases buyInLoop_cons (by omega) (by omega) h with ⟨a1, a2, a3, a4, a5, a6, a7, a8⟩ | ⟨a1, a2, a3, a4, a5, a6⟩ |
      ⟨a1, a2, a3, a4⟩ | ⟨a1, a2⟩
    · rcases buyInLoop_cons (by omega) (by omega) h' with ⟨b1, b2, b3, b4, b5, b6, b7, b8⟩ | ⟨b1, b2, b3, b4, b5, b6⟩ |
        ⟨b1, b2, b3, b4⟩ | ⟨b1, b2⟩
      · have hn : r.next ≤ r'.next := by rw [a3, b3]; exact nextUp_mono hl
        have := Bf_mono (L := p.liq) hc0 a6 hn
        omega
      · have := Bf_mono (L := p.liq) hc0 a6 (show r.next ≤ stop by omega)
        omega
      · have := Bf_mono (L := p.liq) hc0 a6 (show r.next ≤ p.price by omega)
        have := buyInLoop_grow hp.2.2.2 le_rfl b4
        omega
      · omega
    · rcases buyInLoop_cons (by omega) (by omega) h' with ⟨b1, b2, b3, b4, b5, b6, b7, b8⟩ | ⟨b1, b2, b3, b4, b5, b6⟩ |
        ⟨b1, b2, b3, b4⟩ | ⟨b1, b2⟩
      · rw [show min stop p.price = stop by omega] at b2
        omega
      · omega
      · omega
      · omega
    · rcases buyInLoop_cons (by omega) (by omega) h' with ⟨b1, b2, b3, b4, b5, b6, b7, b8⟩ | ⟨b1, b2, b3, b4, b5, b6⟩ |
        ⟨b1, b2, b3, b4⟩ | ⟨b1, b2⟩
      · rw [show min stop p.price = p.price by omega] at b2
        omega
      · omega
      · exact ih hp.2.2.2 le_rfl (by omega) (by omega) a4 b4
      · omega
    · rcases buyInLoop_cons (by omega) (by omega) h' with ⟨b1, b2, b3, b4, b5, b6, b7, b8⟩ | ⟨b1, b2, b3, b4, b5, b6⟩ |
        ⟨b1, b2, b3, b4⟩ | ⟨b1, b2⟩
      · omega
      · omega
      · omega
      · by_cases hcp : p.price ≤ cur
        · exact ih hp.2.2.2 hcp hl ho a2 b2
        · have e := buyInLoop_stopped hp.2.2.2 (by omega) a2
          have e' := buyInLoop_stopped hp.2.2.2 (by omega) b2
          subst e e'
          exact ⟨ho, le_rfl, hl⟩

/-- One trade is at least as good as two. -/
theorem buyInLoop_split {stop : Nat} {ps : List Point} {lo cur a b out : Nat} {r1 r2 r : FromInput}
    (hp : Proper lo ps) (hlo : lo ≤ cur) (h1 : buyInLoop stop ps cur a out = .ok r1) (hz : r1.left = 0)
    (h2 : buyInLoop stop ps r1.next b 0 = .ok r2) (h : buyInLoop stop ps cur (a + b) out = .ok r) :
    r1.out + r2.out ≤ r.out ∧ r2.next ≤ r.next ∧ r2.left ≤ r.left := by
  induction ps generalizing lo cur a out with
  | nil =>
    simp only [buyInLoop, ok_inj] at h h1 h2
    subst h h1 h2
    dsimp only at *
    omega
  | cons p ps ih =>
    simp only [Proper] at hp
    have hc0 : 0 < cur := by omega
    rcases buyInLoop_cons (by omega) (by omega) h1 with ⟨a1, a2, a3, a4, a5, a6, a7, a8⟩ | ⟨a1, a2, a3, a4, a5, a6⟩ |
      ⟨a1, a2, a3, a4⟩ | ⟨a1, a2⟩
    · -- the first trade ends in this piece
      have hn0 : 0 < r1.next := by omega
      have haft := Qc_after (L := p.liq) (y := min stop p.price) a6 (by omega) a8
      rcases buyInLoop_cons (by omega) (by omega) h2 with ⟨b1, b2, b3, b4, b5, b6, b7, b8⟩ | ⟨b1, b2, b3, b4, b5, b6⟩ |
        ⟨b1, b2, b3, b4⟩ | ⟨b1, b2⟩
      · have hadd := Bf_add (L := p.liq) hc0 a6 b6
        rcases buyInLoop_cons (by omega) (by omega) h with ⟨c1, c2, c3, c4, c5, c6, c7, c8⟩ | ⟨c1, c2, c3, c4, c5, c6⟩ |
          ⟨c1, c2, c3, c4⟩ | ⟨c1, c2⟩
        · have hn : r2.next ≤ r.next := by rw [b3, a3, c3]; exact nextUp_add
          have := Bf_mono (L := p.liq) hc0 (a6.trans b6) hn
          omega
        · have := Bf_mono (L := p.liq) hc0 (a6.trans b6) (show r2.next ≤ stop by omega)
          omega
        · have := Bf_mono (L := p.liq) hc0 (a6.trans b6) (show r2.next ≤ p.price by omega)
          have := buyInLoop_grow hp.2.2.2 le_rfl c4
          omega
        · omega
      · rw [show min stop p.price = stop by omega] at haft
        have hadd := Bf_add (L := p.liq) hc0 a6 (show r1.next ≤ stop by omega)
        rcases buyInLoop_cons (by omega) (by omega) h with ⟨c1, c2, c3, c4, c5, c6, c7, c8⟩ | ⟨c1, c2, c3, c4, c5, c6⟩ |
          ⟨c1, c2, c3, c4⟩ | ⟨c1, c2⟩
        · rw [show min stop p.price = stop by omega] at c2
          omega
        · omega
        · omega
        · omega
      · rw [show min stop p.price = p.price by omega] at haft
        have hadd := Bf_add (L := p.liq) hc0 a6 (show r1.next ≤ p.price by omega)
        rcases buyInLoop_cons (by omega) (by omega) h with ⟨c1, c2, c3, c4, c5, c6, c7, c8⟩ | ⟨c1, c2, c3, c4, c5, c6⟩ |
          ⟨c1, c2, c3, c4⟩ | ⟨c1, c2⟩
        · rw [show min stop p.price = p.price by omega] at c2
          omega
        · omega
        · -- both continue above the piece
          obtain ⟨k1, k2, k3⟩ := buyInLoop_shift hp.2.2.2 le_rfl (d := r1.out) (by omega) (by omega) b4 c4
          exact ⟨by omega, k2, k3⟩
        · omega
      · omega
    · -- the first trade stops at the migration price
      have e := buyInLoop_stopped (lo := lo) (ps := p :: ps) (by simp only [Proper]; exact hp) (by omega) h2
      subst e
      rcases buyInLoop_cons (by omega) (by omega) h with ⟨c1, c2, c3, c4, c5, c6, c7, c8⟩ | ⟨c1, c2, c3, c4, c5, c6⟩ |
        ⟨c1, c2, c3, c4⟩ | ⟨c1, c2⟩
      · rw [show min stop p.price = stop by omega] at c2
        omega
      · dsimp only at *; omega
      · omega
      · omega
    · have hg := (buyInLoop_grow hp.2.2.2 le_rfl a4).1
      rcases buyInLoop_cons (by omega) (by omega) h with ⟨c1, c2, c3, c4, c5, c6, c7, c8⟩ | ⟨c1, c2, c3, c4, c5, c6⟩ |
        ⟨c1, c2, c3, c4⟩ | ⟨c1, c2⟩
      · rw [show min stop p.price = p.price by omega] at c2
        omega
      · omega
      · rcases buyInLoop_cons (by omega) (by omega) h2 with b | b | b | ⟨b1, b2⟩
        · omega
        · omega
        · omega
        · refine ih hp.2.2.2 le_rfl a4 b2 ?_
          rw [← c4]
          congr 1
          omega
      · omega
    · rcases buyInLoop_cons (by omega) (by omega) h with ⟨c1, c2, c3, c4, c5, c6, c7, c8⟩ | ⟨c1, c2, c3, c4, c5, c6⟩ |
        ⟨c1, c2, c3, c4⟩ | ⟨c1, c2⟩
      · omega
      · omega
      · omega
      · by_cases hcp : p.price ≤ cur
        · have hg := (buyInLoop_grow hp.2.2.2 hcp a2).1
          rcases buyInLoop_cons (by omega) (by omega) h2 with b | b | b | ⟨b1, b2⟩
          · omega
          · omega
          · omega
          · exact ih hp.2.2.2 hcp a2 b2 c2
        · have e1 := buyInLoop_stopped hp.2.2.2 (by omega) a2
          have e := buyInLoop_stopped hp.2.2.2 (by omega) c2
          subst e1 e
          have e2 := buyInLoop_stopped (lo := lo) (ps := p :: ps) (by simp only [Proper]; exact hp)
            (show stop ≤ cur by omega) h2
          subst e2
          dsimp only at *
          omega

end Dbc

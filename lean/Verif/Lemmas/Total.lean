import Verif.Lemmas.Config

/-!
# The exact-in walks always succeed, the exact-out walks never panic
-/

namespace Dbc
open Spec

theorem prod_fits {L a : Nat} (hL : L ≤ u128Max) (ha : a ≤ MAX_SQRT_PRICE) : L * a ≤ u256Max :=
  (Nat.mul_le_mul hL ha).trans (by decide +kernel)

theorem safeAdd_eq {m a b : Nat} (h : a + b ≤ m) : safeAdd m a b = .ok (a + b) := if_pos h
theorem safeSub_eq {a b : Nat} (h : b ≤ a) : safeSub a b = .ok (a - b) := if_pos h
theorem castTo_eq {m a : Nat} (h : a ≤ m) : castTo m a = .ok a := if_pos h

theorem divRound_le (r : Rounding) (a b : Nat) (hb : 0 < b) : divRound r a b ≤ a := by
  cases r with
  | down => exact Nat.div_le_self _ _
  | up =>
    show divCeil a b ≤ a
    rw [divCeil_le_iff hb]
    exact Nat.le_mul_of_pos_right _ hb

theorem deltaQuote256_eq {lo hi L : Nat} (r : Rounding) (h : lo ≤ hi) (hM : hi ≤ MAX_SQRT_PRICE) (hL : L ≤ u128Max) :
    deltaQuote256 lo hi L r = .ok (divRound r (L * (hi - lo)) (2 ^ 128)) :=
  deltaQuote256_ok.2 ⟨h, prod_fits hL (by omega), rfl⟩

theorem deltaBase256_eq {lo hi L : Nat} (r : Rounding) (h0 : 0 < lo) (h : lo ≤ hi) (hM : hi ≤ MAX_SQRT_PRICE)
    (hL : L ≤ u128Max) : deltaBase256 lo hi L r = .ok (divRound r (L * (hi - lo)) (lo * hi)) := by
  have hpos : 0 < lo * hi := Nat.mul_pos h0 (by omega)
  refine deltaBase256_ok.2 ⟨h, ?_, hpos, (divRound_le r _ _ hpos).trans (prod_fits hL (by omega)), rfl⟩
  exact (Nat.mul_le_mul (h.trans hM) hM).trans (by decide +kernel)

theorem deltaQuote_eq {lo hi L : Nat} (r : Rounding) (h : lo ≤ hi) (hM : hi ≤ MAX_SQRT_PRICE) (hL : L ≤ u128Max)
    (hd : divRound r (L * (hi - lo)) (2 ^ 128) ≤ u64Max) :
    deltaQuote lo hi L r = .ok (divRound r (L * (hi - lo)) (2 ^ 128)) :=
  deltaQuote_ok.2 ⟨h, prod_fits hL (by omega), rfl, hd⟩

theorem deltaBase_eq {lo hi L : Nat} (r : Rounding) (h0 : 0 < lo) (h : lo ≤ hi) (hM : hi ≤ MAX_SQRT_PRICE)
    (hL : L ≤ u128Max) (hd : divRound r (L * (hi - lo)) (lo * hi) ≤ u64Max) :
    deltaBase lo hi L r = .ok (divRound r (L * (hi - lo)) (lo * hi)) := by
  simp only [deltaBase, bind_ok, req_ok, castTo_ok]
  exact ⟨_, deltaBase256_eq r h0 h hM hL, (), hd, hd, rfl⟩

theorem nextIn_quote_eq {p L a : Nat} (hp : 0 < p) (hL : 0 < L) (ha : a ≤ u64Max)
    (hn : p + a * 2 ^ 128 / L ≤ MAX_SQRT_PRICE) : nextPriceFromInput p L a false = .ok (p + a * 2 ^ 128 / L) := by
  rw [nextIn_quote_ok]
  exact ⟨hp, hL, (Nat.mul_le_mul_right _ ha).trans (by decide +kernel), hn.trans (by decide +kernel), rfl,
    hn.trans (by decide +kernel)⟩

theorem divCeil_in_le {L p a : Nat} (hL : 0 < L) : divCeil (L * p) (L + a * p) ≤ p := by
  rw [divCeil_le_iff (by omega), Nat.mul_add, Nat.mul_comm p L]
  omega

theorem nextIn_base_eq {p L a : Nat} (hp : 0 < p) (hM : p ≤ MAX_SQRT_PRICE) (hL : 0 < L) (hL2 : L ≤ u128Max)
    (ha : a ≤ u64Max) : nextPriceFromInput p L a true = .ok (divCeil (L * p) (L + a * p)) := by
  simp only [nextPriceFromInput, nextPriceBaseIn, bind_ok, req_ok, if_true]
  refine ⟨(), hp, (), hL, ?_⟩
  by_cases h0 : a = 0
  · rw [if_pos h0, h0]
    simp [divCeil_self_mul hL]
  · have hle : divCeil (L * p) (L + a * p) ≤ p := divCeil_in_le hL
    have h1 : a * p ≤ u64Max * MAX_SQRT_PRICE := Nat.mul_le_mul ha hM
    simp only [h0, if_false, bind_ok, safeMul_ok, safeAdd_ok, mulDivU256_ok, castTo_ok]
    refine ⟨_, ⟨h1.trans (by decide +kernel), rfl⟩, _, ⟨?_, rfl⟩, _, ⟨by omega, ?_, rfl⟩, ?_, rfl⟩
    · exact (Nat.add_le_add hL2 h1).trans (by decide +kernel)
    · exact (hle.trans hM).trans (by decide +kernel)
    · exact (hle.trans hM).trans (by decide +kernel)

theorem BuyTrace.trans {ss : List Seg} {x y z i o i' o' : Nat} (h : BuyTrace ss x y i o)
    (h' : BuyTrace ss y z i' o') : BuyTrace ss x z (i + i') (o + o') := by
  induction h with
  | nil x => simpa using h'
  | step hs h1 h2 h3 hi ho _ ih =>
    rw [Nat.add_assoc, Nat.add_assoc]
    exact BuyTrace.step hs h1 h2 h3 hi ho (ih h')

theorem buyInLoop_total {stop x0 : Nat} {ss : List Seg} {ps : List Point} {lo cur left out i : Nat}
    (hp : Proper lo ps) (hss : ∀ s ∈ segs lo ps, s ∈ ss) (hlo : lo ≤ cur) (htop : topPrice lo ps ≤ MAX_SQRT_PRICE)
    (hL : ∀ q ∈ ps, q.liq ≤ u128Max) (hleft : left ≤ u64Max) (htr : BuyTrace ss x0 cur i out)
    (hb : ∀ y i o, BuyTrace ss x0 y i o → y ≤ stop → o ≤ u64Max) :
    ∃ r, buyInLoop stop ps cur left out = .ok r := by
  induction ps generalizing lo cur left out i with
  | nil => exact ⟨_, rfl⟩
  | cons p ps ih =>
    simp only [Proper] at hp
    have hpp : Proper p.price ps := hp.2.2.2
    have hss' : ∀ s ∈ segs p.price ps, s ∈ ss := fun s hs => hss s (by simp [segs, hs])
    have hseg : (⟨lo, p.price, p.liq⟩ : Seg) ∈ ss := hss _ (by simp [segs])
    have htop' : topPrice p.price ps ≤ MAX_SQRT_PRICE := by simpa only [topPrice] using htop
    have hpm := Proper.lo_le_top hpp
    have hLp := hL p (by simp)
    have hL' : ∀ q ∈ ps, q.liq ≤ u128Max := fun q hq => hL q (by simp [hq])
    have hcur0 : 0 < cur := by omega
    rw [buyInLoop, if_neg (by omega)]
    by_cases hc : cur < min stop p.price
    · have hle : min stop p.price ≤ MAX_SQRT_PRICE := by omega
      rw [if_pos hc, deltaQuote256_eq .up hc.le hle hLp, ok_bind]
      simp only [divRound]
      by_cases hl : left < divCeil (p.liq * (min stop p.price - cur)) (2 ^ 128)
      · simp only [hl, if_true]
        have hst := buyIn_step hp.2.2.1 hl rfl
        have hnx : cur + left * 2 ^ 128 / p.liq ≤ MAX_SQRT_PRICE := hst.2.1.le.trans hle
        rw [nextIn_quote_eq hcur0 hp.2.2.1 hleft hnx, ok_bind]
        have tr := BuyTrace.single (o := p.liq * (cur + left * 2 ^ 128 / p.liq - cur) / (cur * (cur + left * 2 ^ 128 / p.liq)))
          hseg (by somega) hst.1 (by somega) hst.2.2 (Nat.div_mul_le_self _ _)
        have hbd := hb _ _ _ (htr.trans tr) (by omega)
        rw [deltaBase_eq .down hcur0 hst.1 hnx hLp (by simp only [divRound]; omega), ok_bind]
        simp only [divRound]
        rw [safeAdd_eq hbd]
        exact ⟨_, rfl⟩
      · simp only [hl, if_false]
        have hst : p.liq * (min stop p.price - cur) ≤
            2 ^ 128 * divCeil (p.liq * (min stop p.price - cur)) (2 ^ 128) := by
          rw [Nat.mul_comm (2 ^ 128)]; exact le_divCeil_mul _ (by positivity)
        have tr := BuyTrace.single (o := p.liq * (min stop p.price - cur) / (cur * min stop p.price))
          hseg (by somega) hc.le (by somega) hst (Nat.div_mul_le_self _ _)
        have hbd := hb _ _ _ (htr.trans tr) (by omega)
        have hm64 : divCeil (p.liq * (min stop p.price - cur)) (2 ^ 128) ≤ u64Max := by omega
        rw [deltaBase_eq .down hcur0 hc.le hle hLp (by simp only [divRound]; omega), ok_bind]
        simp only [divRound]
        rw [safeAdd_eq hbd, ok_bind, castTo_eq hm64, ok_bind, safeSub_eq (by omega), ok_bind]
        by_cases he : min stop p.price = stop
        · rw [if_pos he]; exact ⟨_, rfl⟩
        · rw [if_neg he]
          have hmin : min stop p.price = p.price := by omega
          rw [hmin] at tr ⊢
          exact ih hpp hss' le_rfl htop' hL' (by omega) (htr.trans tr)
    · rw [if_neg hc]
      by_cases hcp : p.price ≤ cur
      · exact ih hpp hss' hcp htop' hL' hleft htr
      · have hstop : stop ≤ cur := by omega
        have hrest : ∀ (qs : List Point), buyInLoop stop qs cur left out = .ok ⟨left, out, cur⟩ := by
          intro qs
          induction qs with
          | nil => rfl
          | cons q qs ihq =>
            rw [buyInLoop]
            split
            · rfl
            · rw [if_neg (by omega), ihq]
        exact ⟨_, hrest _⟩

theorem sellInLoop_total {x0 : Nat} {ss : List Seg} {ps : List Point} {p : Point} {lo : Nat} {s : Walk}
    (hp : Proper lo (p :: ps)) (hss : ∀ g ∈ segs lo (p :: ps), g ∈ ss) (hd : s.done = false)
    (htop : s.cur ≤ topPrice lo (p :: ps)) (hM : topPrice lo (p :: ps) ≤ MAX_SQRT_PRICE)
    (hL : ∀ q ∈ p :: ps, q.liq ≤ u128Max) (hleft : s.left ≤ u64Max) (hx0 : x0 = s.cur) (hacc : s.acc = 0)
    (hb : ∀ y i o, SellTrace ss x0 y i o → o ≤ u64Max) : ∃ s', sellInLoop (p :: ps) s = .ok s' := by
  induction ps generalizing lo p with
  | nil => exact ⟨_, rfl⟩
  | cons q rest ih =>
    have hp0 := hp
    simp only [Proper] at hp
    have hpq : Proper p.price (q :: rest) := hp.2.2.2
    have hss' : ∀ g ∈ segs p.price (q :: rest), g ∈ ss :=
      fun g hg => hss g (by simp only [segs, List.mem_cons] at hg ⊢; tauto)
    have htop' : s.cur ≤ topPrice p.price (q :: rest) := by simpa only [topPrice] using htop
    have hM' : topPrice p.price (q :: rest) ≤ MAX_SQRT_PRICE := by simpa only [topPrice] using hM
    obtain ⟨s1, h1⟩ := ih hpq hss' htop' hM' (fun x hx => hL x (by simp only [List.mem_cons] at hx ⊢; tauto))
    obtain ⟨i, o, tr, e1, e2, e3, e4⟩ := sellInLoop_trace hpq hss' hd htop' h1
    have hseg : (⟨p.price, q.price, q.liq⟩ : Seg) ∈ ss := hss _ (by simp [segs])
    have hLq := hL q (by simp)
    rw [sellInLoop, h1, ok_bind]
    unfold sellInStep
    by_cases hdone : s1.done = true
    · rw [if_pos hdone]; exact ⟨_, rfl⟩
    · rw [if_neg hdone, if_neg (by omega)]
      have hcq := e4 (by simpa using hdone)
      by_cases hc : p.price < s1.cur
      · have hcur := tr.le
        have hcM : s1.cur ≤ MAX_SQRT_PRICE := by omega
        have hq0 : 0 < q.liq := hp.2.2.2.2.2.1
        rw [if_pos hc, deltaBase256_eq .up (show 0 < p.price by omega) hc.le hcM hLq, ok_bind]
        simp only [divRound]
        by_cases hl : s1.left < divCeil (q.liq * (s1.cur - p.price)) (p.price * s1.cur)
        · simp only [hl, if_true]
          rw [nextIn_base_eq (by omega) hcM hq0 hLq (by omega), ok_bind]
          have hst := sellIn_step hq0 (by omega) hc.le hl rfl
          generalize divCeil (q.liq * s1.cur) (q.liq + s1.left * s1.cur) = n at *
          have t2 := SellTrace.single (i := s1.left) (o := q.liq * (s1.cur - n) / 2 ^ 128)
            hseg (by somega) hst.2.1 hcq hst.2.2 (by rw [Nat.mul_comm]; exact Nat.div_mul_le_self _ _)
          have t3 := tr.trans t2
          have hbd := hb _ _ _ (by rw [hx0]; exact t3)
          rw [deltaQuote_eq .down hst.2.1 hcM hLq (by simp only [divRound]; omega), ok_bind]
          simp only [divRound]
          rw [safeAdd_eq (by omega)]
          exact ⟨_, rfl⟩
        · simp only [hl, if_false]
          have h5 : 0 < p.price * s1.cur := Nat.mul_pos (by omega) (by omega)
          have t2 := SellTrace.single (m := p.price) (x := s1.cur)
            (i := divCeil (q.liq * (s1.cur - p.price)) (p.price * s1.cur))
            (o := q.liq * (s1.cur - p.price) / 2 ^ 128)
            hseg le_rfl hc.le hcq (le_divCeil_mul _ h5) (by rw [Nat.mul_comm]; exact Nat.div_mul_le_self _ _)
          have t3 := tr.trans t2
          have hbd := hb _ _ _ (by rw [hx0]; exact t3)
          rw [deltaQuote_eq .down hc.le hcM hLq (by simp only [divRound]; omega), ok_bind]
          simp only [divRound]
          generalize divCeil (q.liq * (s1.cur - p.price)) (p.price * s1.cur) = D at *
          rw [safeAdd_eq (by omega), ok_bind, castTo_eq (by omega), ok_bind, safeSub_eq (by omega), ok_bind]
          exact ⟨_, rfl⟩
      · rw [if_neg hc]; exact ⟨_, rfl⟩

theorem buyIn_total {c : PoolConfig} {ps : List Point} (hc : CurveOK c ps) (hL : ∀ q ∈ ps, q.liq ≤ u128Max)
    (hM : topPrice c.sqrtStartPrice ps ≤ MAX_SQRT_PRICE)
    (hb : baseToDown (segs c.sqrtStartPrice ps) c.migrationSqrtPrice ≤ u64Max) {price a : Nat}
    (h1 : c.sqrtStartPrice ≤ price) (ha : a ≤ u64Max) : ∃ r, buyIn c price a = .ok r := by
  obtain ⟨n, hn⟩ := hc.stored
  unfold buyIn
  rw [hn, buyInLoop_pad]
  refine buyInLoop_total hc.proper (fun s hs => hs) h1 hM hL ha (BuyTrace.nil _) ?_
  intro y i o tr hy
  have h2 := tr.baseDown hc.proper
  have h3 := baseToDown_mono hc.proper hy
  omega

theorem sellIn_total {c : PoolConfig} {ps : List Point} (hc : CurveOK c ps) (hL : ∀ q ∈ ps, q.liq ≤ u128Max)
    (hM : topPrice c.sqrtStartPrice ps ≤ MAX_SQRT_PRICE) {price a : Nat} (h1 : c.sqrtStartPrice ≤ price)
    (h2 : price ≤ c.migrationSqrtPrice) (hb : quoteToUp (segs c.sqrtStartPrice ps) price ≤ u64Max)
    (ha : a ≤ u64Max) : ∃ r, sellIn c price a = .ok r := by
  obtain ⟨n, hn⟩ := hc.stored
  have hm := hc.migHi
  have hpr := hc.proper
  have hb' : ∀ y i o, SellTrace (segs c.sqrtStartPrice ps) price y i o → o ≤ u64Max := by
    intro y i o tr
    have := tr.quoteUp hpr
    omega
  cases ps with
  | nil => exact absurd rfl hc.nonempty
  | cons p ps =>
    unfold sellIn
    rw [hn, sellInLoop_pad n c.sqrtStartPrice p ps _ (by somega)]
    have hliq : c.liq0 = p.liq := by unfold PoolConfig.liq0; rw [hn]; rfl
    rw [hliq]
    obtain ⟨s, hl⟩ := sellInLoop_total (x0 := price) (s := ⟨price, a, 0, false⟩) hpr (fun s hs => hs) rfl (by somega) hM hL ha
      rfl rfl hb'
    rw [hl, ok_bind]
    obtain ⟨i, o, tr, e1, e2, e3, e4⟩ := sellInLoop_trace hpr (fun s hs => hs) rfl (by somega) hl
    simp only at e1 e2 tr
    simp only [Nat.zero_add] at e2
    have hseg : (⟨c.sqrtStartPrice, p.price, p.liq⟩ : Seg) ∈ segs c.sqrtStartPrice (p :: ps) := by simp [segs]
    have hlo := hpr
    simp only [Proper] at hlo
    have hge := tr.ge hpr h1
    have hle := tr.le
    have hcM : s.cur ≤ MAX_SQRT_PRICE := by omega
    have hLp := hL p (by simp)
    have hp0 := hlo.2.2.1
    unfold sellInFinish
    by_cases hz : s.left ≠ 0
    · have hcp : s.cur ≤ p.price := e4 (by
        by_contra hcon
        exact hz (e3 (by simpa using hcon)))
      simp only [hz, if_true, ne_eq, not_false_eq_true]
      rw [nextIn_base_eq (by omega) hcM hp0 hLp (by omega), ok_bind]
      have hst := sellIn_step0 (x := s.cur) (a := s.left) hp0 rfl
      by_cases hlt : divCeil (p.liq * s.cur) (p.liq + s.left * s.cur) < c.sqrtStartPrice
      · rw [if_pos hlt]
        have hcov : divCeil (p.liq * (s.cur - c.sqrtStartPrice)) (c.sqrtStartPrice * s.cur) ≤ s.left := by
          by_contra hcon
          have := (sellIn_step hp0 hlo.1 hge (Nat.lt_of_not_le hcon) rfl).1
          omega
        have h5 : 0 < c.sqrtStartPrice * s.cur := Nat.mul_pos (by omega) (by omega)
        have t2 := SellTrace.single (m := c.sqrtStartPrice) (x := s.cur)
          (i := divCeil (p.liq * (s.cur - c.sqrtStartPrice)) (c.sqrtStartPrice * s.cur))
          (o := p.liq * (s.cur - c.sqrtStartPrice) / 2 ^ 128)
          hseg le_rfl hge hcp (le_divCeil_mul _ h5) (by rw [Nat.mul_comm]; exact Nat.div_mul_le_self _ _)
        have hbd := hb' _ _ _ (tr.trans t2)
        rw [deltaBase_eq .up hlo.1 hge hcM hLp (by simp only [divRound]; omega), ok_bind]
        simp only [divRound]
        rw [safeSub_eq hcov, ok_bind, deltaQuote_eq .down hge hcM hLp (by simp only [divRound]; omega), ok_bind]
        simp only [divRound]
        rw [safeAdd_eq (by omega)]
        exact ⟨_, rfl⟩
      · rw [if_neg hlt]
        generalize divCeil (p.liq * s.cur) (p.liq + s.left * s.cur) = nx at *
        have t2 := SellTrace.single (m := nx) (x := s.cur) (i := s.left)
          (o := p.liq * (s.cur - nx) / 2 ^ 128)
          hseg (by somega) hst.1 hcp hst.2 (by rw [Nat.mul_comm]; exact Nat.div_mul_le_self _ _)
        have hbd := hb' _ _ _ (tr.trans t2)
        rw [deltaQuote_eq .down hst.1 hcM hLp (by simp only [divRound]; omega), ok_bind]
        simp only [divRound]
        rw [safeAdd_eq (by omega)]
        exact ⟨_, rfl⟩
    · simp only [hz, if_false]
      exact ⟨_, rfl⟩

end Dbc

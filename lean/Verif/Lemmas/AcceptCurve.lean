import Verif.Lemmas.Accept
import Verif.Lemmas.Deposit
import Verif.Lemmas.Audit

/-!
# When the checks of `create_config` pass: the curve and the amounts that follow from it
-/

namespace Dbc

open Spec

/-! ### The curve -/

theorem proper_of_pairwise {lo : Nat} {ps : List Point} (h0 : 0 < lo) (h : List.Pairwise (· < ·) (lo :: ps.map Point.price))
    (hl : ∀ q ∈ ps, 0 < q.liq) : Proper lo ps := by
  induction ps generalizing lo with
  | nil => exact h0
  | cons p ps ih =>
    simp only [List.map_cons, List.pairwise_cons] at h
    have hlt : lo < p.price := h.1 _ (List.mem_cons_self ..)
    exact ⟨h0, hlt, hl p (List.mem_cons_self ..),
      ih (by omega) (List.pairwise_cons.2 h.2) fun q hq => hl q (List.mem_cons_of_mem _ hq)⟩

theorem topPrice_mem (lo : Nat) (ps : List Point) : topPrice lo ps ∈ lo :: ps.map Point.price := by
  induction ps generalizing lo with
  | nil => simp [topPrice]
  | cons p ps ih =>
    simp only [topPrice, List.map_cons]
    exact List.mem_cons_of_mem _ (ih p.price)

theorem curve_iff {p : ConfigParams} : validateCurve p.sqrtStartPrice p.curve = .ok () ↔ CurveRules p := by
  have e1 : MIN_SQRT_PRICE = 4295048016 := rfl
  have e2 : MAX_SQRT_PRICE = 79226673521066979257578248091 := rfl
  have e3 : MAX_CURVE_POINT = 16 := rfl
  constructor
  · intro h
    obtain ⟨c1, c2, c3, c4, c5, c6⟩ := validateCurve_ok h
    obtain ⟨k1, k2⟩ := Props.proper_pairwise c5
    rw [e1] at c1
    rw [e2] at c6
    refine ⟨List.length_pos_iff.2 c3, by omega, k1, fun q hq => (k2 q hq).1, ?_⟩
    intro x hx
    rw [List.mem_cons] at hx
    rcases hx with rfl | hx
    · exact ⟨c1, (Proper.lo_le_top c5).trans c6⟩
    · have hlt := (List.pairwise_cons.1 k1).1 x hx
      rw [List.mem_map] at hx
      obtain ⟨q, hq, rfl⟩ := hx
      exact ⟨by omega, (k2 q hq).2.trans c6⟩
  · rintro ⟨h1, h2, h3, h4, h5⟩
    have hs := h5 p.sqrtStartPrice (List.mem_cons_self ..)
    have hp := proper_of_pairwise (by omega) h3 h4
    have ht := h5 _ (topPrice_mem p.sqrtStartPrice p.curve)
    cases hc : p.curve with
    | nil => rw [hc] at h1; simp at h1
    | cons q qs =>
      rw [hc] at h1 h2 hp ht h5
      simp only [Proper] at hp
      have hq := h5 q.price (by simp)
      simp only [validateCurve, bind_ok, req_ok, e1, e2, e3]
      refine ⟨(), ⟨hs.1, by omega⟩, (), ⟨h1, h2⟩, (), ⟨hp.2.1, hp.2.2.1, hq.2⟩, (), (validateCurveTail_ok (by omega)).2 hp.2.2.2, ?_⟩
      rw [topPrice_getLast] at ht
      exact ht.2

/-! ### The migration price -/

theorem thresholdPriceLoop_some {ps : List Point} {lo left : Nat} (hp : Proper lo ps)
    (hL : ∀ q ∈ ps, q.price ≤ u128Max ∧ q.liq ≤ u128Max) (h64 : left ≤ u64Max)
    (h : left ≤ quoteToUp (segs lo ps) (topPrice lo ps)) : ∃ P, thresholdPriceLoop ps lo left = .ok (0, P) := by
  induction ps generalizing lo left with
  | nil =>
    unfold quoteToUp at h
    rw [total_nil] at h
    have : left = 0 := by omega
    exact ⟨lo, by rw [this]; rfl⟩
  | cons p ps ih =>
    simp only [Proper] at hp
    obtain ⟨hlo, hlt, hliq, hp'⟩ := hp
    obtain ⟨hpr, hLp⟩ := hL p (List.mem_cons_self ..)
    have hmul : p.liq * (p.price - lo) ≤ u256Max := by
      have h1 : p.liq * (p.price - lo) ≤ u128Max * u128Max := Nat.mul_le_mul hLp (by omega)
      have h2 : u128Max * u128Max ≤ u256Max := by decide
      exact h1.trans h2
    have hd : deltaQuote256 lo p.price p.liq .up = .ok (divCeil (p.liq * (p.price - lo)) (2 ^ 128)) :=
      deltaQuote256_ok.2 ⟨hlt.le, hmul, rfl⟩
    simp only [thresholdPriceLoop]
    rw [hd, ok_bind]
    by_cases hc : left < divCeil (p.liq * (p.price - lo)) (2 ^ 128)
    · rw [if_pos hc]
      have hs := buyIn_step (n := lo + left * 2 ^ 128 / p.liq) hliq hc rfl
      have hn : nextPriceFromInput lo p.liq left false = .ok (lo + left * 2 ^ 128 / p.liq) := by
        refine nextIn_quote_ok.2 ⟨hlo, hliq, ?_, ?_, rfl, ?_⟩
        · have h1 : left * 2 ^ 128 ≤ u64Max * 2 ^ 128 := Nat.mul_le_mul_right _ h64
          have h2 : u64Max * 2 ^ 128 ≤ u256Max := by decide
          exact h1.trans h2
        · have : u128Max ≤ u256Max := by decide
          exact (hs.2.1.le.trans hpr).trans this
        · exact hs.2.1.le.trans hpr
      rw [hn, ok_bind]
      exact ⟨_, rfl⟩
    · rw [if_neg hc]
      have hle : divCeil (p.liq * (p.price - lo)) (2 ^ 128) ≤ left := Nat.le_of_not_lt hc
      rw [castTo_ok.2 ⟨hle.trans h64, rfl⟩, ok_bind, safeSub_ok.2 ⟨hle, rfl⟩, ok_bind]
      refine ih hp' (fun q hq => hL q (List.mem_cons_of_mem _ hq)) (by omega) ?_
      have htop := Proper.lo_le_top hp'
      simp only [topPrice] at h
      unfold quoteToUp at h ⊢
      rw [total_cons, clamp_above (by exact hlt.le) (by exact htop), quoteSegUp_eq] at h
      dsimp only at h
      omega

theorem migrationThresholdPrice_of_loop {threshold start P : Nat} {p : Point} {ps : List Point}
    (h : thresholdPriceLoop (p :: ps) start threshold = .ok (0, P)) :
    migrationThresholdPrice threshold start (p :: ps) = .ok P := by
  simp only [thresholdPriceLoop, bind_ok] at h
  obtain ⟨t, ht, h⟩ := h
  simp only [migrationThresholdPrice, ht, ok_bind]
  rw [ite_ok] at h
  rcases h with ⟨hc, h⟩ | ⟨hc, h⟩
  · rw [if_pos hc]
    simp only [bind_ok, ok_inj, Prod.mk.injEq] at h
    obtain ⟨n, hn, _, rfl⟩ := h
    exact hn
  · rw [if_neg hc]
    simp only [bind_ok] at h
    obtain ⟨t', h1, l, h2, h3⟩ := h
    rw [h1, ok_bind, h2, ok_bind, h3, ok_bind]
    dsimp only
    rw [(req_ok (u := ())).2 rfl, ok_bind]

/-- The computed migration price is the one of the specification. -/
theorem migrationPrice_iff {p : ConfigParams} {P : Nat} (ht : p.Typed) (hc : CurveRules p) :
    migrationThresholdPrice p.migrationQuoteThreshold p.sqrtStartPrice p.curve = .ok P ↔ IsMigrationPrice p P := by
  obtain ⟨c1, c2, c3, c4, c5, c6⟩ := validateCurve_ok (curve_iff.2 hc)
  have hL : ∀ q ∈ p.curve, q.liq ≤ u128Max := fun q hq => (ht.curve q hq).2
  obtain ⟨q0, qs, hqs⟩ : ∃ q qs, p.curve = q :: qs := by
    cases hcv : p.curve with
    | nil => exact absurd hcv c3
    | cons q qs => exact ⟨q, qs, rfl⟩
  constructor
  · intro h
    rw [hqs] at h
    have hl := migrationThresholdPrice_eq _ _ _ _ h
    rw [← hqs] at hl
    obtain ⟨t1, t2, t3, t4⟩ := thresholdPriceLoop_ok c5 hL hl
    exact ⟨t1, t2, t3, t4⟩
  · rintro ⟨t1, t2, t3, t4⟩
    obtain ⟨P', hP'⟩ := thresholdPriceLoop_some c5 ht.curve ht.threshold (by
      rw [← t3]; exact quoteToUp_mono c5 t2)
    obtain ⟨s1, s2, s3, s4⟩ := thresholdPriceLoop_ok c5 hL hP'
    have : P' = P := le_antisymm (t4 _ s2 s3.le) (s4 _ t2 t3.le)
    subst this
    rw [hqs] at hP' ⊢
    exact migrationThresholdPrice_of_loop hP'

/-! ### Base tokens for the curve -/

theorem baseTokenForSwapLoop_some {mig : Nat} {ps : List Point} {lo acc : Nat} (hp : Proper lo ps) (hlo : lo ≤ mig)
    (hm : mig ≤ u128Max) (hL : ∀ q ∈ ps, q.price ≤ u128Max ∧ q.liq ≤ u128Max) (hacc : acc + ps.length * u128Max ≤ u256Max) :
    ∃ r, baseTokenForSwapLoop mig ps lo acc = .ok r := by
  induction ps generalizing lo acc with
  | nil => exact ⟨acc, rfl⟩
  | cons p ps ih =>
    simp only [Proper] at hp
    obtain ⟨h0, hlt, hliq, hp'⟩ := hp
    obtain ⟨hpr, hLp⟩ := hL p (List.mem_cons_self ..)
    rw [List.length_cons, Nat.succ_mul] at hacc
    have hu2 : u128Max * u128Max ≤ u256Max := by decide
    have hu1 : u128Max ≤ u256Max := by decide
    have key : ∀ x, lo ≤ x → x ≤ u128Max → ∃ d, deltaBase256 lo x p.liq .up = .ok d ∧ d ≤ u128Max := by
      intro x hx hxu
      have hpos : 0 < lo * x := Nat.mul_pos h0 (by omega)
      have hd : divCeil (p.liq * (x - lo)) (lo * x) ≤ p.liq := by
        rw [divCeil_le_iff hpos]
        refine Nat.mul_le_mul_left _ ?_
        calc x - lo ≤ x := Nat.sub_le _ _
          _ = 1 * x := (Nat.one_mul x).symm
          _ ≤ lo * x := Nat.mul_le_mul_right _ h0
      refine ⟨_, deltaBase256_ok.2 ⟨hx, (Nat.mul_le_mul (hx.trans hxu) hxu).trans hu2, hpos, ?_, rfl⟩, hd.trans hLp⟩
      exact (hd.trans hLp).trans hu1
    simp only [baseTokenForSwapLoop]
    split
    · rename_i hc
      obtain ⟨d, hd, hd2⟩ := key mig hlo hm
      rw [hd, ok_bind]
      exact ⟨_, safeAdd_ok.2 ⟨by omega, rfl⟩⟩
    · rename_i hc
      obtain ⟨d, hd, hd2⟩ := key p.price hlt.le hpr
      rw [hd, ok_bind, safeAdd_ok.2 ⟨by omega, rfl⟩, ok_bind]
      exact ih hp' (by omega) (fun q hq => hL q (List.mem_cons_of_mem _ hq)) (by omega)

theorem baseTokenForSwap_eq {p : ConfigParams} {P : Nat} (ht : p.Typed) (hc : CurveRules p) (h1 : p.sqrtStartPrice ≤ P)
    (h2 : P ≤ MAX_SQRT_PRICE) :
    baseTokenForSwap p.sqrtStartPrice P p.curve = .ok (baseToUp (segs p.sqrtStartPrice p.curve) P) := by
  obtain ⟨c1, c2, c3, c4, c5, c6⟩ := validateCurve_ok (curve_iff.2 hc)
  have c4 : p.curve.length ≤ 16 := c4
  have hb : 16 * u128Max ≤ u256Max := by decide
  have hmx : MAX_SQRT_PRICE ≤ u128Max := by decide
  have hlen : p.curve.length * u128Max ≤ 16 * u128Max := Nat.mul_le_mul_right _ c4
  obtain ⟨r, hr⟩ := baseTokenForSwapLoop_some (acc := 0) c5 h1 (h2.trans hmx) ht.curve (by omega)
  have e := baseTokenForSwapLoop_ok c5 h1 hr
  rw [Nat.zero_add] at e
  unfold baseTokenForSwap
  rw [hr, e, baseToUp_eq c5]

theorem swapAmountWithBuffer_iff {p : ConfigParams} {P s : Nat} (ht : p.Typed) (hc : CurveRules p)
    (hsw : baseToUp (segs p.sqrtStartPrice p.curve) P ≤ u64Max) :
    swapAmountWithBuffer (baseToUp (segs p.sqrtStartPrice p.curve) P) p.sqrtStartPrice p.curve = .ok s ↔
      s = sellable p P ∧ s ≤ u64Max := by
  obtain ⟨c1, c2, c3, c4, c5, c6⟩ := validateCurve_ok (curve_iff.2 hc)
  have hmx := baseTokenForSwap_eq ht hc c2.le le_rfl
  have e2 : MAX_SQRT_PRICE = 79226673521066979257578248091 := rfl
  have e25 : SWAP_BUFFER_PERCENTAGE = 25 := rfl
  have hu : u64Max * 25 + u64Max ≤ u128Max := by decide
  unfold swapAmountWithBuffer sellable
  rw [e25, safeMul_ok.2 ⟨by omega, rfl⟩, ok_bind, safeDiv_ok.2 ⟨by decide, rfl⟩, ok_bind, safeAdd_ok.2 ⟨by omega, rfl⟩, ok_bind,
    hmx, ok_bind, ← e2]
  generalize baseToUp (segs p.sqrtStartPrice p.curve) P = a
  generalize baseToUp (segs p.sqrtStartPrice p.curve) MAX_SQRT_PRICE = m
  generalize a * 25 / 100 + a = b
  simp only [ite_ok, ok_inj, reduceCtorEq, and_false, or_false]
  constructor
  · rintro (⟨h1, h2, rfl⟩ | ⟨h1, h2, rfl⟩) <;> omega
  · rintro ⟨h1, h2⟩
    rcases Nat.lt_or_ge b m with h | h
    · exact .inl ⟨h, by omega, by omega⟩
    · exact .inr ⟨by omega, by omega, by omega⟩

theorem resolveTokenSupply_iff {p : ConfigParams} {env : ConfigEnv} {P : Nat} (ht : p.Typed) (hc : CurveRules p)
    (hlv : LockedRules p) (hsw : baseToUp (segs p.sqrtStartPrice p.curve) P ≤ u64Max) :
    (∃ r, resolveTokenSupply p env (baseToUp (segs p.sqrtStartPrice p.curve) P) (poolBase p P) = .ok r) ↔
      SupplyRules p env P := by
  have hu : u64Max = 2 ^ 64 - 1 := rfl
  have hlt : p.lockedVesting.total = .ok (promisedTotal p) := by
    unfold promisedTotal
    rw [vesting_total_ok]
    rcases hlv with h | ⟨_, _, h⟩
    · rw [h]; exact ⟨by decide, by decide, rfl⟩
    · exact ⟨by omega, by omega, rfl⟩
  unfold resolveTokenSupply SupplyRules
  cases hts : p.tokenSupply with
  | none =>
    simp only [reduceCtorEq, false_implies, implies_true, iff_true]
    exact ⟨_, rfl⟩
  | some pp =>
    obtain ⟨pre, post⟩ := pp
    obtain ⟨hpre, hpost⟩ := ht.supply pre post hts
    simp only [bind_ok, swapAmountWithBuffer_iff ht hc hsw, totalTokenSupply, hlt, safeAdd_ok, req_ok, ok_inj]
    constructor
    · rintro ⟨r, buf, ⟨rfl, b2⟩, _, ⟨_, ⟨_, rfl⟩, _, rfl, _, rfl⟩, _, ⟨_, ⟨_, rfl⟩, _, rfl, _, rfl⟩, _, h1, _, ⟨h2, h3, h4⟩, _⟩
      intro a b hab
      simp only [Option.some.injEq, Prod.mk.injEq] at hab
      obtain ⟨rfl, rfl⟩ := hab
      exact ⟨h1, h3, h2, h4⟩
    · intro h
      obtain ⟨h1, h2, h3, h4⟩ := h pre post rfl
      exact ⟨_, _, ⟨rfl, by omega⟩, _, ⟨_, ⟨by omega, rfl⟩, _, rfl, by omega, rfl⟩, _, ⟨_, ⟨by omega, rfl⟩, _, rfl, by omega, rfl⟩,
        (), h1, (), ⟨h3, h2, h4⟩, rfl⟩

end Dbc

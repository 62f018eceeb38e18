import Verif.Props.NewPool
import Verif.Props.Config
import Verif.Lemmas.Locked

/-!
# The positions a migration creates, against the plan: C65
-/

namespace Props
open Dbc Spec

theorem accepted_side {w : World} (h : Reachable w) (s : Side) :
    (vestingOf w.cfg s).bpsPerPeriod * (vestingOf w.cfg s).numPeriods ≤ 10000 := by
  obtain ⟨p, env, ht, hc⟩ := h.config
  cases s
  · exact (accepted_vesting ht hc (.inl rfl)).1
  · exact (accepted_vesting ht hc (.inr rfl)).1

theorem follows_sched {v : LiqVesting} {x now : Nat} {P : VestParams} (h : Follows v x now P) : P = v.sched x now := by
  obtain ⟨h1, h2, h3, h4⟩ := h
  obtain ⟨c, pp, cu, fr, n⟩ := P
  dsimp only at *
  have e : pp = v.per x := h2
  unfold LiqVesting.sched
  by_cases h0 : v.per x = 0
  · obtain ⟨rfl, rfl, rfl⟩ := h4 (e.trans h0)
    subst e
    rw [h0] at h1 ⊢
    simp only [if_true, VestParams.mk.injEq, true_and, and_true]
    omega
  · obtain ⟨rfl, rfl, rfl⟩ := h3 (by omega)
    simp only [h0, if_false, VestParams.mk.injEq, true_and, and_true]
    refine ⟨e, ?_⟩
    rw [← e, Nat.mul_comm pp]
    omega

theorem locked_held {v : LiqVesting} {perm vest now t : Nat} {q : DammPosition} (h : LockedAs v perm vest now q) :
    stillLocked q t = perm + v.held vest now t := by
  obtain ⟨h1, h2, h3⟩ := h
  unfold stillLocked
  rw [h1]
  rcases Nat.eq_zero_or_pos vest with h0 | h0
  · rw [h2 h0, h0]
    unfold LiqVesting.held
    simp
  · obtain ⟨P, hP, hf⟩ := h3 h0
    rw [hP]
    dsimp only
    rw [hf.total, follows_sched hf]
    rfl

/-- The tenth that C24 promises, for the planned split of the liquidity of a reachable pool. -/
theorem planned_tenth {w : World} (h : Reachable w) {liq : Nat} (hl : liq < 2 ^ 128) (now : Nat) (f : Side) :
    liq ≤ 10 * ((planned w.cfg liq f).permanent +
        (vestingOf w.cfg f).held (planned w.cfg liq f).vested now (now + 86400) +
      ((planned w.cfg liq f.other).permanent +
        (vestingOf w.cfg f.other).held (planned w.cfg liq f.other).vested now (now + 86400)) + 40002) := by
  obtain ⟨p, env, ht, hc⟩ := h.config
  obtain ⟨pa, cr, P, Q, hd, hP, hQ, hle⟩ := C24_locked ht hc liq 0 hl (by decide)
  obtain ⟨rfl, rfl, -⟩ := distribution_planned hd
  obtain ⟨-, -, -, rfl⟩ := LiqVesting.params_ok hP
  obtain ⟨-, -, -, rfl⟩ := LiqVesting.params_ok hQ
  have shift : ∀ (s : Side) x, (vestingOf w.cfg s).held x now (now + 86400) = (vestingOf w.cfg s).held x 0 (0 + 86400) :=
    fun s x => by
      rw [LiqVesting.held_late _ _ now _ (accepted_side h s) (by decide),
        LiqVesting.held_late _ _ 0 _ (accepted_side h s) (by decide)]
  have key : liq ≤ 10 * ((planned w.cfg liq .partner).permanent + (planned w.cfg liq .creator).permanent +
      (vestingOf w.cfg .partner).held (planned w.cfg liq .partner).vested 0 (0 + 86400) +
      (vestingOf w.cfg .creator).held (planned w.cfg liq .creator).vested 0 (0 + 86400) + 40002) := hle
  rw [shift, shift]
  have arith : ∀ x P1 P2 H1 H2 : Nat, x ≤ 10 * (P1 + P2 + H1 + H2 + 40002) →
      x ≤ 10 * (P1 + H1 + (P2 + H2) + 40002) ∧ x ≤ 10 * (P2 + H2 + (P1 + H1) + 40002) := fun _ _ _ _ _ _ => by omega
  cases f
  · exact (arith _ _ _ _ _ key).1
  · exact (arith _ _ _ _ _ key).2

/-- What the second position keeps locked, against its plan. -/
theorem second_locked {w : World} (h : Reachable w) {liq l2 perm vest short now : Nat} (s : Side)
    (hr : Redivided (planned w.cfg liq s) (permPct w.cfg s) (vestingOf w.cfg s).pct l2 perm vest)
    (hs : (planned w.cfg liq s).total ≤ l2 + short) :
    (planned w.cfg liq s).permanent + (vestingOf w.cfg s).held (planned w.cfg liq s).vested now (now + 86400) ≤
      perm + (vestingOf w.cfg s).held vest now (now + 86400) + short + 10000 := by
  have hp : (planned w.cfg liq s).permanent = liq * permPct w.cfg s / 100 := by cases s <;> rfl
  have hv : (planned w.cfg liq s).vested = liq * (vestingOf w.cfg s).pct / 100 := by cases s <;> rfl
  unfold Plan.total at hs
  unfold Redivided at hr
  split at hr
  · next h0 =>
    have e1 : permPct w.cfg s = 0 := by omega
    have e2 : (vestingOf w.cfg s).pct = 0 := by omega
    rw [hp, hv, e1, e2]
    unfold LiqVesting.held
    simp
  · next h0 =>
    rw [hp, hv] at hs ⊢
    exact redivided_locked _ (accepted_side h s) (by decide) h0 hr.1 hr.2 hs

theorem concentrated_short {p L1 L2 base quote b1 q1 l2 : Nat} (hp : 0 < p) (hf : Fits (concentratedNeeds p (L1 + L2)) base quote)
    (hn : ¬Fits (concentratedNeeds p (L1 + L2 + 1)) base quote) (h1 : (b1, q1) = concentratedNeeds p L1)
    (hl : Largest (concentratedNeeds p) (base - b1) (quote - q1) l2) :
    l2 ≤ L2 ∧ ((concentratedNeeds p (L2 - l2 - 1)).1 ≤ 1 ∨ (concentratedNeeds p (L2 - l2 - 1)).2 ≤ 1) := by
  have hD : 0 < p * MAX_SQRT_PRICE := Nat.mul_pos hp (by decide)
  have hE : 0 < 2 ^ 128 := by positivity
  have hb : b1 ≤ base ∧ q1 ≤ quote := by
    have := concentrated_mono p L1 (L1 + L2) (by omega)
    rw [← h1] at this
    exact ⟨this.1.trans hf.1, this.2.trans hf.2⟩
  simp only [Fits, Largest, concentratedNeeds, Prod.mk.injEq] at hf hn h1 hl ⊢
  have hl1 := hl.2 (l2 + 1) (by omega)
  have hl0 := hl.1
  clear hl
  rw [ceilDiv_eq hD.ne', ceilDiv_eq hE.ne'] at *
  rw [divCeil_le_iff hD, divCeil_le_iff hE] at *
  obtain ⟨e1, e2⟩ := h1
  have b1' := le_divCeil_mul (L1 * (MAX_SQRT_PRICE - p)) hD
  have b2' := divCeil_mul_lt (L1 * (MAX_SQRT_PRICE - p)) hD
  have c1' := le_divCeil_mul (L1 * (p - MIN_SQRT_PRICE)) hE
  have c2' := divCeil_mul_lt (L1 * (p - MIN_SQRT_PRICE)) hE
  rw [← e1] at b1' b2'
  rw [← e2] at c1' c2'
  generalize p * MAX_SQRT_PRICE = D at *
  generalize 2 ^ 128 = E at *
  generalize MAX_SQRT_PRICE - p = A at *
  generalize p - MIN_SQRT_PRICE = B at *
  clear e1 e2
  rw [not_and_or, not_le, not_le] at hn hl1
  rw [Nat.one_mul, Nat.one_mul]
  refine ⟨?_, ?_⟩
  · rcases hn with hn | hn
    · exact excess_constant hn b1' hb.1 hl0.1
    · exact excess_constant hn c1' hb.2 hl0.2
  · rcases hl1 with hl1 | hl1
    · exact .inl (short_constant hf.1 b2' hb.1 hl1 hD).le
    · exact .inr (short_constant hf.2 c2' hb.2 hl1 hE).le

theorem compounding_short {p T1 L2 slack base quote b1 q1 l2 : Nat} (hp : 0 < p) (hT : 0 < T1) (hle : L2 ≤ T1)
    (hf : Fits (compoundingNeeds p (T1 + L2)) base quote)
    (hn : ¬Fits (compoundingNeeds p (T1 + L2 + slack + 1)) base quote) (h1 : (b1, q1) = compoundingNeeds p T1)
    (hl : Largest (proRataNeeds b1 q1 T1) (base - b1) (quote - q1) l2) :
    l2 ≤ L2 + slack ∧ ((proRataNeeds b1 q1 T1 (L2 - l2 - 1)).1 ≤ 2 ∨ (proRataNeeds b1 q1 T1 (L2 - l2 - 1)).2 ≤ 2) := by
  have hE : 0 < 2 ^ 128 := by positivity
  have hb : b1 ≤ base ∧ q1 ≤ quote := by
    have h2 : (compoundingNeeds p T1).1 ≤ (compoundingNeeds p (T1 + L2)).1 := ceilDiv_mono (by omega)
    have h3 : (compoundingNeeds p T1).2 ≤ (compoundingNeeds p (T1 + L2)).2 := ceilDiv_mono (Nat.mul_le_mul_right _ (by omega))
    rw [← h1] at h2 h3
    exact ⟨h2.trans hf.1, h3.trans hf.2⟩
  simp only [Fits, Largest, compoundingNeeds, proRataNeeds, Prod.mk.injEq] at hf hn h1 hl ⊢
  have hl1 := hl.2 (l2 + 1) (by omega)
  have hl0 := hl.1
  clear hl
  rw [ceilDiv_eq hp.ne', ceilDiv_eq hE.ne'] at h1 hf hn
  rw [ceilDiv_eq hT.ne', ceilDiv_eq hT.ne'] at hl1 hl0 ⊢
  rw [divCeil_le_iff hp, divCeil_le_iff hE] at hf hn
  rw [divCeil_le_iff hT, divCeil_le_iff hT] at hl1 hl0 ⊢
  obtain ⟨e1, e2⟩ := h1
  have b1' := le_divCeil_mul T1 hp
  have b2' := divCeil_mul_lt T1 hp
  have c1' := le_divCeil_mul (T1 * p) hE
  have c2' := divCeil_mul_lt (T1 * p) hE
  rw [← e1] at b1' b2'
  rw [← e2] at c1' c2'
  generalize 2 ^ 128 = E at *
  clear e1 e2
  rw [not_and_or, not_le, not_le] at hn hl1
  refine ⟨?_, ?_⟩
  · rcases hn with hn | hn
    · exact excess_proRata (u := 1) (v := p) (by omega) (by omega) hb.1 hl0.1 hT
    · exact excess_proRata hn c1' hb.2 hl0.2 hT
  · rcases hl1 with hl1 | hl1
    · have := short_proRata (u := 1) (v := p) (by rw [Nat.mul_one]; exact hf.1) (by omega) hb.1 hl1 hT
      exact .inl (by omega)
    · have := short_proRata hf.2 c2' hb.2 hl1 hT
      exact .inr (by omega)

/-- C65: at a migration to DAMM v2, if DAMM v2 takes for the first position the tokens its formulas ask for, the first position
is exactly the larger planned share `planned liq f`; the other one, `got` units, exceeds the other planned share by nothing in a
concentrated pool, and by at most the base amount migrated in a compounding one (a unit is `2^-64` of a token); and what it falls
short by, less one unit, is worth at most one unit of base or of quote token, two in a compounding pool. One day later at least a
tenth of all the liquidity is still locked, up to that shortfall, that excess, and 50002 units. -/
theorem C65_positions {w w' : World} {a : V2Args} (h : Reachable w) (hs : w.step (.migrateV2 a) = .ok w')
    (hc : ∀ np price liq, w'.newPool = some np → opening np = some (price, liq) → CreatesPool w.cfg price liq a) :
    ∃ (np : NewPool) (price liq dead got excess : Nat) (f : Side) (first : DammPosition) (rest : List DammPosition),
      w'.newPool = some np ∧ opening np = some (price, (planned w.cfg liq f).total + dead) ∧
      (planned w.cfg liq f).total + (planned w.cfg liq f.other).total = liq ∧
      w'.positions = first :: rest ∧ first.owner = ownerOf w f ∧ first.liquidity = (planned w.cfg liq f).total ∧
      (rest = [] ∧ got = 0 ∨ ∃ second, rest = [second] ∧ second.owner = ownerOf w f.other ∧ got = second.liquidity) ∧
      excess = (if Compounds w.cfg then w.cfg.migrationBaseThreshold else 0) ∧
      got ≤ (planned w.cfg liq f.other).total + excess ∧
      (if Compounds w.cfg then
        (proRataNeeds a.poolBase a.poolQuote a.poolLiq ((planned w.cfg liq f.other).total - got - 1)).1 ≤ 2 ∨
        (proRataNeeds a.poolBase a.poolQuote a.poolLiq ((planned w.cfg liq f.other).total - got - 1)).2 ≤ 2
      else
        (concentratedNeeds price ((planned w.cfg liq f.other).total - got - 1)).1 ≤ 1 ∨
        (concentratedNeeds price ((planned w.cfg liq f.other).total - got - 1)).2 ≤ 1) ∧
      first.liquidity + got ≤ 10 * (stillLocked first (a.now + 86400) + (rest.map (stillLocked · (a.now + 86400))).sum +
        ((planned w.cfg liq f.other).total - got) + 50002) + excess := by
  obtain ⟨np, price, base, quote, liq, dead, slack, f, first, hnp, hop, hp0, hlt, -, -, hcomp, hconc, hsum, hle, -, ho, hl1, hk1,
    l2, hlarge, hpos⟩ := C22_positions h hs
  have hcr := hc np price _ hnp hop
  have hsum' : (planned w.cfg liq f).total + (planned w.cfg liq f.other).total = liq := by
    cases f
    · exact hsum
    · rw [Nat.add_comm]; exact hsum
  have hten := planned_tenth h (liq := liq) (by omega) a.now f
  have hfirst := locked_held (t := a.now + 86400) hk1
  -- what the second position keeps
  have hrest : ∃ rest, w'.positions = first :: rest ∧
      (rest = [] ∧ l2 = 0 ∨ ∃ second, rest = [second] ∧ second.owner = ownerOf w f.other ∧ l2 = second.liquidity) ∧
      (planned w.cfg liq f.other).permanent +
        (vestingOf w.cfg f.other).held (planned w.cfg liq f.other).vested a.now (a.now + 86400) ≤
      (rest.map (stillLocked · (a.now + 86400))).sum + ((planned w.cfg liq f.other).total - l2) + 10000 := by
    rcases hpos with ⟨rfl, hpos⟩ | ⟨h2, second, perm, vest, hpos, ho2, hll, hr, hk⟩
    · refine ⟨[], hpos, .inl ⟨rfl, rfl⟩, ?_⟩
      have : (vestingOf w.cfg f.other).held (planned w.cfg liq f.other).vested a.now (a.now + 86400) ≤
          (planned w.cfg liq f.other).vested := Nat.sub_le _ _
      simp only [Plan.total, List.map_nil, List.sum_nil]
      omega
    · refine ⟨[second], hpos, .inr ⟨second, rfl, ho2, hll.symm⟩, ?_⟩
      have := second_locked h (now := a.now) f.other hr (short := (planned w.cfg liq f.other).total - l2) (by omega)
      simp only [List.map_cons, List.map_nil, List.sum_cons, List.sum_nil, locked_held hk]
      omega
  obtain ⟨rest, hpos', hrest, hkept⟩ := hrest
  have hmain : l2 ≤ (planned w.cfg liq f.other).total + (if Compounds w.cfg then w.cfg.migrationBaseThreshold else 0) ∧
      (if Compounds w.cfg then
        (proRataNeeds a.poolBase a.poolQuote a.poolLiq ((planned w.cfg liq f.other).total - l2 - 1)).1 ≤ 2 ∨
        (proRataNeeds a.poolBase a.poolQuote a.poolLiq ((planned w.cfg liq f.other).total - l2 - 1)).2 ≤ 2
      else
        (concentratedNeeds price ((planned w.cfg liq f.other).total - l2 - 1)).1 ≤ 1 ∨
        (concentratedNeeds price ((planned w.cfg liq f.other).total - l2 - 1)).2 ≤ 1) := by
    by_cases hcc : Compounds w.cfg
    · obtain ⟨hb, hd, hsl, hfit, hnfit⟩ := hcomp hcc
      unfold CreatesPool at hcr
      rw [if_pos hcc] at hcr
      obtain ⟨hr1, hr2, hr3, hr4⟩ := hcr
      have hT : 0 < (planned w.cfg liq f).total + dead := by rw [hd]; positivity
      have hlg := hlarge (fun _ => by rw [hr4]; exact hT)
      rw [if_pos hcc] at hlg ⊢
      rw [if_pos hcc]
      rw [hr2, hr3, hr4] at hlg ⊢
      have e : (planned w.cfg liq f).total + dead + (planned w.cfg liq f.other).total = liq + dead := by omega
      have := compounding_short (slack := slack) (L2 := (planned w.cfg liq f.other).total) hp0 hT (by omega) (by rw [e]; exact hfit) (by rw [e]; exact hnfit) hr1 hlg
      exact ⟨by omega, this.2⟩
    · obtain ⟨hd, hsl, hfit, hnfit⟩ := hconc hcc
      unfold CreatesPool at hcr
      rw [if_neg hcc] at hcr
      have hlg := hlarge (fun h => absurd h hcc)
      rw [if_neg hcc] at hlg ⊢
      rw [if_neg hcc]
      rw [hd, Nat.add_zero] at hcr
      rw [hd, hsl] at hnfit
      rw [hd] at hfit
      have e : (planned w.cfg liq f).total + (planned w.cfg liq f.other).total = liq + 0 := by omega
      have := concentrated_short hp0 (by rw [e]; exact hfit) (by rw [e]; exact hnfit) hcr hlg
      exact ⟨by omega, this.2⟩
  refine ⟨np, price, liq, dead, l2, _, f, first, rest, hnp, hop, hsum', hpos', ho, hl1, hrest, rfl, hmain.1, hmain.2, ?_⟩
  rw [hfirst, hl1]
  have hm := hmain.1
  generalize (if Compounds w.cfg then w.cfg.migrationBaseThreshold else 0) = ex at *
  generalize (rest.map (stillLocked · (a.now + 86400))).sum = R at *
  generalize (vestingOf w.cfg f).held _ _ _ = H1 at *
  generalize (vestingOf w.cfg f.other).held _ _ _ = H2 at *
  omega

end Props

namespace Ex
open Dbc

/-- Migration of the compounding example pool, with the new pool taking exactly what its formulas ask for. -/
def v2Cexact : V2Args :=
  { v2C with base1 := 233906250000251, quote1 := 5988000000007, poolBase := 233906250000251, poolQuote := 5988000000007 }

/-- A configuration that raises three units of quote token, with a tenth of the liquidity locked, all of it the partner's. -/
def paramsDust : ConfigParams :=
  { paramsB with
    fees := ⟨⟨10000000, 0, 0, 0, 0⟩, ⟨0, 0, 0, 0, 0, 0, 0, 0⟩⟩
    migrationQuoteThreshold := 3
    partnerLiqPct := 40
    partnerPermLockedPct := 10
    creatorLiqPct := 50
    creatorPermLockedPct := 0
    partnerVesting := ⟨0, 0, 0, 0, 0⟩
    creatorVesting := ⟨0, 0, 0, 0, 0⟩
    curve := [⟨2 ^ 62, 2 ^ 64 * 100000⟩] }

theorem acceptedDust : createConfig paramsDust env = .ok (configOf paramsDust) := by decide +kernel
theorem typedDust : paramsDust.Typed := by
  constructor <;> first | decide | (intro pre post h; cases h; done) | (intro q hq; revert q hq; decide)
theorem initDust : initPool (configOf paramsDust) (initArgs 1) = .ok (worldOf paramsDust) := by decide +kernel
theorem genesisDust : Genesis (worldOf paramsDust) := ⟨_, _, _, _, typedDust, acceptedDust, initDust⟩

def readyDust : World := after paramsDust [buy 1 1000 0 300 false txSwap]
def v2Dust : V2Args := ⟨dammB, 384, 2, 0, 0, 0, 256, 1, 2000000⟩
def migratedDust : World := after paramsDust [buy 1 1000 0 300 false txSwap, .migrateV2 v2Dust]

theorem reachReadyDust : Reachable readyDust :=
  ⟨_, _, genesisDust, exec_run (ops := [buy 1 1000 0 300 false txSwap]) (by decide +kernel)⟩

end Ex

namespace Props
open Dbc Spec

theorem creates_of {w w' : World} {a : V2Args} {np : NewPool} {s l : Nat} (hn : w'.newPool = some np) (ho : opening np = some (s, l))
    (h : CreatesPool w.cfg s l a) :
    ∀ np price liq, w'.newPool = some np → opening np = some (price, liq) → CreatesPool w.cfg price liq a := by
  intro np' s' l' h1 h2
  rw [hn, Option.some.injEq] at h1
  rw [← h1, ho, Option.some.injEq, Prod.mk.injEq] at h2
  rw [← h2.1, ← h2.2]
  exact h

/-- A concentrated and a compounding pool whose second position is short of its plan. -/
theorem C65_example :
    (∃ w' p1 p2, Reachable Ex.readyB ∧ Ex.readyB.step (.migrateV2 Ex.v2B) = .ok w' ∧ ¬Compounds Ex.readyB.cfg ∧
      (∀ np price liq, w'.newPool = some np → opening np = some (price, liq) → CreatesPool Ex.readyB.cfg price liq Ex.v2B) ∧
      w'.positions = [p1, p2] ∧ 0 < stillLocked p1 (Ex.v2B.now + 86400) ∧ 0 < stillLocked p2 (Ex.v2B.now + 86400)) ∧
    (∃ w' p1 p2, Reachable Ex.readyC ∧ Ex.readyC.step (.migrateV2 Ex.v2Cexact) = .ok w' ∧ Compounds Ex.readyC.cfg ∧
      (∀ np price liq, w'.newPool = some np → opening np = some (price, liq) → CreatesPool Ex.readyC.cfg price liq Ex.v2Cexact) ∧
      w'.positions = [p1, p2] ∧ 0 < stillLocked p1 (Ex.v2Cexact.now + 86400) ∧ 0 < stillLocked p2 (Ex.v2Cexact.now + 86400)) := by
  refine ⟨⟨Ex.after Ex.paramsB (Ex.completing ++ [.migrateV2 Ex.v2B]),
    ⟨21, 690369397963218545814256516212718, 172592349490804636453564129053179,
      some ⟨2000000, 1150615663272030909690427527021, 115061566327203090969042752702138, 86400, 100⟩⟩,
    ⟨11, 460246265308697071725542550797486, 115061566327145444893728522696624,
      some ⟨2086400, 1150615663271454448937285226966, 57530783163572722446864261348324, 3600, 50⟩⟩,
    Ex.reachCompleteB, by decide +kernel, by decide +kernel, ?_, by decide +kernel, by decide +kernel, by decide +kernel⟩,
   ⟨Ex.after Ex.paramsC (Ex.completing ++ [.migrateV2 Ex.v2Cexact]),
    ⟨21, 690369396957474050005664753017725, 172592349239368512501416188254430,
      some ⟨2000000, 1150615661595790083342774588362, 115061566159579008334277458836374, 86400, 100⟩⟩,
    ⟨11, 460246264638200741186649283699510, 115061566159521362259047183013468,
      some ⟨2086400, 1150615661595213622590471830134, 57530783079760681129523591506768, 3600, 50⟩⟩,
    Ex.reachCompleteC, by decide +kernel, by decide +kernel, ?_, by decide +kernel, by decide +kernel, by decide +kernel⟩⟩
  · refine creates_of (np := .custom ⟨.time 0 10000000 0 0 0, 0, some ⟨1, 1844674407370955, 10, 120, 5000, 14460000, 956⟩⟩ 0 1
      MIN_SQRT_PRICE MAX_SQRT_PRICE 2951479051793528258 690369397963218545814256516212718)
      (s := 2951479051793528258) (l := 690369397963218545814256516212718) (by decide +kernel) (by decide +kernel) ?_
    unfold CreatesPool
    rw [if_neg (by decide +kernel)]
    decide +kernel
  · refine creates_of (np := .custom ⟨.time 0 10000000 0 0 0, 5000, none⟩ 2 1
      MIN_SQRT_PRICE MAX_SQRT_PRICE 2951479051793524473 690369396959318724413035708179325)
      (s := 2951479051793524473) (l := 690369396959318724413035708179325) (by decide +kernel) (by decide +kernel) ?_
    unfold CreatesPool
    rw [if_pos (by decide +kernel)]
    decide +kernel

/-- C65: the shortfall matters for dust. A pool that raises three units of quote, accepted because its configuration locks a
tenth of the liquidity, ends up with nothing locked: the first position takes two of the three units, and the one left does not
even cover the second side's unlocked part. -/
theorem C65_dust : ∃ p1 p2, Reachable Ex.readyDust ∧ Ex.readyDust.step (.migrateV2 Ex.v2Dust) = .ok Ex.migratedDust ∧
    Ex.readyDust.cfg.partnerPermLockedPct = 10 ∧
    (∀ np price liq, Ex.migratedDust.newPool = some np → opening np = some (price, liq) →
      CreatesPool Ex.readyDust.cfg price liq Ex.v2Dust) ∧
    Ex.migratedDust.positions = [p1, p2] ∧ 0 < p1.liquidity ∧ 0 < p2.liquidity ∧ stillLocked p1 Ex.v2Dust.now = 0 ∧
    stillLocked p2 Ex.v2Dust.now = 0 := by
  refine ⟨⟨21, 442509454879194386538, 0, none⟩, ⟨11, 295006303252796257691, 0, none⟩, Ex.reachReadyDust, by decide +kernel,
    by decide +kernel, ?_, by decide +kernel, by decide, by decide, by decide, by decide⟩
  refine creates_of (np := .custom ⟨.time 0 10000000 0 0 0, 0, some ⟨1, 1844674407370955, 10, 120, 5000, 14460000, 956⟩⟩ 0 1
      MIN_SQRT_PRICE MAX_SQRT_PRICE 1153474906929058262 442509454879194386538)
      (s := 1153474906929058262) (l := 442509454879194386538) (by decide +kernel) (by decide +kernel) ?_
  unfold CreatesPool
  rw [if_neg (by decide +kernel)]
  decide +kernel

end Props

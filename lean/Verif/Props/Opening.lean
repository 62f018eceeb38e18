import Verif.Spec.Opening
import Verif.Props.NewPool

/-!
# All pools of a configuration open alike: C83
-/

namespace Props
open Dbc Spec

/-- With the configured base amount or more, the quote amount alone decides how much liquidity there is. -/
theorem quote_decides {M p D N K Q qf T avail l lf bf : Nat} (hp : 0 < p) (hM : 0 < M) (hD : 0 < D) (hN : 0 < N)
    (hl : l = Q * K / D) (hT : divCeil (l * N) (p * M) = T) (hlf : lf = qf * K / D) (hbf : bf = lf * N / (p * M))
    (hq : qf ≤ Q) (hav : T ≤ avail) : (Q - qf) * K / D ≤ (avail - bf) * p * M / N := by
  have hPM : 0 < p * M := Nat.mul_pos hp hM
  have k1 : l * N ≤ T * (p * M) := by rw [← hT]; exact le_divCeil_mul _ hPM
  have k2 : bf * (p * M) ≤ lf * N := by rw [hbf]; exact Nat.div_mul_le_self _ _
  have k3 : (Q - qf) * K / D + lf ≤ l := by
    rw [hlf, hl, Nat.le_div_iff_mul_le hD, Nat.add_mul]
    have a1 := Nat.div_mul_le_self ((Q - qf) * K) D
    have a2 := Nat.div_mul_le_self (qf * K) D
    have a3 : (Q - qf) * K + qf * K = Q * K := by rw [← Nat.add_mul, Nat.sub_add_cancel hq]
    omega
  have k6 : (avail - bf) * (p * M) = avail * (p * M) - bf * (p * M) := Nat.sub_mul _ _ _
  rw [Nat.le_div_iff_mul_le hN, Nat.mul_assoc, k6]
  have k4 := Nat.mul_le_mul_right N k3
  rw [Nat.add_mul] at k4
  have k5 := Nat.mul_le_mul_right (p * M) hav
  omega

/-- Price, liquidity and dead liquidity of the new pool, from the configuration alone. -/
def InfoOf (w : World) (s liq dead : Nat) : Prop :=
  (Compounds w.cfg → dead = DEAD_LIQUIDITY ∧ compoundingInitial
    (w.cfg.migrationBaseThreshold - protocolCut w.cfg.migrationBaseThreshold) (quoteForPool w) = .ok (s, liq + dead)) ∧
  (¬Compounds w.cfg → s = w.cfg.migrationSqrtPrice ∧ dead = 0 ∧
    liq = quoteForPool w * 2 ^ 128 / (w.cfg.migrationSqrtPrice - MIN_SQRT_PRICE) ∧ MIN_SQRT_PRICE < w.cfg.migrationSqrtPrice)

theorem info_of {w : World} (h : Reachable w) (h2 : w.pool.migrationProgress = 2) (ho : w.cfg.migrationOption = 1)
    {m : MigAmounts} {s liq dead : Nat} (hma : w.migAmounts (migrationHandler 1 w.cfg.migratedFee.collectFeeMode) = .ok m)
    (hi : initialPoolInformation (migrationHandler 1 w.cfg.migratedFee.collectFeeMode) w.cfg.migrationSqrtPrice m.exBase m.exQuote =
      .ok (s, liq, dead)) : InfoOf w s liq dead := by
  obtain ⟨q1, q2, q3, -, -⟩ := amounts_fees h h2 (by rw [ho]) hma
  have eq : m.exQuote = quoteForPool w := by unfold quoteForPool; omega
  refine ⟨fun hc => ?_, fun hc => ?_⟩
  · have hh := (handler_eq ho).1 hc
    obtain ⟨q3, q4⟩ := q3 hh
    rw [hh] at hi
    have eb : m.exBase = w.cfg.migrationBaseThreshold - protocolCut w.cfg.migrationBaseThreshold := by omega
    rw [eb, eq] at hi
    simp only [initialPoolInformation, bind_ok, Prod.exists, safeSub_ok, ok_inj, Prod.mk.injEq] at hi
    obtain ⟨s', l', hsl, l0, ⟨hle, d1⟩, d0, d2, d3⟩ := hi
    refine ⟨d3.symm, ?_⟩
    rw [← d2, ← d3, ← d0, d1, Nat.sub_add_cancel hle]
    exact hsl
  · have hh := (handler_eq ho).2 hc
    rw [hh] at hi hma
    obtain ⟨l, hlq, hlb⟩ := h.migCfg.concentrated (by rw [ho]; exact hh)
    obtain ⟨f, hf, hfv, hfm, g1, g2, e1, e2, e3, e4, -⟩ := migAmounts_ok hma
    have hb2 := h.solvent.base2 h2
    have hbf0 : w.baseFees = w.pool.partnerBaseFee + w.pool.protocolBaseFee + w.pool.creatorBaseFee := by
      unfold World.baseFees; omega
    simp only [initialPoolInformation, bind_ok, ok_inj, Prod.mk.injEq] at hi
    obtain ⟨l0, hcl, rfl, rfl, rfl⟩ := hi
    obtain ⟨b1, b2, -⟩ := concentratedLiquidity_ok hcl
    refine ⟨rfl, rfl, ?_, b1⟩
    simp only [migrationAmounts2, bind_ok, Prod.exists, ok_inj, Prod.mk.injEq] at g1
    obtain ⟨_, _, _, g1, -⟩ := g1
    simp only [migrationProtocolFees, bind_ok, ok_inj, Prod.mk.injEq] at g2
    obtain ⟨qf, hqf, lf, hlf, bf, hbf, e5, e6⟩ := g2
    have hbf' : bf = lf * (MAX_SQRT_PRICE - w.cfg.migrationSqrtPrice) / (w.cfg.migrationSqrtPrice * MAX_SQRT_PRICE) := by
      simp only [deltaBase, bind_ok, req_ok, castTo_ok] at hbf
      obtain ⟨_, h1, _, _, _, rfl⟩ := hbf
      exact (deltaBase256_ok.1 h1).2.2.2.2
    obtain ⟨-, -, -, c3, -⟩ := liqFromDeltaQuote_ok.1 hlq
    obtain ⟨-, -, -, c4, -⟩ := liqFromDeltaQuote_ok.1 hlf
    have hav : w.cfg.migrationBaseThreshold ≤ m.base := by omega
    have hle := quote_decides (M := MAX_SQRT_PRICE) (p := w.cfg.migrationSqrtPrice) (D := w.cfg.migrationSqrtPrice - MIN_SQRT_PRICE)
      (N := MAX_SQRT_PRICE - w.cfg.migrationSqrtPrice) (K := 2 ^ 128) (Q := migQuote w.cfg) (qf := qf) (avail := m.base)
      (by omega) (by omega) (by omega) (by omega) c3 hlb c4 hbf' (by omega) hav
    have e7 : m.base - bf = m.exBase := by omega
    have e8 : migQuote w.cfg - qf = m.exQuote := by omega
    rw [e7, e8] at hle
    simp only [concentratedLiquidity, liqFromDeltaBase, liqFromDeltaQuote, bind_ok, safeSub_ok, safeMul_ok, safeDiv_ok,
      safeShl256_ok, castTo_ok] at hcl
    rw [← eq]
    generalize 2 ^ 128 = K at *
    generalize MAX_SQRT_PRICE = M at *
    generalize MIN_SQRT_PRICE = mm at *
    obtain ⟨lb, ⟨_, ⟨_, d1⟩, _, ⟨_, d2⟩, _, ⟨_, d3⟩, _, d4⟩, lq, ⟨_, ⟨_, d5⟩, _, ⟨_, d6⟩, _, ⟨_, d7⟩, _, d8⟩, hcl⟩ := hcl
    subst d1 d2 d3 d4 d5 d6 d7 d8
    rw [ite_ok] at hcl
    rcases hcl with ⟨g, hcl⟩ | ⟨g, hcl⟩
    · rw [ok_inj] at hcl; exact hcl.symm
    · rw [castTo_ok] at hcl
      obtain ⟨-, rfl⟩ := hcl
      omega

/-- What the new pool is asked for, from the configuration alone. -/
def AskedFor (w : World) (np : NewPool) : Prop :=
  (w.cfg.migrationOption = 0 ∧ ∃ d, np = .v1 d (w.cfg.migrationBaseThreshold - protocolCut w.cfg.migrationBaseThreshold)
    (quoteForPool w)) ∨
  (w.cfg.migrationOption = 1 ∧ ∃ d s liq dead, InfoOf w s liq dead ∧ createPoolV2 w.cfg.migrationFeeOption w.cfg.migratedFee d
    (max (planned w.cfg liq .partner).total (planned w.cfg liq .creator).total + dead) s = .ok np)

theorem asked_step {w w' : World} {op : Op} (h : Reachable w) (hop : isMigrate op = true) (hs : w.step op = .ok w') {np : NewPool}
    (hnp : w'.newPool = some np) : AskedFor w np := by
  rcases isMigrate_iff.1 hop with ⟨a, rfl⟩ | ⟨a, rfl⟩
  · obtain ⟨md, m, md', burn, f, h1, h2, h3, h4, hma, -, -, -, -, -, -, -, -, -, e⟩ := migrateV1_ok hs
    rw [e, Option.some.injEq] at hnp
    obtain ⟨q1, q2, q3, -, -⟩ := amounts_fees h h2 (by rw [h4]; rfl) hma
    obtain ⟨q3, q4⟩ := q3 rfl
    refine .inl ⟨h4, a.config, ?_⟩
    rw [← hnp, show m.exBase = w.cfg.migrationBaseThreshold - protocolCut w.cfg.migrationBaseThreshold by omega,
      show m.exQuote = quoteForPool w by unfold quoteForPool; omega]
  · obtain ⟨hd, m, burn, fee, price, liq, dead, pa, cr, first, second, liq2, out, rfl, h1, h2, h3, h4, hma, -, hi, hdist, hord,
      -, -, -, -, hl2, ⟨rest, t1, lock, hrest, ht1, hlock, -, hout, hcp, -⟩, -, -, -, -, e⟩ := migrateV2_ok hs
    rw [e, Option.some.injEq] at hnp
    obtain ⟨rfl, rfl, hsum⟩ := distribution_planned hdist
    obtain ⟨f, rfl, rfl, hle, -⟩ := order_planned hord
    have ht1' : t1 = (planned w.cfg liq f).total := total_ok ht1
    have ht2 : t1 = max (planned w.cfg liq .partner).total (planned w.cfg liq .creator).total := by
      cases f
      · exact ht1'.trans (Nat.max_eq_left hle).symm
      · exact ht1'.trans (Nat.max_eq_right hle).symm
    rw [ht2] at hcp
    rw [← hnp]
    exact .inr ⟨h4, a.config, price, liq, dead, info_of h h2 h4 hma hi, hcp⟩

theorem asked_cfg {w w' : World} {np : NewPool} (e : w'.cfg = w.cfg) (h : AskedFor w np) : AskedFor w' np := by
  unfold AskedFor InfoOf quoteForPool migrationQuote at h ⊢
  rw [e]
  exact h

theorem asked {w : World} (h : Reachable w) : ∀ np, w.newPool = some np → AskedFor w np := by
  refine Reachable.induct (P := fun w => ∀ np, w.newPool = some np → AskedFor w np) ?_ ?_ h
  · rintro w ⟨p, env, a, c, -, -, hi⟩
    obtain ⟨_, _, _, _, _, -, -, -, -, -, -, -, -, e⟩ := initPool_ok hi
    rw [e]
    exact fun np h => nomatch h
  · intro w op w' hr ih hs np hnp
    refine asked_cfg (step_cfg hs) ?_
    by_cases hm : isMigrate op = true
    · exact asked_step hr hm hs hnp
    · rw [(step_newPool hs (by simpa using hm)).1] at hnp
      exact ih np hnp

theorem InfoOf.unique {w : World} {s l d s' l' d' : Nat} (h : InfoOf w s l d) (k : InfoOf w s' l' d') : s' = s ∧ l' = l ∧ d' = d := by
  by_cases hc : Compounds w.cfg
  · obtain ⟨h1, h2⟩ := h.1 hc
    obtain ⟨k1, k2⟩ := k.1 hc
    rw [h2, ok_inj, Prod.mk.injEq] at k2
    omega
  · obtain ⟨h1, h2, h3, -⟩ := h.2 hc
    obtain ⟨k1, k2, k3, -⟩ := k.2 hc
    exact ⟨k1.trans h1.symm, k3.trans h3.symm, k2.trans h2.symm⟩

/-- C83: whatever happened to two pools of one configuration — trades, claims, gifts, burns, changes of owner, in any order — if
both have migrated, the pools they migrated to were opened alike. -/
theorem C83_same_opening {w v : World} (hw : Reachable w) (hv : Reachable v) (e : v.cfg = w.cfg) {np np' : NewPool}
    (h1 : w.newPool = some np) (h2 : v.newPool = some np') : SameOpening np np' := by
  have a := asked hw np h1
  have b := asked_cfg e.symm (asked hv np' h2)
  rcases a with ⟨a0, d, rfl⟩ | ⟨a1, d, s, l, x, hi, hc⟩
  · rcases b with ⟨-, d', rfl⟩ | ⟨b1, -⟩
    · exact ⟨rfl, rfl⟩
    · omega
  · rcases b with ⟨b0, -⟩ | ⟨-, d', s', l', x', hi', hc'⟩
    · omega
    · obtain ⟨rfl, rfl, rfl⟩ := hi.unique hi'
      unfold createPoolV2 at hc hc'
      split at hc
      · next h6 =>
        rw [if_pos h6] at hc'
        rw [hc, ok_inj] at hc'
        subst hc'
        simp only [bind_ok, ok_inj] at hc
        obtain ⟨_, -, _, -, rfl⟩ := hc
        exact ⟨rfl, rfl, rfl, rfl, rfl, rfl, rfl⟩
      · next h6 =>
        rw [if_neg h6] at hc'
        rw [ok_inj] at hc hc'
        subst hc hc'
        exact ⟨rfl, rfl⟩

/-- C83: in a concentrated pool the quote set aside for it alone decides the liquidity. The base tokens always suffice, and more
of them (leftovers, gifts) change nothing: `liq` is the most the quote pays for, and the first position has the larger share. -/
theorem C83_quote_decides {w : World} (h : Reachable w) (hc : ¬Compounds w.cfg) {np : NewPool} (hn : w.newPool = some np) :
    ∃ liq, QuoteLiquidity w.cfg.migrationSqrtPrice (quoteForPool w) liq ∧
      opening np = some (w.cfg.migrationSqrtPrice, max (planned w.cfg liq .partner).total (planned w.cfg liq .creator).total) := by
  rcases asked h np hn with ⟨a0, -⟩ | ⟨a1, d, s, l, x, hi, hcp⟩
  · exact absurd (.inl a0) hc
  · obtain ⟨rfl, rfl, hl, hp⟩ := hi.2 hc
    refine ⟨l, ⟨?_, fun k hk => ?_⟩, ?_⟩
    · show ceilDiv _ _ ≤ _
      rw [ceilDiv_eq (by positivity), hl]
      exact divCeil_le_of (Nat.div_mul_le_self _ _)
    · show _ < ceilDiv _ _
      rw [ceilDiv_eq (by positivity)]
      by_contra hle
      rw [not_lt, divCeil_le_iff (by positivity), ← Nat.le_div_iff_mul_le (by omega)] at hle
      omega
    · unfold createPoolV2 at hcp
      split at hcp
      · simp only [bind_ok, ok_inj] at hcp
        obtain ⟨_, -, _, -, eo⟩ := hcp
        rw [← eo]
        rfl
      · rw [ok_inj] at hcp
        rw [← hcp]
        rfl

namespace Ex
open Dbc Spec

/-- The pool of configuration B with a gift of a hundred thousand million base units before the last buy, and another owner. -/
def giftOps : List Op :=
  _root_.Ex.trading ++ [.donate 100000000000 5 7, .transferCreator 21 22, _root_.Ex.buy 1 40000000000000 0 1300 true _root_.Ex.txSwap,
    .migrateV2 _root_.Ex.v2B]

def gifted : World := _root_.Ex.after _root_.Ex.paramsB giftOps

theorem reachGifted : Reachable gifted := ⟨_, _, _root_.Ex.genesisB, _root_.Ex.exec_run (ops := giftOps) (by decide +kernel)⟩

end Ex

/-- Two histories of one configuration, one of them with a gift and another creator, and a third configuration's migration to
DAMM v1 and to a compounding pool. -/
theorem C83_example :
    (Reachable _root_.Ex.migratedB ∧ Reachable Ex.gifted ∧ Ex.gifted.cfg = _root_.Ex.migratedB.cfg ∧
      ¬Compounds Ex.gifted.cfg ∧ Ex.gifted.newPool ≠ none ∧ Ex.gifted.newPool = _root_.Ex.migratedB.newPool ∧
      Ex.gifted.led.donBase = 100000000077 ∧ _root_.Ex.migratedB.led.donBase = 77 ∧
      Ex.gifted.pool.creator ≠ _root_.Ex.migratedB.pool.creator) ∧
    (Reachable _root_.Ex.migratedA ∧ _root_.Ex.migratedA.newPool ≠ none ∧ Compounds _root_.Ex.migratedA.cfg) ∧
    Reachable _root_.Ex.migratedC ∧ _root_.Ex.migratedC.newPool ≠ none ∧ Compounds _root_.Ex.migratedC.cfg :=
  ⟨⟨_root_.Ex.reachMigratedB, Ex.reachGifted, by decide +kernel, by decide +kernel, by decide +kernel, by decide +kernel, by decide +kernel,
    by decide +kernel, by decide +kernel⟩,
   ⟨_root_.Ex.reachMigratedA, by decide +kernel, by decide +kernel⟩, _root_.Ex.reachMigratedC, by decide +kernel, by decide +kernel⟩

end Props

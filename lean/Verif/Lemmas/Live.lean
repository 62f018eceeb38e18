import Verif.Lemmas.Deposit
import Verif.Lemmas.Damm
import Verif.Props.Config
import Verif.Spec.Migrate

/-!
# A pool that is ready to migrate can be migrated
-/

namespace Dbc
open Spec

theorem ceilDiv_eq {a b : Nat} (hb : b ≠ 0) : ceilDiv a b = divCeil a b := up_eq_divCeil a b hb

theorem lt_pow_of {x : Nat} (h : x ≤ u128Max) : x < 2 ^ 128 := lt_of_le_of_lt h (by decide)

/-- Everything about the initial price and liquidity of a compounding pool. -/
theorem compoundingInitial_full {a b s l : Nat} (h : compoundingInitial a b = .ok (s, l)) :
    ∃ s2, l = s2 * a ∧ l ≤ u128Max ∧ s2 ≤ s ∧ s ≤ s2 + 1 ∧ b * 2 ^ 128 ≤ a * (s * s + 2 * s) ∧ MIN_SQRT_PRICE ≤ s ∧
      s ≤ MAX_SQRT_PRICE := by
  simp only [compoundingInitial, bind_ok, safeShl256_ok, req_ok, safeMul_ok, ok_inj, Prod.mk.injEq] at h
  obtain ⟨_, ⟨hq, rfl⟩, _, ha, s1, h1, _, _, _, ⟨h2, h2'⟩, s2, h3, _, _, _, ⟨h4, rfl⟩, rfl, rfl⟩ := h
  have hs1 : sqrtU256 (divCeil (b * 2 ^ 128) a) = some s1 := by
    split at h1
    · rename_i s hs; rw [ok_inj] at h1; rw [hs, h1]
    · cases h1
  have hs2 : sqrtU256 (b * 2 ^ 128 / a) = some s2 := by
    split at h3
    · rename_i s hs; rw [ok_inj] at h3; rw [hs, h3]
    · cases h3
  have hpos : 0 < a := by omega
  generalize b * 2 ^ 128 = q at *
  have hle : q / a ≤ u256Max := (Nat.div_le_self _ _).trans hq
  have hceil : divCeil q a ≤ u256Max := by
    refine le_trans ?_ hq
    rw [divCeil_le_iff hpos]
    exact Nat.le_mul_of_pos_right _ hpos
  obtain ⟨r1, e1, l1, g1⟩ := sqrtU256_ok hceil
  obtain ⟨r2, e2, l2, g2⟩ := sqrtU256_ok hle
  rw [hs1, Option.some.injEq] at e1
  rw [hs2, Option.some.injEq] at e2
  subst e1 e2
  have h12 : q / a ≤ divCeil q a ∧ divCeil q a ≤ q / a + 1 := by
    refine ⟨div_le_divCeil _ _ , ?_⟩
    rw [divCeil_le_iff hpos, Nat.add_mul, Nat.one_mul]
    have e := Nat.div_add_mod q a
    have := Nat.mod_lt q hpos
    rw [Nat.mul_comm a] at e
    omega
  have hle12 : s2 ≤ s1 := by
    by_contra hc
    have : (s1 + 1) * (s1 + 1) ≤ s2 * s2 := Nat.mul_le_mul (by omega) (by omega)
    omega
  have hle21 : s1 ≤ s2 + 1 := by
    by_contra hc
    have : (s2 + 1 + 1) * (s2 + 1 + 1) ≤ s1 * s1 := Nat.mul_le_mul (by omega) (by omega)
    have e : (s2 + 1 + 1) * (s2 + 1 + 1) = (s2 + 1) * (s2 + 1) + 2 * s2 + 3 := by ring
    omega
  refine ⟨s2, rfl, h4, hle12, hle21, ?_, h2, h2'⟩
  have k := le_divCeil_mul q hpos
  have e : (s1 + 1) * (s1 + 1) = s1 * s1 + 2 * s1 + 1 := by ring
  calc q ≤ divCeil q a * a := k
    _ ≤ (s1 * s1 + 2 * s1) * a := Nat.mul_le_mul_right _ (by omega)
    _ = a * (s1 * s1 + 2 * s1) := Nat.mul_comm _ _

/-- The amounts a compounding pool with part of the initial liquidity holds. -/
theorem compounding_fits {a b s l : Nat} (h : compoundingInitial a b = .ok (s, l)) :
    divCeil l s ≤ a ∧ divCeil (l * s) (2 ^ 128) ≤ b := by
  obtain ⟨-, -, h1, h2⟩ := compoundingInitial_ok h
  exact ⟨divCeil_le_of h1, divCeil_le_of h2⟩

/-- Adding the rest to a compounding pool created with `L1` of the liquidity. -/
theorem second_total {a b s l L1 : Nat} (h : compoundingInitial a b = .ok (s, l)) (ha : a ≤ u64Max) (hb : b ≤ u64Max)
    (h1 : L1 ≤ l) (h2 : DEAD_LIQUIDITY ≤ L1) (p : Nat) :
    ∃ l2, liquidityDelta .compounding p (a - divCeil L1 s) (b - divCeil (L1 * s) (2 ^ 128)) (divCeil L1 s)
      (divCeil (L1 * s) (2 ^ 128)) L1 = .ok l2 := by
  obtain ⟨s2, e, hl, g1, g2, g3, g4, -⟩ := compoundingInitial_full h
  have hs : 0 < s := lt_of_lt_of_le (by decide) g4
  have hL : 0 < L1 := lt_of_lt_of_le (by decide) h2
  have hd : 3 * u64Max ≤ DEAD_LIQUIDITY := by decide
  have hu : u64Max * u128Max ≤ u256Max := by decide +kernel
  have c1 := le_divCeil_mul L1 hs
  have c2 := le_divCeil_mul (L1 * s) (b := 2 ^ 128) (by positivity)
  have p1 : 0 < divCeil L1 s := by
    by_contra hc
    rw [Nat.eq_zero_of_not_pos hc] at c1; omega
  have p2 : 0 < divCeil (L1 * s) (2 ^ 128) := by
    by_contra hc
    rw [Nat.eq_zero_of_not_pos hc] at c2
    have := Nat.mul_pos hL hs
    omega
  generalize divCeil L1 s = c at *
  generalize divCeil (L1 * s) (2 ^ 128) = d at *
  generalize (2 : Nat) ^ 128 = K at *
  have as : a * s ≤ l + a := by
    rw [e]
    calc a * s ≤ a * (s2 + 1) := Nat.mul_le_mul_left _ g2
      _ = s2 * a + a := by ring
  have x1 : (a - c) * L1 / c ≤ u128Max := by
    refine le_trans (Nat.div_le_of_le_mul (k := c) (n := (a - c) * s) ?_) ?_
    · calc (a - c) * L1 ≤ (a - c) * (c * s) := Nat.mul_le_mul_left _ c1
        _ = c * ((a - c) * s) := by ring
    · rw [Nat.sub_mul]; omega
  have x2 : (b - d) * L1 / d ≤ u128Max := by
    by_contra hc
    have hc : l < (b - d) * L1 / d := by omega
    generalize hy : (b - d) * L1 / d = y at *
    have y1 : y * d ≤ (b - d) * L1 := by rw [← hy]; exact Nat.div_mul_le_self _ _
    -- y * s ≤ (b - d) * K
    have y2 : y * s ≤ (b - d) * K := by
      have : d * (y * s) ≤ d * ((b - d) * K) := by
        calc d * (y * s) = y * d * s := by ring
          _ ≤ (b - d) * L1 * s := Nat.mul_le_mul_right _ y1
          _ = (b - d) * (L1 * s) := by ring
          _ ≤ (b - d) * (d * K) := Nat.mul_le_mul_left _ c2
          _ = d * ((b - d) * K) := by ring
      exact Nat.le_of_mul_le_mul_left this p2
    have y3 : (y + L1) * s ≤ (a * s + 2 * a) * s := by
      calc (y + L1) * s = y * s + L1 * s := Nat.add_mul _ _ _
        _ ≤ (b - d) * K + d * K := Nat.add_le_add y2 c2
        _ = (b - d + d) * K := by ring
        _ ≤ max b d * K := Nat.mul_le_mul_right _ (by omega)
        _ ≤ a * (s * s + 2 * s) := by
            by_cases hbd : d ≤ b
            · rw [Nat.max_eq_left hbd]; exact g3
            · exfalso
              have : b - d = 0 := by omega
              rw [this] at hy
              simp at hy
              omega
        _ = (a * s + 2 * a) * s := by ring
    have y4 := Nat.le_of_mul_le_mul_right y3 hs
    omega
  simp only [liquidityDelta, bind_ok, ok_inj]
  exact ⟨_, _, mulDivU128_down.2 ⟨(Nat.mul_le_mul ((Nat.sub_le _ _).trans ha) (h1.trans hl)).trans hu, p1.ne', rfl, x1⟩, _,
    mulDivU128_down.2 ⟨(Nat.mul_le_mul ((Nat.sub_le _ _).trans hb) (h1.trans hl)).trans hu, p2.ne', rfl, x2⟩, rfl⟩

/-! ### The whole migration -/

/-- Liquidity of the two positions: the shares by percentage, the rounding to the creator. -/
theorem order_ok {p c : Nat} {pa cr : LiqItem} {x y : Nat} (hx : pa.total = .ok x) (hy : cr.total = .ok y) :
    ∃ f s, orderPositions p c pa cr = .ok (f, s) ∧ f.item.total = .ok (max x y) ∧ (s.item = pa ∨ s.item = cr) ∧
      (f.item = pa ∨ f.item = cr) := by
  unfold orderPositions
  rw [hx, ok_bind, hy, ok_bind]
  split
  · exact ⟨_, _, rfl, by rw [hx, Nat.max_eq_left (by omega)], .inr rfl, .inl rfl⟩
  · exact ⟨_, _, rfl, by rw [hy, Nat.max_eq_right (by omega)], .inl rfl, .inr rfl⟩

/-- What the creation of the configuration established about the pool to migrate to. -/
structure PoolCfg (c : PoolConfig) : Prop where
  option : c.migrationOption = 0 ∨ c.migrationOption = 1
  feeOption : c.migrationFeeOption ≤ 6
  fixed : c.migrationOption = 0 → c.migrationFeeOption ≠ 6
  custom : c.migrationOption = 1 → c.migrationFeeOption = 6 → c.migratedFee.validate = .ok ()

theorem Reachable.poolCfg {w : World} (h : Reachable w) : PoolCfg w.cfg := by
  obtain ⟨p, env, ht, hc⟩ := h.config
  have ha := createConfig_ok hc
  have hv := validate_ok ha.validated
  have e1 : w.cfg.migrationOption = p.migrationOption := by rw [ha.eq]; rfl
  have e2 : w.cfg.migratedFee = p.migratedFee := by rw [ha.eq]; rfl
  have e3 : w.cfg.migrationFeeOption = p.migrationFeeOption := by rw [ha.eq]; rfl
  have ho := hv.option
  have hok := hv.optionOk
  unfold validateMigrationOption at hok
  refine ⟨by rw [e1]; omega, by rw [e3]; exact hv.feeOption, fun h0 => ?_, fun h1 h6 => ?_⟩
  · rw [e1] at h0
    rw [if_pos h0] at hok
    simp only [bind_ok, req_ok] at hok
    obtain ⟨_, -, _, -, _, ⟨h, -⟩, -⟩ := hok
    rw [e3]; exact h
  · rw [e1] at h1
    rw [e3] at h6
    rw [if_neg (by omega), if_pos h6] at hok
    simp only [bind_ok] at hok
    obtain ⟨_, h, -⟩ := hok
    rw [e2]; exact h

theorem createPool_total {w : World} (hr : Reachable w) (ho : w.cfg.migrationOption = 1) (d : DammV2Config) (l s : Nat) :
    ∃ np, createPoolV2 w.cfg.migrationFeeOption w.cfg.migratedFee d l s = .ok np := by
  unfold createPoolV2
  split
  · next h6 =>
    obtain ⟨fees, low, hf⟩ := buildFees_ok (hr.poolCfg.custom ho h6)
    have hm := hf.collect
    rw [hf.built, ok_bind]
    unfold dammCollectFeeMode
    rcases (by omega : w.cfg.migratedFee.collectFeeMode = 0 ∨ w.cfg.migratedFee.collectFeeMode = 1 ∨
      w.cfg.migratedFee.collectFeeMode = 2) with e | e | e <;> rw [e] <;> exact ⟨_, rfl⟩
  · exact ⟨_, rfl⟩

theorem lock_total {w : World} (hr : Reachable w) {i : LiqItem} {now : Nat}
    (hi : i.vesting = w.cfg.partnerVesting ∨ i.vesting = w.cfg.creatorVesting) (hv : i.permanent + i.vested < 2 ^ 128)
    (hn : now + 63072000 < 2 ^ 64) : ∃ u, lockItem i now = .ok u := by
  obtain ⟨p, env, ht, hc⟩ := hr.config
  obtain ⟨P, hP, -⟩ := Props.C23_vesting ht hc hi i.vested now (by omega) hn
  unfold lockItem
  rw [safeAdd_eq (by have : u128Max + 1 = 2 ^ 128 := by decide
                     omega), ok_bind]
  split
  · split
    · rw [hP]; exact ⟨_, rfl⟩
    · exact ⟨_, rfl⟩
  · exact ⟨_, rfl⟩

theorem adjust_vesting {i j : LiqItem} {x : Nat} (h : i.adjust x = .ok j) : j.vesting = i.vesting := by
  simp only [LiqItem.adjust, bind_ok, ite_ok, ok_inj] at h
  obtain ⟨_, _, ⟨_, rfl⟩ | ⟨_, _, _, _, _, _, _, rfl⟩⟩ := h <;> rfl

theorem burn_total {w : World} (hr : Reachable w) {f mf v : Nat} (h : f + mf ≤ v) (hv : v ≤ u64Max) :
    ∃ x, burnAmount w.cfg f mf v = .ok x ∧ x ≤ v := by
  obtain ⟨ps, hc⟩ := hr.core
  unfold burnAmount PoolConfig.burnable
  rw [safeAdd_eq (by omega), ok_bind, safeSub_eq h, ok_bind]
  by_cases hf : w.cfg.fixedSupplyFlag = 1
  · rw [if_pos hf, safeSub_eq (hc.good.fixed hf).1, ok_bind]
    exact ⟨_, rfl, (Nat.min_le_right _ _).trans (Nat.sub_le _ _)⟩
  · rw [if_neg hf, ok_bind]
    exact ⟨_, rfl, (Nat.min_le_right _ _).trans (Nat.sub_le _ _)⟩

theorem handler_eq {c : PoolConfig} (ho : c.migrationOption = 1) :
    (Compounds c → migrationHandler 1 c.migratedFee.collectFeeMode = .compounding) ∧
    (¬Compounds c → migrationHandler 1 c.migratedFee.collectFeeMode = .concentrated) := by
  unfold Compounds migrationHandler
  constructor
  · intro h; rw [if_neg (by decide), if_pos (by omega)]
  · intro h; rw [if_neg (by decide), if_neg (by omega)]

/-- What the two positions of a DAMM v2 migration ask for, and that the migration succeeds whenever DAMM v2 provides it. -/
theorem migrateV2_succeeds {w : World} (hr : Reachable w) (h2 : w.pool.migrationProgress = 2) (ho : w.cfg.migrationOption = 1) :
    ∃ m price liq dead X Y, w.migAmounts (migrationHandler 1 w.cfg.migratedFee.collectFeeMode) = .ok m ∧
      initialPoolInformation (migrationHandler 1 w.cfg.migratedFee.collectFeeMode) w.cfg.migrationSqrtPrice m.exBase m.exQuote =
        .ok (price, liq, dead) ∧ X + Y = liq ∧
      ∀ a : V2Args, a.config.validate w.cfg.migrationFeeOption = .ok () → a.now + 63072000 < 2 ^ 64 → CreatesPool w.cfg price (max X Y + dead) a →
        ∃ l2, AddsLiquidity w.cfg price l2 a → ∃ w', w.migrateV2 a = .ok w' := by
  have hm := hr.migCfg
  have hs := hr.solvent
  have hl := hr.life
  obtain ⟨m, hma, -, hinit⟩ := migAmounts_total hr h2 (h := migrationHandler 1 w.cfg.migratedFee.collectFeeMode) (by rw [ho])
  obtain ⟨⟨price, liq, dead⟩, hi⟩ := hinit ho
  obtain ⟨f, rfl, hfv, hfm, -, -, e1, e2, e3, e4, -⟩ := migAmounts_ok hma
  have hb2 := hs.base2 h2
  have hq2 := hs.quote12 (.inr h2)
  have hbm := hs.baseMax
  have hsm := hs.supMax
  have hqm := hs.quoteMax
  unfold World.baseFees at hb2
  have hexb : m.exBase ≤ u64Max := by omega
  have hexq : m.exQuote ≤ u64Max := by omega
  have hexq' : m.exQuote ≤ migQuote w.cfg := by omega
  obtain ⟨p, env, ht, hc⟩ := hr.config
  have hliq : liq + dead ≤ u128Max := by
    cases hh : migrationHandler 1 w.cfg.migratedFee.collectFeeMode with
    | compounding =>
      rw [hh] at hi
      simp only [initialPoolInformation, bind_ok, Prod.exists, safeSub_ok, ok_inj, Prod.mk.injEq] at hi
      obtain ⟨_, _, hsl, _, ⟨hle, d1⟩, -, d2, d3⟩ := hi
      subst d2 d3
      obtain ⟨_, _, h, _⟩ := compoundingInitial_full hsl
      omega
    | concentrated =>
      rw [hh] at hi
      simp only [initialPoolInformation, bind_ok, ok_inj, Prod.mk.injEq] at hi
      obtain ⟨_, hl, -, rfl, rfl⟩ := hi
      exact (concentratedLiquidity_ok hl).2.2.1
  have hlt : ∀ x, x ≤ liq → x < 2 ^ 128 := fun x hx => lt_pow_of (by omega)
  obtain ⟨pa, cr, hd, hsum, -, -, -, -, -, -, -, hpt, hct⟩ := Props.C22_distribution ht hc liq (hlt _ le_rfl)
  have hpv : pa.vesting = w.cfg.partnerVesting ∧ cr.vesting = w.cfg.creatorVesting := by
    have hd' := hd
    simp only [PoolConfig.liquidityDistribution, bind_ok, ok_inj, Prod.mk.injEq] at hd'
    obtain ⟨_, _, _, _, _, _, _, _, _, _, _, _, _, _, _, _, _, _, _, _, rfl, rfl⟩ := hd'
    exact ⟨rfl, rfl⟩
  obtain ⟨first, second, hord, ht1, hsec, hfst⟩ := order_ok (p := w.cfg.feeClaimer) (c := w.pool.creator) hpt hct
  refine ⟨m, price, liq, dead, _, _, hma, hi, hsum, fun a hcfg hnow hcp => ?_⟩
  have hmax : max (pa.unlocked + pa.permanent + pa.vested) (cr.unlocked + cr.permanent + cr.vested) ≤ liq := by omega
  generalize max (pa.unlocked + pa.permanent + pa.vested) (cr.unlocked + cr.permanent + cr.vested) = t1 at *
  have hlock1 : ∃ u, lockItem first.item a.now = .ok u := by
    refine lock_total hr ?_ ?_ hnow
    · rcases hfst with e | e <;> rw [e]
      · exact .inl hpv.1
      · exact .inr hpv.2
    · rcases hfst with e | e <;> rw [e] <;> apply hlt <;> omega
  -- the first position
  have hone : a.base1 ≤ m.exBase ∧ a.quote1 ≤ m.exQuote ∧
      ∃ l2, liquidityDelta (migrationHandler 1 w.cfg.migratedFee.collectFeeMode) w.cfg.migrationSqrtPrice
        (m.exBase - a.base1) (m.exQuote - a.quote1) a.poolBase a.poolQuote a.poolLiq = .ok l2 ∧ l2 < 2 ^ 128 := by
    unfold CreatesPool at hcp
    by_cases hcomp : Compounds w.cfg
    · rw [if_pos hcomp] at hcp
      rw [(handler_eq ho).1 hcomp] at hi ⊢
      obtain ⟨hn, q1, q2, q3⟩ := hcp
      simp only [initialPoolInformation, bind_ok, Prod.exists, safeSub_ok, ok_inj, Prod.mk.injEq] at hi
      obtain ⟨s, l, hsl, _, ⟨hle, d1⟩, d0, d2, d3⟩ := hi
      subst d0 d2 d3
      obtain ⟨-, hs0, -, -⟩ := compoundingInitial_ok hsl
      unfold compoundingNeeds at hn
      rw [ceilDiv_eq (by omega), ceilDiv_eq (by positivity), Prod.mk.injEq] at hn
      obtain ⟨n1, n2⟩ := hn
      obtain ⟨g1, g2⟩ := compounding_fits hsl
      have k : t1 + DEAD_LIQUIDITY ≤ l := by omega
      obtain ⟨l2, hl2⟩ := second_total hsl hexb hexq k (Nat.le_add_left _ _) w.cfg.migrationSqrtPrice
      refine ⟨by rw [n1]; exact (divCeil_mono hs0 k).trans g1,
        by rw [n2]; exact (divCeil_mono (by positivity) (Nat.mul_le_mul_right _ k)).trans g2, l2, ?_, ?_⟩
      · rw [q1, q2, q3, n1, n2]; exact hl2
      · simp only [liquidityDelta, bind_ok, ok_inj] at hl2
        obtain ⟨x, hx, y, hy, rfl⟩ := hl2
        have := (mulDivU128_down.1 hx).2.2.2
        exact lt_pow_of ((Nat.min_le_left _ _).trans this)
    · rw [if_neg hcomp] at hcp
      have hh := (handler_eq ho).2 hcomp
      rw [hh] at hi ⊢
      simp only [initialPoolInformation, bind_ok, ok_inj, Prod.mk.injEq] at hi
      obtain ⟨l, hcl, rfl, rfl, rfl⟩ := hi
      obtain ⟨b1, b2, b3, b4, b5⟩ := concentratedLiquidity_ok hcl
      unfold concentratedNeeds at hcp
      rw [ceilDiv_eq (Nat.mul_ne_zero (by omega) (by omega)), ceilDiv_eq (by positivity), Prod.mk.injEq] at hcp
      obtain ⟨n1, n2⟩ := hcp
      have k : t1 + 0 ≤ l := by omega
      refine ⟨?_, ?_, ?_⟩
      · rw [n1]
        refine divCeil_le_of ((Nat.mul_le_mul_right _ k).trans ?_)
        rw [← Nat.mul_assoc]; exact b4
      · rw [n2]
        exact divCeil_le_of ((Nat.mul_le_mul_right _ k).trans b5)
      · obtain ⟨lq, hlq, -⟩ := hm.concentrated (by rw [ho]; exact hh)
        obtain ⟨l2, hl2⟩ := concentratedLiquidity_total (b := m.exBase - a.base1) (q' := m.exQuote - a.quote1) hlq
          (by omega) hm.price (by omega)
        refine ⟨l2, hl2, ?_⟩
        exact lt_pow_of (concentratedLiquidity_ok hl2).2.2.1
  obtain ⟨hb1, hq1, l2, hl2, hl2lt⟩ := hone
  refine ⟨l2, fun hadd => ?_⟩
  have hneeds := needs_le hl2
  -- the second position
  have htake : a.base2 ≤ (dammNeeds (migrationHandler 1 w.cfg.migratedFee.collectFeeMode) price l2 a.poolBase a.poolQuote
        a.poolLiq).1 ∧
      a.quote2 ≤ (dammNeeds (migrationHandler 1 w.cfg.migratedFee.collectFeeMode) price l2 a.poolBase a.poolQuote
        a.poolLiq).2 := by
    unfold AddsLiquidity Fits at hadd
    by_cases hcomp : Compounds w.cfg
    · rw [if_pos hcomp] at hadd
      rw [(handler_eq ho).1 hcomp] at hl2 ⊢
      unfold CreatesPool at hcp
      rw [if_pos hcomp] at hcp
      obtain ⟨-, -, -, q3⟩ := hcp
      simp only [liquidityDelta, bind_ok, ok_inj] at hl2
      have hpl : a.poolLiq ≠ 0 := by
        rw [q3]
        have : dead = DEAD_LIQUIDITY := by
          rw [(handler_eq ho).1 hcomp] at hi
          simp only [initialPoolInformation, bind_ok, Prod.exists, safeSub_ok, ok_inj, Prod.mk.injEq] at hi
          obtain ⟨_, _, _, _, _, _, _, rfl⟩ := hi
          rfl
        rw [this]
        have : 0 < DEAD_LIQUIDITY := by decide
        omega
      unfold proRataNeeds at hadd
      rw [ceilDiv_eq hpl, ceilDiv_eq hpl] at hadd
      exact hadd
    · rw [if_neg hcomp] at hadd
      have hh := (handler_eq ho).2 hcomp
      rw [hh] at hi hl2 ⊢
      have hp := initialPrice hi rfl
      obtain ⟨b1, b2, -⟩ := concentratedLiquidity_ok hl2
      unfold concentratedNeeds at hadd
      rw [ceilDiv_eq (Nat.mul_ne_zero (by omega) (by omega)), ceilDiv_eq (by positivity)] at hadd
      exact hadd
  have htake2 : a.base2 ≤ m.exBase - a.base1 ∧ a.quote2 ≤ m.exQuote - a.quote1 := by
    have he : dammNeeds (migrationHandler 1 w.cfg.migratedFee.collectFeeMode) price l2 a.poolBase a.poolQuote a.poolLiq =
        dammNeeds (migrationHandler 1 w.cfg.migratedFee.collectFeeMode) w.cfg.migrationSqrtPrice l2 a.poolBase a.poolQuote
          a.poolLiq := by
      cases hh : migrationHandler 1 w.cfg.migratedFee.collectFeeMode with
      | concentrated => rw [hh] at hi; rw [initialPrice hi rfl]
      | compounding => rfl
    rw [he] at htake
    exact ⟨htake.1.trans hneeds.1, htake.2.trans hneeds.2⟩
  have hsecond : ∃ rest, secondPosition (migrationHandler 1 w.cfg.migratedFee.collectFeeMode) price a second l2 = .ok rest := by
    unfold secondPosition
    by_cases hpos : 0 < l2
    · rw [if_pos hpos]
      obtain ⟨j, hj, hjs, -⟩ := Props.C22_adjust ht hc (hlt _ le_rfl) hd hsec l2 hl2lt
      obtain ⟨u, hlk⟩ := lock_total hr (i := j) (now := a.now) (by
        rw [adjust_vesting hj]
        rcases hsec with e | e <;> rw [e]
        · exact .inl hpv.1
        · exact .inr hpv.2) (by omega) hnow
      rw [hj, ok_bind]
      simp only [bind_ok, req_ok, ok_inj]
      exact ⟨_, (), htake, u, hlk, rfl⟩
    · rw [if_neg hpos]
      have h0 : l2 = 0 := by omega
      subst h0
      have hz : (dammNeeds (migrationHandler 1 w.cfg.migratedFee.collectFeeMode) price 0 a.poolBase a.poolQuote a.poolLiq) =
          (0, 0) := by
        have dz : ∀ d, divCeil 0 d = 0 := fun d => Nat.le_zero.1 (divCeil_le_of (by omega))
        cases migrationHandler 1 w.cfg.migratedFee.collectFeeMode <;> simp only [dammNeeds, Nat.zero_mul, dz]
      rw [hz] at htake
      simp only [bind_ok, req_ok, ok_inj]
      exact ⟨_, (), by omega, rfl⟩
  obtain ⟨rest, hrest⟩ := hsecond
  obtain ⟨u, hlk⟩ := hlock1
  obtain ⟨burn, hburn, hble⟩ := burn_total hr (f := w.pool.partnerBaseFee + w.pool.protocolBaseFee + w.pool.creatorBaseFee)
    (mf := m.baseFee) (v := w.baseVault - a.base1 - a.base2) (by omega) (by omega)
  obtain ⟨np, hnp⟩ := createPool_total hr ho a.config (t1 + dead) price
  have hstart := hl.start
  simp only [World.migrateV2, bind_ok, req_ok, baseFees_ok, vaultOut_ok, safeSub_ok, safeAdd_ok, Prod.exists, ok_inj]
  exact ⟨_, (), hcfg, (), h2, (), by unfold Pool.complete; omega, (), ho, _, ⟨hfm, rfl⟩, (), hm.mode, m, hma, price, liq, dead,
    hi, pa, cr, hd, first, second, hord, t1, ht1, _, ⟨by omega, rfl⟩, np, hnp, _, ⟨by omega, rfl⟩, _, ⟨by omega, rfl⟩, u.1, u.2, hlk, _,
    ⟨hb1, rfl⟩, _, ⟨hq1, rfl⟩, l2, hl2, rest, hrest, _, ⟨by omega, rfl⟩, _, ⟨by omega, rfl⟩, burn, hburn, _, ⟨hble, rfl⟩, rfl⟩

/-- A DAMM v1 migration succeeds whenever DAMM v1 takes no more than it is offered. -/
theorem migrateV1_succeeds {w : World} (hr : Reachable w) (h2 : w.pool.migrationProgress = 2) (ho : w.cfg.migrationOption = 0)
    (hmd : w.dammMeta ≠ none) :
    ∃ m, w.migAmounts .compounding = .ok m ∧ ∀ a : V1Args, a.config.validate w.cfg.migrationFeeOption = .ok () → a.baseTaken ≤ m.exBase →
      a.quoteTaken ≤ m.exQuote → a.lpMinted ≤ u64Max → ∃ w', w.migrateV1 a = .ok w' := by
  have hs := hr.solvent
  have hl := hr.life
  obtain ⟨m, hma, -, -⟩ := migAmounts_total hr h2 (h := .compounding) (by rw [ho]; rfl)
  obtain ⟨f, rfl, hfv, hfm, -, -, e1, e2, e3, e4, -⟩ := migAmounts_ok hma
  have hb2 := hs.base2 h2
  have hq2 := hs.quote12 (.inr h2)
  have hbm := hs.baseMax
  have hsm := hs.supMax
  refine ⟨m, hma, fun a hcfg hb hq hlp => ?_⟩
  obtain ⟨md, hmd⟩ := Option.ne_none_iff_exists'.1 hmd
  obtain ⟨p, env, ht, hc⟩ := hr.config
  obtain ⟨pa, cr, hd, hsum, -⟩ := Props.C22_distribution ht hc a.lpMinted (lt_of_le_of_lt hlp (by decide))
  obtain ⟨burn, hburn, hble⟩ := burn_total hr (f := w.pool.partnerBaseFee + w.pool.protocolBaseFee + w.pool.creatorBaseFee)
    (mf := m.baseFee) (v := w.baseVault - a.baseTaken) (by omega) (by omega)
  obtain ⟨md', hset⟩ : ∃ md', md.setLiquidity pa cr = .ok md' := by
    unfold DammMeta.setLiquidity
    rw [castTo_eq (by omega), ok_bind, castTo_eq (by omega), ok_bind, castTo_eq (by omega), ok_bind, castTo_eq (by omega), ok_bind]
    exact ⟨_, rfl⟩
  have hstart := hl.start
  unfold World.migrateV1
  rw [hmd]
  simp only [bind_ok, req_ok, baseFees_ok, vaultOut_ok, Prod.exists, ok_inj]
  exact ⟨_, (), hcfg, (), h2, (), by unfold Pool.complete; omega, (), ho, m, hma, (), ⟨hb, hq⟩, _, ⟨by omega, rfl⟩, _,
    ⟨by omega, rfl⟩, _, ⟨hfm, rfl⟩, burn, hburn, _, ⟨hble, rfl⟩, (), hlp, pa, cr, hd, _, hset, rfl⟩

end Dbc

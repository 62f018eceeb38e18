import Verif.Spec.Story
import Verif.Props.Launch
import Verif.Props.ChainGo

/-!
# A launch from beginning to end: C92, and C89 on chain
-/

namespace Props
open Dbc Spec

theorem supported_iff {K : Keys} {key : Nat} {m : MintAcc} : isSupportedQuoteMint K key m = .ok true ↔ QuoteFine K key m := by
  unfold isSupportedQuoteMint QuoteFine
  by_cases h : m.program = 0
  · simp [h]
  · rw [if_neg h]
    by_cases hk : key = K.native2022
    · simp [h, hk]
    · rw [if_neg hk]
      simp only [ok_inj, List.all_eq_true, Bool.or_eq_true, decide_eq_true_eq]
      constructor
      · intro k; exact .inr ⟨hk, k⟩
      · rintro (k | ⟨_, k⟩)
        · exact absurd k h
        · exact k

theorem exec_createConfig {K : Keys} {s s' : Chain} {key q f l now : Nat} {p : ConfigParams} :
    s.exec K (.createConfig key q f l now p) = .ok s' ↔ s.configs key = none ∧ ∃ m c, s.mints q = some m ∧ QuoteFine K q m ∧
      createConfig p (envOf m q f l now) = .ok c ∧ s' = { s with configs := put s.configs key c } := by
  simp only [Chain.exec, Chain.createConfig, bind_ok, req_ok, need_ok, ok_inj]
  constructor
  · rintro ⟨_, h1, m, h2, b, h3, c, h4, rfl⟩
    have hb := (createConfig_ok h4).validated
    unfold ConfigParams.validate at hb
    simp only [bind_ok, req_ok] at hb
    obtain ⟨_, hb, _⟩ := hb
    subst hb
    exact ⟨h1, m, c, h2, supported_iff.1 h3, h4, rfl⟩
  · rintro ⟨h1, m, c, h2, h3, h4, rfl⟩
    exact ⟨(), h1, m, h2, true, supported_iff.2 h3, c, h4, rfl⟩

/-- C89, on chain: whatever happened before, a configuration can be created by anyone exactly if its address is free, the
quote token is there and is of the supported kind, and the parameters follow the rules. -/
theorem C89_on_chain {K : Keys} {s : Chain} {key q f l now : Nat} {p : ConfigParams} (ht : p.Typed)
    (hnow : now + 63072000 < 2 ^ 64) (he : NoExponential p) :
    (∃ s', s.exec K (.createConfig key q f l now p) = .ok s') ↔
      s.configs key = none ∧ ∃ m, s.mints q = some m ∧ QuoteFine K q m ∧ Lawful 0 p (envOf m q f l now) := by
  constructor
  · rintro ⟨s', h⟩
    obtain ⟨h1, m, c, h2, h3, h4, -⟩ := exec_createConfig.1 h
    exact ⟨h1, m, h2, h3, (C89_exact ht hnow he).1 ⟨c, h4⟩⟩
  · rintro ⟨h1, m, h2, h3, h4⟩
    obtain ⟨c, hc⟩ := (C89_exact ht (env := envOf m q f l now) hnow he).2 h4
    exact ⟨_, exec_createConfig.2 ⟨h1, m, c, h2, h3, hc, rfl⟩⟩

theorem run_append {K : Keys} {s s1 s2 : Chain} {l l' : List Instr} (h : ChainRun K s l s1) (h' : ChainRun K s1 l' s2) :
    ChainRun K s (l ++ l') s2 := by
  induction h' with
  | nil => rw [List.append_nil]; exact h
  | snoc _ ht hx ih => rw [← List.append_assoc]; exact .snoc ih ht hx

/-- C92: whatever is going on on chain, a lawful plan can be carried through. Parameters that follow the rules, whose supply
fits 64 bits, are accepted; from the configuration a pool is launched; a buyer who owns a hundred times the threshold, a
millionth and 30300 units more, buys the whole curve in one transaction at the same moment; and the rest, up to the pool being
migrated, are instructions that anybody can send. -/
theorem C92_carried_through {K : Keys} {s : Chain} {key f l now src dst payer n : Nat} {p : ConfigParams} {m : MintAcc}
    {a : InitIx} (h : Arises K s) (hK : ∀ P Q, K.metaPda P = K.metaPda Q → P = Q) (ht : p.Typed)
    (hnow : now + 63072000 < 2 ^ 64) (hkey : s.configs key = none) (hm : s.mints a.quoteMint = some m)
    (hq : QuoteFine K a.quoteMint m) (hl : Lawful 2 p (envOf m a.quoteMint f l now))
    (hs : ∀ P, IsMigrationPrice p P → launchSupply p P < 2 ^ 64)
    (hfresh : Fresh K s a) (hcfg : a.config = key) (hty : a.tokenType = p.tokenType)
    (hclk : p.fees.dyn.filterPeriod ≤ a.clk.time)
    (hpay : payer ≠ K.authority) (hsrc : IsAccount s src a.quoteMint payer) (hn : balance s src = some n)
    (hrich : 100 * p.migrationQuoteThreshold + 100 * p.migrationQuoteThreshold / 1000000 + 30300 ≤ n)
    (hdst : getTok s.tokens dst = none) (hdst' : dst ≠ a.baseVault ∧ dst ≠ a.quoteVault) :
    ∃ rest s' w', (∀ ix ∈ rest, Anyones ix) ∧
      ChainRun K s ([.createConfig key a.quoteMint f l now p, .initPool a, .newAccount dst a.baseMint payer,
        wholeBuy a p.migrationQuoteThreshold src dst payer] ++ rest) s' ∧
      Shows s' a.pool w' ∧ phase w' = some .migrated := by
  -- the configuration
  obtain ⟨c, hc⟩ := C89_enough ht (env := envOf m a.quoteMint f l now) hnow hl
  have ha := createConfig_ok hc
  have x1 : s.exec K (.createConfig key a.quoteMint f l now p) = .ok { s with configs := put s.configs key c } :=
    exec_createConfig.2 ⟨hkey, m, c, hm, hq, hc, rfl⟩
  have t1 : (Instr.createConfig key a.quoteMint f l now p).Typed := ht
  have h1 := h.step t1 x1
  have r1 : ChainRun K s [.createConfig key a.quoteMint f l now p] _ := .snoc (.nil s) t1 x1
  -- the pool
  have hP := price_of ht hc
  have eq : c.quoteMint = a.quoteMint := by rw [ha.eq]; rfl
  have e1 : c.fees = p.fees := by rw [ha.eq]; rfl
  have e4 : c.migrationQuoteThreshold = p.migrationQuoteThreshold := by rw [ha.eq]; rfl
  have hc1 : ({ s with configs := put s.configs key c } : Chain).configs a.config = some c := by
    rw [hcfg]; exact if_pos rfl
  obtain ⟨s2, x2⟩ := (C90_on_chain a h1 ht hc hP hc1 eq.symm hfresh.mint hfresh.poolAt hfresh.pool hfresh.baseAt hfresh.base
    hfresh.quoteAt hfresh.quote hfresh.distinct).2 ⟨hty, hs _ hP⟩
  have h2 := h1.step (ix := .initPool a) trivial x2
  have r2 := ChainRun.snoc (ix := .initPool a) r1 trivial x2
  simp only [Chain.exec, Chain.initPool, bind_ok, req_ok, need_ok, ok_inj] at x2
  obtain ⟨c', y1, _, _, _, _, _, _, _, _, _, _, _, _, w, hw, e2⟩ := x2
  have y1 := (hc1.symm.trans y1 : some c = some c')
  obtain rfl := Option.some.inj y1
  have hsup := (C90_holds ht hc hP hw)
  have hfit := hs _ hP
  obtain ⟨supply, mint, upd, act, b, _, _, _, _, _, _, _, hact, rfl⟩ := initPool_ok hw
  dsimp only at e2 hsup
  -- the buyer's account for the new token
  have g2 : ∀ k, getTok s2.tokens k = if a.quoteVault = k then some ⟨a.quoteMint, K.authority, 0⟩ else
      if a.baseVault = k then some ⟨a.baseMint, K.authority, supply⟩ else getTok s.tokens k := by
    intro k; rw [← e2]; rfl
  have d2 : getTok s2.tokens dst = none := by
    rw [g2, if_neg (Ne.symm hdst'.2), if_neg (Ne.symm hdst'.1)]; exact hdst
  have m2 : ∃ b, s2.mints a.baseMint = some b := by rw [← e2]; exact ⟨_, if_pos rfl⟩
  obtain ⟨bm, m2⟩ := m2
  have x3 : s2.exec K (.newAccount dst a.baseMint payer) =
      .ok { s2 with tokens := (dst, ⟨a.baseMint, payer, 0⟩) :: s2.tokens } := by
    simp only [Chain.exec, Chain.newAccount, bind_ok, req_ok, need_ok, ok_inj]
    refine ⟨(), d2, bm, m2, ?_⟩
    trivial
  have h3 := h2.step (ix := .newAccount dst a.baseMint payer) trivial x3
  have r3 := ChainRun.snoc (ix := .newAccount dst a.baseMint payer) r2 trivial x3
  generalize hs3 : ({ s2 with tokens := (dst, ⟨a.baseMint, payer, 0⟩) :: s2.tokens } : Chain) = s3 at h3 r3
  have g3 : ∀ k, getTok s3.tokens k = if dst = k then some ⟨a.baseMint, payer, 0⟩ else getTok s2.tokens k := by
    intro k; rw [← hs3]; rfl
  obtain ⟨pa, hp3, hpa⟩ : ∃ pa, s3.pools a.pool = some pa ∧ pa = ⟨a.config, a.baseMint, a.baseVault, a.quoteVault,
      Pool.initial a.creator c.sqrtStartPrice a.tokenType act supply, a.donated + c.poolCreationFee, upd, 0, 0, [], [], none,
      none, { donLamports := a.donated }⟩ := by
    rw [← hs3, ← e2]; exact ⟨_, if_pos rfl, rfl⟩
  have hc3 : s3.configs a.config = some c := by rw [← hs3, ← e2]; exact hc1
  obtain ⟨w3, hv3⟩ := view_some h3.inv hp3
  have hw3 := view_shows hv3
  obtain ⟨pa', hp', b1, _, _, b4, _⟩ := hw3.acc
  rw [hp3] at hp'
  obtain rfl := Option.some.inj hp'
  have ec : w3.cfg = c := by
    have : pa.config = a.config := by rw [hpa]
    rw [this, hc3] at b4
    exact (Option.some.inj b4).symm
  have ep : w3.pool = Pool.initial a.creator c.sqrtStartPrice a.tokenType act supply := by rw [b1, hpa]
  obtain ⟨t, ht1, ht2, ht3⟩ := hsrc
  have hsrc1 : getTok s3.tokens src = some t := by
    have n1 : dst ≠ src := fun e => by rw [e, ht1] at hdst; cases hdst
    have n2 : a.quoteVault ≠ src := fun e => by have := hfresh.quote; rw [e, ht1] at this; cases this
    have n3 : a.baseVault ≠ src := fun e => by have := hfresh.base; rw [e, ht1] at this; cases this
    rw [g3, if_neg n1, g2, if_neg n2, if_neg n3]; exact ht1
  have hn3 : balance s3 src = some n := by
    unfold balance at hn ⊢
    rw [hsrc1, ← ht1]; exact hn
  have hu : u64Max = 2 ^ 64 - 1 := rfl
  have hsrc3 : IsAccount s3 src w3.cfg.quoteMint payer := ⟨t, hsrc1, by rw [ec, eq]; exact ht2, ht3⟩
  have room : w3.quoteVault + n ≤ u64Max := holder_room (t := .quote) h3 hp3 hw3 hpay hsrc3 hn3
  have hthr : 0 < p.migrationQuoteThreshold := (validate_ok ha.validated).threshold
  -- the buy
  obtain ⟨s4, w4, x4, hw4, hdone⟩ := C69_completable (K := K) (s := s3) (P := a.pool) (pa := pa) (w := w3)
    (x := ⟨1, 100 * p.migrationQuoteThreshold, 0, .quoteToBase, false, a.clk, soleSwap a.pool⟩) (src := src) (dst := dst)
    (payer := payer) (n := n) (X := n) h3 hK hp3 hw3
    (by unfold Completed; rw [ec, ep, e4]; simp only [Pool.initial]; omega) hpay hsrc3 hn3
    ⟨payer, _, by rw [g3, if_pos rfl], by rw [hpa], rfl⟩ rfl rfl rfl rfl
    (by rw [ec, e4, ep]; simp only [Pool.initial]; omega)
    ⟨by dsimp only; omega, fun _ => by dsimp only; omega⟩ le_rfl
    ⟨⟨act, by rw [ec]; exact hact, by rw [ep]; exact le_rfl⟩, .inr (by rw [ec, e1]; exact hclk),
      fun _ => ⟨rfl, ⟨_, rfl, rfl⟩, fun i hi => by simp [soleSwap] at hi, fun i hi => by simp [soleSwap] at hi⟩⟩
    ⟨by rw [ep]; simp only [Pool.initial]; omega, by rw [ep]; simp only [Pool.initial]; omega⟩
  have ei : swapIx a.pool pa w3.cfg ⟨1, 100 * p.migrationQuoteThreshold, 0, .quoteToBase, false, a.clk, soleSwap a.pool⟩ src dst
      payer = wholeBuy a p.migrationQuoteThreshold src dst payer := by
    unfold swapIx wholeBuy
    rw [hpa, ec, eq]
  rw [ei] at x4
  have h4 := h3.step (ix := wholeBuy a p.migrationQuoteThreshold src dst payer) trivial x4
  have r4 := ChainRun.snoc (ix := wholeBuy a p.migrationQuoteThreshold src dst payer) r3 trivial x4
  obtain ⟨rest, s', w', k1, k2, k3, k4⟩ := C69_never_stuck h4 hK hw4 hdone
  exact ⟨rest, s', w', k1, run_append r4 k2, k3, k4⟩

/-! ### A concrete case -/

/-- A chain with a quote token, of which holder 21 has two quadrillion, and no configuration yet. -/
def richStart : Chain := stepTo (stateAt 4) (.mintTo 60 7 71 1000000000000000)

/-- The launch of a pool of configuration B. -/
def launchB : InitIx := ⟨81, 7, 301, 200301, 200301301, 200301007, 21, 1, ⟨100, 1000000⟩, 5⟩

/-- The conditions of C92 are met by a configuration with a rate limiter and no chosen supply, whose buyer buys inside the
limiter's window; the plan is carried through. C89 on chain likewise. -/
theorem C92_example : Arises Ex.keys richStart ∧
    (∃ s', richStart.exec Ex.keys (.createConfig 81 7 11 12 1000000 Ex.paramsB) = .ok s') ∧
    ∃ rest s' w', (∀ ix ∈ rest, Anyones ix) ∧
      ChainRun Ex.keys richStart ([.createConfig 81 7 11 12 1000000 Ex.paramsB, .initPool launchB, .newAccount 74 301 21,
        wholeBuy launchB 10000000000000 71 74 21] ++ rest) s' ∧ Shows s' 200301 w' ∧ phase w' = some .migrated := by
  have h0 : Arises Ex.keys richStart :=
    (arises_at 4 (by decide +kernel)).step (ix := .mintTo 60 7 71 1000000000000000) trivial (exec_isOk (by decide +kernel))
  have hl : Lawful 0 Ex.paramsB (envOf ⟨0, [], 2000000000000000, some 60⟩ 7 11 12 1000000) :=
    (C89_exact Ex.typedB (by decide) ⟨by decide, by decide⟩).1
      ⟨(createConfig Ex.paramsB (envOf ⟨0, [], 2000000000000000, some 60⟩ 7 11 12 1000000)).toOption.getD
        (Ex.configOf Ex.paramsB), by decide +kernel⟩
  have hm : richStart.mints 7 = some ⟨0, [], 2000000000000000, some 60⟩ := by decide +kernel
  refine ⟨h0, (C89_on_chain Ex.typedB (by decide) ⟨by decide, by decide⟩).2 ⟨by decide +kernel, _, hm, .inl rfl, hl⟩,
    C92_carried_through (a := launchB) (n := 2000000000000000) h0 metaPda_inj Ex.typedB (by decide) (by decide +kernel) hm (.inl rfl)
      (slack_irrelevant 0 2 ⟨by decide, by decide⟩ hl) ?_
      ⟨by decide +kernel, by decide +kernel, by decide +kernel, by decide +kernel, by decide +kernel, by decide +kernel,
        by decide +kernel, by decide +kernel⟩ rfl (by decide +kernel) (by decide +kernel) (by decide) (isAccount_of (by decide +kernel))
      (by decide +kernel) (by decide +kernel) (by decide +kernel) ⟨by decide, by decide⟩⟩
  intro P hP
  have e := (migrationPrice_iff Ex.typedB hl.curve).2 hP
  have e' := (migrationPrice_iff Ex.typedB hl.curve).2 C90_example.2.1.1
  rw [e, ok_inj] at e'
  rw [e', C90_example.2.1.2.2]
  decide

end Props

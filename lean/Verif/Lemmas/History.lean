import Verif.Lemmas.Ops

/-!
# Invariants over histories: induction principles and the curve invariant
-/

namespace Dbc

open Spec

theorem Run.append {w w1 w2 : World} {a b : List Op} (h : Run w a w1) (h' : Run w1 b w2) : Run w (a ++ b) w2 := by
  induction h with
  | nil => exact h'
  | cons s _ ih => exact .cons s (ih h')

theorem Run.single {w w1 : World} {op : Op} (h : w.step op = .ok w1) : Run w [op] w1 := .cons h (.nil _)

theorem Run.append_inv {w w2 : World} {a b : List Op} (h : Run w (a ++ b) w2) : ∃ w1, Run w a w1 ∧ Run w1 b w2 := by
  induction a generalizing w with
  | nil => exact ⟨w, .nil _, h⟩
  | cons op a ih =>
    cases h with
    | cons s r =>
      obtain ⟨w1, r1, r2⟩ := ih r
      exact ⟨w1, .cons s r1, r2⟩

theorem Genesis.reachable {w : World} (h : Genesis w) : Reachable w := ⟨w, [], h, .nil w⟩

theorem Reachable.step {w w' : World} {op : Op} (h : Reachable w) (hs : w.step op = .ok w') : Reachable w' := by
  obtain ⟨w0, ops, h0, hr⟩ := h
  exact ⟨w0, ops ++ [op], h0, hr.append (.single hs)⟩

theorem Reachable.run {w w' : World} {ops : List Op} (h : Reachable w) (hr : Run w ops w') : Reachable w' := by
  induction hr with
  | nil => exact h
  | cons s _ ih => exact ih (h.step s)

/-- A property preserved by every step is preserved by every run. -/
theorem Run.induct {P : World → Prop} (hs : ∀ w op w', P w → w.step op = .ok w' → P w') {w w' : World} {ops : List Op}
    (hr : Run w ops w') (h : P w) : P w' := by
  induction hr with
  | nil => exact h
  | cons s _ ih => exact ih (hs _ _ _ h s)

/-- Induction over reachable worlds. -/
theorem Reachable.induct {P : World → Prop} (h0 : ∀ w, Genesis w → P w)
    (hs : ∀ w op w', Reachable w → P w → w.step op = .ok w' → P w') {w : World} (h : Reachable w) : P w := by
  obtain ⟨w0, ops, hg, hr⟩ := h
  have key : Reachable w ∧ P w :=
    Run.induct (P := fun w => Reachable w ∧ P w) (fun w op w' hp s => ⟨hp.1.step s, hs w op w' hp.1 hp.2 s⟩) hr
      ⟨hg.reachable, h0 _ hg⟩
  exact key.2

/-- A relation between the two ends of a run, from one between the two ends of a step. -/
theorem Run.rel {R : World → World → Prop} (refl : ∀ w, R w w) (trans : ∀ a b c, R a b → R b c → R a c)
    (hs : ∀ w op w', w.step op = .ok w' → R w w') {w w' : World} {ops : List Op} (hr : Run w ops w') : R w w' := by
  induction hr with
  | nil => exact refl _
  | cons s _ ih => exact trans _ _ _ (hs _ _ _ s) ih

/-- The same along reachable worlds. -/
theorem Run.relReach {R : World → World → Prop} (refl : ∀ w, R w w) (trans : ∀ a b c, R a b → R b c → R a c)
    (hs : ∀ w op w', Reachable w → w.step op = .ok w' → R w w') {w w' : World} {ops : List Op} (h : Reachable w)
    (hr : Run w ops w') : R w w' := by
  induction hr with
  | nil => exact refl _
  | cons s _ ih => exact trans _ _ _ (hs _ _ _ h s) (ih (h.step s))

/-- How many instructions of a history satisfy `f`. -/
def countOps (f : Op → Bool) (ops : List Op) : Nat := ops.countP f

/-- An instruction guarded by a flag that it raises and nothing lowers succeeds at most once. -/
theorem count_le_one {f : Op → Bool} {flag : World → Prop}
    (once : ∀ w op w', w.step op = .ok w' → f op = true → ¬ flag w ∧ flag w')
    (mono : ∀ w op w', w.step op = .ok w' → flag w → flag w') {w w' : World} {ops : List Op} (hr : Run w ops w') :
    countOps f ops ≤ 1 ∧ (flag w → countOps f ops = 0) := by
  induction hr with
  | nil => simp [countOps]
  | cons s r ih =>
    rename_i a b c op ops
    unfold countOps at *
    rw [List.countP_cons]
    by_cases hf : f op = true
    · obtain ⟨h1, h2⟩ := once _ _ _ s hf
      have := ih.2 h2
      rw [hf, this]
      exact ⟨by simp, fun h => absurd h h1⟩
    · have : f op = false := by simpa using hf
      simp only [this, Bool.false_eq_true, if_false, Nat.add_zero]
      exact ⟨ih.1, fun h => ih.2 (mono _ _ _ s h)⟩

/-! ### Creation -/

theorem initPool_ok {c : PoolConfig} {a : InitArgs} {w : World} (h : initPool c a = .ok w) :
    ∃ supply mint upd act b, c.lockedBpsAt SECONDS_PER_DAY = .ok b ∧ MIN_LOCKED_LIQUIDITY_BPS ≤ b ∧
      validateMinBaseFee c.fees.base = .ok () ∧
      c.initialBaseSupply = .ok supply ∧ c.tokenType = a.tokenType ∧
      mintAuthority c.tokenUpdateAuthority a.creator c.feeClaimer = some mint ∧
      updateAuthority c.tokenUpdateAuthority a.creator c.feeClaimer = some upd ∧
      currentPoint c.activationType a.clk = .ok act ∧
      w = { key := a.key, cfg := c, pool := Pool.initial a.creator c.sqrtStartPrice a.tokenType act supply,
            baseVault := supply, quoteVault := 0, lamports := a.donated + c.poolCreationFee, supply := supply,
            mintAuth := mint, updateAuth := upd, dammMeta := none, lpVault := 0, lpMinted := 0, lpLog := [],
            positions := [], newPool := none, escrow := none, operators := a.operators, admins := a.admins,
            led := { donLamports := a.donated } } := by
  simp only [initPool, bind_ok, req_ok] at h
  obtain ⟨b, h1, _, h2, _, h3, supply, h4, _, h5, h⟩ := h
  split at h
  · rename_i mint upd hm hu
    simp only [bind_ok, ok_inj] at h
    obtain ⟨act, h6, rfl⟩ := h
    exact ⟨supply, mint, upd, act, b, h1, h2, h3, h4, h5, hm, hu, h6, rfl⟩
  · cases h

/-! ### The swap, on a well-formed world -/

/-- The curve invariant. -/
structure Core (w : World) (ps : List Point) : Prop where
  good : Good w.cfg ps
  lo : w.cfg.sqrtStartPrice ≤ w.pool.sqrtPrice
  hi : w.pool.sqrtPrice ≤ w.cfg.migrationSqrtPrice
  quote : quoteToUp (segs w.cfg.sqrtStartPrice ps) w.pool.sqrtPrice ≤ w.pool.quoteReserve
  base : ∃ s, w.cfg.initialBaseSupply = .ok s ∧
    s ≤ w.pool.baseReserve + baseToDown (segs w.cfg.sqrtStartPrice ps) w.pool.sqrtPrice

theorem Core.result {w w' : World} {ps : List Point} (h : Core w ps) {a : SwapArgs} {cur : Nat} {fm : FeeMode}
    {r : SwapResult} {v1 v2 : VolTracker} (s : SwapStep w a w' cur fm r v1 v2) :
    Result w.cfg ps w.pool.sqrtPrice fm a.dir r :=
  processSwap_ok (p := { w.pool with vol := v1 }) h.good.curve h.lo h.hi s.proc

theorem SwapStep.cfg {w w' : World} {a : SwapArgs} {cur : Nat} {fm : FeeMode}
    {r : SwapResult} {v1 v2 : VolTracker} (s : SwapStep w a w' cur fm r v1 v2) : w'.cfg = w.cfg := by
  rw [s.frame]

theorem Core.swap {w w' : World} {ps : List Point} (h : Core w ps) {a : SwapArgs} {cur : Nat} {fm : FeeMode}
    {r : SwapResult} {v1 v2 : VolTracker} (s : SwapStep w a w' cur fm r v1 v2) : Core w' ps := by
  have hr := h.result s
  have hp := h.good.curve.proper
  have e := s.cfg
  obtain ⟨sup, hs, hb⟩ := h.base
  have hq := h.quote
  have hlo := h.lo
  have hhi := h.hi
  cases hd : a.dir with
  | quoteToBase =>
    obtain ⟨tr, hm⟩ := hr.buy hd
    obtain ⟨e1, e2⟩ := s.buyRes hd
    have t1 := tr.quoteUp hp
    have t2 := tr.baseDown hp
    have t3 := tr.le
    constructor
    · rw [e]; exact h.good
    · rw [e, s.price]; omega
    · rw [e, s.price]; exact hm
    · rw [e, s.price, e1]; omega
    · rw [e, s.price]; exact ⟨sup, hs, by omega⟩
  | baseToQuote =>
    have tr := hr.sell hd
    obtain ⟨e1, e2⟩ := s.sellRes hd
    have t1 := tr.quoteUp hp
    have t2 := tr.baseDown hp
    have t3 := tr.le
    have t4 := tr.ge hp hlo
    constructor
    · rw [e]; exact h.good
    · rw [e, s.price]; exact t4
    · rw [e, s.price]; omega
    · rw [e, s.price]; omega
    · rw [e, s.price]; exact ⟨sup, hs, by omega⟩

theorem Core.step {w w' : World} {ps : List Point} {op : Op} (h : Core w ps) (hs : w.step op = .ok w') : Core w' ps := by
  rcases step_cases hs with ⟨a, rfl, hs⟩ | ⟨e1, e2, e3, e4, e5, -⟩
  · obtain ⟨cur, fm, r, v1, v2, s⟩ := swap_ok hs
    exact h.swap s
  · exact ⟨by rw [e1]; exact h.good, by rw [e1, e3]; exact h.lo, by rw [e1, e3]; exact h.hi,
      by rw [e1, e3, e5]; exact h.quote, by rw [e1, e3, e4]; exact h.base⟩

theorem Genesis.core {w : World} (h : Genesis w) : ∃ ps, Core w ps := by
  obtain ⟨p, env, a, c, ht, hc, hi⟩ := h
  obtain ⟨supply, mint, upd, act, b, h1, h2, h3, h4, h5, h6, h7, h8, rfl⟩ := initPool_ok hi
  have hg := createConfig_good ht hc
  refine ⟨p.curve, hg, le_rfl, hg.curve.migLo, ?_, supply, h4, ?_⟩
  · show quoteToUp _ c.sqrtStartPrice ≤ 0
    rw [quoteToUp_start hg.curve.proper (le_refl _)]
  · show supply ≤ supply + _
    omega

theorem Reachable.core {w : World} (h : Reachable w) : ∃ ps, Core w ps :=
  Reachable.induct (P := fun w => ∃ ps, Core w ps) (fun _ => Genesis.core)
    (fun _ _ _ _ ⟨ps, hc⟩ hs => ⟨ps, hc.step hs⟩) h

theorem step_cfg {w w' : World} {op : Op} (hs : w.step op = .ok w') : w'.cfg = w.cfg := by
  rcases step_cases hs with ⟨a, rfl, hs⟩ | ⟨e1, -⟩
  · obtain ⟨cur, fm, r, v1, v2, s⟩ := swap_ok hs
    exact s.cfg
  · exact e1

/-- Every reachable world's configuration was accepted by `create_config`. -/
theorem Reachable.config {w : World} (h : Reachable w) :
    ∃ p env, ConfigParams.Typed p ∧ createConfig p env = .ok w.cfg :=
  Reachable.induct (P := fun w => ∃ p env, ConfigParams.Typed p ∧ createConfig p env = .ok w.cfg)
    (fun w ⟨p, env, a, c, ht, hc, hi⟩ => by
      obtain ⟨_, _, _, _, _, _, _, _, _, _, _, _, _, rfl⟩ := initPool_ok hi
      exact ⟨p, env, ht, hc⟩)
    (fun w op w' _ ⟨p, env, ht, hc⟩ hs => ⟨p, env, ht, by rw [step_cfg hs]; exact hc⟩) h

end Dbc

import Verif.Lemmas.Once
import Verif.Lemmas.Config
import Verif.Spec.Lp

/-!
# The LP tokens after a migration to DAMM v1
-/

namespace Dbc
open Spec

def DammMeta.pShare (m : DammMeta) (b : Bool) : Nat := if b then m.partnerLocked else m.partnerLiq
def DammMeta.cShare (m : DammMeta) (b : Bool) : Nat := if b then m.creatorLocked else m.creatorLiq
def DammMeta.pDone (m : DammMeta) (b : Bool) : Nat := if b then m.partnerLockedStatus else m.partnerClaimStatus
def DammMeta.cDone (m : DammMeta) (b : Bool) : Nat := if b then m.creatorLockedStatus else m.creatorClaimStatus

/-- Lock or claim. -/
def DammMeta.hand (m : DammMeta) (b ip ic : Bool) : Res (Nat × DammMeta) := if b then m.lock ip ic else m.claim ip ic

theorem hand_ok {m m' : DammMeta} {b ip ic : Bool} {x : Nat} (h : m.hand b ip ic = .ok (x, m')) :
    (ip = true ∨ ic = true) ∧ x ≠ 0 ∧ (ip = true → m.pDone b ≠ 1) ∧ (ic = true → m.cDone b ≠ 1) ∧
      x = (if ip then m.pShare b else 0) + (if ic then m.cShare b else 0) ∧ m'.partner = m.partner ∧
      (∀ d, m'.pShare d = m.pShare d ∧ m'.cShare d = m.cShare d) ∧
      (∀ d, m'.pDone d = (if d = b ∧ ip = true then 1 else m.pDone d) ∧
        m'.cDone d = (if d = b ∧ ic = true then 1 else m.cDone d)) := by
  cases b <;> cases ip <;> cases ic <;>
    simp only [DammMeta.hand, DammMeta.lock, DammMeta.claim, if_true, if_false, Bool.false_eq_true, bind_ok, req_ok, safeAdd_ok,
      ok_inj, Prod.mk.injEq, reduceCtorEq] at h
  · obtain ⟨_, h1, _, h2, rfl, rfl⟩ := h
    refine ⟨.inr rfl, h2, by simp, fun _ => h1, by simp [DammMeta.cShare], rfl, fun d => ⟨rfl, rfl⟩, fun d => ?_⟩
    cases d <;> simp [DammMeta.pDone, DammMeta.cDone]
  · obtain ⟨_, h1, _, h2, rfl, rfl⟩ := h
    refine ⟨.inl rfl, h2, fun _ => h1, by simp, by simp [DammMeta.pShare], rfl, fun d => ⟨rfl, rfl⟩, fun d => ?_⟩
    cases d <;> simp [DammMeta.pDone, DammMeta.cDone]
  · obtain ⟨_, h1, s, ⟨_, e⟩, _, h2, rfl, rfl⟩ := h
    refine ⟨.inl rfl, h2, fun _ => h1.2, fun _ => h1.1, by simp [DammMeta.pShare, DammMeta.cShare, e], rfl,
      fun d => ⟨rfl, rfl⟩, fun d => ?_⟩
    cases d <;> simp [DammMeta.pDone, DammMeta.cDone]
  · obtain ⟨_, h1, _, h2, rfl, rfl⟩ := h
    refine ⟨.inr rfl, h2, by simp, fun _ => h1, by simp [DammMeta.cShare], rfl, fun d => ⟨rfl, rfl⟩, fun d => ?_⟩
    cases d <;> simp [DammMeta.pDone, DammMeta.cDone]
  · obtain ⟨_, h1, _, h2, rfl, rfl⟩ := h
    refine ⟨.inl rfl, h2, fun _ => h1, by simp, by simp [DammMeta.pShare], rfl, fun d => ⟨rfl, rfl⟩, fun d => ?_⟩
    cases d <;> simp [DammMeta.pDone, DammMeta.cDone]
  · obtain ⟨_, h1, s, ⟨_, e⟩, _, h2, rfl, rfl⟩ := h
    refine ⟨.inl rfl, h2, fun _ => h1.2, fun _ => h1.1, by simp [DammMeta.pShare, DammMeta.cShare, e], rfl,
      fun d => ⟨rfl, rfl⟩, fun d => ?_⟩
    cases d <;> simp [DammMeta.pDone, DammMeta.cDone]

/-- When a hand-out is possible. -/
theorem hand_succeeds {m : DammMeta} {b ip ic : Bool} (hip : ip = true → m.pDone b ≠ 1) (hic : ic = true → m.cDone b ≠ 1)
    (hx : (if ip then m.pShare b else 0) + (if ic then m.cShare b else 0) ≠ 0)
    (hu : m.pShare b + m.cShare b ≤ u64Max) : ∃ m', m.hand b ip ic =
      .ok ((if ip then m.pShare b else 0) + (if ic then m.cShare b else 0), m') := by
  cases b <;> cases ip <;> cases ic <;>
    simp only [DammMeta.hand, DammMeta.lock, DammMeta.claim, if_true, if_false, Bool.false_eq_true, bind_ok, req_ok, safeAdd_ok,
      ok_inj, Prod.mk.injEq, reduceCtorEq, DammMeta.pShare, DammMeta.cShare, DammMeta.pDone, DammMeta.cDone] at *
  all_goals try exact absurd rfl hx
  · exact ⟨_, (), hic trivial, (), by omega, by omega, rfl⟩
  · exact ⟨_, (), hip trivial, (), by omega, by omega, rfl⟩
  · exact ⟨_, (), ⟨hic trivial, hip trivial⟩, _, ⟨hu, rfl⟩, (), hx, rfl, rfl⟩
  · exact ⟨_, (), hic trivial, (), by omega, by omega, rfl⟩
  · exact ⟨_, (), hip trivial, (), by omega, by omega, rfl⟩
  · exact ⟨_, (), ⟨hic trivial, hip trivial⟩, _, ⟨hu, rfl⟩, (), hx, rfl, rfl⟩

/-- Before a migration to DAMM v1. -/
structure LpBefore (w : World) : Prop where
  log : w.lpLog = []
  vault : w.lpVault = 0
  minted : w.lpMinted = 0
  fresh : ∀ m, w.dammMeta = some m → m = ⟨w.cfg.feeClaimer, 0, 0, 0, 0, 0, 0, 0, 0⟩

/-- After it: `partner`, `creator` at migration, shares `s`. -/
structure LpAfter (w : World) (m : DammMeta) (partner creator : Nat) (s : LpShares) : Prop where
  progress : w.pool.migrationProgress = 3
  option : w.cfg.migrationOption = 0
  md : w.dammMeta = some m
  owner : m.partner = partner
  shares : ∀ b, m.pShare b = s.partner b ∧ m.cShare b = s.creator b
  sum : s.partner true + s.partner false + s.creator true + s.creator false = w.lpMinted
  max : w.lpMinted ≤ u64Max
  bits : ∀ b, m.pDone b ≤ 1 ∧ m.cDone b ≤ 1
  given : ∀ o b, given w.lpLog o b = m.pDone b * (if o = partner then s.partner b else 0) +
    m.cDone b * (if o = creator then s.creator b else 0)
  out : handedOut w.lpLog = m.pDone true * s.partner true + m.pDone false * s.partner false +
    m.cDone true * s.creator true + m.cDone false * s.creator false
  vault : w.lpVault + handedOut w.lpLog = w.lpMinted
  who : (w.pool.creator = creator ∧ (creator = partner → ∀ b, m.pDone b = m.cDone b)) ∨
    ∀ b, (s.partner b = 0 ∨ m.pDone b = 1) ∧ (s.creator b = 0 ∨ m.cDone b = 1)

theorem given_cons (e : LpEvent) (l : List LpEvent) (o : Nat) (b : Bool) :
    Spec.given (e :: l) o b = (if e.owner = o ∧ e.lock = b then e.amount else 0) + Spec.given l o b := by
  unfold Spec.given
  rw [List.filter_cons]
  by_cases h : e.owner = o ∧ e.lock = b
  · rw [if_pos (by simpa using h), if_pos h, List.map_cons, List.sum_cons]
  · rw [if_neg (by simpa using h), if_neg h, Nat.zero_add]

theorem handedOut_cons (e : LpEvent) (l : List LpEvent) : handedOut (e :: l) = e.amount + handedOut l := by
  unfold handedOut
  rw [List.map_cons, List.sum_cons]

/-- One hand-out keeps the invariant. -/
theorem LpAfter.hand {w : World} {m m' : DammMeta} {P c o x : Nat} {s : LpShares} {b : Bool} (h : LpAfter w m P c s)
    (hh : m.hand b (decide (o = m.partner)) (decide (o = w.pool.creator)) = .ok (x, m')) (hv : x ≤ w.lpVault) :
    LpAfter { w with dammMeta := some m', lpVault := w.lpVault - x, lpLog := ⟨o, b, x⟩ :: w.lpLog } m' P c s := by
  obtain ⟨h1, h2, h3, h4, h5, h6, h7, h8⟩ := hand_ok hh
  simp only [decide_eq_true_eq] at h1 h3 h4 h5 h8
  have hb := h.bits
  -- the shares are not all handed out: something is paid now
  have hw : w.pool.creator = c ∧ (c = P → ∀ b, m.pDone b = m.cDone b) := by
    rcases h.who with hw | hd
    · exact hw
    · exfalso
      obtain ⟨hdp, hdc⟩ := hd b
      obtain ⟨sp, sc⟩ := h.shares b
      apply h2
      rw [h5, sp, sc]
      by_cases e1 : o = m.partner <;> by_cases e2 : o = w.pool.creator
      · have := h3 e1; have := h4 e2; rw [if_pos e1, if_pos e2]; omega
      · have := h3 e1; rw [if_pos e1, if_neg e2]; omega
      · have := h4 e2; rw [if_neg e1, if_pos e2]; omega
      · exact absurd h1 (by tauto)
  obtain ⟨ec, hself⟩ := hw
  simp only [h.owner, ec] at h1 h3 h4 h5 h6 h8
  obtain ⟨sp, sc⟩ := h.shares b
  rw [sp, sc] at h5
  have hpd : ∀ d, m'.pDone d = (if d = b ∧ o = P then 1 else m.pDone d) := fun d => (h8 d).1
  have hcd : ∀ d, m'.cDone d = (if d = b ∧ o = c then 1 else m.cDone d) := fun d => (h8 d).2
  have hp0 : o = P → m.pDone b = 0 := fun e => by have := h3 e; have := (hb b).1; omega
  have hc0 : o = c → m.cDone b = 0 := fun e => by have := h4 e; have := (hb b).2; omega
  have hsum : m'.pDone true * s.partner true + m'.pDone false * s.partner false +
      m'.cDone true * s.creator true + m'.cDone false * s.creator false =
      x + (m.pDone true * s.partner true + m.pDone false * s.partner false +
      m.cDone true * s.creator true + m.cDone false * s.creator false) := by
    simp only [hpd, hcd, h5]
    cases b <;> by_cases e1 : o = P <;> by_cases e2 : o = c <;>
      simp only [e1, e2, and_true, and_false, if_true, if_false, Bool.true_eq_false, Bool.false_eq_true, false_and] at hp0 hc0 ⊢ <;>
      simp_all <;> omega
  exact {
    progress := h.progress
    option := h.option
    md := rfl
    owner := h6
    shares := fun d => by rw [(h7 d).1, (h7 d).2]; exact h.shares d
    sum := h.sum
    max := h.max
    bits := fun d => by
      rw [hpd, hcd]
      have := hb d
      constructor <;> split <;> omega
    given := fun o' d => by
      dsimp only
      rw [given_cons, h.given, hpd, hcd]
      dsimp only
      by_cases ed : b = d
      · subst ed
        by_cases eo : o = o'
        · subst eo
          rw [if_pos ⟨rfl, rfl⟩, h5]
          by_cases e1 : o = P <;> by_cases e2 : o = c <;> simp only [e1, e2, and_true, and_false, if_true, if_false] at hp0 hc0 ⊢ <;>
            simp_all
        · rw [if_neg (by tauto), Nat.zero_add]
          have key : ∀ q v k : Nat, (if b = b ∧ o = q then 1 else k) * (if o' = q then v else 0) =
              k * (if o' = q then v else 0) := by
            intro q v k
            by_cases e : o = q
            · rw [if_neg (show ¬ o' = q from fun e' => eo (e.trans e'.symm)), Nat.mul_zero, Nat.mul_zero]
            · rw [if_neg (fun e' => e e'.2)]
          rw [key, key]
      · rw [if_neg (by tauto), if_neg (show ¬ (d = b ∧ o = P) from fun e => ed e.1.symm),
          if_neg (show ¬ (d = b ∧ o = c) from fun e => ed e.1.symm), Nat.zero_add]
    out := by
      dsimp only
      rw [handedOut_cons, h.out, hsum]
    vault := by
      dsimp only
      rw [handedOut_cons]
      have := h.vault
      dsimp only
      omega
    who := .inl ⟨ec, fun e d => by
      rw [hpd, hcd]
      subst e
      have := hself rfl d
      rw [this]⟩ }

/-- Nothing but the two hand-outs and a creator transfer matters. -/
theorem LpAfter.congr {w w' : World} {m : DammMeta} {P c : Nat} {s : LpShares} (h : LpAfter w m P c s)
    (e1 : w'.pool.migrationProgress = w.pool.migrationProgress) (e2 : w'.cfg = w.cfg) (e3 : w'.dammMeta = w.dammMeta)
    (e4 : w'.lpLog = w.lpLog) (e5 : w'.lpVault = w.lpVault) (e6 : w'.lpMinted = w.lpMinted)
    (e7 : w'.pool.creator = w.pool.creator) : LpAfter w' m P c s where
  progress := by rw [e1]; exact h.progress
  option := by rw [e2]; exact h.option
  md := by rw [e3]; exact h.md
  owner := h.owner
  shares := h.shares
  sum := by rw [e6]; exact h.sum
  max := by rw [e6]; exact h.max
  bits := h.bits
  given := by rw [e4]; exact h.given
  out := by rw [e4]; exact h.out
  vault := by rw [e4, e5, e6]; exact h.vault
  who := by rw [e7]; exact h.who

theorem LpAfter.step {w w' : World} {m : DammMeta} {P c : Nat} {s : LpShares} {op : Op} (hr : Reachable w)
    (h : LpAfter w m P c s) (hs : w.step op = .ok w') : ∃ m', LpAfter w' m' P c s := by
  have hp := h.progress
  have hopt := h.option
  have hk := hs
  cases_step op hs
  case swap a =>
    obtain ⟨_, fm, r, _, _, st⟩ := swap_ok hk
    have h0 := hr.life.start.2 st.incomplete
    omega
  case createLocker =>
    have := (createLocker_ok hk).1
    omega
  case migrateV1 =>
    obtain ⟨_, _, _, _, _, _, h2, _⟩ := migrateV1_ok hk
    omega
  case migrateV2 =>
    obtain ⟨_, _, _, _, _, _, _, _, _, _, _, _, _, _, _, h2, _⟩ := migrateV2_ok hk
    omega
  case createMeta =>
    have := (createMeta_ok hk).1
    rw [h.md] at this
    cases this
  case lockLp =>
    obtain ⟨_, m1, x, m2, e1, e2, e3, e⟩ := lockLp_ok hk
    rw [e]
    rw [h.md] at e1
    obtain rfl := Option.some.inj e1
    exact ⟨m2, h.hand (b := true) e2 e3⟩
  case claimLp =>
    obtain ⟨_, m1, x, m2, e1, e2, e3, e⟩ := claimLp_ok hk
    rw [e]
    rw [h.md] at e1
    obtain rfl := Option.some.inj e1
    exact ⟨m2, h.hand (b := false) e2 e3⟩
  case transferCreator =>
    obtain ⟨_, _, e, _⟩ := transferCreator_ok hk
    rcases transferAllowed_ok e with h0 | ⟨_, h0⟩
    · omega
    · obtain ⟨m1, e1, a1, a2, a3, a4⟩ := h0 hopt
      rw [h.md] at e1
      obtain rfl := Option.some.inj e1
      have hd : ∀ b, (s.partner b = 0 ∨ m.pDone b = 1) ∧ (s.creator b = 0 ∨ m.cDone b = 1) := by
        intro b
        rw [← (h.shares b).1, ← (h.shares b).2]
        cases b
        · exact ⟨a4, a3⟩
        · exact ⟨a1, a2⟩
      exact ⟨m, { h with who := .inr hd }⟩
  all_goals exact ⟨m, h.congr rfl rfl rfl rfl rfl rfl rfl⟩

/-- Before the migration nothing has been minted or handed out. -/
theorem Reachable.lpBefore {w : World} (hr : Reachable w) : w.pool.migrationProgress ≠ 3 ∨ w.cfg.migrationOption ≠ 0 → LpBefore w :=
  Reachable.induct (P := fun w => w.pool.migrationProgress ≠ 3 ∨ w.cfg.migrationOption ≠ 0 → LpBefore w)
    (fun w ⟨p, env, a, c, ht, hc, hi⟩ _ => by
      obtain ⟨_, _, _, _, _, _, _, _, _, _, _, _, _, rfl⟩ := initPool_ok hi
      exact ⟨rfl, rfl, rfl, fun m h => by cases h⟩)
    (fun w op w' hr ih hs hcond => by
      have hcfg := step_cfg hs
      have hprev : w.pool.migrationProgress ≠ 3 ∨ w.cfg.migrationOption ≠ 0 := by
        rcases hcond with h | h
        · left
          rcases step_progress hr hs with ⟨_, _, h0, _⟩ | ⟨_, h0, _⟩ | ⟨_, h0, _⟩ | ⟨h0, _⟩ <;> omega
        · right; rw [← hcfg]; exact h
      have hb := ih hprev
      have hk := hs
      cases_step op hs
      case swap a =>
        obtain ⟨_, fm, r, _, _, st⟩ := swap_ok hk
        rw [st.frame]
        exact ⟨hb.log, hb.vault, hb.minted, hb.fresh⟩
      case createMeta =>
        obtain ⟨_, _, e⟩ := createMeta_ok hk
        rw [e]
        exact ⟨hb.log, hb.vault, hb.minted, fun m h => (Option.some.inj h).symm⟩
      case migrateV1 =>
        obtain ⟨_, _, _, _, _, _, _, _, h2, _, _, _, _, _, _, _, _, _, _, e⟩ := migrateV1_ok hk
        rw [e] at hcond
        rcases hcond with h | h
        · exact absurd rfl h
        · exact absurd h2 h
      case lockLp =>
        obtain ⟨h3, m1, x, m2, e1, e2, e3, e⟩ := lockLp_ok hk
        have := hb.fresh m1 e1
        subst this
        have := (hand_ok (b := true) e2)
        obtain ⟨_, h, _, _, h5, _⟩ := this
        exact absurd (by rw [h5]; simp [DammMeta.pShare, DammMeta.cShare]) h
      case claimLp =>
        obtain ⟨h3, m1, x, m2, e1, e2, e3, e⟩ := claimLp_ok hk
        have := hb.fresh m1 e1
        subst this
        have := (hand_ok (b := false) e2)
        obtain ⟨_, h, _, _, h5, _⟩ := this
        exact absurd (by rw [h5]; simp [DammMeta.pShare, DammMeta.cShare]) h
      all_goals exact ⟨hb.log, hb.vault, hb.minted, hb.fresh⟩) hr

/-- The migration to DAMM v1 establishes the invariant with the promised shares. -/
theorem lpAfter_migrate {w w' : World} {a : V1Args} (hr : Reachable w) (hs : w.step (.migrateV1 a) = .ok w') :
    w'.lpMinted = a.lpMinted ∧ ∃ m, LpAfter w' m w.cfg.feeClaimer w.pool.creator (lpShares w.cfg a.lpMinted) := by
  obtain ⟨p, env, ht, hc⟩ := hr.config
  have hv := validate_ok (createConfig_ok hc).validated
  have heq := (createConfig_ok hc).eq
  obtain ⟨md, m, md', burn, f, hmd, hp, _, hopt, _, _, _, _, _, _, _, _, hu, ⟨pa, cr, hd, hset, -⟩, rfl⟩ := migrateV1_ok hs
  refine ⟨rfl, md', ?_⟩
  have hb := hr.lpBefore (.inl (by omega))
  have hmd' := hb.fresh md hmd
  subst hmd'
  -- no vesting for DAMM v1
  have hz : w.cfg.partnerVesting.pct = 0 ∧ w.cfg.creatorVesting.pct = 0 := by
    have ho := hv.optionOk
    have hopt' : p.migrationOption = 0 := by rw [heq] at hopt; exact hopt
    rw [validateMigrationOption, if_pos hopt'] at ho
    simp only [bind_ok, req_ok] at ho
    obtain ⟨_, _, _, _, _, _, _, h1, h2⟩ := ho
    rw [heq]
    exact ⟨congrArg LiqVestingParams.pct h1, congrArg LiqVestingParams.pct h2⟩
  simp only [PoolConfig.liquidityDistribution, bind_ok, safeSub_ok, ok_inj, Prod.mk.injEq, hz.1, hz.2, mulDivU128_down] at hd
  obtain ⟨pl, ⟨_, _, rfl, _⟩, pv, ⟨_, _, rfl, _⟩, pu, ⟨_, _, rfl, _⟩, cl, ⟨_, _, rfl, _⟩, cv, ⟨_, _, rfl, _⟩, _, ⟨g1, rfl⟩, _, ⟨g2, rfl⟩, _, ⟨g3, rfl⟩, _,
    ⟨g4, rfl⟩, _, ⟨g5, rfl⟩, rfl, rfl⟩ := hd
  simp only [DammMeta.setLiquidity, bind_ok, castTo_ok, ok_inj] at hset
  obtain ⟨_, ⟨_, rfl⟩, _, ⟨_, rfl⟩, _, ⟨_, rfl⟩, _, ⟨_, rfl⟩, rfl⟩ := hset
  exact {
    progress := rfl
    option := hopt
    md := rfl
    owner := rfl
    shares := fun b => by
      cases b
      · refine ⟨rfl, ?_⟩
        show _ - _ - _ - _ - _ - _ = _ - _ - _ - _
        rw [Nat.mul_zero, Nat.zero_div]
        omega
      · exact ⟨rfl, rfl⟩
    sum := by
      show a.lpMinted * w.cfg.partnerPermLockedPct / 100 + a.lpMinted * w.cfg.partnerLiqPct / 100 +
        a.lpMinted * w.cfg.creatorPermLockedPct / 100 + (a.lpMinted - a.lpMinted * w.cfg.partnerPermLockedPct / 100 -
        a.lpMinted * w.cfg.partnerLiqPct / 100 - a.lpMinted * w.cfg.creatorPermLockedPct / 100) = a.lpMinted
      omega
    max := hu
    bits := fun b => by cases b <;> exact ⟨Nat.zero_le _, Nat.zero_le _⟩
    given := fun o b => by
      show given w.lpLog o b = _
      rw [hb.log]
      cases b <;> simp [given, DammMeta.pDone, DammMeta.cDone]
    out := by
      show handedOut w.lpLog = _
      rw [hb.log]
      simp [handedOut, DammMeta.pDone, DammMeta.cDone]
    vault := by
      show a.lpMinted + handedOut w.lpLog = a.lpMinted
      rw [hb.log]
      rfl
    who := .inl ⟨rfl, fun _ b => by cases b <;> rfl⟩ }

end Dbc

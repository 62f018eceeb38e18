import Verif.Props.Auth
import Verif.Lemmas.Lp

/-!
# The creator role and the LP tokens: C37, C38
-/

namespace Props
open Dbc Spec

/-- The invariant of the LP tokens after any continuation of a migration to DAMM v1. -/
theorem lpAfter_run {w0 w1 w : World} {a : V1Args} {ops : List Op} (hr : Reachable w0)
    (hm : w0.step (.migrateV1 a) = .ok w1) (hrun : Run w1 ops w) :
    w.lpMinted = a.lpMinted ∧ ∃ m, LpAfter w m w0.cfg.feeClaimer w0.pool.creator (lpShares w0.cfg a.lpMinted) := by
  obtain ⟨e, m, h⟩ := lpAfter_migrate hr hm
  have h1 : Reachable w1 := hr.step hm
  have key : Reachable w ∧ w.lpMinted = a.lpMinted ∧
      ∃ m, LpAfter w m w0.cfg.feeClaimer w0.pool.creator (lpShares w0.cfg a.lpMinted) := by
    refine Run.induct (P := fun w => Reachable w ∧ w.lpMinted = a.lpMinted ∧
      ∃ m, LpAfter w m w0.cfg.feeClaimer w0.pool.creator (lpShares w0.cfg a.lpMinted)) ?_ hrun ⟨h1, e, m, h⟩
    rintro w op w' ⟨hr, e, m, h⟩ hs
    obtain ⟨m', h'⟩ := h.step hr hs
    refine ⟨hr.step hs, ?_, m', h'⟩
    rw [← h'.sum, h.sum, e]
  exact key.2

theorem owed_done {w : World} {m : DammMeta} {P c : Nat} {s : LpShares} (h : LpAfter w m P c s) (o : Nat) (b : Bool)
    (hp : o = P → s.partner b = 0 ∨ m.pDone b = 1) (hc : o = c → s.creator b = 0 ∨ m.cDone b = 1) :
    given w.lpLog o b = s.owed P c o b := by
  rw [h.given, LpShares.owed]
  congr 1
  · by_cases e : o = P
    · rw [if_pos e]
      rcases hp e with e | e <;> rw [e] <;> simp
    · rw [if_neg e, Nat.mul_zero]
  · by_cases e : o = c
    · rw [if_pos e]
      rcases hc e with e | e <;> rw [e] <;> simp
    · rw [if_neg e, Nat.mul_zero]

/-- C38: whatever happens after the migration, the LP tokens handed out never exceed those minted (the rest is still held),
and each owner has for each kind received either nothing or exactly their share, partner and creator being those at the
migration (their shares added up if they are the same key); nobody else receives anything. -/
theorem C38_shares {w0 w1 w : World} {a : V1Args} {ops : List Op} (hr : Reachable w0)
    (hm : w0.step (.migrateV1 a) = .ok w1) (hrun : Run w1 ops w) :
    w.lpVault + handedOut w.lpLog = a.lpMinted ∧
    ∀ o b, given w.lpLog o b = 0 ∨
      given w.lpLog o b = (lpShares w0.cfg a.lpMinted).owed w0.cfg.feeClaimer w0.pool.creator o b := by
  obtain ⟨e, m, h⟩ := lpAfter_run hr hm hrun
  refine ⟨by rw [h.vault, e], fun o b => ?_⟩
  generalize lpShares w0.cfg a.lpMinted = s at h
  generalize w0.cfg.feeClaimer = P at h
  generalize w0.pool.creator = c at h
  have hb := h.bits b
  by_cases ho : (o = P → s.partner b = 0 ∨ m.pDone b = 1) ∧ (o = c → s.creator b = 0 ∨ m.cDone b = 1)
  · exact .inr (owed_done h o b ho.1 ho.2)
  · left
    rcases h.who with ⟨_, hself⟩ | hd
    · rw [h.given]
      by_cases e1 : o = P <;> by_cases e2 : o = c
      · have := hself (e2.symm.trans e1) b
        have h0 : m.pDone b = 0 ∧ m.cDone b = 0 := by
          by_contra hne
          exact ho ⟨fun _ => .inr (by omega), fun _ => .inr (by omega)⟩
        rw [h0.1, h0.2]; simp
      · have h0 : m.pDone b = 0 := by
          by_contra hne
          exact ho ⟨fun _ => .inr (by omega), fun e => absurd e e2⟩
        rw [h0, if_neg e2]; simp
      · have h0 : m.cDone b = 0 := by
          by_contra hne
          exact ho ⟨fun e => absurd e e1, fun _ => .inr (by omega)⟩
        rw [h0, if_neg e1]; simp
      · rw [if_neg e1, if_neg e2]; simp
    · exact absurd ⟨fun _ => (hd b).1, fun _ => (hd b).2⟩ ho

/-- The operation that hands out a kind of share. -/
def handOp (o : Nat) (lock : Bool) : Op := if lock then .lockLp o else .claimLp o

/-- C38: as long as an owner has not received a non-zero share, the call that hands it out succeeds, and pays exactly the
share. Anybody can make it. -/
theorem C38_available {w0 w1 w : World} {a : V1Args} {ops : List Op} (hr : Reachable w0)
    (hm : w0.step (.migrateV1 a) = .ok w1) (hrun : Run w1 ops w) (o : Nat) (b : Bool)
    (hne : given w.lpLog o b ≠ (lpShares w0.cfg a.lpMinted).owed w0.cfg.feeClaimer w0.pool.creator o b) :
    ∃ w', w.step (handOp o b) = .ok w' ∧
      given w'.lpLog o b = (lpShares w0.cfg a.lpMinted).owed w0.cfg.feeClaimer w0.pool.creator o b := by
  have hz := ((C38_shares hr hm hrun).2 o b).resolve_right hne
  obtain ⟨e, m, h⟩ := lpAfter_run hr hm hrun
  generalize lpShares w0.cfg a.lpMinted = s at *
  generalize w0.cfg.feeClaimer = P at *
  generalize w0.pool.creator = c at *
  obtain ⟨hc, hself⟩ := h.who.resolve_right fun hd => hne (owed_done h o b (fun _ => (hd b).1) fun _ => (hd b).2)
  have hb := h.bits b
  obtain ⟨sp, sc⟩ := h.shares b
  have hp0 : o = P → m.pDone b ≠ 1 := by
    intro e1 e
    refine hne (owed_done h o b (fun _ => .inr e) fun e2 => .inr ?_)
    rw [← hself (e2.symm.trans e1) b]; exact e
  have hc0 : o = c → m.cDone b ≠ 1 := by
    intro e1 e
    refine hne (owed_done h o b (fun e2 => .inr ?_) fun _ => .inr e)
    rw [hself (e1.symm.trans e2) b]; exact e
  have hx : (if decide (o = m.partner) = true then m.pShare b else 0) +
      (if decide (o = w.pool.creator) = true then m.cShare b else 0) = s.owed P c o b := by
    rw [LpShares.owed, h.owner, hc, sp, sc]
    simp only [decide_eq_true_eq]
  have hle : m.pShare b + m.cShare b ≤ w.lpMinted := by
    have := h.sum
    rw [sp, sc]
    cases b <;> omega
  obtain ⟨m', hh⟩ := hand_succeeds (m := m) (b := b) (ip := decide (o = m.partner)) (ic := decide (o = w.pool.creator))
    (by rw [h.owner, decide_eq_true_eq]; exact hp0) (by rw [hc, decide_eq_true_eq]; exact hc0)
    (by rw [hx]; intro e0; exact hne (hz.trans e0.symm)) (hle.trans h.max)
  rw [hx] at hh
  have hv : s.owed P c o b ≤ w.lpVault := by
    have h1 := h.vault
    have h2 := h.out
    have h3 := h.sum
    have e1 : m.pDone b * s.partner b + (if o = P then s.partner b else 0) ≤ s.partner b := by
      by_cases e : o = P
      · have : m.pDone b = 0 := by have := hp0 e; omega
        rw [if_pos e, this]; omega
      · rw [if_neg e]
        have : m.pDone b = 0 ∨ m.pDone b = 1 := by omega
        rcases this with e | e <;> rw [e] <;> omega
    have e2 : m.cDone b * s.creator b + (if o = c then s.creator b else 0) ≤ s.creator b := by
      by_cases e : o = c
      · have : m.cDone b = 0 := by have := hc0 e; omega
        rw [if_pos e, this]; omega
      · rw [if_neg e]
        have : m.cDone b = 0 ∨ m.cDone b = 1 := by omega
        rcases this with e | e <;> rw [e] <;> omega
    have e3 : ∀ d, m.pDone d * s.partner d ≤ s.partner d ∧ m.cDone d * s.creator d ≤ s.creator d := by
      intro d
      have hd := h.bits d
      exact ⟨by calc _ ≤ 1 * s.partner d := Nat.mul_le_mul_right _ hd.1
                _ = _ := Nat.one_mul _, by calc _ ≤ 1 * s.creator d := Nat.mul_le_mul_right _ hd.2
                _ = _ := Nat.one_mul _⟩
    have e4 := e3 true
    have e5 := e3 false
    rw [LpShares.owed]
    cases b <;> omega
  have key : ∀ b', b' = b → ∃ w', w.step (handOp o b') = .ok w' ∧ given w'.lpLog o b = s.owed P c o b := by
    intro b' eb
    have hl : given (⟨o, b, s.owed P c o b⟩ :: w.lpLog) o b = s.owed P c o b := by
      rw [given_cons, hz, if_pos ⟨rfl, rfl⟩]
      rfl
    cases b'
    · subst eb
      refine ⟨{ w with dammMeta := some m', lpVault := w.lpVault - s.owed P c o false,
                       lpLog := ⟨o, false, s.owed P c o false⟩ :: w.lpLog }, ?_, hl⟩
      show w.claimLp o = _
      have hh' : m.claim (decide (o = m.partner)) (decide (o = w.pool.creator)) = .ok (s.owed P c o false, m') := hh
      simp only [World.claimLp, h.md, bind_ok, req_ok, Prod.exists, vaultOut_ok, ok_inj]
      exact ⟨(), h.progress, _, _, hh', _, ⟨hv, rfl⟩, rfl⟩
    · subst eb
      refine ⟨{ w with dammMeta := some m', lpVault := w.lpVault - s.owed P c o true,
                       lpLog := ⟨o, true, s.owed P c o true⟩ :: w.lpLog }, ?_, hl⟩
      show w.lockLp o = _
      have hh' : m.lock (decide (o = m.partner)) (decide (o = w.pool.creator)) = .ok (s.owed P c o true, m') := hh
      simp only [World.lockLp, h.md, bind_ok, req_ok, Prod.exists, vaultOut_ok, ok_inj]
      exact ⟨(), h.progress, _, _, hh', _, ⟨hv, rfl⟩, rfl⟩
  exact key b rfl

/-- C38: when the partner's and the creator's calls have all been made, exactly the LP tokens minted have been handed
out. -/
theorem C38_exhaustive {w0 w1 w : World} {a : V1Args} {ops : List Op} (hr : Reachable w0)
    (hm : w0.step (.migrateV1 a) = .ok w1) (hrun : Run w1 ops w)
    (hno : ∀ o b w', w.step (handOp o b) ≠ .ok w') :
    handedOut w.lpLog = a.lpMinted ∧ w.lpVault = 0 ∧
    ∀ o b, given w.lpLog o b = (lpShares w0.cfg a.lpMinted).owed w0.cfg.feeClaimer w0.pool.creator o b := by
  have hall : ∀ o b, given w.lpLog o b = (lpShares w0.cfg a.lpMinted).owed w0.cfg.feeClaimer w0.pool.creator o b := by
    intro o b
    by_contra hne
    obtain ⟨w', hs, _⟩ := C38_available hr hm hrun o b hne
    exact hno o b w' hs
  obtain ⟨e, m, h⟩ := lpAfter_run hr hm hrun
  have hd : ∀ b, m.pDone b * (lpShares w0.cfg a.lpMinted).partner b = (lpShares w0.cfg a.lpMinted).partner b ∧
      m.cDone b * (lpShares w0.cfg a.lpMinted).creator b = (lpShares w0.cfg a.lpMinted).creator b := by
    intro b
    have h1 := hall w0.cfg.feeClaimer b
    have h2 := hall w0.pool.creator b
    rw [h.given, LpShares.owed] at h1 h2
    generalize lpShares w0.cfg a.lpMinted = s at *
    obtain ⟨hp, hc⟩ := h.bits b
    have hp' : m.pDone b = 0 ∨ m.pDone b = 1 := by omega
    have hc' : m.cDone b = 0 ∨ m.cDone b = 1 := by omega
    rw [if_pos rfl] at h1
    rw [if_pos (c := w0.pool.creator = w0.pool.creator) rfl] at h2
    by_cases e : w0.pool.creator = w0.cfg.feeClaimer
    · rw [if_pos e] at h2
      rcases hp' with e1 | e1 <;> rcases hc' with e2 | e2 <;> rw [e1, e2] at h2 ⊢ <;> constructor <;> omega
    · rw [if_neg e] at h2
      rw [if_neg (fun e' => e e'.symm)] at h1
      rcases hp' with e1 | e1 <;> rcases hc' with e2 | e2 <;> rw [e1] at h1 ⊢ <;> rw [e2] at h2 ⊢ <;> constructor <;> omega
  have h1 := h.vault
  have h2 := h.out
  have h3 := h.sum
  rw [(hd true).1, (hd true).2, (hd false).1, (hd false).2] at h2
  rw [e] at h1 h3
  exact ⟨by omega, by omega, hall⟩

/-! ### C37 -/

/-- C37: the creator role changes only by the transfer call of the current creator, to the key named there, and only while
the curve is trading or after the migration. -/
theorem C37_change {w w' : World} {op : Op} (hr : Reachable w) (hs : w.step op = .ok w')
    (hne : w'.pool.creator ≠ w.pool.creator) :
    ∃ new, op = .transferCreator w.pool.creator new ∧ w'.pool.creator = new ∧
      (phase w = some .trading ∨ phase w = some .migrated) := by
  have hk := hs
  cases_step op hs
  case swap a =>
    obtain ⟨_, _, _, _, _, s⟩ := swap_ok hk
    exact absurd (by rw [s.poolFrame]) hne
  case transferCreator s n =>
    obtain ⟨e, _, ha, _⟩ := transferCreator_ok hk
    subst e
    refine ⟨_, rfl, rfl, ?_⟩
    rw [phase_eq hr, phase_eq hr]
    rcases transferAllowed_ok ha with h | ⟨h, _⟩
    · exact .inl h
    · exact .inr h
  all_goals exact absurd rfl hne

/-- C37: a transfer after a migration to DAMM v1 succeeds only when every LP share has been handed out, to the partner and
creator of the time of the migration. -/
theorem C37_nothing_pending {w0 w1 w w' : World} {a : V1Args} {ops : List Op} {s n : Nat} (hr : Reachable w0)
    (hm : w0.step (.migrateV1 a) = .ok w1) (hrun : Run w1 ops w) (hs : w.step (.transferCreator s n) = .ok w') :
    handedOut w.lpLog = a.lpMinted ∧ w'.lpLog = w.lpLog ∧
    ∀ o b, given w.lpLog o b = (lpShares w0.cfg a.lpMinted).owed w0.cfg.feeClaimer w0.pool.creator o b := by
  obtain ⟨e, m, h⟩ := lpAfter_run hr hm hrun
  obtain ⟨_, _, ha, rfl⟩ := transferCreator_ok hs
  have hopt := h.option
  have hd : ∀ b, ((lpShares w0.cfg a.lpMinted).partner b = 0 ∨ m.pDone b = 1) ∧
      ((lpShares w0.cfg a.lpMinted).creator b = 0 ∨ m.cDone b = 1) := by
    rcases transferAllowed_ok ha with h0 | ⟨_, h0⟩
    · have := h.progress; omega
    · obtain ⟨m1, e1, a1, a2, a3, a4⟩ := h0 hopt
      rw [h.md] at e1
      obtain rfl := Option.some.inj e1
      intro b
      rw [← (h.shares b).1, ← (h.shares b).2]
      cases b
      · exact ⟨a4, a3⟩
      · exact ⟨a1, a2⟩
  refine ⟨?_, rfl, fun o b => owed_done h o b (fun _ => (hd b).1) fun _ => (hd b).2⟩
  refine h.out.trans (Eq.trans ?_ (h.sum.trans e))
  have hmul : ∀ x d : Nat, x = 0 ∨ d = 1 → d * x = x := by
    rintro x d (e | e) <;> rw [e] <;> simp
  rw [hmul _ _ (hd true).1, hmul _ _ (hd true).2, hmul _ _ (hd false).1, hmul _ _ (hd false).2]

/-! ### Examples -/

/-- Self-partnered: the creator becomes the partner's key before completion. -/
def selfOps : List Op := Ex.trading ++ [.transferCreator 21 11, Ex.buy 1 40000000000000 0 1300 true Ex.txSwap, .createLocker,
  .createMeta]
def selfMig : V1Args := ⟨Ex.dammA, 350859375000001, 8982000000000, 56000000000007⟩

/-- Separate keys: every share handed out, then the role transferred. Same key: a claim, then the transfer is refused while
the locked share is pending, then it succeeds, and both shares of both kinds went to the one owner. -/
theorem C37_C38_example :
    (Reachable Ex.finishedA ∧ Ex.finishedA.lpMinted = 56000000000000 ∧
      given Ex.finishedA.lpLog 11 true = 16800000000000 ∧ given Ex.finishedA.lpLog 21 false = 14000000000000 ∧
      handedOut Ex.finishedA.lpLog = 56000000000000 ∧ Ex.finishedA.pool.creator = 22) ∧
    ∃ w0 w1 w w', Genesis (Ex.worldOf Ex.paramsA) ∧ Run (Ex.worldOf Ex.paramsA) selfOps w0 ∧ w0.pool.creator = w0.cfg.feeClaimer ∧
      w0.step (.migrateV1 selfMig) = .ok w1 ∧ Run w1 [.claimLp 11, .lockLp 11] w ∧
      (∀ w2, w1.step (.transferCreator 11 33) ≠ .ok w2) ∧ w.step (.transferCreator 11 33) = .ok w' ∧
      given w.lpLog 11 true = 30800000000003 ∧ given w.lpLog 11 false = 25200000000004 := by
  refine ⟨⟨Ex.reachFinishedA, by decide +kernel⟩, ?_⟩
  have hrefused : (Ex.after Ex.paramsA (selfOps ++ [.migrateV1 selfMig])).step (.transferCreator 11 33) =
      .error .notPermitToDoThisAction := by decide +kernel
  refine ⟨Ex.after Ex.paramsA selfOps, Ex.after Ex.paramsA (selfOps ++ [.migrateV1 selfMig]),
    Ex.after Ex.paramsA (selfOps ++ [.migrateV1 selfMig, .claimLp 11, .lockLp 11]),
    Ex.after Ex.paramsA (selfOps ++ [.migrateV1 selfMig, .claimLp 11, .lockLp 11, .transferCreator 11 33]), Ex.genesisA,
    Ex.exec_run (by decide +kernel), by decide +kernel, by decide +kernel, Ex.exec_run (by decide +kernel), ?_,
    by decide +kernel, by decide +kernel, by decide +kernel⟩
  intro w2 e
  rw [hrefused] at e
  cases e

end Props

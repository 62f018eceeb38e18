import Verif.Model.Records
import Verif.Props.Layout
import Verif.Props.Lp
import Verif.Props.Auth

/-!
# C102: migration records and operator accounts can be read from their bytes
-/

namespace Spec
open Dbc

/-- A migration metadata account read at its published offsets: the pool, the LP mint and the record. -/
def readMeta (b : List Nat) : Nat × Nat × DammMeta :=
  (numberAt b 8 32, numberAt b 104 32,
   { partner := numberAt b 72 32
     partnerLocked := numberAt b 136 8
     partnerLiq := numberAt b 144 8
     creatorLocked := numberAt b 152 8
     creatorLiq := numberAt b 160 8
     creatorLockedStatus := numberAt b 169 1
     partnerLockedStatus := numberAt b 170 1
     creatorClaimStatus := numberAt b 171 1
     partnerClaimStatus := numberAt b 172 1 })

/-- An operator account read at its published offsets. -/
def readOperator (b : List Nat) : Operator := ⟨numberAt b 8 32, numberAt b 40 16⟩

/-- What a key can still have locked (or claim), read from the bytes of the record, where `creator` holds the creator role: the
partner's amount and the creator's amount, each unless it is flagged as handed out. -/
def pendingShare (b : List Nat) (creator owner : Nat) (lock : Bool) : Nat :=
  let m := (readMeta b).2.2
  (if owner = m.partner ∧ (if lock then m.partnerLockedStatus else m.partnerClaimStatus) ≠ 1
    then (if lock then m.partnerLocked else m.partnerLiq) else 0) +
  (if owner = creator ∧ (if lock then m.creatorLockedStatus else m.creatorClaimStatus) ≠ 1
    then (if lock then m.creatorLocked else m.creatorLiq) else 0)

end Spec

namespace Props
open Dbc Spec

/-- What a migration record holds in any reachable state. -/
structure MetaSound (w : World) (m : DammMeta) : Prop where
  partner : m.partner = w.cfg.feeClaimer
  amounts : m.partnerLocked ≤ u64Max ∧ m.partnerLiq ≤ u64Max ∧ m.creatorLocked ≤ u64Max ∧ m.creatorLiq ≤ u64Max
  bits : m.creatorLockedStatus ≤ 1 ∧ m.partnerLockedStatus ≤ 1 ∧ m.creatorClaimStatus ≤ 1 ∧ m.partnerClaimStatus ≤ 1

theorem MetaSound.hand {w w' : World} {m m' : DammMeta} {b ip ic : Bool} {x : Nat} (h : MetaSound w m)
    (hh : m.hand b ip ic = .ok (x, m')) (hc : w'.cfg = w.cfg) : MetaSound w' m' := by
  obtain ⟨-, -, -, -, -, h6, h7, h8⟩ := hand_ok hh
  have p1 := (h7 true).1
  have p2 := (h7 false).1
  have c1 := (h7 true).2
  have c2 := (h7 false).2
  have q1 := (h8 true).1
  have q2 := (h8 false).1
  have d1 := (h8 true).2
  have d2 := (h8 false).2
  simp only [DammMeta.pShare, DammMeta.cShare, DammMeta.pDone, DammMeta.cDone, if_true, Bool.false_eq_true, if_false] at p1 p2 c1 c2 q1 q2 d1 d2
  refine ⟨by rw [h6, hc]; exact h.partner, by rw [p1, p2, c1, c2]; exact h.amounts, ?_, ?_, ?_, ?_⟩
  · rw [d1]; split
    · exact le_refl _
    · exact h.bits.1
  · rw [q1]; split
    · exact le_refl _
    · exact h.bits.2.1
  · rw [d2]; split
    · exact le_refl _
    · exact h.bits.2.2.1
  · rw [q2]; split
    · exact le_refl _
    · exact h.bits.2.2.2

theorem metaSound {w : World} (hr : Reachable w) : ∀ m, w.dammMeta = some m → MetaSound w m :=
  Reachable.induct (P := fun w => ∀ m, w.dammMeta = some m → MetaSound w m)
    (fun w ⟨p, env, a, c, ht, hc, hi⟩ m hm => by
      obtain ⟨_, _, _, _, _, _, _, _, _, _, _, _, _, rfl⟩ := initPool_ok hi
      cases hm)
    (fun w op w' hr ih hs m hm => by
      have hk := hs
      cases_step op hs
      case swap a =>
        obtain ⟨_, fm, r, _, _, st⟩ := swap_ok hk
        rw [st.frame] at hm ⊢
        exact ⟨(ih m hm).1, (ih m hm).2, (ih m hm).3⟩
      case createMeta =>
        obtain ⟨_, _, e⟩ := createMeta_ok hk
        rw [e] at hm ⊢
        cases hm
        exact ⟨rfl, ⟨Nat.zero_le _, Nat.zero_le _, Nat.zero_le _, Nat.zero_le _⟩,
          ⟨Nat.zero_le _, Nat.zero_le _, Nat.zero_le _, Nat.zero_le _⟩⟩
      case migrateV1 a =>
        obtain ⟨md, _, md', _, _, hmd, _, _, _, _, _, _, _, _, _, _, _, _, ⟨pa, cr, _, hset, -⟩, e⟩ := migrateV1_ok hk
        rw [e] at hm ⊢
        cases hm
        simp only [DammMeta.setLiquidity, bind_ok, castTo_ok, ok_inj] at hset
        obtain ⟨_, ⟨k1, rfl⟩, _, ⟨k2, rfl⟩, _, ⟨k3, rfl⟩, _, ⟨k4, rfl⟩, rfl⟩ := hset
        exact ⟨(ih md hmd).1, ⟨k1, k2, k3, k4⟩, (ih md hmd).3⟩
      case lockLp =>
        obtain ⟨_, m1, x, m2, e1, e2, e3, e⟩ := lockLp_ok hk
        rw [e] at hm ⊢
        cases hm
        exact (ih m1 e1).hand (b := true) e2 rfl
      case claimLp =>
        obtain ⟨_, m1, x, m2, e1, e2, e3, e⟩ := claimLp_ok hk
        rw [e] at hm ⊢
        cases hm
        exact (ih m1 e1).hand (b := false) e2 rfl
      all_goals exact ⟨(ih m hm).1, (ih m hm).2, (ih m hm).3⟩) hr

/-- C102 (migration record). In every reachable state of a pool with a migration record, the account is 280 bytes, and anyone who
reads it at the published offsets sees the pool, the LP mint, the partner, who is the configured fee claimer, the four amounts and
what has been locked and claimed: nothing was cut off. -/
theorem C102_migration_record {w : World} {m : DammMeta} (hr : Reachable w) (hm : w.dammMeta = some m) (disc : Nat)
    {pool lpMint : Nat} (h1 : pool < 2 ^ 256) (h2 : lpMint < 2 ^ 256) (h3 : w.cfg.feeClaimer < 2 ^ 256) :
    (m.bytes disc pool lpMint).length = 280 ∧ (∀ x ∈ m.bytes disc pool lpMint, x < 256) ∧
      readMeta (m.bytes disc pool lpMint) = (pool, lpMint, m) ∧ m.partner = w.cfg.feeClaimer := by
  obtain ⟨e, ⟨a1, a2, a3, a4⟩, b1, b2, b3, b4⟩ := metaSound hr m hm
  have hw : (m.fields disc pool lpMint).map Prod.fst = [8, 32, 32, 32, 32, 8, 8, 8, 8, 1, 1, 1, 1, 1, 107] := rfl
  have u : u64Max < 2 ^ (8 * 8) := by decide
  refine ⟨?_, pack_byte _, ?_, e⟩
  · rw [DammMeta.bytes, pack_length, packWidth_sum, hw]
    decide
  · unfold readMeta DammMeta.bytes
    rw [← List.append_nil (m.fields disc pool lpMint)]
    rw [numberAt_widths hw (i := 1) (n := 32) (v := pool) (off := 8) rfl h1 (by decide),
      numberAt_widths hw (i := 4) (n := 32) (v := lpMint) (off := 104) rfl h2 (by decide),
      numberAt_widths hw (i := 3) (n := 32) (v := m.partner) (off := 72) rfl (by rw [e]; exact h3) (by decide),
      numberAt_widths hw (i := 5) (n := 8) (v := m.partnerLocked) (off := 136) rfl (lt_of_le_of_lt a1 u) (by decide),
      numberAt_widths hw (i := 6) (n := 8) (v := m.partnerLiq) (off := 144) rfl (lt_of_le_of_lt a2 u) (by decide),
      numberAt_widths hw (i := 7) (n := 8) (v := m.creatorLocked) (off := 152) rfl (lt_of_le_of_lt a3 u) (by decide),
      numberAt_widths hw (i := 8) (n := 8) (v := m.creatorLiq) (off := 160) rfl (lt_of_le_of_lt a4 u) (by decide),
      numberAt_widths hw (i := 10) (n := 1) (v := m.creatorLockedStatus) (off := 169) rfl (by omega) (by decide),
      numberAt_widths hw (i := 11) (n := 1) (v := m.partnerLockedStatus) (off := 170) rfl (by omega) (by decide),
      numberAt_widths hw (i := 12) (n := 1) (v := m.creatorClaimStatus) (off := 171) rfl (by omega) (by decide),
      numberAt_widths hw (i := 13) (n := 1) (v := m.partnerClaimStatus) (off := 172) rfl (by omega) (by decide)]

/-- C102 (what is due). At any time after a constant-product migration, the bytes of the record tell what each key, be it partner,
creator, both or neither, can still have locked or claim: what was handed to that key and what the record shows as pending add up
to the key's share; and the call that hands it out succeeds exactly if something is pending, and then hands out exactly that. -/
theorem C102_due {w0 w1 w : World} {a : V1Args} {ops : List Op} {m : DammMeta} (hr : Reachable w0)
    (hm : w0.step (.migrateV1 a) = .ok w1) (hrun : Run w1 ops w) (hw : w.dammMeta = some m) (disc : Nat)
    {pool lpMint : Nat} (h1 : pool < 2 ^ 256) (h2 : lpMint < 2 ^ 256) (h3 : w.cfg.feeClaimer < 2 ^ 256) (o : Nat) (lock : Bool) :
    given w.lpLog o lock + pendingShare (m.bytes disc pool lpMint) w.pool.creator o lock =
      (lpShares w0.cfg a.lpMinted).owed w0.cfg.feeClaimer w0.pool.creator o lock ∧
    ((∃ w', w.step (handOp o lock) = .ok w') ↔ pendingShare (m.bytes disc pool lpMint) w.pool.creator o lock ≠ 0) ∧
    ∀ w', w.step (handOp o lock) = .ok w' →
      w'.lpLog = ⟨o, lock, pendingShare (m.bytes disc pool lpMint) w.pool.creator o lock⟩ :: w.lpLog := by
  have hrw : Reachable w := (hr.step hm).run hrun
  obtain ⟨-, -, hread, -⟩ := C102_migration_record hrw hw disc h1 h2 h3
  have hp : pendingShare (m.bytes disc pool lpMint) w.pool.creator o lock =
      (if o = m.partner ∧ m.pDone lock ≠ 1 then m.pShare lock else 0) +
      (if o = w.pool.creator ∧ m.cDone lock ≠ 1 then m.cShare lock else 0) := by
    unfold pendingShare
    rw [hread]
    rfl
  rw [hp]
  have hsum : given w.lpLog o lock + ((if o = m.partner ∧ m.pDone lock ≠ 1 then m.pShare lock else 0) +
      (if o = w.pool.creator ∧ m.cDone lock ≠ 1 then m.cShare lock else 0)) =
      (lpShares w0.cfg a.lpMinted).owed w0.cfg.feeClaimer w0.pool.creator o lock := by
    obtain ⟨-, m', h⟩ := lpAfter_run hr hm hrun
    obtain rfl : m' = m := Option.some.inj (h.md.symm.trans hw)
    obtain ⟨sp, sc⟩ := h.shares lock
    obtain ⟨bp, bc⟩ := h.bits lock
    rcases h.who with ⟨hc, -⟩ | hd
    · rw [h.given, LpShares.owed, h.owner, hc, sp, sc]
      rcases Nat.le_one_iff_eq_zero_or_eq_one.1 bp with e | e <;> rcases Nat.le_one_iff_eq_zero_or_eq_one.1 bc with e' | e' <;>
        simp [e, e'] <;> omega
    · obtain ⟨dp, dc⟩ := hd lock
      rw [owed_done h o lock (fun _ => dp) (fun _ => dc), sp, sc]
      rcases dp with e | e <;> rcases dc with e' | e' <;> simp [e, e']
  have pays : ∀ w', w.step (handOp o lock) = .ok w' → ∃ x, x ≠ 0 ∧ w'.lpLog = ⟨o, lock, x⟩ :: w.lpLog := by
    intro w' hs
    cases lock
    · obtain ⟨_, m1, x, m2, e1, e2, e3, e⟩ := claimLp_ok (show w.claimLp o = .ok w' from hs)
      exact ⟨x, (hand_ok (b := false) e2).2.1, by rw [e]⟩
    · obtain ⟨_, m1, x, m2, e1, e2, e3, e⟩ := lockLp_ok (show w.lockLp o = .ok w' from hs)
      exact ⟨x, (hand_ok (b := true) e2).2.1, by rw [e]⟩
  have full : ∀ w', w.step (handOp o lock) = .ok w' → ∀ x, x ≠ 0 → w'.lpLog = ⟨o, lock, x⟩ :: w.lpLog →
      x + given w.lpLog o lock = (lpShares w0.cfg a.lpMinted).owed w0.cfg.feeClaimer w0.pool.creator o lock := by
    intro w' hs x hx e
    have h4 := (C38_shares hr hm (hrun.append (Run.single hs))).2 o lock
    rw [e, given_cons, if_pos ⟨rfl, rfl⟩] at h4
    have : (⟨o, lock, x⟩ : LpEvent).amount = x := rfl
    omega
  refine ⟨hsum, ⟨?_, fun hne => ?_⟩, fun w' hs => ?_⟩
  · rintro ⟨w', hs⟩
    obtain ⟨x, hx, e⟩ := pays w' hs
    have := full w' hs x hx e
    omega
  · obtain ⟨w', hs, -⟩ := C38_available hr hm hrun o lock (by omega)
    exact ⟨w', hs⟩
  · obtain ⟨x, hx, e⟩ := pays w' hs
    have := full w' hs x hx e
    rw [e]
    congr 2
    omega

/-- C37, exactly when. After a constant-product migration the creator can hand the role to another key exactly if no share of the
liquidity, be it the partner's or the creator's, can still be locked or claimed. -/
theorem C37_after_migration {w0 w1 w : World} {a : V1Args} {ops : List Op} (hr : Reachable w0)
    (hm : w0.step (.migrateV1 a) = .ok w1) (hrun : Run w1 ops w) (s n : Nat) :
    (∃ w', w.step (.transferCreator s n) = .ok w') ↔
      s = w.pool.creator ∧ n ≠ s ∧ ∀ o lock w', w.step (handOp o lock) ≠ .ok w' := by
  obtain ⟨-, m, h⟩ := lpAfter_run hr hm hrun
  constructor
  · rintro ⟨w', hs⟩
    obtain ⟨e1, e2, ha, -⟩ := transferCreator_ok hs
    refine ⟨e1.symm, e2, fun o lock w2 hh => ?_⟩
    rcases transferAllowed_ok ha with h0 | ⟨-, h0⟩
    · have := h.progress
      omega
    · obtain ⟨m1, hm1, d1, d2, d3, d4⟩ := h0 h.option
      have key : ∀ x m2, m1.hand lock (decide (o = m1.partner)) (decide (o = w.pool.creator)) = .ok (x, m2) → False := by
        intro x m2 hx
        obtain ⟨-, k1, k2, k3, k4, -⟩ := hand_ok hx
        have p0 : (if decide (o = m1.partner) = true then m1.pShare lock else 0) = 0 := by
          split
          · rename_i g
            have := k2 g
            cases lock
            · exact d4.resolve_right this
            · exact d1.resolve_right this
          · rfl
        have c0 : (if decide (o = w.pool.creator) = true then m1.cShare lock else 0) = 0 := by
          split
          · rename_i g
            have := k3 g
            cases lock
            · exact d3.resolve_right this
            · exact d2.resolve_right this
          · rfl
        rw [p0, c0] at k4
        exact k1 k4
      cases lock
      · obtain ⟨_, m3, x, m2, g1, g2, _, _⟩ := claimLp_ok (show w.claimLp o = .ok w2 from hh)
        obtain rfl : m3 = m1 := Option.some.inj (g1.symm.trans hm1)
        exact key x m2 g2
      · obtain ⟨_, m3, x, m2, g1, g2, _, _⟩ := lockLp_ok (show w.lockLp o = .ok w2 from hh)
        obtain rfl : m3 = m1 := Option.some.inj (g1.symm.trans hm1)
        exact key x m2 g2
  · rintro ⟨rfl, e2, hno⟩
    have full : ∀ o b, given w.lpLog o b = (lpShares w0.cfg a.lpMinted).owed w0.cfg.feeClaimer w0.pool.creator o b := by
      intro o b
      by_contra hne
      obtain ⟨w', hs, -⟩ := C38_available hr hm hrun o b hne
      exact hno o b w' hs
    have done : ∀ b, (m.pShare b = 0 ∨ m.pDone b = 1) ∧ (m.cShare b = 0 ∨ m.cDone b = 1) := by
      intro b
      obtain ⟨sp, sc⟩ := h.shares b
      rw [sp, sc]
      rcases h.who with ⟨-, hself⟩ | hd
      · obtain ⟨bp, bc⟩ := h.bits b
        have g1 := full w0.cfg.feeClaimer b
        have g2 := full w0.pool.creator b
        rw [h.given, LpShares.owed, if_pos rfl] at g1
        rw [h.given, LpShares.owed, if_pos (rfl : w0.pool.creator = w0.pool.creator)] at g2
        by_cases e : w0.pool.creator = w0.cfg.feeClaimer
        · have e4 := hself e b
          rw [if_pos e.symm] at g1
          rcases Nat.le_one_iff_eq_zero_or_eq_one.1 bp with e3 | e3
          · rw [← e4, e3, Nat.zero_mul, Nat.zero_mul] at g1
            exact ⟨.inl (by omega), .inl (by omega)⟩
          · exact ⟨.inr e3, .inr (e4 ▸ e3)⟩
        · rw [if_neg (Ne.symm e), Nat.mul_zero] at g1
          rw [if_neg e, Nat.mul_zero] at g2
          refine ⟨?_, ?_⟩
          · rcases Nat.le_one_iff_eq_zero_or_eq_one.1 bp with e3 | e3
            · rw [e3, Nat.zero_mul] at g1
              exact .inl (by omega)
            · exact .inr e3
          · rcases Nat.le_one_iff_eq_zero_or_eq_one.1 bc with e3 | e3
            · rw [e3, Nat.zero_mul] at g2
              exact .inl (by omega)
            · exact .inr e3
      · exact hd b
    have dt := done true
    have df := done false
    refine ⟨{ w with pool := { w.pool with creator := n } }, ?_⟩
    show w.transferCreator _ _ = _
    have ha : w.transferAllowed = .ok () := by
      simp only [World.transferAllowed, h.progress, h.option, h.md, if_true, bind_ok, req_ok]
      exact ⟨(), dt.1, (), dt.2, (), df.2, df.1⟩
    simp only [World.transferCreator, bind_ok, req_ok, ha, ok_inj]
    exact ⟨(), trivial, (), e2, (), trivial, trivial⟩

/-- C37, exactly when, for the rest of a pool's life: while it trades, and after a concentrated-liquidity migration, the creator can
hand the role to any other key; between completion and migration, never. -/
theorem C37_otherwise {w : World} (h : Reachable w) (hn : phase w ≠ some .migrated ∨ w.cfg.migrationOption ≠ 0) (s n : Nat) :
    (∃ w', w.step (.transferCreator s n) = .ok w') ↔
      s = w.pool.creator ∧ n ≠ s ∧ (phase w = some .trading ∨ phase w = some .migrated) := by
  have hp := h.life.prog
  have hc : w.pool.migrationProgress = 0 ∨ w.pool.migrationProgress = 1 ∨ w.pool.migrationProgress = 2 ∨
      w.pool.migrationProgress = 3 := by omega
  constructor
  · rintro ⟨w', hs⟩
    obtain ⟨e1, e2, ha, -⟩ := transferCreator_ok hs
    refine ⟨e1.symm, e2, ?_⟩
    rcases transferAllowed_ok ha with h0 | ⟨h0, -⟩
    · exact .inl (by rw [phase, h0]; rfl)
    · exact .inr (by rw [phase, h0]; rfl)
  · rintro ⟨rfl, e2, hph⟩
    refine ⟨{ w with pool := { w.pool with creator := n } }, ?_⟩
    show w.transferCreator _ _ = _
    have ha : w.transferAllowed = .ok () := by
      rcases hc with e | e | e | e
      · simp only [World.transferAllowed, e]
      · rw [phase, e] at hph
        rcases hph with g | g <;> cases g
      · rw [phase, e] at hph
        rcases hph with g | g <;> cases g
      · have : w.cfg.migrationOption ≠ 0 := hn.resolve_left (fun g => g (by rw [phase, e]; rfl))
        simp only [World.transferAllowed, e, this, if_false]
    simp only [World.transferCreator, bind_ok, req_ok, ha, ok_inj]
    exact ⟨(), trivial, (), e2, (), trivial, trivial⟩

/-- C37, concrete: a role handed over while trading; one refused after completion; and, with partner and creator the same key, one
refused while a share is pending. -/
theorem C37_when_example :
    (Reachable Ex.pendingA ∧ phase Ex.pendingA = some .vestingPending ∧
      ∀ w', Ex.pendingA.step (.transferCreator Ex.pendingA.pool.creator 99) ≠ .ok w') ∧
    (Reachable (Ex.worldOf Ex.paramsA) ∧ phase (Ex.worldOf Ex.paramsA) = some .trading ∧
      ∃ w', (Ex.worldOf Ex.paramsA).step (.transferCreator (Ex.worldOf Ex.paramsA).pool.creator 99) = .ok w') ∧
    ∃ w0 w1 w, Reachable w0 ∧ w0.step (.migrateV1 selfMig) = .ok w1 ∧ Run w1 [.claimLp 11] w ∧
      (∃ w', w.step (handOp 11 true) = .ok w') ∧ ∀ w', w.step (.transferCreator 11 33) ≠ .ok w' := by
  refine ⟨⟨Ex.reachPendingA, by decide +kernel, fun w' e => ?_⟩, ⟨Ex.genesisA.reachable, by decide +kernel, ?_⟩,
    Ex.after Ex.paramsA selfOps, Ex.after Ex.paramsA (selfOps ++ [.migrateV1 selfMig]),
    Ex.after Ex.paramsA (selfOps ++ [.migrateV1 selfMig, .claimLp 11]),
    ⟨Ex.worldOf Ex.paramsA, selfOps, Ex.genesisA, Ex.exec_run (by decide +kernel)⟩, by decide +kernel,
    Ex.exec_run (by decide +kernel), ⟨Ex.after Ex.paramsA (selfOps ++ [.migrateV1 selfMig, .claimLp 11, .lockLp 11]),
      by decide +kernel⟩, fun w' e => ?_⟩
  · rcases ((C37_otherwise Ex.reachPendingA (.inl (by decide +kernel)) _ _).1 ⟨w', e⟩).2.2 with g | g
    · exact absurd g (by decide +kernel)
    · exact absurd g (by decide +kernel)
  · exact (C37_otherwise Ex.genesisA.reachable (.inl (by decide +kernel)) _ _).2
      ⟨rfl, by decide +kernel, .inl (by decide +kernel)⟩
  · have hrefused : (Ex.after Ex.paramsA (selfOps ++ [.migrateV1 selfMig, .claimLp 11])).step (.transferCreator 11 33) =
        .error .notPermitToDoThisAction := by decide +kernel
    rw [hrefused] at e
    cases e

/-- A word with a permission and no undefined bit. -/
def Worded (o : Operator) : Prop := 0 < o.permission ∧ o.permission < 4

theorem worded_run {w0 w : World} {ops : List Op} (hr : Run w0 ops w) (h : ∀ o ∈ w0.operators, Worded o) :
    ∀ o ∈ w.operators, Worded o := by
  induction hr with
  | nil w => exact h
  | cons s r ih =>
    rename_i w w1 w2 op ops
    refine ih (fun o ho => ?_)
    have hk := s
    cases_step op s
    case swap a =>
      obtain ⟨_, _, _, _, _, s⟩ := swap_ok hk
      rw [s.frame] at ho
      exact h o ho
    case createOperator a _ _ =>
      obtain ⟨_, h2, h3, _, e⟩ := createOperator_ok hk
      rw [e] at ho
      rcases List.mem_cons.1 ho with rfl | h4
      · exact ⟨h2, h3⟩
      · exact h o h4
    case closeOperator => exact h o (List.mem_filter.1 ho).1
    all_goals exact h o ho

/-- C102 (operators). If the operator accounts at the start were made by this program, then in every later state an operator
account is 72 bytes and reads back, at the published offsets, the address it names and its permission word; and it grants a
permission exactly if the bit of that permission is set in byte 40, all other bits of the word being zero. -/
theorem C102_operator {w0 w : World} {ops : List Op} {o : Operator} (hr : Run w0 ops w)
    (h0 : ∀ o ∈ w0.operators, 0 < o.permission ∧ o.permission < 4) (ho : o ∈ w.operators) (ha : o.address < 2 ^ 256) (disc : Nat) :
    (o.bytes disc).length = 72 ∧ (∀ x ∈ o.bytes disc, x < 256) ∧ readOperator (o.bytes disc) = o ∧
      (∀ p, grants o.permission p ↔ ((o.bytes disc).getD 40 0).testBit p.bit = true) ∧
      ∀ i, 40 < i → i < 72 → (o.bytes disc).getD i 0 = 0 := by
  obtain ⟨k1, k2⟩ := worded_run hr h0 o ho
  have hw : (o.fields disc).map Prod.fst = [8, 32, 16, 8, 8] := rfl
  have hl : (o.bytes disc).length = 72 := by
    rw [Operator.bytes, pack_length, packWidth_sum, hw]
    decide
  have tail : o.bytes disc = (fieldBytes 8 disc ++ fieldBytes 32 o.address) ++ (o.permission :: List.replicate 31 0) := by
    have : ∀ q, q < 4 → fieldBytes 16 q ++ (fieldBytes 8 0 ++ (fieldBytes 8 0 ++ [])) = q :: List.replicate 31 0 := by decide
    show fieldBytes 8 disc ++ (fieldBytes 32 o.address ++ (fieldBytes 16 o.permission ++ (fieldBytes 8 0 ++ (fieldBytes 8 0 ++ [])))) = _
    rw [this _ k2, List.append_assoc]
  have hpre : (fieldBytes 8 disc ++ fieldBytes 32 o.address).length = 40 := by
    rw [List.length_append, fieldBytes_length, fieldBytes_length]
  have get : ∀ i, (o.bytes disc).getD (40 + i) 0 = (o.permission :: List.replicate 31 0).getD i 0 := by
    intro i
    rw [tail, List.getD_eq_getElem?_getD, List.getD_eq_getElem?_getD, List.getElem?_append_right (by omega), hpre,
      Nat.add_sub_cancel_left]
  refine ⟨hl, pack_byte _, ?_, ?_, ?_⟩
  · unfold readOperator Operator.bytes
    rw [← List.append_nil (o.fields disc)]
    rw [numberAt_widths hw (i := 1) (n := 32) (v := o.address) (off := 8) rfl ha (by decide),
      numberAt_widths hw (i := 2) (n := 16) (v := o.permission) (off := 40) rfl (by omega) (by decide)]
  · intro p
    rw [get 0]
    rfl
  · intro i h1 h2
    obtain ⟨j, rfl⟩ : ∃ j, i = 40 + (j + 1) := ⟨i - 41, by omega⟩
    rw [get (j + 1), List.getD_cons_succ, List.getD_eq_getElem?_getD, List.getElem?_replicate]
    split <;> rfl

/-- C102, concrete: a pool that migrated and whose liquidity was locked and claimed has a record whose entries are read
from its bytes; a key that is both partner and creator and has claimed sees what it can still have locked; and of two operators, one made on the way, byte 40 gives the second only the permission to zap. -/
theorem C102_example :
    (∃ m, Reachable Ex.finishedA ∧ Ex.finishedA.dammMeta = some m ∧ Ex.finishedA.cfg.feeClaimer < 2 ^ 256 ∧
      readMeta (m.bytes 77 5 6) = (5, 6, ⟨11, 16800000000000, 11200000000000, 14000000000000, 14000000000000, 1, 1, 1, 1⟩)) ∧
    (∃ w0 w1 w m, Reachable w0 ∧ w0.step (.migrateV1 selfMig) = .ok w1 ∧ Run w1 [.claimLp 11] w ∧ w.dammMeta = some m ∧
      w.cfg.feeClaimer < 2 ^ 256 ∧ pendingShare (m.bytes 77 5 6) w.pool.creator 11 true = 30800000000003 ∧
      pendingShare (m.bytes 77 5 6) w.pool.creator 11 false = 0 ∧ given w.lpLog 11 false = 25200000000004) ∧
    ∃ o ops, Run (Ex.worldOf Ex.paramsA) ops Ex.finishedA ∧
      (∀ o ∈ (Ex.worldOf Ex.paramsA).operators, 0 < o.permission ∧ o.permission < 4) ∧
      o ∈ Ex.finishedA.operators ∧ o.address < 2 ^ 256 ∧ o ∉ (Ex.worldOf Ex.paramsA).operators ∧
      (o.bytes 77).getD 40 0 = 2 ∧ readOperator (o.bytes 77) = ⟨32, 2⟩ := by
  refine ⟨⟨⟨11, 16800000000000, 11200000000000, 14000000000000, 14000000000000, 1, 1, 1, 1⟩, Ex.reachFinishedA, ?_, ?_, ?_⟩,
    ⟨Ex.after Ex.paramsA selfOps, Ex.after Ex.paramsA (selfOps ++ [.migrateV1 selfMig]),
      Ex.after Ex.paramsA (selfOps ++ [.migrateV1 selfMig, .claimLp 11]),
      (Ex.after Ex.paramsA (selfOps ++ [.migrateV1 selfMig, .claimLp 11])).dammMeta.getD ⟨0, 0, 0, 0, 0, 0, 0, 0, 0⟩,
      ⟨Ex.worldOf Ex.paramsA, selfOps, Ex.genesisA, Ex.exec_run (by decide +kernel)⟩, ?_, Ex.exec_run (by decide +kernel), ?_⟩,
    ⟨32, 2⟩, Ex.churned ++ Ex.finishA, Ex.exec_run (by decide +kernel), ?_⟩ <;> decide +kernel

end Props

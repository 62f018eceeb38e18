import Verif.Props.Life
import Verif.Spec.Auth
import Mathlib.Data.Nat.Bitwise

/-!
# Authorisation: C35, C36, C49
-/

namespace Props
open Dbc Spec

/-! ### C36 -/

theorem and_bit (n k : Nat) : n &&& (1 <<< k) ≠ 0 ↔ n.testBit k = true := by
  rw [Nat.one_shiftLeft, Nat.and_two_pow]
  cases n.testBit k <;> simp

theorem holds_iff {w : World} {s : Nat} {p : Permission} : HasPermission w s p.bit ↔ Holds w s p := by
  unfold HasPermission Holds Operator.allows grants
  simp only [decide_eq_true_eq, and_bit]

/-- C36: an operator creation is accepted exactly for an admin, a non-empty set of defined permissions and an address that
has no operator account yet; the new account carries exactly the given word. -/
theorem C36_create (w : World) (s address word : Nat) :
    ((∃ w', w.step (.createOperator s address word) = .ok w') ↔
      s ∈ w.admins ∧ (∃ p, grants word p) ∧ (∀ k, word.testBit k = true → ∃ p : Permission, p.bit = k) ∧
      ∀ o ∈ w.operators, o.address ≠ address) ∧
    ∀ w', w.step (.createOperator s address word) = .ok w' → w'.operators = ⟨address, word⟩ :: w.operators := by
  have hword : (0 < word ∧ word < 4) ↔ (∃ p, grants word p) ∧ ∀ k, word.testBit k = true → ∃ p : Permission, p.bit = k := by
    constructor
    · rintro ⟨h1, h2⟩
      have hc : word = 1 ∨ word = 2 ∨ word = 3 := by omega
      refine ⟨?_, fun k hk => ?_⟩
      · rcases hc with rfl | rfl | rfl
        · exact ⟨.claimProtocolFee, by decide⟩
        · exact ⟨.zapProtocolFee, by decide⟩
        · exact ⟨.claimProtocolFee, by decide⟩
      · by_cases hk2 : k < 2
        · have : k = 0 ∨ k = 1 := by omega
          rcases this with rfl | rfl
          · exact ⟨.claimProtocolFee, rfl⟩
          · exact ⟨.zapProtocolFee, rfl⟩
        · exfalso
          have h4 : (4 : Nat) ≤ 2 ^ k := by
            calc (4 : Nat) = 2 ^ 2 := by norm_num
              _ ≤ 2 ^ k := Nat.pow_le_pow_right (by decide) (by omega)
          rw [Nat.testBit_lt_two_pow (by omega)] at hk
          cases hk
    · rintro ⟨⟨p, hp⟩, hk⟩
      refine ⟨Nat.pos_of_ne_zero fun h => ?_, ?_⟩
      · subst h; unfold grants at hp; simp at hp
      · by_contra hge
        obtain ⟨i, hi, hb⟩ := Nat.exists_ge_and_testBit_of_ge_two_pow (show 2 ^ 2 ≤ word by omega)
        obtain ⟨q, hq⟩ := hk i hb
        cases q <;> simp [Permission.bit] at hq <;> omega
  refine ⟨⟨?_, ?_⟩, ?_⟩
  · rintro ⟨w', e⟩
    obtain ⟨h1, h2, h3, h4, _⟩ := createOperator_ok e
    obtain ⟨a, b⟩ := hword.1 ⟨h2, h3⟩
    exact ⟨h1, a, b, h4⟩
  · rintro ⟨h1, h2, h3, h4⟩
    obtain ⟨a, b⟩ := hword.2 ⟨h2, h3⟩
    simp only [World.step, World.createOperator, bind_ok, req_ok, ok_inj]
    exact ⟨_, (), h1, (), ⟨a, b⟩, (), h4, rfl⟩
  · intro w' e
    obtain ⟨_, _, _, _, rfl⟩ := createOperator_ok e
    rfl

/-- C36: over any history, whoever holds a permission that was not already held at the start was given it: an admin created
an operator account for exactly that address with a word whose bit for exactly that permission is set. -/
theorem C36_grants {w0 w : World} {ops : List Op} (hr : Run w0 ops w) {who : Nat} {p : Permission} (h : Holds w who p) :
    Holds w0 who p ∨ ∃ admin word, admin ∈ w0.admins ∧ .createOperator admin who word ∈ ops ∧ grants word p := by
  induction hr with
  | nil w => exact .inl h
  | cons s r ih =>
    rename_i w w1 w2 op ops
    have hadm : w1.admins = w.admins := by
      rcases step_cases s with ⟨a, rfl, hs⟩ | h
      · obtain ⟨_, _, _, _, _, s⟩ := swap_ok hs
        rw [s.frame]
      · exact h.2.2.2.2.2.2.2.2.2.2.2.2.2.2.2.2.2.2.2.2.2.2.2.2.2.2.2
    rcases ih h with h1 | ⟨admin, word, ha, hm, hg⟩
    · obtain ⟨o, ho, ea, hg⟩ := h1
      have hops : o ∈ w.operators ∨ ∃ a, op = .createOperator a o.address o.permission ∧ a ∈ w.admins := by
        have hk := s
        cases_step op s
        case swap a =>
          obtain ⟨_, _, _, _, _, s⟩ := swap_ok hk
          rw [s.frame] at ho
          exact .inl ho
        case createOperator a _ _ =>
          obtain ⟨h1, _, _, _, e⟩ := createOperator_ok hk
          rw [e] at ho
          rcases List.mem_cons.1 ho with rfl | h
          · exact .inr ⟨_, rfl, h1⟩
          · exact .inl h
        case closeOperator => exact .inl (List.mem_filter.1 ho).1
        all_goals exact .inl ho
      rcases hops with h | ⟨a, e, hadmin⟩
      · exact .inl ⟨o, h, ea, hg⟩
      · subst e
        subst ea
        exact .inr ⟨a, _, hadmin, List.mem_cons_self, hg⟩
    · rw [hadm] at ha
      exact .inr ⟨admin, word, ha, List.mem_cons_of_mem _ hm, hg⟩

/-- C36: a permission does not stand in for another: with a word that does not grant a permission, its holder cannot use
it. -/
theorem C36_separate {w : World} {s : Nat} :
    (¬ Holds w s .claimProtocolFee → ∀ mb mq w', w.step (.claimProtocolFee s mb mq) ≠ .ok w') ∧
    (¬ Holds w s .claimProtocolFee → ∀ w', w.step (.claimProtocolCreationFee s) ≠ .ok w') ∧
    (¬ Holds w s .zapProtocolFee → ∀ mx b al z w', w.step (.zapProtocolFee s mx b al z) ≠ .ok w') := by
  refine ⟨fun h mb mq w' e => h (holds_iff.1 (claimProtocolFee_ok e).1), fun h w' e => ?_, fun h mx b al z w' e => ?_⟩
  · exact h (holds_iff.1 (claimProtocolCreationFee_ok e).1)
  · exact h (holds_iff.1 (zapProtocolFee_ok e).1)

/-- Operator 31 holds both permissions; operator 32, created by the admin in the history, holds only the second. -/
theorem C36_example : Reachable Ex.finishedA ∧ Holds Ex.finishedA 31 .claimProtocolFee ∧
    Holds Ex.finishedA 32 .zapProtocolFee ∧ ¬ Holds Ex.finishedA 32 .claimProtocolFee ∧
    ¬ Holds Ex.migratedA 32 .zapProtocolFee := by
  refine ⟨Ex.reachFinishedA, ?_, ?_, ?_, ?_⟩ <;> unfold Holds <;> decide +kernel

/-! ### C35 -/

/-- C35, partner: whenever the partner is paid trading fees, surplus, migration fee or creation fee, the call was signed by
the configured fee claimer. -/
theorem C35_partner {w w' : World} {op : Op} (hs : w.step op = .ok w')
    (hp : (∃ t, paidPartner w' t ≠ paidPartner w t) ∨ w'.led.partnerSurplus ≠ w.led.partnerSurplus ∨
      w'.led.partnerMig ≠ w.led.partnerMig ∨ w'.led.lamportsPartner ≠ w.led.lamportsPartner) :
    signer op = some w.cfg.feeClaimer := by
  have hk := hs
  have nope : (∀ t, paidPartner w' t = paidPartner w t) → w'.led.partnerSurplus = w.led.partnerSurplus →
      w'.led.partnerMig = w.led.partnerMig → w'.led.lamportsPartner = w.led.lamportsPartner → False := by
    intro a b c d
    rcases hp with ⟨t, h⟩ | h | h | h
    · exact h (a t)
    · exact h b
    · exact h c
    · exact h d
  clear hp
  cases_step op hs
  case swap a =>
    obtain ⟨_, fm, r, _, _, s⟩ := swap_ok hk
    obtain ⟨a1, a2, a3, a4, a5, a6, a7, a8, a9, a10, a11, a12, er⟩ :=
      recordSwap_other w.led w.cfg r fm a.dir (w.firstMin a)
    have el : w'.led = w.led.recordSwap w.cfg r fm a.dir (w.firstMin a) := by rw [s.frame]
    rw [er] at el
    exact (nope (fun t => by cases t <;> simp only [paidPartner, el]) (by rw [el]) (by rw [el]) (by rw [el])).elim
  case claimPartnerFee => exact congrArg some (claimPartnerFee_ok hk).1.symm
  case partnerWithdrawSurplus => exact congrArg some (partnerWithdrawSurplus_ok hk).1.symm
  case claimPartnerCreationFee => exact congrArg some (claimPartnerCreationFee_ok hk).1.symm
  case withdrawMigrationFee.inl => rename_i h _ _; exact congrArg some h
  all_goals exact (nope (fun t => by cases t <;> rfl) rfl rfl rfl).elim

/-- C35, creator: whenever the creator is paid trading fees, surplus or migration fee, the call was signed by the current
creator. -/
theorem C35_creator {w w' : World} {op : Op} (hs : w.step op = .ok w')
    (hp : (∃ t, paidCreator w' t ≠ paidCreator w t) ∨ w'.led.creatorSurplus ≠ w.led.creatorSurplus ∨
      w'.led.creatorMig ≠ w.led.creatorMig) :
    signer op = some w.pool.creator := by
  have hk := hs
  have nope : (∀ t, paidCreator w' t = paidCreator w t) → w'.led.creatorSurplus = w.led.creatorSurplus →
      w'.led.creatorMig = w.led.creatorMig → False := by
    intro a b c
    rcases hp with ⟨t, h⟩ | h | h
    · exact h (a t)
    · exact h b
    · exact h c
  clear hp
  cases_step op hs
  case swap a =>
    obtain ⟨_, fm, r, _, _, s⟩ := swap_ok hk
    obtain ⟨a1, a2, a3, a4, a5, a6, a7, a8, a9, a10, a11, a12, er⟩ :=
      recordSwap_other w.led w.cfg r fm a.dir (w.firstMin a)
    have el : w'.led = w.led.recordSwap w.cfg r fm a.dir (w.firstMin a) := by rw [s.frame]
    rw [er] at el
    exact (nope (fun t => by cases t <;> simp only [paidCreator, el]) (by rw [el]) (by rw [el])).elim
  case claimCreatorFee => exact congrArg some (claimCreatorFee_ok hk).1.symm
  case creatorWithdrawSurplus => exact congrArg some (creatorWithdrawSurplus_ok hk).1.symm
  case withdrawMigrationFee.inr => rename_i h _ _; exact congrArg some h
  all_goals exact (nope (fun t => by cases t <;> rfl) rfl rfl).elim

/-- C35, protocol: whenever the protocol is paid, the call was signed by a holder of the permission that goes with the
instruction. -/
theorem C35_protocol {w w' : World} {op : Op} (hs : w.step op = .ok w')
    (hp : (∃ t, paidProtocol w' t ≠ paidProtocol w t) ∨ w'.led.lamportsProtocol ≠ w.led.lamportsProtocol) :
    ∃ s, signer op = some s ∧ Holds w s (match op with | .zapProtocolFee .. => .zapProtocolFee | _ => .claimProtocolFee) := by
  have hk := hs
  have nope : (∀ t, paidProtocol w' t = paidProtocol w t) → w'.led.lamportsProtocol = w.led.lamportsProtocol → False := by
    intro a b
    rcases hp with ⟨t, h⟩ | h
    · exact h (a t)
    · exact h b
  clear hp
  cases_step op hs
  case swap a =>
    obtain ⟨_, fm, r, _, _, s⟩ := swap_ok hk
    obtain ⟨a1, a2, a3, a4, a5, a6, a7, a8, a9, a10, a11, a12, er⟩ :=
      recordSwap_other w.led w.cfg r fm a.dir (w.firstMin a)
    have el : w'.led = w.led.recordSwap w.cfg r fm a.dir (w.firstMin a) := by rw [s.frame]
    rw [er] at el
    exact (nope (fun t => by cases t <;> simp only [paidProtocol, el]) (by rw [el])).elim
  case claimProtocolFee => exact ⟨_, rfl, holds_iff.1 (claimProtocolFee_ok hk).1⟩
  case claimProtocolCreationFee => exact ⟨_, rfl, holds_iff.1 (claimProtocolCreationFee_ok hk).1⟩
  case zapProtocolFee.inl => exact ⟨_, rfl, holds_iff.1 (zapProtocolFee_ok hk).1⟩
  case zapProtocolFee.inr => exact ⟨_, rfl, holds_iff.1 (zapProtocolFee_ok hk).1⟩
  all_goals exact (nope (fun t => by cases t <;> rfl) rfl).elim

/-- C35, leftover: whenever leftover base tokens are paid, they go to the configured receiver. -/
theorem C35_leftover {w w' : World} {op : Op} (hs : w.step op = .ok w') (hp : w'.led.leftover ≠ w.led.leftover) :
    op = .withdrawLeftover w.cfg.leftoverReceiver := by
  have hk := hs
  cases_step op hs
  case swap a =>
    obtain ⟨_, fm, r, _, _, s⟩ := swap_ok hk
    obtain ⟨a1, a2, a3, a4, a5, a6, a7, a8, a9, a10, a11, a12, er⟩ :=
      recordSwap_other w.led w.cfg r fm a.dir (w.firstMin a)
    have el : w'.led = w.led.recordSwap w.cfg r fm a.dir (w.firstMin a) := by rw [s.frame]
    rw [er] at el
    exact absurd (by rw [el]) hp
  case withdrawLeftover => rw [← (withdrawLeftover_ok hk).1]
  all_goals exact absurd rfl hp

/-- C35: the fee claimer and the leftover receiver are those of the configuration for ever. -/
theorem C35_fixed {w w' : World} {ops : List Op} (hr : Run w ops w') :
    w'.cfg.feeClaimer = w.cfg.feeClaimer ∧ w'.cfg.leftoverReceiver = w.cfg.leftoverReceiver := by
  have : w'.cfg = w.cfg := by
    refine Run.rel (R := fun w w' => w'.cfg = w.cfg) (fun _ => rfl) (fun _ _ _ a b => b.trans a) ?_ hr
    intro w op w' hs
    exact step_cfg hs
  rw [this]
  exact ⟨rfl, rfl⟩

/-- Each kind of payment occurs in the example history; the creator is paid once as key 21 and once as key 22. -/
theorem C35_example : Reachable Ex.finishedA ∧ 0 < paidPartner Ex.finishedA .quote ∧ 0 < Ex.finishedA.led.partnerMig ∧
    0 < paidCreator Ex.finishedA .quote ∧ 0 < paidProtocol Ex.finishedA .base ∧ 0 < Ex.finishedA.led.leftover ∧
    .claimCreatorFee 21 18446744073709551615 5 ∈ Ex.trading ∧ Ex.finishedA.pool.creator = 22 ∧
    .claimCreatorFee 22 18446744073709551615 18446744073709551615 ∈ Ex.finishA := by
  refine ⟨Ex.reachFinishedA, ?_⟩
  decide +kernel

/-! ### C49 -/

/-- C49: at pool creation the metadata update authority and the mint authority are those the option says; other option
values are never accepted. -/
theorem C49_authorities {w : World} (h : Genesis w) :
    ∃ upd mint, authorities w.cfg.tokenUpdateAuthority = some (upd, mint) ∧
      w.updateAuth = upd.key w.pool.creator w.cfg.feeClaimer ∧ w.mintAuth = mint.key w.pool.creator w.cfg.feeClaimer := by
  obtain ⟨p, env, a, c, _, _, hi⟩ := h
  obtain ⟨supply, mint, upd, act, b, _, _, _, _, _, hm, hu, _, rfl⟩ := initPool_ok hi
  dsimp only [Pool.initial]
  generalize c.tokenUpdateAuthority = o at hm hu
  match o, hm, hu with
  | 0, hm, hu => exact ⟨_, _, rfl, (Option.some.inj hu).symm, (Option.some.inj hm).symm⟩
  | 1, hm, hu => exact ⟨_, _, rfl, (Option.some.inj hu).symm, (Option.some.inj hm).symm⟩
  | 2, hm, hu => exact ⟨_, _, rfl, (Option.some.inj hu).symm, (Option.some.inj hm).symm⟩
  | 3, hm, hu => exact ⟨_, _, rfl, (Option.some.inj hu).symm, (Option.some.inj hm).symm⟩
  | 4, hm, hu => exact ⟨_, _, rfl, (Option.some.inj hu).symm, (Option.some.inj hm).symm⟩
  | _ + 5, hm, hu => exact absurd hm (by unfold mintAuthority; simp)

/-- C49: the two authorities stay as they were at creation; only the holder of the mint authority can mint, and when nobody
holds it nothing is ever minted. -/
theorem C49_mint {w0 w : World} {ops : List Op} (h : Genesis w0) (hr : Run w0 ops w) :
    w.updateAuth = w0.updateAuth ∧ w.mintAuth = w0.mintAuth ∧
    (∀ s x w', w.step (.mintMore s x) = .ok w' → w0.mintAuth = some s) ∧
    (w0.mintAuth = none → (∀ s x w', w.step (.mintMore s x) ≠ .ok w') ∧ w.led.minted = 0 ∧ w.supply ≤ w0.supply) := by
  have hfix : w.updateAuth = w0.updateAuth ∧ w.mintAuth = w0.mintAuth := by
    refine Run.rel (R := fun w w' => w'.updateAuth = w.updateAuth ∧ w'.mintAuth = w.mintAuth) (fun _ => ⟨rfl, rfl⟩)
      (fun _ _ _ a b => ⟨b.1.trans a.1, b.2.trans a.2⟩) ?_ hr
    intro w op w' s
    rcases step_cases s with ⟨a, rfl, hs⟩ | h
    · obtain ⟨_, _, _, _, _, s⟩ := swap_ok hs
      rw [s.frame]
      exact ⟨rfl, rfl⟩
    · obtain ⟨e1, e2, _⟩ := h.2.2.2.2.2.2.2.2.2.2.2.2.2.2.2.2.2.2.2.2.2.2.2.2.2
      exact ⟨e2, e1⟩
  have hmint : ∀ s x w', w.step (.mintMore s x) = .ok w' → w0.mintAuth = some s := by
    intro s x w' e
    rw [← hfix.2]
    exact (mintMore_ok e).1
  refine ⟨hfix.1, hfix.2, hmint, fun h0 => ⟨fun s x w' e => ?_, ?_⟩⟩
  · have := hmint s x w' e
    rw [h0] at this
    cases this
  · have hg : w0.led.minted = 0 := by
      obtain ⟨p, env, a, c, _, _, hi⟩ := h
      obtain ⟨_, _, _, _, _, _, _, _, _, _, _, _, _, rfl⟩ := initPool_ok hi
      rfl
    have hstep : w.led.minted = 0 ∧ w.supply ≤ w0.supply := by
      have key : ∀ {w w' : World} {ops : List Op}, Run w ops w' → w.mintAuth = none →
          w'.led.minted = w.led.minted ∧ w'.supply ≤ w.supply := by
        intro w w' ops hr
        induction hr with
        | nil w => exact fun _ => ⟨rfl, le_refl _⟩
        | cons s r ih =>
          rename_i w w1 w2 op ops
          intro hn
          have hs : w1.mintAuth = w.mintAuth ∧ w1.led.minted = w.led.minted ∧ w1.supply ≤ w.supply := by
            have hk := s
            cases_step op s
            case swap a =>
              obtain ⟨_, fm, r, _, _, s⟩ := swap_ok hk
              obtain ⟨a1, a2, a3, a4, a5, a6, a7, a8, a9, a10, a11, a12, er⟩ :=
                recordSwap_other w.led w.cfg r fm a.dir (w.firstMin a)
              rw [s.frame]
              dsimp only
              rw [er]
              exact ⟨rfl, rfl, le_refl _⟩
            case mintMore =>
              have := (mintMore_ok hk).1
              rw [hn] at this
              cases this
            case migrateV1 => exact ⟨rfl, rfl, Nat.sub_le _ _⟩
            case migrateV2 => exact ⟨rfl, rfl, Nat.sub_le _ _⟩
            case burnOwn => exact ⟨rfl, rfl, Nat.sub_le _ _⟩
            all_goals exact ⟨rfl, rfl, le_refl _⟩
          obtain ⟨i1, i2⟩ := ih (hs.1.trans hn)
          exact ⟨i1.trans hs.2.1, i2.trans hs.2.2⟩
      obtain ⟨a, b⟩ := key hr h0
      exact ⟨a.trans hg, b⟩
    exact hstep

/-- Example A is immutable, example B lets the creator update and mint. -/
theorem C49_example : Genesis (Ex.worldOf Ex.paramsA) ∧ (Ex.worldOf Ex.paramsA).mintAuth = none ∧
    (Ex.worldOf Ex.paramsA).updateAuth = none ∧ Genesis (Ex.worldOf Ex.paramsB) ∧
    (Ex.worldOf Ex.paramsB).mintAuth = some 21 ∧ (Ex.worldOf Ex.paramsB).updateAuth = some 21 ∧
    ∃ w', (Ex.worldOf Ex.paramsB).step (.mintMore 21 5) = .ok w' := by
  refine ⟨Ex.genesisA, ?_, ?_, Ex.genesisB, ?_, ?_, ⟨_, rfl⟩⟩ <;> decide +kernel

end Props

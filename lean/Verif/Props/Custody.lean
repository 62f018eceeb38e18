import Verif.Props.Chain
import Verif.Props.Lp
import Verif.Props.Operators

/-!
# C105: the creator of a pool is whom the role was last handed to
-/

namespace Spec
open Dbc

/-- Who holds the creator role of the pool at `P` after one more instruction: its launch names the first holder, a handover the
next one, nothing else matters. -/
def inherits (P : Nat) (before : Option Nat) : Instr → Option Nat
  | .initPool a => if a.pool = P then some a.creator else before
  | .transferCreator pool _ _ _ new => if pool = P then some new else before
  | _ => before

/-- Who holds the creator role of the pool at `P` according to the launch and the handovers of a history. -/
def heir (ixs : List Instr) (P : Nat) : Option Nat := ixs.foldl (inherits P) none

/-- An instruction for the creator of a pool: the pool, and who signs. The migration fee has a creator's and a partner's part,
told apart by a flag. -/
def creatorCall : Instr → Option (Nat × Nat)
  | .claimCreatorFee a g _ _ => some (a.pool, g)
  | .creatorWithdrawSurplus a g => some (a.pool, g)
  | .withdrawMigrationFee a g flag => if flag = 1 then some (a.pool, g) else none
  | .transferCreator pool _ _ g _ => some (pool, g)
  | _ => none

end Spec

namespace Props
open Dbc Spec

theorem heir_snoc (ixs : List Instr) (ix : Instr) (P : Nat) : heir (ixs ++ [ix]) P = inherits P (heir ixs P) ix := by
  simp [heir]

/-- What one instruction does to the creator role of a pool. -/
theorem creator_step {K : Keys} {s s' : Chain} {ix : Instr} (h : Arises K s) (ht : ix.Typed) (hx : s.exec K ix = .ok s') (P : Nat) :
    (s'.pools P).map (·.state.creator) = inherits P ((s.pools P).map (·.state.creator)) ix := by
  have hinit : ∀ a, ix = .initPool a → s.pools a.pool = none ∧ s'.pools a.pool ≠ none := by
    rintro a rfl
    simp only [Chain.exec, Chain.initPool, bind_ok, req_ok, need_ok, ok_inj] at hx
    obtain ⟨_, _, _, _, _, _, _, _, _, ⟨_, hp⟩, _, _, _, _, _, _, rfl⟩ := hx
    refine ⟨hp, ?_⟩
    dsimp only [put]
    rw [if_pos rfl]
    exact nofun
  cases hp : s.pools P with
  | none =>
    cases hp' : s'.pools P with
    | some pa =>
      obtain ⟨a, w, rfl, e, _, _, hc, sh⟩ := C60_new_pools h ht hx hp hp'
      obtain ⟨pa', e1, e2, _⟩ := sh.acc
      rw [hp'] at e1
      cases e1
      simp only [inherits, if_pos e, Option.map_some, ← e2, hc]
    | none =>
      cases ix <;> try rfl
      case initPool a =>
        have : a.pool ≠ P := fun e => (hinit a rfl).2 (by rw [e]; exact hp')
        simp only [inherits, if_neg this]
      case transferCreator p c m g n =>
        have : p ≠ P := by
          rintro rfl
          obtain ⟨_, w, _, _, _, _, _, sh, _⟩ := C60_addressed h ht hx rfl
          obtain ⟨pa', e1, _⟩ := sh.acc
          rw [hp] at e1
          cases e1
        simp only [inherits, if_neg this]
  | some pa =>
    by_cases ha : addressee ix = some P
    · obtain ⟨op, w, w1, w', gifts, as, hreach, sh, hs, hg, hrun, sh'⟩ := C60_addressed h ht hx ha
      obtain ⟨pa1, e1, e2, _⟩ := sh.acc
      rw [hp] at e1
      cases e1
      obtain ⟨pa2, f1, f2, _⟩ := sh'.acc
      have hpool := (outside_run hrun (fun o ho => Gift.outside (hg o ho))).1
      rw [f1, Option.map_some, Option.map_some, ← f2, ← e2, hpool]
      by_cases hne : w1.pool.creator = w.pool.creator
      · rw [hne]
        cases as <;> try rfl
        case transferCreator p c m g n =>
          cases ha
          obtain ⟨k1, k2, _, k3⟩ := transferCreator_ok hs
          rw [k3] at hne
          exact absurd (hne.trans k1) k2
      · obtain ⟨new, rfl, k, _⟩ := C37_change hreach hs hne
        cases as
        case transferCreator p c m =>
          cases ha
          simp only [inherits, if_pos, k]
    · obtain ⟨pa', e1, e2, _⟩ := C60_others_untouched h ht hx hp ha
      rw [e1, Option.map_some, Option.map_some, e2]
      cases ix <;> try rfl
      case initPool a =>
        have : a.pool ≠ P := fun e => by
          have := (hinit a rfl).1
          rw [e, hp] at this
          cases this
        simp only [inherits, if_neg this]
      case transferCreator p c m g n =>
        have : p ≠ P := fun e => ha (by rw [← e]; rfl)
        simp only [inherits, if_neg this]

/-- C105: at any time the creator recorded in a pool is whom the role was last handed to, or else whoever was named at its launch;
and there is a pool exactly where there was a launch. -/
theorem C105_holder {K : Keys} {admins : List Nat} {ixs : List Instr} {s : Chain}
    (hr : ChainRun K (Chain.empty admins) ixs s) (P : Nat) : (s.pools P).map (·.state.creator) = heir ixs P := by
  generalize hs0 : Chain.empty admins = s00 at hr
  induction hr with
  | nil => subst hs0; rfl
  | @snoc s1 s2 ixs ix hr ht he ih =>
    subst hs0
    rw [heir_snoc, creator_step ⟨_, _, hr⟩ ht he P, ih]

/-- C105, use: whatever accounts are passed, an instruction for a pool's creator is accepted only from whoever holds the role at
that moment. -/
theorem C105_accepted {K : Keys} {admins : List Nat} {ixs : List Instr} {s s' : Chain} {ix : Instr}
    (hr : ChainRun K (Chain.empty admins) ixs s) (ht : ix.Typed) (hx : s.exec K ix = .ok s') {P g : Nat}
    (hc : creatorCall ix = some (P, g)) : heir ixs P = some g := by
  rw [← C105_holder hr P]
  have haddr : addressee ix = some P := by
    cases ix <;> first | (cases hc; done) | skip
    case claimCreatorFee => cases hc; rfl
    case creatorWithdrawSurplus => cases hc; rfl
    case withdrawMigrationFee a g' f =>
      simp only [creatorCall] at hc
      split at hc
      · cases hc; rfl
      · cases hc
    case transferCreator => cases hc; rfl
  obtain ⟨op, w, w1, w', gifts, as, -, sh, hs, -, -, -⟩ := C60_addressed ⟨_, _, hr⟩ ht hx haddr
  obtain ⟨pa, e1, e2, _⟩ := sh.acc
  rw [e1, Option.map_some, ← e2]
  cases as <;> first | (cases hc; done) | skip
  case claimCreatorFee => cases hc; exact congrArg some (claimCreatorFee_ok hs).1
  case creatorWithdrawSurplus => cases hc; exact congrArg some (creatorWithdrawSurplus_ok hs).1
  case withdrawMigrationFee a g' f =>
    simp only [creatorCall] at hc
    split at hc
    · cases hc
      rcases (withdrawMigrationFee_ok hs).2 with ⟨e, _⟩ | ⟨_, e, _⟩
      · omega
      · exact congrArg some e.symm
    · cases hc
  case transferCreator => cases hc; exact congrArg some (transferCreator_ok hs).1

/-- C105, custody: every handover in a history was signed by whoever held the role just before, and gave it to somebody else. -/
theorem C105_custody {K : Keys} {admins : List Nat} {ixs : List Instr} {s : Chain} (hr : ChainRun K (Chain.empty admins) ixs s)
    {before after : List Instr} {P c g n : Nat} {m : Option Nat} (he : ixs = before ++ .transferCreator P c m g n :: after) :
    heir before P = some g ∧ n ≠ g := by
  generalize hs0 : Chain.empty admins = s00 at hr
  induction hr generalizing after with
  | nil => cases before <;> cases he
  | @snoc s1 s2 ixs ix hr ht hx ih =>
    subst hs0
    rcases List.eq_nil_or_concat after with rfl | ⟨after', y, rfl⟩
    · obtain ⟨rfl, e⟩ := List.append_inj' he rfl
      cases e
      refine ⟨C105_accepted hr ht hx rfl, ?_⟩
      obtain ⟨op, w, w1, w', gifts, as, -, sh, hs, -⟩ := C60_addressed ⟨_, _, hr⟩ ht hx rfl
      cases as
      exact (transferCreator_ok hs).2.1
    · rw [List.concat_eq_append, ← List.cons_append, ← List.append_assoc] at he
      exact ih (List.append_inj' he rfl).1

/-- The role of the pool 200300 goes from 21 to 22 and on to 24. -/
def handedOn : List Instr :=
  Ex.setUp ++ Ex.dealing ++ [.transferCreator 200300 80 none 21 22, .transferCreator 200300 80 none 22 24]

theorem handedOn_typed : ∀ ix ∈ handedOn, ix.Typed := by
  intro ix hm
  rcases List.mem_append.1 hm with h | h
  · exact dealt_typed ix h
  · simp only [List.mem_cons, List.not_mem_nil, or_false] at h
    rcases h with h | h <;> subst h <;> exact trivial

/-- The pool 200300 launched by 21 goes to 22 and then to 24, who can claim while 21 and 22 cannot; the other pool stays with 21,
and there is no third. -/
theorem C105_example :
    ∃ s, ChainRun Ex.keys (Chain.empty [40]) handedOn s ∧ heir handedOn 200300 = some 24 ∧ heir handedOn 200301 = some 21 ∧
      heir handedOn 200302 = none ∧
      (s.exec Ex.keys (.claimCreatorFee (Ex.ownClaim 73 71) 24 1000 2000)).isOk = true ∧
      (s.exec Ex.keys (.claimCreatorFee (Ex.ownClaim 73 71) 22 1000 2000)).isOk = false ∧
      (s.exec Ex.keys (.claimCreatorFee (Ex.ownClaim 73 71) 21 1000 2000)).isOk = false ∧
      (s.exec Ex.keys (.transferCreator 200300 80 none 22 23)).isOk = false :=
  ⟨Ex.chainOf handedOn, Ex.chainRun (by decide +kernel) handedOn_typed, by decide +kernel, by decide +kernel, by decide +kernel,
    by decide +kernel, by decide +kernel, by decide +kernel, by decide +kernel⟩

end Props

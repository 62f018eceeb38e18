import Verif.Props.Auth
import Verif.Props.ChainEx
import Verif.Props.Chain

/-!
# C104: an operator's powers last exactly from appointment to dismissal
-/

namespace Spec
open Dbc

/-- What one instruction decides about the operator account of an address, given what was decided before: an appointment
gives it a set of permissions, a dismissal takes all away, nothing else matters. -/
def decides (who : Nat) (before : Option Nat) : Instr → Option Nat
  | .createOperator _ a word => if a = who then some word else before
  | .closeOperator _ a => if a = who then none else before
  | _ => before

/-- The permissions of an address according to the last decision about it in a history; nobody has any at first. -/
def appointed (ixs : List Instr) (who : Nat) : Option Nat := ixs.foldl (decides who) none

/-- An instruction for operators: who signs it, and which permission it is for. -/
def operatorCall : Instr → Option (Nat × Permission)
  | .claimProtocolFee _ g _ _ => some (g, .claimProtocolFee)
  | .claimProtocolCreationFee _ _ _ g => some (g, .claimProtocolFee)
  | .zapProtocolFee _ _ _ _ _ g _ _ => some (g, .zapProtocolFee)
  | _ => none

/-- Who signs an appointment or a dismissal. -/
def staffing : Instr → Option Nat
  | .createOperator g _ _ => some g
  | .closeOperator g _ => some g
  | _ => none

end Spec

namespace Props
open Dbc Spec

/-! ### Only two instructions change who is an operator -/

/-- Admins and operators are the same. -/
def SameStaff (s s' : Chain) : Prop := s'.operators = s.operators ∧ s'.admins = s.admins

theorem SameStaff.trans {s s1 s2 : Chain} (h : SameStaff s s1) (k : SameStaff s1 s2) : SameStaff s s2 := ⟨k.1.trans h.1, k.2.trans h.2⟩

theorem give_staff {s s' : Chain} {m d a : Nat} (h : s.give m d a = .ok s') : SameStaff s s' := by
  simp only [Chain.give, bind_ok, req_ok, need_ok, ok_inj] at h
  obtain ⟨t, ht, _, hm, rfl⟩ := h
  exact ⟨rfl, rfl⟩

theorem credit_staff {K : Keys} {s s' : Chain} {m d a : Nat} (h : s.credit K m d a = .ok s') : SameStaff s s' := by
  simp only [Chain.credit, bind_ok, need_ok] at h
  obtain ⟨_, _, h⟩ := h
  exact give_staff h

theorem debit_staff {K : Keys} {s s' : Chain} {g m d a : Nat} (h : s.debit K g m d a = .ok s') : SameStaff s s' := by
  simp only [Chain.debit, bind_ok, req_ok, need_ok, ok_inj] at h
  obtain ⟨_, _, _, _, _, _, _, _, rfl⟩ := h
  exact ⟨rfl, rfl⟩

theorem withhold_staff {K : Keys} {s s' : Chain} {m d a : Nat} (h : s.withhold K m d a = .ok s') : SameStaff s s' := by
  simp only [Chain.withhold, bind_ok, need_ok, ok_inj] at h
  obtain ⟨_, _, _, _, rfl⟩ := h
  exact ⟨rfl, rfl⟩

theorem save_staff {s : Chain} {P b q : Nat} {l : Loaded} {w : World} : SameStaff s (s.save P b q l w) := ⟨rfl, rfl⟩

theorem quoteOut_staff {K : Keys} {s s' : Chain} {a : QuoteIx} {f : World → Res World} (h : s.quoteOut K a f = .ok s') :
    SameStaff s s' := by
  simp only [Chain.quoteOut, bind_ok, req_ok, need_ok] at h
  obtain ⟨_, _, l, hl, _, _, _, _, _, _, w, _, h⟩ := h
  exact save_staff.trans (credit_staff h)

theorem lamportsOut_staff {K : Keys} {s s' : Chain} {P c r : Nat} {f : World → Res World}
    (h : s.lamportsOut K P c r f = .ok s') : SameStaff s s' := by
  simp only [Chain.lamportsOut, bind_ok, req_ok, need_ok, ok_inj] at h
  obtain ⟨_, _, l, hl, _, _, w, _, rfl⟩ := h
  exact ⟨rfl, rfl⟩

theorem lpOut_staff {s s' : Chain} {P m : Nat} {f : World → Res World} (h : s.lpOut P m f = .ok s') : SameStaff s s' := by
  simp only [Chain.lpOut, bind_ok, req_ok, need_ok, ok_inj] at h
  obtain ⟨pa, _, _, _, l, hl, _, _, w, _, _, _, rfl⟩ := h
  exact ⟨rfl, rfl⟩

theorem exec_staff {K : Keys} {s s' : Chain} {ix : Instr} (h : s.exec K ix = .ok s')
    (hne : (∀ g a p, ix ≠ .createOperator g a p) ∧ ∀ g a, ix ≠ .closeOperator g a) : SameStaff s s' := by
  cases ix
  case createConfig key qm fc lr now p =>
    simp only [Chain.exec, Chain.createConfig, bind_ok, req_ok, need_ok, ok_inj] at h
    obtain ⟨_, _, _, _, _, _, _, _, rfl⟩ := h
    exact ⟨rfl, rfl⟩
  case initPool a =>
    simp only [Chain.exec, Chain.initPool, bind_ok, req_ok, need_ok, ok_inj] at h
    obtain ⟨c, hc, _, e1, qm, hqm, _, hbm, _, ⟨ep, hp⟩, _, ⟨eb, hb⟩, _, ⟨eq, hq, hne⟩, w, hw, rfl⟩ := h
    exact ⟨rfl, rfl⟩
  case swap a =>
    simp only [Chain.exec, Chain.swap, bind_ok, req_ok, need_ok, Prod.exists] at h
    obtain ⟨l, hl, _, _, _, _, _, _, r, fm, _, w, _, s1, h1, s2, h2, h⟩ := h
    refine (debit_staff h1).trans (save_staff.trans ((withhold_staff h2).trans ?_))
    simp only [Chain.swapPay, bind_ok] at h
    obtain ⟨s3, h3, h⟩ := h
    refine (credit_staff h3).trans ?_
    cases hr : a.referral with
    | none =>
      rw [hr] at h
      cases h
      exact ⟨rfl, rfl⟩
    | some k =>
      rw [hr] at h
      exact credit_staff h
  case claimProtocolFee a g b q =>
    simp only [Chain.exec, Chain.claimProtocolFee, bind_ok, req_ok] at h
    obtain ⟨l, hl, _, _, _, _, _, _, w, _, s1, h1, h⟩ := h
    refine (save_staff (P := a.pool) (b := a.baseVault) (q := a.quoteVault) (l := l) (w := w)).trans
      (SameStaff.trans (s1 := s1) ?_ ?_)
    · split at h1
      · simp only [bind_ok] at h1
        obtain ⟨_, _, h1⟩ := h1
        exact credit_staff h1
      · cases h1
        exact ⟨rfl, rfl⟩
    · split at h
      · simp only [bind_ok] at h
        obtain ⟨_, _, h⟩ := h
        exact credit_staff h
      · cases h
        exact ⟨rfl, rfl⟩
  case zapProtocolFee p c v m r g x z =>
    simp only [Chain.exec, Chain.zapProtocolFee, bind_ok, req_ok, need_ok] at h
    obtain ⟨_, _, _, _, _, _, _, _, _, _, _, _, h⟩ := h
    split at h
    · simp only [bind_ok, req_ok] at h
      obtain ⟨_, _, l, hl, w, _, _, _, _, _, _, _, h⟩ := h
      exact save_staff.trans (credit_staff h)
    · simp only [bind_ok, req_ok] at h
      obtain ⟨_, _, l, hl, w, _, _, _, _, _, _, _, h⟩ := h
      exact save_staff.trans (credit_staff h)
  case claimPartnerFee =>
    simp only [Chain.exec, Chain.claimPartnerFee, bind_ok, req_ok] at h
    obtain ⟨l, hl, _, _, _, _, _, _, w, _, s1, h1, h⟩ := h
    exact save_staff.trans ((credit_staff h1).trans (credit_staff h))
  case claimCreatorFee =>
    simp only [Chain.exec, Chain.claimCreatorFee, bind_ok, req_ok, need_ok] at h
    obtain ⟨_, _, l, hl, _, _, _, _, w, _, s1, h1, h⟩ := h
    exact save_staff.trans ((credit_staff h1).trans (credit_staff h))
  case partnerWithdrawSurplus =>
    simp only [Chain.exec] at h
    exact quoteOut_staff h
  case creatorWithdrawSurplus =>
    simp only [Chain.exec] at h
    exact quoteOut_staff h
  case withdrawMigrationFee =>
    simp only [Chain.exec] at h
    exact quoteOut_staff h
  case claimPartnerCreationFee =>
    simp only [Chain.exec] at h
    exact lamportsOut_staff h
  case claimProtocolCreationFee =>
    simp only [Chain.exec, Chain.claimProtocolCreationFee, bind_ok] at h
    obtain ⟨_, _, h⟩ := h
    exact lamportsOut_staff h
  case createLocker =>
    simp only [Chain.exec, Chain.createLocker, bind_ok, req_ok, need_ok] at h
    obtain ⟨_, _, l, hl, _, _, _, _, w, _, h⟩ := h
    exact save_staff.trans (credit_staff h)
  case migrateV1 a mk x =>
    simp only [Chain.exec, Chain.migrateV1, bind_ok, req_ok, need_ok] at h
    obtain ⟨_, _, l, hl, _, _, _, _, w, _, _, _, s1, h1, h⟩ := h
    exact SameStaff.trans (s1 := s1) (credit_staff h1 :) (credit_staff h)
  case migrateV2 =>
    simp only [Chain.exec, Chain.migrateV2, bind_ok, req_ok] at h
    obtain ⟨l, hl, _, _, _, _, w, _, s1, h1, h⟩ := h
    exact save_staff.trans ((credit_staff h1).trans (credit_staff h))
  case withdrawLeftover =>
    simp only [Chain.exec, Chain.withdrawLeftover, bind_ok, req_ok, need_ok] at h
    obtain ⟨_, _, l, hl, _, _, _, _, _, _, w, _, h⟩ := h
    exact save_staff.trans (credit_staff h)
  case createMeta =>
    simp only [Chain.exec, Chain.createMeta, bind_ok, req_ok, need_ok, ok_inj] at h
    obtain ⟨_, _, _, _, _, _, _, _, _, _, _, _, rfl⟩ := h
    exact ⟨rfl, rfl⟩
  case lockLp =>
    simp only [Chain.exec] at h
    exact lpOut_staff h
  case claimLp =>
    simp only [Chain.exec] at h
    exact lpOut_staff h
  case transferCreator =>
    simp only [Chain.exec, Chain.transferCreator, bind_ok, req_ok, need_ok, ok_inj] at h
    obtain ⟨_, _, l, hl, _, _, w, _, rfl⟩ := h
    exact ⟨rfl, rfl⟩
  case createOperator => exact absurd rfl (hne.1 _ _ _)
  case closeOperator => exact absurd rfl (hne.2 _ _)
  case newMint =>
    simp only [Chain.exec, Chain.newMint, bind_ok, req_ok, ok_inj] at h
    obtain ⟨_, _, rfl⟩ := h
    exact ⟨rfl, rfl⟩
  case newAccount =>
    simp only [Chain.exec, Chain.newAccount, bind_ok, req_ok, need_ok, ok_inj] at h
    obtain ⟨_, _, _, _, rfl⟩ := h
    exact ⟨rfl, rfl⟩
  case transfer =>
    simp only [Chain.exec, Chain.transfer, bind_ok] at h
    obtain ⟨s1, h1, h⟩ := h
    exact (debit_staff h1).trans (credit_staff h)
  case seize =>
    simp only [Chain.exec, Chain.seize, bind_ok, req_ok, need_ok] at h
    obtain ⟨_, _, _, _, _, _, _, _, h⟩ := h
    exact (credit_staff h :)
  case mintTo g m d a =>
    simp only [Chain.exec, Chain.mintTo, bind_ok, req_ok, need_ok] at h
    obtain ⟨_, _, _, _, _, _, h⟩ := h
    exact (give_staff h :)
  case burn =>
    simp only [Chain.exec, Chain.burn, bind_ok, need_ok, ok_inj] at h
    obtain ⟨_, _, s1, h1, rfl⟩ := h
    exact SameStaff.trans (s1 := s1) (debit_staff h1) ⟨rfl, rfl⟩
  case reassign =>
    simp only [Chain.exec, Chain.reassign, bind_ok, req_ok, need_ok, ok_inj] at h
    obtain ⟨_, _, _, _, _, _, _, _, rfl⟩ := h
    exact ⟨rfl, rfl⟩
  case sendLamports =>
    cases h
    exact ⟨rfl, rfl⟩

theorem appointed_snoc (ixs : List Instr) (ix : Instr) (who : Nat) :
    appointed (ixs ++ [ix]) who = decides who (appointed ixs who) ix := by
  simp [appointed]

/-- C104, the accounts: at any time an address has an operator account exactly if the last decision about it was an
appointment, it has only one, and the account holds the permissions of that appointment. The admins never change. -/
theorem C104_accounts {K : Keys} {admins : List Nat} {ixs : List Instr} {s : Chain}
    (hr : ChainRun K (Chain.empty admins) ixs s) (who : Nat) :
    s.admins = admins ∧ s.operators.filter (fun o => decide (o.address = who)) =
      (match appointed ixs who with | none => [] | some word => [⟨who, word⟩]) := by
  generalize hs0 : Chain.empty admins = s00 at hr
  induction hr with
  | nil => subst hs0; exact ⟨rfl, rfl⟩
  | @snoc s1 s2 ixs ix hr ht he ih =>
    obtain ⟨ih1, ih2⟩ := ih
    rw [appointed_snoc]
    by_cases hc : ∃ g a p, ix = .createOperator g a p
    · obtain ⟨g, a, p, rfl⟩ := hc
      simp only [Chain.exec, Chain.createOperator, bind_ok, req_ok, ok_inj] at he
      obtain ⟨_, _, _, _, _, hn, rfl⟩ := he
      refine ⟨ih1, ?_⟩
      by_cases e : a = who
      · subst e
        have hnil : s1.operators.filter (fun o => decide (o.address = a)) = [] := by
          rw [List.filter_eq_nil_iff]
          intro o ho
          simpa using hn o ho
        simp [decides, List.filter_cons, hnil]
      · simp only [decides, if_neg e, List.filter_cons, decide_eq_true_eq]
        exact ih2
    · by_cases hd : ∃ g a, ix = .closeOperator g a
      · obtain ⟨g, a, rfl⟩ := hd
        simp only [Chain.exec, Chain.closeOperator, bind_ok, req_ok, ok_inj] at he
        obtain ⟨_, _, rfl⟩ := he
        refine ⟨ih1, ?_⟩
        by_cases e : a = who
        · subst e
          simp only [decides, if_pos]
          rw [List.filter_eq_nil_iff]
          intro o ho
          simpa using (List.mem_filter.1 ho).2
        · simp only [decides, if_neg e]
          rw [← ih2, List.filter_filter]
          apply List.filter_congr
          intro o _
          by_cases h : o.address = who
          · have : o.address ≠ a := fun h' => e (h'.symm.trans h)
            simp [h]
            exact fun h' => e h'.symm
          · simp [h]
      · have h := exec_staff he ⟨fun g a p e => hc ⟨g, a, p, e⟩, fun g a e => hd ⟨g, a, e⟩⟩
        have hsame : decides who (appointed ixs who) ix = appointed ixs who := by
          cases ix <;> first | rfl | exact absurd ⟨_, _, _, rfl⟩ hc | exact absurd ⟨_, _, rfl⟩ hd
        rw [hsame, h.1, h.2]
        exact ⟨ih1, ih2⟩

theorem permission_iff {K : Keys} {admins : List Nat} {ixs : List Instr} {s : Chain}
    (hr : ChainRun K (Chain.empty admins) ixs s) (who : Nat) (p : Permission) :
    (∃ o ∈ s.operators, o.address = who ∧ grants o.permission p) ↔ ∃ word, appointed ixs who = some word ∧ grants word p := by
  have h := (C104_accounts hr who).2
  constructor
  · rintro ⟨o, ho, rfl, hg⟩
    have hm : o ∈ s.operators.filter (fun x => decide (x.address = o.address)) := List.mem_filter.2 ⟨ho, by simp⟩
    rw [h] at hm
    cases ha : appointed ixs o.address with
    | none => rw [ha] at hm; cases hm
    | some word =>
      rw [ha, List.mem_singleton] at hm
      rw [hm] at hg
      exact ⟨word, rfl, hg⟩
  · rintro ⟨word, ha, hg⟩
    rw [ha] at h
    have hm : (⟨who, word⟩ : Operator) ∈ s.operators.filter (fun x => decide (x.address = who)) := by rw [h]; simp
    exact ⟨_, (List.mem_filter.1 hm).1, rfl, hg⟩

/-- C104, powers: in every pool an address holds a permission exactly if the last decision about it was an appointment with
that permission. -/
theorem C104_powers {K : Keys} {admins : List Nat} {ixs : List Instr} {s : Chain}
    (hr : ChainRun K (Chain.empty admins) ixs s) {P : Nat} {w : World} (hw : s.view K P = some w) (who : Nat) (p : Permission) :
    Holds w who p ↔ ∃ word, appointed ixs who = some word ∧ grants word p := by
  rw [← permission_iff hr who p]
  have : w.operators = s.operators := by
    unfold Chain.view at hw
    split at hw
    · cases hw
    · split at hw
      · cases hw; rfl
      · cases hw
  unfold Holds
  rw [this]

theorem load_operators {s : Chain} {P c b q : Nat} {md : Option DammMeta} {l : Loaded} (h : s.load P c b q md = .ok l) :
    l.w.operators = s.operators := by
  simp only [Chain.load, bind_ok, need_ok, ok_inj] at h
  obtain ⟨_, _, _, _, _, _, _, _, _, _, rfl⟩ := h
  rfl

theorem called_with {s : Chain} {l : Loaded} {g : Nat} {p : Permission} (hl : l.w.operators = s.operators)
    (h : HasPermission l.w g p.bit) : ∃ o ∈ s.operators, o.address = g ∧ grants o.permission p := by
  have := holds_iff.1 h
  unfold Holds at this
  rwa [hl] at this

/-- C104, use: whatever accounts are passed, an operator instruction is accepted only from an address whose last appointment
or dismissal was an appointment with the permission for it. -/
theorem C104_accepted {K : Keys} {admins : List Nat} {ixs : List Instr} {s s' : Chain} {ix : Instr}
    (hr : ChainRun K (Chain.empty admins) ixs s) (hx : s.exec K ix = .ok s') {g : Nat} {p : Permission}
    (hc : operatorCall ix = some (g, p)) : ∃ word, appointed ixs g = some word ∧ grants word p := by
  rw [← permission_iff hr g p]
  cases ix <;> first | (cases hc; done) | skip
  case claimProtocolFee a g' b q =>
    cases hc
    simp only [Chain.exec, Chain.claimProtocolFee, bind_ok, req_ok] at hx
    obtain ⟨l, hl, _, _, _, _, _, _, w, hw, _⟩ := hx
    exact called_with (p := .claimProtocolFee) (load_operators hl) (claimProtocolFee_ok hw).1
  case zapProtocolFee P c v m r g' x z =>
    cases hc
    simp only [Chain.exec, Chain.zapProtocolFee, bind_ok, req_ok, need_ok] at hx
    obtain ⟨_, _, _, _, _, _, _, _, _, _, _, _, hx⟩ := hx
    split at hx
    · simp only [bind_ok, req_ok] at hx
      obtain ⟨_, _, l, hl, w, hw, _⟩ := hx
      exact called_with (p := .zapProtocolFee) (load_operators hl) (zapProtocolFee_ok hw).1
    · simp only [bind_ok, req_ok] at hx
      obtain ⟨_, _, l, hl, w, hw, _⟩ := hx
      exact called_with (p := .zapProtocolFee) (load_operators hl) (zapProtocolFee_ok hw).1
  case claimProtocolCreationFee P c r g' =>
    cases hc
    simp only [Chain.exec, Chain.claimProtocolCreationFee, Chain.lamportsOut, bind_ok, req_ok, need_ok] at hx
    obtain ⟨_, _, _, _, l, hl, _, _, w, hw, _⟩ := hx
    exact called_with (p := .claimProtocolFee) (load_operators hl) (claimProtocolCreationFee_ok hw).1

/-- C104, authority: every appointment and every dismissal in a history was signed by one of the admins of the program. -/
theorem C104_by_admins {K : Keys} {admins : List Nat} {ixs : List Instr} {s : Chain}
    (hr : ChainRun K (Chain.empty admins) ixs s) {ix : Instr} (hm : ix ∈ ixs) {g : Nat} (hg : staffing ix = some g) :
    g ∈ admins := by
  generalize hs0 : Chain.empty admins = s00 at hr
  induction hr with
  | nil => cases hm
  | @snoc s1 s2 ixs ix' hr ht he ih =>
    subst hs0
    rcases List.mem_append.1 hm with h | h
    · exact ih h
    · rw [List.mem_singleton] at h
      subst h
      have ha := (C104_accounts hr 0).1
      cases ix <;> first | (cases hg; done) | skip
      case createOperator g' a p =>
        cases hg
        simp only [Chain.exec, Chain.createOperator, bind_ok, req_ok, ok_inj] at he
        obtain ⟨_, h, _⟩ := he
        rwa [ha] at h
      case closeOperator g' a =>
        cases hg
        simp only [Chain.exec, Chain.closeOperator, bind_ok, req_ok, ok_inj] at he
        obtain ⟨_, h, _⟩ := he
        rwa [ha] at h

/-- C104, renewal: an admin can appoint an address again after a dismissal, with other permissions. -/
theorem C104_again {K : Keys} {admins : List Nat} {ixs : List Instr} {s : Chain}
    (hr : ChainRun K (Chain.empty admins) ixs s) (g who word : Nat) :
    (∃ s', s.exec K (.createOperator g who word) = .ok s') ↔
      g ∈ admins ∧ (word = 1 ∨ word = 2 ∨ word = 3) ∧ appointed ixs who = none := by
  obtain ⟨h1, h2⟩ := C104_accounts hr who
  have hn : (∀ o ∈ s.operators, o.address ≠ who) ↔ appointed ixs who = none := by
    constructor
    · intro h
      cases ha : appointed ixs who with
      | none => rfl
      | some word' =>
        rw [ha] at h2
        have hm : (⟨who, word'⟩ : Operator) ∈ s.operators.filter (fun x => decide (x.address = who)) := by rw [h2]; simp
        exact absurd rfl (h _ (List.mem_filter.1 hm).1)
    · intro ha o ho e
      rw [ha] at h2
      have hm : o ∈ s.operators.filter (fun x => decide (x.address = who)) := List.mem_filter.2 ⟨ho, by simp [e]⟩
      rw [h2] at hm
      cases hm
  have hw : (0 < word ∧ word < 1 <<< MAX_OPERATION) ↔ word = 1 ∨ word = 2 ∨ word = 3 := by
    have : 1 <<< MAX_OPERATION = 4 := by decide
    rw [this]
    omega
  simp only [Chain.exec, Chain.createOperator, bind_ok, req_ok, ok_inj]
  constructor
  · rintro ⟨s', _, a, _, b, _, c, _⟩
    exact ⟨h1 ▸ a, hw.1 b, hn.1 c⟩
  · rintro ⟨a, b, c⟩
    exact ⟨_, (), h1.symm ▸ a, (), hw.2 b, (), hn.2 c, rfl⟩

/-- The operator 31 is dismissed and appointed again for zaps only. -/
def replaced : List Instr := Ex.setUp ++ Ex.dealing ++ [.closeOperator 40 31, .createOperator 40 31 2]

theorem dealt_typed : ∀ ix ∈ Ex.setUp ++ Ex.dealing, ix.Typed := by
  intro ix hm
  rcases List.mem_append.1 hm with h | h
  · simp only [Ex.setUp, List.mem_cons, List.not_mem_nil, or_false] at h
    rcases h with h | h | h | h | h | h | h | h | h | h | h | h | h | h | h | h | h | h | h | h | h <;> subst h <;>
      first | exact trivial | exact Ex.typedA | exact Ex.typedB
  · simp only [Ex.dealing, List.mem_cons, List.not_mem_nil, or_false] at h
    rcases h with h | h | h | h | h | h | h | h | h <;> subst h <;> exact trivial

theorem replaced_typed : ∀ ix ∈ replaced, ix.Typed := by
  intro ix hm
  rcases List.mem_append.1 hm with h | h
  · exact dealt_typed ix h
  · simp only [List.mem_cons, List.not_mem_nil, or_false] at h
    rcases h with h | h <;> subst h <;> exact trivial

/-- The operator 31 claims, is dismissed and can claim no more, is appointed again for zaps only, and still cannot claim. -/
theorem C104_example :
    ∃ s1 s2, ChainRun Ex.keys (Chain.empty [40]) (Ex.setUp ++ Ex.dealing) s1 ∧ appointed (Ex.setUp ++ Ex.dealing) 31 = some 3 ∧
      (s1.exec Ex.keys (.claimProtocolFee (Ex.ownClaim (Ex.keys.ata 2 300) (Ex.keys.ata 2 7)) 31 5 1000000)).isOk = true ∧
      ChainRun Ex.keys (Chain.empty [40]) replaced s2 ∧
      appointed (Ex.setUp ++ Ex.dealing ++ [.closeOperator 40 31]) 31 = none ∧ appointed replaced 31 = some 2 ∧
      (s2.exec Ex.keys (.claimProtocolFee (Ex.ownClaim (Ex.keys.ata 2 300) (Ex.keys.ata 2 7)) 31 5 1000000)).isOk = false ∧
      (s1.exec Ex.keys (.closeOperator 41 31)).isOk = false :=
  ⟨Ex.chainOf (Ex.setUp ++ Ex.dealing), Ex.chainOf replaced, Ex.chainRun (by decide +kernel) dealt_typed,
    by decide +kernel, by decide +kernel, Ex.chainRun (by decide +kernel) replaced_typed, by decide +kernel, by decide +kernel,
    by decide +kernel, by decide +kernel⟩

end Props

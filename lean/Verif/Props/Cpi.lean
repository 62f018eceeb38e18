import Verif.Model.Cpi
import Verif.Lemmas.Base

/-!
# External calls and borrowed rent: C48
-/

namespace Props
open Dbc

/-- An account kept its owner and data size and lost no lamports. -/
structure Kept (before after : Acct) : Prop where
  lamports : before.lamports ≤ after.lamports
  owner : after.owner = before.owner
  dataLen : after.dataLen = before.dataLen

/-- C48, guard: whatever the called program does, if the guarded call succeeds the watched account was kept, and the accounts
are exactly those the called program left. -/
theorem C48_guarded {f : Callee} {a : Nat} {s s' : Accts} (h : guardedStep a f s = .ok s') :
    f s = .ok s' ∧ Kept (s a) (s' a) := by
  simp only [guardedStep, cpiChecked, bind_ok, req_ok, ok_inj] at h
  obtain ⟨t, hf, _, h1, _, h2, _, h3, rfl⟩ := h
  exact ⟨hf, h1, h2.symm, h3.symm⟩

theorem systemTransfer_ok {al : Bool} {src dst x : Nat} {s s' : Accts} (hne : src ≠ dst)
    (h : systemTransfer al src dst x s = .ok s') :
    x ≤ (s src).lamports ∧ s' src = { s src with lamports := (s src).lamports - x } ∧
      s' dst = { s dst with lamports := (s dst).lamports + x } ∧ ∀ k, k ≠ src → k ≠ dst → s' k = s k := by
  simp only [systemTransfer, bind_ok, req_ok, ok_inj, ite_ok] at h
  obtain ⟨_, -, y, ⟨hle, rfl⟩ | ⟨_, h⟩, rfl⟩ := h
  · refine ⟨hle, ?_, ?_, fun k h1 h2 => ?_⟩
    · simp only [Accts.setLamports, if_neg hne, if_true]
    · simp only [Accts.setLamports, if_neg (Ne.symm hne), if_true]
    · simp only [Accts.setLamports, if_neg h1, if_neg h2]
  · cases h

/-- C48, rent: whatever the called programs do, if a step that lends rent succeeds then the pool authority was kept; it ends
with exactly what it had before, or with what the calls left it if that is more; the payer pays exactly what the calls
consumed of the pool authority's lamports (nothing if they consumed nothing); and no other account is touched by the
repayment. `mid` is the state right after the calls. -/
theorem C48_rent {al : Bool} {authority payer : Nat} {ops : List Callee} {s s' : Accts} (hne : payer ≠ authority)
    (h : rentStep al authority payer ops s = .ok s') :
    Kept (s authority) (s' authority) ∧
    ∃ mid, callAll ops s = .ok mid ∧
      (s' authority).lamports = max (s authority).lamports (mid authority).lamports ∧
      (s' payer).lamports + ((s' authority).lamports - (mid authority).lamports) = (mid payer).lamports ∧
      ∀ k, k ≠ payer → k ≠ authority → s' k = mid k := by
  obtain ⟨hf, hk⟩ := C48_guarded h
  refine ⟨hk, ?_⟩
  simp only [flashRent, bind_ok] at hf
  obtain ⟨mid, hm, hf⟩ := hf
  refine ⟨mid, hm, ?_⟩
  by_cases hc : 0 < (s authority).lamports - (mid authority).lamports
  · rw [if_pos hc] at hf
    obtain ⟨h1, h2, h3, h4⟩ := systemTransfer_ok hne hf
    refine ⟨?_, ?_, h4⟩
    · rw [h3]; dsimp only; omega
    · rw [h2, h3]; dsimp only; omega
  · rw [if_neg hc, ok_inj] at hf
    subst hf
    refine ⟨?_, ?_, fun _ _ _ => rfl⟩ <;> omega

/-- Steps one after the other. -/
inductive Steps (authority : Nat) : List CpiStep → Accts → Accts → Prop
  | nil (s : Accts) : Steps authority [] s s
  | cons {c : CpiStep} {cs : List CpiStep} {s s1 s' : Accts} (h : c.run authority s = .ok s1)
      (t : Steps authority cs s1 s') : Steps authority (c :: cs) s s'

/-- C48, history: after any sequence of such steps with any behaviour of the called programs, the pool authority has lost
no lamports and kept its owner and data size. -/
theorem C48_never_drained {authority : Nat} {cs : List CpiStep} {s s' : Accts} (h : Steps authority cs s s') :
    Kept (s authority) (s' authority) := by
  induction h with
  | nil s => exact ⟨le_rfl, rfl, rfl⟩
  | @cons c cs s s1 s' h1 t ih =>
    have hk : Kept (s authority) (s1 authority) := by
      cases c with
      | rent al payer ops => exact (C48_guarded h1).2
      | guarded op => exact (C48_guarded h1).2
    exact ⟨hk.lamports.trans ih.lamports, ih.owner.trans hk.owner, ih.dataLen.trans hk.dataLen⟩

/-! Example: the pool authority 1 holds 1 SOL; a call spends 0.002 SOL of it on the rent of account 3, which payer 2 repays; a
call that pays the pool authority costs the payer nothing; a call that takes from the pool authority without lending, or that
changes its owner, is refused. -/

def exAccts : Accts := fun k => if k = 1 then ⟨1000000000, 0, 0⟩ else if k = 2 then ⟨5000000, 0, 0⟩ else ⟨0, 0, 0⟩

def exSpend : Callee := fun s => systemTransfer true 1 3 2000000 s
def exPay : Callee := fun s => .ok (s.setLamports 1 ((s 1).lamports + 7))
def exSteal : Callee := fun s => .ok (fun k => if k = 1 then { s 1 with owner := 9 } else s k)

def view (r : Res Accts) : Except Err (List Acct) := r.map (fun s => [s 1, s 2, s 3])

theorem C48_example :
    view (rentStep true 1 2 [exSpend] exAccts) = .ok [⟨1000000000, 0, 0⟩, ⟨3000000, 0, 0⟩, ⟨2000000, 0, 0⟩] ∧
    view (rentStep true 1 2 [exPay] exAccts) = .ok [⟨1000000007, 0, 0⟩, ⟨5000000, 0, 0⟩, ⟨0, 0, 0⟩] ∧
    view (rentStep true 1 2 [exSpend, exSpend, exSpend] exAccts) = .error .external ∧
    view (guardedStep 1 exSpend exAccts) = .error .accountInvariantViolation ∧
    view (guardedStep 1 exSteal exAccts) = .error .accountInvariantViolation ∧
    (∃ s', Steps 1 [.rent true 2 [exSpend], .guarded exPay, .rent true 2 [exPay, exSpend]] exAccts s' ∧
      (s' 1).lamports = 1000000007 ∧ (s' 2).lamports = 1000007) := by
  refine ⟨by rfl, by rfl, by rfl, by rfl, by rfl, ?_⟩
  exact ⟨_, .cons rfl (.cons rfl (.cons rfl (.nil _))), by rfl, by rfl⟩

end Props

import Verif.Model.BoardEvent
import Verif.Props.Board

/-!
# C73: the log tells every description
-/

namespace Spec
open Dbc

/-- The event is about the partner description in account `k`. -/
def OnPartner (k : Nat) : NoticeEvt → Bool
  | .partner a _ => a == k
  | .project _ _ => false

/-- The event is about the pool description in account `k`. -/
def OnProject (k : Nat) : NoticeEvt → Bool
  | .partner _ _ => false
  | .project a _ => a == k

end Spec

namespace Props
open Dbc Spec

/-- Everything logged about descriptions in a history. -/
def noticesLogged (h : List (Site × SiteInstr)) : List NoticeEvt := h.flatMap (fun x => x.2.notices)

theorem noticesLogged_snoc (h : List (Site × SiteInstr)) (s : Site) (ix : SiteInstr) :
    noticesLogged (h ++ [(s, ix)]) = noticesLogged h ++ ix.notices := by
  simp [noticesLogged]

/-- C73, partners and the log: an account holds a partner description exactly if the log has an event on it, and then it has
exactly one, naming the key in the description. -/
theorem C73_partner_logged {K : Keys} {B : BoardKeys} (hB : Discs B) {admins : List Nat} {legacy : List (Nat × Nat)}
    {h : List (Site × SiteInstr)} {s : Site} (hr : SiteRun K B (Site.empty admins legacy) h s) (k : Nat) :
    (s.partners k = none ∧ (noticesLogged h).filter (OnPartner k) = []) ∨
    ∃ d f t, s.partners k = some d ∧ (noticesLogged h).filter (OnPartner k) = [.partner k f] ∧
      (f < 2 ^ 256 → readNotice d = some (f, t)) := by
  generalize hs0 : Site.empty admins legacy = s00 at hr
  induction hr with
  | nil => subst hs0; exact .inl ⟨rfl, rfl⟩
  | @snoc s1 s2 h ix hr ht he ih =>
    rw [noticesLogged_snoc, List.filter_append]
    by_cases hix : ∃ f t, ix = .partnerMetadata k f t
    · obtain ⟨f, t, rfl⟩ := hix
      simp only [Site.exec, Site.createPartnerMetadata, bind_ok, req_ok, ok_inj] at he
      obtain ⟨_, ⟨_, hn⟩, d, hd, rfl⟩ := he
      rcases ih with ⟨-, g⟩ | ⟨d', _, _, g, _⟩
      · refine .inr ⟨d, f, t, put_same _ _ _, ?_, (newNotice_ok hB.1 hd).2.2⟩
        rw [g]
        simp [SiteInstr.notices, OnPartner]
      · rw [hn] at g
        cases g
    · have hnil : ix.notices.filter (OnPartner k) = [] := by
        cases ix with
        | partnerMetadata a f t =>
          have : a ≠ k := fun e => hix ⟨f, t, by rw [e]⟩
          simp [SiteInstr.notices, OnPartner, this]
        | _ => rfl
      rcases siteExec_partners he k with e | ⟨-, f, t, d', e, -⟩
      · rw [hnil, List.append_nil, e]
        exact ih
      · exact absurd ⟨f, t, e⟩ hix

/-- C73, projects and the log: an account holds a pool description exactly if the log has an event on it, and then it has exactly
one, naming the pool in the description. -/
theorem C73_project_logged {K : Keys} {B : BoardKeys} (hB : Discs B) {admins : List Nat} {legacy : List (Nat × Nat)}
    {h : List (Site × SiteInstr)} {s : Site} (hr : SiteRun K B (Site.empty admins legacy) h s) (k : Nat) :
    (s.projects k = none ∧ (noticesLogged h).filter (OnProject k) = []) ∨
    ∃ d P t, s.projects k = some d ∧ (noticesLogged h).filter (OnProject k) = [.project k P] ∧
      (P < 2 ^ 256 → readNotice d = some (P, t)) := by
  generalize hs0 : Site.empty admins legacy = s00 at hr
  induction hr with
  | nil => subst hs0; exact .inl ⟨rfl, rfl⟩
  | @snoc s1 s2 h ix hr ht he ih =>
    rw [noticesLogged_snoc, List.filter_append]
    by_cases hix : ∃ P c t, ix = .poolMetadata k P c t
    · obtain ⟨P, c, t, rfl⟩ := hix
      simp only [Site.exec, Site.createPoolMetadata, bind_ok, need_ok, req_ok, ok_inj] at he
      obtain ⟨pa, _, _, ⟨_, hn⟩, _, _, d, hd, rfl⟩ := he
      rcases ih with ⟨-, g⟩ | ⟨d', _, _, g, _⟩
      · refine .inr ⟨d, P, t, put_same _ _ _, ?_, (newNotice_ok hB.2 hd).2.2⟩
        rw [g]
        simp [SiteInstr.notices, OnProject]
      · rw [hn] at g
        cases g
    · have hnil : ix.notices.filter (OnProject k) = [] := by
        cases ix with
        | poolMetadata a P c t =>
          have : a ≠ k := fun e => hix ⟨P, c, t, by rw [e]⟩
          simp [SiteInstr.notices, OnProject, this]
        | _ => rfl
      rcases siteExec_projects he k with e | ⟨-, P, pa, t, d', e, -⟩
      · rw [hnil, List.append_nil, e]
        exact ih
      · exact absurd ⟨P, _, t, e⟩ hix

/-- Everything logged about legacy accounts in a history. -/
def closingsLogged (h : List (Site × SiteInstr)) : List (Nat × Nat) := h.flatMap (fun x => x.1.closings x.2)

theorem perm_find {l : List (Nat × Nat)} (hn : (l.map Prod.fst).Nodup) (a : Nat) :
    ((l.find? (fun o => decide (o.1 = a))).toList ++ l.filter (fun o => decide (o.1 ≠ a))).Perm l := by
  induction l with
  | nil => exact .nil
  | cons o l ih =>
    rw [List.map_cons, List.nodup_cons] at hn
    by_cases e : o.1 = a
    · have hf : l.filter (fun o => decide (o.1 ≠ a)) = l := by
        rw [List.filter_eq_self]
        intro x hx
        have : x.1 ≠ a := fun h => hn.1 (by rw [e, ← h]; exact List.mem_map_of_mem hx)
        simpa using this
      rw [List.find?_cons_of_pos (by simpa using e), List.filter_cons_of_neg (by simpa using e), hf]
      exact .refl _
    · rw [List.find?_cons_of_neg (by simpa using e), List.filter_cons_of_pos (by simpa using e)]
      exact List.perm_middle.trans ((ih hn.2).cons o)

/-- C73, legacy accounts and the log: every legacy account either still exists or has been closed with one event naming it and
its operator, and there are no other such events. -/
theorem C73_legacy_logged {K : Keys} {B : BoardKeys} {admins : List Nat} {legacy : List (Nat × Nat)}
    (hn : (legacy.map Prod.fst).Nodup) {h : List (Site × SiteInstr)} {s : Site}
    (hr : SiteRun K B (Site.empty admins legacy) h s) : (closingsLogged h ++ s.legacy).Perm legacy := by
  generalize hs0 : Site.empty admins legacy = s00 at hr
  induction hr with
  | nil => subst hs0; exact .refl _
  | @snoc s1 s2 h ix hr ht he ih =>
    have hlog : closingsLogged (h ++ [(s1, ix)]) = closingsLogged h ++ s1.closings ix := by simp [closingsLogged]
    have key : (s1.closings ix ++ s2.legacy).Perm s1.legacy := by
      cases ix with
      | closeClaimOperator g a =>
        have hn1 : (s1.legacy.map Prod.fst).Nodup := by
          have := (ih.map Prod.fst).nodup_iff.2 hn
          rw [List.map_append] at this
          exact (List.nodup_append.1 this).2.1
        simp only [Site.exec, Site.closeClaimOperator, bind_ok, req_ok, ok_inj] at he
        obtain ⟨_, _, _, _, rfl⟩ := he
        exact perm_find hn1 a
      | chain ix =>
        simp only [Site.exec, bind_ok, ok_inj] at he
        obtain ⟨c, -, rfl⟩ := he
        exact .refl _
      | partnerMetadata a f t =>
        simp only [Site.exec, Site.createPartnerMetadata, bind_ok, req_ok, ok_inj] at he
        obtain ⟨_, _, _, _, rfl⟩ := he
        exact .refl _
      | poolMetadata a p c t =>
        simp only [Site.exec, Site.createPoolMetadata, bind_ok, req_ok, ok_inj] at he
        obtain ⟨_, _, _, _, _, _, _, _, rfl⟩ := he
        exact .refl _
      | dammV2Metadata => cases he; exact .refl _
    rw [hlog, List.append_assoc]
    exact (key.append_left _).trans ih

/-- The account 500 of the operator 600 has been closed, with its event. -/
theorem C73_legacy_logged_example : ([(500, 600)].map Prod.fst).Nodup ∧
    ∃ h s, SiteRun Ex.keys boardKeys (Site.empty [40] [(500, 600)]) h s ∧ closingsLogged h = [(500, 600)] ∧ s.legacy = [] := by
  refine ⟨by decide, ?_⟩
  obtain ⟨-, -, -, -, -, h, s, r, -, -, h3, -⟩ := C73_example
  have hp := C73_legacy_logged (by decide) r
  rw [h3, List.append_nil] at hp
  exact ⟨h, s, r, List.perm_singleton.1 hp, h3⟩

/-- After the partner 11 and the creator of the pool 200300 have published, there is one event on each, and none elsewhere. -/
theorem C73_logged_example : ∃ h s, SiteRun Ex.keys boardKeys (Site.empty [40] [(500, 600)]) h s ∧
    (noticesLogged h).filter (OnPartner (boardKeys.partnerPda 11)) = [.partner (boardKeys.partnerPda 11) 11] ∧
    (noticesLogged h).filter (OnProject (boardKeys.projectPda 200300)) = [.project (boardKeys.projectPda 200300) 200300] ∧
    (noticesLogged h).filter (OnProject (boardKeys.projectPda 200301)) = [] := by
  obtain ⟨hB, hp, hq, -, -, h, s, r, h1, h2, -, -, -, h3⟩ := C73_example
  refine ⟨h, s, r, ?_, ?_, ?_⟩
  · rcases C73_partner_logged hB r (boardKeys.partnerPda 11) with ⟨e, -⟩ | ⟨d, f, t, e, g, -⟩
    · rw [e] at h1
      cases h1
    · obtain ⟨s0, f', t', hm, hk, _⟩ := C73_partner_genuine hB r e
      have hin : NoticeEvt.partner (boardKeys.partnerPda 11) f' ∈ (noticesLogged h).filter (OnPartner (boardKeys.partnerPda 11)) :=
        List.mem_filter.2 ⟨List.mem_flatMap.2 ⟨_, hm, by simp [SiteInstr.notices]⟩, by simp [OnPartner]⟩
      rw [g, List.mem_singleton] at hin
      cases hin
      rw [g, ← hp _ _ hk]
  · rcases C73_project_logged hB r (boardKeys.projectPda 200300) with ⟨e, -⟩ | ⟨d, P, t, e, g, -⟩
    · rw [e] at h2
      cases h2
    · obtain ⟨s0, P', pa, c, t', hm, _, _, hk, _⟩ := C73_project_genuine hB r e
      have hin : NoticeEvt.project (boardKeys.projectPda 200300) P' ∈
          (noticesLogged h).filter (OnProject (boardKeys.projectPda 200300)) :=
        List.mem_filter.2 ⟨List.mem_flatMap.2 ⟨_, hm, by simp [SiteInstr.notices]⟩, by simp [OnProject]⟩
      rw [g, List.mem_singleton] at hin
      cases hin
      rw [g, ← hq _ _ hk]
  · rcases C73_project_logged hB r (boardKeys.projectPda 200301) with ⟨-, e⟩ | ⟨d, P, t, e, -⟩
    · exact e
    · exfalso
      have : (s.exec Ex.keys boardKeys (.poolMetadata (2 * 200301 + 1) 200301 21 shopNotice)).isOk = false := by
        have e' : s.projects (2 * 200301 + 1) = some d := e
        simp only [Site.exec, Site.createPoolMetadata, e']
        cases s.chain.pools 200301 <;> simp [need, req, Except.isOk, Except.toBool, bind, Except.bind]
      rw [this] at h3
      cases h3

end Props

import Verif.Spec.Board
import Verif.Lemmas.Base
import Verif.Lemmas.Chain
import Verif.Props.Chain

/-!
# Public descriptions: C73
-/

namespace Props
open Dbc Spec

/-! ### What is written can be read -/

theorem leBytes_length (k n : Nat) : (leBytes k n).length = k := by
  induction k generalizing n with
  | zero => rfl
  | succ k ih => simp only [leBytes, List.length_cons, ih]

theorem number_leBytes (k n : Nat) (h : n < 256 ^ k) : number (leBytes k n) = n := by
  induction k generalizing n with
  | zero => simp only [Nat.pow_zero] at h; simp only [leBytes, number]; omega
  | succ k ih =>
    simp only [leBytes, number]
    rw [ih (n / 256) (by rw [Nat.pow_succ] at h; omega)]
    omega

theorem borshString_ok {s d : List Nat} (h : borshString s = .ok d) : s.length < 2 ^ 32 ∧ d = leBytes 4 s.length ++ s := by
  simp only [borshString, bind_ok, req_ok, ok_inj] at h
  obtain ⟨_, h1, rfl⟩ := h
  refine ⟨?_, rfl⟩
  unfold u32Max at h1
  omega

theorem readString_append {s r : List Nat} (h : s.length < 2 ^ 32) :
    readString (leBytes 4 s.length ++ s ++ r) = some (s, r) := by
  have hl := leBytes_length 4 s.length
  have e1 : (leBytes 4 s.length ++ s ++ r).take 4 = leBytes 4 s.length := by
    rw [List.append_assoc, List.take_left' hl]
  have e2 : (leBytes 4 s.length ++ s ++ r).drop 4 = s ++ r := by
    rw [List.append_assoc, List.drop_left' hl]
  have e3 : (leBytes 4 s.length ++ s ++ r).drop (4 + s.length) = r :=
    List.drop_left' (by rw [List.length_append, hl])
  unfold readString
  simp only [e1, e2]
  rw [number_leBytes 4 s.length (by omega), if_pos (by simp only [List.length_append, hl]; omega), e3,
    List.take_left' rfl]

theorem newNotice_ok {disc d : List Nat} {key : Nat} {t : Notice} (hd : disc.length = 8)
    (h : newNotice disc key t = .ok d) : Short t ∧ d.length = 8 + noticeSpace t ∧
      (key < 2 ^ 256 → readNotice d = some (key, t)) := by
  simp only [newNotice, noticeBytes, bind_ok, req_ok, ok_inj] at h
  obtain ⟨b, ⟨n, hn, w, hw, l, hl, rfl⟩, _, hs, rfl⟩ := h
  obtain ⟨n1, rfl⟩ := borshString_ok hn
  obtain ⟨w1, rfl⟩ := borshString_ok hw
  obtain ⟨l1, rfl⟩ := borshString_ok hl
  set b := disc ++ leBytes 32 key ++ List.replicate 96 0 ++ (leBytes 4 t.name.length ++ t.name) ++
    (leBytes 4 t.website.length ++ t.website) ++ (leBytes 4 t.logo.length ++ t.logo) with hb
  have hlen : b.length = 8 + noticeSpace t := by
    simp only [hb, List.length_append, hd, leBytes_length, List.length_replicate, noticeSpace]
    omega
  refine ⟨⟨n1, w1, l1⟩, by rw [List.length_append, List.length_replicate]; omega, fun hk => ?_⟩
  rw [hlen, Nat.sub_self, List.replicate_zero, List.append_nil]
  have d1 : b.drop 136 = leBytes 4 t.name.length ++ t.name ++ (leBytes 4 t.website.length ++ t.website ++
      (leBytes 4 t.logo.length ++ t.logo ++ [])) := by
    rw [hb, List.append_nil, List.append_assoc _ (leBytes 4 t.website.length ++ t.website),
      List.append_assoc _ (leBytes 4 t.name.length ++ t.name)]
    exact List.drop_left' (by simp only [List.length_append, hd, leBytes_length, List.length_replicate])
  have d2 : (b.drop 8).take 32 = leBytes 32 key := by
    have : b = disc ++ (leBytes 32 key ++ (List.replicate 96 0 ++ (leBytes 4 t.name.length ++ t.name) ++
        (leBytes 4 t.website.length ++ t.website) ++ (leBytes 4 t.logo.length ++ t.logo))) := by
      rw [hb]; simp only [List.append_assoc]
    rw [this, List.drop_left' hd, List.take_left' (leBytes_length _ _)]
  unfold readNotice
  rw [d1, readString_append n1]
  simp only [Option.bind_eq_bind, Option.bind_some]
  rw [readString_append w1]
  simp only [Option.bind_some]
  rw [readString_append l1]
  simp only [Option.bind_some, if_true, d2]
  rw [number_leBytes 32 key (by rw [show (256 : Nat) ^ 32 = 2 ^ 256 by norm_num]; exact hk)]

theorem newNotice_total {disc : List Nat} {key : Nat} {t : Notice} (hd : disc.length = 8) (ht : Short t) :
    ∃ d, newNotice disc key t = .ok d := by
  have q : ∀ s : List Nat, s.length < 2 ^ 32 → borshString s = .ok (leBytes 4 s.length ++ s) := fun s hs => by
    unfold borshString req
    rw [if_pos (by unfold u32Max; omega)]
    rfl
  unfold newNotice noticeBytes
  rw [q _ ht.1, ok_bind, q _ ht.2.1, ok_bind, q _ ht.2.2, ok_bind, ok_bind]
  simp only [bind_ok, req_ok]
  refine ⟨_, (), ?_, rfl⟩
  simp only [List.length_append, hd, leBytes_length, List.length_replicate, noticeSpace]
  omega

/-! ### One instruction -/

theorem put_same {α : Type} (f : Nat → Option α) (k : Nat) (v : α) : put f k v k = some v := by
  unfold put
  rw [if_pos rfl]

theorem put_other {α : Type} (f : Nat → Option α) {k x : Nat} (v : α) (h : x ≠ k) : put f k v x = f x := by
  unfold put
  rw [if_neg h]

/-- Discriminators have eight bytes. -/
def Discs (B : BoardKeys) : Prop := B.partnerDisc.length = 8 ∧ B.projectDisc.length = 8

theorem siteExec_partners {K : Keys} {B : BoardKeys} {s s' : Site} {ix : SiteInstr} (h : s.exec K B ix = .ok s') (k : Nat) :
    s'.partners k = s.partners k ∨ (s.partners k = none ∧ ∃ f t d, ix = .partnerMetadata k f t ∧ k = B.partnerPda f ∧
      newNotice B.partnerDisc f t = .ok d ∧ s'.partners k = some d) := by
  cases ix with
  | chain ix =>
    simp only [Site.exec, bind_ok, ok_inj] at h
    obtain ⟨c, -, rfl⟩ := h
    exact .inl rfl
  | partnerMetadata a f t =>
    simp only [Site.exec, Site.createPartnerMetadata, bind_ok, req_ok, ok_inj] at h
    obtain ⟨_, ⟨h1, h2⟩, d, hd, rfl⟩ := h
    by_cases e : k = a
    · rw [e]
      exact .inr ⟨h2, f, t, d, rfl, h1, hd, put_same _ _ _⟩
    · exact .inl (put_other _ _ e)
  | poolMetadata a p c t =>
    simp only [Site.exec, Site.createPoolMetadata, bind_ok, req_ok, ok_inj] at h
    obtain ⟨_, _, _, _, _, _, _, _, rfl⟩ := h
    exact .inl rfl
  | dammV2Metadata => cases h; exact .inl rfl
  | closeClaimOperator g a =>
    simp only [Site.exec, Site.closeClaimOperator, bind_ok, req_ok, ok_inj] at h
    obtain ⟨_, _, _, _, rfl⟩ := h
    exact .inl rfl

theorem siteExec_projects {K : Keys} {B : BoardKeys} {s s' : Site} {ix : SiteInstr} (h : s.exec K B ix = .ok s') (k : Nat) :
    s'.projects k = s.projects k ∨ (s.projects k = none ∧ ∃ P pa t d, ix = .poolMetadata k P pa.state.creator t ∧
      s.chain.pools P = some pa ∧ k = B.projectPda P ∧ newNotice B.projectDisc P t = .ok d ∧ s'.projects k = some d) := by
  cases ix with
  | chain ix =>
    simp only [Site.exec, bind_ok, ok_inj] at h
    obtain ⟨c, -, rfl⟩ := h
    exact .inl rfl
  | partnerMetadata a f t =>
    simp only [Site.exec, Site.createPartnerMetadata, bind_ok, req_ok, ok_inj] at h
    obtain ⟨_, _, _, _, rfl⟩ := h
    exact .inl rfl
  | poolMetadata a p c t =>
    simp only [Site.exec, Site.createPoolMetadata, bind_ok, need_ok, req_ok, ok_inj] at h
    obtain ⟨pa, hpa, _, ⟨h1, h2⟩, _, rfl, d, hd, rfl⟩ := h
    by_cases e : k = a
    · rw [e]
      exact .inr ⟨h2, p, pa, t, d, rfl, hpa, h1, hd, put_same _ _ _⟩
    · exact .inl (put_other _ _ e)
  | dammV2Metadata => cases h; exact .inl rfl
  | closeClaimOperator g a =>
    simp only [Site.exec, Site.closeClaimOperator, bind_ok, req_ok, ok_inj] at h
    obtain ⟨_, _, _, _, rfl⟩ := h
    exact .inl rfl

/-! ### C73 -/

/-- C73, partners: whatever partner description exists was published by an instruction signed by the partner key it names
(the account is at that key's address), and reads exactly as it was passed then. -/
theorem C73_partner_genuine {K : Keys} {B : BoardKeys} (hB : Discs B) {admins : List Nat} {legacy : List (Nat × Nat)}
    {h : List (Site × SiteInstr)} {s : Site} (hr : SiteRun K B (Site.empty admins legacy) h s) {k : Nat} {d : List Nat}
    (hd : s.partners k = some d) : ∃ s0 f t, (s0, SiteInstr.partnerMetadata k f t) ∈ h ∧ k = B.partnerPda f ∧
      (f < 2 ^ 256 → readNotice d = some (f, t)) := by
  generalize hs0 : Site.empty admins legacy = s00 at hr
  induction hr with
  | nil => subst hs0; cases hd
  | @snoc s1 s2 h ix hr ht he ih =>
    rcases siteExec_partners he k with e | ⟨-, f, t, d', rfl, hk, hn, e⟩
    · rw [e] at hd
      obtain ⟨s0, f, t, hm, hk, hread⟩ := ih hd
      exact ⟨s0, f, t, List.mem_append_left _ hm, hk, hread⟩
    · rw [e] at hd
      cases hd
      exact ⟨s1, f, t, List.mem_append_right _ (List.mem_singleton.2 rfl), hk, (newNotice_ok hB.1 hn).2.2⟩

/-- C73, projects: whatever pool description exists was published by an instruction signed by the key that was the creator
of the pool it names when it was executed, and reads exactly as it was passed then. -/
theorem C73_project_genuine {K : Keys} {B : BoardKeys} (hB : Discs B) {admins : List Nat} {legacy : List (Nat × Nat)}
    {h : List (Site × SiteInstr)} {s : Site} (hr : SiteRun K B (Site.empty admins legacy) h s) {k : Nat} {d : List Nat}
    (hd : s.projects k = some d) : ∃ s0 P pa signer t, (s0, SiteInstr.poolMetadata k P signer t) ∈ h ∧
      s0.chain.pools P = some pa ∧ pa.state.creator = signer ∧ k = B.projectPda P ∧
      (P < 2 ^ 256 → readNotice d = some (P, t)) := by
  generalize hs0 : Site.empty admins legacy = s00 at hr
  induction hr with
  | nil => subst hs0; cases hd
  | @snoc s1 s2 h ix hr ht he ih =>
    rcases siteExec_projects he k with e | ⟨-, P, pa, t, d', rfl, hP, hk, hn, e⟩
    · rw [e] at hd
      obtain ⟨s0, P, pa, c, t, hm, hP, hc, hk, hread⟩ := ih hd
      exact ⟨s0, P, pa, c, t, List.mem_append_left _ hm, hP, hc, hk, hread⟩
    · rw [e] at hd
      cases hd
      exact ⟨s1, P, pa, _, t, List.mem_append_right _ (List.mem_singleton.2 rfl), hP, rfl, hk, (newNotice_ok hB.2 hn).2.2⟩

/-- C73, permanence: a published description never changes and never disappears, whatever happens afterwards. -/
theorem C73_permanent {K : Keys} {B : BoardKeys} {h : List (Site × SiteInstr)} {s s' : Site} (hr : SiteRun K B s h s')
    {k : Nat} {d : List Nat} :
    (s.partners k = some d → s'.partners k = some d) ∧ (s.projects k = some d → s'.projects k = some d) := by
  induction hr with
  | nil => exact ⟨id, id⟩
  | @snoc s1 s2 h ix hr ht he ih =>
    refine ⟨fun hd => ?_, fun hd => ?_⟩
    · have := ih.1 hd
      rcases siteExec_partners he k with e | ⟨e, -⟩
      · rw [e]; exact this
      · rw [this] at e; cases e
    · have := ih.2 hd
      rcases siteExec_projects he k with e | ⟨e, -⟩
      · rw [e]; exact this
      · rw [this] at e; cases e

/-- C73, availability: a partner who has not published yet can publish any description, and nobody else can use up the
place, provided different keys have different addresses. -/
theorem C73_partner_can_publish {K : Keys} {B : BoardKeys} (hB : Discs B) (hinj : ∀ x y, B.partnerPda x = B.partnerPda y → x = y)
    {admins : List Nat} {legacy : List (Nat × Nat)} {h : List (Site × SiteInstr)} {s : Site}
    (hr : SiteRun K B (Site.empty admins legacy) h s) {f : Nat} {t : Notice} (ht : Short t) (hf : f < 2 ^ 256)
    (hnew : ∀ s0 k t', (s0, SiteInstr.partnerMetadata k f t') ∉ h) :
    ∃ s' d, s.exec K B (.partnerMetadata (B.partnerPda f) f t) = .ok s' ∧ s'.partners (B.partnerPda f) = some d ∧
      readNotice d = some (f, t) := by
  have hn : s.partners (B.partnerPda f) = none := by
    cases e : s.partners (B.partnerPda f) with
    | none => rfl
    | some d =>
      obtain ⟨s0, g, t', hm, hk, -⟩ := C73_partner_genuine hB hr e
      rw [← hinj _ _ hk] at hm
      exact absurd hm (hnew _ _ _)
  obtain ⟨d, hd⟩ := newNotice_total (key := f) hB.1 ht
  refine ⟨{ s with partners := put s.partners (B.partnerPda f) d }, d, ?_, put_same _ _ _, (newNotice_ok hB.1 hd).2.2 hf⟩
  simp only [Site.exec, Site.createPartnerMetadata, bind_ok, req_ok]
  exact ⟨(), ⟨trivial, hn⟩, d, hd, rfl⟩

/-- C73, availability for projects: as long as no description of the pool has been published its creator can publish any. -/
theorem C73_creator_can_publish {K : Keys} {B : BoardKeys} (hB : Discs B)
    (hinj : ∀ x y, B.projectPda x = B.projectPda y → x = y) {admins : List Nat} {legacy : List (Nat × Nat)}
    {h : List (Site × SiteInstr)} {s : Site} (hr : SiteRun K B (Site.empty admins legacy) h s) {P : Nat} {pa : PoolAcc}
    (hP : s.chain.pools P = some pa) {t : Notice} (ht : Short t) (hk : P < 2 ^ 256)
    (hnew : ∀ s0 k c t', (s0, SiteInstr.poolMetadata k P c t') ∉ h) :
    ∃ s' d, s.exec K B (.poolMetadata (B.projectPda P) P pa.state.creator t) = .ok s' ∧
      s'.projects (B.projectPda P) = some d ∧ readNotice d = some (P, t) := by
  have hn : s.projects (B.projectPda P) = none := by
    cases e : s.projects (B.projectPda P) with
    | none => rfl
    | some d =>
      obtain ⟨s0, Q, pa', c, t', hm, -, -, hq, -⟩ := C73_project_genuine hB hr e
      rw [← hinj _ _ hq] at hm
      exact absurd hm (hnew _ _ _ _)
  obtain ⟨d, hd⟩ := newNotice_total (key := P) hB.2 ht
  refine ⟨{ s with projects := put s.projects (B.projectPda P) d }, d, ?_, put_same _ _ _, (newNotice_ok hB.2 hd).2.2 hk⟩
  simp only [Site.exec, Site.createPoolMetadata, bind_ok, need_ok, req_ok]
  exact ⟨pa, hP, (), ⟨trivial, hn⟩, (), rfl, d, hd, rfl⟩

/-- Everybody else is refused. -/
theorem C73_others_refused {K : Keys} {B : BoardKeys} {s s' : Site} {k P signer : Nat} {pa : PoolAcc} {t : Notice}
    (hP : s.chain.pools P = some pa) (h : s.exec K B (.poolMetadata k P signer t) = .ok s') : signer = pa.state.creator := by
  simp only [Site.exec, Site.createPoolMetadata, bind_ok, need_ok, req_ok] at h
  obtain ⟨pa', h1, _, _, _, h2, _⟩ := h
  rw [hP] at h1
  cases h1
  exact h2.symm

theorem chainPart_append (a b : List (Site × SiteInstr)) : chainPart (a ++ b) = chainPart a ++ chainPart b := by
  induction a with
  | nil => rfl
  | cons x a ih =>
    obtain ⟨s, ix⟩ := x
    cases ix <;> simp only [List.cons_append, chainPart, ih]

/-- C73, separation: publishing descriptions and closing legacy accounts has no effect on pools, configurations, token
accounts, mints and operators: these are as if only the other instructions had been executed. -/
theorem C73_apart {K : Keys} {B : BoardKeys} {admins : List Nat} {legacy : List (Nat × Nat)} {h : List (Site × SiteInstr)}
    {s : Site} (hr : SiteRun K B (Site.empty admins legacy) h s) : ChainRun K (Chain.empty admins) (chainPart h) s.chain := by
  generalize hs0 : Site.empty admins legacy = s00 at hr
  induction hr with
  | nil => subst hs0; exact .nil _
  | @snoc s1 s2 h ix hr ht he ih =>
    rw [chainPart_append]
    cases ix with
    | chain ix =>
      simp only [Site.exec, bind_ok, ok_inj] at he
      obtain ⟨c, hc, rfl⟩ := he
      exact .snoc ih ht hc
    | partnerMetadata a f t =>
      simp only [Site.exec, Site.createPartnerMetadata, bind_ok, req_ok, ok_inj] at he
      obtain ⟨_, _, _, _, rfl⟩ := he
      simpa only [chainPart, List.append_nil] using ih
    | poolMetadata a p c t =>
      simp only [Site.exec, Site.createPoolMetadata, bind_ok, req_ok, ok_inj] at he
      obtain ⟨_, _, _, _, _, _, _, _, rfl⟩ := he
      simpa only [chainPart, List.append_nil] using ih
    | dammV2Metadata =>
      cases he
      simpa only [chainPart, List.append_nil] using ih
    | closeClaimOperator g a =>
      simp only [Site.exec, Site.closeClaimOperator, bind_ok, req_ok, ok_inj] at he
      obtain ⟨_, _, _, _, rfl⟩ := he
      simpa only [chainPart, List.append_nil] using ih

/-- Legacy operator accounts are never created, and disappear only when an admin closes that very account. -/
theorem C73_legacy {K : Keys} {B : BoardKeys} {s s' : Site} {ix : SiteInstr} (h : s.exec K B ix = .ok s') :
    (∀ o ∈ s'.legacy, o ∈ s.legacy) ∧
    ∀ o ∈ s.legacy, o ∈ s'.legacy ∨ ∃ signer ∈ s.chain.admins, ix = .closeClaimOperator signer o.1 := by
  have same : s'.legacy = s.legacy → (∀ o ∈ s'.legacy, o ∈ s.legacy) ∧
      ∀ o ∈ s.legacy, o ∈ s'.legacy ∨ ∃ signer ∈ s.chain.admins, ix = .closeClaimOperator signer o.1 := fun e => by
    rw [e]
    exact ⟨fun _ h => h, fun _ h => .inl h⟩
  cases ix with
  | chain ix =>
    simp only [Site.exec, bind_ok, ok_inj] at h
    obtain ⟨c, -, rfl⟩ := h
    exact same rfl
  | partnerMetadata a f t =>
    simp only [Site.exec, Site.createPartnerMetadata, bind_ok, req_ok, ok_inj] at h
    obtain ⟨_, _, _, _, rfl⟩ := h
    exact same rfl
  | poolMetadata a p c t =>
    simp only [Site.exec, Site.createPoolMetadata, bind_ok, req_ok, ok_inj] at h
    obtain ⟨_, _, _, _, _, _, _, _, rfl⟩ := h
    exact same rfl
  | dammV2Metadata => cases h; exact same rfl
  | closeClaimOperator g a =>
    simp only [Site.exec, Site.closeClaimOperator, bind_ok, req_ok, ok_inj] at h
    obtain ⟨_, hg, _, _, rfl⟩ := h
    refine ⟨fun o ho => (List.mem_filter.1 ho).1, fun o ho => ?_⟩
    by_cases e : o.1 = a
    · exact .inr ⟨g, hg, by rw [e]⟩
    · exact .inl (List.mem_filter.2 ⟨ho, decide_eq_true e⟩)

/-! ### A case -/

/-- C73, legacy accounts: they can be closed by an admin as long as they exist, and then they are gone. -/
theorem C73_legacy_close {K : Keys} {B : BoardKeys} {s : Site} {signer account : Nat} :
    ((∃ s', s.exec K B (.closeClaimOperator signer account) = .ok s') ↔
      signer ∈ s.chain.admins ∧ ∃ o ∈ s.legacy, o.1 = account) ∧
    ∀ s', s.exec K B (.closeClaimOperator signer account) = .ok s' → ∀ o ∈ s'.legacy, o.1 ≠ account := by
  simp only [Site.exec, Site.closeClaimOperator, bind_ok, req_ok, ok_inj]
  refine ⟨⟨?_, ?_⟩, ?_⟩
  · rintro ⟨_, _, h1, _, h2, _⟩; exact ⟨h1, h2⟩
  · rintro ⟨h1, h2⟩; exact ⟨_, (), h1, (), h2, rfl⟩
  · rintro s' ⟨_, _, _, _, rfl⟩ o ho
    rw [List.mem_filter, decide_eq_true_eq] at ho
    exact ho.2

theorem siteRun_of_chain {K : Keys} {B : BoardKeys} {admins : List Nat} {legacy : List (Nat × Nat)} {ixs : List Instr}
    {c : Chain} (h : ChainRun K (Chain.empty admins) ixs c) :
    ∃ l, SiteRun K B (Site.empty admins legacy) l { Site.empty admins legacy with chain := c } ∧ chainPart l = ixs := by
  generalize he : Chain.empty admins = c0 at h
  induction h with
  | nil => subst he; exact ⟨[], .nil _, rfl⟩
  | @snoc c1 c2 l ix hr ht hx ih =>
    obtain ⟨h, hh, e⟩ := ih
    refine ⟨_, .snoc (ix := .chain ix) hh ht (s2 := { Site.empty admins legacy with chain := c2 }) ?_, ?_⟩
    · simp only [Site.exec]
      rw [hx]
      rfl
    · rw [chainPart_append, e]
      rfl

def boardKeys : BoardKeys := ⟨fun x => 2 * x, fun x => 2 * x + 1, [1, 2, 3, 4, 5, 6, 7, 8], [8, 7, 6, 5, 4, 3, 2, 1]⟩

def shopNotice : Notice := ⟨[83, 104, 111, 112], [104, 116, 116, 112, 115], []⟩
def coinNotice : Notice := ⟨[67, 111, 105, 110], [], [105, 112, 102, 115]⟩

/-- Two pools have been set up; a legacy operator account is left. -/
def siteStart : Site := { Site.empty [40] [(500, 600)] with chain := Ex.chainOf Ex.setUp }

/-- Run a list of instructions. -/
def sitePlay (s : Site) : List SiteInstr → Res Site
  | [] => .ok s
  | ix :: r => do
    let s1 ← s.exec Ex.keys boardKeys ix
    sitePlay s1 r

theorem sitePlay_snoc {s0 s s' : Site} {h : List (Site × SiteInstr)} {ixs : List SiteInstr}
    (r : SiteRun Ex.keys boardKeys s0 h s) (ht : ∀ ix ∈ ixs, ix.Typed) (hp : sitePlay s ixs = .ok s') :
    ∃ h', SiteRun Ex.keys boardKeys s0 h' s' := by
  induction ixs generalizing s h with
  | nil => cases hp; exact ⟨_, r⟩
  | cons ix ixs ih =>
    simp only [sitePlay, bind_ok] at hp
    obtain ⟨s1, h1, h2⟩ := hp
    exact ih (.snoc r (ht ix (List.mem_cons_self ..)) h1) (fun y hy => ht y (List.mem_cons_of_mem _ hy)) h2

def sitePosts : List SiteInstr :=
  [.partnerMetadata (2 * 11) 11 shopNotice, .poolMetadata (2 * 200300 + 1) 200300 21 coinNotice, .dammV2Metadata,
   .closeClaimOperator 40 500]

/-- The partner 11 and the creator 21 of the pool 200300 publish, a stranger cannot publish about the other pool, nobody can
publish twice, and the admin closes the legacy account. -/
theorem C73_example : Discs boardKeys ∧ (∀ x y, boardKeys.partnerPda x = boardKeys.partnerPda y → x = y) ∧
    (∀ x y, boardKeys.projectPda x = boardKeys.projectPda y → x = y) ∧ Short shopNotice ∧ Short coinNotice ∧
    ∃ h s, SiteRun Ex.keys boardKeys (Site.empty [40] [(500, 600)]) h s ∧
      (s.partners (boardKeys.partnerPda 11)).bind readNotice = some (11, shopNotice) ∧
      (s.projects (boardKeys.projectPda 200300)).bind readNotice = some (200300, coinNotice) ∧ s.legacy = [] ∧
      (s.exec Ex.keys boardKeys (.poolMetadata (2 * 200300 + 1) 200300 21 shopNotice)).isOk = false ∧
      (s.exec Ex.keys boardKeys (.poolMetadata (2 * 200301 + 1) 200301 22 shopNotice)).isOk = false ∧
      (s.exec Ex.keys boardKeys (.poolMetadata (2 * 200301 + 1) 200301 21 shopNotice)).isOk = true := by
  refine ⟨⟨rfl, rfl⟩, fun x y h => ?_, fun x y h => ?_, ⟨by decide, by decide, by decide⟩, ⟨by decide, by decide, by decide⟩, ?_⟩
  · simp only [boardKeys] at h; omega
  · simp only [boardKeys] at h; omega
  obtain ⟨h0, r0, -⟩ := siteRun_of_chain (K := Ex.keys) (B := boardKeys) (legacy := [(500, 600)])
    (Ex.chainRun (ixs := Ex.setUp) (by decide +kernel)
      (fun ix hi => typed_all ix (List.mem_append_left _ (List.mem_append_left _ hi))))
  have hp : sitePlay siteStart sitePosts = .ok ((sitePlay siteStart sitePosts).toOption.getD siteStart) := by
    have : (sitePlay siteStart sitePosts).isOk = true := by decide +kernel
    cases e : sitePlay siteStart sitePosts with
    | error e' => rw [e] at this; cases this
    | ok s => rfl
  obtain ⟨h, r⟩ := sitePlay_snoc r0 (by simp only [sitePosts, List.forall_mem_cons, SiteInstr.Typed, true_and]; intro x hx; cases hx) hp
  exact ⟨h, _, r, by decide +kernel, by decide +kernel, by decide +kernel, by decide +kernel, by decide +kernel, by decide +kernel⟩

end Props

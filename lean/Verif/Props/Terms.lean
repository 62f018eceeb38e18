import Verif.Spec.Terms
import Verif.Props.Board
import Verif.Props.Lp

/-!
# The terms of a pool never change: C81
-/

namespace Props
open Dbc Spec

/-! ### One pool -/

/-- What no operation on a pool changes. -/
structure KeptTerms (w w' : World) : Prop where
  poolType : w'.pool.poolType = w.pool.poolType
  opening : w'.pool.activationPoint = w.pool.activationPoint
  bps : w'.pool.migrationFeeBps = w.pool.migrationFeeBps
  mintAuth : w'.mintAuth = w.mintAuth
  updateAuth : w'.updateAuth = w.updateAuth

theorem KeptTerms.trans {a b c : World} (h : KeptTerms a b) (k : KeptTerms b c) : KeptTerms a c :=
  ⟨k.1.trans h.1, k.2.trans h.2, k.3.trans h.3, k.4.trans h.4, k.5.trans h.5⟩

theorem step_keptTerms {w w' : World} {op : Op} (h : w.step op = .ok w') : KeptTerms w w' := by
  rcases step_cases h with ⟨a, _, hs⟩ | hs
  · obtain ⟨_, _, _, _, _, s⟩ := swap_ok hs
    exact ⟨by rw [s.poolFrame], by rw [s.poolFrame], by rw [s.poolFrame], by rw [s.frame], by rw [s.frame]⟩
  · obtain ⟨_, _, _, _, _, _, _, h1, _, _, h2, h3, _, _, _, _, _, _, _, _, _, _, _, _, _, h4, h5, _⟩ := hs
    exact ⟨h3, h1, h2, h4, h5⟩

theorem run_keptTerms {w w' : World} {ops : List Op} (h : Run w ops w') : KeptTerms w w' := by
  induction h with
  | nil => exact ⟨rfl, rfl, rfl, rfl, rfl⟩
  | cons h1 _ ih => exact (step_keptTerms h1).trans ih

/-- Operations that are not a transfer of the creator role leave the creator. -/
theorem run_creator {w w' : World} {ops : List Op} (hr : Reachable w) (h : Run w ops w')
    (ho : ∀ o ∈ ops, Outside o) : w'.pool.creator = w.pool.creator := by
  induction h with
  | nil => rfl
  | @cons w w1 w2 op ops h1 _ ih =>
    rw [ih (hr.step h1) (fun o x => ho o (List.mem_cons_of_mem _ x))]
    by_contra hne
    obtain ⟨n, e, _⟩ := C37_change hr h1 hne
    have := ho op (List.mem_cons_self ..)
    rw [e] at this
    exact this

/-! ### The chain -/

theorem sameTerms_of {K : Keys} {s s' : Chain} {P : Nat} {w w' : World} {pa : PoolAcc} (hp : s.pools P = some pa)
    (hf : Fixed s s') (hv : s.view K P = some w) (hv' : s'.view K P = some w') (k : KeptTerms w w') :
    ∃ pa', s'.pools P = some pa' ∧ SameTerms s s' pa pa' ∧ pa.state.creator = w.pool.creator ∧
      pa'.state.creator = w'.pool.creator := by
  obtain ⟨pa', hp', ha⟩ := hf.pools P pa hp
  obtain ⟨_, ⟨_, e, a1, _, _, _, _, _, _, a2, a3, _⟩, _, _⟩ := view_shows hv
  rw [hp] at e
  cases e
  obtain ⟨_, ⟨_, e, b1, _, _, _, _, _, _, b2, b3, _⟩, _, _⟩ := view_shows hv'
  rw [hp'] at e
  cases e
  refine ⟨pa', hp', ⟨ha, ?_, ?_, ?_, ?_, ?_⟩, by rw [a1], by rw [b1]⟩
  · rw [← a1, ← b1]; exact k.poolType
  · rw [← a1, ← b1]; exact k.opening
  · rw [← a1, ← b1]; exact k.bps
  · rw [← a3, ← b3]; exact k.updateAuth
  · rw [b2, a2, k.mintAuth]

theorem exec_terms {K : Keys} {s s' : Chain} {ix : Instr} {P : Nat} {pa : PoolAcc} (h : Arises K s) (ht : ix.Typed)
    (hx : s.exec K ix = .ok s') (hp : s.pools P = some pa) :
    ∃ pa', s'.pools P = some pa' ∧ SameTerms s s' pa pa' ∧ pa'.state.creator = creatorAfter P pa.state.creator [ix] ∧
      ∀ c m g n, ix = .transferCreator P c m g n → g = pa.state.creator := by
  have hf := exec_fixed hx
  obtain ⟨_, hc⟩ := exec_step h.inv ht hx
  obtain ⟨w, hv⟩ := view_some h.inv hp
  have hre := h.reach hv
  rcases hc with ⟨Q, op, hq, as, _, ⟨v, w1, w', h1, h2, ⟨gs, g, r⟩, h4⟩, ho⟩ | ⟨hn, _, ho⟩ | ⟨a, e, hno, _, ho⟩
  · by_cases hQ : P = Q
    · subst hQ
      rw [hv] at h1
      cases h1
      obtain ⟨pa', hp', t, e1, e2⟩ := sameTerms_of hp hf hv h4 ((step_keptTerms h2).trans (run_keptTerms r))
      refine ⟨pa', hp', t, ?_, ?_⟩
      · rw [e2, e1, run_creator (hre.step h2) r (fun o x => Gift.outside (g o x))]
        cases as
        case transferCreator p c m s n =>
          cases hq
          obtain ⟨_, _, _, e⟩ := transferCreator_ok h2
          simp only [creatorAfter, e, if_true]
        all_goals
          simp only [creatorAfter]
          by_contra hne
          obtain ⟨_, e, _⟩ := C37_change hre h2 hne
          cases e
      · intro c m g n e
        subst e
        cases as
        obtain ⟨e, _⟩ := transferCreator_ok h2
        rw [e1, e]
    · obtain ⟨w', ⟨gs, g, r⟩, hv'⟩ := ho P w hQ hv
      obtain ⟨pa', hp', t, e1, e2⟩ := sameTerms_of hp hf hv hv' (run_keptTerms r)
      refine ⟨pa', hp', t, ?_, ?_⟩
      · rw [e2, e1, run_creator hre r (fun o x => Gift.outside (g o x))]
        cases as
        case transferCreator p c m s n =>
          cases hq
          simp only [creatorAfter, if_neg (Ne.symm hQ)]
        all_goals rfl
      · intro c m g n e
        subst e
        cases hq
        exact absurd rfl hQ
  · obtain ⟨gs, w', g, r, hv'⟩ := ho P w hv
    obtain ⟨pa', hp', t, e1, e2⟩ := sameTerms_of hp hf hv hv' (run_keptTerms r)
    refine ⟨pa', hp', t, ?_, ?_⟩
    · rw [e2, e1, run_creator hre r g]
      cases ix <;> first | rfl | cases hn
    · intro c m g n e
      subst e
      cases hn
  · subst e
    have hne : P ≠ a.pool := fun e => by rw [e, hno] at hp; cases hp
    obtain ⟨pa', hp', t, e1, e2⟩ := sameTerms_of hp hf hv (by rw [(ho P hne).2]; exact hv) (run_keptTerms (.nil w))
    exact ⟨pa', hp', t, by rw [e2, e1]; rfl, fun _ _ _ _ e => by cases e⟩

theorem creatorAfter_append (P c : Nat) (l l' : List Instr) :
    creatorAfter P c (l ++ l') = creatorAfter P (creatorAfter P c l) l' := by
  induction l generalizing c with
  | nil => rfl
  | cons ix l ih => cases ix <;> simp only [List.cons_append, creatorAfter, ih]

theorem SameTerms.trans' {s s1 s2 : Chain} {a b c : PoolAcc} (h : SameTerms s s1 a b) (k : SameTerms s1 s2 b c) :
    SameTerms s s2 a c := by
  obtain ⟨⟨a1, a2, a3, a4⟩, h2, h3, h4, h5, h6⟩ := h
  obtain ⟨⟨b1, b2, b3, b4⟩, k2, k3, k4, k5, k6⟩ := k
  exact ⟨⟨b1.trans a1, b2.trans a2, b3.trans a3, b4.trans a4⟩, k2.trans h2, k3.trans h3, k4.trans h4, k5.trans h5, k6.trans h6⟩

/-- A history of the whole program, seen by the accounts of `Verif.Model.Chain`. -/
theorem siteRun_chain {K : Keys} {B : BoardKeys} {h : List (Site × SiteInstr)} {s s' : Site} (hr : SiteRun K B s h s') :
    ChainRun K s.chain (chainPart h) s'.chain := by
  induction hr with
  | nil => exact .nil _
  | @snoc s1 s2 h ix hr ht he ih =>
    rw [chainPart_append]
    cases ix with
    | chain ix =>
      simp only [Site.exec, bind_ok, ok_inj] at he
      obtain ⟨c, hc, rfl⟩ := he
      exact .snoc ih ht hc
    | partnerMetadata a f t =>
      simp only [Site.exec, Site.createPartnerMetadata, bind_ok, req_ok, ok_inj] at he
      obtain ⟨_, _, _, _, rfl⟩ := he
      simpa only [chainPart, List.append_nil] using ih
    | poolMetadata a p c t =>
      simp only [Site.exec, Site.createPoolMetadata, bind_ok, req_ok, ok_inj] at he
      obtain ⟨_, _, _, _, _, _, _, _, rfl⟩ := he
      simpa only [chainPart, List.append_nil] using ih
    | dammV2Metadata =>
      cases he
      simpa only [chainPart, List.append_nil] using ih
    | closeClaimOperator g a =>
      simp only [Site.exec, Site.closeClaimOperator, bind_ok, req_ok, ok_inj] at he
      obtain ⟨_, _, _, _, rfl⟩ := he
      simpa only [chainPart, List.append_nil] using ih

/-! ### Only one instruction makes configurations -/

/-- The configurations are the same. -/
def SameConfigs (s s' : Chain) : Prop := s'.configs = s.configs

theorem SameConfigs.trans {s s1 s2 : Chain} (h : SameConfigs s s1) (k : SameConfigs s1 s2) : SameConfigs s s2 := Eq.trans k h

theorem give_configs {s s' : Chain} {m d a : Nat} (h : s.give m d a = .ok s') : SameConfigs s s' := by
  simp only [Chain.give, bind_ok, req_ok, need_ok, ok_inj] at h
  obtain ⟨t, ht, _, hm, rfl⟩ := h
  rfl

theorem credit_configs {K : Keys} {s s' : Chain} {m d a : Nat} (h : s.credit K m d a = .ok s') : SameConfigs s s' := by
  simp only [Chain.credit, bind_ok, need_ok] at h
  obtain ⟨_, _, h⟩ := h
  exact give_configs h

theorem debit_configs {K : Keys} {s s' : Chain} {g m d a : Nat} (h : s.debit K g m d a = .ok s') : SameConfigs s s' := by
  simp only [Chain.debit, bind_ok, req_ok, need_ok, ok_inj] at h
  obtain ⟨_, _, _, _, _, _, _, _, rfl⟩ := h
  rfl

theorem withhold_configs {K : Keys} {s s' : Chain} {m d a : Nat} (h : s.withhold K m d a = .ok s') : SameConfigs s s' := by
  simp only [Chain.withhold, bind_ok, need_ok, ok_inj] at h
  obtain ⟨_, _, _, _, rfl⟩ := h
  rfl

theorem save_configs {s : Chain} {P b q : Nat} {l : Loaded} {w : World} : SameConfigs s (s.save P b q l w) := rfl

theorem quoteOut_configs {K : Keys} {s s' : Chain} {a : QuoteIx} {f : World → Res World} (h : s.quoteOut K a f = .ok s') :
    SameConfigs s s' := by
  simp only [Chain.quoteOut, bind_ok, req_ok, need_ok] at h
  obtain ⟨_, _, l, hl, _, _, _, _, _, _, w, _, h⟩ := h
  exact save_configs.trans (credit_configs h)

theorem lamportsOut_configs {K : Keys} {s s' : Chain} {P c r : Nat} {f : World → Res World}
    (h : s.lamportsOut K P c r f = .ok s') : SameConfigs s s' := by
  simp only [Chain.lamportsOut, bind_ok, req_ok, need_ok, ok_inj] at h
  obtain ⟨_, _, l, hl, _, _, w, _, rfl⟩ := h
  rfl

theorem lpOut_configs {s s' : Chain} {P m : Nat} {f : World → Res World} (h : s.lpOut P m f = .ok s') : SameConfigs s s' := by
  simp only [Chain.lpOut, bind_ok, req_ok, need_ok, ok_inj] at h
  obtain ⟨pa, _, _, _, l, hl, _, _, w, _, _, _, rfl⟩ := h
  rfl

theorem exec_configs {K : Keys} {s s' : Chain} {ix : Instr} (h : s.exec K ix = .ok s')
    (hne : ∀ k q f r n p, ix ≠ .createConfig k q f r n p) : SameConfigs s s' := by
  cases ix
  case createConfig key qm fc lr now p => exact absurd rfl (hne _ _ _ _ _ _)
  case initPool a =>
    simp only [Chain.exec, Chain.initPool, bind_ok, req_ok, need_ok, ok_inj] at h
    obtain ⟨c, hc, _, e1, qm, hqm, _, hbm, _, ⟨ep, hp⟩, _, ⟨eb, hb⟩, _, ⟨eq, hq, hne⟩, w, hw, rfl⟩ := h
    rfl
  case swap a =>
    simp only [Chain.exec, Chain.swap, bind_ok, req_ok, need_ok, Prod.exists] at h
    obtain ⟨l, hl, _, _, _, _, _, _, r, fm, _, w, _, s1, h1, s2, h2, h⟩ := h
    refine (debit_configs h1).trans (save_configs.trans ((withhold_configs h2).trans ?_))
    simp only [Chain.swapPay, bind_ok] at h
    obtain ⟨s3, h3, h⟩ := h
    refine (credit_configs h3).trans ?_
    cases hr : a.referral with
    | none =>
      rw [hr] at h
      cases h
      rfl
    | some k =>
      rw [hr] at h
      exact credit_configs h
  case claimProtocolFee a g b q =>
    simp only [Chain.exec, Chain.claimProtocolFee, bind_ok, req_ok] at h
    obtain ⟨l, hl, _, _, _, _, _, _, w, _, s1, h1, h⟩ := h
    refine (save_configs (P := a.pool) (b := a.baseVault) (q := a.quoteVault) (l := l) (w := w)).trans
      (SameConfigs.trans (s1 := s1) ?_ ?_)
    · split at h1
      · simp only [bind_ok] at h1
        obtain ⟨_, _, h1⟩ := h1
        exact credit_configs h1
      · cases h1
        rfl
    · split at h
      · simp only [bind_ok] at h
        obtain ⟨_, _, h⟩ := h
        exact credit_configs h
      · cases h
        rfl
  case zapProtocolFee p c v m r g x z =>
    simp only [Chain.exec, Chain.zapProtocolFee, bind_ok, req_ok, need_ok] at h
    obtain ⟨_, _, _, _, _, _, _, _, _, _, _, _, h⟩ := h
    split at h
    · simp only [bind_ok, req_ok] at h
      obtain ⟨_, _, l, hl, w, _, _, _, _, _, _, _, h⟩ := h
      exact save_configs.trans (credit_configs h)
    · simp only [bind_ok, req_ok] at h
      obtain ⟨_, _, l, hl, w, _, _, _, _, _, _, _, h⟩ := h
      exact save_configs.trans (credit_configs h)
  case claimPartnerFee =>
    simp only [Chain.exec, Chain.claimPartnerFee, bind_ok, req_ok] at h
    obtain ⟨l, hl, _, _, _, _, _, _, w, _, s1, h1, h⟩ := h
    exact save_configs.trans ((credit_configs h1).trans (credit_configs h))
  case claimCreatorFee =>
    simp only [Chain.exec, Chain.claimCreatorFee, bind_ok, req_ok, need_ok] at h
    obtain ⟨_, _, l, hl, _, _, _, _, w, _, s1, h1, h⟩ := h
    exact save_configs.trans ((credit_configs h1).trans (credit_configs h))
  case partnerWithdrawSurplus =>
    simp only [Chain.exec] at h
    exact quoteOut_configs h
  case creatorWithdrawSurplus =>
    simp only [Chain.exec] at h
    exact quoteOut_configs h
  case withdrawMigrationFee =>
    simp only [Chain.exec] at h
    exact quoteOut_configs h
  case claimPartnerCreationFee =>
    simp only [Chain.exec] at h
    exact lamportsOut_configs h
  case claimProtocolCreationFee =>
    simp only [Chain.exec, Chain.claimProtocolCreationFee, bind_ok] at h
    obtain ⟨_, _, h⟩ := h
    exact lamportsOut_configs h
  case createLocker =>
    simp only [Chain.exec, Chain.createLocker, bind_ok, req_ok, need_ok] at h
    obtain ⟨_, _, l, hl, _, _, _, _, w, _, h⟩ := h
    exact save_configs.trans (credit_configs h)
  case migrateV1 a mk x =>
    simp only [Chain.exec, Chain.migrateV1, bind_ok, req_ok, need_ok] at h
    obtain ⟨_, _, l, hl, _, _, _, _, w, _, _, _, s1, h1, h⟩ := h
    exact SameConfigs.trans (s1 := s1) (credit_configs h1 :) (credit_configs h)
  case migrateV2 =>
    simp only [Chain.exec, Chain.migrateV2, bind_ok, req_ok] at h
    obtain ⟨l, hl, _, _, _, _, w, _, s1, h1, h⟩ := h
    exact save_configs.trans ((credit_configs h1).trans (credit_configs h))
  case withdrawLeftover =>
    simp only [Chain.exec, Chain.withdrawLeftover, bind_ok, req_ok, need_ok] at h
    obtain ⟨_, _, l, hl, _, _, _, _, _, _, w, _, h⟩ := h
    exact save_configs.trans (credit_configs h)
  case createMeta =>
    simp only [Chain.exec, Chain.createMeta, bind_ok, req_ok, need_ok, ok_inj] at h
    obtain ⟨_, _, _, _, _, _, _, _, _, _, _, _, rfl⟩ := h
    rfl
  case lockLp =>
    simp only [Chain.exec] at h
    exact lpOut_configs h
  case claimLp =>
    simp only [Chain.exec] at h
    exact lpOut_configs h
  case transferCreator =>
    simp only [Chain.exec, Chain.transferCreator, bind_ok, req_ok, need_ok, ok_inj] at h
    obtain ⟨_, _, l, hl, _, _, w, _, rfl⟩ := h
    rfl
  case createOperator =>
    simp only [Chain.exec, Chain.createOperator, bind_ok, req_ok, ok_inj] at h
    obtain ⟨_, _, _, _, _, _, rfl⟩ := h
    rfl
  case closeOperator =>
    simp only [Chain.exec, Chain.closeOperator, bind_ok, req_ok, ok_inj] at h
    obtain ⟨_, _, rfl⟩ := h
    rfl
  case newMint =>
    simp only [Chain.exec, Chain.newMint, bind_ok, req_ok, ok_inj] at h
    obtain ⟨_, _, rfl⟩ := h
    rfl
  case newAccount =>
    simp only [Chain.exec, Chain.newAccount, bind_ok, req_ok, need_ok, ok_inj] at h
    obtain ⟨_, _, _, _, rfl⟩ := h
    rfl
  case transfer =>
    simp only [Chain.exec, Chain.transfer, bind_ok] at h
    obtain ⟨s1, h1, h⟩ := h
    exact (debit_configs h1).trans (credit_configs h)
  case seize =>
    simp only [Chain.exec, Chain.seize, bind_ok, req_ok, need_ok] at h
    obtain ⟨_, _, _, _, _, _, _, _, h⟩ := h
    exact (credit_configs h :)
  case mintTo g m d a =>
    simp only [Chain.exec, Chain.mintTo, bind_ok, req_ok, need_ok] at h
    obtain ⟨_, _, _, _, _, _, h⟩ := h
    exact (give_configs h :)
  case burn =>
    simp only [Chain.exec, Chain.burn, bind_ok, need_ok, ok_inj] at h
    obtain ⟨_, _, s1, h1, rfl⟩ := h
    exact SameConfigs.trans (s1 := s1) (debit_configs h1) rfl
  case reassign =>
    simp only [Chain.exec, Chain.reassign, bind_ok, req_ok, need_ok, ok_inj] at h
    obtain ⟨_, _, _, _, _, _, _, _, rfl⟩ := h
    rfl
  case sendLamports =>
    cases h
    rfl

/-! ### C81 -/

/-- C81, configurations: whatever instructions are executed, a configuration stays exactly as it is, all fields. -/
theorem C81_config_permanent {K : Keys} {B : BoardKeys} {s s' : Site} {h : List (Site × SiteInstr)} {k : Nat} {c : PoolConfig}
    (hr : SiteRun K B s h s') (hc : s.chain.configs k = some c) : s'.chain.configs k = some c := by
  have hr := siteRun_chain hr
  generalize chainPart h = ixs at hr
  generalize s.chain = s0, s'.chain = s1 at hr hc
  induction hr with
  | nil => exact hc
  | snoc _ _ hx ih => exact (exec_fixed hx).configs k c ih

/-- C81, pools: a pool once created never disappears and never changes its configuration, token, vaults, kind, opening time
or authorities, whatever instructions are executed; its creator is the one named in the last transfer of the role. -/
theorem C81_pool_permanent {K : Keys} {B : BoardKeys} {s s' : Site} {h : List (Site × SiteInstr)} {P : Nat} {pa : PoolAcc}
    (ha : Arises K s.chain) (hr : SiteRun K B s h s') (hp : s.chain.pools P = some pa) :
    ∃ pa', s'.chain.pools P = some pa' ∧ SameTerms s.chain s'.chain pa pa' ∧
      pa'.state.creator = creatorAfter P pa.state.creator (chainPart h) := by
  have hr := siteRun_chain hr
  generalize chainPart h = ixs at hr
  generalize s.chain = s0, s'.chain = s1 at ha hr hp
  suffices Arises K s1 ∧ ∃ pa', s1.pools P = some pa' ∧ SameTerms s0 s1 pa pa' ∧
      pa'.state.creator = creatorAfter P pa.state.creator ixs from this.2
  induction hr with
  | nil => exact ⟨ha, pa, hp, ⟨⟨rfl, rfl, rfl, rfl⟩, rfl, rfl, rfl, rfl, rfl⟩, rfl⟩
  | snoc _ ht hx ih =>
    obtain ⟨a1, p1, h1, t1, e1⟩ := ih
    obtain ⟨p2, h2, t2, e2, _⟩ := exec_terms a1 ht hx h1
    exact ⟨a1.step ht hx, p2, h2, SameTerms.trans' t1 t2, by rw [creatorAfter_append, ← e1]; exact e2⟩

/-- C81: the transfer of the role is signed by the creator it is taken from. -/
theorem C81_transfer_signed {K : Keys} {s s' : Chain} {P c g n : Nat} {m : Option Nat} {pa : PoolAcc} (h : Arises K s)
    (hx : s.exec K (.transferCreator P c m g n) = .ok s') (hp : s.pools P = some pa) : g = pa.state.creator := by
  obtain ⟨_, _, _, _, h⟩ := exec_terms (ix := .transferCreator P c m g n) h trivial hx hp
  exact h c m g n rfl

theorem agreed_of {p : ConfigParams} {env : ConfigEnv} {c : PoolConfig} (h : createConfig p env = .ok c) :
    Agreed env.quoteMint env.feeClaimer env.leftoverReceiver p c := by
  have ha := createConfig_ok h
  have hs := ha.supply
  have e := ha.eq
  constructor
  case noSupply =>
    intro h0
    rw [resolveTokenSupply, h0] at hs
    simp only [ok_inj, Prod.mk.injEq] at hs
    exact hs.1.symm
  case supply =>
    intro pre post h0
    rw [resolveTokenSupply, h0] at hs
    simp only [bind_ok, req_ok, ok_inj, Prod.mk.injEq] at hs
    obtain ⟨_, _, _, _, _, _, _, _, _, _, h1, h2, h3⟩ := hs
    exact ⟨h1.symm, h2.symm, h3.symm⟩
  case partnerVesting => rw [e]; exact ⟨rfl, rfl, rfl, rfl, rfl⟩
  case creatorVesting => rw [e]; exact ⟨rfl, rfl, rfl, rfl, rfl⟩
  case firstSwap =>
    rw [e]
    show (if p.enableFirstSwapMinFee then 1 else 0) = 1 ↔ _
    cases p.enableFirstSwapMinFee <;> simp
  case curve => rw [e]; exact ⟨_, rfl⟩
  all_goals rw [e]; rfl

/-- C81, origin: every configuration was made by an instruction naming its address, and records exactly what was asked for
there. -/
theorem C81_config_origin {K : Keys} {B : BoardKeys} {admins : List Nat} {legacy : List (Nat × Nat)} {s : Site}
    {h : List (Site × SiteInstr)} {k : Nat} {c : PoolConfig} (hr : SiteRun K B (Site.empty admins legacy) h s)
    (hc : s.chain.configs k = some c) :
    ∃ q f r now p, .createConfig k q f r now p ∈ chainPart h ∧ Agreed q f r p c := by
  have hr := siteRun_chain hr
  generalize chainPart h = ixs at hr
  generalize hs0 : (Site.empty admins legacy).chain = s0 at hr
  generalize s.chain = s1 at hr hc
  have hn : s0.configs k = none := by rw [← hs0]; rfl
  clear hs0
  induction hr with
  | nil => rw [hn] at hc; cases hc
  | @snoc s1 s2 ixs ix _ ht hx ih =>
    have old : s1.configs k = some c → ∃ q f r now p, .createConfig k q f r now p ∈ ixs ++ [ix] ∧ Agreed q f r p c := by
      intro hc
      obtain ⟨q, f, r, now, p, hm, ha⟩ := ih hc
      exact ⟨q, f, r, now, p, List.mem_append_left _ hm, ha⟩
    cases h1 : s1.configs k with
    | some c1 =>
      have := (exec_fixed hx).configs k c1 h1
      rw [hc] at this
      cases this
      exact old h1
    | none =>
      by_cases hix : ∃ k q f r n p, ix = .createConfig k q f r n p
      · obtain ⟨k', q, f, r, now, p, rfl⟩ := hix
        simp only [Chain.exec, Chain.createConfig, bind_ok, req_ok, need_ok, ok_inj] at hx
        obtain ⟨_, _, m, _, b, _, c', hcc, rfl⟩ := hx
        dsimp only [put] at hc
        by_cases e : k = k'
        · subst e
          rw [if_pos rfl] at hc
          cases hc
          exact ⟨q, f, r, now, p, List.mem_append_right _ (List.mem_singleton.2 rfl), agreed_of hcc⟩
        · rw [if_neg e] at hc
          exact old hc
      · have := exec_configs hx (fun k q f r n p e => hix ⟨k, q, f, r, n, p, e⟩)
        rw [SameConfigs] at this
        rw [this] at hc
        exact old hc

/-- C81, origin: every pool was made by an instruction naming its address, its configuration and its token, and its creator
is the one named there or in the last transfer of the role since. -/
theorem C81_pool_origin {K : Keys} {B : BoardKeys} {admins : List Nat} {legacy : List (Nat × Nat)} {s : Site}
    {h : List (Site × SiteInstr)} {P : Nat} {pa : PoolAcc} (hr : SiteRun K B (Site.empty admins legacy) h s)
    (hp : s.chain.pools P = some pa) :
    ∃ a before after, chainPart h = before ++ .initPool a :: after ∧ a.pool = P ∧ pa.config = a.config ∧
      pa.baseMint = a.baseMint ∧ pa.baseVault = a.baseVault ∧ pa.quoteVault = a.quoteVault ∧
      pa.state.creator = creatorAfter P a.creator after := by
  have hr := siteRun_chain hr
  generalize chainPart h = ixs at hr
  have ha0 : Arises K (Site.empty admins legacy).chain := ⟨admins, [], .nil _⟩
  have hn : (Site.empty admins legacy).chain.pools P = none := rfl
  generalize (Site.empty admins legacy).chain = s0 at hr ha0 hn
  generalize s.chain = s1 at hr hp
  suffices Arises K s1 ∧ ∀ pa, s1.pools P = some pa → ∃ a before after, ixs = before ++ .initPool a :: after ∧ a.pool = P ∧
      pa.config = a.config ∧ pa.baseMint = a.baseMint ∧ pa.baseVault = a.baseVault ∧ pa.quoteVault = a.quoteVault ∧
      pa.state.creator = creatorAfter P a.creator after from this.2 pa hp
  clear hp pa
  induction hr with
  | nil => exact ⟨ha0, fun pa hp => by rw [hn] at hp; cases hp⟩
  | @snoc s1 s2 ixs ix _ ht hx ih =>
    obtain ⟨h1, ih⟩ := ih
    refine ⟨h1.step ht hx, fun pa hp => ?_⟩
    cases ho : s1.pools P with
    | some p1 =>
      obtain ⟨a, b, l, e, e1, e2, e3, e4, e5, e6⟩ := ih p1 ho
      obtain ⟨p2, h2, t, ec, _⟩ := exec_terms h1 ht hx ho
      rw [hp] at h2
      cases h2
      refine ⟨a, b, l ++ [ix], by rw [e, List.append_assoc, List.cons_append], e1, t.addresses.1.trans e2,
        t.addresses.2.1.trans e3, t.addresses.2.2.1.trans e4, t.addresses.2.2.2.trans e5, ?_⟩
      rw [ec, e6, creatorAfter_append]
    | none =>
      obtain ⟨a, w, rfl, ea, _⟩ := C60_new_pools h1 ht hx ho hp
      refine ⟨a, ixs, [], rfl, ea, ?_⟩
      simp only [Chain.exec, Chain.initPool, bind_ok, req_ok, need_ok, ok_inj] at hx
      obtain ⟨c, hc, _, e1, qm, hqm, _, hbm, _, ⟨ep, hpo⟩, _, ⟨eb, hb⟩, _, ⟨eq, hq, hne⟩, w, hw, rfl⟩ := hx
      dsimp only [put] at hp
      rw [if_pos ea.symm] at hp
      cases hp
      obtain ⟨_, _, _, _, _, _, _, _, _, _, _, _, _, rfl⟩ := initPool_ok hw
      exact ⟨rfl, rfl, rfl, rfl, rfl⟩

/-! ### Example -/

/-- Everything that happens after the two pools were made: trading, completion, migration, all claims and the transfer of the
first pool's creator role from 21 to 22. -/
def laterPosts : List SiteInstr := (Ex.dealing ++ Ex.finishing).map .chain

theorem sitePlay_history {s0 s s' : Site} {h : List (Site × SiteInstr)} {ixs : List Instr}
    (r : SiteRun Ex.keys boardKeys s0 h s) (ht : ∀ ix ∈ ixs, ix.Typed) (hp : sitePlay s (ixs.map .chain) = .ok s') :
    ∃ h', SiteRun Ex.keys boardKeys s0 h' s' ∧ chainPart h' = chainPart h ++ ixs := by
  induction ixs generalizing s h with
  | nil => cases hp; exact ⟨_, r, (List.append_nil _).symm⟩
  | cons ix ixs ih =>
    simp only [List.map_cons, sitePlay, bind_ok] at hp
    obtain ⟨s1, h1, h2⟩ := hp
    obtain ⟨h', r', e⟩ := ih (.snoc (ix := .chain ix) r (ht ix (List.mem_cons_self ..)) h1)
      (fun y hy => ht y (List.mem_cons_of_mem _ hy)) h2
    exact ⟨h', r', by rw [e, chainPart_append, List.append_assoc]; rfl⟩

/-- The two pools are made and then the first is traded, migrated, emptied and transferred. -/
theorem C81_example : ∃ h0 h s', SiteRun Ex.keys boardKeys (Site.empty [40] [(500, 600)]) h0 siteStart ∧
    Arises Ex.keys siteStart.chain ∧ SiteRun Ex.keys boardKeys siteStart h s' ∧
    chainPart h = Ex.dealing ++ Ex.finishing ∧
    (siteStart.chain.pools 200300).map (·.state.creator) = some 21 ∧ (s'.chain.pools 200300).map (·.state.creator) = some 22 ∧
    (siteStart.chain.configs 80).isSome ∧ creatorAfter 200300 21 (chainPart h) = 22 := by
  have hc := Ex.chainRun (ixs := Ex.setUp) (by decide +kernel)
    (fun ix hi => typed_all ix (List.mem_append_left _ (List.mem_append_left _ hi)))
  obtain ⟨h0, r0, -⟩ := siteRun_of_chain (K := Ex.keys) (B := boardKeys) (legacy := [(500, 600)]) hc
  have hp : sitePlay siteStart laterPosts = .ok ((sitePlay siteStart laterPosts).toOption.getD siteStart) := by
    have : (sitePlay siteStart laterPosts).isOk = true := by decide +kernel
    cases e : sitePlay siteStart laterPosts with
    | error e' => rw [e] at this; cases this
    | ok s => rfl
  obtain ⟨h, r, e⟩ := sitePlay_history (.nil siteStart)
    (fun ix hi => typed_all ix (by rw [List.append_assoc]; exact List.mem_append_right _ hi)) hp
  rw [chainPart, List.nil_append] at e
  exact ⟨h0, h, _, r0, ⟨_, _, hc⟩, r, e, by decide +kernel, by decide +kernel, by decide +kernel, by rw [e]; decide +kernel⟩

end Props

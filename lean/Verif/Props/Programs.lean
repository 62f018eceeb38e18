import Verif.Props.Terms
import Verif.Spec.Programs

/-!
# C88: which token programs a pool uses
-/

namespace Props
open Dbc Spec

/-! ### No instruction changes the program or the extensions of a mint -/

/-- Every mint is still there, under the same token program and with the same extensions. -/
def KeptMints (s s' : Chain) : Prop :=
  ∀ k m, s.mints k = some m → ∃ m', s'.mints k = some m' ∧ m'.program = m.program ∧ m'.exts = m.exts

theorem KeptMints.same {s s' : Chain} (h : s'.mints = s.mints) : KeptMints s s' :=
  fun k m hm => ⟨m, by rw [h]; exact hm, rfl, rfl⟩

theorem KeptMints.trans {s s1 s2 : Chain} (h : KeptMints s s1) (k : KeptMints s1 s2) : KeptMints s s2 := by
  intro x m hm
  obtain ⟨m1, h1, e1, f1⟩ := h x m hm
  obtain ⟨m2, h2, e2, f2⟩ := k x m1 h1
  exact ⟨m2, h2, e2.trans e1, f2.trans f1⟩

theorem KeptMints.put {s s' : Chain} {k : Nat} {m v : MintAcc} (h : s.mints k = some m) (e : v.program = m.program)
    (f : v.exts = m.exts) (hs : s'.mints = put s.mints k v) : KeptMints s s' := by
  intro x m' hx
  rw [hs]
  by_cases hk : x = k
  · subst hk
    rw [h] at hx
    cases hx
    exact ⟨v, put_same _ _ _, e, f⟩
  · exact ⟨m', by rw [put_ne _ _ hk]; exact hx, rfl, rfl⟩

theorem KeptMints.fresh {s s' : Chain} {k : Nat} {v : MintAcc} (h : s.mints k = none) (hs : s'.mints = Dbc.put s.mints k v) :
    KeptMints s s' := by
  intro x m' hx
  rw [hs]
  by_cases hk : x = k
  · subst hk
    rw [h] at hx
    cases hx
  · exact ⟨m', by rw [put_ne _ _ hk]; exact hx, rfl, rfl⟩

theorem give_mints {s s' : Chain} {m d a : Nat} (h : s.give m d a = .ok s') : KeptMints s s' := by
  simp only [Chain.give, bind_ok, req_ok, need_ok, ok_inj] at h
  obtain ⟨t, ht, _, hm, rfl⟩ := h
  exact .same rfl

theorem credit_mints {K : Keys} {s s' : Chain} {m d a : Nat} (h : s.credit K m d a = .ok s') : KeptMints s s' := by
  simp only [Chain.credit, bind_ok, need_ok] at h
  obtain ⟨_, _, h⟩ := h
  exact give_mints h

theorem debit_mints {K : Keys} {s s' : Chain} {g m d a : Nat} (h : s.debit K g m d a = .ok s') : KeptMints s s' := by
  simp only [Chain.debit, bind_ok, req_ok, need_ok, ok_inj] at h
  obtain ⟨_, _, _, _, _, _, _, _, rfl⟩ := h
  exact .same rfl

theorem withhold_mints {K : Keys} {s s' : Chain} {m d a : Nat} (h : s.withhold K m d a = .ok s') : KeptMints s s' := by
  simp only [Chain.withhold, bind_ok, need_ok, ok_inj] at h
  obtain ⟨_, _, _, _, rfl⟩ := h
  exact .same rfl

theorem save_mints {s : Chain} {P b q : Nat} {l : Loaded} {w : World} : KeptMints s (s.save P b q l w) := by
  cases e : s.mints l.bv.mint with
  | none => exact .same (by dsimp only [Chain.save]; rw [e])
  | some m => exact .put (v := { m with supply := w.supply }) e rfl rfl (by dsimp only [Chain.save]; rw [e])

theorem quoteOut_mints {K : Keys} {s s' : Chain} {a : QuoteIx} {f : World → Res World} (h : s.quoteOut K a f = .ok s') :
    KeptMints s s' := by
  simp only [Chain.quoteOut, bind_ok, req_ok, need_ok] at h
  obtain ⟨_, _, l, hl, _, _, _, _, _, _, w, _, h⟩ := h
  exact save_mints.trans (credit_mints h)

theorem lamportsOut_mints {K : Keys} {s s' : Chain} {P c r : Nat} {f : World → Res World}
    (h : s.lamportsOut K P c r f = .ok s') : KeptMints s s' := by
  simp only [Chain.lamportsOut, bind_ok, req_ok, need_ok, ok_inj] at h
  obtain ⟨pa, _, l, hl, _, _, w, _, rfl⟩ := h
  exact KeptMints.trans (save_mints (P := P) (b := pa.baseVault) (q := pa.quoteVault) (l := l) (w := w)) (.same rfl)

theorem lpOut_mints {s s' : Chain} {P m : Nat} {f : World → Res World} (h : s.lpOut P m f = .ok s') : KeptMints s s' := by
  simp only [Chain.lpOut, bind_ok, req_ok, need_ok, ok_inj] at h
  obtain ⟨pa, _, _, _, l, hl, _, _, w, _, _, _, rfl⟩ := h
  exact KeptMints.trans (save_mints (P := P) (b := pa.baseVault) (q := pa.quoteVault) (l := l) (w := w)) (.same rfl)

theorem exec_mints {K : Keys} {s s' : Chain} {ix : Instr} (h : s.exec K ix = .ok s') : KeptMints s s' := by
  cases ix
  case createConfig key qm fc lr now p => 
    simp only [Chain.exec, Chain.createConfig, bind_ok, req_ok, need_ok, ok_inj] at h
    obtain ⟨_, _, m, _, b, _, c', hcc, rfl⟩ := h
    exact .same rfl
  case initPool a =>
    simp only [Chain.exec, Chain.initPool, bind_ok, req_ok, need_ok, ok_inj] at h
    obtain ⟨c, hc, _, e1, qm, hqm, _, hbm, _, ⟨ep, hp⟩, _, ⟨eb, hb⟩, _, ⟨eq, hq, hne⟩, w, hw, rfl⟩ := h
    exact .fresh hbm rfl
  case swap a =>
    simp only [Chain.exec, Chain.swap, bind_ok, req_ok, need_ok, Prod.exists] at h
    obtain ⟨l, hl, _, _, _, _, _, _, r, fm, _, w, _, s1, h1, s2, h2, h⟩ := h
    refine (debit_mints h1).trans (save_mints.trans ((withhold_mints h2).trans ?_))
    simp only [Chain.swapPay, bind_ok] at h
    obtain ⟨s3, h3, h⟩ := h
    refine (credit_mints h3).trans ?_
    cases hr : a.referral with
    | none =>
      rw [hr] at h
      cases h
      exact .same rfl
    | some k =>
      rw [hr] at h
      exact credit_mints h
  case claimProtocolFee a g b q =>
    simp only [Chain.exec, Chain.claimProtocolFee, bind_ok, req_ok] at h
    obtain ⟨l, hl, _, _, _, _, _, _, w, _, s1, h1, h⟩ := h
    refine (save_mints (P := a.pool) (b := a.baseVault) (q := a.quoteVault) (l := l) (w := w)).trans
      (KeptMints.trans (s1 := s1) ?_ ?_)
    · split at h1
      · simp only [bind_ok] at h1
        obtain ⟨_, _, h1⟩ := h1
        exact credit_mints h1
      · cases h1
        exact .same rfl
    · split at h
      · simp only [bind_ok] at h
        obtain ⟨_, _, h⟩ := h
        exact credit_mints h
      · cases h
        exact .same rfl
  case zapProtocolFee p c v m r g x z =>
    simp only [Chain.exec, Chain.zapProtocolFee, bind_ok, req_ok, need_ok] at h
    obtain ⟨_, _, _, _, _, _, _, _, _, _, _, _, h⟩ := h
    split at h
    · simp only [bind_ok, req_ok] at h
      obtain ⟨_, _, l, hl, w, _, _, _, _, _, _, _, h⟩ := h
      exact save_mints.trans (credit_mints h)
    · simp only [bind_ok, req_ok] at h
      obtain ⟨_, _, l, hl, w, _, _, _, _, _, _, _, h⟩ := h
      exact save_mints.trans (credit_mints h)
  case claimPartnerFee =>
    simp only [Chain.exec, Chain.claimPartnerFee, bind_ok, req_ok] at h
    obtain ⟨l, hl, _, _, _, _, _, _, w, _, s1, h1, h⟩ := h
    exact save_mints.trans ((credit_mints h1).trans (credit_mints h))
  case claimCreatorFee =>
    simp only [Chain.exec, Chain.claimCreatorFee, bind_ok, req_ok, need_ok] at h
    obtain ⟨_, _, l, hl, _, _, _, _, w, _, s1, h1, h⟩ := h
    exact save_mints.trans ((credit_mints h1).trans (credit_mints h))
  case partnerWithdrawSurplus =>
    simp only [Chain.exec] at h
    exact quoteOut_mints h
  case creatorWithdrawSurplus =>
    simp only [Chain.exec] at h
    exact quoteOut_mints h
  case withdrawMigrationFee =>
    simp only [Chain.exec] at h
    exact quoteOut_mints h
  case claimPartnerCreationFee =>
    simp only [Chain.exec] at h
    exact lamportsOut_mints h
  case claimProtocolCreationFee =>
    simp only [Chain.exec, Chain.claimProtocolCreationFee, bind_ok] at h
    obtain ⟨_, _, h⟩ := h
    exact lamportsOut_mints h
  case createLocker =>
    simp only [Chain.exec, Chain.createLocker, bind_ok, req_ok, need_ok] at h
    obtain ⟨_, _, l, hl, _, _, _, _, w, _, h⟩ := h
    exact save_mints.trans (credit_mints h)
  case migrateV1 a mk x =>
    simp only [Chain.exec, Chain.migrateV1, bind_ok, req_ok, need_ok] at h
    obtain ⟨_, _, l, hl, _, _, _, _, w, _, _, _, s1, h1, h⟩ := h
    exact (save_mints (P := a.pool) (b := a.baseVault) (q := a.quoteVault) (l := l) (w := w)).trans
      (KeptMints.trans (s1 := s1) (credit_mints h1 :) (credit_mints h))
  case migrateV2 =>
    simp only [Chain.exec, Chain.migrateV2, bind_ok, req_ok] at h
    obtain ⟨l, hl, _, _, _, _, w, _, s1, h1, h⟩ := h
    exact save_mints.trans ((credit_mints h1).trans (credit_mints h))
  case withdrawLeftover =>
    simp only [Chain.exec, Chain.withdrawLeftover, bind_ok, req_ok, need_ok] at h
    obtain ⟨_, _, l, hl, _, _, _, _, _, _, w, _, h⟩ := h
    exact save_mints.trans (credit_mints h)
  case createMeta =>
    simp only [Chain.exec, Chain.createMeta, bind_ok, req_ok, need_ok, ok_inj] at h
    obtain ⟨_, _, _, _, _, _, _, _, _, _, _, _, rfl⟩ := h
    exact .same rfl
  case lockLp =>
    simp only [Chain.exec] at h
    exact lpOut_mints h
  case claimLp =>
    simp only [Chain.exec] at h
    exact lpOut_mints h
  case transferCreator =>
    simp only [Chain.exec, Chain.transferCreator, bind_ok, req_ok, need_ok, ok_inj] at h
    obtain ⟨_, _, l, hl, _, _, w, _, rfl⟩ := h
    exact KeptMints.trans (save_mints (l := l) (w := w)) (.same rfl)
  case createOperator =>
    simp only [Chain.exec, Chain.createOperator, bind_ok, req_ok, ok_inj] at h
    obtain ⟨_, _, _, _, _, _, rfl⟩ := h
    exact .same rfl
  case closeOperator =>
    simp only [Chain.exec, Chain.closeOperator, bind_ok, req_ok, ok_inj] at h
    obtain ⟨_, _, rfl⟩ := h
    exact .same rfl
  case newMint =>
    simp only [Chain.exec, Chain.newMint, bind_ok, req_ok, ok_inj] at h
    obtain ⟨_, hn, rfl⟩ := h
    exact .fresh hn rfl
  case newAccount =>
    simp only [Chain.exec, Chain.newAccount, bind_ok, req_ok, need_ok, ok_inj] at h
    obtain ⟨_, _, _, _, rfl⟩ := h
    exact .same rfl
  case transfer =>
    simp only [Chain.exec, Chain.transfer, bind_ok] at h
    obtain ⟨s1, h1, h⟩ := h
    exact (debit_mints h1).trans (credit_mints h)
  case seize =>
    simp only [Chain.exec, Chain.seize, bind_ok, req_ok, need_ok] at h
    obtain ⟨_, _, _, _, _, _, _, _, h⟩ := h
    exact (credit_mints h :)
  case mintTo g m d a =>
    simp only [Chain.exec, Chain.mintTo, bind_ok, req_ok, need_ok] at h
    obtain ⟨m0, hm, _, _, _, _, h⟩ := h
    exact KeptMints.trans (.put (v := { m0 with supply := m0.supply + a }) hm rfl rfl rfl) (give_mints h)
  case burn g m d a =>
    simp only [Chain.exec, Chain.burn, bind_ok, need_ok, ok_inj] at h
    obtain ⟨m0, hm, s1, h1, rfl⟩ := h
    obtain ⟨m1, hm1, e, f⟩ := debit_mints h1 _ _ hm
    exact KeptMints.trans (s1 := s1) (debit_mints h1) (.put (v := { m0 with supply := m0.supply - a }) hm1 e.symm f.symm rfl)
  case reassign =>
    simp only [Chain.exec, Chain.reassign, bind_ok, req_ok, need_ok, ok_inj] at h
    obtain ⟨_, _, _, _, _, _, _, _, rfl⟩ := h
    exact .same rfl
  case sendLamports =>
    cases h
    exact .same rfl

/-! ### C88 -/

theorem _root_.Spec.RunsOn.kept {s s' : Chain} {m n : Nat} (h : RunsOn s m n) (k : KeptMints s s') : RunsOn s' m n := by
  unfold RunsOn at h ⊢
  cases e : s.mints m with
  | none => rw [e] at h; cases h
  | some v =>
    rw [e] at h
    obtain ⟨v', h', e', _⟩ := k m v e
    rw [h', Option.map_some, e']
    exact h

theorem _root_.Spec.SaysTrue.kept {s s' : Chain} {c : PoolConfig} (h : SaysTrue s c) (k : KeptMints s s') : SaysTrue s' c := by
  obtain ⟨⟨n, h1, h2⟩, h3, h4⟩ := h
  exact ⟨⟨n, h1.kept k, h2⟩, h3, fun e => ⟨(h4 e).1.kept k, (h4 e).2⟩⟩

theorem createConfig_says {K : Keys} {s s' : Chain} {k q f r now : Nat} {p : ConfigParams} {c : PoolConfig}
    (h : s.exec K (.createConfig k q f r now p) = .ok s') (hc : s'.configs k = some c) : SaysTrue s' c := by
  have hk := exec_mints h
  simp only [Chain.exec, Chain.createConfig, bind_ok, req_ok, need_ok, ok_inj] at h
  obtain ⟨_, _, m, hm, b, _, c', hcc, rfl⟩ := h
  dsimp only at hc
  rw [put_same] at hc
  cases hc
  have ha := createConfig_ok hcc
  have hv := validate_ok ha.validated
  have e1 : c.quoteMint = q := by rw [ha.eq]; rfl
  have e2 : c.quoteTokenFlag = if decide (m.program = 0) then 0 else 1 := by rw [ha.eq]; rfl
  have e3 : c.tokenType = p.tokenType := by rw [ha.eq]; rfl
  have e4 : c.migrationOption = p.migrationOption := by rw [ha.eq]; rfl
  have r : RunsOn s q m.program := by rw [RunsOn, hm]; rfl
  refine SaysTrue.kept (s := s) ⟨⟨m.program, by rw [e1]; exact r, ?_⟩, by rw [e3]; exact hv.tokenType, fun h0 => ?_⟩ hk
  · rw [e2]
    by_cases h0 : m.program = 0
    · exact .inl ⟨by rw [decide_eq_true h0]; rfl, h0⟩
    · exact .inr ⟨by rw [decide_eq_false h0]; rfl, h0⟩
  · have ho := hv.optionOk
    rw [validateMigrationOption, if_pos (e4 ▸ h0)] at ho
    simp only [bind_ok, req_ok] at ho
    obtain ⟨_, t0, _, q0, _⟩ := ho
    rw [e1, e3]
    exact ⟨of_decide_eq_true q0 ▸ r, t0⟩

/-- C88, configurations: what a configuration records about the programs of its tokens is so at every point of every history,
and a configuration for the first AMM, which knows only the classic token program, is for classic tokens only. -/
theorem C88_config {K : Keys} {s : Chain} {k : Nat} {c : PoolConfig} (h : Arises K s) (hc : s.configs k = some c) :
    SaysTrue s c := by
  obtain ⟨admins, ixs, hr⟩ := h
  have hn : (Chain.empty admins).configs k = none := rfl
  generalize Chain.empty admins = s0 at hr hn
  induction hr with
  | nil => rw [hn] at hc; cases hc
  | @snoc s1 s2 ixs ix _ ht hx ih =>
    have hk := exec_mints hx
    by_cases hix : ∃ k q f r n p, ix = .createConfig k q f r n p
    · obtain ⟨k', q, f, r, now, p, rfl⟩ := hix
      by_cases e : k = k'
      · subst e
        exact createConfig_says hx hc
      · have hx' := hx
        simp only [Chain.exec, Chain.createConfig, bind_ok, req_ok, need_ok, ok_inj] at hx'
        obtain ⟨_, _, m, _, b, _, c', hcc, rfl⟩ := hx'
        dsimp only at hc
        rw [put_ne _ _ e] at hc
        exact (ih hc).kept hk
    · have := exec_configs hx (fun k q f r n p e => hix ⟨k, q, f, r, n, p, e⟩)
      rw [SameConfigs] at this
      rw [this] at hc
      exact (ih hc).kept hk

/-- C88, pools: the base token of a pool is under the program its configuration asks for, and the pool account records it. -/
theorem C88_pool {K : Keys} {s : Chain} {P : Nat} {pa : PoolAcc} {c : PoolConfig} (h : Arises K s)
    (hp : s.pools P = some pa) (hc : s.configs pa.config = some c) :
    RunsOn s pa.baseMint c.tokenType ∧ pa.state.poolType = c.tokenType := by
  obtain ⟨admins, ixs, hr⟩ := h
  have hn : (Chain.empty admins).pools P = none := rfl
  have h0 : Arises K (Chain.empty admins) := ⟨admins, [], .nil _⟩
  generalize Chain.empty admins = s0 at hr hn h0
  suffices Arises K s ∧ ∀ pa c, s.pools P = some pa → s.configs pa.config = some c →
      RunsOn s pa.baseMint c.tokenType ∧ pa.state.poolType = c.tokenType from this.2 pa c hp hc
  clear hp hc pa c
  induction hr with
  | nil => exact ⟨h0, fun pa c hp => by rw [hn] at hp; cases hp⟩
  | @snoc s1 s2 ixs ix _ ht hx ih =>
    obtain ⟨h1, ih⟩ := ih
    refine ⟨h1.step ht hx, fun pa c hp hc => ?_⟩
    cases ho : s1.pools P with
    | some p1 =>
      obtain ⟨p2, h2, t, _⟩ := exec_terms h1 ht hx ho
      rw [hp] at h2
      cases h2
      obtain ⟨c1, hc1, _⟩ := C59_vaults h1 ho
      have hcc := (exec_fixed hx).configs _ _ hc1
      rw [← t.addresses.1, hc] at hcc
      cases hcc
      obtain ⟨i1, i2⟩ := ih p1 c ho hc1
      exact ⟨by rw [t.addresses.2.1]; exact i1.kept (exec_mints hx), t.poolType.trans i2⟩
    | none =>
      obtain ⟨a, w, rfl, ea, _⟩ := C60_new_pools h1 ht hx ho hp
      simp only [Chain.exec, Chain.initPool, bind_ok, req_ok, need_ok, ok_inj] at hx
      obtain ⟨c', hc', _, e1, qm, hqm, _, hbm, _, ⟨ep, hpo⟩, _, ⟨eb, hb⟩, _, ⟨eq, hq, hne⟩, w, hw, rfl⟩ := hx
      dsimp only at hp hc
      rw [← ea, put_same] at hp
      cases hp
      dsimp only at hc
      rw [hc'] at hc
      cases hc
      obtain ⟨_, _, _, _, _, _, _, _, _, ht', _, _, _, rfl⟩ := initPool_ok hw
      refine ⟨?_, ?_⟩
      · unfold RunsOn
        dsimp only
        rw [put_same, Option.map_some, ht']
      · exact ht'.symm

/-- C88, migration: a pool that can be sent to the first AMM has two classic tokens. -/
theorem C88_first_amm {K : Keys} {s s' : Chain} {a : MigrateIx} {mk : Nat} {x : V1Args} {pa : PoolAcc} {c : PoolConfig}
    (h : Arises K s) (hx : s.exec K (.migrateV1 a mk x) = .ok s') (hp : s.pools a.pool = some pa)
    (hc : s.configs pa.config = some c) : RunsOn s pa.baseMint 0 ∧ RunsOn s c.quoteMint 0 := by
  simp only [Chain.exec, Chain.migrateV1, bind_ok, req_ok, need_ok] at hx
  obtain ⟨_, _, l, hl, _, ⟨_, _, e⟩, _, _, w, hw, _⟩ := hx
  obtain ⟨_, _, _, _, _, _, _, _, ho, _⟩ := migrateV1_ok hw
  obtain ⟨bm, hpa, hcf, _, _, _, ew⟩ := load_ok hl
  rw [hp] at hpa
  obtain rfl := Option.some.inj hpa
  rw [← e, hc] at hcf
  obtain rfl := Option.some.inj hcf
  have ho : l.c.migrationOption = 0 := by rw [ew] at ho; exact ho
  obtain ⟨h1, h2⟩ := (C88_config h hc).old ho
  exact ⟨h2 ▸ (C88_pool h hp hc).1, h1⟩

/-- The shared history: the first pool has a classic token and is migrated to the first AMM, the second a Token-2022 token.
A configuration for the first AMM is refused for a Token-2022 quote mint that one for the second AMM is accepted with. -/
theorem C88_example : Arises Ex.keys (stateAt 33) ∧
    ((stateAt 33).exec Ex.keys (history.getD 33 (.sendLamports 0 0))).isOk = true ∧
    (∃ a m x, history.getD 33 (.sendLamports 0 0) = .migrateV1 a m x ∧ a.pool = 200300) ∧
    ((stateAt 33).pools 200300).map (·.state.poolType) = some 0 ∧
    ((stateAt 33).pools 200301).map (·.state.poolType) = some 1 ∧
    RunsOn (stateAt 33) 300 0 ∧ RunsOn (stateAt 33) 301 1 ∧ RunsOn (stateAt 33) 7 0 := by
  refine ⟨arises_at 33 (by decide +kernel), by decide +kernel, ⟨_, _, _, rfl, rfl⟩, by decide +kernel, by decide +kernel,
    ?_, ?_, ?_⟩ <;> unfold RunsOn <;> decide +kernel

/-- A Token-2022 quote mint 8 next to the shared history. -/
def newQuote : Chain := (((stateAt 33).exec Ex.keys (.newMint 8 1 [.tokenMetadata] (some 60))).toOption).getD (stateAt 33)

theorem C88_refused : (newQuote.exec Ex.keys (.createConfig 90 8 11 12 1000000 Ex.paramsA)).isOk = false ∧
    (newQuote.exec Ex.keys (.createConfig 90 8 11 12 1000000 Ex.paramsB)).isOk = true ∧
    (newQuote.exec Ex.keys (.createConfig 90 7 11 12 1000000 Ex.paramsA)).isOk = true := by
  decide +kernel

end Props

import Verif.Lemmas.ChainMoves

/-!
# What never changes on chain; reachability of every view
-/

namespace Dbc
open Spec

/-! ### Reachability -/

theorem Fed.reach {w w' : World} (h : Fed w w') (hr : Reachable w) : Reachable w' := by
  obtain ⟨ops, _, r⟩ := h
  exact hr.run r

theorem exec_reach {K : Keys} {s s' : Chain} {ix : Instr} (i : Inv K s still) (ht : ix.Typed) (h : s.exec K ix = .ok s')
    (hre : ∀ P w, s.view K P = some w → Reachable w) : ∀ P w, s'.view K P = some w → Reachable w := by
  obtain ⟨i', hx⟩ := exec_step i ht h
  intro Q w hw
  rcases hx with ⟨P, op, _, _, d1, ⟨v, v1, v', h1, h2, h3, h4⟩, d3⟩ | ⟨_, d1, d2⟩ |
    ⟨a, _, hn, ⟨c, v, _, _, _, g, hv⟩, ho⟩
  · by_cases e : Q = P
    · subst e
      rw [h4] at hw
      cases hw
      exact h3.reach ((hre _ _ h1).step h2)
    · cases hv : s.view K Q with
      | none =>
        have hp : s.pools Q = none := by
          cases hp : s.pools Q with
          | none => rfl
          | some pa =>
            obtain ⟨_, _, _, _, w'⟩ := i.wired Q pa hp
            rw [view_eq hp w'.cfg w'.base w'.quote w'.mint] at hv
            cases hv
        have := (d1 Q).2 hp
        unfold Chain.view at hw
        rw [this] at hw
        cases hw
      | some u =>
        obtain ⟨u', f, hu⟩ := d3 Q u e hv
        rw [hu] at hw
        cases hw
        exact f.reach (hre _ _ hv)
  · cases hv : s.view K Q with
    | none =>
      have hp : s.pools Q = none := by
        cases hp : s.pools Q with
        | none => rfl
        | some pa =>
          obtain ⟨_, _, _, _, w'⟩ := i.wired Q pa hp
          rw [view_eq hp w'.cfg w'.base w'.quote w'.mint] at hv
          cases hv
      have := (d1 Q).2 hp
      unfold Chain.view at hw
      rw [this] at hw
      cases hw
    | some u =>
      obtain ⟨ops, u', _, r, hu⟩ := d2 Q u hv
      rw [hu] at hw
      cases hw
      exact (hre _ _ hv).run r
  · by_cases e : Q = a.pool
    · subst e
      rw [hv] at hw
      cases hw
      exact g.reachable
    · rw [(ho Q e).2] at hw
      exact hre _ _ hw

theorem ChainRun.reach {K : Keys} {s s' : Chain} {ixs : List Instr} (r : ChainRun K s ixs s') (i : Inv K s still)
    (hre : ∀ P w, s.view K P = some w → Reachable w) : ∀ P w, s'.view K P = some w → Reachable w := by
  induction r with
  | nil => exact hre
  | snoc r ht h ih => exact exec_reach (r.inv i) ht h ih

theorem view_some {K : Keys} {s : Chain} (i : Inv K s still) {P : Nat} {pa : PoolAcc} (hp : s.pools P = some pa) :
    ∃ w, s.view K P = some w := by
  obtain ⟨_, _, _, _, w⟩ := i.wired P pa hp
  exact ⟨_, view_eq hp w.cfg w.base w.quote w.mint⟩

theorem view_shows {K : Keys} {s : Chain} {P : Nat} {w : World} (h : s.view K P = some w) : Shows s P w := by
  unfold Chain.view at h
  cases hp : s.pools P with
  | none => rw [hp] at h; cases h
  | some pa =>
    rw [hp] at h
    dsimp only at h
    cases h1 : s.configs pa.config with
    | none => rw [h1] at h; cases h
    | some c =>
      cases h2 : getTok s.tokens pa.baseVault with
      | none => rw [h1, h2] at h; cases h
      | some bv =>
        cases h3 : getTok s.tokens pa.quoteVault with
        | none => rw [h1, h2, h3] at h; cases h
        | some qv =>
          cases h4 : s.mints pa.baseMint with
          | none => rw [h1, h2, h3, h4] at h; cases h
          | some bm =>
            rw [h1, h2, h3, h4] at h
            cases h
            refine ⟨rfl, ⟨pa, hp, rfl, rfl, rfl, ?_, ?_, ?_, ?_, ?_, rfl, rfl, rfl, rfl, rfl, rfl, rfl⟩, rfl, rfl⟩
            · rw [h1]; rfl
            · unfold balance; rw [h2]; rfl
            · unfold balance; rw [h3]; rfl
            · rw [h4]; rfl
            · rw [h4]; rfl

/-! ### Addresses -/

/-- Nothing recorded about a configuration or a pool's addresses changed. -/
structure Fixed (s s' : Chain) : Prop where
  configs : ∀ k c, s.configs k = some c → s'.configs k = some c
  pools : ∀ P pa, s.pools P = some pa → ∃ pa', s'.pools P = some pa' ∧ SameAddresses pa pa'

theorem SameAddresses.rfl' {pa : PoolAcc} : SameAddresses pa pa := ⟨rfl, rfl, rfl, rfl⟩

theorem Fixed.of {s s' : Chain} (h1 : s'.configs = s.configs) (h2 : s'.pools = s.pools) : Fixed s s' :=
  ⟨fun k c h => by rw [h1]; exact h, fun P pa h => ⟨pa, by rw [h2]; exact h, SameAddresses.rfl'⟩⟩

theorem Fixed.trans {s s1 s2 : Chain} (h1 : Fixed s s1) (h2 : Fixed s1 s2) : Fixed s s2 := by
  refine ⟨fun k c h => h2.configs k c (h1.configs k c h), fun P pa h => ?_⟩
  obtain ⟨p1, k1, a1, a2, a3, a4⟩ := h1.pools P pa h
  obtain ⟨p2, k2, b1, b2, b3, b4⟩ := h2.pools P p1 k1
  exact ⟨p2, k2, b1.trans a1, b2.trans a2, b3.trans a3, b4.trans a4⟩

theorem give_fixed {s s' : Chain} {m d a : Nat} (h : s.give m d a = .ok s') : Fixed s s' := by
  simp only [Chain.give, bind_ok, req_ok, need_ok, ok_inj] at h
  obtain ⟨t, ht, _, hm, rfl⟩ := h
  refine ⟨fun _ _ h => h, fun P pa hp => ⟨pa.note d a, ?_, rfl, rfl, rfl, rfl⟩⟩
  dsimp only [noteIn]
  rw [hp]
  rfl

theorem credit_fixed {K : Keys} {s s' : Chain} {m d a : Nat} (h : s.credit K m d a = .ok s') : Fixed s s' := by
  simp only [Chain.credit, bind_ok, need_ok] at h
  obtain ⟨_, _, h⟩ := h
  exact give_fixed h

theorem debit_fixed {K : Keys} {s s' : Chain} {g m d a : Nat} (h : s.debit K g m d a = .ok s') : Fixed s s' := by
  simp only [Chain.debit, bind_ok, req_ok, need_ok, ok_inj] at h
  obtain ⟨_, _, _, _, _, _, _, _, rfl⟩ := h
  exact Fixed.of rfl rfl

theorem withhold_fixed {K : Keys} {s s' : Chain} {m d a : Nat} (h : s.withhold K m d a = .ok s') : Fixed s s' := by
  simp only [Chain.withhold, bind_ok, need_ok, ok_inj] at h
  obtain ⟨_, _, _, _, rfl⟩ := h
  exact Fixed.of rfl rfl

theorem save_fixed {s : Chain} {P b q : Nat} {l : Loaded} {w : World} (h : s.pools P = some l.pa) :
    Fixed s (s.save P b q l w) := by
  refine ⟨fun _ _ h => h, fun Q pa hp => ?_⟩
  dsimp only [Chain.save, put]
  by_cases e : Q = P
  · subst e
    rw [h] at hp
    cases hp
    rw [if_pos rfl]
    exact ⟨_, rfl, rfl, rfl, rfl, rfl⟩
  · rw [if_neg e]
    exact ⟨pa, hp, SameAddresses.rfl'⟩

theorem giveLamports_fixed {s : Chain} {d a : Nat} : Fixed s (s.giveLamports d a) := by
  refine ⟨fun _ _ h => h, fun Q pa hp => ?_⟩
  dsimp only [Chain.giveLamports]
  rw [hp]
  dsimp only [Option.map]
  split
  · exact ⟨_, rfl, rfl, rfl, rfl, rfl⟩
  · exact ⟨_, rfl, SameAddresses.rfl'⟩

theorem load_pool {s : Chain} {P c b q : Nat} {md : Option DammMeta} {l : Loaded} (h : s.load P c b q md = .ok l) :
    s.pools P = some l.pa := by
  simp only [Chain.load, bind_ok, need_ok, ok_inj] at h
  obtain ⟨_, h1, _, _, _, _, _, _, _, _, rfl⟩ := h
  exact h1

theorem quoteOut_fixed {K : Keys} {s s' : Chain} {a : QuoteIx} {f : World → Res World} (h : s.quoteOut K a f = .ok s') :
    Fixed s s' := by
  simp only [Chain.quoteOut, bind_ok, req_ok, need_ok] at h
  obtain ⟨_, _, l, hl, _, _, _, _, _, _, w, _, h⟩ := h
  exact (save_fixed (load_pool hl)).trans (credit_fixed h)

theorem lamportsOut_fixed {K : Keys} {s s' : Chain} {P c r : Nat} {f : World → Res World}
    (h : s.lamportsOut K P c r f = .ok s') : Fixed s s' := by
  simp only [Chain.lamportsOut, bind_ok, req_ok, need_ok, ok_inj] at h
  obtain ⟨_, _, l, hl, _, _, w, _, rfl⟩ := h
  exact (save_fixed (load_pool hl)).trans giveLamports_fixed

theorem lpOut_fixed {s s' : Chain} {P m : Nat} {f : World → Res World} (h : s.lpOut P m f = .ok s') : Fixed s s' := by
  simp only [Chain.lpOut, bind_ok, req_ok, need_ok, ok_inj] at h
  obtain ⟨pa, _, _, _, l, hl, _, _, w, _, _, _, rfl⟩ := h
  exact (save_fixed (P := P) (b := pa.baseVault) (q := pa.quoteVault) (l := l) (w := w) (load_pool hl)).trans
    (Fixed.of rfl rfl)

theorem exec_fixed {K : Keys} {s s' : Chain} {ix : Instr} (h : s.exec K ix = .ok s') : Fixed s s' := by
  cases ix
  case createConfig key qm fc lr now p =>
    simp only [Chain.exec, Chain.createConfig, bind_ok, req_ok, need_ok, ok_inj] at h
    obtain ⟨_, hn, _, _, _, _, c, _, rfl⟩ := h
    refine ⟨fun k c' hk => ?_, fun P pa hp => ⟨pa, hp, SameAddresses.rfl'⟩⟩
    dsimp only [put]
    rw [if_neg (fun e => by rw [e, hn] at hk; cases hk)]
    exact hk
  case initPool a =>
    simp only [Chain.exec, Chain.initPool, bind_ok, req_ok, need_ok, ok_inj] at h
    obtain ⟨c, hc, _, e1, qm, hqm, _, hbm, _, ⟨ep, hp⟩, _, ⟨eb, hb⟩, _, ⟨eq, hq, hne⟩, w, hw, rfl⟩ := h
    refine ⟨fun k c' hk => hk, fun P pa hpa => ⟨pa, ?_, SameAddresses.rfl'⟩⟩
    dsimp only [put]
    rw [if_neg (fun e => by rw [e, hp] at hpa; cases hpa)]
    exact hpa
  case swap a =>
    simp only [Chain.exec, Chain.swap, bind_ok, req_ok, need_ok, Prod.exists] at h
    obtain ⟨l, hl, _, _, _, _, _, _, r, fm, _, w, _, s1, h1, s2, h2, h⟩ := h
    refine (debit_fixed h1).trans ((save_fixed (l := l) ?_).trans ((withhold_fixed h2).trans ?_))
    · simp only [Chain.debit, bind_ok, req_ok, need_ok, ok_inj] at h1
      obtain ⟨_, _, _, _, _, _, _, _, rfl⟩ := h1
      exact (load_pool hl :)
    · simp only [Chain.swapPay, bind_ok] at h
      obtain ⟨s3, h3, h⟩ := h
      refine (credit_fixed h3).trans ?_
      cases hr : a.referral with
      | none =>
        rw [hr] at h
        cases h
        exact Fixed.of rfl rfl
      | some k =>
        rw [hr] at h
        exact credit_fixed h
  case claimProtocolFee a g b q =>
    simp only [Chain.exec, Chain.claimProtocolFee, bind_ok, req_ok] at h
    obtain ⟨l, hl, _, _, _, _, _, _, w, _, s1, h1, h⟩ := h
    refine (save_fixed (b := a.baseVault) (q := a.quoteVault) (w := w) (load_pool hl)).trans (Fixed.trans (s1 := s1) ?_ ?_)
    · split at h1
      · simp only [bind_ok] at h1
        obtain ⟨_, _, h1⟩ := h1
        exact credit_fixed h1
      · cases h1
        exact Fixed.of rfl rfl
    · split at h
      · simp only [bind_ok] at h
        obtain ⟨_, _, h⟩ := h
        exact credit_fixed h
      · cases h
        exact Fixed.of rfl rfl
  case zapProtocolFee p c v m r g x z =>
    simp only [Chain.exec, Chain.zapProtocolFee, bind_ok, req_ok, need_ok] at h
    obtain ⟨_, _, _, _, _, _, _, _, _, _, _, _, h⟩ := h
    split at h
    · simp only [bind_ok, req_ok] at h
      obtain ⟨_, _, l, hl, w, _, _, _, _, _, _, _, h⟩ := h
      exact (save_fixed (load_pool hl)).trans (credit_fixed h)
    · simp only [bind_ok, req_ok] at h
      obtain ⟨_, _, l, hl, w, _, _, _, _, _, _, _, h⟩ := h
      exact (save_fixed (load_pool hl)).trans (credit_fixed h)
  case claimPartnerFee =>
    simp only [Chain.exec, Chain.claimPartnerFee, bind_ok, req_ok] at h
    obtain ⟨l, hl, _, _, _, _, _, _, w, _, s1, h1, h⟩ := h
    exact (save_fixed (load_pool hl)).trans ((credit_fixed h1).trans (credit_fixed h))
  case claimCreatorFee =>
    simp only [Chain.exec, Chain.claimCreatorFee, bind_ok, req_ok, need_ok] at h
    obtain ⟨_, _, l, hl, _, _, _, _, w, _, s1, h1, h⟩ := h
    exact (save_fixed (load_pool hl)).trans ((credit_fixed h1).trans (credit_fixed h))
  case partnerWithdrawSurplus =>
    simp only [Chain.exec] at h
    exact quoteOut_fixed h
  case creatorWithdrawSurplus =>
    simp only [Chain.exec] at h
    exact quoteOut_fixed h
  case withdrawMigrationFee =>
    simp only [Chain.exec] at h
    exact quoteOut_fixed h
  case claimPartnerCreationFee =>
    simp only [Chain.exec] at h
    exact lamportsOut_fixed h
  case claimProtocolCreationFee =>
    simp only [Chain.exec, Chain.claimProtocolCreationFee, bind_ok] at h
    obtain ⟨_, _, h⟩ := h
    exact lamportsOut_fixed h
  case createLocker =>
    simp only [Chain.exec, Chain.createLocker, bind_ok, req_ok, need_ok] at h
    obtain ⟨_, _, l, hl, _, _, _, _, w, _, h⟩ := h
    exact (save_fixed (load_pool hl)).trans (credit_fixed h)
  case migrateV1 a mk x =>
    simp only [Chain.exec, Chain.migrateV1, bind_ok, req_ok, need_ok] at h
    obtain ⟨_, _, l, hl, _, _, _, _, w, _, _, _, s1, h1, h⟩ := h
    refine (save_fixed (P := a.pool) (b := a.baseVault) (q := a.quoteVault) (l := l) (w := w) (load_pool hl)).trans
      (Fixed.trans (Fixed.of ?_ ?_) ((credit_fixed h1).trans (credit_fixed h))) <;> rfl
  case migrateV2 =>
    simp only [Chain.exec, Chain.migrateV2, bind_ok, req_ok] at h
    obtain ⟨l, hl, _, _, _, _, w, _, s1, h1, h⟩ := h
    exact (save_fixed (load_pool hl)).trans ((credit_fixed h1).trans (credit_fixed h))
  case withdrawLeftover =>
    simp only [Chain.exec, Chain.withdrawLeftover, bind_ok, req_ok, need_ok] at h
    obtain ⟨_, _, l, hl, _, _, _, _, _, _, w, _, h⟩ := h
    exact (save_fixed (load_pool hl)).trans (credit_fixed h)
  case createMeta =>
    simp only [Chain.exec, Chain.createMeta, bind_ok, req_ok, need_ok, ok_inj] at h
    obtain ⟨_, _, _, _, _, _, _, _, _, _, _, _, rfl⟩ := h
    exact Fixed.of rfl rfl
  case lockLp =>
    simp only [Chain.exec] at h
    exact lpOut_fixed h
  case claimLp =>
    simp only [Chain.exec] at h
    exact lpOut_fixed h
  case transferCreator =>
    simp only [Chain.exec, Chain.transferCreator, bind_ok, req_ok, need_ok, ok_inj] at h
    obtain ⟨_, _, l, hl, _, _, w, _, rfl⟩ := h
    exact save_fixed (load_pool hl)
  case createOperator =>
    simp only [Chain.exec, Chain.createOperator, bind_ok, req_ok, ok_inj] at h
    obtain ⟨_, _, _, _, _, _, rfl⟩ := h
    exact Fixed.of rfl rfl
  case closeOperator =>
    simp only [Chain.exec, Chain.closeOperator, bind_ok, req_ok, ok_inj] at h
    obtain ⟨_, _, rfl⟩ := h
    exact Fixed.of rfl rfl
  case newMint =>
    simp only [Chain.exec, Chain.newMint, bind_ok, req_ok, ok_inj] at h
    obtain ⟨_, _, rfl⟩ := h
    exact Fixed.of rfl rfl
  case newAccount =>
    simp only [Chain.exec, Chain.newAccount, bind_ok, req_ok, need_ok, ok_inj] at h
    obtain ⟨_, _, _, _, rfl⟩ := h
    exact Fixed.of rfl rfl
  case transfer =>
    simp only [Chain.exec, Chain.transfer, bind_ok] at h
    obtain ⟨s1, h1, h⟩ := h
    exact (debit_fixed h1).trans (credit_fixed h)
  case seize =>
    simp only [Chain.exec, Chain.seize, bind_ok, req_ok, need_ok] at h
    obtain ⟨_, _, _, _, _, _, _, _, h⟩ := h
    refine Fixed.trans ?_ (credit_fixed h)
    exact Fixed.of rfl rfl
  case mintTo g m d a =>
    simp only [Chain.exec, Chain.mintTo, bind_ok, req_ok, need_ok] at h
    obtain ⟨_, _, _, _, _, _, h⟩ := h
    refine Fixed.trans ?_ (give_fixed h)
    refine ⟨fun _ _ h => h, fun P pa hp => ?_⟩
    dsimp only
    rw [hp]
    dsimp only [Option.map]
    split
    · exact ⟨_, rfl, rfl, rfl, rfl, rfl⟩
    · exact ⟨_, rfl, SameAddresses.rfl'⟩
  case burn =>
    simp only [Chain.exec, Chain.burn, bind_ok, need_ok, ok_inj] at h
    obtain ⟨_, _, s1, h1, rfl⟩ := h
    refine (debit_fixed h1).trans ⟨fun _ _ h => h, fun P pa hp => ?_⟩
    dsimp only
    rw [hp]
    dsimp only [Option.map]
    split
    · exact ⟨_, rfl, rfl, rfl, rfl, rfl⟩
    · exact ⟨_, rfl, SameAddresses.rfl'⟩
  case reassign =>
    simp only [Chain.exec, Chain.reassign, bind_ok, req_ok, need_ok, ok_inj] at h
    obtain ⟨_, _, _, _, _, _, _, _, rfl⟩ := h
    exact Fixed.of rfl rfl
  case sendLamports =>
    cases h
    exact giveLamports_fixed

end Dbc

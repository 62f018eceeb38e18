import Verif.Lemmas.Chain

/-!
# Every instruction is, for each pool, a step of that pool's own world
-/

namespace Dbc
open Spec

/-! ### What a step leaves alone -/

/-- The fields of the world that no handler of a pool writes. -/
structure Kept (w w' : World) : Prop where
  key : w'.key = w.key
  cfg : w'.cfg = w.cfg
  mintAuth : w'.mintAuth = w.mintAuth
  operators : w'.operators = w.operators
  admins : w'.admins = w.admins

theorem Op.kept {w w' : World} {op : Op} (h : w.step op = .ok w') (h1 : ∀ a b c, op ≠ .createOperator a b c)
    (h2 : ∀ a b, op ≠ .closeOperator a b) : Kept w w' := by
  cases_step op h
  case swap a =>
    obtain ⟨cur, fm, r, v1, v2, s⟩ := swap_ok h
    rw [s.frame]
    exact ⟨rfl, rfl, rfl, rfl, rfl⟩
  case createOperator => exact absurd rfl (h1 _ _ _)
  case closeOperator => exact absurd rfl (h2 _ _)
  all_goals exact ⟨rfl, rfl, rfl, rfl, rfl⟩

/-- Handlers that only pay out. -/
def Pays : Op → Prop
  | .claimProtocolFee _ _ _ => True
  | .zapProtocolFee _ _ _ _ _ => True
  | .claimPartnerFee _ _ _ => True
  | .claimCreatorFee _ _ _ => True
  | .partnerWithdrawSurplus _ => True
  | .creatorWithdrawSurplus _ => True
  | .withdrawMigrationFee _ _ => True
  | .claimPartnerCreationFee _ => True
  | .claimProtocolCreationFee _ => True
  | .createLocker => True
  | .withdrawLeftover _ => True
  | .transferCreator _ _ => True
  | _ => False

theorem Op.pays {w w' : World} {op : Op} (h : w.step op = .ok w') (hp : Pays op) :
    w'.supply = w.supply ∧ w'.baseVault ≤ w.baseVault ∧ w'.quoteVault ≤ w.quoteVault ∧ w'.lamports ≤ w.lamports ∧
      w'.dammMeta = w.dammMeta := by
  cases_step op h
  all_goals first
    | (exact False.elim hp)
    | (dsimp only; refine ⟨rfl, ?_, ?_, ?_, rfl⟩ <;> omega)

theorem Pays.noOp {op : Op} (h : Pays op) : (∀ a b c, op ≠ .createOperator a b c) ∧ ∀ a b, op ≠ .closeOperator a b :=
  ⟨fun _ _ _ e => by subst e; exact h, fun _ _ e => by subst e; exact h⟩

/-! ### The shape of a handler's effect -/

/-- The handler ran on pool `P`'s own world; no other pool changed. -/
def Done (K : Keys) (s s' : Chain) (P : Nat) (op : Op) : Prop :=
  (∀ Q, s'.pools Q = none ↔ s.pools Q = none) ∧
  (∃ w w', s.view K P = some w ∧ w.step op = .ok w' ∧ s'.view K P = some w') ∧
  ∀ Q, Q ≠ P → s'.view K Q = s.view K Q

/-- The handler ran on pool `P`'s own world; apart from that pools only received gifts. -/
def Did (K : Keys) (s s' : Chain) (P : Nat) (op : Op) : Prop :=
  (∀ Q, s'.pools Q = none ↔ s.pools Q = none) ∧
  (∃ w w1 w', s.view K P = some w ∧ w.step op = .ok w1 ∧ Fed w1 w' ∧ s'.view K P = some w') ∧
  ∀ Q w, Q ≠ P → s.view K Q = some w → ∃ w', Fed w w' ∧ s'.view K Q = some w'

theorem Done.after {K : Keys} {s s1 s' : Chain} {P : Nat} {op : Op} (d : Done K s s1 P op) (a : After K s1 s') :
    Did K s s' P op := by
  obtain ⟨d1, ⟨w, w1, h1, h2, h3⟩, d3⟩ := d
  refine ⟨fun Q => (a.1 Q).trans (d1 Q), ?_, ?_⟩
  · obtain ⟨w', f, v⟩ := a.2 P w1 h3
    exact ⟨w, w1, w', h1, h2, f, v⟩
  · intro Q w hQ hw
    exact a.2 Q w (by rw [d3 Q hQ]; exact hw)

theorem Done.did {K : Keys} {s s1 : Chain} {P : Nat} {op : Op} (d : Done K s s1 P op) : Did K s s1 P op :=
  d.after (.refl K s1)

/-- Writing back the result of a handler that ran on the pool's own world. -/
theorem Inv.run {K : Keys} {s0 s : Chain} {pend pend' : Nat → Nat} {P : Nat} {l : Loaded} {bm : MintAcc} {op : Op} {w1 : World}
    (i : Inv K s pend) (i0 : ∀ Q, s.view K Q = s0.view K Q) (ip : s.pools = s0.pools)
    (hp : s.pools P = some l.pa) (hw : Wired K s l.pa l.c l.bv l.qv bm)
    (hl : l.w = s.world P l.pa l.c bm l.bv.amount l.qv.amount (s.ownMeta K P))
    (hst : l.w.step op = .ok w1) (hk : Kept l.w w1) (hm : w1.dammMeta = l.w.dammMeta) (hs : w1.supply ≤ l.w.supply)
    (hb : w1.baseVault + pend' l.pa.baseMint + l.w.supply ≤ l.w.baseVault + pend l.pa.baseMint + w1.supply)
    (hq : w1.quoteVault + pend' l.c.quoteMint ≤ l.w.quoteVault + pend l.c.quoteMint)
    (ho : ∀ x, x ≠ l.pa.baseMint → x ≠ l.c.quoteMint → pend' x ≤ pend x) :
    Inv K (s.save P l.pa.baseVault l.pa.quoteVault l w1) pend' ∧
    Done K s0 (s.save P l.pa.baseVault l.pa.quoteVault l w1) P op := by
  have e1 : l.w.supply = bm.supply := by rw [hl]; rfl
  have e2 : l.w.baseVault = l.bv.amount := by rw [hl]; rfl
  have e3 : l.w.quoteVault = l.qv.amount := by rw [hl]; rfl
  have e4 : l.w.dammMeta = s.ownMeta K P := by rw [hl]; rfl
  have hsu : w1.supply ≤ u64Max := by
    have := (i.supply _ _ hw.mint).2
    omega
  rw [e1, e2] at hb
  rw [e3] at hq
  obtain ⟨h1, h2, h3, h4, _⟩ := i.save (pend' := pend') hp hw hsu hb hq ho rfl
  refine ⟨h1, fun Q => by rw [h2 Q, ip], ⟨l.w, w1, ?_, hst, ?_⟩, fun Q hQ => by rw [h3 Q hQ, i0 Q]⟩
  · rw [← i0 P, hw.view hp, hl]
  · rw [h4 (by rw [hk.key, hl]; rfl) (by rw [hk.cfg, hl]; rfl) (by rw [hk.mintAuth, hl]; rfl)
      (by rw [hk.operators, hl]; rfl) (by rw [hk.admins, hl]; rfl)]
    rw [← e4, ← hm]

theorem plus_self (p : Nat → Nat) (m a : Nat) : plus p m a m = p m + a := by simp [plus]
theorem plus_ne (p : Nat → Nat) {m x : Nat} (a : Nat) (h : x ≠ m) : plus p m a x = p x := by simp [plus, h]
theorem plus_zero (p : Nat → Nat) (m : Nat) : plus p m 0 = p := by
  funext x
  simp [plus]

/-- A paying handler, run on the pool's own accounts. What left the vaults is then on its way. -/
theorem Inv.pay {K : Keys} {s : Chain} {P ck bk qk : Nat} {l : Loaded} {op : Op} {w1 : World}
    (i : Inv K s still) (hl : s.load P ck bk qk (s.ownMeta K P) = .ok l) (c1 : l.pa.config = ck)
    (c2 : l.pa.baseVault = bk) (c3 : l.pa.quoteVault = qk) (hst : l.w.step op = .ok w1) (hp : Pays op) :
    Inv K (s.save P bk qk l w1) (plus (plus still l.c.quoteMint (l.w.quoteVault - w1.quoteVault)) l.pa.baseMint
      (l.w.baseVault - w1.baseVault)) ∧
    Done K s (s.save P bk qk l w1) P op := by
  obtain ⟨bm, h1, hw, h2⟩ := load_own i hl c1 c2 c3
  have f := Op.pays hst hp
  have := i.run (s0 := s) (pend' := plus (plus still l.c.quoteMint (l.w.quoteVault - w1.quoteVault)) l.pa.baseMint
    (l.w.baseVault - w1.baseVault)) (fun _ => rfl) rfl h1 hw h2 hst (Op.kept hst hp.noOp.1 hp.noOp.2) f.2.2.2.2
    (le_of_eq f.1) (by
      rw [plus_self, plus_ne _ _ hw.diff]
      simp only [still]
      omega)
    (by
      rw [plus_ne _ _ (fun e => hw.diff e.symm), plus_self]
      simp only [still]
      omega)
    (fun x h1 h2 => by rw [plus_ne _ _ h1, plus_ne _ _ h2])
  rw [c2, c3] at this
  exact this

/-! ### Claims -/

/-- What the last two transfers of a claim do: first base, then quote. -/
theorem Inv.two {K : Keys} {s s1 s' : Chain} {m1 m2 d1 d2 a1 a2 : Nat} (i : Inv K s (plus (plus still m2 a2) m1 a1))
    (h1 : s.credit K m1 d1 a1 = .ok s1) (h2 : s1.credit K m2 d2 a2 = .ok s') : Inv K s' still ∧ After K s s' := by
  obtain ⟨i1, f1⟩ := i.credit (pend' := plus still m2 a2) (fun x => le_refl _) h1
  obtain ⟨i2, f2⟩ := i1.credit (pend' := still) (fun x => le_refl _) h2
  exact ⟨i2, f1.trans f2⟩

theorem Inv.one {K : Keys} {s s' : Chain} {m1 d1 a1 : Nat} (i : Inv K s (plus still m1 a1))
    (h1 : s.credit K m1 d1 a1 = .ok s') : Inv K s' still ∧ After K s s' :=
  i.credit (fun x => le_refl _) h1

theorem claimProtocolFee_did {K : Keys} {s s' : Chain} {a : ClaimIx} {g b q : Nat} (i : Inv K s still)
    (h : s.claimProtocolFee K a g b q = .ok s') :
    Inv K s' still ∧ Did K s s' a.pool (.claimProtocolFee g b q) := by
  simp only [Chain.claimProtocolFee, bind_ok, req_ok] at h
  obtain ⟨l, hl, _, e1, _, ⟨e2, e3, e4, e5⟩, _, e6, w, hw, s1, hs1, h⟩ := h
  obtain ⟨i1, d⟩ := i.pay hl e5 e2 e3 (op := .claimProtocolFee g b q) hw trivial
  rw [e1, e4] at i1
  have k1 : Inv K s1 (plus still a.quoteMint (l.w.quoteVault - w.quoteVault)) ∧
      After K (s.save a.pool a.baseVault a.quoteVault l w) s1 := by
    split at hs1
    · simp only [bind_ok] at hs1
      obtain ⟨_, _, hs1⟩ := hs1
      exact i1.credit (fun x => le_refl _) hs1
    · rename_i hz
      cases hs1
      have e : l.w.baseVault - w.baseVault = 0 := by omega
      rw [e, plus_zero] at i1
      exact ⟨i1, .refl _ _⟩
  obtain ⟨i2, f2⟩ := k1
  split at h
  · simp only [bind_ok] at h
    obtain ⟨_, _, h⟩ := h
    obtain ⟨i3, f3⟩ := i2.one h
    exact ⟨i3, d.after (f2.trans f3)⟩
  · rename_i hz
    cases h
    have e : l.w.quoteVault - w.quoteVault = 0 := by omega
    rw [e, plus_zero] at i2
    exact ⟨i2, d.after f2⟩

theorem zapProtocolFee_did {K : Keys} {s s' : Chain} {P ck v m r g x : Nat} {z : ZapCheck} (i : Inv K s still)
    (h : s.zapProtocolFee K P ck v m r g x z = .ok s') :
    ∃ isBase ok, Inv K s' still ∧ Did K s s' P (.zapProtocolFee g x isBase ok true) ∧
      (∃ pa, s.pools P = some pa ∧ isBase = decide (m = pa.baseMint)) ∧ ok = decide (m ∉ K.noZap) := by
  simp only [Chain.zapProtocolFee, bind_ok, req_ok, need_ok, ite_ok] at h
  obtain ⟨pa, hpa, c, hc, tv, htv, mt, hmt, _, e1, _, e2, h⟩ := h
  rcases h with ⟨em, h⟩ | ⟨em, h⟩
  · obtain ⟨_, e3, l, hl, w, hw, _, _, _, _, _, e4, h⟩ := h
    obtain ⟨_, q1, q2, q3, q4, _, _⟩ := load_ok hl
    rw [hpa] at q1
    cases q1
    obtain ⟨i1, d⟩ := i.pay hl e1 e3.symm rfl (op := .zapProtocolFee g x true _ true) hw trivial
    have f : l.w.quoteVault - w.quoteVault = 0 := by
      obtain ⟨_, _, _, ⟨_, _, _, _, _, _, _, e⟩ | ⟨n, _⟩⟩ := zapProtocolFee_ok hw
      · rw [e]; exact Nat.sub_self _
      · cases n
    rw [f, plus_zero, ← em] at i1
    obtain ⟨i2, f2⟩ := i1.one h
    exact ⟨_, _, i2, d.after f2, ⟨_, hpa, (decide_eq_true em).symm⟩, rfl⟩
  · obtain ⟨_, e3, l, hl, w, hw, _, _, _, _, _, e4, h⟩ := h
    obtain ⟨_, q1, q2, q3, q4, _, _⟩ := load_ok hl
    rw [hpa] at q1
    cases q1
    rw [hc] at q2
    cases q2
    obtain ⟨i1, d⟩ := i.pay hl e1 rfl e3.symm (op := .zapProtocolFee g x false _ true) hw trivial
    have f : l.w.baseVault - w.baseVault = 0 := by
      obtain ⟨_, _, _, ⟨n, _⟩ | ⟨_, _, _, _, _, _, _, _, _, _, e⟩⟩ := zapProtocolFee_ok hw
      · cases n
      · rw [e]; exact Nat.sub_self _
    rw [f, plus_zero, ← e2.resolve_left em] at i1
    obtain ⟨i2, f2⟩ := i1.one h
    exact ⟨_, _, i2, d.after f2, ⟨_, hpa, (decide_eq_false em).symm⟩, rfl⟩

theorem claimPartnerFee_did {K : Keys} {s s' : Chain} {a : ClaimIx} {g b q : Nat} (i : Inv K s still)
    (h : s.claimPartnerFee K a g b q = .ok s') :
    Inv K s' still ∧ Did K s s' a.pool (.claimPartnerFee g b q) := by
  simp only [Chain.claimPartnerFee, bind_ok, req_ok] at h
  obtain ⟨l, hl, _, e1, _, ⟨e2, e3, e4, e5⟩, _, e6, w, hw, s1, hs1, h⟩ := h
  obtain ⟨i1, d⟩ := i.pay hl e5 e2 e3 (op := .claimPartnerFee g b q) hw trivial
  rw [e1, e4] at i1
  obtain ⟨i2, f⟩ := i1.two hs1 h
  exact ⟨i2, d.after f⟩

theorem claimCreatorFee_did {K : Keys} {s s' : Chain} {a : ClaimIx} {g b q : Nat} (i : Inv K s still)
    (h : s.claimCreatorFee K a g b q = .ok s') :
    Inv K s' still ∧ Did K s s' a.pool (.claimCreatorFee g b q) := by
  simp only [Chain.claimCreatorFee, bind_ok, req_ok, need_ok] at h
  obtain ⟨pa, hpa, l, hl, _, ⟨e2, e3, e4⟩, _, ⟨e5, e6⟩, w, hw, s1, hs1, h⟩ := h
  obtain ⟨_, q1, q2, q3, q4, _, _⟩ := load_ok hl
  rw [hpa] at q1
  cases q1
  obtain ⟨i1, d⟩ := i.pay hl rfl e2 e3 (op := .claimCreatorFee g b q) hw trivial
  obtain ⟨bm, _, wi, _⟩ := load_own i hl rfl e2 e3
  rw [← wi.quoteMint, e6, e4] at i1
  obtain ⟨i2, f⟩ := i1.two hs1 h
  exact ⟨i2, d.after f⟩

theorem quoteOut_did {K : Keys} {s s' : Chain} {a : QuoteIx} {f : World → Res World} {op : Op} (hf : ∀ w, f w = w.step op)
    (hp : Pays op) (hb : ∀ w w' : World, w.step op = .ok w' → w'.baseVault = w.baseVault) (i : Inv K s still)
    (h : s.quoteOut K a f = .ok s') : Inv K s' still ∧ Did K s s' a.pool op := by
  simp only [Chain.quoteOut, bind_ok, req_ok, need_ok] at h
  obtain ⟨pa, hpa, l, hl, _, e1, _, ⟨e2, e3⟩, _, e4, w, hw, h⟩ := h
  obtain ⟨_, q1, q2, q3, q4, _, _⟩ := load_ok hl
  rw [hpa] at q1
  cases q1
  rw [hf] at hw
  obtain ⟨i1, d⟩ := i.pay hl e3 rfl e2 hw hp
  rw [hb _ _ hw, Nat.sub_self, plus_zero, e1] at i1
  obtain ⟨i2, f⟩ := i1.one h
  exact ⟨i2, d.after f⟩

theorem escrowFor_own {w w' : World} (h : w.createLocker = .ok w') : w'.escrowFor w.pool.creator = w' := by
  obtain ⟨_, _, rfl⟩ := createLocker_ok h
  rfl

theorem createLocker_did {K : Keys} {s s' : Chain} {P ck v m r t : Nat} (i : Inv K s still)
    (h : s.createLocker K P ck v m r t = .ok s') : Inv K s' still ∧ Did K s s' P .createLocker := by
  simp only [Chain.createLocker, bind_ok, req_ok, need_ok] at h
  obtain ⟨pa, hpa, l, hl, _, ⟨e1, e2, e3, e4⟩, _, e5, w, hw, h⟩ := h
  obtain ⟨_, q1, q2, q3, q4, _, q6⟩ := load_ok hl
  rw [hpa] at q1
  cases q1
  have hr : r = l.w.pool.creator := by rw [← e2, q6]; rfl
  rw [hr, escrowFor_own hw] at h
  obtain ⟨i1, d⟩ := i.pay hl e1 e3 rfl (op := .createLocker) hw trivial
  have f : l.w.quoteVault - w.quoteVault = 0 := by
    obtain ⟨_, _, e⟩ := createLocker_ok hw
    rw [e]; exact Nat.sub_self _
  rw [f, plus_zero, e4] at i1
  obtain ⟨i2, f⟩ := i1.one h
  exact ⟨i2, d.after f⟩

theorem withdrawLeftover_did {K : Keys} {s s' : Chain} {P ck v m r t : Nat} (i : Inv K s still)
    (h : s.withdrawLeftover K P ck v m r t = .ok s') : Inv K s' still ∧ Did K s s' P (.withdrawLeftover r) := by
  simp only [Chain.withdrawLeftover, bind_ok, req_ok, need_ok] at h
  obtain ⟨pa, hpa, l, hl, _, ⟨e1, e2, e3⟩, _, _, _, e5, w, hw, h⟩ := h
  obtain ⟨_, q1, q2, q3, q4, _, _⟩ := load_ok hl
  rw [hpa] at q1
  cases q1
  obtain ⟨i1, d⟩ := i.pay hl e3 e2 rfl (op := .withdrawLeftover r) hw trivial
  have f : l.w.quoteVault - w.quoteVault = 0 := by
    obtain ⟨_, _, _, _, _, _, _, _, e⟩ := withdrawLeftover_ok hw
    rw [e]; exact Nat.sub_self _
  rw [f, plus_zero, e1] at i1
  obtain ⟨i2, f⟩ := i1.one h
  exact ⟨i2, d.after f⟩

/-! ### Changes that keep every address -/

/-- Accounts are added, mints change their supply, pools change without being rewired. -/
theorem Inv.ext {K : Keys} {s s' : Chain} {pend pend' : Nat → Nat} (i : Inv K s pend) (g : Nat → PoolAcc → PoolAcc)
    (hpools : ∀ P, s'.pools P = (s.pools P).map (g P))
    (hg : ∀ P pa, (g P pa).config = pa.config ∧ (g P pa).baseMint = pa.baseMint ∧ (g P pa).baseVault = pa.baseVault ∧
      (g P pa).quoteVault = pa.quoteVault)
    (hcfg : ∀ k c, s.configs k = some c → s'.configs k = some c)
    (hcfg' : ∀ k c, s'.configs k = some c → s.configs k = some c ∨
      ((∃ p env, ConfigParams.Typed p ∧ createConfig p env = .ok c) ∧ ∃ m, s.mints c.quoteMint = some m ∧ m.Plain))
    (htok : ∀ k t, getTok s.tokens k = some t → getTok s'.tokens k = some t)
    (hknown : ∀ x ∈ s'.tokens, s'.mints x.2.mint ≠ none)
    (hmint : ∀ m a, s.mints m = some a → ∃ a', s'.mints m = some a' ∧ a'.program = a.program ∧ a'.exts = a.exts)
    (hsup : ∀ m a, s'.mints m = some a → held m s'.tokens + pend' m ≤ a.supply ∧ a.supply ≤ u64Max)
    (hmeta : s'.metas = s.metas) :
    Inv K s' pend' ∧ (∀ Q, s'.pools Q = none ↔ s.pools Q = none) ∧
    ∀ Q pa c bv qv bm, s.pools Q = some pa → Wired K s pa c bv qv bm →
      ∃ bm', s'.mints pa.baseMint = some bm' ∧
        s'.view K Q = some (s'.world Q (g Q pa) c bm' bv.amount qv.amount (s.ownMeta K Q)) := by
  have plain : ∀ a a' : MintAcc, a'.program = a.program → a'.exts = a.exts → a.Plain → a'.Plain := by
    intro a a' h1 h2 h
    unfold MintAcc.Plain MintAcc.has at h ⊢
    rw [h1, h2]
    exact h
  have back : ∀ P qa, s'.pools P = some qa → ∃ pa, s.pools P = some pa ∧ qa = g P pa := by
    intro P qa h
    rw [hpools] at h
    cases hp : s.pools P with
    | none => rw [hp] at h; cases h
    | some pa => rw [hp] at h; exact ⟨pa, rfl, (Option.some.inj h).symm⟩
  have dom : ∀ Q, s'.pools Q = none ↔ s.pools Q = none := by
    intro Q
    rw [hpools]
    cases s.pools Q <;> simp
  have nw : ∀ Q pa c bv qv bm bm', Wired K s pa c bv qv bm → s'.mints pa.baseMint = some bm' →
      Wired K s' (g Q pa) c bv qv bm' := by
    intro Q pa c bv qv bm bm' h hb
    obtain ⟨k1, k2, k3, k4⟩ := hg Q pa
    refine ⟨?_, ?_, ?_, h.baseOwner, ?_, h.quoteMint, h.quoteOwner, ?_, ?_, ?_⟩
    · rw [k1]; exact hcfg _ _ h.cfg
    · rw [k3]; exact htok _ _ h.base
    · rw [k2]; exact h.baseMint
    · rw [k4]; exact htok _ _ h.quote
    · rw [k2]; exact hb
    · obtain ⟨a', ha, h1, h2⟩ := hmint _ _ h.mint
      rw [hb] at ha
      cases ha
      exact plain _ _ h1 h2 h.plain
    · rw [k2]; exact h.diff
  refine ⟨⟨?_, ?_, ?_, ?_, ?_, hsup, hknown⟩, dom, ?_⟩
  · intro k c hc
    have : (∃ p env, ConfigParams.Typed p ∧ createConfig p env = .ok c) ∧
        ∃ m, s.mints c.quoteMint = some m ∧ m.Plain := (hcfg' k c hc).elim (i.cfg k c) id
    obtain ⟨h1, m, hm, hpl⟩ := this
    obtain ⟨a', ha, e1, e2⟩ := hmint _ _ hm
    exact ⟨h1, a', ha, plain _ _ e1 e2 hpl⟩
  · intro P qa h
    obtain ⟨pa, hp, rfl⟩ := back P qa h
    obtain ⟨c, bv, qv, bm, hw⟩ := i.wired P pa hp
    obtain ⟨bm', hb, _, _⟩ := hmint _ _ hw.mint
    exact ⟨c, bv, qv, bm', nw P _ _ _ _ _ _ hw hb⟩
  · intro P Q pa qa h1 h2
    obtain ⟨p0, k1, rfl⟩ := back P pa h1
    obtain ⟨q0, k2, rfl⟩ := back Q qa h2
    rw [(hg P p0).2.2.1, (hg Q q0).2.2.2]
    exact i.cross P Q p0 q0 k1 k2
  · intro P Q pa qa h1 h2 hne
    obtain ⟨p0, k1, rfl⟩ := back P pa h1
    obtain ⟨q0, k2, rfl⟩ := back Q qa h2
    rw [(hg P p0).2.2.1, (hg Q q0).2.2.1, (hg P p0).2.2.2, (hg Q q0).2.2.2, (hg P p0).2.1, (hg Q q0).2.1]
    exact i.apart P Q p0 q0 k1 k2 hne
  · intro k m hk
    rw [hmeta] at hk
    exact ⟨(i.metas k m hk).1, fun h => (i.metas k m hk).2 ((dom _).1 h)⟩
  · intro Q pa c bv qv bm hp hw
    obtain ⟨bm', hb, _, _⟩ := hmint _ _ hw.mint
    refine ⟨bm', hb, ?_⟩
    rw [(nw Q _ _ _ _ _ _ hw hb).view (P := Q) (by rw [hpools, hp]; rfl)]
    unfold Chain.ownMeta
    rw [hmeta]

/-- The vaults never hold more than exists. -/
theorem Inv.room {K : Keys} {s : Chain} {pend : Nat → Nat} (i : Inv K s pend) {pa : PoolAcc} {c : PoolConfig}
    {bv qv : TokenAcc} {bm : MintAcc} (h : Wired K s pa c bv qv bm) :
    bv.amount + pend pa.baseMint ≤ bm.supply ∧ qv.amount ≤ u64Max := by
  have k1 := held_one h.base
  rw [h.baseMint] at k1
  have k2 := (i.supply _ _ h.mint).1
  have k3 := held_one h.quote
  rw [h.quoteMint] at k3
  obtain ⟨_, qm, hqm, _⟩ := i.cfg _ _ h.cfg
  have k4 := i.supply _ _ hqm
  omega

theorem Inv.lamports {K : Keys} {s : Chain} {pend : Nat → Nat} (i : Inv K s pend) (d a : Nat) :
    Inv K (s.giveLamports d a) pend ∧ After K s (s.giveLamports d a) := by
  obtain ⟨h1, h2, h3⟩ := i.ext (s' := s.giveLamports d a) (pend' := pend)
    (fun P pa => if P = d then { pa with
      lamports := pa.lamports + a
      led := { pa.led with donLamports := pa.led.donLamports + a } } else pa)
    (fun P => rfl) (fun P pa => by dsimp only; split <;> exact ⟨rfl, rfl, rfl, rfl⟩) (fun _ _ h => h) (fun _ _ h => .inl h)
    (fun _ _ h => h) i.known (fun m a h => ⟨a, h, rfl, rfl⟩) i.supply rfl
  refine ⟨h1, h2, fun Q w hw => ?_⟩
  obtain ⟨pa, c, bv, qv, bm, hp, hwi, rfl⟩ := i.open hw
  obtain ⟨bm', hb, hv⟩ := h3 Q pa c bv qv bm hp hwi
  have hb' : s.mints pa.baseMint = some bm' := hb
  rw [hwi.mint] at hb'
  cases hb'
  by_cases e : Q = d
  · subst e
    dsimp only at hv
    rw [if_pos rfl] at hv
    refine ⟨_, Fed.donate (b := 0) (q := 0) (l := a) ?_, hv⟩
    obtain ⟨r1, r2⟩ := i.room hwi
    have e1 : vaultIn bm.supply bv.amount 0 = .ok (bv.amount + 0) := if_pos (by omega)
    have e2 : vaultIn u64Max qv.amount 0 = .ok (qv.amount + 0) := if_pos (by omega)
    unfold World.donate
    dsimp only [Chain.world]
    rw [e1, e2]
    rfl
  · dsimp only at hv
    rw [if_neg e] at hv
    exact ⟨_, .refl _, hv⟩

theorem lamportsOut_did {K : Keys} {s s' : Chain} {P ck r : Nat} {f : World → Res World} {op : Op} (hf : ∀ w, f w = w.step op)
    (hp : Pays op) (hb : ∀ w w' : World, w.step op = .ok w' → w'.baseVault = w.baseVault ∧ w'.quoteVault = w.quoteVault)
    (i : Inv K s still) (h : s.lamportsOut K P ck r f = .ok s') : Inv K s' still ∧ Did K s s' P op := by
  simp only [Chain.lamportsOut, bind_ok, req_ok, need_ok, ok_inj] at h
  obtain ⟨pa, hpa, l, hl, _, e1, w, hw, rfl⟩ := h
  obtain ⟨_, q1, q2, q3, q4, _, _⟩ := load_ok hl
  rw [hpa] at q1
  cases q1
  rw [hf] at hw
  obtain ⟨i1, d⟩ := i.pay hl e1 rfl rfl hw hp
  rw [(hb _ _ hw).1, (hb _ _ hw).2, Nat.sub_self, Nat.sub_self, plus_zero, plus_zero] at i1
  obtain ⟨i2, f⟩ := i1.lamports r (l.w.lamports - w.lamports)
  exact ⟨i2, d.after f⟩

/-! ### DAMM v1 metadata -/

theorem Inv.setMeta {K : Keys} {s : Chain} {pend : Nat → Nat} (i : Inv K s pend) {P k : Nat} (md : DammMeta)
    (hk : k = K.metaPda P) (ho : ∀ m, s.metas k = some m → m.pool = P) (hp : s.pools P ≠ none) :
    Inv K { s with metas := put s.metas k ⟨P, md⟩ } pend ∧
    (∀ Q, Q ≠ P → ({ s with metas := put s.metas k ⟨P, md⟩ } : Chain).view K Q = s.view K Q) ∧
    ∀ w, s.view K P = some w →
      ({ s with metas := put s.metas k ⟨P, md⟩ } : Chain).view K P = some { w with dammMeta := some md } := by
  have hm1 : ∀ Q, Q ≠ P → ({ s with metas := put s.metas k ⟨P, md⟩ } : Chain).ownMeta K Q = s.ownMeta K Q := by
    intro Q hQ
    unfold Chain.ownMeta
    dsimp only
    by_cases e : K.metaPda Q = k
    · rw [e, put_same]
      dsimp only
      rw [if_neg (fun h => hQ h.symm)]
      cases hm : s.metas k with
      | none => rfl
      | some m =>
        dsimp only
        rw [if_neg (fun h => hQ (by rw [← h]; exact ho m hm))]
    · rw [put_ne _ _ e]
  refine ⟨⟨i.cfg, ?_, i.cross, i.apart, ?_, i.supply, i.known⟩, ?_, ?_⟩
  · intro Q qa h
    obtain ⟨c, bv, qv, bm, hw⟩ := i.wired Q qa h
    exact ⟨c, bv, qv, bm, hw.cfg, hw.base, hw.baseMint, hw.baseOwner, hw.quote, hw.quoteMint, hw.quoteOwner, hw.mint,
      hw.plain, hw.diff⟩
  · intro x m hx
    dsimp only at hx
    by_cases e : x = k
    · subst e
      rw [put_same] at hx
      cases hx
      exact ⟨hk, hp⟩
    · rw [put_ne _ _ e] at hx
      exact i.metas x m hx
  · intro Q hQ
    unfold Chain.view
    rw [hm1 Q hQ]
    rfl
  · intro w hw
    obtain ⟨pa, c, bv, qv, bm, h1, h2, rfl⟩ := i.open hw
    rw [view_eq (s := { s with metas := put s.metas k ⟨P, md⟩ }) h1 h2.cfg h2.base h2.quote h2.mint]
    have : ({ s with metas := put s.metas k ⟨P, md⟩ } : Chain).ownMeta K P = some md := by
      unfold Chain.ownMeta
      dsimp only
      rw [← hk, put_same]
      dsimp only
      rw [if_pos rfl]
    rw [this]
    rfl

/-- Writing back the result of a handler that also wrote the metadata account. -/
theorem Inv.runMeta {K : Keys} {s : Chain} {pend' : Nat → Nat} {P mk ck bk qk : Nat} {l : Loaded} {op : Op} {w1 : World}
    {m : MetaAcc} {md : DammMeta} (i : Inv K s still) (hm : s.metas mk = some m) (hmp : m.pool = P)
    (hl : s.load P ck bk qk (some m.data) = .ok l) (c1 : l.pa.config = ck)
    (c2 : l.pa.baseVault = bk) (c3 : l.pa.quoteVault = qk)
    (hst : l.w.step op = .ok w1) (hk : Kept l.w w1) (hmd : w1.dammMeta = some md) (hs : w1.supply ≤ l.w.supply)
    (hb : w1.baseVault + pend' l.pa.baseMint + l.w.supply ≤ l.w.baseVault + w1.supply)
    (hq : w1.quoteVault + pend' l.c.quoteMint ≤ l.w.quoteVault)
    (ho : ∀ x, x ≠ l.pa.baseMint → x ≠ l.c.quoteMint → pend' x = 0) :
    Inv K { s.save P bk qk l w1 with metas := put s.metas mk ⟨m.pool, md⟩ } pend' ∧
    Done K s { s.save P bk qk l w1 with metas := put s.metas mk ⟨m.pool, md⟩ } P op := by
  subst hmp
  obtain ⟨bm, hp, hw, hlw⟩ := load_own i hl c1 c2 c3
  have km := i.metas mk m hm
  have hown : s.ownMeta K m.pool = some m.data := by
    unfold Chain.ownMeta
    rw [← km.1, hm]
    dsimp only
    rw [if_pos rfl]
  have e1 : l.w.supply = bm.supply := by rw [hlw]; rfl
  have e2 : l.w.baseVault = l.bv.amount := by rw [hlw]; rfl
  have e3 : l.w.quoteVault = l.qv.amount := by rw [hlw]; rfl
  have hsu : w1.supply ≤ u64Max := by
    have := (i.supply _ _ hw.mint).2
    omega
  rw [e1, e2] at hb
  rw [e3] at hq
  obtain ⟨h1, h2, h3, h4, h5⟩ := i.save (pend' := pend') hp hw hsu (by simp only [still]; omega)
    (by simp only [still]; omega) (fun x a b => by rw [ho x a b]; exact Nat.zero_le _) rfl
  rw [c2, c3] at h1 h2 h3 h4 h5
  obtain ⟨j1, j2, j3⟩ := h1.setMeta (P := m.pool) (k := mk) md km.1
    (fun x hx => by rw [h5, hm] at hx; cases hx; rfl) (fun h => km.2 ((h2 _).1 h))
  rw [h5] at j1 j2 j3
  refine ⟨j1, h2, ⟨l.w, w1, ?_, hst, ?_⟩, fun Q hQ => by rw [j2 Q hQ, h3 Q hQ]⟩
  · rw [hw.view hp, hlw, hown]
  · rw [j3 _ (h4 (by rw [hk.key, hlw]; rfl) (by rw [hk.cfg, hlw]; rfl) (by rw [hk.mintAuth, hlw]; rfl)
      (by rw [hk.operators, hlw]; rfl) (by rw [hk.admins, hlw]; rfl))]
    dsimp only
    rw [← hmd]

theorem migrateV1_did {K : Keys} {s s' : Chain} {a : MigrateIx} {mk : Nat} {x : V1Args} (i : Inv K s still)
    (h : s.migrateV1 K a mk x = .ok s') : Inv K s' still ∧ Did K s s' a.pool (.migrateV1 x) := by
  simp only [Chain.migrateV1, bind_ok, req_ok, need_ok] at h
  obtain ⟨m, hm, l, hl, _, ⟨e1, e2, e3⟩, _, e4, w, hw, md, hmd, s1, h1, h⟩ := h
  obtain ⟨bm, hp, wi, hlw⟩ := load_own i hl e3 e1 e2
  have hst : l.w.step (.migrateV1 x) = .ok w := hw
  obtain ⟨_, mm, _, burn, f, _, _, _, _, _, _, _, k1, k2, _, _, k3, _, _, e⟩ := migrateV1_ok hw
  have b1 : w.baseVault = l.w.baseVault - x.baseTaken - burn := by rw [e]
  have b2 : w.supply = l.w.supply - burn := by rw [e]
  have b3 : w.quoteVault = l.w.quoteVault - x.quoteTaken := by rw [e]
  clear e
  have room := (i.room wi).1
  have r1 : l.w.supply = bm.supply := by rw [hlw]; rfl
  have r2 : l.w.baseVault = l.bv.amount := by rw [hlw]; rfl
  obtain ⟨i1, d⟩ := i.runMeta (pend' := plus (plus still l.qv.mint x.quoteTaken) l.bv.mint x.baseTaken) hm e4 hl e3 e1 e2
    hst (Op.kept hst (fun _ _ _ h => (nomatch h)) (fun _ _ h => (nomatch h))) hmd (by omega)
    (by
      rw [wi.baseMint, wi.quoteMint, plus_self, plus_ne _ _ wi.diff]
      simp only [still] at room ⊢
      omega)
    (by
      rw [wi.baseMint, wi.quoteMint, plus_ne _ _ (fun e => wi.diff e.symm), plus_self]
      simp only [still]
      omega)
    (fun y y1 y2 => by rw [wi.baseMint, wi.quoteMint, plus_ne _ _ y1, plus_ne _ _ y2]; rfl)
  obtain ⟨i2, f2⟩ := i1.two h1 h
  exact ⟨i2, d.after f2⟩

theorem migrateV2_did {K : Keys} {s s' : Chain} {a : MigrateIx} {x : V2Args} (i : Inv K s still)
    (h : s.migrateV2 K a x = .ok s') : Inv K s' still ∧ Did K s s' a.pool (.migrateV2 x) := by
  simp only [Chain.migrateV2, bind_ok, req_ok] at h
  obtain ⟨l, hl, _, ⟨e1, e2, e3⟩, _, ⟨e4, e5⟩, w, hw, s1, h1, h⟩ := h
  obtain ⟨bm, hp, wi, hlw⟩ := load_own i hl e3 e1 e2
  have hst : l.w.step (.migrateV2 x) = .ok w := hw
  have fr : ∃ burn, w.baseVault + (x.base1 + x.base2) + burn = l.w.baseVault ∧ w.supply = l.w.supply - burn ∧
      w.quoteVault + (x.quote1 + x.quote2) = l.w.quoteVault ∧ w.dammMeta = l.w.dammMeta := by
    obtain ⟨_, _, burn, _, _, _, _, _, _, _, _, _, _, _, _, _, _, _, _, _, _, _, _, _, _, _, _, _, _, _, _, _, _, e⟩ :=
      migrateV2_ok hw
    refine ⟨burn, ?_, ?_, ?_, ?_⟩ <;> rw [e] <;> dsimp only <;> omega
  obtain ⟨burn, b1, b2, b3, b4⟩ := fr
  have room := (i.room wi).1
  have r1 : l.w.supply = bm.supply := by rw [hlw]; rfl
  have r2 : l.w.baseVault = l.bv.amount := by rw [hlw]; rfl
  obtain ⟨i1, d⟩ := i.run (s0 := s) (pend' := plus (plus still l.qv.mint (x.quote1 + x.quote2)) l.bv.mint (x.base1 + x.base2))
    (fun _ => rfl) rfl hp wi hlw hst (Op.kept hst (fun _ _ _ h => (nomatch h)) (fun _ _ h => (nomatch h))) b4 (by omega)
    (by
      rw [wi.baseMint, wi.quoteMint, plus_self, plus_ne _ _ wi.diff]
      simp only [still] at room ⊢
      omega)
    (by
      rw [wi.baseMint, wi.quoteMint, plus_ne _ _ (fun e => wi.diff e.symm), plus_self]
      simp only [still]
      omega)
    (fun y y1 y2 => by rw [wi.baseMint, wi.quoteMint, plus_ne _ _ y1, plus_ne _ _ y2])
  rw [e1, e2] at i1 d
  rw [e4, e5] at i1
  obtain ⟨i2, f2⟩ := i1.two h1 h
  exact ⟨i2, d.after f2⟩

theorem lpOut_did {K : Keys} {s s' : Chain} {P mk : Nat} {f : World → Res World} {op : Op} (hf : ∀ w, f w = w.step op)
    (hb : ∀ w w' : World, w.step op = .ok w' → w'.baseVault = w.baseVault ∧ w'.quoteVault = w.quoteVault ∧
      w'.supply = w.supply ∧ Kept w w')
    (i : Inv K s still) (h : s.lpOut P mk f = .ok s') : Inv K s' still ∧ Did K s s' P op := by
  simp only [Chain.lpOut, bind_ok, req_ok, need_ok, ok_inj] at h
  obtain ⟨pa, hpa, m, hm, l, hl, _, e1, w, hw, md, hmd, rfl⟩ := h
  obtain ⟨_, q1, q2, q3, q4, _, _⟩ := load_ok hl
  rw [hpa] at q1
  cases q1
  rw [hf] at hw
  obtain ⟨k1, k2, k3, k4⟩ := hb _ _ hw
  obtain ⟨i1, d⟩ := i.runMeta (pend' := still) hm e1 hl rfl rfl rfl hw k4 hmd (le_of_eq k3)
    (by simp only [still]; omega) (by simp only [still]; omega) (fun _ _ _ => rfl)
  exact ⟨i1, d.did⟩

theorem createMeta_did {K : Keys} {s s' : Chain} {P ck mk : Nat} (i : Inv K s still)
    (h : s.createMeta K P ck mk = .ok s') : Inv K s' still ∧ Did K s s' P .createMeta := by
  simp only [Chain.createMeta, bind_ok, req_ok, need_ok, ok_inj] at h
  obtain ⟨pa, hpa, _, ⟨e1, e2⟩, l, hl, _, e3, w, hw, md, hmd, rfl⟩ := h
  obtain ⟨_, q1, q2, q3, q4, _, _⟩ := load_ok hl
  rw [hpa] at q1
  cases q1
  obtain ⟨bm, hp, wi, hlw⟩ := load_own i hl e3 rfl rfl
  obtain ⟨j1, j2, j3⟩ := i.setMeta (P := P) (k := mk) md e1 (fun m hm => by rw [e2] at hm; cases hm)
    (by rw [hp]; exact fun h => (nomatch h))
  have hown : s.ownMeta K P = none := by
    unfold Chain.ownMeta
    rw [← e1, e2]
  have hv : s.view K P = some l.w := by rw [wi.view hp, hlw, hown]
  refine ⟨j1, Done.did ⟨fun Q => Iff.rfl, ⟨l.w, w, hv, hw, ?_⟩, j2⟩⟩
  rw [j3 _ hv, ← hmd]
  obtain ⟨_, _, e⟩ := createMeta_ok hw
  rw [e]

theorem transferCreator_did {K : Keys} {s s' : Chain} {P ck g n : Nat} {mk : Option Nat} (i : Inv K s still)
    (h : s.transferCreator P ck mk g n = .ok s') : Inv K s' still ∧ Did K s s' P (.transferCreator g n) := by
  simp only [Chain.transferCreator, bind_ok, req_ok, need_ok, ok_inj] at h
  obtain ⟨pa, hpa, l, hl, _, e3, w, hw, rfl⟩ := h
  obtain ⟨_, q1, q2, q3, q4, _, _⟩ := load_ok hl
  rw [hpa] at q1
  cases q1
  obtain ⟨bm, hp, wi, hlw⟩ := load_own i hl e3 rfl rfl
  have hmd : l.w.dammMeta = none ∨ l.w.dammMeta = s.ownMeta K P := by
    rw [hlw]
    dsimp only [Chain.world]
    cases mk with
    | none => exact .inl rfl
    | some k =>
      dsimp only
      cases hm : s.metas k with
      | none => exact .inl rfl
      | some m =>
        dsimp only
        split
        · rename_i e
          right
          unfold Chain.ownMeta
          have := (i.metas k m hm).1
          rw [e] at this
          rw [← this, hm]
          dsimp only
          rw [if_pos e]
        · exact .inl rfl
  obtain ⟨t1, t2, t3, t4⟩ := transferCreator_ok hw
  have hst : (s.world P l.pa l.c bm l.bv.amount l.qv.amount (s.ownMeta K P)).step (.transferCreator g n) =
      .ok { w with dammMeta := s.ownMeta K P } := by
    have ta : (s.world P l.pa l.c bm l.bv.amount l.qv.amount (s.ownMeta K P)).transferAllowed = .ok () := by
      rcases hmd with hmd | hmd
      · have t := transferAllowed_ok t3
        rw [hmd] at t
        have e1 : l.w.pool = l.pa.state := by rw [hlw]; rfl
        have e2 : l.w.cfg = l.c := by rw [hlw]; rfl
        rw [e1, e2] at t
        unfold World.transferAllowed
        dsimp only [Chain.world]
        rcases t with t | ⟨t, t'⟩
        · rw [t]; rfl
        · rw [t]
          exact if_neg (fun h0 => by obtain ⟨_, n, _⟩ := t' h0; cases n)
      · rw [hlw] at hmd t3
        dsimp only [Chain.world] at hmd
        rw [← hmd]
        exact t3
    have tc : (s.world P l.pa l.c bm l.bv.amount l.qv.amount (s.ownMeta K P)).pool.creator = g := by
      rw [hlw] at t1; exact t1
    show World.transferCreator _ g n = _
    unfold World.transferCreator
    rw [(req_ok (u := ())).2 tc, ok_bind, (req_ok (u := ())).2 t2, ok_bind, ta, ok_bind, t4, hlw]
    rfl
  have hk : Kept l.w w := Op.kept (op := .transferCreator g n) hw (fun _ _ _ h => (nomatch h)) (fun _ _ h => (nomatch h))
  have e1 : l.w.supply = bm.supply := by rw [hlw]; rfl
  have e2 : l.w.baseVault = l.bv.amount := by rw [hlw]; rfl
  have e3' : l.w.quoteVault = l.qv.amount := by rw [hlw]; rfl
  have s1 : w.supply = l.w.supply := by rw [t4]
  have s2 : w.baseVault = l.w.baseVault := by rw [t4]
  have s3 : w.quoteVault = l.w.quoteVault := by rw [t4]
  obtain ⟨h1, h2, h3, h4, h5⟩ := i.save (pend' := still) hp wi (w := w)
    (by rw [s1, e1]; exact (i.supply _ _ wi.mint).2) (by rw [s1, s2, e1, e2]) (by rw [s3, e3'])
    (fun _ _ _ => le_refl _) rfl
  refine ⟨h1, Done.did ⟨h2, ⟨_, _, wi.view hp, hst, ?_⟩, h3⟩⟩
  rw [h4 (by rw [hk.key, hlw]; rfl) (by rw [hk.cfg, hlw]; rfl) (by rw [hk.mintAuth, hlw]; rfl)
      (by rw [hk.operators, hlw]; rfl) (by rw [hk.admins, hlw]; rfl)]

end Dbc

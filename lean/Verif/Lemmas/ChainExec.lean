import Verif.Lemmas.ChainOps
import Verif.Lemmas.Solvency
import Verif.Lemmas.Go

/-!
# Swaps, new accounts, what users do, and the dispatch
-/

namespace Dbc
open Spec

/-! ### Swap -/

theorem setTok_same {ts : List (Nat × TokenAcc)} {k : Nat} {t : TokenAcc} (h : getTok ts k = some t) : setTok ts k t = ts := by
  induction ts with
  | nil => rfl
  | cons p r ih =>
    obtain ⟨y, u⟩ := p
    simp only [getTok, setTok] at h ⊢
    by_cases hy : y = k
    · rw [if_pos hy] at h ⊢
      cases h
      rfl
    · rw [if_neg hy] at h ⊢
      rw [ih h]

theorem withhold_plain {K : Keys} {s s' : Chain} {m k a : Nat} {mt : MintAcc} (hm : s.mints m = some mt) (hp : mt.Plain)
    (h : s.withhold K m k a = .ok s') : s' = s := by
  simp only [Chain.withhold, bind_ok, need_ok, ok_inj] at h
  obtain ⟨mt', hm', t, ht, rfl⟩ := h
  rw [hm] at hm'
  cases hm'
  rw [hp.short, Nat.sub_zero, setTok_same ht]

theorem swapResult_ok {w w' : World} {a : SwapArgs} {cur : Nat} {fm fm' : FeeMode} {r r' : SwapResult} {v1 v2 : VolTracker}
    (s : SwapStep w a w' cur fm r v1 v2) (h : w.swapResult a = .ok (r', fm')) : r' = r ∧ fm' = fm := by
  unfold World.swapResult at h
  rw [s.hcur, ok_bind, s.pre, ok_bind, s.hfm, ok_bind, s.proc, ok_bind, ok_inj, Prod.mk.injEq] at h
  exact ⟨h.1.symm, h.2.symm⟩

theorem hasReferral_eq {cm : Nat} {dir : TradeDirection} {ref : Bool} {fm : FeeMode} (h : getFeeMode cm dir ref = .ok fm) :
    fm.hasReferral = ref := by
  unfold getFeeMode at h
  split at h
  · cases h
  all_goals
    cases dir <;> simp only [ok_inj] at h <;> subst h <;> rfl

/-- Everything that happens in a swap on the pool's own accounts. -/
theorem swap_parts {K : Keys} {s s' : Chain} {a : SwapIx} (i : Inv K s still) (h : s.swap K a = .ok s') :
    ∃ l tin bm r fm w1 s1 s2, s.load a.pool a.config a.baseVault a.quoteVault (s.ownMeta K a.pool) = .ok l ∧
      getTok s.tokens a.input = some tin ∧ s.pools a.pool = some l.pa ∧ Wired K s l.pa l.c l.bv l.qv bm ∧
      l.pa.baseVault = a.baseVault ∧ l.pa.quoteVault = a.quoteVault ∧ l.pa.baseMint = a.baseMint ∧
      l.c.quoteMint = a.quoteMint ∧ s.view K a.pool = some l.w ∧
      l.w.swapResult (a.args tin.mint) = .ok (r, fm) ∧ l.w.step (.swap (a.args tin.mint)) = .ok w1 ∧
      s.debit K a.payer (match swapDir tin.mint a.baseMint with | .baseToQuote => a.baseMint | .quoteToBase => a.quoteMint)
        a.input r.includedIn = .ok s1 ∧
      s2 = s1.save a.pool a.baseVault a.quoteVault l w1 ∧
      Inv K s2 (plus (plus still (if fm.feesOnBase then a.baseMint else a.quoteMint)
          (onlyIf a.referral.isSome r.fee.referral))
        (match swapDir tin.mint a.baseMint with | .baseToQuote => a.quoteMint | .quoteToBase => a.baseMint) r.out) ∧
      Done K s s2 a.pool (.swap (a.args tin.mint)) ∧
      s2.swapPay K a (swapDir tin.mint a.baseMint) r fm = .ok s' := by
  simp only [Chain.swap, bind_ok, req_ok, need_ok, Prod.exists] at h
  obtain ⟨l, hl, tin, htin, _, ⟨e1, e2, e3⟩, _, ⟨e4, e5⟩, r, fm, hr, w1, hw, s1, hs1, s2, hs2, h⟩ := h
  obtain ⟨bm, hp, wi, hlw⟩ := load_own i hl e3 e1 e2
  have m1 : l.pa.baseMint = a.baseMint := by rw [← wi.baseMint]; exact e4
  have m2 : l.c.quoteMint = a.quoteMint := by rw [← wi.quoteMint]; exact e5
  have hst : l.w.step (.swap (a.args tin.mint)) = .ok w1 := hw
  obtain ⟨i1, wr, vw, t, _, _, _, _, _, es1⟩ := i.debit hs1
  have hd : a.baseMint ≠ a.quoteMint := by rw [← m1, ← m2]; exact wi.diff
  obtain ⟨cur, fm', r', v1, v2, st⟩ := swap_ok hw
  obtain ⟨rfl, rfl⟩ := swapResult_ok st hr
  have hfr := hasReferral_eq st.hfm
  have c1 : w1.supply = l.w.supply := by rw [st.frame]
  have c2 : w1.dammMeta = l.w.dammMeta := by rw [st.frame]
  have hk : Kept l.w w1 := Op.kept hst (fun _ _ _ h => (nomatch h)) (fun _ _ h => (nomatch h))
  have key : Inv K (s1.save a.pool l.pa.baseVault l.pa.quoteVault l w1)
      (plus (plus still (if fm.feesOnBase then a.baseMint else a.quoteMint) (onlyIf a.referral.isSome r.fee.referral))
        (match swapDir tin.mint a.baseMint with | .baseToQuote => a.quoteMint | .quoteToBase => a.baseMint) r.out) ∧
      Done K s (s1.save a.pool l.pa.baseVault l.pa.quoteVault l w1) a.pool (.swap (a.args tin.mint)) := by
    have sv := st.sellVault
    have bv := st.buyVault
    have ea : (a.args tin.mint).dir = swapDir tin.mint a.baseMint := rfl
    have er : fm.hasReferral = a.referral.isSome := hfr
    rw [ea, er] at sv bv
    clear st hr hs1
    refine i1.run (s0 := s) vw (by rw [es1]) (by rw [es1]; exact hp) (wr _ _ _ _ _ wi) (by rw [es1]; exact hlw) hst hk c2
      (le_of_eq c1) ?_ ?_ ?_
    · rw [m1, c1]
      cases hdir : swapDir tin.mint a.baseMint with
      | baseToQuote =>
        have := (sv hdir).1
        dsimp only
        rw [plus_ne _ _ hd, plus_self]
        cases hfo : fm.feesOnBase
        · rw [if_neg (by decide), plus_ne _ _ hd]
          rw [hfo, Bool.and_false, onlyIf_false] at this
          simp only [still]
          omega
        · rw [if_pos rfl, plus_self]
          rw [hfo, Bool.and_true] at this
          simp only [still]
          omega
      | quoteToBase =>
        have := (bv hdir).2
        dsimp only
        rw [plus_self, plus_ne still _ hd]
        cases hfo : fm.feesOnBase
        · rw [if_neg (by decide), plus_ne _ _ hd]
          rw [hfo, Bool.and_false, onlyIf_false] at this
          simp only [still]
          omega
        · rw [if_pos rfl, plus_self]
          rw [hfo, Bool.and_true] at this
          simp only [still]
          omega
    · rw [m2]
      have hd' : a.quoteMint ≠ a.baseMint := fun e => hd e.symm
      cases hdir : swapDir tin.mint a.baseMint with
      | baseToQuote =>
        have := (sv hdir).2
        dsimp only
        rw [plus_self, plus_ne still _ hd']
        cases hfo : fm.feesOnBase
        · rw [if_neg (by decide), plus_self]
          rw [hfo] at this
          simp only [Bool.not_false, Bool.and_true] at this
          simp only [still]
          omega
        · rw [if_pos rfl, plus_ne _ _ hd']
          rw [hfo] at this
          simp only [Bool.not_true, Bool.and_false, onlyIf_false] at this
          simp only [still]
          omega
      | quoteToBase =>
        have := (bv hdir).1
        dsimp only
        rw [plus_ne _ _ hd', plus_self]
        cases hfo : fm.feesOnBase
        · rw [if_neg (by decide), plus_self]
          rw [hfo] at this
          simp only [Bool.not_false, Bool.and_true] at this
          simp only [still]
          omega
        · rw [if_pos rfl, plus_ne _ _ hd']
          rw [hfo] at this
          simp only [Bool.not_true, Bool.and_false, onlyIf_false] at this
          simp only [still]
          omega
    · intro x x1 x2
      rw [m1] at x1
      rw [m2] at x2
      have n1 : x ≠ (match swapDir tin.mint a.baseMint with | .baseToQuote => a.quoteMint | .quoteToBase => a.baseMint) := by
        cases swapDir tin.mint a.baseMint
        · exact x2
        · exact x1
      have n2 : x ≠ (if fm.feesOnBase then a.baseMint else a.quoteMint) := by
        split
        · exact x1
        · exact x2
      rw [plus_ne _ _ n1, plus_ne _ _ n2]
      exact Nat.zero_le _
  rw [e1, e2] at key
  obtain ⟨i2, d⟩ := key
  have e : s2 = s1.save a.pool a.baseVault a.quoteVault l w1 := by
    have hp2 : (s1.save a.pool a.baseVault a.quoteVault l w1).pools a.pool = some { l.pa with
      state := w1.pool, lamports := w1.lamports, updateAuth := w1.updateAuth, lpVault := w1.lpVault, lpMinted := w1.lpMinted,
      lpLog := w1.lpLog, positions := w1.positions, newPool := w1.newPool, escrow := w1.escrow, led := w1.led } :=
      put_same _ _ _
    obtain ⟨c', bv', qv', bm', w2⟩ := i2.wired _ _ hp2
    have k1 : (s1.save a.pool a.baseVault a.quoteVault l w1).mints a.baseMint = some bm' := by
      rw [← m1]; exact w2.mint
    have k2 : c' = l.c := by
      have h1 : s1.configs l.pa.config = some c' := w2.cfg
      have h2 := (wr _ _ _ _ _ wi).cfg
      rw [h1] at h2
      exact Option.some.inj h2
    obtain ⟨_, qm, k3, k4⟩ := i2.cfg _ _ w2.cfg
    rw [k2, m2] at k3
    cases hdir : swapDir tin.mint a.baseMint with
    | baseToQuote =>
      rw [hdir] at hs2
      exact withhold_plain k1 w2.plain hs2
    | quoteToBase =>
      rw [hdir] at hs2
      exact withhold_plain k3 k4 hs2
  rw [e] at h
  exact ⟨l, tin, bm, r, fm, w1, s1, _, hl, htin, hp, wi, e1, e2, m1, m2, by rw [wi.view hp, hlw], hr, hst, hs1, rfl, i2, d, h⟩

theorem swap_did {K : Keys} {s s' : Chain} {a : SwapIx} (i : Inv K s still) (h : s.swap K a = .ok s') :
    ∃ m, Inv K s' still ∧ Did K s s' a.pool (.swap (a.args m)) ∧ (getTok s.tokens a.input).map (·.mint) = some m := by
  obtain ⟨l, tin, bm, r, fm, w1, s1, s2, _, htin, _, _, _, _, _, _, _, _, _, _, _, i2, d, h⟩ := swap_parts i h
  have hm : (getTok s.tokens a.input).map (·.mint) = some tin.mint := by rw [htin]; rfl
  refine ⟨tin.mint, ?_⟩
  unfold Chain.swapPay at h
  rw [bind_ok] at h
  obtain ⟨s3, h3, h⟩ := h
  obtain ⟨i3, f3⟩ := i2.credit (fun x => le_refl _) h3
  cases hr : a.referral with
  | none =>
    rw [hr] at h i3
    cases h
    rw [Option.isSome_none, onlyIf_false, plus_zero] at i3
    exact ⟨i3, d.after f3, hm⟩
  | some k =>
    rw [hr] at h i3
    rw [Option.isSome_some, onlyIf_true] at i3
    obtain ⟨i4, f4⟩ := i3.one h
    exact ⟨i4, d.after (f3.trans f4), hm⟩

/-! ### Creating configurations and pools -/

/-- No pool changed at all. -/
def Same (K : Keys) (s s' : Chain) : Prop := (∀ Q, s'.pools Q = none ↔ s.pools Q = none) ∧ ∀ Q, s'.view K Q = s.view K Q

theorem supported_plain {K : Keys} {k : Nat} {m : MintAcc} (h : isSupportedQuoteMint K k m = .ok true) : m.Plain := by
  unfold isSupportedQuoteMint at h
  unfold MintAcc.Plain MintAcc.has
  rw [ite_ok] at h
  rcases h with ⟨h, _⟩ | ⟨h, h2⟩
  · simp [h]
  · rw [ite_ok] at h2
    rcases h2 with ⟨_, h2⟩ | ⟨_, h2⟩
    · cases h2
    · rw [ok_inj, List.all_eq_true] at h2
      constructor
      · by_cases e : Ext.transferFee ∈ m.exts
        · have := h2 _ e; simp at this
        · simp [e]
      · by_cases e : Ext.permanentDelegate ∈ m.exts
        · have := h2 _ e; simp at this
        · simp [e]

/-- With the pools, vaults and base mints untouched, every pool's world is the same. -/
theorem Inv.same {K : Keys} {s s' : Chain} {pend pend' : Nat → Nat} (i : Inv K s pend)
    (hpools : s'.pools = s.pools) (hop : s'.operators = s.operators) (had : s'.admins = s.admins)
    (hcfg : ∀ k c, s.configs k = some c → s'.configs k = some c)
    (hcfg' : ∀ k c, s'.configs k = some c → s.configs k = some c ∨
      ((∃ p env, ConfigParams.Typed p ∧ createConfig p env = .ok c) ∧ ∃ m, s.mints c.quoteMint = some m ∧ m.Plain))
    (htok : ∀ k t, getTok s.tokens k = some t → getTok s'.tokens k = some t)
    (hknown : ∀ x ∈ s'.tokens, s'.mints x.2.mint ≠ none)
    (hmint : ∀ m a, s.mints m = some a → s'.mints m = some a)
    (hsup : ∀ m a, s'.mints m = some a → held m s'.tokens + pend' m ≤ a.supply ∧ a.supply ≤ u64Max)
    (hmeta : s'.metas = s.metas) : Inv K s' pend' ∧ Same K s s' := by
  obtain ⟨h1, h2, h3⟩ := i.ext (s' := s') (pend' := pend') (fun _ pa => pa) (fun P => by rw [hpools, Option.map_id'])
    (fun _ _ => ⟨rfl, rfl, rfl, rfl⟩) hcfg hcfg' htok hknown (fun m a h => ⟨a, hmint m a h, rfl, rfl⟩) hsup hmeta
  refine ⟨h1, h2, fun Q => ?_⟩
  cases hq : s.pools Q with
  | none =>
    have := (h2 Q).2 hq
    unfold Chain.view
    rw [hq, this]
  | some pa =>
    obtain ⟨c, bv, qv, bm, hw⟩ := i.wired Q pa hq
    obtain ⟨bm', hb, hv⟩ := h3 Q pa c bv qv bm hq hw
    rw [hmint _ _ hw.mint] at hb
    cases hb
    rw [hv, hw.view hq]
    unfold Chain.world
    rw [hop, had]

theorem createConfig_same {K : Keys} {s s' : Chain} {k q f r n : Nat} {p : ConfigParams} (i : Inv K s still)
    (ht : p.Typed) (h : s.createConfig K k q f r n p = .ok s') : Inv K s' still ∧ Same K s s' := by
  simp only [Chain.createConfig, bind_ok, req_ok, need_ok, ok_inj] at h
  obtain ⟨_, h1, m, h2, ok, h3, c, h4, rfl⟩ := h
  have acc := createConfig_ok h4
  have hq : c.quoteMint = q := by rw [acc.eq]; rfl
  have hs : ok = true := (validate_ok acc.validated).quoteOk
  refine i.same rfl rfl rfl ?_ ?_ (fun _ _ h => h) i.known (fun _ _ h => h) i.supply rfl
  · intro x c' hx
    dsimp only
    rw [put_ne _ _ (fun e => by rw [e, h1] at hx; cases hx)]
    exact hx
  · intro x c' hx
    dsimp only at hx
    by_cases e : x = k
    · subst e
      rw [put_same] at hx
      cases hx
      right
      refine ⟨⟨p, _, ht, h4⟩, m, by rw [hq]; exact h2, ?_⟩
      rw [hs] at h3
      exact supported_plain h3
    · rw [put_ne _ _ e] at hx
      exact .inl hx

theorem initPool_new {K : Keys} {s s' : Chain} {a : InitIx} (i : Inv K s still) (h : s.initPool K a = .ok s') :
    Inv K s' still ∧ s.pools a.pool = none ∧
    (∃ c w, s.configs a.config = some c ∧ c.quoteMint = a.quoteMint ∧
      initPool c ⟨a.pool, a.creator, a.tokenType, a.clk, a.donated, s.operators, s.admins⟩ = .ok w ∧ Genesis w ∧
      s'.view K a.pool = some w) ∧
    ∀ Q, Q ≠ a.pool → s'.pools Q = s.pools Q ∧ s'.view K Q = s.view K Q := by
  simp only [Chain.initPool, bind_ok, req_ok, need_ok, ok_inj] at h
  obtain ⟨c, hc, _, e1, qm, hqm, _, hbm, _, ⟨ep, hp⟩, _, ⟨eb, hb⟩, _, ⟨eq, hq, hne⟩, w, hw, h⟩ := h
  obtain ⟨⟨p, env, ht, hcc⟩, qm', hqm', hpl⟩ := i.cfg _ _ hc
  have hg : Genesis w := ⟨p, env, _, c, ht, hcc, hw⟩
  have nn := initPool_ok hw
  have k1 : w.key = a.pool ∧ w.cfg = c ∧ w.baseVault = w.supply ∧ w.quoteVault = 0 ∧ w.dammMeta = none ∧
      w.operators = s.operators ∧ w.admins = s.admins ∧ w.supply ≤ u64Max := by
    obtain ⟨sp, mint, upd, act, b, _, _, _, hsp, _, _, _, _, e⟩ := nn
    obtain ⟨_, _, _, hle⟩ := (createConfig_good ht hcc).supply sp hsp
    rw [e]
    exact ⟨rfl, rfl, rfl, rfl, rfl, rfl, rfl, hle⟩
  obtain ⟨w1, w2, w3, w4, w5, w6, w7, w8⟩ := k1
  obtain ⟨pa, hpa⟩ : ∃ pa : PoolAcc, pa = ⟨a.config, a.baseMint, a.baseVault, a.quoteVault, w.pool, w.lamports,
    w.updateAuth, w.lpVault, w.lpMinted, w.lpLog, w.positions, w.newPool, w.escrow, w.led⟩ := ⟨_, rfl⟩
  obtain ⟨bv, hbv⟩ : ∃ v : TokenAcc, v = ⟨a.baseMint, K.authority, w.baseVault⟩ := ⟨_, rfl⟩
  obtain ⟨qv, hqv⟩ : ∃ v : TokenAcc, v = ⟨a.quoteMint, K.authority, w.quoteVault⟩ := ⟨_, rfl⟩
  obtain ⟨bm, hbm'⟩ : ∃ v : MintAcc, v = ⟨a.tokenType, if a.tokenType = 0 then [] else [.metadataPointer, .tokenMetadata],
    w.supply, w.mintAuth⟩ := ⟨_, rfl⟩
  rw [← hpa, ← hbv, ← hqv, ← hbm'] at h
  have p1 : s'.pools = put s.pools a.pool pa := by rw [← h]
  have p2 : s'.tokens = (a.quoteVault, qv) :: (a.baseVault, bv) :: s.tokens := by rw [← h]
  have p3 : s'.configs = s.configs := by rw [← h]
  have p4 : s'.mints = put s.mints a.baseMint bm := by rw [← h]
  have p5 : s'.metas = s.metas := by rw [← h]
  have p6 : s'.operators = s.operators ∧ s'.admins = s.admins := by rw [← h]; exact ⟨rfl, rfl⟩
  clear h
  have c1 : pa.config = a.config ∧ pa.baseMint = a.baseMint ∧ pa.baseVault = a.baseVault ∧ pa.quoteVault = a.quoteVault := by
    rw [hpa]; exact ⟨rfl, rfl, rfl, rfl⟩
  have b1 : bv.mint = a.baseMint ∧ bv.owner = K.authority ∧ bv.amount = w.baseVault := by rw [hbv]; exact ⟨rfl, rfl, rfl⟩
  have q1 : qv.mint = a.quoteMint ∧ qv.owner = K.authority ∧ qv.amount = w.quoteVault := by rw [hqv]; exact ⟨rfl, rfl, rfl⟩
  have m1 : bm.supply = w.supply ∧ bm.auth = w.mintAuth ∧ bm.Plain := by
    refine ⟨by rw [hbm'], by rw [hbm'], ?_⟩
    rw [hbm']
    unfold MintAcc.Plain MintAcc.has
    dsimp only
    by_cases e : a.tokenType = 0
    · simp [e]
    · simp [e]
  have hdiff : a.baseMint ≠ a.quoteMint := fun e => by rw [e, hqm] at hbm; cases hbm
  have tok : ∀ x, getTok s'.tokens x = if a.quoteVault = x then some qv else if a.baseVault = x then some bv else
      getTok s.tokens x := by
    intro x
    rw [p2, getTok_cons, getTok_cons]
  have old : ∀ x t, getTok s.tokens x = some t → getTok s'.tokens x = some t := by
    intro x t hx
    rw [tok, if_neg (fun e => by rw [← e, hq] at hx; cases hx), if_neg (fun e => by rw [← e, hb] at hx; cases hx)]
    exact hx
  have oldm : ∀ x t, s.mints x = some t → s'.mints x = some t := by
    intro x t hx
    rw [p4, put_ne _ _ (fun e => by rw [e, hbm] at hx; cases hx)]
    exact hx
  have nw : Wired K s' pa c bv qv bm := by
    refine ⟨?_, ?_, ?_, b1.2.1, ?_, ?_, q1.2.1, ?_, m1.2.2, ?_⟩
    · rw [p3, c1.1]; exact hc
    · rw [tok, c1.2.2.1, if_neg hne, if_pos rfl]
    · rw [b1.1, c1.2.1]
    · rw [tok, c1.2.2.2, if_pos rfl]
    · rw [q1.1, e1]
    · rw [p4, c1.2.1, put_same]
    · rw [c1.2.1, e1]; exact hdiff
  have ow : ∀ qa c' bv' qv' bm', Wired K s qa c' bv' qv' bm' → Wired K s' qa c' bv' qv' bm' := by
    intro qa c' bv' qv' bm' x
    exact ⟨by rw [p3]; exact x.cfg, old _ _ x.base, x.baseMint, x.baseOwner, old _ _ x.quote, x.quoteMint, x.quoteOwner,
      oldm _ _ x.mint, x.plain, x.diff⟩
  have back : ∀ Q qa, s'.pools Q = some qa → (Q = a.pool ∧ qa = pa) ∨ (Q ≠ a.pool ∧ s.pools Q = some qa) := by
    intro Q qa h
    rw [p1] at h
    by_cases e : Q = a.pool
    · subst e
      rw [put_same] at h
      exact .inl ⟨rfl, (Option.some.inj h).symm⟩
    · rw [put_ne _ _ e] at h
      exact .inr ⟨e, h⟩
  have far : ∀ Q qa, s.pools Q = some qa → qa.baseVault ≠ a.baseVault ∧ qa.baseVault ≠ a.quoteVault ∧
      qa.quoteVault ≠ a.baseVault ∧ qa.quoteVault ≠ a.quoteVault ∧ qa.baseMint ≠ a.baseMint := by
    intro Q qa hQ
    obtain ⟨_, _, _, _, x⟩ := i.wired Q qa hQ
    have y1 := x.base
    have y2 := x.quote
    have y3 := x.mint
    refine ⟨?_, ?_, ?_, ?_, ?_⟩ <;> intro e
    · rw [e, hb] at y1; cases y1
    · rw [e, hq] at y1; cases y1
    · rw [e, hb] at y2; cases y2
    · rw [e, hq] at y2; cases y2
    · rw [e, hbm] at y3; cases y3
  have hI : Inv K s' still := by
    refine ⟨?_, ?_, ?_, ?_, ?_, ?_, ?_⟩
    · intro k c' hk
      rw [p3] at hk
      obtain ⟨x, m, y, z⟩ := i.cfg k c' hk
      exact ⟨x, m, oldm _ _ y, z⟩
    · intro Q qa hQ
      rcases back Q qa hQ with ⟨rfl, rfl⟩ | ⟨_, hQ⟩
      · exact ⟨_, _, _, _, nw⟩
      · obtain ⟨_, _, _, _, x⟩ := i.wired Q qa hQ
        exact ⟨_, _, _, _, ow _ _ _ _ _ x⟩
    · intro Q R qa ra hQ hR
      rcases back Q qa hQ with ⟨rfl, rfl⟩ | ⟨_, hQ⟩ <;> rcases back R ra hR with ⟨_, rfl⟩ | ⟨_, hR⟩
      · rw [c1.2.2.1, c1.2.2.2]; exact fun e => hne e.symm
      · rw [c1.2.2.1]; exact fun e => (far R ra hR).2.2.1 e.symm
      · rw [c1.2.2.2]; exact (far Q qa hQ).2.1
      · exact i.cross Q R qa ra hQ hR
    · intro Q R qa ra hQ hR hn
      rcases back Q qa hQ with ⟨rfl, rfl⟩ | ⟨_, hQ⟩ <;> rcases back R ra hR with ⟨rfl, rfl⟩ | ⟨_, hR⟩
      · exact absurd rfl hn
      · obtain ⟨f1, f2, f3, f4, f5⟩ := far R ra hR
        rw [c1.2.2.1, c1.2.2.2, c1.2.1]
        exact ⟨fun e => f1 e.symm, fun e => f4 e.symm, fun e => f5 e.symm⟩
      · obtain ⟨f1, f2, f3, f4, f5⟩ := far Q qa hQ
        rw [c1.2.2.1, c1.2.2.2, c1.2.1]
        exact ⟨f1, f4, f5⟩
      · exact i.apart Q R qa ra hQ hR hn
    · intro k m hk
      rw [p5] at hk
      obtain ⟨x, y⟩ := i.metas k m hk
      refine ⟨x, fun e => y ?_⟩
      rw [p1] at e
      by_cases e2 : m.pool = a.pool
      · rw [e2, put_same] at e; cases e
      · rw [put_ne _ _ e2] at e; exact e
    · intro m x hx
      rw [p2]
      simp only [held, still]
      rw [q1.1, b1.1, q1.2.2, b1.2.2, w4, w3]
      by_cases e : m = a.baseMint
      · subst e
        rw [p4, put_same] at hx
        cases hx
        have hz : held a.baseMint s.tokens = 0 := held_none (fun y hy e => i.known y hy (by rw [e]; exact hbm))
        rw [if_neg (fun e => hdiff e.symm), if_pos rfl, hz, m1.1]
        exact ⟨by omega, w8⟩
      · rw [p4, put_ne _ _ e] at hx
        have y := i.supply m x hx
        simp only [still] at y
        rw [if_neg (c := a.baseMint = m) (fun h => e h.symm)]
        refine ⟨?_, y.2⟩
        split <;> omega
    · intro x hx
      rw [p2] at hx
      rcases List.mem_cons.1 hx with rfl | hx
      · dsimp only
        rw [q1.1, oldm _ _ hqm]
        exact fun h => (nomatch h)
      · rcases List.mem_cons.1 hx with rfl | hx
        · dsimp only
          rw [b1.1, p4, put_same]
          exact fun h => (nomatch h)
        · have y := i.known x hx
          cases hm : s.mints x.2.mint with
          | none => exact absurd hm y
          | some t => rw [oldm _ _ hm]; exact fun h => (nomatch h)
  have hown : ∀ Q, s'.ownMeta K Q = s.ownMeta K Q := fun Q => by unfold Chain.ownMeta; rw [p5]
  refine ⟨hI, hp, ⟨c, w, hc, e1, hw, hg, ?_⟩, ?_⟩
  · rw [nw.view (P := a.pool) (by rw [p1, put_same]), hown]
    have hz : s.ownMeta K a.pool = none := by
      unfold Chain.ownMeta
      cases hm : s.metas (K.metaPda a.pool) with
      | none => rfl
      | some m =>
        dsimp only
        split
        · rename_i e
          exact absurd (by rw [e]; exact hp) (i.metas _ _ hm).2
        · rfl
    rw [hz, b1.2.2, q1.2.2]
    unfold Chain.world
    rw [p6.1, p6.2, hpa, m1.1, m1.2.1, ← w1, ← w2, ← w5, ← w6, ← w7]
  · intro Q hQ
    refine ⟨by rw [p1, put_ne _ _ hQ], ?_⟩
    cases hq' : s.pools Q with
    | none =>
      unfold Chain.view
      rw [p1, put_ne _ _ hQ, hq']
    | some qa =>
      obtain ⟨c', bv', qv', bm', x⟩ := i.wired Q qa hq'
      rw [x.view hq', (ow _ _ _ _ _ x).view (P := Q) (by rw [p1, put_ne _ _ hQ]; exact hq'), hown]
      unfold Chain.world
      rw [p6.1, p6.2]

/-! ### Operators and users -/

/-- Every pool went through operations that outsiders can cause. -/
def Aside (K : Keys) (s s' : Chain) : Prop :=
  (∀ Q, s'.pools Q = none ↔ s.pools Q = none) ∧
  ∀ Q w, s.view K Q = some w → ∃ ops w', (∀ o ∈ ops, Outside o) ∧ Run w ops w' ∧ s'.view K Q = some w'

theorem Gift.outside {o : Op} (h : Gift o) : Outside o := by
  cases o <;> first | exact trivial | exact False.elim h

theorem After.aside {K : Keys} {s s' : Chain} (h : After K s s') : Aside K s s' := by
  refine ⟨h.1, fun Q w hw => ?_⟩
  obtain ⟨w', ⟨ops, g, r⟩, v⟩ := h.2 Q w hw
  exact ⟨ops, w', fun o ho => Gift.outside (g o ho), r, v⟩

theorem Same.aside {K : Keys} {s s' : Chain} (h : Same K s s') : Aside K s s' :=
  ⟨h.1, fun Q w hw => ⟨[], w, fun _ h => (nomatch h), .nil w, by rw [h.2 Q]; exact hw⟩⟩

theorem Same.after {K : Keys} {s s' s2 : Chain} (h : Same K s s') (h2 : After K s' s2) : After K s s2 :=
  ⟨fun Q => (h2.1 Q).trans (h.1 Q), fun Q w hw => h2.2 Q w (by rw [h.2 Q]; exact hw)⟩

theorem Aside.after {K : Keys} {s s' s2 : Chain} (h : Aside K s s') (h2 : After K s' s2) : Aside K s s2 := by
  refine ⟨fun Q => (h2.1 Q).trans (h.1 Q), fun Q w hw => ?_⟩
  obtain ⟨ops, w1, h1, r1, v1⟩ := h.2 Q w hw
  obtain ⟨w', ⟨o2, g, r2⟩, v⟩ := h2.2 Q w1 v1
  exact ⟨ops ++ o2, w', fun o ho => (List.mem_append.1 ho).elim (h1 o) (fun x => Gift.outside (g o x)), r1.append r2, v⟩

/-- A change of the operators is the same step for every pool. -/
theorem Inv.ops {K : Keys} {s s' : Chain} {op : Op} (i : Inv K s still) {os : List Operator} (ho : Outside op)
    (hs : s' = { s with operators := os })
    (hst : ∀ w : World, w.operators = s.operators → w.admins = s.admins → w.step op = .ok { w with operators := os }) :
    Inv K s' still ∧ Aside K s s' := by
  subst hs
  obtain ⟨h1, h2, h3⟩ := i.ext (s' := { s with operators := os }) (pend' := still) (fun _ pa => pa)
    (fun P => by rw [Option.map_id'])
    (fun _ _ => ⟨rfl, rfl, rfl, rfl⟩) (fun _ _ h => h) (fun _ _ h => .inl h) (fun _ _ h => h) i.known
    (fun m a h => ⟨a, h, rfl, rfl⟩) i.supply rfl
  refine ⟨h1, h2, fun Q w hw => ?_⟩
  obtain ⟨pa, c, bv, qv, bm, hp, hwi, rfl⟩ := i.open hw
  obtain ⟨bm', hb, hv⟩ := h3 Q pa c bv qv bm hp hwi
  have hb' : s.mints pa.baseMint = some bm' := hb
  rw [hwi.mint] at hb'
  cases hb'
  exact ⟨[op], _, fun o h => by rw [List.mem_singleton.1 h]; exact ho, .cons (hst _ rfl rfl) (.nil _), hv⟩

theorem createOperator_aside {K : Keys} {s s' : Chain} {g a p : Nat} (i : Inv K s still)
    (h : s.createOperator g a p = .ok s') : Inv K s' still ∧ Aside K s s' := by
  simp only [Chain.createOperator, bind_ok, req_ok, ok_inj] at h
  obtain ⟨_, h1, _, h2, _, h3, h⟩ := h
  refine i.ops (op := .createOperator g a p) trivial h.symm (fun w e1 e2 => ?_)
  show w.createOperator g a p = _
  unfold World.createOperator
  rw [e1, e2, (req_ok (u := ())).2 h1, ok_bind, (req_ok (u := ())).2 h2, ok_bind, (req_ok (u := ())).2 h3, ok_bind]

theorem closeOperator_aside {K : Keys} {s s' : Chain} {g a : Nat} (i : Inv K s still)
    (h : s.closeOperator g a = .ok s') : Inv K s' still ∧ Aside K s s' := by
  simp only [Chain.closeOperator, bind_ok, req_ok, ok_inj] at h
  obtain ⟨_, h1, h⟩ := h
  refine i.ops (op := .closeOperator g a) trivial h.symm (fun w e1 e2 => ?_)
  show w.closeOperator g a = _
  unfold World.closeOperator
  rw [e1, e2, (req_ok (u := ())).2 h1, ok_bind]

theorem newMint_same {K : Keys} {s s' : Chain} {k p : Nat} {e : List Ext} {au : Option Nat} (i : Inv K s still)
    (h : s.newMint k p e au = .ok s') : Inv K s' still ∧ Same K s s' := by
  simp only [Chain.newMint, bind_ok, req_ok, ok_inj] at h
  obtain ⟨_, h1, rfl⟩ := h
  have old : ∀ x t, s.mints x = some t → put s.mints k ⟨p, e, 0, au⟩ x = some t := by
    intro x t hx
    rw [put_ne _ _ (fun e => by rw [e, h1] at hx; cases hx)]
    exact hx
  refine i.same rfl rfl rfl (fun _ _ h => h) (fun _ _ h => .inl h) (fun _ _ h => h) ?_ old ?_ rfl
  · intro x hx
    have y := i.known x hx
    dsimp only
    cases hm : s.mints x.2.mint with
    | none => exact absurd hm y
    | some t => rw [old _ _ hm]; exact fun h => (nomatch h)
  · intro m x hx
    dsimp only at hx ⊢
    by_cases e2 : m = k
    · subst e2
      rw [put_same] at hx
      cases hx
      rw [held_none (fun y hy e => i.known y hy (by rw [e]; exact h1))]
      exact ⟨le_refl _, Nat.zero_le _⟩
    · rw [put_ne _ _ e2] at hx
      exact i.supply m x hx

theorem newAccount_same {K : Keys} {s s' : Chain} {k m o : Nat} (i : Inv K s still)
    (h : s.newAccount k m o = .ok s') : Inv K s' still ∧ Same K s s' := by
  simp only [Chain.newAccount, bind_ok, req_ok, need_ok, ok_inj] at h
  obtain ⟨_, h1, mt, h2, rfl⟩ := h
  refine i.same rfl rfl rfl (fun _ _ h => h) (fun _ _ h => .inl h) ?_ ?_ (fun _ _ h => h) ?_ rfl
  · intro x t hx
    dsimp only
    rw [getTok_cons, if_neg (fun e => by rw [← e, h1] at hx; cases hx)]
    exact hx
  · intro x hx
    rcases List.mem_cons.1 hx with rfl | hx
    · dsimp only
      rw [h2]
      exact fun h => (nomatch h)
    · exact i.known x hx
  · intro x t hx
    dsimp only [held]
    have := i.supply x t hx
    refine ⟨?_, this.2⟩
    split <;> omega

theorem transfer_after {K : Keys} {s s' : Chain} {g m x y a : Nat} (i : Inv K s still)
    (h : s.transfer K g m x y a = .ok s') : Inv K s' still ∧ After K s s' := by
  simp only [Chain.transfer, bind_ok] at h
  obtain ⟨s1, h1, h⟩ := h
  obtain ⟨i1, _, v, t, _, _, _, _, _, e⟩ := i.debit h1
  obtain ⟨i2, f⟩ := i1.one h
  exact ⟨i2, Same.after ⟨fun Q => by rw [e], v⟩ f⟩

theorem seize_after {K : Keys} {s s' : Chain} {m x y a : Nat} (i : Inv K s still)
    (h : s.seize K m x y a = .ok s') : Inv K s' still ∧ After K s s' := by
  simp only [Chain.seize, bind_ok, req_ok, need_ok] at h
  obtain ⟨mt, hm, _, hd, t, ht, _, ⟨e1, e2⟩, h⟩ := h
  obtain ⟨v, hv⟩ : ∃ v : TokenAcc, v = { t with amount := t.amount - a } := ⟨_, rfl⟩
  rw [← hv] at h
  have v1 : v.mint = t.mint := by rw [hv]
  have v2 : v.owner = t.owner := by rw [hv]
  have v3 : v.amount = t.amount - a := by rw [hv]
  have np : ¬ mt.Plain := fun e => by rw [e.2] at hd; cases hd
  have far : ∀ Q qa c bv qv bm, s.pools Q = some qa → Wired K s qa c bv qv bm → qa.baseVault ≠ x ∧ qa.quoteVault ≠ x := by
    intro Q qa c bv qv bm hQ w
    constructor
    · intro e
      have k := w.base
      rw [e, ht] at k
      have k2 : t = bv := Option.some.inj k
      have k3 := w.mint
      rw [← w.baseMint, ← k2, e1, hm] at k3
      exact np (by rw [Option.some.inj k3]; exact w.plain)
    · intro e
      have k := w.quote
      rw [e, ht] at k
      have k2 : t = qv := Option.some.inj k
      obtain ⟨_, qm, k3, k4⟩ := i.cfg _ _ w.cfg
      rw [← w.quoteMint, ← k2, e1, hm] at k3
      exact np (by rw [Option.some.inj k3]; exact k4)
  have ow : ∀ Q qa c bv qv bm, s.pools Q = some qa → Wired K s qa c bv qv bm →
      Wired K { s with tokens := setTok s.tokens x v } qa c bv qv bm := by
    intro Q qa c bv qv bm hQ w
    obtain ⟨f1, f2⟩ := far Q qa c bv qv bm hQ w
    have := w.setTok (s' := { s with tokens := setTok s.tokens x v }) (pa' := qa) ht (.inl ⟨v1, v2⟩) rfl rfl rfl rfl rfl
      rfl rfl
    rw [if_neg f1, if_neg f2] at this
    exact this
  have hI : Inv K { s with tokens := setTok s.tokens x v } (plus still m a) := by
    refine ⟨i.cfg, ?_, i.cross, i.apart, i.metas, ?_, ?_⟩
    · intro Q qa hQ
      obtain ⟨_, _, _, _, w⟩ := i.wired Q qa hQ
      exact ⟨_, _, _, _, ow _ _ _ _ _ _ hQ w⟩
    · intro z mz hz
      have k1 := i.supply z mz hz
      have k2 := held_setTok v ht z
      rw [v1, v3, e1] at k2
      simp only [plus, still] at k1 ⊢
      refine ⟨?_, k1.2⟩
      by_cases e : z = m
      · rw [if_pos e.symm, if_pos e.symm] at k2
        rw [if_pos e]
        omega
      · rw [if_neg (fun h => e h.symm), if_neg (fun h => e h.symm)] at k2
        rw [if_neg e]
        omega
    · intro z hz
      rcases mem_setTok hz with hz | hz
      · exact i.known z hz
      · rw [hz, v1]
        exact i.known _ (mem_of_getTok ht)
  obtain ⟨i2, f⟩ := hI.one h
  refine ⟨i2, Same.after (s' := { s with tokens := setTok s.tokens x v }) ⟨fun _ => Iff.rfl, fun Q => ?_⟩ f⟩
  cases hQ : s.pools Q with
  | none => unfold Chain.view; dsimp only; rw [hQ]
  | some qa =>
    obtain ⟨_, _, _, _, w⟩ := i.wired Q qa hQ
    rw [w.view hQ, (ow _ _ _ _ _ _ hQ w).view (P := Q) hQ]
    rfl

theorem reassign_same {K : Keys} {s s' : Chain} {g k m o : Nat} (i : Inv K s still)
    (h : s.reassign K g k m o = .ok s') : Inv K s' still ∧ Same K s s' := by
  simp only [Chain.reassign, bind_ok, req_ok, need_ok, ok_inj] at h
  obtain ⟨t, ht, _, ⟨e1, e2⟩, mt, hm, _, e3, rfl⟩ := h
  obtain ⟨v, hv⟩ : ∃ v : TokenAcc, v = ⟨m, o, t.amount⟩ := ⟨_, rfl⟩
  rw [← hv]
  have v1 : v.mint = m := by rw [hv]
  have v3 : v.amount = t.amount := by rw [hv]
  obtain ⟨h1, _, h3⟩ := i.outside (v := v) (pend' := still) ht (by rw [e1]; exact e2)
    (by rw [v1, hm]; exact fun h => (nomatch h)) (fun z => by
      have := held_setTok v ht z
      rw [v1, v3] at this
      rcases e3 with e3 | e3
      · rw [e3] at this; omega
      · rw [e3] at this
        simp only [ite_self] at this
        omega)
  exact ⟨h1, fun _ => Iff.rfl, h3⟩

theorem mintTo_aside {K : Keys} {s s' : Chain} {g m d a : Nat} (i : Inv K s still)
    (h : s.mintTo g m d a = .ok s') : Inv K s' still ∧ Aside K s s' := by
  simp only [Chain.mintTo, bind_ok, req_ok, need_ok] at h
  obtain ⟨mt, hm, _, ha, _, hs, h⟩ := h
  obtain ⟨s1, hs1⟩ : ∃ s1 : Chain, s1 = { s with
      mints := put s.mints m { mt with supply := mt.supply + a }
      pools := fun P => (s.pools P).map fun pa =>
        if pa.baseMint = m then { pa with led := { pa.led with minted := pa.led.minted + a } } else pa } := ⟨_, rfl⟩
  rw [← hs1] at h
  have r1 : s1.mints = put s.mints m { mt with supply := mt.supply + a } := by rw [hs1]
  have r2 : s1.tokens = s.tokens := by rw [hs1]
  have r3 : s1.operators = s.operators ∧ s1.admins = s.admins := by rw [hs1]; exact ⟨rfl, rfl⟩
  have hmint : ∀ k x, s.mints k = some x → ∃ x', s1.mints k = some x' ∧ x'.program = x.program ∧ x'.exts = x.exts := by
    intro k x hx
    rw [r1]
    by_cases e : k = m
    · subst e
      rw [hm] at hx
      cases hx
      exact ⟨_, put_same _ _ _, rfl, rfl⟩
    · exact ⟨x, by rw [put_ne _ _ e]; exact hx, rfl, rfl⟩
  obtain ⟨i1, h2, h3⟩ := i.ext (s' := s1) (pend' := plus still m a) (fun _ pa =>
      if pa.baseMint = m then { pa with led := { pa.led with minted := pa.led.minted + a } } else pa)
    (fun P => by rw [hs1]) (fun P pa => by dsimp only; split <;> exact ⟨rfl, rfl, rfl, rfl⟩)
    (fun _ _ h => by rw [hs1]; exact h) (fun _ _ h => by rw [hs1] at h; exact .inl h)
    (fun _ _ h => by rw [r2]; exact h)
    (fun x hx => by
      rw [r2] at hx
      have y := i.known x hx
      cases hk : s.mints x.2.mint with
      | none => exact absurd hk y
      | some t =>
        obtain ⟨t', ht', _⟩ := hmint _ _ hk
        rw [ht']
        exact fun h => (nomatch h))
    hmint
    (fun k x hx => by
      rw [r1] at hx
      rw [r2]
      by_cases e : k = m
      · subst e
        rw [put_same] at hx
        cases hx
        have := i.supply _ _ hm
        rw [plus_self]
        dsimp only
        exact ⟨by omega, hs⟩
      · rw [put_ne _ _ e] at hx
        rw [plus_ne _ _ e]
        exact i.supply _ _ hx)
    (by rw [hs1])
  obtain ⟨i2, f⟩ := i1.give (pend' := still) (fun x => le_refl _) h
  refine ⟨i2, Aside.after ⟨h2, fun Q w hw => ?_⟩ f⟩
  obtain ⟨pa, c, bv, qv, bm, hp, hwi, rfl⟩ := i.open hw
  obtain ⟨bm', hb, hv⟩ := h3 Q pa c bv qv bm hp hwi
  rw [r1] at hb
  dsimp only at hv
  by_cases e : pa.baseMint = m
  · rw [if_pos e] at hv
    rw [e, put_same] at hb
    have hbm := hwi.mint
    rw [e, hm] at hbm
    cases hbm
    cases hb
    refine ⟨[.mintMore g a], _, fun o h => by rw [List.mem_singleton.1 h]; exact trivial, .cons ?_ (.nil _), hv⟩
    show World.mintMore _ g a = _
    unfold World.mintMore
    dsimp only [Chain.world]
    rw [r3.1, r3.2]
    simp only [bind_ok, req_ok]
    exact ⟨(), if_pos ha, (), if_pos hs, trivial⟩
  · rw [if_neg e] at hv
    rw [put_ne _ _ e, hwi.mint] at hb
    cases hb
    refine ⟨[], _, fun _ h => (nomatch h), .nil _, ?_⟩
    rw [hv]
    unfold Chain.world
    rw [r3.1, r3.2]

theorem burn_aside {K : Keys} {s s' : Chain} {g m x a : Nat} (i : Inv K s still)
    (h : s.burn K g m x a = .ok s') : Inv K s' still ∧ Aside K s s' := by
  simp only [Chain.burn, bind_ok, need_ok, ok_inj] at h
  obtain ⟨mt, hm, s1, h1, h⟩ := h
  obtain ⟨i1, _, vw, t, _, _, _, _, _, es⟩ := i.debit h1
  have hm1 : s1.mints m = some mt := by rw [es]; exact hm
  have r1 : s'.mints = put s1.mints m { mt with supply := mt.supply - a } := by rw [← h]
  have r2 : s'.tokens = s1.tokens := by rw [← h]
  have r3 : s'.operators = s1.operators ∧ s'.admins = s1.admins := by rw [← h]; exact ⟨rfl, rfl⟩
  have hmint : ∀ k y, s1.mints k = some y → ∃ y', s'.mints k = some y' ∧ y'.program = y.program ∧ y'.exts = y.exts := by
    intro k y hy
    rw [r1]
    by_cases e : k = m
    · subst e
      rw [hm1] at hy
      cases hy
      exact ⟨_, put_same _ _ _, rfl, rfl⟩
    · exact ⟨y, by rw [put_ne _ _ e]; exact hy, rfl, rfl⟩
  obtain ⟨i2, h2, h3⟩ := i1.ext (s' := s') (pend' := still) (fun _ pa =>
      if pa.baseMint = m then { pa with led := { pa.led with burntByHolders := pa.led.burntByHolders + a } } else pa)
    (fun P => by rw [← h]) (fun P pa => by dsimp only; split <;> exact ⟨rfl, rfl, rfl, rfl⟩)
    (fun _ _ k => by rw [← h]; exact k) (fun _ _ k => by rw [← h] at k; exact .inl k)
    (fun _ _ k => by rw [r2]; exact k)
    (fun z hz => by
      rw [r2] at hz
      have y := i1.known z hz
      cases hk : s1.mints z.2.mint with
      | none => exact absurd hk y
      | some t =>
        obtain ⟨t', ht', _⟩ := hmint _ _ hk
        rw [ht']
        exact fun h => (nomatch h))
    hmint
    (fun k z hz => by
      rw [r1] at hz
      rw [r2]
      by_cases e : k = m
      · subst e
        rw [put_same] at hz
        cases hz
        have := i1.supply _ _ hm1
        rw [plus_self] at this
        dsimp only [still] at this ⊢
        exact ⟨by omega, by omega⟩
      · rw [put_ne _ _ e] at hz
        have := i1.supply _ _ hz
        rw [plus_ne _ _ e] at this
        exact this)
    (by rw [← h])
  have pe : s1.pools = s.pools := by rw [es]
  refine ⟨i2, fun Q => by rw [h2 Q, pe], fun Q w hw => ?_⟩
  rw [← vw Q] at hw
  obtain ⟨pa, c, bv, qv, bm, hp, hwi, rfl⟩ := i1.open hw
  obtain ⟨bm', hb, hv⟩ := h3 Q pa c bv qv bm hp hwi
  rw [r1] at hb
  dsimp only at hv
  by_cases e : pa.baseMint = m
  · rw [if_pos e] at hv
    have room := (i1.room hwi).1
    rw [e, put_same] at hb
    have hbm := hwi.mint
    rw [e, hm1] at hbm
    cases hbm
    cases hb
    rw [e, plus_self] at room
    refine ⟨[.burnOwn a], _, fun o h => by rw [List.mem_singleton.1 h]; exact trivial, .cons ?_ (.nil _), hv⟩
    show World.burnOwn _ a = _
    unfold World.burnOwn
    dsimp only [Chain.world]
    rw [r3.1, r3.2]
    simp only [bind_ok]
    dsimp only [still] at room
    exact ⟨(), if_pos (by omega), trivial⟩
  · rw [if_neg e] at hv
    rw [put_ne _ _ e, hwi.mint] at hb
    cases hb
    refine ⟨[], _, fun _ h => (nomatch h), .nil _, ?_⟩
    rw [hv]
    unfold Chain.world
    rw [r3.1, r3.2]

/-- Operations that leave the base vault alone. -/
def NoBase : Op → Prop
  | .partnerWithdrawSurplus _ => True
  | .creatorWithdrawSurplus _ => True
  | .withdrawMigrationFee _ _ => True
  | _ => False

theorem NoBase.same {op : Op} {w w' : World} (h : w.step op = .ok w') (hn : NoBase op) : w'.baseVault = w.baseVault := by
  cases_step op h
  all_goals first
    | (exact False.elim hn)
    | rfl

/-- Operations that leave both vaults and the supply alone. -/
def NoVault : Op → Prop
  | .claimPartnerCreationFee _ => True
  | .claimProtocolCreationFee _ => True
  | .lockLp _ => True
  | .claimLp _ => True
  | _ => False

theorem NoVault.same {op : Op} {w w' : World} (h : w.step op = .ok w') (hn : NoVault op) :
    w'.baseVault = w.baseVault ∧ w'.quoteVault = w.quoteVault ∧ w'.supply = w.supply ∧ Kept w w' := by
  have k : Kept w w' := Op.kept h (fun _ _ _ e => by rw [e] at hn; exact hn) (fun _ _ e => by rw [e] at hn; exact hn)
  cases_step op h
  all_goals first
    | (exact False.elim hn)
    | (exact ⟨rfl, rfl, rfl, k⟩)

theorem Inv.empty (K : Keys) (ad : List Nat) : Inv K (Chain.empty ad) still :=
  ⟨fun _ _ h => (nomatch h), fun _ _ h => (nomatch h), fun _ _ _ _ h => (nomatch h), fun _ _ _ _ h => (nomatch h),
    fun _ _ h => (nomatch h), fun _ _ h => (nomatch h), fun _ h => (nomatch h)⟩

/-- What one instruction does to the pools. -/
theorem exec_step {K : Keys} {s s' : Chain} {ix : Instr} (i : Inv K s still) (ht : ix.Typed) (h : s.exec K ix = .ok s') :
    Inv K s' still ∧
    ((∃ P op, addressee ix = some P ∧ Asks ix op ∧ Did K s s' P op) ∨
     (addressee ix = none ∧ Aside K s s') ∨
     ∃ a, ix = .initPool a ∧ s.pools a.pool = none ∧
      (∃ c w, s.configs a.config = some c ∧ c.quoteMint = a.quoteMint ∧
        initPool c ⟨a.pool, a.creator, a.tokenType, a.clk, a.donated, s.operators, s.admins⟩ = .ok w ∧ Genesis w ∧
        s'.view K a.pool = some w) ∧
      ∀ Q, Q ≠ a.pool → s'.pools Q = s.pools Q ∧ s'.view K Q = s.view K Q) := by
  cases ix
  case createConfig =>
    obtain ⟨h1, h2⟩ := createConfig_same i ht h
    exact ⟨h1, .inr (.inl ⟨rfl, h2.aside⟩)⟩
  case initPool a =>
    obtain ⟨h1, h2⟩ := initPool_new i h
    exact ⟨h1, .inr (.inr ⟨a, rfl, h2⟩)⟩
  case swap a =>
    obtain ⟨m, h1, h2, _⟩ := swap_did i h
    exact ⟨h1, .inl ⟨_, _, rfl, .swap _ _ rfl rfl rfl rfl rfl rfl, h2⟩⟩
  case claimProtocolFee =>
    obtain ⟨h1, h2⟩ := claimProtocolFee_did i h
    exact ⟨h1, .inl ⟨_, _, rfl, .claimProtocolFee _ _ _ _, h2⟩⟩
  case zapProtocolFee =>
    obtain ⟨_, _, h1, h2, _⟩ := zapProtocolFee_did i h
    exact ⟨h1, .inl ⟨_, _, rfl, .zapProtocolFee _ _ _ _ _ _ _ _ _ _, h2⟩⟩
  case claimPartnerFee =>
    obtain ⟨h1, h2⟩ := claimPartnerFee_did i h
    exact ⟨h1, .inl ⟨_, _, rfl, .claimPartnerFee _ _ _ _, h2⟩⟩
  case claimCreatorFee =>
    obtain ⟨h1, h2⟩ := claimCreatorFee_did i h
    exact ⟨h1, .inl ⟨_, _, rfl, .claimCreatorFee _ _ _ _, h2⟩⟩
  case partnerWithdrawSurplus a g =>
    obtain ⟨h1, h2⟩ := quoteOut_did (op := .partnerWithdrawSurplus g) (fun _ => rfl) trivial (fun _ _ h => NoBase.same h trivial) i h
    exact ⟨h1, .inl ⟨_, _, rfl, .partnerWithdrawSurplus _ _, h2⟩⟩
  case creatorWithdrawSurplus a g =>
    obtain ⟨h1, h2⟩ := quoteOut_did (op := .creatorWithdrawSurplus g) (fun _ => rfl) trivial (fun _ _ h => NoBase.same h trivial) i h
    exact ⟨h1, .inl ⟨_, _, rfl, .creatorWithdrawSurplus _ _, h2⟩⟩
  case withdrawMigrationFee a g f =>
    obtain ⟨h1, h2⟩ := quoteOut_did (op := .withdrawMigrationFee g f) (fun _ => rfl) trivial (fun _ _ h => NoBase.same h trivial) i h
    exact ⟨h1, .inl ⟨_, _, rfl, .withdrawMigrationFee _ _ _, h2⟩⟩
  case claimPartnerCreationFee p c r g =>
    obtain ⟨h1, h2⟩ := lamportsOut_did (op := .claimPartnerCreationFee g) (fun _ => rfl) trivial (fun _ _ h =>
      ⟨(NoVault.same h trivial).1, (NoVault.same h trivial).2.1⟩) i h
    exact ⟨h1, .inl ⟨_, _, rfl, .claimPartnerCreationFee _ _ _ _, h2⟩⟩
  case claimProtocolCreationFee p c r g =>
    simp only [Chain.exec, Chain.claimProtocolCreationFee, bind_ok] at h
    obtain ⟨_, _, h⟩ := h
    obtain ⟨h1, h2⟩ := lamportsOut_did (op := .claimProtocolCreationFee g) (fun _ => rfl) trivial (fun _ _ h =>
      ⟨(NoVault.same h trivial).1, (NoVault.same h trivial).2.1⟩) i h
    exact ⟨h1, .inl ⟨_, _, rfl, .claimProtocolCreationFee _ _ _ _, h2⟩⟩
  case createLocker =>
    obtain ⟨h1, h2⟩ := createLocker_did i h
    exact ⟨h1, .inl ⟨_, _, rfl, .createLocker _ _ _ _ _ _, h2⟩⟩
  case migrateV1 =>
    obtain ⟨h1, h2⟩ := migrateV1_did i h
    exact ⟨h1, .inl ⟨_, _, rfl, .migrateV1 _ _ _, h2⟩⟩
  case migrateV2 =>
    obtain ⟨h1, h2⟩ := migrateV2_did i h
    exact ⟨h1, .inl ⟨_, _, rfl, .migrateV2 _ _, h2⟩⟩
  case withdrawLeftover =>
    obtain ⟨h1, h2⟩ := withdrawLeftover_did i h
    exact ⟨h1, .inl ⟨_, _, rfl, .withdrawLeftover _ _ _ _ _ _, h2⟩⟩
  case createMeta =>
    obtain ⟨h1, h2⟩ := createMeta_did i h
    exact ⟨h1, .inl ⟨_, _, rfl, .createMeta _ _ _, h2⟩⟩
  case lockLp p m o =>
    obtain ⟨h1, h2⟩ := lpOut_did (op := .lockLp o) (fun _ => rfl) (fun _ _ h => NoVault.same h trivial) i h
    exact ⟨h1, .inl ⟨_, _, rfl, .lockLp _ _ _, h2⟩⟩
  case claimLp p m o =>
    obtain ⟨h1, h2⟩ := lpOut_did (op := .claimLp o) (fun _ => rfl) (fun _ _ h => NoVault.same h trivial) i h
    exact ⟨h1, .inl ⟨_, _, rfl, .claimLp _ _ _, h2⟩⟩
  case transferCreator =>
    obtain ⟨h1, h2⟩ := transferCreator_did i h
    exact ⟨h1, .inl ⟨_, _, rfl, .transferCreator _ _ _ _ _, h2⟩⟩
  case createOperator =>
    obtain ⟨h1, h2⟩ := createOperator_aside i h
    exact ⟨h1, .inr (.inl ⟨rfl, h2⟩)⟩
  case closeOperator =>
    obtain ⟨h1, h2⟩ := closeOperator_aside i h
    exact ⟨h1, .inr (.inl ⟨rfl, h2⟩)⟩
  case newMint =>
    obtain ⟨h1, h2⟩ := newMint_same i h
    exact ⟨h1, .inr (.inl ⟨rfl, h2.aside⟩)⟩
  case newAccount =>
    obtain ⟨h1, h2⟩ := newAccount_same i h
    exact ⟨h1, .inr (.inl ⟨rfl, h2.aside⟩)⟩
  case transfer =>
    obtain ⟨h1, h2⟩ := transfer_after i h
    exact ⟨h1, .inr (.inl ⟨rfl, h2.aside⟩)⟩
  case seize =>
    obtain ⟨h1, h2⟩ := seize_after i h
    exact ⟨h1, .inr (.inl ⟨rfl, h2.aside⟩)⟩
  case mintTo =>
    obtain ⟨h1, h2⟩ := mintTo_aside i h
    exact ⟨h1, .inr (.inl ⟨rfl, h2⟩)⟩
  case burn =>
    obtain ⟨h1, h2⟩ := burn_aside i h
    exact ⟨h1, .inr (.inl ⟨rfl, h2⟩)⟩
  case reassign =>
    obtain ⟨h1, h2⟩ := reassign_same i h
    exact ⟨h1, .inr (.inl ⟨rfl, h2.aside⟩)⟩
  case sendLamports d a =>
    cases h
    obtain ⟨h1, h2⟩ := i.lamports d a
    exact ⟨h1, .inr (.inl ⟨rfl, h2.aside⟩)⟩

/-- Every chain that can be reached satisfies the invariant. -/
theorem ChainRun.inv {K : Keys} {s s' : Chain} {ixs : List Instr} (r : ChainRun K s ixs s') (i : Inv K s still) :
    Inv K s' still := by
  induction r with
  | nil => exact i
  | snoc _ ht h ih => exact (exec_step ih ht h).1

end Dbc

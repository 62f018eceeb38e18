import Verif.Lemmas.ChainExec
import Verif.Props.Swap

/-!
# Which tokens an instruction moves
-/

namespace Dbc
open Spec

/-! ### Movements -/

theorem here_self (x a : Nat) : here (some x) x a = a := if_pos rfl
theorem here_ne {k x : Nat} (a : Nat) (h : x ≠ k) : here (some k) x a = 0 := if_neg (fun e => h (Option.some.inj e).symm)
theorem here_none (x a : Nat) : here none x a = 0 := if_neg (fun h => (nomatch h))
theorem here_zero (k : Option Nat) (x : Nat) : here k x 0 = 0 := by unfold here; split <;> rfl

theorem outOf_append (l l' : List Move) (x : Nat) : outOf (l ++ l') x = outOf l x + outOf l' x := by
  induction l with
  | nil => simp only [List.nil_append, outOf]; omega
  | cons m r ih => simp only [List.cons_append, outOf, ih]; omega
theorem into_append (l l' : List Move) (x : Nat) : into (l ++ l') x = into l x + into l' x := by
  induction l with
  | nil => simp only [List.nil_append, into]; omega
  | cons m r ih => simp only [List.cons_append, into, ih]; omega

theorem _root_.Spec.Moved.refl {s s' : Chain} (h : s'.tokens = s.tokens) : Moved s s' [] :=
  ⟨fun x e => by rw [h]; exact e, fun x t e => ⟨t, by rw [h]; exact e, rfl, rfl, rfl⟩⟩

theorem _root_.Spec.Moved.trans {s s1 s2 : Chain} {l l' : List Move} (h : Moved s s1 l) (h' : Moved s1 s2 l') :
    Moved s s2 (l ++ l') := by
  refine ⟨fun x e => h'.none x (h.none x e), fun x t e => ?_⟩
  obtain ⟨t1, e1, m1, o1, a1⟩ := h.some x t e
  obtain ⟨t2, e2, m2, o2, a2⟩ := h'.some x t1 e1
  exact ⟨t2, e2, m2.trans m1, o2.trans o1, by rw [outOf_append, into_append]; omega⟩

/-- The same movements written differently. -/
theorem _root_.Spec.Moved.congr {s s' : Chain} {l l' : List Move} (h : Moved s s' l)
    (e : ∀ x, into l x + outOf l' x = into l' x + outOf l x) : Moved s s' l' := by
  refine ⟨h.none, fun x t ht => ?_⟩
  obtain ⟨t1, e1, m1, o1, a1⟩ := h.some x t ht
  have := e x
  exact ⟨t1, e1, m1, o1, by omega⟩

theorem _root_.Spec.Moved.same {s s1 s2 : Chain} {l : List Move} (h : Moved s s1 l) (e : s2.tokens = s1.tokens) :
    Moved s s2 l :=
  ⟨fun x k => by rw [e]; exact h.none x k, fun x t k => by rw [e]; exact h.some x t k⟩

theorem setTok_moved {s s' : Chain} {k o i : Nat} {t v : TokenAcc} (ht : getTok s.tokens k = some t)
    (h : s'.tokens = setTok s.tokens k v) (hm : v.mint = t.mint) (ho : v.owner = t.owner) (ha : v.amount + o = t.amount + i) :
    Moved s s' [⟨some k, none, o⟩, ⟨none, some k, i⟩] := by
  refine ⟨fun x e => ?_, fun x u hu => ?_⟩
  · rw [h, getTok_setTok _ ht, if_neg (fun e2 => by rw [e2, ht] at e; cases e)]
    exact e
  · rw [h, getTok_setTok _ ht]
    by_cases e : x = k
    · subst e
      rw [ht] at hu
      cases hu
      refine ⟨v, if_pos rfl, hm, ho, ?_⟩
      simp only [outOf, into, here_self, here_none]
      omega
    · refine ⟨u, by rw [if_neg e]; exact hu, rfl, rfl, ?_⟩
      simp only [outOf, into, here_ne _ e, here_none]

theorem give_moved {s s' : Chain} {m d a : Nat} (h : s.give m d a = .ok s') :
    Moved s s' [⟨none, some d, a⟩] ∧ s'.mints = s.mints := by
  simp only [Chain.give, bind_ok, req_ok, need_ok, ok_inj] at h
  obtain ⟨t, ht, _, hm, rfl⟩ := h
  obtain ⟨v, hv⟩ : ∃ v : TokenAcc, v = { t with amount := t.amount + a } := ⟨_, rfl⟩
  rw [← hv]
  refine ⟨(setTok_moved (v := v) (o := 0) (i := a) ht rfl (by rw [hv]) (by rw [hv]) (by rw [hv]; rfl)).congr (fun x => ?_), rfl⟩
  simp only [outOf, into, here_none, here_zero]
  omega

/-- The mint exists and has no transfer fee. -/
def PlainAt (s : Chain) (m : Nat) : Prop := ∃ mt, s.mints m = some mt ∧ mt.Plain

theorem credit_moved {K : Keys} {s s' : Chain} {m d a : Nat} (hp : PlainAt s m) (h : s.credit K m d a = .ok s') :
    Moved s s' [⟨none, some d, a⟩] ∧ s'.mints = s.mints := by
  simp only [Chain.credit, bind_ok, need_ok] at h
  obtain ⟨mt, hm, h⟩ := h
  obtain ⟨mt', hm', pl⟩ := hp
  rw [hm] at hm'
  cases hm'
  rw [pl.short, Nat.sub_zero] at h
  exact give_moved h

/-- Of any mint, possibly less. -/
theorem credit_some {K : Keys} {s s' : Chain} {m d a : Nat} (h : s.credit K m d a = .ok s') :
    ∃ b, b ≤ a ∧ Moved s s' [⟨none, some d, b⟩] := by
  simp only [Chain.credit, bind_ok, need_ok] at h
  obtain ⟨mt, hm, h⟩ := h
  exact ⟨_, Nat.sub_le _ _, (give_moved h).1⟩

theorem debit_moved {K : Keys} {s s' : Chain} {g m k a : Nat} (h : s.debit K g m k a = .ok s') :
    Moved s s' [⟨some k, none, a⟩] ∧ s'.mints = s.mints ∧
      ∃ t, getTok s.tokens k = some t ∧ t.mint = m ∧ t.owner = g ∧ g ≠ K.authority ∧ a ≤ t.amount := by
  simp only [Chain.debit, bind_ok, req_ok, need_ok, ok_inj] at h
  obtain ⟨t, ht, _, hm, _, ⟨ho, hg⟩, _, ha, rfl⟩ := h
  obtain ⟨v, hv⟩ : ∃ v : TokenAcc, v = { t with amount := t.amount - a } := ⟨_, rfl⟩
  rw [← hv]
  refine ⟨(setTok_moved (v := v) (o := a) (i := 0) ht rfl (by rw [hv]) (by rw [hv]) (by rw [hv]; dsimp only; omega)).congr
    (fun x => ?_), rfl, t, ht, hm, ho, hg, ha⟩
  simp only [outOf, into, here_none, here_zero]

theorem save_moved {s : Chain} {P bk qk : Nat} {l : Loaded} {w : World} (hb : getTok s.tokens bk = some l.bv)
    (hq : getTok s.tokens qk = some l.qv) (hn : bk ≠ qk) :
    Moved s (s.save P bk qk l w) [⟨some bk, none, l.bv.amount⟩, ⟨none, some bk, w.baseVault⟩,
      ⟨some qk, none, l.qv.amount⟩, ⟨none, some qk, w.quoteVault⟩] := by
  have h1 : Moved s { s with tokens := setTok s.tokens bk { l.bv with amount := w.baseVault } } _ :=
    setTok_moved hb rfl rfl rfl (Nat.add_comm w.baseVault l.bv.amount)
  have hq' : getTok (setTok s.tokens bk { l.bv with amount := w.baseVault }) qk = some l.qv := by
    rw [getTok_setTok _ hb, if_neg (fun e => hn e.symm)]; exact hq
  have h2 : Moved { s with tokens := setTok s.tokens bk { l.bv with amount := w.baseVault } } (s.save P bk qk l w) _ :=
    setTok_moved (s := { s with tokens := setTok s.tokens bk { l.bv with amount := w.baseVault } }) hq' rfl rfl rfl
      (Nat.add_comm w.quoteVault l.qv.amount)
  exact h1.trans h2

theorem save_plain {s : Chain} {P bk qk m : Nat} {l : Loaded} {w : World} (h : PlainAt s m) :
    PlainAt (s.save P bk qk l w) m := by
  obtain ⟨mt, hm, hp⟩ := h
  unfold PlainAt Chain.save
  dsimp only
  cases hb : s.mints l.bv.mint with
  | none => exact ⟨mt, hm, hp⟩
  | some b =>
    dsimp only
    by_cases e : m = l.bv.mint
    · subst e
      rw [hb] at hm
      cases hm
      exact ⟨_, put_same _ _ _, hp⟩
    · rw [put_ne _ _ e]
      exact ⟨mt, hm, hp⟩

theorem PlainAt.of {s s' : Chain} {m : Nat} (h : PlainAt s m) (e : s'.mints = s.mints) : PlainAt s' m := by
  unfold PlainAt
  rw [e]
  exact h

/-- The mints of a pool. -/
theorem Inv.plains {K : Keys} {s : Chain} {pend : Nat → Nat} (i : Inv K s pend) {pa : PoolAcc} {c : PoolConfig}
    {bv qv : TokenAcc} {bm : MintAcc} (w : Wired K s pa c bv qv bm) : PlainAt s pa.baseMint ∧ PlainAt s c.quoteMint :=
  ⟨⟨bm, w.mint, w.plain⟩, (i.cfg _ _ w.cfg).2⟩

/-- A handler that only pays, followed by two payments. -/
theorem pay_two {K : Keys} {s s1 s' : Chain} {P bk qk m1 m2 d1 d2 b q : Nat} {l : Loaded} {w : World}
    (hb : getTok s.tokens bk = some l.bv) (hq : getTok s.tokens qk = some l.qv) (hn : bk ≠ qk)
    (vb : w.baseVault + b = l.bv.amount) (vq : w.quoteVault + q = l.qv.amount) (p1 : PlainAt s m1) (p2 : PlainAt s m2)
    (h1 : (s.save P bk qk l w).credit K m1 d1 b = .ok s1) (h2 : s1.credit K m2 d2 q = .ok s') :
    Moved s s' [⟨some bk, some d1, b⟩, ⟨some qk, some d2, q⟩] := by
  obtain ⟨k1, e1⟩ := credit_moved (save_plain p1) h1
  obtain ⟨k2, e2⟩ := credit_moved ((save_plain p2).of e1) h2
  refine ((save_moved hb hq hn).trans (k1.trans k2)).congr (fun x => ?_)
  simp only [List.cons_append, List.nil_append, outOf, into, here_none]
  rw [← vb, ← vq]
  by_cases x1 : x = bk
  · subst x1
    simp only [here_self, here_ne _ hn]
    omega
  · by_cases x2 : x = qk
    · subst x2
      simp only [here_self, here_ne _ x1]
      omega
    · simp only [here_ne _ x1, here_ne _ x2]
      omega

/-- The same with a payment only in base. -/
theorem pay_base {K : Keys} {s s' : Chain} {P bk qk m1 d1 b : Nat} {l : Loaded} {w : World}
    (hb : getTok s.tokens bk = some l.bv) (hq : getTok s.tokens qk = some l.qv) (hn : bk ≠ qk)
    (vb : w.baseVault + b = l.bv.amount) (vq : w.quoteVault = l.qv.amount) (p1 : PlainAt s m1)
    (h1 : (s.save P bk qk l w).credit K m1 d1 b = .ok s') :
    Moved s s' [⟨some bk, some d1, b⟩] := by
  obtain ⟨k1, e1⟩ := credit_moved (save_plain p1) h1
  refine ((save_moved hb hq hn).trans k1).congr (fun x => ?_)
  simp only [List.cons_append, List.nil_append, outOf, into, here_none]
  rw [← vb, ← vq]
  by_cases x1 : x = bk
  · subst x1
    simp only [here_self, here_ne _ hn]
    omega
  · simp only [here_ne _ x1]
    omega

/-- The same with a payment only in quote. -/
theorem pay_quote {K : Keys} {s s' : Chain} {P bk qk m2 d2 q : Nat} {l : Loaded} {w : World}
    (hb : getTok s.tokens bk = some l.bv) (hq : getTok s.tokens qk = some l.qv) (hn : bk ≠ qk)
    (vb : w.baseVault = l.bv.amount) (vq : w.quoteVault + q = l.qv.amount) (p2 : PlainAt s m2)
    (h2 : (s.save P bk qk l w).credit K m2 d2 q = .ok s') :
    Moved s s' [⟨some qk, some d2, q⟩] := by
  obtain ⟨k1, e1⟩ := credit_moved (save_plain p2) h2
  refine ((save_moved hb hq hn).trans k1).congr (fun x => ?_)
  simp only [List.cons_append, List.nil_append, outOf, into, here_none]
  rw [← vb, ← vq]
  by_cases x1 : x = qk
  · subst x1
    simp only [here_self, here_ne _ (fun e => hn e.symm)]
    omega
  · simp only [here_ne _ x1]
    omega

/-- A handler that leaves the vaults alone. -/
theorem save_same {s : Chain} {P bk qk : Nat} {l : Loaded} {w : World} (hb : getTok s.tokens bk = some l.bv)
    (hq : getTok s.tokens qk = some l.qv) (hn : bk ≠ qk) (vb : w.baseVault = l.bv.amount) (vq : w.quoteVault = l.qv.amount) :
    Moved s (s.save P bk qk l w) [] := by
  refine (save_moved hb hq hn).congr (fun x => ?_)
  simp only [outOf, into, here_none]
  rw [← vb, ← vq]
  omega

/-! ### Each instruction -/

theorem swap_moved {K : Keys} {s s' : Chain} {a : SwapIx} (i : Inv K s still)
    (hre : ∀ P w, s.view K P = some w → Reachable w) (h : s.swap K a = .ok s') :
    ∃ pa w w1 dir x tin, s.pools a.pool = some pa ∧ s.view K a.pool = some w ∧
      w.step (.swap ⟨a.mode, a.amount0, a.amount1, dir, a.referral.isSome, a.clk, a.tx⟩) = .ok w1 ∧ Observed w w1 dir x ∧
      getTok s.tokens a.input = some tin ∧ tin.owner = a.payer ∧ a.payer ≠ K.authority ∧
      (dir = .baseToQuote ↔ tin.mint = pa.baseMint) ∧ (a.referral = none → x.referral = 0) ∧
      Moved s s' [⟨some a.input, some (vaultAt pa (inToken dir)), x.paid⟩,
        ⟨some (vaultAt pa (outToken dir)), some a.output, x.got⟩,
        ⟨some (vaultAt pa x.feeToken), a.referral, x.referral⟩] := by
  obtain ⟨l, tin, bm, r, fm, w1, s1, s2, hl, htin, hp, wi, e1, e2, m1, m2, hv, hr, hst, hd, rfl, i2, d, h⟩ := swap_parts i h
  obtain ⟨k1, e3, t, ht, htm, hto, hg, ha⟩ := debit_moved hd
  obtain ⟨_, _, _, hb, hq, _, hlw⟩ := load_ok hl
  rw [htin] at ht
  cases ht
  have hn : a.baseVault ≠ a.quoteVault := by rw [← e1, ← e2]; exact i.cross _ _ _ _ hp hp
  obtain ⟨pb, pq⟩ := i.plains wi
  rw [m1] at pb
  rw [m2] at pq
  obtain ⟨cur, fm', r', v1, v2, st⟩ := swap_ok hst
  obtain ⟨rfl, rfl⟩ := swapResult_ok st hr
  have hfr : fm.hasReferral = a.referral.isSome := hasReferral_eq st.hfm
  have obs := Props.SwapStep.observed st
  -- the vaults after the debit
  obtain ⟨_, _, _, bal⟩ := i.debit hd
  have hb1 : getTok s1.tokens a.baseVault = some l.bv := by
    obtain ⟨_, wr, _, _⟩ := i.debit hd
    have := (wr _ _ _ _ _ wi).base
    rw [e1] at this
    exact this
  have hq1 : getTok s1.tokens a.quoteVault = some l.qv := by
    obtain ⟨_, wr, _, _⟩ := i.debit hd
    have := (wr _ _ _ _ _ wi).quote
    rw [e2] at this
    exact this
  have sm := save_moved (P := a.pool) (w := w1) hb1 hq1 hn
  have hnoref : a.referral = none → r.fee.referral = 0 := fun e => by
    have hz : fm.hasReferral = false := by rw [hfr, e]; rfl
    obtain ⟨ps, core⟩ := (hre _ _ hv).core
    rcases (core.result st).split with k | k
    · rw [(splitFees_ok k).2.2.1, hz]; rfl
    · rw [k]; rfl
  have am : l.w.baseVault = l.bv.amount ∧ l.w.quoteVault = l.qv.amount := by rw [hlw]; exact ⟨rfl, rfl⟩
  refine ⟨l.pa, l.w, w1, swapDir tin.mint a.baseMint, _, tin, hp, hv, hst, obs, htin, hto, hg, ?_, hnoref, ?_⟩
  · rw [m1]
    unfold swapDir
    split
    · rename_i e; exact ⟨fun _ => e, fun _ => rfl⟩
    · rename_i e; exact ⟨fun h => (nomatch h), fun h => absurd h e⟩
  · have pay : Moved (s1.save a.pool a.baseVault a.quoteVault l w1) s'
        [⟨none, some a.output, r.out⟩, ⟨none, a.referral, r.fee.referral⟩] := by
      unfold Chain.swapPay at h
      rw [bind_ok] at h
      obtain ⟨s3, h3, h⟩ := h
      have pl : ∀ m, (m = a.baseMint ∨ m = a.quoteMint) → PlainAt (s1.save a.pool a.baseVault a.quoteVault l w1) m := by
        intro m hm
        refine save_plain (PlainAt.of ?_ e3)
        rcases hm with rfl | rfl
        · exact pb
        · exact pq
      obtain ⟨k3, e4⟩ := credit_moved (pl _ (by cases swapDir tin.mint a.baseMint; exact .inr rfl; exact .inl rfl)) h3
      cases hrf : a.referral with
      | none =>
        rw [hrf] at h
        cases h
        rw [hnoref hrf]
        refine k3.congr (fun x => ?_)
        simp only [outOf, into, here_none]
      | some k =>
        rw [hrf] at h
        obtain ⟨k4, _⟩ := credit_moved ((pl _ (by split; exact .inl rfl; exact .inr rfl)).of e4) h
        exact k3.trans k4
    refine (k1.trans (sm.trans pay)).congr (fun x => ?_)
    have sv := st.sellVault
    have bv := st.buyVault
    have ea : (a.args tin.mint).dir = swapDir tin.mint a.baseMint := rfl
    rw [ea, hfr, am.1, am.2] at sv bv
    simp only [List.cons_append, List.nil_append, outOf, into, here_none]
    show _ = here (some (vaultAt l.pa (inToken (swapDir tin.mint a.baseMint)))) x r.includedIn +
      (here (some a.output) x r.out + (here a.referral x r.fee.referral + 0)) + _
    show _ + (here (some a.input) x r.includedIn + (here (some (vaultAt l.pa (outToken (swapDir tin.mint a.baseMint)))) x r.out +
      (here (some (vaultAt l.pa (Props.feeTok fm))) x r.fee.referral + 0))) = _
    have honly : ∀ b : Bool, onlyIf (a.referral.isSome && b) r.fee.referral = onlyIf b r.fee.referral := by
      intro b
      cases hrf : a.referral with
      | none => rw [hnoref hrf]; cases b <;> rfl
      | some k => rw [Option.isSome_some, Bool.true_and]
    rw [honly, honly] at sv bv
    unfold Props.feeTok
    generalize here (some a.output) x r.out = o1
    generalize here a.referral x r.fee.referral = o2
    generalize here (some a.input) x r.includedIn = o3
    clear obs st hr hst
    cases hdir : swapDir tin.mint a.baseMint with
    | baseToQuote =>
      obtain ⟨g1, g2⟩ := sv hdir
      dsimp only [inToken, outToken, vaultAt]
      rw [e1, e2]
      cases hfo : fm.feesOnBase
      · rw [hfo] at g1 g2
        simp only [Bool.not_false, onlyIf_false, onlyIf_true] at g1 g2
        rw [if_neg (by decide)]
        dsimp only
        try rw [e2]
        by_cases x1 : x = a.baseVault
        · subst x1
          simp only [here_self, here_ne _ hn]
          omega
        · by_cases x2 : x = a.quoteVault
          · subst x2
            simp only [here_self, here_ne _ x1]
            omega
          · simp only [here_ne _ x1, here_ne _ x2]
            omega
      · rw [hfo] at g1 g2
        simp only [Bool.not_true, onlyIf_false, onlyIf_true] at g1 g2
        rw [if_pos rfl]
        dsimp only
        try rw [e1]
        by_cases x1 : x = a.baseVault
        · subst x1
          simp only [here_self, here_ne _ hn]
          omega
        · by_cases x2 : x = a.quoteVault
          · subst x2
            simp only [here_self, here_ne _ x1]
            omega
          · simp only [here_ne _ x1, here_ne _ x2]
            omega
    | quoteToBase =>
      obtain ⟨g1, g2⟩ := bv hdir
      dsimp only [inToken, outToken, vaultAt]
      rw [e1, e2]
      cases hfo : fm.feesOnBase
      · rw [hfo] at g1 g2
        simp only [Bool.not_false, onlyIf_false, onlyIf_true] at g1 g2
        rw [if_neg (by decide)]
        dsimp only
        try rw [e2]
        by_cases x1 : x = a.baseVault
        · subst x1
          simp only [here_self, here_ne _ hn]
          omega
        · by_cases x2 : x = a.quoteVault
          · subst x2
            simp only [here_self, here_ne _ x1]
            omega
          · simp only [here_ne _ x1, here_ne _ x2]
            omega
      · rw [hfo] at g1 g2
        simp only [Bool.not_true, onlyIf_false, onlyIf_true] at g1 g2
        rw [if_pos rfl]
        dsimp only
        try rw [e1]
        by_cases x1 : x = a.baseVault
        · subst x1
          simp only [here_self, here_ne _ hn]
          omega
        · by_cases x2 : x = a.quoteVault
          · subst x2
            simp only [here_self, here_ne _ x1]
            omega
          · simp only [here_ne _ x1, here_ne _ x2]
            omega

/-- What a loaded pool's accounts are. -/
theorem own {K : Keys} {s : Chain} (i : Inv K s still) {P ck bk qk : Nat}
    {l : Loaded} (h : s.load P ck bk qk (s.ownMeta K P) = .ok l) (e1 : l.pa.config = ck) (e2 : l.pa.baseVault = bk)
    (e3 : l.pa.quoteVault = qk) : s.pools P = some l.pa ∧ s.configs l.pa.config = some l.c ∧
      getTok s.tokens bk = some l.bv ∧ getTok s.tokens qk = some l.qv ∧ bk ≠ qk ∧ l.w.baseVault = l.bv.amount ∧
      l.w.quoteVault = l.qv.amount ∧ PlainAt s l.pa.baseMint ∧ PlainAt s l.c.quoteMint ∧ l.bv.mint = l.pa.baseMint ∧
      l.qv.mint = l.c.quoteMint ∧ s.view K P = some l.w := by
  obtain ⟨bm, hp, wi, hlw⟩ := load_own i h e1 e2 e3
  obtain ⟨p1, p2⟩ := i.plains wi
  have hn : bk ≠ qk := by rw [← e2, ← e3]; exact i.cross _ _ _ _ hp hp
  have wb := wi.base
  have wq := wi.quote
  rw [e2] at wb
  rw [e3] at wq
  exact ⟨hp, wi.cfg, wb, wq, hn, by rw [hlw]; rfl, by rw [hlw]; rfl, p1, p2, wi.baseMint, wi.quoteMint, by rw [wi.view hp, hlw]⟩

theorem claimProtocolFee_moved {K : Keys} {s s' : Chain} {a : ClaimIx} {g mb mq : Nat} (i : Inv K s still)
    (h : s.claimProtocolFee K a g mb mq = .ok s') : ∃ pa c w w1, s.pools a.pool = some pa ∧ s.configs pa.config = some c ∧
      s.view K a.pool = some w ∧ w.step (.claimProtocolFee g mb mq) = .ok w1 ∧
      Moved s s' [⟨some pa.baseVault, some (K.ata K.treasury pa.baseMint), w.baseVault - w1.baseVault⟩,
        ⟨some pa.quoteVault, some (K.ata K.treasury c.quoteMint), w.quoteVault - w1.quoteVault⟩] ∧
      (w1.baseVault < w.baseVault → ∃ t, getTok s.tokens (K.ata K.treasury pa.baseMint) = some t ∧ t.owner = K.treasury) ∧
      (w1.quoteVault < w.quoteVault → ∃ t, getTok s.tokens (K.ata K.treasury c.quoteMint) = some t ∧ t.owner = K.treasury) := by
  simp only [Chain.claimProtocolFee, bind_ok, req_ok] at h
  obtain ⟨l, hl, _, e1, _, ⟨e2, e3, e4, e5⟩, _, e6, w, hw, s1, hs1, h⟩ := h
  obtain ⟨hp, hc, hb, hq, hn, v1, v2, p1, p2, m1, m2, vw⟩ := own i hl e5 e2 e3
  have f := Op.pays (op := .claimProtocolFee g mb mq) hw trivial
  have sm := save_moved (P := a.pool) (w := w) hb hq hn
  rw [e4] at p1
  rw [e1] at p2
  -- accounts of the treasury existed before
  have old : ∀ d o, (∃ t, getTok (s.save a.pool a.baseVault a.quoteVault l w).tokens d = some t ∧ t.owner = o) →
      ∃ t, getTok s.tokens d = some t ∧ t.owner = o := by
    rintro d o ⟨t, ht, ho⟩
    cases hd : getTok s.tokens d with
    | none => rw [sm.none d hd] at ht; cases ht
    | some u =>
      obtain ⟨t', ht', _, ho', _⟩ := sm.some d u hd
      rw [ht] at ht'
      cases ht'
      exact ⟨u, rfl, by rw [← ho']; exact ho⟩
  have k1 : Moved (s.save a.pool a.baseVault a.quoteVault l w) s1
      [⟨none, some (K.ata K.treasury a.baseMint), l.w.baseVault - w.baseVault⟩] ∧
      s1.mints = (s.save a.pool a.baseVault a.quoteVault l w).mints ∧
      (0 < l.w.baseVault - w.baseVault →
        ∃ t, getTok (s.save a.pool a.baseVault a.quoteVault l w).tokens (K.ata K.treasury a.baseMint) = some t ∧
          t.owner = K.treasury) := by
    split at hs1
    · simp only [bind_ok, Chain.validateAta, req_ok, need_ok] at hs1
      obtain ⟨_, ⟨_, ea, t, ht, ho⟩, hs1⟩ := hs1
      obtain ⟨x1, x2⟩ := credit_moved (save_plain p1) hs1
      rw [ea] at x1 ht
      exact ⟨x1, x2, fun _ => ⟨t, ht, ho⟩⟩
    · rename_i hz
      cases hs1
      refine ⟨(Moved.refl rfl).congr (fun x => ?_), rfl, fun h => absurd h hz⟩
      have e : l.w.baseVault - w.baseVault = 0 := by omega
      simp only [outOf, into, e, here_zero, here_none]
  obtain ⟨k1, em, t1⟩ := k1
  have k2 : Moved s1 s' [⟨none, some (K.ata K.treasury a.quoteMint), l.w.quoteVault - w.quoteVault⟩] ∧
      (0 < l.w.quoteVault - w.quoteVault →
        ∃ t, getTok s1.tokens (K.ata K.treasury a.quoteMint) = some t ∧ t.owner = K.treasury) := by
    split at h
    · simp only [bind_ok, Chain.validateAta, req_ok, need_ok] at h
      obtain ⟨_, ⟨_, ea, t, ht, ho⟩, h⟩ := h
      obtain ⟨x1, x2⟩ := credit_moved ((save_plain p2).of em) h
      rw [ea] at x1 ht
      exact ⟨x1, fun _ => ⟨t, ht, ho⟩⟩
    · rename_i hz
      cases h
      refine ⟨(Moved.refl rfl).congr (fun x => ?_), fun h => absurd h hz⟩
      have e : l.w.quoteVault - w.quoteVault = 0 := by omega
      simp only [outOf, into, e, here_zero, here_none]
  obtain ⟨k2, t2⟩ := k2
  refine ⟨l.pa, l.c, l.w, w, hp, hc, vw, hw, ?_, ?_, ?_⟩
  · rw [e1, e2, e3, e4]
    refine (sm.trans (k1.trans k2)).congr (fun x => ?_)
    simp only [List.cons_append, List.nil_append, outOf, into, here_none]
    rw [← v1, ← v2]
    generalize here (some (K.ata K.treasury a.baseMint)) x (l.w.baseVault - w.baseVault) = o1
    generalize here (some (K.ata K.treasury a.quoteMint)) x (l.w.quoteVault - w.quoteVault) = o2
    by_cases x1 : x = a.baseVault
    · subst x1
      simp only [here_self, here_ne _ hn]
      omega
    · by_cases x2 : x = a.quoteVault
      · subst x2
        simp only [here_self, here_ne _ x1]
        omega
      · simp only [here_ne _ x1, here_ne _ x2]
        omega
  · rw [e4]
    exact fun h => old _ _ (t1 (by omega))
  · rw [e1]
    intro h
    apply old
    obtain ⟨t, ht, ho⟩ := t2 (by omega)
    cases hd : getTok (s.save a.pool a.baseVault a.quoteVault l w).tokens (K.ata K.treasury a.quoteMint) with
    | none => rw [k1.none _ hd] at ht; cases ht
    | some u =>
      obtain ⟨t', ht', _, ho', _⟩ := k1.some _ u hd
      rw [ht] at ht'
      cases ht'
      exact ⟨u, rfl, by rw [← ho']; exact ho⟩

theorem zapProtocolFee_moved {K : Keys} {s s' : Chain} {P ck v m r g x : Nat} {z : ZapCheck} (i : Inv K s still)
    (h : s.zapProtocolFee K P ck v m r g x z = .ok s') : ∃ pa c w w1 isBase ok, s.pools P = some pa ∧ s.configs pa.config = some c ∧
      s.view K P = some w ∧ w.step (.zapProtocolFee g x isBase ok true) = .ok w1 ∧
      (isBase = true ∧ m = pa.baseMint ∧ v = pa.baseVault ∨ isBase = false ∧ m = c.quoteMint ∧ v = pa.quoteVault) ∧
      Moved s s' [⟨some v, some (K.ata g m), w.baseVault - w1.baseVault + (w.quoteVault - w1.quoteVault)⟩] ∧
      (∃ t, getTok s.tokens (K.ata g m) = some t ∧ t.owner = g) ∧
      z (w.baseVault - w1.baseVault + (w.quoteVault - w1.quoteVault)) (K.ata g m) K.treasury
        (K.ata K.treasury (if isBase = true then c.quoteMint else pa.baseMint)) = true ∧ ok = decide (m ∉ K.noZap) := by
  simp only [Chain.zapProtocolFee, bind_ok, req_ok, need_ok, ite_ok] at h
  obtain ⟨pa, hpa, c, hc, tv, htv, mt, hmt, _, e1, _, e2, h⟩ := h
  rcases h with ⟨em, h⟩ | ⟨em, h⟩
  · obtain ⟨_, e3, l, hl, w, hw, _, ata, _, ez, _, e4, h⟩ := h
    obtain ⟨_, q1, q2, q3, q4, _, _⟩ := load_ok hl
    rw [hpa] at q1
    cases q1
    obtain ⟨hp, hc', hb, hq, hn, v1, v2, p1, p2, m1, m2, vw⟩ := own i hl e1 e3.symm rfl
    have f := Op.pays (op := .zapProtocolFee g x true _ true) hw trivial
    have vq : w.quoteVault = l.qv.amount := by
      rw [← v2]
      obtain ⟨_, _, _, ⟨_, _, _, _, _, _, _, e⟩ | ⟨n, _⟩⟩ := zapProtocolFee_ok hw
      · rw [e]
      · cases n
    rw [hc] at q2
    cases q2
    rw [← em] at p1
    simp only [Chain.validateAta, bind_ok, req_ok, need_ok] at ata
    obtain ⟨_, ea, t, ht, ho⟩ := ata
    rw [ea] at h ht ez
    refine ⟨l.pa, l.c, l.w, w, true, _, hpa, hc', vw, hw, .inl ⟨rfl, em, e3⟩, ?_⟩
    rw [show l.w.quoteVault - w.quoteVault = 0 by omega, Nat.add_zero]
    exact ⟨pay_base hb hq hn (by omega) vq p1 h, ⟨t, ht, ho⟩, ez, rfl⟩
  · obtain ⟨_, e3, l, hl, w, hw, _, ata, _, ez, _, e4, h⟩ := h
    obtain ⟨_, q1, q2, q3, q4, _, _⟩ := load_ok hl
    rw [hpa] at q1
    cases q1
    rw [hc] at q2
    cases q2
    obtain ⟨hp, hc', hb, hq, hn, v1, v2, p1, p2, m1, m2, vw⟩ := own i hl e1 rfl e3.symm
    have f := Op.pays (op := .zapProtocolFee g x false _ true) hw trivial
    have vb : w.baseVault = l.bv.amount := by
      rw [← v1]
      obtain ⟨_, _, _, ⟨n, _⟩ | ⟨_, _, _, _, _, _, _, _, _, _, e⟩⟩ := zapProtocolFee_ok hw
      · cases n
      · rw [e]
    rw [← e2.resolve_left em] at p2
    simp only [Chain.validateAta, bind_ok, req_ok, need_ok] at ata
    obtain ⟨_, ea, t, ht, ho⟩ := ata
    rw [ea] at h ht ez
    refine ⟨l.pa, l.c, l.w, w, false, _, hpa, hc', vw, hw, .inr ⟨rfl, e2.resolve_left em, e3⟩, ?_⟩
    rw [show l.w.baseVault - w.baseVault = 0 by omega, Nat.zero_add]
    exact ⟨pay_quote hb hq hn vb (by omega) p2 h, ⟨t, ht, ho⟩, ez, rfl⟩

theorem claimPartnerFee_moved {K : Keys} {s s' : Chain} {a : ClaimIx} {g mb mq : Nat} (i : Inv K s still)
    (h : s.claimPartnerFee K a g mb mq = .ok s') : ∃ pa c w w1, s.pools a.pool = some pa ∧ s.configs pa.config = some c ∧
      s.view K a.pool = some w ∧ w.step (.claimPartnerFee g mb mq) = .ok w1 ∧
      Moved s s' [⟨some pa.baseVault, some a.toBase, w.baseVault - w1.baseVault⟩,
        ⟨some pa.quoteVault, some a.toQuote, w.quoteVault - w1.quoteVault⟩] := by
  simp only [Chain.claimPartnerFee, bind_ok, req_ok] at h
  obtain ⟨l, hl, _, e1, _, ⟨e2, e3, e4, e5⟩, _, e6, w, hw, s1, hs1, h⟩ := h
  obtain ⟨hp, hc, hb, hq, hn, v1, v2, p1, p2, m1, m2, vw⟩ := own i hl e5 e2 e3
  have f := Op.pays (op := .claimPartnerFee g mb mq) hw trivial
  rw [e4] at p1
  rw [e1] at p2
  refine ⟨l.pa, l.c, l.w, w, hp, hc, vw, hw, ?_⟩
  rw [e2, e3]
  exact pay_two hb hq hn (by omega) (by omega) p1 p2 hs1 h

theorem claimCreatorFee_moved {K : Keys} {s s' : Chain} {a : ClaimIx} {g mb mq : Nat} (i : Inv K s still)
    (h : s.claimCreatorFee K a g mb mq = .ok s') : ∃ pa c w w1, s.pools a.pool = some pa ∧ s.configs pa.config = some c ∧
      s.view K a.pool = some w ∧ w.step (.claimCreatorFee g mb mq) = .ok w1 ∧
      Moved s s' [⟨some pa.baseVault, some a.toBase, w.baseVault - w1.baseVault⟩,
        ⟨some pa.quoteVault, some a.toQuote, w.quoteVault - w1.quoteVault⟩] := by
  simp only [Chain.claimCreatorFee, bind_ok, req_ok, need_ok] at h
  obtain ⟨pa, hpa, l, hl, _, ⟨e2, e3, e4⟩, _, ⟨e5, e6⟩, w, hw, s1, hs1, h⟩ := h
  obtain ⟨_, q1, q2, q3, q4, _, _⟩ := load_ok hl
  rw [hpa] at q1
  cases q1
  obtain ⟨hp, hc, hb, hq, hn, v1, v2, p1, p2, m1, m2, vw⟩ := own i hl rfl e2 e3
  have f := Op.pays (op := .claimCreatorFee g mb mq) hw trivial
  rw [e4] at p1
  rw [← m2, e6] at p2
  refine ⟨l.pa, l.c, l.w, w, hp, hc, vw, hw, ?_⟩
  rw [e2, e3]
  exact pay_two hb hq hn (by omega) (by omega) p1 p2 hs1 h

theorem quoteOut_moved {K : Keys} {s s' : Chain} {a : QuoteIx} {f : World → Res World} {op : Op} (hf : ∀ w, f w = w.step op)
    (hp : Pays op) (hnb : NoBase op) (i : Inv K s still)
    (h : s.quoteOut K a f = .ok s') : ∃ pa c w w1, s.pools a.pool = some pa ∧ s.configs pa.config = some c ∧
      s.view K a.pool = some w ∧ w.step op = .ok w1 ∧
      Moved s s' [⟨some pa.quoteVault, some a.toQuote, w.quoteVault - w1.quoteVault⟩] := by
  simp only [Chain.quoteOut, bind_ok, req_ok, need_ok] at h
  obtain ⟨pa, hpa, l, hl, _, e1, _, ⟨e2, e3⟩, _, e4, w, hw, h⟩ := h
  obtain ⟨_, q1, q2, q3, q4, _, _⟩ := load_ok hl
  rw [hpa] at q1
  cases q1
  rw [hf] at hw
  obtain ⟨hp', hc, hb, hq, hn, v1, v2, p1, p2, m1, m2, vw⟩ := own i hl e3 rfl e2
  have f := Op.pays hw hp
  have nb := NoBase.same hw hnb
  rw [e1] at p2
  refine ⟨l.pa, l.c, l.w, w, hpa, hc, vw, hw, ?_⟩
  rw [e2]
  exact pay_quote hb hq hn (by omega) (by omega) p2 h

theorem createLocker_moved {K : Keys} {s s' : Chain} {P ck v m r t : Nat} (i : Inv K s still)
    (h : s.createLocker K P ck v m r t = .ok s') : ∃ pa c w w1, s.pools P = some pa ∧ s.configs pa.config = some c ∧
      s.view K P = some w ∧ w.step .createLocker = .ok w1 ∧
      Moved s s' [⟨some pa.baseVault, some t, w.baseVault - w1.baseVault⟩] := by
  simp only [Chain.createLocker, bind_ok, req_ok, need_ok] at h
  obtain ⟨pa, hpa, l, hl, _, ⟨e1, e2, e3, e4⟩, _, e5, w, hw, h⟩ := h
  obtain ⟨_, q1, q2, q3, q4, _, q6⟩ := load_ok hl
  rw [hpa] at q1
  cases q1
  have hr : r = l.w.pool.creator := by rw [← e2, q6]; rfl
  rw [hr, escrowFor_own hw] at h
  obtain ⟨hp', hc, hb, hq, hn, v1, v2, p1, p2, m1, m2, vw⟩ := own i hl e1 e3 rfl
  have f := Op.pays (op := .createLocker) hw trivial
  have vq : w.quoteVault = l.qv.amount := by
    obtain ⟨_, _, e⟩ := createLocker_ok hw
    rw [e]; exact v2
  rw [e4] at p1
  refine ⟨l.pa, l.c, l.w, w, hpa, hc, vw, hw, ?_⟩
  rw [e3]
  exact pay_base hb hq hn (by omega) vq p1 h

theorem withdrawLeftover_moved {K : Keys} {s s' : Chain} {P ck v m r t : Nat} (i : Inv K s still)
    (h : s.withdrawLeftover K P ck v m r t = .ok s') : ∃ pa c w w1, s.pools P = some pa ∧ s.configs pa.config = some c ∧
      s.view K P = some w ∧ w.step (.withdrawLeftover r) = .ok w1 ∧
      Moved s s' [⟨some pa.baseVault, some (K.ata c.leftoverReceiver pa.baseMint), w.baseVault - w1.baseVault⟩] ∧
      ∃ u, getTok s.tokens (K.ata c.leftoverReceiver pa.baseMint) = some u ∧ u.owner = c.leftoverReceiver := by
  simp only [Chain.withdrawLeftover, bind_ok, req_ok, need_ok] at h
  obtain ⟨pa, hpa, l, hl, _, ⟨e1, e2, e3⟩, _, ata, _, e5, w, hw, h⟩ := h
  obtain ⟨_, q1, q2, q3, q4, _, hlw⟩ := load_ok hl
  rw [hpa] at q1
  cases q1
  obtain ⟨hp', hc, hb, hq, hn, v1, v2, p1, p2, m1, m2, vw⟩ := own i hl e3 e2 rfl
  have f := Op.pays (op := .withdrawLeftover r) hw trivial
  have lr : w.quoteVault = l.qv.amount ∧ r = l.c.leftoverReceiver := by
    obtain ⟨h1, _, _, _, _, _, _, _, e⟩ := withdrawLeftover_ok hw
    refine ⟨by rw [e]; exact v2, ?_⟩
    rw [h1, hlw]
    rfl
  simp only [Chain.validateAta, bind_ok, req_ok, need_ok] at ata
  obtain ⟨_, ea, u, hu, ho⟩ := ata
  rw [e1] at p1
  rw [ea] at h hu
  refine ⟨l.pa, l.c, l.w, w, hpa, hc, vw, hw, ?_⟩
  rw [← lr.2, e1, e2]
  exact ⟨pay_base hb hq hn (by omega) lr.1 p1 h, u, hu, ho⟩

/-- Two payments and a burn. -/
theorem pay_burn {K : Keys} {s s0 s1 s' : Chain} {P bk qk m1 m2 d1 d2 b q z : Nat} {l : Loaded} {w : World}
    (hb : getTok s.tokens bk = some l.bv) (hq : getTok s.tokens qk = some l.qv) (hn : bk ≠ qk)
    (vb : w.baseVault + b + z = l.bv.amount) (vq : w.quoteVault + q = l.qv.amount) (p1 : PlainAt s m1) (p2 : PlainAt s m2)
    (h0 : s0.tokens = (s.save P bk qk l w).tokens) (h0' : s0.mints = (s.save P bk qk l w).mints)
    (h1 : s0.credit K m1 d1 b = .ok s1) (h2 : s1.credit K m2 d2 q = .ok s') :
    Moved s s' [⟨some bk, some d1, b⟩, ⟨some bk, none, z⟩, ⟨some qk, some d2, q⟩] := by
  obtain ⟨k1, e1⟩ := credit_moved ((save_plain p1).of h0') h1
  obtain ⟨k2, e2⟩ := credit_moved ((PlainAt.of (save_plain p2) h0').of e1) h2
  refine (((save_moved hb hq hn).same h0).trans (k1.trans k2)).congr (fun x => ?_)
  simp only [List.cons_append, List.nil_append, outOf, into, here_none]
  rw [← vb, ← vq]
  generalize here (some d1) x b = o1
  generalize here (some d2) x q = o2
  by_cases x1 : x = bk
  · subst x1
    simp only [here_self, here_ne _ hn]
    omega
  · by_cases x2 : x = qk
    · subst x2
      simp only [here_self, here_ne _ x1]
      omega
    · simp only [here_ne _ x1, here_ne _ x2]
      omega

theorem migrateV1_moved {K : Keys} {s s' : Chain} {a : MigrateIx} {mk : Nat} {x : V1Args} (i : Inv K s still)
    (h : s.migrateV1 K a mk x = .ok s') : ∃ pa burn, s.pools a.pool = some pa ∧
      Moved s s' [⟨some pa.baseVault, some a.toBase, x.baseTaken⟩, ⟨some pa.baseVault, none, burn⟩,
        ⟨some pa.quoteVault, some a.toQuote, x.quoteTaken⟩] := by
  simp only [Chain.migrateV1, bind_ok, req_ok, need_ok] at h
  obtain ⟨m, hm, l, hl, _, ⟨e1, e2, e3⟩, _, e4, w, hw, md, hmd, s1, h1, h⟩ := h
  obtain ⟨bm, hp, wi, hlw⟩ := load_own i hl e3 e1 e2
  obtain ⟨p1, p2⟩ := i.plains wi
  have hn : a.baseVault ≠ a.quoteVault := by rw [← e1, ← e2]; exact i.cross _ _ _ _ hp hp
  have wb := wi.base
  have wq := wi.quote
  rw [e1] at wb
  rw [e2] at wq
  obtain ⟨_, mm, _, burn, f, _, _, _, _, _, _, _, k1, k2, _, _, k3, _, _, e⟩ := migrateV1_ok hw
  have b1 : w.baseVault = l.w.baseVault - x.baseTaken - burn := by rw [e]
  have b3 : w.quoteVault = l.w.quoteVault - x.quoteTaken := by rw [e]
  have v1 : l.w.baseVault = l.bv.amount := by rw [hlw]; rfl
  have v2 : l.w.quoteVault = l.qv.amount := by rw [hlw]; rfl
  clear e
  rw [← wi.baseMint] at p1
  rw [← wi.quoteMint] at p2
  refine ⟨l.pa, burn, hp, ?_⟩
  rw [e1, e2]
  exact pay_burn (P := a.pool) (w := w) wb wq hn (by omega) (by omega) p1 p2 (by exact rfl) (by exact rfl) h1 h

theorem migrateV2_moved {K : Keys} {s s' : Chain} {a : MigrateIx} {x : V2Args} (i : Inv K s still)
    (h : s.migrateV2 K a x = .ok s') : ∃ pa burn, s.pools a.pool = some pa ∧
      Moved s s' [⟨some pa.baseVault, some a.toBase, x.base1 + x.base2⟩, ⟨some pa.baseVault, none, burn⟩,
        ⟨some pa.quoteVault, some a.toQuote, x.quote1 + x.quote2⟩] := by
  simp only [Chain.migrateV2, bind_ok, req_ok] at h
  obtain ⟨l, hl, _, ⟨e1, e2, e3⟩, _, ⟨e4, e5⟩, w, hw, s1, h1, h⟩ := h
  obtain ⟨hp, hc, hb, hq, hn, v1, v2, p1, p2, m1, m2, vw⟩ := own i hl e3 e1 e2
  have fr : ∃ burn, w.baseVault + (x.base1 + x.base2) + burn = l.w.baseVault ∧
      w.quoteVault + (x.quote1 + x.quote2) = l.w.quoteVault := by
    obtain ⟨_, _, burn, _, _, _, _, _, _, _, _, _, _, _, _, _, _, _, _, _, _, _, _, _, _, _, _, _, _, _, _, _, _, e⟩ :=
      migrateV2_ok hw
    refine ⟨burn, ?_, ?_⟩ <;> rw [e] <;> dsimp only <;> omega
  obtain ⟨burn, b1, b3⟩ := fr
  rw [← m1, e4] at p1
  rw [← m2, e5] at p2
  refine ⟨l.pa, burn, hp, ?_⟩
  rw [e1, e2]
  exact pay_burn hb hq hn (by omega) (by omega) p1 p2 rfl rfl h1 h

theorem lpOut_moved {K : Keys} {s s' : Chain} {P mk : Nat} {f : World → Res World} {op : Op} (hf : ∀ w, f w = w.step op)
    (hb : NoVault op) (i : Inv K s still) (h : s.lpOut P mk f = .ok s') : Moved s s' [] := by
  simp only [Chain.lpOut, bind_ok, req_ok, need_ok, ok_inj] at h
  obtain ⟨pa, hpa, m, hm, l, hl, _, e1, w, hw, md, hmd, rfl⟩ := h
  obtain ⟨_, q1, q2, q3, q4, _, hlw⟩ := load_ok hl
  rw [hpa] at q1
  cases q1
  rw [hf] at hw
  obtain ⟨k1, k2, _, _⟩ := NoVault.same hw hb
  have v1 : l.w.baseVault = l.bv.amount := by rw [hlw]; rfl
  have v2 : l.w.quoteVault = l.qv.amount := by rw [hlw]; rfl
  exact (save_same (P := P) q3 q4 (i.cross _ _ _ _ hpa hpa) (by omega) (by omega)).same rfl

theorem lamportsOut_moved {K : Keys} {s s' : Chain} {P ck r : Nat} {f : World → Res World} {op : Op} (hf : ∀ w, f w = w.step op)
    (hb : NoVault op) (i : Inv K s still) (h : s.lamportsOut K P ck r f = .ok s') : Moved s s' [] := by
  simp only [Chain.lamportsOut, bind_ok, req_ok, need_ok, ok_inj] at h
  obtain ⟨pa, hpa, l, hl, _, e1, w, hw, rfl⟩ := h
  obtain ⟨_, q1, q2, q3, q4, _, hlw⟩ := load_ok hl
  rw [hpa] at q1
  cases q1
  rw [hf] at hw
  obtain ⟨k1, k2, _, _⟩ := NoVault.same hw hb
  have v1 : l.w.baseVault = l.bv.amount := by rw [hlw]; rfl
  have v2 : l.w.quoteVault = l.qv.amount := by rw [hlw]; rfl
  exact (save_same (P := P) q3 q4 (i.cross _ _ _ _ hpa hpa) (by omega) (by omega)).same rfl

theorem transferCreator_moved {K : Keys} {s s' : Chain} {P ck g n : Nat} {mk : Option Nat} (i : Inv K s still)
    (h : s.transferCreator P ck mk g n = .ok s') : Moved s s' [] := by
  simp only [Chain.transferCreator, bind_ok, req_ok, need_ok, ok_inj] at h
  obtain ⟨pa, hpa, l, hl, _, e3, w, hw, rfl⟩ := h
  obtain ⟨_, q1, q2, q3, q4, _, hlw⟩ := load_ok hl
  rw [hpa] at q1
  cases q1
  have v1 : l.w.baseVault = l.bv.amount := by rw [hlw]; rfl
  have v2 : l.w.quoteVault = l.qv.amount := by rw [hlw]; rfl
  obtain ⟨t1, t2, t3, t4⟩ := transferCreator_ok hw
  exact save_same q3 q4 (i.cross _ _ _ _ hpa hpa) (by rw [t4]; exact v1) (by rw [t4]; exact v2)

/-! ### Users' accounts -/

/-- What happens to one account that is not a vault. -/
def Kind (s' : Chain) (x : Nat) (t : TokenAcc) : Prop :=
  ∃ t', getTok s'.tokens x = some t' ∧ t'.mint = t.mint ∧ t'.owner = t.owner ∧ t.amount ≤ t'.amount

theorem _root_.Spec.Moved.kind {s s' : Chain} {l : List Move} (h : Moved s s' l) {x : Nat} {t : TokenAcc}
    (ht : getTok s.tokens x = some t) (ho : outOf l x = 0) : Kind s' x t := by
  obtain ⟨t', h1, h2, h3, h4⟩ := h.some x t ht
  exact ⟨t', h1, h2, h3, by omega⟩

theorem Inv.vaults {K : Keys} {s : Chain} {pend : Nat → Nat} (i : Inv K s pend) {P : Nat} {pa : PoolAcc}
    (hp : s.pools P = some pa) {x : Nat} {t : TokenAcc} (ht : getTok s.tokens x = some t) (ho : t.owner ≠ K.authority) :
    x ≠ pa.baseVault ∧ x ≠ pa.quoteVault := by
  obtain ⟨_, _, _, _, w⟩ := i.wired P pa hp
  constructor
  · intro e
    have := w.base
    rw [← e, ht] at this
    cases this
    exact ho w.baseOwner
  · intro e
    have := w.quote
    rw [← e, ht] at this
    cases this
    exact ho w.quoteOwner

theorem exec_kind {K : Keys} {s s' : Chain} {ix : Instr} (i : Inv K s still)
    (hre : ∀ P w, s.view K P = some w → Reachable w) (h : s.exec K ix = .ok s') {x : Nat} {t : TokenAcc}
    (ht : getTok s.tokens x = some t) (ho : t.owner ≠ K.authority) :
    Kind s' x t ∨ Spends ix x t.owner ∨ (∃ m o, ix = .reassign t.owner x m o) ∨ ∃ m y a, ix = .seize m x y a := by
  cases ix
  case createConfig =>
    left
    simp only [Chain.exec, Chain.createConfig, bind_ok, req_ok, need_ok, ok_inj] at h
    obtain ⟨_, _, _, _, _, _, _, _, rfl⟩ := h
    exact (Moved.refl rfl).kind ht rfl
  case initPool a =>
    left
    simp only [Chain.exec, Chain.initPool, bind_ok, req_ok, need_ok, ok_inj] at h
    obtain ⟨c, hc, _, e1, qm, hqm, _, hbm, _, ⟨ep, hp⟩, _, ⟨eb, hb⟩, _, ⟨eq, hq, hne⟩, w, hw, rfl⟩ := h
    refine ⟨t, ?_, rfl, rfl, le_refl _⟩
    dsimp only
    rw [getTok_cons, getTok_cons, if_neg (fun e => by rw [← e, hq] at ht; cases ht),
      if_neg (fun e => by rw [← e, hb] at ht; cases ht)]
    exact ht
  case swap a =>
    obtain ⟨pa, w, w1, dir, y, tin, hp, _, _, _, htin, hto, _, _, _, m⟩ := swap_moved i hre h
    obtain ⟨n1, n2⟩ := i.vaults hp ht ho
    by_cases e : x = a.input
    · subst e
      rw [ht] at htin
      cases htin
      rw [hto]
      exact .inr (.inl (.swap a))
    · left
      have nv : ∀ k, x ≠ vaultAt pa k := fun k => by cases k; exact n1; exact n2
      refine m.kind ht ?_
      simp only [outOf, here_ne _ e, here_ne _ (nv _)]
  case claimProtocolFee =>
    obtain ⟨pa, c, w, w1, hp, _, _, _, m, _⟩ := claimProtocolFee_moved i h
    obtain ⟨n1, n2⟩ := i.vaults hp ht ho
    exact .inl (m.kind ht (by simp only [outOf, here_ne _ n1, here_ne _ n2]))
  case zapProtocolFee =>
    obtain ⟨pa, c, w, w1, ib, ok, hp, _, _, _, hv, m, _⟩ := zapProtocolFee_moved i h
    obtain ⟨n1, n2⟩ := i.vaults hp ht ho
    refine .inl (m.kind ht ?_)
    rcases hv with ⟨_, _, hv⟩ | ⟨_, _, hv⟩ <;> rw [hv] <;> simp only [outOf, here_ne _ n1, here_ne _ n2]
  case claimPartnerFee =>
    obtain ⟨pa, c, w, w1, hp, _, _, _, m⟩ := claimPartnerFee_moved i h
    obtain ⟨n1, n2⟩ := i.vaults hp ht ho
    exact .inl (m.kind ht (by simp only [outOf, here_ne _ n1, here_ne _ n2]))
  case claimCreatorFee =>
    obtain ⟨pa, c, w, w1, hp, _, _, _, m⟩ := claimCreatorFee_moved i h
    obtain ⟨n1, n2⟩ := i.vaults hp ht ho
    exact .inl (m.kind ht (by simp only [outOf, here_ne _ n1, here_ne _ n2]))
  case partnerWithdrawSurplus a g =>
    obtain ⟨pa, c, w, w1, hp, _, _, _, m⟩ := quoteOut_moved (op := .partnerWithdrawSurplus g) (fun _ => rfl) trivial trivial i h
    obtain ⟨n1, n2⟩ := i.vaults hp ht ho
    exact .inl (m.kind ht (by simp only [outOf, here_ne _ n1, here_ne _ n2]))
  case creatorWithdrawSurplus a g =>
    obtain ⟨pa, c, w, w1, hp, _, _, _, m⟩ := quoteOut_moved (op := .creatorWithdrawSurplus g) (fun _ => rfl) trivial trivial i h
    obtain ⟨n1, n2⟩ := i.vaults hp ht ho
    exact .inl (m.kind ht (by simp only [outOf, here_ne _ n1, here_ne _ n2]))
  case withdrawMigrationFee a g f =>
    obtain ⟨pa, c, w, w1, hp, _, _, _, m⟩ := quoteOut_moved (op := .withdrawMigrationFee g f) (fun _ => rfl) trivial trivial i h
    obtain ⟨n1, n2⟩ := i.vaults hp ht ho
    exact .inl (m.kind ht (by simp only [outOf, here_ne _ n1, here_ne _ n2]))
  case claimPartnerCreationFee p c r g =>
    exact .inl ((lamportsOut_moved (op := .claimPartnerCreationFee g) (fun _ => rfl) trivial i h).kind ht rfl)
  case claimProtocolCreationFee p c r g =>
    simp only [Chain.exec, Chain.claimProtocolCreationFee, bind_ok] at h
    obtain ⟨_, _, h⟩ := h
    exact .inl ((lamportsOut_moved (op := .claimProtocolCreationFee g) (fun _ => rfl) trivial i h).kind ht rfl)
  case createLocker =>
    obtain ⟨pa, c, w, w1, hp, _, _, _, m⟩ := createLocker_moved i h
    obtain ⟨n1, n2⟩ := i.vaults hp ht ho
    exact .inl (m.kind ht (by simp only [outOf, here_ne _ n1, here_ne _ n2]))
  case migrateV1 =>
    obtain ⟨pa, burn, hp, m⟩ := migrateV1_moved i h
    obtain ⟨n1, n2⟩ := i.vaults hp ht ho
    exact .inl (m.kind ht (by simp only [outOf, here_ne _ n1, here_ne _ n2]))
  case migrateV2 =>
    obtain ⟨pa, burn, hp, m⟩ := migrateV2_moved i h
    obtain ⟨n1, n2⟩ := i.vaults hp ht ho
    exact .inl (m.kind ht (by simp only [outOf, here_ne _ n1, here_ne _ n2]))
  case withdrawLeftover =>
    obtain ⟨pa, c, w, w1, hp, _, _, _, m, _⟩ := withdrawLeftover_moved i h
    obtain ⟨n1, n2⟩ := i.vaults hp ht ho
    exact .inl (m.kind ht (by simp only [outOf, here_ne _ n1, here_ne _ n2]))
  case createMeta =>
    left
    simp only [Chain.exec, Chain.createMeta, bind_ok, req_ok, need_ok, ok_inj] at h
    obtain ⟨_, _, _, _, _, _, _, _, _, _, _, _, rfl⟩ := h
    exact (Moved.refl rfl).kind ht rfl
  case lockLp p m o => exact .inl ((lpOut_moved (op := .lockLp o) (fun _ => rfl) trivial i h).kind ht rfl)
  case claimLp p m o => exact .inl ((lpOut_moved (op := .claimLp o) (fun _ => rfl) trivial i h).kind ht rfl)
  case transferCreator => exact .inl ((transferCreator_moved i h).kind ht rfl)
  case createOperator =>
    left
    simp only [Chain.exec, Chain.createOperator, bind_ok, req_ok, ok_inj] at h
    obtain ⟨_, _, _, _, _, _, rfl⟩ := h
    exact (Moved.refl rfl).kind ht rfl
  case closeOperator =>
    left
    simp only [Chain.exec, Chain.closeOperator, bind_ok, req_ok, ok_inj] at h
    obtain ⟨_, _, rfl⟩ := h
    exact (Moved.refl rfl).kind ht rfl
  case newMint =>
    left
    simp only [Chain.exec, Chain.newMint, bind_ok, req_ok, ok_inj] at h
    obtain ⟨_, _, rfl⟩ := h
    exact (Moved.refl rfl).kind ht rfl
  case newAccount k m o =>
    left
    simp only [Chain.exec, Chain.newAccount, bind_ok, req_ok, need_ok, ok_inj] at h
    obtain ⟨_, h1, _, _, rfl⟩ := h
    refine ⟨t, ?_, rfl, rfl, le_refl _⟩
    dsimp only
    rw [getTok_cons, if_neg (fun e => by rw [← e, h1] at ht; cases ht)]
    exact ht
  case transfer g m k y a =>
    simp only [Chain.exec, Chain.transfer, bind_ok] at h
    obtain ⟨s1, h1, h⟩ := h
    obtain ⟨m1, _, u, hu, _, hg, _⟩ := debit_moved h1
    obtain ⟨b, _, m2⟩ := credit_some h
    by_cases e : x = k
    · subst e
      rw [ht] at hu
      cases hu
      rw [hg]
      exact .inr (.inl (.transfer g m x y a))
    · exact .inl ((m1.trans m2).kind ht (by
        simp only [List.cons_append, List.nil_append, outOf, here_ne _ e, here_none]))
  case seize m k y a =>
    simp only [Chain.exec, Chain.seize, bind_ok, req_ok, need_ok] at h
    obtain ⟨mt, hm, _, hd, u, hu, _, ⟨e1, e2⟩, h⟩ := h
    by_cases e : x = k
    · subst e
      exact .inr (.inr (.inr ⟨m, y, a, rfl⟩))
    · left
      obtain ⟨b, _, m2⟩ := credit_some h
      obtain ⟨t', k1, k2, k3, k4⟩ := m2.some x t (by
        dsimp only
        rw [getTok_setTok _ hu, if_neg e]
        exact ht)
      simp only [outOf, here_none] at k4
      exact ⟨t', k1, k2, k3, by omega⟩
  case mintTo g m d a =>
    left
    simp only [Chain.exec, Chain.mintTo, bind_ok, req_ok, need_ok] at h
    obtain ⟨_, _, _, _, _, _, h⟩ := h
    have k := (give_moved h).1
    obtain ⟨t', k1, k2, k3, k4⟩ := k.some x t ht
    simp only [outOf, here_none] at k4
    exact ⟨t', k1, k2, k3, by omega⟩
  case burn g m k a =>
    simp only [Chain.exec, Chain.burn, bind_ok, need_ok, ok_inj] at h
    obtain ⟨mt, hm, s1, h1, rfl⟩ := h
    obtain ⟨m1, _, u, hu, _, hg, _⟩ := debit_moved h1
    by_cases e : x = k
    · subst e
      rw [ht] at hu
      cases hu
      rw [hg]
      exact .inr (.inl (.burn g m x a))
    · exact .inl ((m1.same rfl).kind ht (by simp only [outOf, here_ne _ e]))
  case reassign g k m o =>
    simp only [Chain.exec, Chain.reassign, bind_ok, req_ok, need_ok, ok_inj] at h
    obtain ⟨u, hu, _, ⟨e1, e2⟩, mt, hm, _, e3, rfl⟩ := h
    by_cases e : x = k
    · subst e
      rw [ht] at hu
      cases hu
      rw [e1]
      exact .inr (.inr (.inl ⟨m, o, rfl⟩))
    · left
      refine ⟨t, ?_, rfl, rfl, le_refl _⟩
      dsimp only
      rw [getTok_setTok _ hu, if_neg e]
      exact ht
  case sendLamports d a =>
    cases h
    exact .inl ((Moved.refl rfl).kind ht rfl)

end Dbc

import Verif.Lemmas.ChainGo
import Verif.Props.Chain
import Verif.Props.Go
import Verif.Props.Migrate

/-!
# C68: nothing but the pool's own rules stops an instruction
-/

namespace Props
open Dbc Spec

theorem swap_goes {K : Keys} {s : Chain} {P : Nat} {pa : PoolAcc} {w w1 : World} {l : Loaded} {bm : MintAcc}
    (o : Own K s P pa w l bm) {x : SwapArgs} {src dst payer n : Nat} {ref : Option Nat} (h : w.swap x = .ok w1)
    (hpay : payer ≠ K.authority) (hsrc : IsAccount s src (mintOf pa w.cfg (inToken x.dir)) payer)
    (hn : balance s src = some n) (hen : traderIn w1 (inToken x.dir) ≤ traderIn w (inToken x.dir) + n)
    (hdst : Takes s dst (mintOf pa w.cfg (outToken x.dir))) (href : x.referral = ref.isSome)
    (hrt : ∀ k, ref = some k → Takes s k (mintOf pa w.cfg (feeIn w.cfg x.dir))) :
    ∃ s', s.swap K ⟨P, pa.config, pa.baseVault, pa.quoteVault, pa.baseMint, w.cfg.quoteMint, src, dst,
        ref, payer, x.mode, x.amount0, x.amount1, x.clk, x.tx⟩ = .ok s' := by
  have hd : pa.baseMint ≠ w.cfg.quoteMint := by rw [← o.cfg]; exact o.wired.diff
  have hms : ∀ t, s.mints (mintOf pa w.cfg t) ≠ none := by
    intro t
    cases t
    · exact o.base
    · exact o.quoteMint
  obtain ⟨tin, htin, hmint, -⟩ := id hsrc
  have hdir : swapDir tin.mint pa.baseMint = x.dir := by
    rw [hmint]
    unfold swapDir
    cases hx : x.dir with
    | baseToQuote => exact if_pos rfl
    | quoteToBase => exact if_neg (fun e => hd e.symm)
  have hargs : (⟨x.mode, x.amount0, x.amount1, swapDir tin.mint pa.baseMint, ref.isSome, x.clk, x.tx⟩ : SwapArgs) = x := by
    rw [hdir, ← href]
  obtain ⟨cur, fm, r, v1, v2, st⟩ := swap_ok h
  have hres : w.swapResult x = .ok (r, fm) := by
    unfold World.swapResult
    rw [st.hcur, ok_bind, st.pre, ok_bind, st.hfm, ok_bind, st.proc, ok_bind]
  have hpaid := (Props.SwapStep.observed st).paid (inToken x.dir)
  rw [inTok_self] at hpaid
  have hle : r.includedIn ≤ n := by
    have : (tradeOf w.cfg fm r).paid = r.includedIn := rfl
    omega
  obtain ⟨-, -, f0, f1, f2⟩ := getFeeMode_ok st.hfm
  have hfee : (if fm.feesOnBase then pa.baseMint else w.cfg.quoteMint) = mintOf pa w.cfg (feeIn w.cfg x.dir) := by
    have : feeTok fm = feeIn w.cfg x.dir := by
      unfold feeIn
      by_cases e : w.cfg.collectFeeMode = 0
      · rw [if_pos e, f0 e]
      · rw [if_neg e, f1 (by omega)]
    rw [← this]
    unfold feeTok
    cases fm.feesOnBase <;> rfl
  have hvt : Takes s (vaultAt pa (inToken x.dir)) (mintOf pa w.cfg (inToken x.dir)) := by
    cases inToken x.dir
    · exact ⟨_, _, o.wired.base, o.wired.baseMint, rfl⟩
    · exact ⟨_, _, o.wired.quote, by rw [o.wired.quoteMint, o.cfg]; rfl, rfl⟩
  obtain ⟨s1, e1, k1⟩ := debit_goes (K := K) (a := r.includedIn) hsrc hpay hn hle
  have k2 := k1.trans (o.keeps k1 w1)
  obtain ⟨s3, e3, k3⟩ := withhold_goes (K := K) (s := s1.save P pa.baseVault pa.quoteVault l w1)
    (m := mintOf pa w.cfg (inToken x.dir)) (k := vaultAt pa (inToken x.dir)) r.includedIn (k2.mint _ (hms _)) (k2.takes hvt)
  have k3 := k2.trans k3
  obtain ⟨s4, e4, k4⟩ := credit_goes (K := K) (s := s3) (m := mintOf pa w.cfg (outToken x.dir)) (d := dst) r.out
    (k3.mint _ (hms _)) (k3.takes hdst)
  have k4 := k3.trans k4
  have hpay : ∃ s', s3.swapPay K ⟨P, pa.config, pa.baseVault, pa.quoteVault, pa.baseMint, w.cfg.quoteMint, src, dst,
        ref, payer, x.mode, x.amount0, x.amount1, x.clk, x.tx⟩ x.dir r fm = .ok s' := by
    have e : s3.swapPay K ⟨P, pa.config, pa.baseVault, pa.quoteVault, pa.baseMint, w.cfg.quoteMint, src, dst,
        ref, payer, x.mode, x.amount0, x.amount1, x.clk, x.tx⟩ x.dir r fm = (do
        let s ← s3.credit K (mintOf pa w.cfg (outToken x.dir)) dst r.out
        match ref with
        | none => .ok s
        | some k => s.credit K (if fm.feesOnBase then pa.baseMint else w.cfg.quoteMint) k r.fee.referral) := by
      cases x.dir <;> rfl
    rw [e, e4, ok_bind]
    cases ref with
    | none => exact ⟨_, rfl⟩
    | some k =>
      dsimp only
      rw [hfee]
      exact one_goes _ (k4.mint _ (hms _)) (k4.takes (hrt k rfl))
  obtain ⟨s', hs'⟩ := hpay
  refine ⟨s', ?_⟩
  have htn : need (getTok s.tokens src) = .ok tin := need_ok.2 htin
  unfold Chain.swap
  simp only [SwapIx.args]
  rw [o.load, ok_bind, htn, ok_bind, (req_ok (u := ())).2 ⟨by rw [o.eq], by rw [o.eq], by rw [o.eq]⟩, ok_bind,
    (req_ok (u := ())).2 ⟨o.wired.baseMint, by rw [o.wired.quoteMint, o.cfg]⟩, ok_bind, o.lw, hargs, hres, ok_bind]
  dsimp only
  rw [h, ok_bind, hdir]
  refine Eq.trans (b := do
    let s ← s.debit K payer (mintOf pa w.cfg (inToken x.dir)) src r.includedIn
    let s ← (s.save P pa.baseVault pa.quoteVault l w1).withhold K (mintOf pa w.cfg (inToken x.dir))
      (vaultAt pa (inToken x.dir)) r.includedIn
    s.swapPay K ⟨P, pa.config, pa.baseVault, pa.quoteVault, pa.baseMint, w.cfg.quoteMint, src, dst,
        ref, payer, x.mode, x.amount0, x.amount1, x.clk, x.tx⟩ x.dir r fm) (by cases x.dir <;> rfl) ?_
  rw [e1, ok_bind, e3, ok_bind]
  exact hs'

theorem ownMeta_iff {K : Keys} {s : Chain} {P : Nat} {md : DammMeta} :
    s.ownMeta K P = some md ↔ s.metas (K.metaPda P) = some ⟨P, md⟩ := by
  refine ⟨meta_at, fun h => ?_⟩
  unfold Chain.ownMeta
  rw [h]
  exact if_pos rfl

theorem view_of_shows {K : Keys} {s : Chain} {P : Nat} {w : World} (h : Arises K s) (hs : Shows s P w)
    (hm : ShowsMeta K s P w) : s.view K P = some w := by
  obtain ⟨pa, hp, a1, a2, a3, a4, a5, a6, a7, a8, a9, a10, a11, a12, a13, a14, a15⟩ := hs.acc
  obtain ⟨c, bv, qv, bm, wi⟩ := h.inv.wired P pa hp
  rw [wi.view hp]
  have hmeta : w.dammMeta = s.ownMeta K P := by
    cases hd : s.ownMeta K P with
    | none =>
      cases hw : w.dammMeta with
      | none => rfl
      | some md =>
        have := ownMeta_iff.2 ((hm md).1 hw)
        rw [hd] at this
        cases this
    | some md => exact (hm md).2 (ownMeta_iff.1 hd)
  have hcf := hs.key
  have ho := hs.operators
  have ha := hs.admins
  rw [wi.cfg] at a4
  unfold balance at a5 a6
  rw [wi.base] at a5
  rw [wi.quote] at a6
  rw [wi.mint] at a7 a8
  simp only [Option.map_some, Option.some.injEq] at a4 a5 a6 a7 a8
  clear hm hs
  cases w
  simp only at a1 a2 a3 a4 a5 a6 a7 a8 a9 a10 a11 a12 a13 a14 a15 hmeta hcf ho ha
  subst a1 a2 a3 a4 a5 a6 a7 a8 a9 a10 a11 a12 a13 a14 a15 hmeta hcf ho ha
  rfl

theorem view_showsMeta {K : Keys} {s : Chain} {P : Nat} {w : World} (i : Inv K s still) (h : s.view K P = some w) :
    ShowsMeta K s P w := by
  obtain ⟨_, _, _, _, _, _, _, e⟩ := i.open h
  intro md
  rw [← ownMeta_iff, e]
  rfl

theorem exec_goes {K : Keys} {s : Chain} {P : Nat} {pa : PoolAcc} {w w1 : World} {op : Op} {ix : Instr}
    (h : Arises K s) (hK : ∀ P Q, K.metaPda P = K.metaPda Q → P = Q) (hp : s.pools P = some pa) (hw : Shows s P w)
    (hm : ShowsMeta K s P w) (hs : w.step op = .ok w1) (hc : Correct K s P pa w w1 op ix) : ∃ s', s.exec K ix = .ok s' := by
  have hv := view_of_shows h hw hm
  obtain ⟨l, bm, o⟩ := own_of h.inv hp hv
  have kp := o.keeps (Keeps.refl s) w1
  have hpn : need (s.pools P) = .ok pa := need_ok.2 o.pool
  have hdm : w.dammMeta = s.ownMeta K P := by
    obtain ⟨_, _, _, _, _, _, _, e⟩ := h.inv.open hv
    rw [e]; rfl
  have ldm : ∀ md, w.dammMeta = some md →
      s.load P pa.config pa.baseVault pa.quoteVault (some md) = .ok l := fun md e => by rw [← e, hdm]; exact o.load
  cases hc with
  | swap x src dst payer n ref h1 h2 h3 h4 h5 h6 h7 => exact swap_goes o hs h1 h2 h3 h4 h5 h6 h7
  | claimProtocolFee g b q h1 h2 => exact claimProtocolFee_goes o hs h1 h2
  | zapProtocolFee g x z ok t h1 h2 h3 => exact zap_goes o hs h1 h2 h3
  | claimPartnerFee g b q x y h1 h2 =>
    have hs : w.claimPartnerFee g b q = .ok w1 := hs
    simp only [Chain.exec, Chain.claimPartnerFee]
    rw [o.load, ok_bind, (req_ok (u := ())).2 (by rw [o.cfg]), ok_bind,
      (req_ok (u := ())).2 ⟨by rw [o.eq], by rw [o.eq], by rw [o.eq], by rw [o.eq]⟩, ok_bind,
      (req_ok (u := ())).2 ⟨o.wired.baseMint, by rw [o.wired.quoteMint, o.cfg]⟩, ok_bind, o.lw, hs, ok_bind]
    exact two_go _ _ (kp.mint _ o.base) (kp.mint _ o.quoteMint) (kp.takes h1) (kp.takes h2)
  | claimCreatorFee g b q x y h1 h2 =>
    have hs : w.claimCreatorFee g b q = .ok w1 := hs
    simp only [Chain.exec, Chain.claimCreatorFee]
    rw [hpn, ok_bind, o.load, ok_bind,
      (req_ok (u := ())).2 ⟨by rw [o.eq], by rw [o.eq], by rw [o.eq]⟩, ok_bind,
      (req_ok (u := ())).2 ⟨o.wired.baseMint, by rw [o.wired.quoteMint, o.cfg]⟩, ok_bind, o.lw, hs, ok_bind]
    exact two_go _ _ (kp.mint _ o.base) (kp.mint _ o.quoteMint) (kp.takes h1) (kp.takes h2)
  | partnerWithdrawSurplus g y h1 => exact quoteOut_goes o (f := fun w => w.partnerWithdrawSurplus g) hs h1
  | creatorWithdrawSurplus g y h1 => exact quoteOut_goes o (f := fun w => w.creatorWithdrawSurplus g) hs h1
  | withdrawMigrationFee g f y h1 => exact quoteOut_goes o (f := fun w => w.withdrawMigrationFee g f) hs h1
  | claimPartnerCreationFee g r => exact lamportsOut_goes o (f := fun w => w.claimPartnerCreationFee g) r hs
  | claimProtocolCreationFee g =>
    obtain ⟨s', e⟩ := lamportsOut_goes o (f := fun w => w.claimProtocolCreationFee g) K.treasury hs
    refine ⟨s', ?_⟩
    simp only [Chain.exec, Chain.claimProtocolCreationFee]
    rw [(req_ok (u := ())).2 trivial, ok_bind]
    exact e
  | createLocker x h1 =>
    have hs : w.createLocker = .ok w1 := hs
    have kp := o.keeps (Keeps.refl s) (w1.escrowFor w.pool.creator)
    have hcr : w.pool.creator = pa.state.creator := by
      obtain ⟨pa', _, _, _, _, hp', _, e⟩ := h.inv.open hv
      rw [hp] at hp'
      cases hp'
      rw [e]; rfl
    simp only [Chain.exec, Chain.createLocker]
    rw [hpn, ok_bind, o.load, ok_bind,
      (req_ok (u := ())).2 ⟨by rw [o.eq], by rw [o.eq, hcr], by rw [o.eq], by rw [o.eq]⟩, ok_bind,
      (req_ok (u := ())).2 o.wired.baseMint, ok_bind, o.lw, hs, ok_bind]
    exact one_goes _ (kp.mint _ o.base) (kp.takes h1)
  | migrateV1 v x y h1 h2 =>
    have hs : w.migrateV1 v = .ok w1 := hs
    obtain ⟨md, _, md', _, _, hmd, _, _, _, _, _, _, _, _, _, _, _, _, _, e⟩ := migrateV1_ok hs
    have hmd' : need w1.dammMeta = .ok md' := need_ok.2 (by rw [e])
    have hmn : need (s.metas (K.metaPda P)) = .ok ⟨P, md⟩ := need_ok.2 (meta_at (by rw [← hdm]; exact hmd))
    simp only [Chain.exec, Chain.migrateV1]
    rw [hmn, ok_bind, ldm md hmd, ok_bind, (req_ok (u := ())).2 ⟨by rw [o.eq], by rw [o.eq], by rw [o.eq]⟩, ok_bind,
      (req_ok (u := ())).2 rfl, ok_bind, o.lw, hs, ok_bind, hmd', ok_bind, o.wired.baseMint, o.wired.quoteMint, o.cfg]
    exact two_go _ _ (kp.mint _ o.base) (kp.mint _ o.quoteMint) (kp.takes h1) (kp.takes h2)
  | migrateV2 v x y h1 h2 =>
    have hs : w.migrateV2 v = .ok w1 := hs
    simp only [Chain.exec, Chain.migrateV2]
    rw [o.load, ok_bind, (req_ok (u := ())).2 ⟨by rw [o.eq], by rw [o.eq], by rw [o.eq]⟩, ok_bind,
      (req_ok (u := ())).2 ⟨o.wired.baseMint, by rw [o.wired.quoteMint, o.cfg]⟩, ok_bind, o.lw, hs, ok_bind]
    exact two_go _ _ (kp.mint _ o.base) (kp.mint _ o.quoteMint) (kp.takes h1) (kp.takes h2)
  | withdrawLeftover r h1 =>
    have hs : w.withdrawLeftover r = .ok w1 := hs
    simp only [Chain.exec, Chain.withdrawLeftover]
    rw [hpn, ok_bind, o.load, ok_bind, (req_ok (u := ())).2 ⟨by rw [o.eq], by rw [o.eq], by rw [o.eq]⟩, ok_bind,
      ata_goes h1, ok_bind, (req_ok (u := ())).2 o.wired.baseMint, ok_bind, o.lw, hs, ok_bind]
    exact one_goes _ (kp.mint _ o.base) ⟨_, kp.acc _ _ _ h1⟩
  | createMeta =>
    have hs : w.createMeta = .ok w1 := hs
    obtain ⟨hmd, _, e⟩ := createMeta_ok hs
    have hno : s.metas (K.metaPda P) = none := by
      cases hm : s.metas (K.metaPda P) with
      | none => rfl
      | some m =>
        have := hK _ _ (h.inv.metas _ _ hm).1
        rw [hdm] at hmd
        unfold Chain.ownMeta at hmd
        rw [hm] at hmd
        dsimp only at hmd
        rw [if_pos this.symm] at hmd
        cases hmd
    have hmd' : need w1.dammMeta = .ok ⟨w.cfg.feeClaimer, 0, 0, 0, 0, 0, 0, 0, 0⟩ := need_ok.2 (by rw [e])
    have ld : s.load P pa.config pa.baseVault pa.quoteVault none = .ok l := by rw [← hmd, hdm]; exact o.load
    simp only [Chain.exec, Chain.createMeta]
    rw [hpn, ok_bind, (req_ok (u := ())).2 ⟨trivial, hno⟩, ok_bind, ld, ok_bind, (req_ok (u := ())).2 (by rw [o.eq]), ok_bind,
      o.lw, hs, ok_bind, hmd', ok_bind]
    exact ⟨_, rfl⟩
  | lockLp ow =>
    have hs : w.lockLp ow = .ok w1 := hs
    obtain ⟨_, md, _, md', hmd, _, _, e⟩ := lockLp_ok hs
    have hmd' : need w1.dammMeta = .ok md' := need_ok.2 (by rw [e])
    have hmn : need (s.metas (K.metaPda P)) = .ok ⟨P, md⟩ := need_ok.2 (meta_at (by rw [← hdm]; exact hmd))
    simp only [Chain.exec, Chain.lpOut]
    rw [hpn, ok_bind, hmn, ok_bind, ldm md hmd, ok_bind, (req_ok (u := ())).2 rfl, ok_bind, o.lw, hs, ok_bind, hmd', ok_bind]
    exact ⟨_, rfl⟩
  | claimLp ow =>
    have hs : w.claimLp ow = .ok w1 := hs
    obtain ⟨_, md, _, md', hmd, _, _, e⟩ := claimLp_ok hs
    have hmd' : need w1.dammMeta = .ok md' := need_ok.2 (by rw [e])
    have hmn : need (s.metas (K.metaPda P)) = .ok ⟨P, md⟩ := need_ok.2 (meta_at (by rw [← hdm]; exact hmd))
    simp only [Chain.exec, Chain.lpOut]
    rw [hpn, ok_bind, hmn, ok_bind, ldm md hmd, ok_bind, (req_ok (u := ())).2 rfl, ok_bind, o.lw, hs, ok_bind, hmd', ok_bind]
    exact ⟨_, rfl⟩
  | transferCreator g n =>
    have hs : w.transferCreator g n = .ok w1 := hs
    simp only [Chain.exec, Chain.transferCreator]
    rw [hpn, ok_bind]
    refine ⟨s.save P pa.baseVault pa.quoteVault l w1, Eq.trans (b := do
      let l ← s.load P pa.config pa.baseVault pa.quoteVault (s.ownMeta K P)
      let _ ← req (l.pa.config = pa.config) .external
      let w ← l.w.transferCreator g n
      .ok (s.save P pa.baseVault pa.quoteVault l w)) ?_ ?_⟩
    · unfold Chain.ownMeta
      cases s.metas (K.metaPda P) <;> rfl
    · rw [o.load, ok_bind, (req_ok (u := ())).2 (by rw [o.eq]), ok_bind, o.lw, hs, ok_bind]

theorem correct_typed {K : Keys} {s : Chain} {P : Nat} {pa : PoolAcc} {w w1 : World} {op : Op} {ix : Instr}
    (hc : Correct K s P pa w w1 op ix) : ix.Typed := by
  cases hc <;> trivial

theorem correct_did {K : Keys} {s s' : Chain} {P : Nat} {pa : PoolAcc} {w w1 : World} {op : Op} {ix : Instr}
    (h : Arises K s) (hp : s.pools P = some pa) (hv : s.view K P = some w)
    (hc : Correct K s P pa w w1 op ix) (hx : s.exec K ix = .ok s') : Did K s s' P op := by
  have i := h.inv
  obtain ⟨l, bm, o⟩ := own_of i hp hv
  have hd : pa.baseMint ≠ w.cfg.quoteMint := by rw [← o.cfg]; exact o.wired.diff
  have gen : (∀ op', Asks ix op' → op' = op) → addressee ix = some P → Did K s s' P op := by
    intro hop had
    rcases (exec_step i (correct_typed hc) hx).2 with ⟨Q, op', hq, has, hdid⟩ | ⟨hn, -⟩ | ⟨a, e, -⟩
    · rw [had] at hq
      cases hq
      rw [← hop op' has]
      exact hdid
    · rw [had] at hn; cases hn
    · subst e; cases had
  cases hc with
  | swap x src dst payer n ref h1 h2 h3 h4 h5 h6 h7 =>
    obtain ⟨m, -, hdid, hm⟩ := swap_did i hx
    obtain ⟨t, ht, e, -⟩ := h2
    dsimp only at hm hdid
    rw [ht] at hm
    have hm : t.mint = m := by simpa using hm
    have hdir : swapDir m pa.baseMint = x.dir := by
      rw [← hm, e]
      unfold swapDir
      cases hx : x.dir with
      | baseToQuote => exact if_pos rfl
      | quoteToBase => exact if_neg (fun e => hd e.symm)
    simp only [SwapIx.args, hdir, ← h6] at hdid
    exact hdid
  | zapProtocolFee g x z ok t h1 h2 h3 =>
    obtain ⟨ib, ok', -, hdid, ⟨pa', hp', e1⟩, e2⟩ := zapProtocolFee_did i hx
    rw [hp] at hp'
    cases hp'
    have e3 : ib = decide (t = .base) := by
      rw [e1]
      cases t with
      | base => exact decide_eq_true rfl
      | quote => exact decide_eq_false (fun e => hd e.symm)
    have e4 : ok' = ok := by
      rw [e2]
      cases hk : ok
      · rw [hk] at h1
        exact decide_eq_false (fun hn => by have := h1.2 hn; cases this)
      · exact decide_eq_true (h1.1 hk)
    rw [e3, e4] at hdid
    exact hdid
  | _ => exact gen (fun op' ha => by cases ha; rfl) rfl

/-- C68: whatever else there is on chain, an instruction goes through if its operation is one the pool, taken alone, allows
and it is made out correctly: the pool's own accounts, receivers that exist, and in a swap a payer who holds what the trade
costs. It then does to the pool what it does to the pool alone, apart from what the pool pays to its own vaults when these are
named as receivers. The addresses derived for metadata accounts are assumed different for different pools. -/
theorem C68_goes_through {K : Keys} {s : Chain} {P : Nat} {pa : PoolAcc} {w w1 : World} {op : Op} {ix : Instr}
    (h : Arises K s) (hK : ∀ P Q, K.metaPda P = K.metaPda Q → P = Q) (hp : s.pools P = some pa) (hw : Shows s P w)
    (hm : ShowsMeta K s P w) (hs : w.step op = .ok w1) (hc : Correct K s P pa w w1 op ix) :
    ∃ s' w' gifts, s.exec K ix = .ok s' ∧ (∀ o ∈ gifts, Gift o) ∧ Run w1 gifts w' ∧ Shows s' P w' ∧ ShowsMeta K s' P w' := by
  obtain ⟨s', hx⟩ := exec_goes h hK hp hw hm hs hc
  have hv := view_of_shows h hw hm
  obtain ⟨-, ⟨w0, w2, w', e1, e2, ⟨ops, g, r⟩, e4⟩, -⟩ := correct_did h hp hv hc hx
  rw [hv] at e1
  cases e1
  rw [hs, ok_inj] at e2
  subst e2
  exact ⟨s', w', ops, hx, g, r, view_shows e4, view_showsMeta (h.step (correct_typed hc) hx).inv e4⟩

/-! ## C69 -/

theorem fed_frame {w w' : World} (h : Fed w w') : w'.pool = w.pool ∧ w'.cfg = w.cfg ∧ w'.dammMeta = w.dammMeta := by
  obtain ⟨ops, g, r⟩ := h
  induction r with
  | nil => exact ⟨rfl, rfl, rfl⟩
  | @cons w w1 w' op ops hs hr ih =>
    obtain ⟨e1, e2, e3⟩ := ih (fun o ho => g o (List.mem_cons_of_mem _ ho))
    have hg := g op (List.mem_cons_self ..)
    cases op with
    | donate b q l =>
      obtain ⟨-, -, e⟩ := donate_ok hs
      rw [e1, e2, e3, e]
      exact ⟨rfl, rfl, rfl⟩
    | _ => cases hg

theorem fresh (ts : List (Nat × TokenAcc)) : ∃ k, getTok ts k = none := by
  have key : ∃ b, ∀ k, b ≤ k → getTok ts k = none := by
    induction ts with
    | nil => exact ⟨0, fun _ _ => rfl⟩
    | cons x r ih =>
      obtain ⟨b, hb⟩ := ih
      refine ⟨max b (x.1 + 1), fun k hk => ?_⟩
      obtain ⟨y, t⟩ := x
      rw [getTok_cons, if_neg (by dsimp only at hk; omega)]
      exact hb k (by omega)
  obtain ⟨b, hb⟩ := key
  exact ⟨b, hb b le_rfl⟩

/-- Instructions that anyone can send lead from `s` to `s'`. -/
def Leads (K : Keys) (s s' : Chain) : Prop := ∃ ixs, (∀ ix ∈ ixs, Anyones ix) ∧ ChainRun K s ixs s'

theorem Leads.refl (K : Keys) (s : Chain) : Leads K s s := ⟨[], fun _ h => (nomatch h), .nil s⟩
theorem Leads.step {K : Keys} {s s1 s2 : Chain} {ix : Instr} (h : Leads K s s1) (ha : Anyones ix) (ht : ix.Typed)
    (hx : s1.exec K ix = .ok s2) : Leads K s s2 := by
  obtain ⟨ixs, g, r⟩ := h
  refine ⟨ixs ++ [ix], fun i hi => ?_, .snoc r ht hx⟩
  rcases List.mem_append.1 hi with hi | hi
  · exact g i hi
  · rw [List.mem_singleton.1 hi]; exact ha
theorem _root_.Spec.Arises.leads {K : Keys} {s s' : Chain} (h : Arises K s) (l : Leads K s s') : Arises K s' := by
  obtain ⟨ixs, -, r⟩ := l
  induction r with
  | nil => exact h
  | snoc r ht hx ih => exact Arises.step ih ht hx

/-- Somebody opens a token account. -/
theorem account_opens {K : Keys} {s0 s : Chain} {m : Nat} (h : Arises K s) (l : Leads K s0 s) (hm : s.mints m ≠ none) :
    ∃ k s1, Leads K s0 s1 ∧ Arises K s1 ∧ (∀ Q, s1.view K Q = s.view K Q) ∧ s1.pools = s.pools ∧ Keeps s s1 ∧ Takes s1 k m := by
  obtain ⟨k, hk⟩ := fresh s.tokens
  cases hmm : s.mints m with
  | none => exact absurd hmm hm
  | some mt =>
    have hx : s.exec K (.newAccount k m 0) = .ok { s with tokens := (k, ⟨m, 0, 0⟩) :: s.tokens } := by
      simp only [Chain.exec, Chain.newAccount]
      rw [(req_ok (u := ())).2 hk, ok_bind, need_ok.2 hmm, ok_bind]
    obtain ⟨_, -, hsame⟩ := newAccount_same h.inv hx
    refine ⟨k, _, l.step (ix := .newAccount k m 0) trivial trivial hx, h.step (ix := .newAccount k m 0) trivial hx, hsame, rfl,
      ⟨fun x y z ⟨t, ht, a, b⟩ => ⟨t, ?_, a, b⟩, fun _ h => h⟩, 0, ⟨m, 0, 0⟩, ?_, rfl, rfl⟩
    · dsimp only
      rw [getTok_cons, if_neg (fun e => by rw [← e, hk] at ht; cases ht)]
      exact ht
    · dsimp only
      rw [getTok_cons, if_pos rfl]

/-- Where things stand on the way: anyone's instructions lead to `s1`, which shows pool `P` as `w`. -/
structure At (K : Keys) (s s1 : Chain) (P : Nat) (w : World) : Prop where
  leads : Leads K s s1
  arises : Arises K s1
  view : s1.view K P = some w

theorem At.reach {K : Keys} {s s1 : Chain} {P : Nat} {w : World} (a : At K s s1 P w) : Reachable w := a.arises.reach a.view

/-- One more operation of the pool. -/
theorem At.go {K : Keys} {s s1 : Chain} {P : Nat} {w w1 : World} {op : Op} (a : At K s s1 P w)
    (hK : ∀ P Q, K.metaPda P = K.metaPda Q → P = Q) (hs : w.step op = .ok w1)
    (hc : ∀ s2 pa x y, s2.pools P = some pa → Takes s2 x pa.baseMint → Takes s2 y w.cfg.quoteMint →
      ∃ ix, Correct K s2 P pa w w1 op ix ∧ Anyones ix) :
    ∃ s2 w2, At K s s2 P w2 ∧ Fed w1 w2 := by
  obtain ⟨pa, hp⟩ := view_pool a.view
  obtain ⟨l, bm, o⟩ := own_of a.arises.inv hp a.view
  obtain ⟨x, sx, l1, a1, v1, p1, k1, t1⟩ := account_opens a.arises a.leads o.base
  obtain ⟨y, sy, l2, a2, v2, p2, k2, t2⟩ := account_opens a1 l1 (k1.mint _ o.quoteMint)
  have hp2 : sy.pools P = some pa := by rw [p2, p1]; exact hp
  have hv2 : sy.view K P = some w := by rw [v2, v1]; exact a.view
  obtain ⟨ix, hcor, han⟩ := hc sy pa x y hp2 (k2.takes t1) t2
  obtain ⟨s', w', ops, hx, g, r, sh, shm⟩ := C68_goes_through a2 hK hp2 (view_shows hv2) (view_showsMeta a2.inv hv2) hs hcor
  have a3 := a2.step (correct_typed hcor) hx
  exact ⟨s', w', ⟨l2.step han (correct_typed hcor) hx, a3, view_of_shows a3 sh shm⟩, ops, g, r⟩

theorem At.ready {K : Keys} {s s1 : Chain} {P : Nat} {w : World} (a : At K s s1 P w)
    (hK : ∀ P Q, K.metaPda P = K.metaPda Q → P = Q) (h2 : phase w = some .ready) :
    ∃ s2 w2, At K s s2 P w2 ∧ phase w2 = some .migrated := by
  have h := a.reach
  have ho := h.migCfg.option
  have fin : ∀ {w1 w2 : World}, phase w1 = some .migrated → Fed w1 w2 → phase w2 = some .migrated := by
    intro w1 w2 h1 f
    unfold phase at h1 ⊢
    rw [(fed_frame f).1]
    exact h1
  by_cases h1 : w.cfg.migrationOption = 1
  · obtain ⟨v, w1, hw⟩ := ready_v2 h h2 h1
    obtain ⟨s2, w2, b, f⟩ := a.go hK hw (fun s2 pa x y _ hx hy => ⟨_, .migrateV2 v x y hx hy, trivial⟩)
    exact ⟨s2, w2, b, fin (migrated_of h rfl hw) f⟩
  · have h0 : w.cfg.migrationOption = 0 := by omega
    have last : ∀ {s1 : Chain} {w : World}, At K s s1 P w → phase w = some .ready → w.cfg.migrationOption = 0 →
        w.dammMeta ≠ none → ∃ s2 w2, At K s s2 P w2 ∧ phase w2 = some .migrated := by
      intro s1 w a h2 h0 hmd
      obtain ⟨v, w1, hw⟩ := ready_v1 a.reach h2 h0 hmd
      obtain ⟨s2, w2, b, f⟩ := a.go hK hw (fun s2 pa x y _ hx hy => ⟨_, .migrateV1 v x y hx hy, trivial⟩)
      exact ⟨s2, w2, b, fin (migrated_of a.reach rfl hw) f⟩
    by_cases hmd : w.dammMeta = none
    · obtain ⟨w1, hw1⟩ := ready_meta h0 hmd
      obtain ⟨s2, w2, b, f⟩ := a.go hK hw1 (fun s2 pa x y _ _ _ => ⟨_, .createMeta, trivial⟩)
      obtain ⟨_, _, e⟩ := createMeta_ok hw1
      obtain ⟨f1, f2, f3⟩ := fed_frame f
      refine last b ?_ (by rw [f2, e]; exact h0) (by rw [f3, e]; simp)
      unfold phase at h2 ⊢
      rw [f1, e]
      exact h2
    · exact last a h2 h0 hmd

/-- C69: whatever else is going on on chain, a pool whose curve is complete can be migrated by instructions that anyone can
send: opening token accounts, setting up the locked vesting, creating the metadata account, migrating. -/
theorem C69_never_stuck {K : Keys} {s : Chain} {P : Nat} {w : World} (h : Arises K s)
    (hK : ∀ P Q, K.metaPda P = K.metaPda Q → P = Q) (hw : Shows s P w) (hc : Completed w) :
    ∃ ixs s' w', (∀ ix ∈ ixs, Anyones ix) ∧ ChainRun K s ixs s' ∧ Shows s' P w' ∧ phase w' = some .migrated := by
  suffices hgo : ∃ s2 w2, At K s s2 P w2 ∧ phase w2 = some .migrated by
    obtain ⟨s2, w2, ⟨⟨ixs, g, r⟩, -, hv⟩, hp⟩ := hgo
    exact ⟨ixs, s2, w2, g, r, view_shows hv, hp⟩
  obtain ⟨pa, hp, a1, _, _, a4, _⟩ := hw.acc
  obtain ⟨w0, hv⟩ := view_some h.inv hp
  obtain ⟨pa', hp', b1, _, _, b4, _⟩ := (view_shows hv).acc
  rw [hp] at hp'
  cases hp'
  rw [a4] at b4
  have ep : w.pool = w0.pool := by rw [a1, b1]
  have ec : w.cfg = w0.cfg := Option.some.inj b4
  have hc : Completed w0 := by unfold Completed at hc ⊢; rw [← ep, ← ec]; exact hc
  have a : At K s s P w0 := ⟨.refl K s, h, hv⟩
  have hr := a.reach
  have hp := hr.life.prog
  have hc := (completed_iff hr).1 hc
  have : w0.pool.migrationProgress = 1 ∨ w0.pool.migrationProgress = 2 ∨ w0.pool.migrationProgress = 3 := by omega
  rcases this with h1 | h2 | h3
  · obtain ⟨w1, hw1⟩ := createLocker_succeeds hr.solvent h1
    have hs : w0.step .createLocker = .ok w1 := hw1
    obtain ⟨-, -, e⟩ := createLocker_ok hw1
    obtain ⟨s2, w2, b, f⟩ := a.go hK hs (fun s2 pa x y _ hx _ => ⟨_, .createLocker x hx, trivial⟩)
    refine b.ready hK ((phase_eq b.reach .ready).2 ?_)
    rw [(fed_frame f).1, e]
    rfl
  · exact a.ready hK ((phase_eq hr .ready).2 h2)
  · exact ⟨s, w0, a, (phase_eq hr .migrated).2 h3⟩

/-- What somebody other than the pool authority holds exists besides what is in the pool's vault. -/
theorem holder_room {K : Keys} {s : Chain} {P : Nat} {pa : PoolAcc} {w : World} (h : Arises K s) (hp : s.pools P = some pa)
    (hw : Shows s P w) {src payer n : Nat} {t : Token} (hpay : payer ≠ K.authority)
    (hsrc : IsAccount s src (mintOf pa w.cfg t) payer) (hn : balance s src = some n) :
    vault w t + n ≤ match t with
      | .base => w.supply
      | .quote => u64Max := by
  obtain ⟨pa', hp', a1, a2, a3, a4, a5, a6, a7, -⟩ := hw.acc
  rw [hp] at hp'
  cases hp'
  obtain ⟨c, bv, qv, bm, wi⟩ := h.inv.wired P pa hp
  rw [wi.cfg] at a4
  cases a4
  obtain ⟨u, hu, hum, huo⟩ := hsrc
  unfold balance at hn a5 a6
  rw [hu] at hn
  rw [wi.base] at a5
  rw [wi.quote] at a6
  rw [wi.mint] at a7
  simp only [Option.map_some, Option.some.injEq] at hn a5 a6 a7
  cases t with
  | base =>
    have hne : pa.baseVault ≠ src := fun e => by
      rw [← e, wi.base] at hu
      cases hu
      exact hpay (huo.symm.trans wi.baseOwner)
    have h1 := held_two wi.base hu hne (hum.trans wi.baseMint.symm)
    have h2 := (h.inv.supply _ _ wi.mint).1
    rw [wi.baseMint] at h1
    show w.baseVault + n ≤ w.supply
    simp only [still] at h2
    omega
  | quote =>
    have hne : pa.quoteVault ≠ src := fun e => by
      rw [← e, wi.quote] at hu
      cases hu
      exact hpay (huo.symm.trans wi.quoteOwner)
    have h1 := held_two wi.quote hu hne (hum.trans wi.quoteMint.symm)
    obtain ⟨-, m, hm, -⟩ := h.inv.cfg _ _ wi.cfg
    have h2 := h.inv.supply _ _ hm
    rw [wi.quoteMint] at h1
    show w.quoteVault + n ≤ u64Max
    simp only [still] at h2
    omega

/-- What a pool shows beside its metadata account is what it shows with it. -/
theorem shows_frame {K : Keys} {s : Chain} {P : Nat} {w : World} (h : Arises K s) (hw : Shows s P w) :
    ∃ w0, s.view K P = some w0 ∧ Shows s P w0 ∧ ShowsMeta K s P w0 ∧ w = { w0 with dammMeta := w.dammMeta } := by
  obtain ⟨pa, hp, a1, a2, a3, a4, a5, a6, a7, a8, a9, a10, a11, a12, a13, a14, a15⟩ := hw.acc
  obtain ⟨w0, hv⟩ := view_some h.inv hp
  have hs := view_shows hv
  obtain ⟨pa', hp', b1, b2, b3, b4, b5, b6, b7, b8, b9, b10, b11, b12, b13, b14, b15⟩ := hs.acc
  rw [hp] at hp'
  cases hp'
  refine ⟨w0, hv, hs, view_showsMeta h.inv hv, ?_⟩
  have e0 := hw.key.trans hs.key.symm
  have e1 := a1.trans b1.symm
  have e2 := a2.trans b2.symm
  have e3 := a3.trans b3.symm
  have e4 := Option.some.inj (a4.symm.trans b4)
  have e5 := Option.some.inj (a5.symm.trans b5)
  have e6 := Option.some.inj (a6.symm.trans b6)
  have e7 := Option.some.inj (a7.symm.trans b7)
  have e8 := Option.some.inj (a8.symm.trans b8)
  have e9 := a9.trans b9.symm
  have e10 := a10.trans b10.symm
  have e11 := a11.trans b11.symm
  have e12 := a12.trans b12.symm
  have e13 := a13.trans b13.symm
  have e14 := a14.trans b14.symm
  have e15 := a15.trans b15.symm
  have e16 := hw.operators.trans hs.operators.symm
  have e17 := hw.admins.trans hs.admins.symm
  clear hv hs hw a1 a2 a3 a4 a5 a6 a7 a8 a9 a10 a11 a12 a13 a14 a15 b1 b2 b3 b4 b5 b6 b7 b8 b9 b10 b11 b12 b13 b14 b15
  cases w
  cases w0
  simp only at e0 e1 e2 e3 e4 e5 e6 e7 e8 e9 e10 e11 e12 e13 e14 e15 e16 e17 ⊢
  subst e0 e1 e2 e3 e4 e5 e6 e7 e8 e9 e10 e11 e12 e13 e14 e15 e16 e17
  rfl

/-- The swap instruction of a pool. -/
def swapIx (P : Nat) (pa : PoolAcc) (c : PoolConfig) (x : SwapArgs) (src dst payer : Nat) : Instr :=
  .swap ⟨P, pa.config, pa.baseVault, pa.quoteVault, pa.baseMint, c.quoteMint, src, dst, none, payer, x.mode, x.amount0,
    x.amount1, x.clk, x.tx⟩

/-- C69, completing the curve: as long as the curve of a pool is not complete, anybody who holds a hundred times what it still
lacks (and inside the window of a rate limiter a millionth and 30300 units more) completes it with one partial-fill buy, whatever
else is going on on chain. That the vault has room for the tokens need not be assumed: they exist. -/
theorem C69_completable {K : Keys} {s : Chain} {P : Nat} {pa : PoolAcc} {w : World} {x : SwapArgs} {src dst payer n X : Nat}
    (h : Arises K s) (hK : ∀ P Q, K.metaPda P = K.metaPda Q → P = Q) (hp : s.pools P = some pa) (hw : Shows s P w)
    (hinc : ¬ Completed w) (hpay : payer ≠ K.authority) (hsrc : IsAccount s src w.cfg.quoteMint payer)
    (hn : balance s src = some n) (hdst : Takes s dst pa.baseMint)
    (hm : x.mode = 1) (hd : x.dir = .quoteToBase) (href : x.referral = false) (hmin : x.amount1 = 0)
    (hx : 100 * (w.cfg.migrationQuoteThreshold - w.pool.quoteReserve) ≤ x.amount0) (hX : Covers w x X) (hXn : X ≤ n)
    (ho : Ordinary w x) (hc : CountersFit w X) :
    ∃ s' w', s.exec K (swapIx P pa w.cfg x src dst payer) = .ok s' ∧ Shows s' P w' ∧ Completed w' := by
  obtain ⟨w0, hv, hs, hsm, e⟩ := shows_frame h hw
  have ec : w.cfg = w0.cfg := by rw [e]
  have ep : w.pool = w0.pool := by rw [e]
  have room := holder_room (t := .quote) h hp hs hpay (by rw [← ec]; exact hsrc) hn
  have room : w0.quoteVault + n ≤ u64Max := room
  rw [e] at hX ho hc
  have hX : Covers w0 x X := ⟨hX.offer, fun l => hX.limited ⟨l.limiter, l.configured, l.buy, l.inWindow⟩⟩
  have ho : Ordinary w0 x := ⟨ho.active, ho.clock, fun l =>
    let al := ho.alone ⟨l.limiter, l.configured, l.buy, l.inWindow⟩
    ⟨al.sysvar, al.top, al.others, al.own⟩⟩
  have hc : CountersFit w0 X := ⟨hc.base, hc.quote⟩
  rw [ec, ep] at hx
  have hinc : w0.pool.quoteReserve < w0.cfg.migrationQuoteThreshold := by
    unfold Completed at hinc
    rw [ec, ep] at hinc
    omega
  obtain ⟨w1, h1, h2, h3, h4⟩ := C46_completable (h.reach hv) hinc hm hd hmin hx hX (by omega) ho hc
  have cor : Correct K s P pa w0 w1 (.swap x) (swapIx P pa w0.cfg x src dst payer) := by
    refine .swap x src dst payer n none hpay ?_ hn ?_ ?_ href (fun k hk => by cases hk)
    · rw [hd, ← ec]; exact hsrc
    · rw [hd]
      show traderIn w1 .quote ≤ traderIn w0 .quote + n
      omega
    · rw [hd]; exact hdst
  obtain ⟨s', w', gifts, g1, g2, g3, g4, -⟩ := C68_goes_through h hK hp hs hsm h1 cor
  rw [ec]
  refine ⟨s', w', g1, g4, ?_⟩
  obtain ⟨f1, f2, -⟩ := fed_frame ⟨gifts, g2, g3⟩
  unfold Completed
  rw [f1, f2]
  exact h2

/-- C69, selling back: as long as the curve is not complete, whoever holds base tokens taken out of the pool sells any part of
them in one exact-input swap, whatever else is going on on chain. -/
theorem C69_sell_back {K : Keys} {s : Chain} {P : Nat} {pa : PoolAcc} {w : World} {x : SwapArgs} {src dst payer n : Nat}
    (h : Arises K s) (hK : ∀ P Q, K.metaPda P = K.metaPda Q → P = Q) (hp : s.pools P = some pa) (hw : Shows s P w)
    (hinc : ¬ Completed w) (hpay : payer ≠ K.authority) (hsrc : IsAccount s src pa.baseMint payer)
    (hn : balance s src = some n) (hdst : Takes s dst w.cfg.quoteMint)
    (hm : x.mode = 0) (hd : x.dir = .baseToQuote) (href : x.referral = false) (hmin : x.amount1 = 0) (hpos : 0 < x.amount0)
    (hx : traderIn w .base + x.amount0 ≤ traderOut w .base + referrals w .base) (hXn : x.amount0 ≤ n)
    (hcur : ∃ cur, currentPoint w.cfg.activationType x.clk = .ok cur ∧ w.pool.activationPoint ≤ cur)
    (hclk : w.pool.hasSwap = 1 ∨ w.cfg.fees.dyn.filterPeriod ≤ x.clk.time) (hfit : CountersFit w 0) :
    ∃ s' w', s.exec K (swapIx P pa w.cfg x src dst payer) = .ok s' ∧ Shows s' P w' ∧
      traderIn w' .base = traderIn w .base + x.amount0 := by
  obtain ⟨w0, hv, hs, hsm, e⟩ := shows_frame h hw
  have ec : w.cfg = w0.cfg := by rw [e]
  have ep : w.pool = w0.pool := by rw [e]
  have room : w0.baseVault + n ≤ w0.supply := holder_room (t := .base) h hp hs hpay hsrc hn
  rw [e] at hfit hx ⊢
  have hfit : CountersFit w0 0 := ⟨hfit.base, hfit.quote⟩
  have hx : traderIn w0 .base + x.amount0 ≤ traderOut w0 .base + referrals w0 .base := hx
  rw [ec] at hcur hclk hdst
  rw [ep] at hcur hclk
  have hinc : w0.pool.quoteReserve < w0.cfg.migrationQuoteThreshold := by
    unfold Completed at hinc
    rw [ec, ep] at hinc
    omega
  obtain ⟨w1, h1⟩ := C53_sell_back (h.reach hv) hinc hm hd hmin hpos hx (by omega) hcur hclk hfit
  have hpd : traderIn w1 .base = traderIn w0 .base + x.amount0 := by
    obtain ⟨cur, fm, r, v1, v2, st⟩ := swap_ok h1
    have hpaid := (Props.SwapStep.observed st).paid (inToken x.dir)
    rw [inTok_self, hd] at hpaid
    have : (tradeOf w0.cfg fm r).paid = r.includedIn := rfl
    rw [this, ((processSwap_charge st.proc).mode0 hm).1] at hpaid
    exact hpaid
  have cor : Correct K s P pa w0 w1 (.swap x) (swapIx P pa w0.cfg x src dst payer) := by
    refine .swap x src dst payer n none hpay ?_ hn ?_ ?_ href (fun k hk => by cases hk)
    · rw [hd]; exact hsrc
    · rw [hd]
      show traderIn w1 .base ≤ traderIn w0 .base + n
      omega
    · rw [hd]; exact hdst
  obtain ⟨s', w', gifts, g1, g2, g3, g4, -⟩ := C68_goes_through h hK hp hs hsm h1 cor
  refine ⟨s', w', g1, g4, ?_⟩
  have key : ∀ {w w' : World} {ops : List Op}, Run w ops w' → (∀ o ∈ ops, Gift o) → traderIn w' .base = traderIn w .base := by
    intro w w' ops r
    induction r with
    | nil => intro _; rfl
    | @cons w w1 w' op ops hs hr ih =>
      intro g
      rw [ih (fun o ho => g o (List.mem_cons_of_mem _ ho))]
      have hg := g op (List.mem_cons_self ..)
      cases op with
      | donate b q l =>
        obtain ⟨-, -, e⟩ := donate_ok hs
        rw [e]
        rfl
      | _ => cases hg
  exact (key g3 g2).trans hpd

/-! Examples -/

/-- The pool at `P` as the example history shows it after `n` instructions. -/
def shown (n P : Nat) (h : ((stateAt n).view Ex.keys P).isSome = true) : World := ((stateAt n).view Ex.keys P).get h

theorem shown_view {n P : Nat} (h : ((stateAt n).view Ex.keys P).isSome = true) :
    (stateAt n).view Ex.keys P = some (shown n P h) := (Option.some_get h).symm

theorem metaPda_inj : ∀ P Q, Ex.keys.metaPda P = Ex.keys.metaPda Q → P = Q := fun P Q (h : P + 50000 = Q + 50000) => by omega

def poolAt (n P : Nat) (h : ((stateAt n).pools P).isSome = true) : PoolAcc := ((stateAt n).pools P).get h

theorem pool_at {n P : Nat} (h : ((stateAt n).pools P).isSome = true) :
    (stateAt n).pools P = some (poolAt n P h) := (Option.some_get h).symm

def after (w : World) (op : Op) : World :=
  match w.step op with
  | .ok w' => w'
  | .error _ => w

theorem after_ok {w : World} {op : Op} (h : (w.step op).isOk = true) : w.step op = .ok (after w op) := by
  unfold after
  cases hs : w.step op with
  | error e => rw [hs] at h; cases h
  | ok s' => rfl

theorem isAccount_of {s : Chain} {k m o : Nat} (h : ((getTok s.tokens k).map fun t => (t.mint, t.owner)) = some (m, o)) :
    IsAccount s k m o := by
  cases ht : getTok s.tokens k with
  | none => rw [ht] at h; cases h
  | some t =>
    rw [ht] at h
    simp only [Option.map_some, Option.some.injEq, Prod.mk.injEq] at h
    exact ⟨t, ht, h.1, h.2⟩

/-- The sale of the first pool's tokens for the seller's own quote account, as an operation. -/
def saleArgs : SwapArgs := ⟨0, 10000000000000, 0, .baseToQuote, false, ⟨170, 1000070⟩, Ex.txOf 200300⟩

/-- The buy of the first pool's remaining tokens. -/
def buyArgs : SwapArgs := ⟨1, 904842375004900, 0, .quoteToBase, false, ⟨1400, 1001300⟩, Ex.txOf 200300⟩

theorem shown23 : ((stateAt 23).view Ex.keys 200300).isSome = true := by decide +kernel
theorem pool23 : ((stateAt 23).pools 200300).isSome = true := by decide +kernel
theorem shown30 : ((stateAt 30).view Ex.keys 200300).isSome = true := by decide +kernel
theorem pool30 : ((stateAt 30).pools 200300).isSome = true := by decide +kernel
theorem shown31 : ((stateAt 31).view Ex.keys 200300).isSome = true := by decide +kernel
theorem shown34 : ((stateAt 34).view Ex.keys 200300).isSome = true := by decide +kernel
theorem pool34 : ((stateAt 34).pools 200300).isSome = true := by decide +kernel

/-- The sale by holder 21 is allowed by the pool and made out correctly, and so is a claim of the partner's fees in the migrated
pool. -/
theorem C68_example :
    Arises Ex.keys (stateAt 23) ∧ Shows (stateAt 23) 200300 (shown 23 200300 shown23) ∧
    ShowsMeta Ex.keys (stateAt 23) 200300 (shown 23 200300 shown23) ∧
    (∃ w1 ix, (shown 23 200300 shown23).step (.swap saleArgs) = .ok w1 ∧
      Correct Ex.keys (stateAt 23) 200300 (poolAt 23 200300 pool23) (shown 23 200300 shown23) w1 (.swap saleArgs) ix) ∧
    Arises Ex.keys (stateAt 34) ∧
    ∃ w1 ix, (shown 34 200300 shown34).step (.claimPartnerFee 11 1000 2000) = .ok w1 ∧
      Correct Ex.keys (stateAt 34) 200300 (poolAt 34 200300 pool34) (shown 34 200300 shown34) w1 (.claimPartnerFee 11 1000 2000) ix := by
  have h := arises_at 23 (by decide +kernel)
  have h' := arises_at 34 (by decide +kernel)
  exact ⟨h, view_shows (shown_view _), view_showsMeta h.inv (shown_view _),
    ⟨after (shown 23 200300 shown23) (.swap saleArgs), _, after_ok (by decide +kernel),
      .swap saleArgs 73 71 21 215602836879432 none (by decide) (isAccount_of (by decide +kernel)) (by decide +kernel)
        (by decide +kernel) ⟨21, isAccount_of (by decide +kernel)⟩ rfl (fun k hk => by cases hk)⟩, h',
    after (shown 34 200300 shown34) (.claimPartnerFee 11 1000 2000), _, after_ok (by decide +kernel),
      .claimPartnerFee 11 1000 2000 77 76 ⟨11, isAccount_of (by decide +kernel)⟩ ⟨11, isAccount_of (by decide +kernel)⟩⟩

/-- The first pool of the history is complete after 31 instructions, with the locked vesting still to be set up. -/
theorem C69_example : Arises Ex.keys (stateAt 31) ∧ Shows (stateAt 31) 200300 (shown 31 200300 shown31) ∧
    Completed (shown 31 200300 shown31) ∧ (shown 31 200300 shown31).pool.migrationProgress = 1 := by
  refine ⟨arises_at 31 (by decide +kernel), view_shows (shown_view _), ?_, ?_⟩ <;> decide +kernel

theorem buy_unlimited : ¬ LimitedBuy (shown 30 200300 shown30) buyArgs :=
  fun h => absurd h.limiter (by decide +kernel)

/-- After 30 instructions the curve lacks 9048423750049 quote tokens and holder 21 has a hundred times as many. -/
theorem C69_completable_example : Arises Ex.keys (stateAt 30) ∧ ¬ Completed (shown 30 200300 shown30) ∧
    IsAccount (stateAt 30) 71 (shown 30 200300 shown30).cfg.quoteMint 21 ∧ balance (stateAt 30) 71 = some 999045438256044 ∧
    Takes (stateAt 30) 73 (poolAt 30 200300 pool30).baseMint ∧
    100 * ((shown 30 200300 shown30).cfg.migrationQuoteThreshold - (shown 30 200300 shown30).pool.quoteReserve) ≤
      buyArgs.amount0 ∧ Covers (shown 30 200300 shown30) buyArgs 904842375004900 ∧ 904842375004900 ≤ 999045438256044 ∧
    Ordinary (shown 30 200300 shown30) buyArgs ∧ CountersFit (shown 30 200300 shown30) 904842375004900 := by
  refine ⟨arises_at 30 (by decide +kernel), by decide +kernel, isAccount_of (by decide +kernel), by decide +kernel,
    ⟨21, isAccount_of (by decide +kernel)⟩, by decide +kernel, ⟨by decide, fun h => absurd h buy_unlimited⟩, by decide,
    ⟨⟨1001300, by decide +kernel, by decide +kernel⟩, .inl (by decide +kernel), fun h => absurd h buy_unlimited⟩,
    ⟨by decide +kernel, by decide +kernel⟩⟩

theorem C69_sell_back_example : Arises Ex.keys (stateAt 23) ∧ ¬ Completed (shown 23 200300 shown23) ∧
    IsAccount (stateAt 23) 73 (poolAt 23 200300 pool23).baseMint 21 ∧ balance (stateAt 23) 73 = some 215602836879432 ∧
    Takes (stateAt 23) 71 (shown 23 200300 shown23).cfg.quoteMint ∧
    traderIn (shown 23 200300 shown23) .base + saleArgs.amount0 ≤
      traderOut (shown 23 200300 shown23) .base + referrals (shown 23 200300 shown23) .base ∧
    (∃ cur, currentPoint (shown 23 200300 shown23).cfg.activationType saleArgs.clk = .ok cur ∧
      (shown 23 200300 shown23).pool.activationPoint ≤ cur) ∧
    (shown 23 200300 shown23).pool.hasSwap = 1 ∧ CountersFit (shown 23 200300 shown23) 0 := by
  refine ⟨arises_at 23 (by decide +kernel), by decide +kernel, isAccount_of (by decide +kernel), by decide +kernel,
    ⟨21, isAccount_of (by decide +kernel)⟩, by decide +kernel, ⟨1000070, by decide +kernel, by decide +kernel⟩, by decide +kernel,
    ⟨by decide +kernel, by decide +kernel⟩⟩

end Props

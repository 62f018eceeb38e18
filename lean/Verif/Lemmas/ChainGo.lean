import Verif.Lemmas.ChainExec
import Verif.Props.Swap

/-!
# Instructions made out correctly go through
-/

namespace Dbc
open Spec

/-- Token accounts and mints of `s` are still there in `s'`. -/
structure Keeps (s s' : Chain) : Prop where
  acc : ∀ k m o, IsAccount s k m o → IsAccount s' k m o
  mint : ∀ m, s.mints m ≠ none → s'.mints m ≠ none

theorem Keeps.refl (s : Chain) : Keeps s s := ⟨fun _ _ _ h => h, fun _ h => h⟩
theorem Keeps.trans {s s1 s2 : Chain} (h : Keeps s s1) (h' : Keeps s1 s2) : Keeps s s2 :=
  ⟨fun k m o a => h'.acc k m o (h.acc k m o a), fun m a => h'.mint m (h.mint m a)⟩
theorem Keeps.takes {s s' : Chain} (h : Keeps s s') {k m : Nat} (t : Takes s k m) : Takes s' k m := by
  obtain ⟨o, t⟩ := t
  exact ⟨o, h.acc _ _ _ t⟩

theorem IsAccount.set {ts : List (Nat × TokenAcc)} {k : Nat} {t v : TokenAcc} (h : getTok ts k = some t)
    (h1 : v.mint = t.mint) (h2 : v.owner = t.owner) {x m o : Nat}
    (hx : ∃ t, getTok ts x = some t ∧ t.mint = m ∧ t.owner = o) :
    ∃ t, getTok (setTok ts k v) x = some t ∧ t.mint = m ∧ t.owner = o := by
  obtain ⟨u, hu, u1, u2⟩ := hx
  rw [getTok_setTok _ h]
  by_cases e : x = k
  · subst e
    rw [h] at hu
    cases hu
    exact ⟨v, if_pos rfl, h1.trans u1, h2.trans u2⟩
  · exact ⟨u, by rw [if_neg e]; exact hu, u1, u2⟩

theorem credit_goes {K : Keys} {s : Chain} {m d : Nat} (a : Nat) (hm : s.mints m ≠ none) (ht : Takes s d m) :
    ∃ s', s.credit K m d a = .ok s' ∧ Keeps s s' := by
  obtain ⟨o, t, ht, h1, -⟩ := ht
  cases hmm : s.mints m with
  | none => exact absurd hmm hm
  | some mt =>
    simp only [Chain.credit, Chain.give, bind_ok, need_ok, req_ok, ok_inj]
    refine ⟨_, ⟨mt, hmm, t, ht, (), h1, rfl⟩, fun k m' o h => ?_, fun m h => h⟩
    exact IsAccount.set (v := { t with amount := t.amount + (a - mt.short K m a) }) ht rfl rfl h

theorem debit_goes {K : Keys} {s : Chain} {g m k a n : Nat} (ha : IsAccount s k m g) (hg : g ≠ K.authority)
    (hn : balance s k = some n) (hle : a ≤ n) : ∃ s', s.debit K g m k a = .ok s' ∧ Keeps s s' := by
  obtain ⟨t, ht, h1, h2⟩ := ha
  unfold balance at hn
  rw [ht] at hn
  have hn : t.amount = n := by simpa using hn
  simp only [Chain.debit, bind_ok, need_ok, req_ok, ok_inj]
  refine ⟨_, ⟨t, ht, (), h1, (), ⟨h2, hg⟩, (), by omega, rfl⟩, fun k m o h => ?_, fun m h => h⟩
  exact IsAccount.set (v := { t with amount := t.amount - a }) ht rfl rfl h

theorem withhold_goes {K : Keys} {s : Chain} {m k : Nat} (a : Nat) (hm : s.mints m ≠ none) (ht : Takes s k m) :
    ∃ s', s.withhold K m k a = .ok s' ∧ Keeps s s' := by
  obtain ⟨o, t, ht, -, -⟩ := ht
  cases hmm : s.mints m with
  | none => exact absurd hmm hm
  | some mt =>
    simp only [Chain.withhold, bind_ok, need_ok, ok_inj]
    refine ⟨_, ⟨mt, hmm, t, ht, rfl⟩, fun k m' o h => ?_, fun m h => h⟩
    exact IsAccount.set (v := { t with amount := t.amount - mt.short K m a }) ht rfl rfl h

theorem ata_goes {K : Keys} {s : Chain} {o m : Nat} (h : IsAccount s (K.ata o m) m o) :
    s.validateAta K (K.ata o m) o m = .ok () := by
  obtain ⟨t, ht, -, h2⟩ := h
  simp only [Chain.validateAta, bind_ok, need_ok, req_ok]
  exact ⟨(), trivial, t, ht, h2⟩

theorem save_keeps {s : Chain} {P bk qk : Nat} {l : Loaded} {w : World} (h1 : IsAccount s bk l.bv.mint l.bv.owner)
    (h2 : IsAccount s qk l.qv.mint l.qv.owner) : Keeps s (s.save P bk qk l w) := by
  obtain ⟨b, hb, b1, b2⟩ := h1
  refine ⟨fun k m o h => ?_, fun m h => ?_⟩
  · obtain ⟨q, hq, q1, q2⟩ := IsAccount.set (v := { l.bv with amount := w.baseVault }) hb b1.symm b2.symm h2
    exact IsAccount.set (v := { l.qv with amount := w.quoteVault }) hq q1.symm q2.symm
      (IsAccount.set (v := { l.bv with amount := w.baseVault }) hb b1.symm b2.symm h)
  · unfold Chain.save
    dsimp only
    cases s.mints l.bv.mint with
    | none => exact h
    | some mt =>
      dsimp only
      unfold put
      by_cases e : m = l.bv.mint
      · rw [if_pos e]; exact fun h => (nomatch h)
      · rw [if_neg e]; exact h

/-- Everything a correctly addressed instruction relies on. -/
structure Own (K : Keys) (s : Chain) (P : Nat) (pa : PoolAcc) (w : World) (l : Loaded) (bm : MintAcc) : Prop where
  pool : s.pools P = some pa
  eq : l.pa = pa
  cfg : l.c = w.cfg
  lw : l.w = w
  wired : Wired K s pa l.c l.bv l.qv bm
  load : s.load P pa.config pa.baseVault pa.quoteVault (s.ownMeta K P) = .ok l
  quoteMint : s.mints w.cfg.quoteMint ≠ none

theorem Own.keeps {K : Keys} {s : Chain} {P : Nat} {pa : PoolAcc} {w : World} {l : Loaded} {bm : MintAcc}
    (o : Own K s P pa w l bm) {s1 : Chain} (k : Keeps s s1) (w1 : World) :
    Keeps s1 (s1.save P pa.baseVault pa.quoteVault l w1) :=
  save_keeps (k.acc _ _ _ ⟨_, o.wired.base, rfl, rfl⟩) (k.acc _ _ _ ⟨_, o.wired.quote, rfl, rfl⟩)

theorem Own.base {K : Keys} {s : Chain} {P : Nat} {pa : PoolAcc} {w : World} {l : Loaded} {bm : MintAcc}
    (o : Own K s P pa w l bm) : s.mints pa.baseMint ≠ none := by
  rw [o.wired.mint]; exact fun h => (nomatch h)

theorem own_of {K : Keys} {s : Chain} {P : Nat} {pa : PoolAcc} {w : World} (i : Inv K s still) (hp : s.pools P = some pa)
    (hw : s.view K P = some w) : ∃ l bm, Own K s P pa w l bm := by
  obtain ⟨pa', c, bv, qv, bm, hp', wi, e⟩ := i.open hw
  rw [hp] at hp'
  cases hp'
  have hc : c = w.cfg := by rw [e]; rfl
  obtain ⟨m, hm, -⟩ := (i.cfg _ _ wi.cfg).2
  refine ⟨⟨pa, c, bv, qv, w⟩, bm, hp, rfl, hc, rfl, wi, ?_, ?_⟩
  · simp only [Chain.load, bind_ok, need_ok, ok_inj]
    refine ⟨pa, hp, c, wi.cfg, bv, wi.base, qv, wi.quote, bm, by rw [wi.baseMint]; exact wi.mint, ?_⟩
    rw [e]
  · rw [← hc, hm]; exact fun h => (nomatch h)

/-- Two payments after writing back. -/
theorem two_go {K : Keys} {s : Chain} {m1 m2 x y : Nat} (a b : Nat) (h1 : s.mints m1 ≠ none) (h2 : s.mints m2 ≠ none)
    (t1 : Takes s x m1) (t2 : Takes s y m2) : ∃ s', (do
      let s ← s.credit K m1 x a
      s.credit K m2 y b) = .ok s' := by
  obtain ⟨s1, e1, k1⟩ := credit_goes (K := K) a h1 t1
  obtain ⟨s2, e2, -⟩ := credit_goes (K := K) b (k1.mint _ h2) (k1.takes t2)
  exact ⟨s2, by rw [e1, ok_bind]; exact e2⟩

theorem one_goes {K : Keys} {s : Chain} {m1 x : Nat} (a : Nat) (h1 : s.mints m1 ≠ none) (t1 : Takes s x m1) :
    ∃ s', s.credit K m1 x a = .ok s' := by
  obtain ⟨s1, e1, -⟩ := credit_goes (K := K) a h1 t1
  exact ⟨s1, e1⟩

theorem claimProtocolFee_goes {K : Keys} {s : Chain} {P : Nat} {pa : PoolAcc} {w w1 : World} {l : Loaded} {bm : MintAcc}
    (o : Own K s P pa w l bm) {g b q : Nat} (h : w.claimProtocolFee g b q = .ok w1)
    (h1 : w1.baseVault < w.baseVault → IsAccount s (K.ata K.treasury pa.baseMint) pa.baseMint K.treasury)
    (h2 : w1.quoteVault < w.quoteVault → IsAccount s (K.ata K.treasury w.cfg.quoteMint) w.cfg.quoteMint K.treasury) :
    ∃ s', s.claimProtocolFee K ⟨P, pa.config, pa.baseVault, pa.quoteVault, pa.baseMint, w.cfg.quoteMint,
      K.ata K.treasury pa.baseMint, K.ata K.treasury w.cfg.quoteMint⟩ g b q = .ok s' := by
  have kp := o.keeps (Keeps.refl s) w1
  have hb := o.base
  have hq := o.quoteMint
  unfold Chain.claimProtocolFee
  dsimp only
  rw [o.load, ok_bind, (req_ok (u := ())).2 (by rw [o.cfg]), ok_bind,
    (req_ok (u := ())).2 ⟨by rw [o.eq], by rw [o.eq], by rw [o.eq], by rw [o.eq]⟩, ok_bind,
    (req_ok (u := ())).2 ⟨o.wired.baseMint, by rw [o.wired.quoteMint, o.cfg]⟩, ok_bind, o.lw, h, ok_bind]
  generalize hs2 : s.save P pa.baseVault pa.quoteVault l w1 = s2 at kp ⊢
  obtain ⟨s3, e3, k3⟩ : ∃ s3, (if 0 < w.baseVault - w1.baseVault then do
      let _ ← s2.validateAta K (K.ata K.treasury pa.baseMint) K.treasury pa.baseMint
      s2.credit K pa.baseMint (K.ata K.treasury pa.baseMint) (w.baseVault - w1.baseVault)
    else .ok s2) = .ok s3 ∧ Keeps s2 s3 := by
    by_cases hb0 : 0 < w.baseVault - w1.baseVault
    · have ac := kp.acc _ _ _ (h1 (by omega))
      rw [if_pos hb0, ata_goes ac, ok_bind]
      exact credit_goes _ (kp.mint _ hb) ⟨_, ac⟩
    · rw [if_neg hb0]
      exact ⟨_, rfl, .refl _⟩
  rw [e3, ok_bind]
  by_cases hq0 : 0 < w.quoteVault - w1.quoteVault
  · have ac := k3.acc _ _ _ (kp.acc _ _ _ (h2 (by omega)))
    rw [if_pos hq0, ata_goes ac, ok_bind]
    exact one_goes _ (k3.mint _ (kp.mint _ hq)) ⟨_, ac⟩
  · rw [if_neg hq0]
    exact ⟨_, rfl⟩

theorem zap_goes {K : Keys} {s : Chain} {P : Nat} {pa : PoolAcc} {w w1 : World} {l : Loaded} {bm : MintAcc}
    (o : Own K s P pa w l bm) {g x : Nat} {z : ZapCheck} {ok : Bool} {t : Token}
    (h : w.zapProtocolFee g x (decide (t = .base)) ok true = .ok w1) (hok : ok = true ↔ mintOf pa w.cfg t ∉ K.noZap)
    (ha : IsAccount s (K.ata g (mintOf pa w.cfg t)) (mintOf pa w.cfg t) g)
    (hz : z (vault w t - vault w1 t) (K.ata g (mintOf pa w.cfg t)) K.treasury
      (K.ata K.treasury (mintOf pa w.cfg (other t))) = true) :
    ∃ s', s.zapProtocolFee K P pa.config (vaultAt pa t) (mintOf pa w.cfg t) (K.ata g (mintOf pa w.cfg t)) g x z = .ok s' := by
  have kp := o.keeps (Keeps.refl s) w1
  have eo : ok = decide (mintOf pa w.cfg t ∉ K.noZap) := by
    cases hk : ok
    · rw [hk] at hok
      exact (decide_eq_false (fun hn => by have := hok.2 hn; cases this)).symm
    · exact (decide_eq_true (hok.1 hk)).symm
  rw [eo] at h
  have hpn : need (s.pools P) = .ok pa := need_ok.2 o.pool
  have hcn : need (s.configs pa.config) = .ok l.c := need_ok.2 o.wired.cfg
  have hva := ata_goes ha
  have hne : w.cfg.quoteMint ≠ pa.baseMint := by rw [← o.cfg]; exact fun e => o.wired.diff e.symm
  cases t with
  | base =>
    cases hmm : s.mints pa.baseMint with
    | none => exact absurd hmm o.base
    | some mt =>
      have hmn : need (s.mints pa.baseMint) = .ok mt := need_ok.2 hmm
      have htn : need (getTok s.tokens pa.baseVault) = .ok l.bv := need_ok.2 o.wired.base
      simp only [mintOf, vaultAt, other, vault] at h ha hva hz ⊢
      unfold Chain.zapProtocolFee
      rw [hpn, ok_bind, hcn, ok_bind, htn, ok_bind, hmn, ok_bind, (req_ok (u := ())).2 rfl, ok_bind,
        (req_ok (u := ())).2 (.inl rfl), ok_bind, if_pos rfl, (req_ok (u := ())).2 rfl, ok_bind, o.load, ok_bind, o.lw]
      have h : w.zapProtocolFee g x true (decide (pa.baseMint ∉ K.noZap)) true = .ok w1 := h
      rw [h, ok_bind, hva, ok_bind, (req_ok (u := ())).2 (by rw [o.cfg]; exact hz), ok_bind, (req_ok (u := ())).2 o.wired.baseMint, ok_bind]
      exact one_goes _ (kp.mint _ o.base) ⟨_, kp.acc _ _ _ ha⟩
  | quote =>
    cases hmm : s.mints w.cfg.quoteMint with
    | none => exact absurd hmm o.quoteMint
    | some mt =>
      have hmn : need (s.mints w.cfg.quoteMint) = .ok mt := need_ok.2 hmm
      have htn : need (getTok s.tokens pa.quoteVault) = .ok l.qv := need_ok.2 o.wired.quote
      simp only [mintOf, vaultAt, other, vault] at h ha hva hz ⊢
      unfold Chain.zapProtocolFee
      rw [hpn, ok_bind, hcn, ok_bind, htn, ok_bind, hmn, ok_bind, (req_ok (u := ())).2 rfl, ok_bind,
        (req_ok (u := ())).2 (.inr (by rw [o.cfg])), ok_bind, if_neg hne, (req_ok (u := ())).2 rfl, ok_bind, o.load, ok_bind, o.lw]
      have h : w.zapProtocolFee g x false (decide (w.cfg.quoteMint ∉ K.noZap)) true = .ok w1 := h
      rw [h, ok_bind, hva, ok_bind, (req_ok (u := ())).2 hz, ok_bind, (req_ok (u := ())).2 (by rw [o.wired.quoteMint, o.cfg]), ok_bind]
      exact one_goes _ (kp.mint _ o.quoteMint) ⟨_, kp.acc _ _ _ ha⟩

theorem quoteOut_goes {K : Keys} {s : Chain} {P : Nat} {pa : PoolAcc} {w w1 : World} {l : Loaded} {bm : MintAcc}
    (o : Own K s P pa w l bm) {f : World → Res World} {y : Nat} (h : f w = .ok w1) (ht : Takes s y w.cfg.quoteMint) :
    ∃ s', s.quoteOut K ⟨P, pa.config, pa.quoteVault, w.cfg.quoteMint, y⟩ f = .ok s' := by
  have kp := o.keeps (Keeps.refl s) w1
  unfold Chain.quoteOut
  dsimp only
  have hpn : need (s.pools P) = .ok pa := need_ok.2 o.pool
  rw [hpn, ok_bind, o.load, ok_bind, (req_ok (u := ())).2 (by rw [o.cfg]), ok_bind,
    (req_ok (u := ())).2 ⟨by rw [o.eq], by rw [o.eq]⟩, ok_bind,
    (req_ok (u := ())).2 (by rw [o.wired.quoteMint, o.cfg]), ok_bind, o.lw, h, ok_bind]
  exact one_goes _ (kp.mint _ o.quoteMint) (kp.takes ht)

theorem lamportsOut_goes {K : Keys} {s : Chain} {P : Nat} {pa : PoolAcc} {w w1 : World} {l : Loaded} {bm : MintAcc}
    (o : Own K s P pa w l bm) {f : World → Res World} (r : Nat) (h : f w = .ok w1) :
    ∃ s', s.lamportsOut K P pa.config r f = .ok s' := by
  unfold Chain.lamportsOut
  have hpn : need (s.pools P) = .ok pa := need_ok.2 o.pool
  rw [hpn, ok_bind, o.load, ok_bind, (req_ok (u := ())).2 (by rw [o.eq]), ok_bind, o.lw, h, ok_bind]
  exact ⟨_, rfl⟩

/-- The pool's metadata account, when its world has one. -/
theorem meta_at {K : Keys} {s : Chain} {P : Nat} {md : DammMeta} (h : s.ownMeta K P = some md) :
    s.metas (K.metaPda P) = some ⟨P, md⟩ := by
  unfold Chain.ownMeta at h
  split at h
  · rename_i m hm
    split at h
    · rename_i e
      cases h
      rw [hm, ← e]
    · cases h
  · cases h

end Dbc

import Verif.Spec.Chain
import Verif.Lemmas.Cases

/-!
# Token accounts, and the invariant of the whole chain
-/

namespace Dbc
open Spec

/-! ### Token account lists -/

theorem getTok_setTok {ts : List (Nat × TokenAcc)} {k : Nat} {t : TokenAcc} (v : TokenAcc) (h : getTok ts k = some t) (x : Nat) :
    getTok (setTok ts k v) x = if x = k then some v else getTok ts x := by
  induction ts with
  | nil => simp [getTok] at h
  | cons p r ih =>
    obtain ⟨y, u⟩ := p
    simp only [getTok, setTok] at h ⊢
    by_cases hy : y = k
    · subst hy
      rw [if_pos rfl]
      simp only [getTok]
      by_cases hx : x = y
      · subst hx; rw [if_pos rfl, if_pos rfl]
      · rw [if_neg (fun h => hx h.symm), if_neg hx, if_neg (fun h => hx h.symm)]
    · rw [if_neg hy] at h ⊢
      simp only [getTok]
      rw [ih h]
      by_cases hyx : y = x
      · subst hyx; rw [if_pos rfl, if_neg hy, if_pos rfl]
      · rw [if_neg hyx, if_neg hyx]

theorem held_setTok {ts : List (Nat × TokenAcc)} {k : Nat} {t : TokenAcc} (v : TokenAcc) (h : getTok ts k = some t) (m : Nat) :
    held m (setTok ts k v) + (if t.mint = m then t.amount else 0) = held m ts + (if v.mint = m then v.amount else 0) := by
  induction ts with
  | nil => simp [getTok] at h
  | cons p r ih =>
    obtain ⟨y, u⟩ := p
    simp only [getTok, setTok] at h ⊢
    by_cases hy : y = k
    · rw [if_pos hy] at h ⊢
      cases h
      simp only [held]
      omega
    · rw [if_neg hy] at h ⊢
      have := ih h
      simp only [held]
      omega

theorem held_one {ts : List (Nat × TokenAcc)} {k : Nat} {t : TokenAcc} (h : getTok ts k = some t) :
    t.amount ≤ held t.mint ts := by
  induction ts with
  | nil => simp [getTok] at h
  | cons p r ih =>
    obtain ⟨y, u⟩ := p
    simp only [getTok] at h
    simp only [held]
    by_cases hy : y = k
    · rw [if_pos hy] at h
      cases h
      rw [if_pos rfl]
      omega
    · rw [if_neg hy] at h
      have := ih h
      omega

theorem held_two {ts : List (Nat × TokenAcc)} {k k' : Nat} {t t' : TokenAcc} (h : getTok ts k = some t)
    (h' : getTok ts k' = some t') (hk : k ≠ k') (hm : t'.mint = t.mint) : t.amount + t'.amount ≤ held t.mint ts := by
  induction ts with
  | nil => simp [getTok] at h
  | cons p r ih =>
    obtain ⟨y, u⟩ := p
    simp only [getTok] at h h'
    simp only [held]
    by_cases hy : y = k
    · rw [if_pos hy] at h
      cases h
      rw [if_neg (fun e => hk (hy.symm.trans e))] at h'
      have := held_one h'
      rw [hm] at this
      rw [if_pos rfl]
      omega
    · rw [if_neg hy] at h
      by_cases hy' : y = k'
      · rw [if_pos hy'] at h'
        cases h'
        have := held_one h
        rw [if_pos hm]
        omega
      · rw [if_neg hy'] at h'
        have := ih h h'
        omega

theorem mem_setTok {ts : List (Nat × TokenAcc)} {k : Nat} {v : TokenAcc} {x : Nat × TokenAcc} (h : x ∈ setTok ts k v) :
    x ∈ ts ∨ x.2 = v := by
  induction ts with
  | nil => simp [setTok] at h
  | cons p r ih =>
    obtain ⟨y, u⟩ := p
    simp only [setTok] at h
    by_cases hy : y = k
    · rw [if_pos hy] at h
      rcases List.mem_cons.1 h with e | e
      · right; rw [e]
      · left; exact List.mem_cons_of_mem _ e
    · rw [if_neg hy] at h
      rcases List.mem_cons.1 h with e | e
      · left; rw [e]; exact List.mem_cons_self
      · rcases ih e with e | e
        · left; exact List.mem_cons_of_mem _ e
        · right; exact e

theorem mem_of_getTok {ts : List (Nat × TokenAcc)} {k : Nat} {t : TokenAcc} (h : getTok ts k = some t) : (k, t) ∈ ts := by
  induction ts with
  | nil => simp [getTok] at h
  | cons p r ih =>
    obtain ⟨y, u⟩ := p
    simp only [getTok] at h
    by_cases hy : y = k
    · rw [if_pos hy] at h
      cases h
      rw [hy]
      exact List.mem_cons_self
    · rw [if_neg hy] at h
      exact List.mem_cons_of_mem _ (ih h)

theorem held_none {ts : List (Nat × TokenAcc)} {m : Nat} (h : ∀ x ∈ ts, x.2.mint ≠ m) : held m ts = 0 := by
  induction ts with
  | nil => rfl
  | cons p r ih =>
    simp only [held]
    rw [if_neg (h p List.mem_cons_self), ih (fun x hx => h x (List.mem_cons_of_mem _ hx))]

theorem getTok_cons {ts : List (Nat × TokenAcc)} {k : Nat} {v : TokenAcc} (x : Nat) :
    getTok ((k, v) :: ts) x = if k = x then some v else getTok ts x := rfl

theorem need_ok {α : Type} {o : Option α} {a : α} : need o = .ok a ↔ o = some a := by
  cases o with
  | none => exact ⟨fun h => (nomatch h), fun h => (nomatch h)⟩
  | some b => exact ⟨fun h => by cases h; rfl, fun h => by cases h; rfl⟩

theorem put_same {α : Type} (f : Nat → Option α) (k : Nat) (v : α) : put f k v k = some v := if_pos rfl
theorem put_ne {α : Type} (f : Nat → Option α) {k x : Nat} (v : α) (h : x ≠ k) : put f k v x = f x := if_neg h

/-! ### The invariant -/

/-- A mint without the extensions that take tokens away from their holders. -/
def MintAcc.Plain (m : MintAcc) : Prop := m.has .transferFee = false ∧ m.has .permanentDelegate = false

theorem MintAcc.Plain.short {m : MintAcc} (h : m.Plain) (K : Keys) (k a : Nat) : m.short K k a = 0 := by
  unfold MintAcc.short
  rw [h.1]
  rfl

/-- A pool account together with what it points to. -/
structure Wired (K : Keys) (s : Chain) (pa : PoolAcc) (c : PoolConfig) (bv qv : TokenAcc) (bm : MintAcc) : Prop where
  cfg : s.configs pa.config = some c
  base : getTok s.tokens pa.baseVault = some bv
  baseMint : bv.mint = pa.baseMint
  baseOwner : bv.owner = K.authority
  quote : getTok s.tokens pa.quoteVault = some qv
  quoteMint : qv.mint = c.quoteMint
  quoteOwner : qv.owner = K.authority
  mint : s.mints pa.baseMint = some bm
  plain : bm.Plain
  diff : pa.baseMint ≠ c.quoteMint

/-- The invariant of the chain while `pend m` tokens of each mint `m` are on their way from one account to another. -/
structure Inv (K : Keys) (s : Chain) (pend : Nat → Nat) : Prop where
  cfg : ∀ k c, s.configs k = some c → (∃ p env, ConfigParams.Typed p ∧ createConfig p env = .ok c) ∧
    ∃ m, s.mints c.quoteMint = some m ∧ m.Plain
  wired : ∀ P pa, s.pools P = some pa → ∃ c bv qv bm, Wired K s pa c bv qv bm
  cross : ∀ P Q pa qa, s.pools P = some pa → s.pools Q = some qa → pa.baseVault ≠ qa.quoteVault
  apart : ∀ P Q pa qa, s.pools P = some pa → s.pools Q = some qa → P ≠ Q →
    pa.baseVault ≠ qa.baseVault ∧ pa.quoteVault ≠ qa.quoteVault ∧ pa.baseMint ≠ qa.baseMint
  metas : ∀ k m, s.metas k = some m → k = K.metaPda m.pool ∧ s.pools m.pool ≠ none
  supply : ∀ m a, s.mints m = some a → held m s.tokens + pend m ≤ a.supply ∧ a.supply ≤ u64Max
  known : ∀ x ∈ s.tokens, s.mints x.2.mint ≠ none

/-- Nothing on its way. -/
def still : Nat → Nat := fun _ => 0
/-- `a` more tokens of `m` on their way. -/
def plus (pend : Nat → Nat) (m a : Nat) : Nat → Nat := fun x => pend x + if x = m then a else 0

theorem view_eq {K : Keys} {s : Chain} {P : Nat} {pa : PoolAcc} {c : PoolConfig} {bv qv : TokenAcc} {bm : MintAcc}
    (h : s.pools P = some pa) (h1 : s.configs pa.config = some c) (h2 : getTok s.tokens pa.baseVault = some bv)
    (h3 : getTok s.tokens pa.quoteVault = some qv) (h4 : s.mints pa.baseMint = some bm) :
    s.view K P = some (s.world P pa c bm bv.amount qv.amount (s.ownMeta K P)) := by
  unfold Chain.view
  rw [h]
  dsimp only
  rw [h1, h2, h3, h4]

theorem Wired.view {K : Keys} {s : Chain} {P : Nat} {pa : PoolAcc} {c : PoolConfig} {bv qv : TokenAcc} {bm : MintAcc}
    (i : Wired K s pa c bv qv bm) (h : s.pools P = some pa) :
    s.view K P = some (s.world P pa c bm bv.amount qv.amount (s.ownMeta K P)) :=
  view_eq h i.cfg i.base i.quote i.mint

theorem view_pool {K : Keys} {s : Chain} {P : Nat} {w : World} (h : s.view K P = some w) : ∃ pa, s.pools P = some pa := by
  unfold Chain.view at h
  cases hp : s.pools P with
  | none => rw [hp] at h; cases h
  | some pa => exact ⟨pa, rfl⟩

/-- A pool's own world, taken apart. -/
theorem Inv.open {K : Keys} {s : Chain} {pend : Nat → Nat} (i : Inv K s pend) {P : Nat} {w : World}
    (h : s.view K P = some w) : ∃ pa c bv qv bm, s.pools P = some pa ∧ Wired K s pa c bv qv bm ∧
      w = s.world P pa c bm bv.amount qv.amount (s.ownMeta K P) := by
  obtain ⟨pa, hp⟩ := view_pool h
  obtain ⟨c, bv, qv, bm, hw⟩ := i.wired P pa hp
  refine ⟨pa, c, bv, qv, bm, hp, hw, ?_⟩
  rw [hw.view hp] at h
  exact (Option.some.inj h).symm

theorem Inv.weaken {K : Keys} {s : Chain} {pend pend' : Nat → Nat} (i : Inv K s pend) (h : ∀ x, pend' x ≤ pend x) :
    Inv K s pend' :=
  { i with supply := fun m a hm => ⟨by have := (i.supply m a hm).1; have := h m; omega, (i.supply m a hm).2⟩ }

/-! ### Sequences of gifts -/

/-- `w'` is `w` after gifts. -/
def Fed (w w' : World) : Prop := ∃ ops, (∀ o ∈ ops, Gift o) ∧ Run w ops w'

theorem Fed.refl (w : World) : Fed w w := ⟨[], fun _ h => (nomatch h), .nil w⟩
theorem Fed.trans {w w1 w2 : World} (h1 : Fed w w1) (h2 : Fed w1 w2) : Fed w w2 := by
  obtain ⟨a, ha, ra⟩ := h1
  obtain ⟨b, hb, rb⟩ := h2
  exact ⟨a ++ b, fun o ho => (List.mem_append.1 ho).elim (ha o) (hb o), ra.append rb⟩
theorem Fed.donate {w w' : World} {b q l : Nat} (h : w.donate b q l = .ok w') : Fed w w' :=
  ⟨[.donate b q l], fun o ho => by rw [List.mem_singleton.1 ho]; exact trivial, .cons h (.nil _)⟩

/-- From one chain state to another only gifts happened to any pool, and no pool came or went. -/
def After (K : Keys) (s s' : Chain) : Prop :=
  (∀ Q, s'.pools Q = none ↔ s.pools Q = none) ∧
  ∀ Q w, s.view K Q = some w → ∃ w', Fed w w' ∧ s'.view K Q = some w'

theorem After.refl (K : Keys) (s : Chain) : After K s s := ⟨fun _ => Iff.rfl, fun _ w h => ⟨w, .refl w, h⟩⟩
theorem After.trans {K : Keys} {s s1 s2 : Chain} (h1 : After K s s1) (h2 : After K s1 s2) : After K s s2 := by
  refine ⟨fun Q => (h2.1 Q).trans (h1.1 Q), fun Q w h => ?_⟩
  obtain ⟨w1, f1, v1⟩ := h1.2 Q w h
  obtain ⟨w2, f2, v2⟩ := h2.2 Q w1 v1
  exact ⟨w2, f1.trans f2, v2⟩

/-! ### Giving -/

theorem noteIn_none {f : Nat → Option PoolAcc} {d a Q : Nat} : noteIn f d a Q = none ↔ f Q = none := by
  unfold noteIn
  cases f Q <;> simp
theorem noteIn_some {f : Nat → Option PoolAcc} {d a Q : Nat} {qa : PoolAcc} (h : noteIn f d a Q = some qa) :
    ∃ pa, f Q = some pa ∧ qa = pa.note d a := by
  unfold noteIn at h
  cases hf : f Q with
  | none => rw [hf] at h; cases h
  | some pa => rw [hf] at h; exact ⟨pa, rfl, (Option.some.inj h).symm⟩

/-- A wired pool stays wired when the balance of some account changes. -/
theorem Wired.setTok {K : Keys} {s s' : Chain} {pa pa' : PoolAcc} {c : PoolConfig} {bv qv : TokenAcc} {bm : MintAcc}
    (i : Wired K s pa c bv qv bm) {k : Nat} {t v : TokenAcc} (hk : getTok s.tokens k = some t)
    (hv : v.mint = t.mint ∧ v.owner = t.owner ∨ t.owner ≠ K.authority)
    (hc : s'.configs = s.configs) (ht : s'.tokens = setTok s.tokens k v) (hm : s'.mints = s.mints)
    (h1 : pa'.config = pa.config) (h2 : pa'.baseMint = pa.baseMint) (h3 : pa'.baseVault = pa.baseVault)
    (h4 : pa'.quoteVault = pa.quoteVault) :
    Wired K s' pa' c (if pa.baseVault = k then v else bv) (if pa.quoteVault = k then v else qv) bm := by
  have nb : pa.baseVault = k → t = bv := fun e => by
    have := i.base
    rw [e, hk] at this
    exact Option.some.inj this
  have nq : pa.quoteVault = k → t = qv := fun e => by
    have := i.quote
    rw [e, hk] at this
    exact Option.some.inj this
  refine ⟨?_, ?_, ?_, ?_, ?_, ?_, ?_, ?_, i.plain, ?_⟩
  · rw [hc, h1]; exact i.cfg
  · rw [ht, h3, getTok_setTok v hk]
    split
    · rfl
    · exact i.base
  · split
    · rename_i e
      rcases hv with hv | hv
      · rw [hv.1, nb e, h2]; exact i.baseMint
      · exact absurd (by rw [nb e]; exact i.baseOwner) hv
    · rw [h2]; exact i.baseMint
  · split
    · rename_i e
      rcases hv with hv | hv
      · rw [hv.2, nb e]; exact i.baseOwner
      · exact absurd (by rw [nb e]; exact i.baseOwner) hv
    · exact i.baseOwner
  · rw [ht, h4, getTok_setTok v hk]
    split
    · rfl
    · exact i.quote
  · split
    · rename_i e
      rcases hv with hv | hv
      · rw [hv.1, nq e]; exact i.quoteMint
      · exact absurd (by rw [nq e]; exact i.quoteOwner) hv
    · exact i.quoteMint
  · split
    · rename_i e
      rcases hv with hv | hv
      · rw [hv.2, nq e]; exact i.quoteOwner
      · exact absurd (by rw [nq e]; exact i.quoteOwner) hv
    · exact i.quoteOwner
  · rw [hm, h2]; exact i.mint
  · rw [h2]; exact i.diff

theorem Inv.give {K : Keys} {s s' : Chain} {pend pend' : Nat → Nat} {m d a : Nat} (i : Inv K s pend)
    (hp : ∀ x, plus pend' m a x ≤ pend x) (h : s.give m d a = .ok s') : Inv K s' pend' ∧ After K s s' := by
  simp only [Chain.give, bind_ok, req_ok, need_ok, ok_inj] at h
  obtain ⟨t, ht, _, hm, h⟩ := h
  obtain ⟨v, hv⟩ : ∃ v : TokenAcc, v = { t with amount := t.amount + a } := ⟨_, rfl⟩
  rw [← hv] at h
  have v1 : v.mint = t.mint := by rw [hv]
  have v2 : v.owner = t.owner := by rw [hv]
  have v3 : v.amount = t.amount + a := by rw [hv]
  clear hv
  have hold : ∀ x, held x (setTok s.tokens d v) = held x s.tokens + (if x = m then a else 0) := by
    intro x
    have := held_setTok v ht x
    rw [v1, hm, v3] at this
    by_cases e : x = m
    · rw [if_pos e.symm, if_pos e.symm] at this
      rw [if_pos e]
      omega
    · rw [if_neg (fun h => e h.symm), if_neg (fun h => e h.symm)] at this
      rw [if_neg e]
      omega
  have hp1 : s'.pools = noteIn s.pools d a := by rw [← h]
  have hp2 : s'.tokens = setTok s.tokens d v := by rw [← h]
  have hp3 : s'.configs = s.configs := by rw [← h]
  have hp4 : s'.mints = s.mints := by rw [← h]
  have hp5 : s'.metas = s.metas := by rw [← h]
  have hp6 : s'.operators = s.operators ∧ s'.admins = s.admins := by rw [← h]; exact ⟨rfl, rfl⟩
  clear h
  have hI : Inv K s' pend' := by
    refine ⟨?_, ?_, ?_, ?_, ?_, ?_, ?_⟩
    · rw [hp3, hp4]; exact i.cfg
    · intro P qa hq
      rw [hp1] at hq
      obtain ⟨pa, hpa, rfl⟩ := noteIn_some hq
      obtain ⟨c, bv, qv, bm, hw⟩ := i.wired P pa hpa
      exact ⟨c, _, _, bm, hw.setTok ht (.inl ⟨v1, v2⟩) hp3 hp2 hp4 rfl rfl rfl rfl⟩
    · intro P Q pa qa h1 h2
      rw [hp1] at h1 h2
      obtain ⟨pa0, k1, rfl⟩ := noteIn_some h1
      obtain ⟨qa0, k2, rfl⟩ := noteIn_some h2
      exact i.cross P Q pa0 qa0 k1 k2
    · intro P Q pa qa h1 h2
      rw [hp1] at h1 h2
      obtain ⟨pa0, k1, rfl⟩ := noteIn_some h1
      obtain ⟨qa0, k2, rfl⟩ := noteIn_some h2
      exact i.apart P Q pa0 qa0 k1 k2
    · intro k mt hk
      rw [hp5] at hk
      rw [hp1]
      exact ⟨(i.metas k mt hk).1, fun e => (i.metas k mt hk).2 (noteIn_none.1 e)⟩
    · intro x b hb
      rw [hp4] at hb
      have h1 := i.supply x b hb
      have h2 := hp x
      simp only [plus] at h2
      rw [hp2, hold x]
      exact ⟨by omega, h1.2⟩
    · intro x hx
      rw [hp2] at hx
      rw [hp4]
      rcases mem_setTok hx with hx | hx
      · exact i.known x hx
      · rw [hx, v1]
        exact i.known _ (mem_of_getTok ht)
  refine ⟨hI, fun Q => by rw [hp1]; exact noteIn_none, fun Q w hw => ?_⟩
  obtain ⟨pa, c, bv, qv, bm, h1, h2, rfl⟩ := i.open hw
  have h1' : s'.pools Q = some (pa.note d a) := by rw [hp1]; unfold noteIn; rw [h1]; rfl
  have h2' := h2.setTok (s' := s') (pa' := pa.note d a) ht (.inl ⟨v1, v2⟩) hp3 hp2 hp4 rfl rfl rfl rfl
  have vw := h2'.view h1'
  have eb : (if pa.baseVault = d then v else bv).amount = bv.amount + (if pa.baseVault = d then a else 0) := by
    split
    · rename_i e
      have := h2.base
      rw [e, ht] at this
      rw [← Option.some.inj this, v3]
    · rfl
  have eq : (if pa.quoteVault = d then v else qv).amount = qv.amount + (if pa.quoteVault = d then a else 0) := by
    split
    · rename_i e
      have := h2.quote
      rw [e, ht] at this
      rw [← Option.some.inj this, v3]
    · rfl
  have lb : bv.amount + (if pa.baseVault = d then a else 0) ≤ bm.supply := by
    have k1 := held_one h2'.base
    rw [eb, h2'.baseMint] at k1
    have k2 := (hI.supply _ _ h2'.mint).1
    exact le_trans k1 (le_trans (Nat.le_add_right _ _) k2)
  have lq : qv.amount + (if pa.quoteVault = d then a else 0) ≤ u64Max := by
    have k1 := held_one h2'.quote
    rw [eq, h2'.quoteMint] at k1
    obtain ⟨_, qm, hqm, _⟩ := hI.cfg _ _ h2'.cfg
    have k2 := hI.supply _ _ hqm
    exact le_trans k1 (le_trans (Nat.le_add_right _ _) (le_trans k2.1 k2.2))
  rw [eb, eq] at vw
  refine ⟨_, Fed.donate (b := if pa.baseVault = d then a else 0) (q := if pa.quoteVault = d then a else 0) (l := 0) ?_, vw⟩
  have e1 : vaultIn bm.supply bv.amount (if pa.baseVault = d then a else 0) =
      .ok (bv.amount + (if pa.baseVault = d then a else 0)) := if_pos lb
  have e2 : vaultIn u64Max qv.amount (if pa.quoteVault = d then a else 0) =
      .ok (qv.amount + (if pa.quoteVault = d then a else 0)) := if_pos lq
  have e3 : s'.ownMeta K Q = s.ownMeta K Q := by unfold Chain.ownMeta; rw [hp5]
  unfold World.donate
  dsimp only [Chain.world]
  rw [e1, e2, e3, hp6.1, hp6.2]
  rfl

theorem Inv.credit {K : Keys} {s s' : Chain} {pend pend' : Nat → Nat} {m d a : Nat} (i : Inv K s pend)
    (hp : ∀ x, plus pend' m a x ≤ pend x) (h : s.credit K m d a = .ok s') : Inv K s' pend' ∧ After K s s' := by
  simp only [Chain.credit, bind_ok, need_ok] at h
  obtain ⟨mt, _, h⟩ := h
  refine i.give (fun x => ?_) h
  have := hp x
  simp only [plus] at this ⊢
  split at this
  · rename_i e; rw [if_pos e]; omega
  · rename_i e; rw [if_neg e]; omega

/-! ### Accounts of outsiders -/

/-- Changing an account that does not belong to the pool authority leaves every pool alone. -/
theorem Inv.outside {K : Keys} {s : Chain} {pend pend' : Nat → Nat} {k : Nat} {t v : TokenAcc} (i : Inv K s pend)
    (hk : getTok s.tokens k = some t) (ho : t.owner ≠ K.authority) (hv : s.mints v.mint ≠ none)
    (hh : ∀ m, held m (setTok s.tokens k v) + pend' m ≤ held m s.tokens + pend m) :
    Inv K { s with tokens := setTok s.tokens k v } pend' ∧
    (∀ pa c bv qv bm, Wired K s pa c bv qv bm → Wired K { s with tokens := setTok s.tokens k v } pa c bv qv bm) ∧
    ∀ Q, ({ s with tokens := setTok s.tokens k v } : Chain).view K Q = s.view K Q := by
  have hw : ∀ pa c bv qv bm, Wired K s pa c bv qv bm →
      Wired K { s with tokens := setTok s.tokens k v } pa c bv qv bm := by
    intro pa c bv qv bm h
    have := h.setTok (s' := { s with tokens := setTok s.tokens k v }) (pa' := pa) hk (v := v) (.inr ho) rfl rfl rfl rfl rfl
      rfl rfl
    rw [if_neg, if_neg] at this
    · exact this
    · intro e
      have k := h.quote
      rw [e, hk] at k
      exact ho (by rw [Option.some.inj k]; exact h.quoteOwner)
    · intro e
      have k := h.base
      rw [e, hk] at k
      exact ho (by rw [Option.some.inj k]; exact h.baseOwner)
  refine ⟨⟨i.cfg, ?_, i.cross, i.apart, i.metas, ?_, ?_⟩, hw, ?_⟩
  · intro P pa hp
    obtain ⟨c, bv, qv, bm, h⟩ := i.wired P pa hp
    exact ⟨c, bv, qv, bm, hw _ _ _ _ _ h⟩
  · intro m a hm
    have h1 := i.supply m a hm
    have h2 := hh m
    exact ⟨le_trans h2 h1.1, h1.2⟩
  · intro x hx
    rcases mem_setTok hx with hx | hx
    · exact i.known x hx
    · rw [hx]; exact hv
  · intro Q
    cases hq : s.pools Q with
    | none => unfold Chain.view; dsimp only; rw [hq]
    | some pa =>
      obtain ⟨c, bv, qv, bm, h⟩ := i.wired Q pa hq
      rw [h.view hq, (hw _ _ _ _ _ h).view (P := Q) hq]
      rfl

theorem Inv.debit {K : Keys} {s s' : Chain} {pend : Nat → Nat} {g m k a : Nat} (i : Inv K s pend)
    (h : s.debit K g m k a = .ok s') : Inv K s' (plus pend m a) ∧
      (∀ pa c bv qv bm, Wired K s pa c bv qv bm → Wired K s' pa c bv qv bm) ∧ (∀ Q, s'.view K Q = s.view K Q) ∧
      ∃ t, getTok s.tokens k = some t ∧ t.mint = m ∧ t.owner = g ∧ g ≠ K.authority ∧ a ≤ t.amount ∧
        s' = { s with tokens := setTok s.tokens k { t with amount := t.amount - a } } := by
  simp only [Chain.debit, bind_ok, req_ok, need_ok, ok_inj] at h
  obtain ⟨t, ht, _, hm, _, ⟨ho, hg⟩, _, ha, rfl⟩ := h
  obtain ⟨v, hv⟩ : ∃ v : TokenAcc, v = { t with amount := t.amount - a } := ⟨_, rfl⟩
  rw [← hv]
  have v1 : v.mint = t.mint := by rw [hv]
  have v3 : v.amount = t.amount - a := by rw [hv]
  obtain ⟨h1, h2, h3⟩ := i.outside (v := v) (pend' := plus pend m a) ht (by rw [ho]; exact hg)
    (by rw [v1]; exact i.known _ (mem_of_getTok ht)) (fun x => by
      have := held_setTok v ht x
      rw [v1, v3, hm] at this
      simp only [plus]
      by_cases e : x = m
      · rw [if_pos e.symm, if_pos e.symm] at this
        rw [if_pos e]
        omega
      · rw [if_neg (fun h => e h.symm), if_neg (fun h => e h.symm)] at this
        rw [if_neg e]
        omega)
  exact ⟨h1, h2, h3, t, ht, hm, ho, hg, ha, by rw [hv]⟩

/-! ### Writing back the result of a handler -/

theorem load_ok {s : Chain} {P ck bk qk : Nat} {md : Option DammMeta} {l : Loaded}
    (h : s.load P ck bk qk md = .ok l) : ∃ bm, s.pools P = some l.pa ∧ s.configs ck = some l.c ∧
      getTok s.tokens bk = some l.bv ∧ getTok s.tokens qk = some l.qv ∧ s.mints l.bv.mint = some bm ∧
      l.w = s.world P l.pa l.c bm l.bv.amount l.qv.amount md := by
  simp only [Chain.load, bind_ok, need_ok, ok_inj] at h
  obtain ⟨pa, h1, c, h2, bv, h3, qv, h4, bm, h5, rfl⟩ := h
  exact ⟨bm, h1, h2, h3, h4, h5, rfl⟩

/-- When the accounts given are the pool's own, what was loaded is the pool's own world. -/
theorem load_own {K : Keys} {s : Chain} {pend : Nat → Nat} (i : Inv K s pend) {P ck bk qk : Nat} {md : Option DammMeta}
    {l : Loaded} (h : s.load P ck bk qk md = .ok l) (e1 : l.pa.config = ck) (e2 : l.pa.baseVault = bk)
    (e3 : l.pa.quoteVault = qk) : ∃ bm, s.pools P = some l.pa ∧ Wired K s l.pa l.c l.bv l.qv bm ∧
      l.w = s.world P l.pa l.c bm l.bv.amount l.qv.amount md := by
  obtain ⟨bm, h1, h2, h3, h4, h5, h6⟩ := load_ok h
  obtain ⟨c, bv, qv, bm', hw⟩ := i.wired P _ h1
  have a1 := hw.cfg
  have a2 := hw.base
  have a3 := hw.quote
  rw [e1, h2] at a1
  rw [e2, h3] at a2
  rw [e3, h4] at a3
  cases a1; cases a2; cases a3
  have a4 := hw.mint
  rw [← hw.baseMint, h5] at a4
  cases a4
  exact ⟨bm, h1, hw, h6⟩

theorem Inv.save {K : Keys} {s : Chain} {pend pend' : Nat → Nat} (i : Inv K s pend) {P : Nat} {l : Loaded} {bm : MintAcc}
    {w : World} (hp : s.pools P = some l.pa) (hw : Wired K s l.pa l.c l.bv l.qv bm) (hs : w.supply ≤ u64Max)
    (hb : w.baseVault + pend' l.pa.baseMint + bm.supply ≤ l.bv.amount + pend l.pa.baseMint + w.supply)
    (hq : w.quoteVault + pend' l.c.quoteMint ≤ l.qv.amount + pend l.c.quoteMint)
    (ho : ∀ x, x ≠ l.pa.baseMint → x ≠ l.c.quoteMint → pend' x ≤ pend x) {s' : Chain}
    (hs' : s' = s.save P l.pa.baseVault l.pa.quoteVault l w) :
    Inv K s' pend' ∧ (∀ Q, s'.pools Q = none ↔ s.pools Q = none) ∧ (∀ Q, Q ≠ P → s'.view K Q = s.view K Q) ∧
    (w.key = P → w.cfg = l.c → w.mintAuth = bm.auth → w.operators = s.operators → w.admins = s.admins →
      s'.view K P = some { w with dammMeta := s.ownMeta K P }) ∧
    s'.metas = s.metas := by
  have hx := i.cross P P _ _ hp hp
  obtain ⟨bv', hbv⟩ : ∃ v : TokenAcc, v = { l.bv with amount := w.baseVault } := ⟨_, rfl⟩
  obtain ⟨qv', hqv⟩ : ∃ v : TokenAcc, v = { l.qv with amount := w.quoteVault } := ⟨_, rfl⟩
  obtain ⟨pa', hpa⟩ : ∃ pa' : PoolAcc, pa' = { l.pa with
      state := w.pool, lamports := w.lamports, updateAuth := w.updateAuth, lpVault := w.lpVault, lpMinted := w.lpMinted,
      lpLog := w.lpLog, positions := w.positions, newPool := w.newPool, escrow := w.escrow, led := w.led } := ⟨_, rfl⟩
  have p1 : s'.pools = put s.pools P pa' := by rw [hs', hpa]; rfl
  have p2 : s'.tokens = setTok (setTok s.tokens l.pa.baseVault bv') l.pa.quoteVault qv' := by rw [hs', hbv, hqv]; rfl
  have p3 : s'.configs = s.configs := by rw [hs']; rfl
  have p4 : s'.mints = put s.mints l.pa.baseMint { bm with supply := w.supply } := by
    rw [hs']
    unfold Chain.save
    dsimp only
    rw [hw.baseMint, hw.mint]
  have p5 : s'.metas = s.metas := by rw [hs']; rfl
  have p6 : s'.operators = s.operators ∧ s'.admins = s.admins := by rw [hs']; exact ⟨rfl, rfl⟩
  have c1 : pa'.config = l.pa.config ∧ pa'.baseMint = l.pa.baseMint ∧ pa'.baseVault = l.pa.baseVault ∧
      pa'.quoteVault = l.pa.quoteVault := by rw [hpa]; exact ⟨rfl, rfl, rfl, rfl⟩
  have b1 : bv'.mint = l.bv.mint ∧ bv'.owner = l.bv.owner ∧ bv'.amount = w.baseVault := by rw [hbv]; exact ⟨rfl, rfl, rfl⟩
  have q1 : qv'.mint = l.qv.mint ∧ qv'.owner = l.qv.owner ∧ qv'.amount = w.quoteVault := by rw [hqv]; exact ⟨rfl, rfl, rfl⟩
  have hq0 : getTok (setTok s.tokens l.pa.baseVault bv') l.pa.quoteVault = some l.qv := by
    rw [getTok_setTok _ hw.base, if_neg (fun e => hx e.symm)]; exact hw.quote
  have tok : ∀ x, getTok s'.tokens x =
      if x = l.pa.quoteVault then some qv' else if x = l.pa.baseVault then some bv' else getTok s.tokens x := by
    intro x
    rw [p2, getTok_setTok _ hq0, getTok_setTok _ hw.base]
  have hhold : ∀ m, held m s'.tokens + (if l.pa.baseMint = m then l.bv.amount else 0) +
      (if l.c.quoteMint = m then l.qv.amount else 0) = held m s.tokens +
      (if l.pa.baseMint = m then w.baseVault else 0) + (if l.c.quoteMint = m then w.quoteVault else 0) := by
    intro m
    have h1 := held_setTok bv' hw.base m
    have h2 := held_setTok qv' hq0 m
    rw [b1.1, b1.2.2, hw.baseMint] at h1
    rw [q1.1, q1.2.2, hw.quoteMint] at h2
    rw [p2]
    omega
  have mints_some : ∀ m a, s.mints m = some a → ∃ a', s'.mints m = some a' ∧ (a.Plain → a'.Plain) := by
    intro m a hm
    by_cases e : m = l.pa.baseMint
    · subst e
      rw [hw.mint] at hm
      cases hm
      exact ⟨{ bm with supply := w.supply }, by rw [p4]; exact put_same _ _ _, fun h => h⟩
    · exact ⟨a, by rw [p4, put_ne _ _ e]; exact hm, fun h => h⟩
  have nw : Wired K s' pa' l.c bv' qv' { bm with supply := w.supply } := by
    refine ⟨?_, ?_, ?_, ?_, ?_, ?_, ?_, ?_, hw.plain, ?_⟩
    · rw [p3, c1.1]; exact hw.cfg
    · rw [tok, c1.2.2.1, if_neg hx, if_pos rfl]
    · rw [b1.1, c1.2.1]; exact hw.baseMint
    · rw [b1.2.1]; exact hw.baseOwner
    · rw [tok, c1.2.2.2, if_pos rfl]
    · rw [q1.1]; exact hw.quoteMint
    · rw [q1.2.1]; exact hw.quoteOwner
    · rw [p4, c1.2.1, put_same]
    · rw [c1.2.1]; exact hw.diff
  have ow : ∀ Q, Q ≠ P → ∀ qa c bv qv qm, s.pools Q = some qa → Wired K s qa c bv qv qm → Wired K s' qa c bv qv qm := by
    intro Q hQ qa c bv qv qm hq h
    have a1 := i.apart Q P qa _ hq hp hQ
    have a2 := i.cross Q P qa _ hq hp
    have a3 := i.cross P Q _ qa hp hq
    refine ⟨by rw [p3]; exact h.cfg, ?_, h.baseMint, h.baseOwner, ?_, h.quoteMint, h.quoteOwner, ?_, h.plain, h.diff⟩
    · rw [tok, if_neg a2, if_neg a1.1]; exact h.base
    · rw [tok, if_neg a1.2.1, if_neg (fun e => a3 e.symm)]; exact h.quote
    · rw [p4, put_ne _ _ a1.2.2]; exact h.mint
  have back : ∀ Q qa, s'.pools Q = some qa → (Q = P ∧ qa = pa') ∨ (Q ≠ P ∧ s.pools Q = some qa) := by
    intro Q qa h
    rw [p1] at h
    by_cases e : Q = P
    · subst e
      rw [put_same] at h
      exact .inl ⟨rfl, (Option.some.inj h).symm⟩
    · rw [put_ne _ _ e] at h
      exact .inr ⟨e, h⟩
  have old : ∀ Q qa, s'.pools Q = some qa → ∃ qa0, s.pools Q = some qa0 ∧ qa0.baseVault = qa.baseVault ∧
      qa0.quoteVault = qa.quoteVault ∧ qa0.baseMint = qa.baseMint := by
    intro Q qa h
    rcases back Q qa h with ⟨rfl, rfl⟩ | ⟨_, h⟩
    · exact ⟨l.pa, hp, c1.2.2.1.symm, c1.2.2.2.symm, c1.2.1.symm⟩
    · exact ⟨qa, h, rfl, rfl, rfl⟩
  have dom : ∀ Q, s'.pools Q = none ↔ s.pools Q = none := by
    intro Q
    rw [p1]
    by_cases e : Q = P
    · subst e
      rw [put_same, hp]
      exact ⟨fun h => (nomatch h), fun h => (nomatch h)⟩
    · rw [put_ne _ _ e]
  have hI : Inv K s' pend' := by
    refine ⟨?_, ?_, ?_, ?_, ?_, ?_, ?_⟩
    · intro k c hc
      rw [p3] at hc
      obtain ⟨h1, m, hm, hpl⟩ := i.cfg k c hc
      obtain ⟨m', hm', hpl'⟩ := mints_some _ _ hm
      exact ⟨h1, m', hm', hpl' hpl⟩
    · intro Q qa h
      rcases back Q qa h with ⟨rfl, rfl⟩ | ⟨e, h⟩
      · exact ⟨_, _, _, _, nw⟩
      · obtain ⟨c, bv, qv, qm, hq⟩ := i.wired Q qa h
        exact ⟨c, bv, qv, qm, ow Q e _ _ _ _ _ h hq⟩
    · intro Q R qa ra h1 h2
      obtain ⟨q0, k1, e1, _, _⟩ := old Q qa h1
      obtain ⟨r0, k2, _, e2, _⟩ := old R ra h2
      rw [← e1, ← e2]
      exact i.cross Q R q0 r0 k1 k2
    · intro Q R qa ra h1 h2 hne
      obtain ⟨q0, k1, e1, e2, e3⟩ := old Q qa h1
      obtain ⟨r0, k2, f1, f2, f3⟩ := old R ra h2
      rw [← e1, ← e2, ← e3, ← f1, ← f2, ← f3]
      exact i.apart Q R q0 r0 k1 k2 hne
    · intro k m hk
      rw [p5] at hk
      exact ⟨(i.metas k m hk).1, fun h => (i.metas k m hk).2 ((dom _).1 h)⟩
    · intro m a hm
      have hd := hhold m
      by_cases e : m = l.pa.baseMint
      · subst e
        rw [p4, put_same] at hm
        cases hm
        have h1 := i.supply _ _ hw.mint
        rw [if_pos rfl, if_pos rfl, if_neg (fun e => hw.diff e.symm), if_neg (fun e => hw.diff e.symm)] at hd
        dsimp only
        exact ⟨by omega, hs⟩
      · rw [p4, put_ne _ _ e] at hm
        have h1 := i.supply _ _ hm
        have e' : l.pa.baseMint ≠ m := fun h => e h.symm
        simp only [if_neg e'] at hd
        by_cases e2 : l.c.quoteMint = m
        · subst e2
          simp only [if_true] at hd
          exact ⟨by omega, h1.2⟩
        · simp only [if_neg e2] at hd
          have := ho m e (fun h => e2 h.symm)
          exact ⟨by omega, h1.2⟩
    · intro x hx
      have key : ∀ m, s.mints m ≠ none → s'.mints m ≠ none := by
        intro m hm
        cases h : s.mints m with
        | none => exact absurd h hm
        | some a =>
          obtain ⟨a', h', _⟩ := mints_some m a h
          rw [h']
          exact fun h => (nomatch h)
      rw [p2] at hx
      rcases mem_setTok hx with hx | hx
      · rcases mem_setTok hx with hx | hx
        · exact key _ (i.known x hx)
        · rw [hx, b1.1]
          exact key _ (i.known _ (mem_of_getTok hw.base))
      · rw [hx, q1.1]
        exact key _ (i.known _ (mem_of_getTok hw.quote))
  have hmeta : ∀ Q, s'.ownMeta K Q = s.ownMeta K Q := fun Q => by unfold Chain.ownMeta; rw [p5]
  refine ⟨hI, dom, ?_, ?_, p5⟩
  · intro Q hQ
    cases hq : s.pools Q with
    | none =>
      have := (dom Q).2 hq
      unfold Chain.view
      rw [hq, this]
    | some qa =>
      obtain ⟨c, bv, qv, qm, h⟩ := i.wired Q qa hq
      have h' := ow Q hQ _ _ _ _ _ hq h
      rw [h.view hq, h'.view (P := Q) (by rw [p1, put_ne _ _ hQ]; exact hq), hmeta]
      unfold Chain.world
      rw [p6.1, p6.2]
  · intro k1 k2 k3 k4 k5
    rw [nw.view (P := P) (by rw [p1, put_same]), hmeta, b1.2.2, q1.2.2]
    unfold Chain.world
    rw [p6.1, p6.2, hpa, ← k1, ← k2, ← k3, ← k4, ← k5]

end Dbc

import Verif.Lemmas.ChainFixed
import Verif.Props.ChainEx
import Verif.Props.Owed
import Verif.Props.Auth
import Verif.Props.Partial

/-!
# C59–C64: many pools, attacker-chosen accounts
-/

namespace Props
open Dbc Spec

theorem _root_.Spec.Arises.inv {K : Keys} {s : Chain} (h : Arises K s) : Inv K s still := by
  obtain ⟨ad, ixs, r⟩ := h
  exact r.inv (Inv.empty K ad)

theorem _root_.Spec.Arises.reach {K : Keys} {s : Chain} (h : Arises K s) {P : Nat} {w : World} (hw : s.view K P = some w) :
    Reachable w := by
  obtain ⟨ad, ixs, r⟩ := h
  exact r.reach (Inv.empty K ad) (fun P w h => by cases h) P w hw

theorem _root_.Spec.Arises.step {K : Keys} {s s' : Chain} {ix : Instr} (h : Arises K s) (ht : ix.Typed)
    (hx : s.exec K ix = .ok s') : Arises K s' := by
  obtain ⟨ad, ixs, r⟩ := h
  exact ⟨ad, _, .snoc r ht hx⟩

/-! ## C59 -/

/-- C59: whatever instructions were executed with whatever accounts, every pool on chain is, with the configuration and
vaults recorded in it, in a state that a pool of its own reaches by the program's instructions. -/
theorem C59_every_pool_reachable {K : Keys} {s : Chain} {P : Nat} {pa : PoolAcc} (h : Arises K s)
    (hp : s.pools P = some pa) : ∃ w, Reachable w ∧ Shows s P w := by
  obtain ⟨w, hw⟩ := view_some h.inv hp
  exact ⟨w, h.reach hw, view_shows hw⟩

/-- C59: the vaults of a pool are token accounts of the pool authority for the pool's two mints. -/
theorem C59_vaults {K : Keys} {s : Chain} {P : Nat} {pa : PoolAcc} (h : Arises K s) (hp : s.pools P = some pa) :
    ∃ c, s.configs pa.config = some c ∧ pa.baseMint ≠ c.quoteMint ∧
      IsAccount s pa.baseVault pa.baseMint K.authority ∧ IsAccount s pa.quoteVault c.quoteMint K.authority := by
  obtain ⟨c, bv, qv, bm, w⟩ := h.inv.wired P pa hp
  exact ⟨c, w.cfg, w.diff, ⟨bv, w.base, w.baseMint, w.baseOwner⟩, ⟨qv, w.quote, w.quoteMint, w.quoteOwner⟩⟩

/-- C59: no token account is a vault twice, and no two pools have the same base mint. -/
theorem C59_nothing_shared {K : Keys} {s : Chain} {P Q : Nat} {pa qa : PoolAcc} (h : Arises K s)
    (hp : s.pools P = some pa) (hq : s.pools Q = some qa) :
    pa.baseVault ≠ qa.quoteVault ∧
    (P ≠ Q → pa.baseVault ≠ qa.baseVault ∧ pa.quoteVault ≠ qa.quoteVault ∧ pa.baseMint ≠ qa.baseMint) :=
  ⟨h.inv.cross P Q pa qa hp hq, h.inv.apart P Q pa qa hp hq⟩

/-- C59: all pools are solvent together: each vault holds what its own pool owes from it, and no vault backs two debts. -/
theorem C59_solvent_together {K : Keys} {s : Chain} {P : Nat} {pa : PoolAcc} (h : Arises K s) (hp : s.pools P = some pa) :
    ∃ w, Reachable w ∧ Shows s P w ∧ ∀ t, ∃ b, balance s (vaultAt pa t) = some b ∧ owed w t ≤ b := by
  obtain ⟨w, hw, sh⟩ := C59_every_pool_reachable h hp
  refine ⟨w, hw, sh, fun t => ?_⟩
  obtain ⟨pa', hp', _, _, _, _, hb, hq, _⟩ := sh.acc
  rw [hp] at hp'
  cases hp'
  cases t
  · exact ⟨_, hb, (C13_vaults_solvent hw).2 .base⟩
  · exact ⟨_, hq, (C13_vaults_solvent hw).2 .quote⟩

/-! ## C60 -/

theorem outside_step {w w' : World} {op : Op} (ho : Outside op) (h : w.step op = .ok w') :
    w'.pool = w.pool ∧ w'.cfg = w.cfg ∧ w.baseVault ≤ w'.baseVault ∧ w.quoteVault ≤ w'.quoteVault ∧
    w.lamports ≤ w'.lamports := by
  cases op <;> first | exact False.elim ho | skip
  case donate b q l =>
    obtain ⟨_, _, rfl⟩ := donate_ok h
    exact ⟨rfl, rfl, Nat.le_add_right _ _, Nat.le_add_right _ _, Nat.le_add_right _ _⟩
  case mintMore g x =>
    obtain ⟨_, _, rfl⟩ := mintMore_ok h
    exact ⟨rfl, rfl, le_refl _, le_refl _, le_refl _⟩
  case burnOwn x =>
    obtain ⟨_, rfl⟩ := burnOwn_ok h
    exact ⟨rfl, rfl, le_refl _, le_refl _, le_refl _⟩
  case createOperator g a p =>
    obtain ⟨_, _, _, _, rfl⟩ := createOperator_ok h
    exact ⟨rfl, rfl, le_refl _, le_refl _, le_refl _⟩
  case closeOperator g a =>
    obtain ⟨_, rfl⟩ := closeOperator_ok h
    exact ⟨rfl, rfl, le_refl _, le_refl _, le_refl _⟩

theorem outside_run {w w' : World} {ops : List Op} (r : Run w ops w') (ho : ∀ o ∈ ops, Outside o) :
    w'.pool = w.pool ∧ w'.cfg = w.cfg ∧ w.baseVault ≤ w'.baseVault ∧ w.quoteVault ≤ w'.quoteVault ∧
    w.lamports ≤ w'.lamports := by
  induction r with
  | nil => exact ⟨rfl, rfl, le_refl _, le_refl _, le_refl _⟩
  | cons h _ ih =>
    obtain ⟨a1, a2, a3, a4, a5⟩ := outside_step (ho _ (List.mem_cons_self ..)) h
    obtain ⟨b1, b2, b3, b4, b5⟩ := ih (fun o h => ho o (List.mem_cons_of_mem _ h))
    exact ⟨b1.trans a1, b2.trans a2, a3.trans b3, a4.trans b4, a5.trans b5⟩

/-- C60: an instruction that is not addressed to a pool leaves the pool's state, configuration and addresses as they are
and takes nothing out of its vaults or its lamports, whatever accounts it is given. -/
theorem C60_others_untouched {K : Keys} {s s' : Chain} {ix : Instr} {P : Nat} {pa : PoolAcc} (h : Arises K s)
    (ht : ix.Typed) (hx : s.exec K ix = .ok s') (hp : s.pools P = some pa) (ha : addressee ix ≠ some P) :
    ∃ pa', s'.pools P = some pa' ∧ pa'.state = pa.state ∧ SameAddresses pa pa' ∧
      s'.configs pa.config = s.configs pa.config ∧ pa.lamports ≤ pa'.lamports ∧
      ∀ t, ∃ b b', balance s (vaultAt pa t) = some b ∧ balance s' (vaultAt pa t) = some b' ∧ b ≤ b' := by
  obtain ⟨w, hw⟩ := view_some h.inv hp
  have key : ∃ w', s'.view K P = some w' ∧ w'.pool = w.pool ∧ w'.cfg = w.cfg ∧ w.baseVault ≤ w'.baseVault ∧
      w.quoteVault ≤ w'.quoteVault ∧ w.lamports ≤ w'.lamports := by
    obtain ⟨_, hc⟩ := exec_step h.inv ht hx
    rcases hc with ⟨Q, op, hq, _, _, _, d3⟩ | ⟨_, _, d2⟩ | ⟨a, _, hn, _, ho⟩
    · obtain ⟨w', ⟨ops, g, r⟩, hv⟩ := d3 P w (fun e => ha (by rw [e]; exact hq)) hw
      exact ⟨w', hv, outside_run r (fun o ho => Gift.outside (g o ho))⟩
    · obtain ⟨ops, w', g, r, hv⟩ := d2 P w hw
      exact ⟨w', hv, outside_run r g⟩
    · have e : P ≠ a.pool := fun e => by rw [e, hn] at hp; cases hp
      exact ⟨w, by rw [(ho P e).2]; exact hw, rfl, rfl, le_refl _, le_refl _, le_refl _⟩
  obtain ⟨w', hv, k1, k2, k3, k4, k5⟩ := key
  obtain ⟨pa1, p1, a1, a2, _, a3, a4, a5, _⟩ := (view_shows hw).acc
  obtain ⟨pa2, p2, b1, b2, _, b3, b4, b5, _⟩ := (view_shows hv).acc
  rw [hp] at p1
  cases p1
  have fx := exec_fixed hx
  obtain ⟨pa3, p3, sa⟩ := fx.pools P pa hp
  rw [p2] at p3
  cases p3
  refine ⟨pa2, p2, ?_, sa, ?_, ?_, fun t => ?_⟩
  · rw [← b1, k1, a1]
  · rw [fx.configs _ _ a3, a3]
  · rw [← a2, ← b2]
    exact k5
  · obtain ⟨_, _, e3, e4⟩ := sa
    cases t
    · exact ⟨_, _, a4, by unfold vaultAt; rw [← e3]; exact b4, k3⟩
    · exact ⟨_, _, a5, by unfold vaultAt; rw [← e4]; exact b5, k4⟩

/-- C60: an instruction addressed to a pool does to that pool what it asks, with the signer and amounts given, as if the pool
were alone and only its own accounts could be named; beyond that the pool can only have received tokens or lamports. -/
theorem C60_addressed {K : Keys} {s s' : Chain} {ix : Instr} {P : Nat} (h : Arises K s) (ht : ix.Typed)
    (hx : s.exec K ix = .ok s') (ha : addressee ix = some P) :
    ∃ op w w1 w' gifts, Asks ix op ∧ Reachable w ∧ Shows s P w ∧ w.step op = .ok w1 ∧ (∀ o ∈ gifts, Gift o) ∧
      Run w1 gifts w' ∧ Shows s' P w' := by
  obtain ⟨_, hc⟩ := exec_step h.inv ht hx
  rcases hc with ⟨Q, op, hq, as, _, ⟨w, w1, w', h1, h2, ⟨ops, g, r⟩, h4⟩, _⟩ | ⟨hn, _, _⟩ | ⟨a, e, _⟩
  · rw [ha] at hq
    cases hq
    exact ⟨op, w, w1, w', ops, as, h.reach h1, view_shows h1, h2, g, r, view_shows h4⟩
  · rw [ha] at hn
    cases hn
  · subst e
    cases ha

/-- C60: a pool appears only by an instruction creating it, in a freshly created state, at an address that held none. -/
theorem C60_new_pools {K : Keys} {s s' : Chain} {ix : Instr} {P : Nat} {pa : PoolAcc} (h : Arises K s) (ht : ix.Typed)
    (hx : s.exec K ix = .ok s') (hn : s.pools P = none) (hp : s'.pools P = some pa) :
    ∃ a w, ix = .initPool a ∧ a.pool = P ∧ pa.config = a.config ∧ Genesis w ∧ w.pool.creator = a.creator ∧ Shows s' P w := by
  obtain ⟨_, hc⟩ := exec_step h.inv ht hx
  rcases hc with ⟨Q, op, _, _, d1, _⟩ | ⟨_, d1, _⟩ | ⟨a, e, _, ⟨c, w, _, _, hi, g, hv⟩, ho⟩
  · rw [(d1 P).2 hn] at hp
    cases hp
  · rw [(d1 P).2 hn] at hp
    cases hp
  · by_cases e1 : P = a.pool
    · subst e1
      subst e
      refine ⟨a, w, rfl, rfl, ?_, g, ?_, view_shows hv⟩
      · simp only [Chain.exec, Chain.initPool, bind_ok, req_ok, need_ok, ok_inj] at hx
        obtain ⟨_, _, _, _, _, _, _, _, _, _, _, _, _, _, _, _, rfl⟩ := hx
        dsimp only [put] at hp
        rw [if_pos rfl] at hp
        cases hp
        rfl
      · obtain ⟨_, _, _, _, _, _, _, _, _, _, _, _, _, rfl⟩ := initPool_ok hi
        rfl
    · rw [(ho P e1).1, hn] at hp
      cases hp

/-! ## C61 -/

theorem observed_same {w w' : World} {dir : TradeDirection} {x y : Trade} (hx : Observed w w' dir x)
    (hy : Observed w w' dir y) : x.paid = y.paid ∧ x.got = y.got := by
  have a := hx.paid (inToken dir)
  have b := hy.paid (inToken dir)
  have c := hx.got (outToken dir)
  have d := hy.got (outToken dir)
  rw [inTok_self] at a b c d
  omega

/-- C61: a swap moves exactly three amounts: what the trader pays, from the account named as input, which is theirs, into the
pool's own vault; what the trader gets, out of the pool's other vault into the account named as output; and the referral fee,
out of the pool's vault of the fee token into the account named as referral, if one is named. No other balance changes,
whatever accounts are named. The direction follows from the input account's mint, and the limits given are kept. -/
theorem C61_swap_payments {K : Keys} {s s' : Chain} {a : SwapIx} (h : Arises K s) (hx : s.exec K (.swap a) = .ok s') :
    ∃ pa w w1 dir x, s.pools a.pool = some pa ∧ Shows s a.pool w ∧
      w.step (.swap ⟨a.mode, a.amount0, a.amount1, dir, a.referral.isSome, a.clk, a.tx⟩) = .ok w1 ∧ Observed w w1 dir x ∧
      (∃ mint, IsAccount s a.input mint a.payer ∧ (dir = .baseToQuote ↔ mint = pa.baseMint)) ∧ a.payer ≠ K.authority ∧
      (a.referral = none → x.referral = 0) ∧
      Moved s s' [⟨some a.input, some (vaultAt pa (inToken dir)), x.paid⟩,
        ⟨some (vaultAt pa (outToken dir)), some a.output, x.got⟩,
        ⟨some (vaultAt pa x.feeToken), a.referral, x.referral⟩] ∧
      (a.mode = 0 → x.paid = a.amount0 ∧ a.amount1 ≤ x.got) ∧ (a.mode = 1 → a.amount1 ≤ x.got) ∧
      (a.mode = 2 → x.got = a.amount0 ∧ x.paid ≤ a.amount1) := by
  obtain ⟨pa, w, w1, dir, x, tin, h1, h2, h3, h4, h5, h6, h7, h8, h9, h10⟩ := swap_moved h.inv (fun _ _ => h.reach) hx
  refine ⟨pa, w, w1, dir, x, h1, view_shows h2, h3, h4, ⟨tin.mint, ⟨tin, h5, rfl, h6⟩, h8⟩, h7, h9, h10, ?_, ?_, ?_⟩
  · intro hm
    obtain ⟨y, o, k1, k2, _⟩ := C04_exact_in h3 hm
    obtain ⟨e1, e2⟩ := observed_same h4 o
    rw [e1, e2]
    exact ⟨k1, k2⟩
  · intro hm
    obtain ⟨cur, fm, r, v1, v2, st⟩ := swap_ok h3
    obtain ⟨_, e2⟩ := observed_same h4 (SwapStep.observed st)
    rw [e2]
    exact ((processSwap_charge st.proc).mode1 hm).1
  · intro hm
    obtain ⟨y, o, k1, k2⟩ := C05_exact_out h3 hm
    obtain ⟨e1, e2⟩ := observed_same h4 o
    rw [e1, e2]
    exact ⟨k1, k2⟩

/-! ## C62 -/

/-- C62: a partner fee claim is signed by the configured fee claimer and pays the accounts the claimer names, out of the
pool's own vaults, per token the smaller of the cap and the balance owed. No other balance changes. -/
theorem C62_partner_fee {K : Keys} {s s' : Chain} {a : ClaimIx} {g mb mq : Nat} (h : Arises K s)
    (hx : s.exec K (.claimPartnerFee a g mb mq) = .ok s') :
    ∃ pa w, s.pools a.pool = some pa ∧ Shows s a.pool w ∧ g = w.cfg.feeClaimer ∧
      Moved s s' [⟨some pa.baseVault, some a.toBase, min mb (partnerFee w .base)⟩,
        ⟨some pa.quoteVault, some a.toQuote, min mq (partnerFee w .quote)⟩] := by
  obtain ⟨pa, c, w, w1, h1, _, h3, h4, h5⟩ := claimPartnerFee_moved h.inv hx
  obtain ⟨k, _⟩ := C18_partner_claim h4
  obtain ⟨hg, _⟩ := claimPartnerFee_ok h4
  have kb := (k .base).2.2
  have kq := (k .quote).2.2
  dsimp only [vault, capOf] at kb kq
  rw [show w.baseVault - w1.baseVault = min mb (partnerFee w .base) by omega,
    show w.quoteVault - w1.quoteVault = min mq (partnerFee w .quote) by omega] at h5
  exact ⟨pa, w, h1, view_shows h3, hg.symm, h5⟩

/-- C62: the same for the creator recorded in the pool. -/
theorem C62_creator_fee {K : Keys} {s s' : Chain} {a : ClaimIx} {g mb mq : Nat} (h : Arises K s)
    (hx : s.exec K (.claimCreatorFee a g mb mq) = .ok s') :
    ∃ pa w, s.pools a.pool = some pa ∧ Shows s a.pool w ∧ g = w.pool.creator ∧
      Moved s s' [⟨some pa.baseVault, some a.toBase, min mb (creatorFee w .base)⟩,
        ⟨some pa.quoteVault, some a.toQuote, min mq (creatorFee w .quote)⟩] := by
  obtain ⟨pa, c, w, w1, h1, _, h3, h4, h5⟩ := claimCreatorFee_moved h.inv hx
  obtain ⟨k, _⟩ := C18_creator_claim h4
  obtain ⟨hg, _⟩ := claimCreatorFee_ok h4
  have kb := (k .base).2.2
  have kq := (k .quote).2.2
  dsimp only [vault, capOf] at kb kq
  rw [show w.baseVault - w1.baseVault = min mb (creatorFee w .base) by omega,
    show w.quoteVault - w1.quoteVault = min mq (creatorFee w .quote) by omega] at h5
  exact ⟨pa, w, h1, view_shows h3, hg.symm, h5⟩

/-- C62: a protocol fee claim needs an operator with the permission, and whatever accounts the operator names, what is paid
arrives at the treasury's own associated token accounts. -/
theorem C62_protocol_fee {K : Keys} {s s' : Chain} {a : ClaimIx} {g mb mq : Nat} (h : Arises K s)
    (hx : s.exec K (.claimProtocolFee a g mb mq) = .ok s') :
    ∃ pa w b q, s.pools a.pool = some pa ∧ Shows s a.pool w ∧ Holds w g .claimProtocolFee ∧
      b = min mb (protocolFee w .base + protocolMigFee w .base) ∧
      q = min mq (protocolFee w .quote + protocolMigFee w .quote) + surplusDue w ∧
      Moved s s' [⟨some pa.baseVault, some (K.ata K.treasury pa.baseMint), b⟩,
        ⟨some pa.quoteVault, some (K.ata K.treasury w.cfg.quoteMint), q⟩] ∧
      (0 < b → ∃ m, IsAccount s (K.ata K.treasury pa.baseMint) m K.treasury) ∧
      (0 < q → ∃ m, IsAccount s (K.ata K.treasury w.cfg.quoteMint) m K.treasury) := by
  obtain ⟨pa, c, w, w1, h1, hc, h3, h4, h5, h6, h7⟩ := claimProtocolFee_moved h.inv hx
  obtain ⟨k, _⟩ := C18_protocol_claim h4
  obtain ⟨hg, _⟩ := claimProtocolFee_ok h4
  have kb := (k .base).vault
  have kq := (k .quote).vault
  dsimp only [vault, capOf, surplusIn] at kb kq
  have sh := view_shows h3
  obtain ⟨pa', p', _, _, _, cf, _⟩ := sh.acc
  rw [h1] at p'
  cases p'
  rw [hc] at cf
  cases cf
  refine ⟨pa, w, _, _, h1, sh, (holds_iff (p := .claimProtocolFee)).1 hg, rfl, rfl, ?_, ?_, ?_⟩
  · rw [show w.baseVault - w1.baseVault = min mb (protocolFee w .base + protocolMigFee w .base) by omega,
      show w.quoteVault - w1.quoteVault = min mq (protocolFee w .quote + protocolMigFee w .quote) + surplusDue w by omega] at h5
    exact h5
  · intro hb
    obtain ⟨t, t1, t2⟩ := h6 (by omega)
    exact ⟨t.mint, t, t1, rfl, t2⟩
  · intro hq
    obtain ⟨t, t1, t2⟩ := h7 (by omega)
    exact ⟨t.mint, t, t1, rfl, t2⟩

/-- C62: a zap needs an operator with the permission and pays that operator's associated token account, out of the pool's
vault for the mint named. The zap-out check has accepted exactly this amount and this account, with the treasury's associated
token account for the pool's other token as destination. -/
theorem C62_zap {K : Keys} {s s' : Chain} {P ck v m r g mx : Nat} {z : ZapCheck} (h : Arises K s)
    (hx : s.exec K (.zapProtocolFee P ck v m r g mx z) = .ok s') :
    ∃ pa w t, s.pools P = some pa ∧ Shows s P w ∧ Holds w g .zapProtocolFee ∧ v = vaultAt pa t ∧ m = mintOf pa w.cfg t ∧
      m ∉ K.noZap ∧ (∃ m', IsAccount s (K.ata g m) m' g) ∧ ∃ x, x = min mx (protocolFee w t + protocolMigFee w t) + surplusIn w t ∧
      Moved s s' [⟨some (vaultAt pa t), some (K.ata g m), x⟩] ∧
      z x (K.ata g m) K.treasury (K.ata K.treasury (mintOf pa w.cfg (other t))) = true := by
  obtain ⟨pa, c, w, w1, ib, ok, h1, hc, h3, h4, h5, h6, ⟨t, t1, t2⟩, hz, hok⟩ := zapProtocolFee_moved h.inv hx
  obtain ⟨k, k2, _⟩ := C18_protocol_zap h4
  obtain ⟨hg, hal, _, _⟩ := zapProtocolFee_ok h4
  have hno : m ∉ K.noZap := of_decide_eq_true (hok.symm.trans hal)
  have sh := view_shows h3
  obtain ⟨pa', p', _, _, _, cf, _⟩ := sh.acc
  rw [h1] at p'
  cases p'
  rw [hc] at cf
  cases cf
  rcases h5 with ⟨rfl, h5, h5'⟩ | ⟨rfl, h5, h5'⟩
  · have kv := k.vault
    have ko := k2.1
    simp only [if_true] at kv ko hz
    dsimp only [vault] at kv ko
    refine ⟨pa, w, .base, h1, sh, (holds_iff (p := .zapProtocolFee)).1 hg, h5', h5, hno,
      ⟨t.mint, t, t1, rfl, t2⟩, _, rfl, ?_⟩
    rw [show w.baseVault - w1.baseVault + (w.quoteVault - w1.quoteVault) =
      min mx (protocolFee w .base + protocolMigFee w .base) + surplusIn w .base by omega] at h6 hz
    rw [h5'] at h6
    exact ⟨h6, hz⟩
  · have kv := k.vault
    have ko := k2.1
    simp only [Bool.false_eq_true, if_false] at kv ko hz
    dsimp only [vault] at kv ko
    refine ⟨pa, w, .quote, h1, sh, (holds_iff (p := .zapProtocolFee)).1 hg, h5', h5, hno,
      ⟨t.mint, t, t1, rfl, t2⟩, _, rfl, ?_⟩
    rw [show w.baseVault - w1.baseVault + (w.quoteVault - w1.quoteVault) =
      min mx (protocolFee w .quote + protocolMigFee w .quote) + surplusIn w .quote by omega] at h6 hz
    rw [h5'] at h6
    exact ⟨h6, hz⟩

/-- C62: the leftover goes to the associated token account of the configured receiver, whoever asks. -/
theorem C62_leftover {K : Keys} {s s' : Chain} {P ck v m r t : Nat} (h : Arises K s)
    (hx : s.exec K (.withdrawLeftover P ck v m r t) = .ok s') :
    ∃ pa w x, s.pools P = some pa ∧ Shows s P w ∧ vault w .base = fees w .base + protocolMigFee w .base + x ∧
      Moved s s' [⟨some pa.baseVault, some (K.ata w.cfg.leftoverReceiver pa.baseMint), x⟩] ∧
      ∃ m', IsAccount s (K.ata w.cfg.leftoverReceiver pa.baseMint) m' w.cfg.leftoverReceiver := by
  obtain ⟨pa, c, w, w1, h1, hc, h3, h4, h5, u, u1, u2⟩ := withdrawLeftover_moved h.inv hx
  have sh := view_shows h3
  obtain ⟨pa', p', _, _, _, cf, _⟩ := sh.acc
  rw [h1] at p'
  cases p'
  rw [hc] at cf
  cases cf
  obtain ⟨k1, k2, k3, _⟩ := C33_vault_covers h4
  obtain ⟨_, _, _, _, f, y, e1, e2, e3⟩ := withdrawLeftover_ok h4
  dsimp only [vault] at k1
  refine ⟨pa, w, _, h1, sh, ?_, h5, ⟨u.mint, u, u1, rfl, u2⟩⟩
  have : w1.baseVault = f + w.pool.protocolMigBaseFee := by rw [e3]
  dsimp only [vault]
  omega

/-- C62: surpluses and migration fees are taken from the pool's own quote vault by the fee claimer or the creator, each
exactly their share, into the account they name. -/
theorem C62_shares {K : Keys} {s s' : Chain} {a : QuoteIx} {g f : Nat} (h : Arises K s) :
    (s.exec K (.partnerWithdrawSurplus a g) = .ok s' → ∃ pa w, s.pools a.pool = some pa ∧ Shows s a.pool w ∧
      Completed w ∧ g = w.cfg.feeClaimer ∧ Moved s s' [⟨some pa.quoteVault, some a.toQuote, partnerSurplus w⟩]) ∧
    (s.exec K (.creatorWithdrawSurplus a g) = .ok s' → ∃ pa w, s.pools a.pool = some pa ∧ Shows s a.pool w ∧
      Completed w ∧ g = w.pool.creator ∧ Moved s s' [⟨some pa.quoteVault, some a.toQuote, creatorSurplus w⟩]) ∧
    (s.exec K (.withdrawMigrationFee a g f) = .ok s' → ∃ pa w, s.pools a.pool = some pa ∧ Shows s a.pool w ∧
      Completed w ∧
      (f = 0 ∧ g = w.cfg.feeClaimer ∧ Moved s s' [⟨some pa.quoteVault, some a.toQuote, partnerMigrationFee w⟩] ∨
       f = 1 ∧ g = w.pool.creator ∧ Moved s s' [⟨some pa.quoteVault, some a.toQuote, creatorMigrationFee w⟩])) := by
  refine ⟨fun hx => ?_, fun hx => ?_, fun hx => ?_⟩
  · obtain ⟨pa, c, w, w1, h1, hc, h3, h4, h5⟩ :=
      quoteOut_moved (op := .partnerWithdrawSurplus g) (fun _ => rfl) trivial trivial h.inv hx
    obtain ⟨hg, hd, hn, _⟩ := partnerWithdrawSurplus_ok h4
    obtain ⟨w2, k1, _, k3⟩ := (C14_shares_never_starved (h.reach h3) hd).1 hn
    rw [hg, h4] at k1
    cases k1
    rw [show w.quoteVault - w1.quoteVault = partnerSurplus w by omega] at h5
    exact ⟨pa, w, h1, view_shows h3, hd, hg.symm, h5⟩
  · obtain ⟨pa, c, w, w1, h1, hc, h3, h4, h5⟩ :=
      quoteOut_moved (op := .creatorWithdrawSurplus g) (fun _ => rfl) trivial trivial h.inv hx
    obtain ⟨hg, hd, hn, _⟩ := creatorWithdrawSurplus_ok h4
    obtain ⟨w2, k1, _, k3⟩ := (C14_shares_never_starved (h.reach h3) hd).2.1 hn
    rw [hg, h4] at k1
    cases k1
    rw [show w.quoteVault - w1.quoteVault = creatorSurplus w by omega] at h5
    exact ⟨pa, w, h1, view_shows h3, hd, hg.symm, h5⟩
  · obtain ⟨pa, c, w, w1, h1, hc, h3, h4, h5⟩ :=
      quoteOut_moved (op := .withdrawMigrationFee g f) (fun _ => rfl) trivial trivial h.inv hx
    obtain ⟨hd, hcase⟩ := withdrawMigrationFee_ok h4
    refine ⟨pa, w, h1, view_shows h3, hd, ?_⟩
    rcases hcase with ⟨hf, hg, hn, _⟩ | ⟨hf, hg, hn, _⟩
    · obtain ⟨w2, k1, _, k3⟩ := (C14_shares_never_starved (h.reach h3) hd).2.2.1 hn
      rw [hf, hg] at h4
      rw [h4] at k1
      cases k1
      rw [show w.quoteVault - w1.quoteVault = partnerMigrationFee w by omega] at h5
      exact .inl ⟨hf, hg, h5⟩
    · obtain ⟨w2, k1, _, k3⟩ := (C14_shares_never_starved (h.reach h3) hd).2.2.2 hn
      rw [hf, hg] at h4
      rw [h4] at k1
      cases k1
      rw [show w.quoteVault - w1.quoteVault = creatorMigrationFee w by omega] at h5
      exact .inr ⟨hf, hg, h5⟩

/-- C62: the protocol's part of the creation fee goes to the treasury and the partner's is signed for by the fee claimer. -/
theorem C62_creation_fee {K : Keys} {s s' : Chain} {P ck r g : Nat} (h : Arises K s) :
    (s.exec K (.claimProtocolCreationFee P ck r g) = .ok s' →
      r = K.treasury ∧ ∃ w, Shows s P w ∧ Holds w g .claimProtocolFee) ∧
    (s.exec K (.claimPartnerCreationFee P ck r g) = .ok s' → ∃ w, Shows s P w ∧ g = w.cfg.feeClaimer) := by
  refine ⟨fun hx => ?_, fun hx => ?_⟩
  · obtain ⟨op, w, w1, _, _, as, _, sh, st, _⟩ := C60_addressed (ix := .claimProtocolCreationFee P ck r g) h trivial hx rfl
    cases as
    simp only [Chain.exec, Chain.claimProtocolCreationFee, bind_ok, req_ok] at hx
    obtain ⟨_, e, _⟩ := hx
    exact ⟨e, w, sh, (holds_iff (p := .claimProtocolFee)).1 (claimProtocolCreationFee_ok st).1⟩
  · obtain ⟨op, w, w1, _, _, as, _, sh, st, _⟩ := C60_addressed (ix := .claimPartnerCreationFee P ck r g) h trivial hx rfl
    cases as
    exact ⟨w, sh, (claimPartnerCreationFee_ok st).1.symm⟩

/-! ## C63 -/

/-- C63: no instruction of the program, with whatever accounts, takes tokens out of an account that is not the pool
authority's, except a swap signed by the account's owner that names it as input. Outside the program only the owner can
spend, burn or hand over the account, and the mint's permanent delegate, if it has one, can move tokens. -/
theorem C63_no_theft {K : Keys} {s s' : Chain} {ix : Instr} {x : Nat} {t : TokenAcc} (h : Arises K s)
    (hx : s.exec K ix = .ok s') (ht : getTok s.tokens x = some t) (ho : t.owner ≠ K.authority) :
    (∃ t', getTok s'.tokens x = some t' ∧ t'.mint = t.mint ∧ t'.owner = t.owner ∧ t.amount ≤ t'.amount) ∨
    Spends ix x t.owner ∨ (∃ m o, ix = .reassign t.owner x m o) ∨ ∃ m y a, ix = .seize m x y a :=
  exec_kind h.inv (fun _ _ => h.reach) hx ht ho

/-! ## C64 -/

/-- C64: both mints of every pool are free of transfer fees and of permanent delegates, so vaults receive what is sent and
nobody but the program can take tokens out of them. -/
theorem C64_plain_mints {K : Keys} {s : Chain} {P : Nat} {pa : PoolAcc} {c : PoolConfig} (h : Arises K s)
    (hp : s.pools P = some pa) (hc : s.configs pa.config = some c) :
    FreeOfFees s pa.baseMint ∧ FreeOfFees s c.quoteMint := by
  have free : ∀ m : MintAcc, m.Plain → (m.program = 0 ∨ Ext.transferFee ∉ m.exts ∧ Ext.permanentDelegate ∉ m.exts) := by
    intro m hm
    obtain ⟨h1, h2⟩ := hm
    by_cases e : m.program = 0
    · exact .inl e
    · unfold MintAcc.has at h1 h2
      rw [decide_eq_true e, Bool.true_and] at h1 h2
      exact .inr ⟨of_decide_eq_false h1, of_decide_eq_false h2⟩
  obtain ⟨c', bv, qv, bm, w⟩ := h.inv.wired P pa hp
  have e := w.cfg
  rw [hc] at e
  cases e
  obtain ⟨_, m, hm, pm⟩ := h.inv.cfg _ _ hc
  exact ⟨⟨bm, w.mint, free bm w.plain⟩, ⟨m, hm, free m pm⟩⟩

/-! ## Examples -/

theorem typed_all : ∀ ix ∈ Ex.setUp ++ Ex.dealing ++ Ex.finishing, ix.Typed := by
  simp only [Ex.setUp, Ex.dealing, Ex.finishing, List.cons_append, List.nil_append, List.forall_mem_cons]
  refine ⟨?_, ?_, ?_, ?_, ?_, ?_, ?_⟩
  case refine_5 => exact Ex.typedA
  case refine_6 => exact Ex.typedB
  all_goals first | exact trivial | skip
  refine ⟨trivial, trivial, trivial, trivial, trivial, trivial, trivial, trivial, trivial, trivial, trivial, trivial, trivial,
    trivial, trivial, trivial, trivial, trivial, trivial, trivial, trivial, trivial, trivial, trivial, trivial, trivial,
    trivial, trivial, trivial, trivial, trivial, trivial, trivial, trivial, trivial, trivial, trivial, trivial, trivial,
    trivial, trivial, trivial, trivial, trivial, ?_⟩
  intro x hx
  cases hx

/-- The example history and its states. -/
def history : List Instr := Ex.setUp ++ Ex.dealing ++ Ex.finishing
def stateAt (n : Nat) : Chain := Ex.chainOf (history.take n)
def stepTo (s : Chain) (ix : Instr) : Chain :=
  match s.exec Ex.keys ix with
  | .ok s' => s'
  | .error _ => s

theorem arises_at (n : Nat) (h : (Ex.play (Chain.empty [40]) (history.take n)).isOk = true) :
    Arises Ex.keys (stateAt n) :=
  ⟨[40], _, Ex.chainRun h (fun ix hi => typed_all ix (List.mem_of_mem_take hi))⟩

theorem exec_isOk {s : Chain} {ix : Instr} (h : (s.exec Ex.keys ix).isOk = true) :
    s.exec Ex.keys ix = .ok (stepTo s ix) := by
  unfold stepTo
  cases hs : s.exec Ex.keys ix with
  | error e => rw [hs] at h; cases h
  | ok s' => rfl

/-- The sale in the first pool that names the second pool's quote vault as referral account. -/
def oddSale : Instr := Ex.trade 300 73 71 (some 200301007) 0 10000000000000 1 70

/-- Two pools trade on one chain. The odd sale succeeds, is addressed to the first pool, and the second pool's vault gains. -/
theorem C59_C60_example : Arises Ex.keys (stateAt 23) ∧ (stateAt 23).exec Ex.keys oddSale = .ok (stepTo (stateAt 23) oddSale) ∧
    oddSale.Typed ∧ ((stateAt 23).pools 200300).isSome ∧ ((stateAt 23).pools 200301).isSome ∧
    addressee oddSale = some 200300 ∧ addressee oddSale ≠ some 200301 ∧
    balance (stateAt 23) 200301007 = some 1000000000 ∧ balance (stepTo (stateAt 23) oddSale) 200301007 = some 1094891457 := by
  refine ⟨arises_at 23 (by decide +kernel), exec_isOk (by decide +kernel), trivial, ?_⟩
  decide +kernel

/-- In the odd sale account 73 pays 10000000000000 base tokens into the pool's vault, account 71 is paid, and the referral fee
goes to the other pool's vault. Another trade of the history names the pool's own base vault as output. -/
theorem C61_example : Arises Ex.keys (stateAt 23) ∧ (stateAt 23).exec Ex.keys oddSale = .ok (stepTo (stateAt 23) oddSale) ∧
    balance (stateAt 23) 73 = some 215602836879432 ∧ balance (stepTo (stateAt 23) oddSale) 73 = some 205602836879432 ∧
    balance (stateAt 23) 200300300 = some 2784397163120568 ∧
    balance (stepTo (stateAt 23) oddSale) 200300300 = some 2794397163120568 ∧
    balance (stateAt 23) 200300007 = some 1000000000000 ∧ balance (stepTo (stateAt 23) oddSale) 200300007 = some 952853644922 ∧
    balance (stateAt 23) 71 = some 998999000000000 ∧ balance (stepTo (stateAt 23) oddSale) 71 = some 999046051463621 ∧
    Arises Ex.keys (stateAt 25) ∧
    ((stateAt 25).exec Ex.keys (Ex.trade 300 71 200300300 none 0 1000000000 1 90)).isOk = true := by
  refine ⟨arises_at 23 (by decide +kernel), exec_isOk (by decide +kernel), ?_⟩
  have h := arises_at 25 (by decide +kernel)
  refine ⟨?_, ?_, ?_, ?_, ?_, ?_, ?_, ?_, h, ?_⟩ <;> decide +kernel

/-- Every kind of payout succeeds in the history, with something to pay; a protocol claim naming another account for the
treasury's is refused. -/
theorem C62_example : Arises Ex.keys (stateAt 34) ∧
    ((stateAt 34).exec Ex.keys (.claimProtocolFee (Ex.ownClaim (Ex.keys.ata 2 300) (Ex.keys.ata 2 7)) 31 5 1000000)).isOk = true ∧
    ((stateAt 34).exec Ex.keys (.claimProtocolFee (Ex.ownClaim (Ex.keys.ata 2 300) 71) 31 5 1000000)).isOk = false ∧
    balance (stateAt 34) (Ex.keys.ata 2 7) = some 0 ∧ balance (stateAt 35) (Ex.keys.ata 2 7) = some 1000001 ∧
    ((stateAt 34).exec Ex.keys (.zapProtocolFee 200300 80 200300007 7 (Ex.keys.ata 31 7) 31 1000
      fun a r t d => decide (a = 1001 ∧ r = Ex.keys.ata 31 7 ∧ t = 2 ∧ d = Ex.keys.ata 2 300))).isOk = true ∧
    ((stateAt 34).exec Ex.keys (.claimPartnerFee (Ex.ownClaim 77 76) 11 1000 2000)).isOk = true ∧
    ((stateAt 34).exec Ex.keys (.claimCreatorFee (Ex.ownClaim 73 71) 21 1000 2000)).isOk = true ∧
    ((stateAt 34).exec Ex.keys (.partnerWithdrawSurplus (Ex.ownQuote 76) 11)).isOk = true ∧
    ((stateAt 34).exec Ex.keys (.creatorWithdrawSurplus (Ex.ownQuote 71) 21)).isOk = true ∧
    ((stateAt 34).exec Ex.keys (.withdrawMigrationFee (Ex.ownQuote 76) 11 0)).isOk = true ∧
    ((stateAt 34).exec Ex.keys (.withdrawMigrationFee (Ex.ownQuote 71) 21 1)).isOk = true ∧
    ((stateAt 34).exec Ex.keys (.withdrawLeftover 200300 80 200300300 300 12 (Ex.keys.ata 12 300))).isOk = true ∧
    ((stateAt 34).exec Ex.keys (.claimPartnerCreationFee 200300 80 11 11)).isOk = true ∧
    ((stateAt 34).exec Ex.keys (.claimProtocolCreationFee 200300 80 2 31)).isOk = true ∧ Arises Ex.keys (stateAt 50) := by
  refine ⟨arises_at 34 (by decide +kernel), ?_⟩
  have h := arises_at 50 (by decide +kernel)
  refine ⟨?_, ?_, ?_, ?_, ?_, ?_, ?_, ?_, ?_, ?_, ?_, ?_, ?_, ?_, h⟩ <;> decide +kernel

/-- An account of a holder, of the fee-taking mint, with tokens in it; the whole history but two instructions leaves them
there. -/
theorem C63_example : Arises Ex.keys (stateAt 27) ∧ getTok (stateAt 27).tokens 78 = some ⟨9, 21, 5000⟩ ∧
    (21 : Nat) ≠ Ex.keys.authority ∧ ((stateAt 27).exec Ex.keys (.seize 9 78 79 1000)).isOk = true ∧
    getTok (stateAt 28).tokens 78 = some ⟨9, 21, 4000⟩ ∧ getTok (stateAt 50).tokens 78 = some ⟨9, 21, 4000⟩ := by
  refine ⟨arises_at 27 (by decide +kernel), ?_⟩
  decide +kernel

/-- The fee-taking mint exists, but is refused as a quote mint; the plain one is accepted. -/
theorem C64_example : Arises Ex.keys (stateAt 50) ∧ ((stateAt 50).pools 200301).isSome ∧
    (((stateAt 50).mints 9).map fun m => decide (Ext.transferFee ∈ m.exts)) = some true ∧
    ((stateAt 50).exec Ex.keys (.createConfig 82 9 11 12 1000000 Ex.paramsA)).isOk = false ∧
    ((stateAt 50).exec Ex.keys (.createConfig 82 7 11 12 1000000 Ex.paramsA)).isOk = true := by
  refine ⟨arises_at 50 (by decide +kernel), ?_⟩
  decide +kernel

end Props

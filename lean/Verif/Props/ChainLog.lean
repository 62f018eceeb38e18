import Verif.Model.ChainEvent
import Verif.Props.Event
import Verif.Props.Chain
import Verif.Props.ChainGo
import Verif.Props.Alike

/-!
# C101: the chain's log tells every pool's story
-/

namespace Spec
open Dbc

/-- The events of a log that name pool `P`, in order. -/
def naming (P : Nat) (es : List (Nat × Event)) : List Event := (es.filter fun x => x.1 = P).map (·.2)

end Spec

namespace Props
open Dbc Spec

theorem naming_append {P : Nat} {es fs : List (Nat × Event)} : naming P (es ++ fs) = naming P es ++ naming P fs := by
  unfold naming
  rw [List.filter_append, List.map_append]

theorem naming_own {P : Nat} {es : List Event} : naming P (es.map (P, ·)) = es := by
  induction es with
  | nil => rfl
  | cons e es ih =>
    unfold naming at ih ⊢
    rw [List.map_cons, List.filter_cons_of_pos (by simp), List.map_cons, ih]

theorem naming_other {P Q : Nat} {es : List Event} (h : Q ≠ P) : naming P (es.map (Q, ·)) = [] := by
  induction es with
  | nil => rfl
  | cons e es ih =>
    unfold naming at ih ⊢
    rw [List.map_cons, List.filter_cons_of_neg (by simpa using h), ih]

theorem outside_silent {o : Op} (h : Outside o) (w : World) : w.log o = .ok [] := by
  cases o <;> first | rfl | exact False.elim h

theorem run_silent {w w' : World} {ops : List Op} (h : ∀ o ∈ ops, Outside o) (hr : Run w ops w') {es : List Event}
    (h0 : Tells es w) : Tells es w' := by
  induction hr with
  | nil => exact h0
  | cons hs _ ih =>
    obtain ⟨es1, he, s⟩ := step_log hs
    rw [outside_silent (h _ (List.mem_cons_self ..)), ok_inj] at he
    subst he
    have := Tells.append h0 s
    rw [List.append_nil] at this
    exact ih (fun o ho => h o (List.mem_cons_of_mem _ ho)) this

/-- An instruction that names no pool to report on asks something silent; otherwise it asks what is reported. -/
theorem asked_did {K : Keys} {s s' : Chain} {ix : Instr} {P : Nat} (i : Inv K s still) (ht : ix.Typed) (h : s.exec K ix = .ok s')
    (hP : addressee ix = some P) : ∃ op, Did K s s' P op ∧
      (s.asked ix = some (P, op) ∨ s.asked ix = none ∧ ∀ w : World, w.log op = .ok []) := by
  by_cases hsw : ∃ a, ix = .swap a
  · obtain ⟨a, rfl⟩ := hsw
    cases hP
    obtain ⟨m, -, h2, hm⟩ := swap_did i h
    refine ⟨_, h2, .inl ?_⟩
    show (getTok s.tokens a.input).map _ = _
    cases hg : getTok s.tokens a.input with
    | none => rw [hg] at hm; cases hm
    | some t => rw [hg] at hm; cases hm; rfl
  · rcases (exec_step i ht h).2 with ⟨Q, op, hq, has, d⟩ | ⟨hn, -⟩ | ⟨a, rfl, -⟩
    · rw [hq] at hP
      cases hP
      refine ⟨op, d, ?_⟩
      cases has
      case swap a _ _ _ _ _ _ _ => exact False.elim (hsw ⟨a, rfl⟩)
      all_goals first | (cases hq; exact .inl rfl) | exact .inr ⟨rfl, fun _ => rfl⟩
    · rw [hn] at hP; cases hP
    · cases hP

theorem emitted_of {K : Keys} {s s' : Chain} {ix : Instr} {P : Nat} {op : Op} {w : World} {es : List Event}
    (ha : s.asked ix = some (P, op)) (hv : s.view K P = some w) (hl : w.log op = .ok es) :
    s.emitted K s' ix = es.map (P, ·) := by
  unfold Chain.emitted
  split
  · cases ha
  · simp only [ha, hv, hl]

theorem emitted_silent {K : Keys} {s s' : Chain} {ix : Instr} (hi : ∀ a, ix ≠ .initPool a) (ha : s.asked ix = none) :
    s.emitted K s' ix = [] := by
  unfold Chain.emitted
  split
  · exact False.elim (hi _ rfl)
  · simp only [ha]

/-- One instruction: the events naming a pool carry its story on, and a pool comes with the event of its creation. -/
theorem emitted_tells {K : Keys} {s s' : Chain} {ix : Instr} (h : Arises K s) (ht : ix.Typed) (hx : s.exec K ix = .ok s')
    {P : Nat} {w' : World} (hv' : s'.view K P = some w') {es : List Event}
    (h0 : ∀ w, s.view K P = some w → Tells es w) (hnew : s.pools P = none → es = []) :
    Tells (es ++ naming P (s.emitted K s' ix)) w' := by
  rcases (exec_step h.inv ht hx).2 with ⟨Q, op, hq, has, -⟩ | ⟨hn, d1, d2⟩ | ⟨a, rfl, hn, ⟨c, w, -, -, -, hg, hv⟩, ho⟩
  · obtain ⟨op, ⟨d1, ⟨u, u1, u', e1, e2, ⟨gs, g, gr⟩, e4⟩, d3⟩, ha⟩ := asked_did h.inv ht hx hq
    have hi : ∀ a, ix ≠ .initPool a := by
      rintro a rfl
      cases hq
    obtain ⟨fs, hl, ls⟩ := step_log e2
    have hem : s.emitted K s' ix = fs.map (Q, ·) := by
      rcases ha with ha | ⟨ha, hs⟩
      · exact emitted_of ha e1 hl
      · rw [hs, ok_inj] at hl
        subst hl
        exact emitted_silent hi ha
    rw [hem]
    by_cases hQ : Q = P
    · subst hQ
      rw [naming_own]
      rw [e4] at hv'
      cases hv'
      exact run_silent (fun o ho => Gift.outside (g o ho)) gr (Tells.append (h0 u e1) ls)
    · rw [naming_other hQ, List.append_nil]
      obtain ⟨pb, hp⟩ := view_pool hv'
      cases hp0 : s.pools P with
      | none => rw [(d1 P).2 hp0] at hp; cases hp
      | some pa =>
        obtain ⟨w, hw⟩ := view_some h.inv hp0
        obtain ⟨w2, ⟨gs, g, gr⟩, e⟩ := d3 P w (Ne.symm hQ) hw
        rw [e] at hv'
        cases hv'
        exact run_silent (fun o ho => Gift.outside (g o ho)) gr (h0 w hw)
  · have hem : s.emitted K s' ix = [] := by
      refine emitted_silent ?_ ?_
      · rintro a rfl
        obtain ⟨-, h2⟩ := initPool_new h.inv hx
        obtain ⟨w, hw⟩ := (show ∃ w, s'.view K a.pool = some w from by obtain ⟨c, w, -, -, -, -, hw⟩ := h2.2.1; exact ⟨w, hw⟩)
        obtain ⟨pb, hp⟩ := view_pool hw
        rw [(d1 a.pool).2 h2.1] at hp
        cases hp
      · cases ix <;> first | rfl | cases hn
    rw [hem]
    show Tells (es ++ []) w'
    rw [List.append_nil]
    obtain ⟨pb, hp⟩ := view_pool hv'
    cases hp0 : s.pools P with
    | none => rw [(d1 P).2 hp0] at hp; cases hp
    | some pa =>
      obtain ⟨w, hw⟩ := view_some h.inv hp0
      obtain ⟨l, w2, g, gr, e⟩ := d2 P w hw
      rw [e] at hv'
      cases hv'
      exact run_silent g gr (h0 w hw)
  · have hem : s.emitted K s' (.initPool a) = w.initLog.map (a.pool, ·) := by
      unfold Chain.emitted
      simp only [hv]
    rw [hem]
    by_cases hQ : a.pool = P
    · subst hQ
      rw [naming_own, hnew hn]
      rw [hv] at hv'
      cases hv'
      exact genesis_tells hg
    · rw [naming_other hQ, List.append_nil]
      exact h0 w' (by rw [← (ho P (Ne.symm hQ)).2]; exact hv')

theorem Tells.of_same {es : List Event} {w v : World} (h : Tells es w) (h1 : v.cfg = w.cfg) (h2 : v.pool = w.pool)
    (h3 : v.led = w.led) : Tells es v := by
  cases w
  cases v
  dsimp only at h1 h2 h3
  subst h1 h2 h3
  exact ⟨h.paid, h.got, h.referral, h.trading, h.protocol, h.partner, h.creator, h.partnerSurplus, h.creatorSurplus, h.partnerMig,
    h.creatorMig, h.leftover, h.partnerLamports, h.protocolLamports, h.price, h.reserve, h.owner, h.completions⟩

theorem log_run {K : Keys} {s s' : Chain} {es : List (Nat × Event)} (h : ChainLog K s es s') : ∃ ixs, ChainRun K s ixs s' := by
  induction h with
  | nil => exact ⟨_, .nil _⟩
  | snoc _ ht hx ih =>
    obtain ⟨l, r⟩ := ih
    exact ⟨_, .snoc r ht hx⟩

theorem chainLog_both {K : Keys} {admins : List Nat} {s : Chain} {es : List (Nat × Event)}
    (h : ChainLog K (Chain.empty admins) es s) (P : Nat) :
    (s.pools P = none → naming P es = []) ∧ ∀ w, s.view K P = some w → Tells (naming P es) w := by
  generalize hs0 : Chain.empty admins = s0 at h
  induction h with
  | nil =>
    subst hs0
    refine ⟨fun _ => rfl, fun w hw => ?_⟩
    obtain ⟨pa, hp⟩ := view_pool hw
    cases hp
  | @snoc s1 s2 es ix hr ht hx ih =>
    subst hs0
    have ha : Arises K s1 := by
      obtain ⟨l, r⟩ := log_run hr
      exact ⟨admins, l, r⟩
    refine ⟨fun hn => ?_, fun w hw => by
      rw [naming_append]
      exact emitted_tells ha ht hx hw ih.2 ih.1⟩
    rw [naming_append]
    have key : s1.pools P = none ∧ naming P (s1.emitted K s2 ix) = [] := by
      rcases (exec_step ha.inv ht hx).2 with ⟨Q, op, hq, has, -⟩ | ⟨hno, d1, d2⟩ | ⟨a, rfl, hn1, ⟨c, w, -, -, -, hg, hv⟩, ho⟩
      · obtain ⟨op, ⟨d1, ⟨u, u1, u', e1, e2, -, e4⟩, -⟩, hask⟩ := asked_did ha.inv ht hx hq
        refine ⟨(d1 P).1 hn, ?_⟩
        rcases hask with hask | ⟨hask, -⟩
        · obtain ⟨fs, hl, -⟩ := step_log e2
          rw [emitted_of hask e1 hl]
          refine naming_other ?_
          rintro rfl
          obtain ⟨pa, hp⟩ := view_pool e4
          rw [hn] at hp
          cases hp
        · rw [emitted_silent (by rintro a rfl; cases hq) hask]
          rfl
      · refine ⟨(d1 P).1 hn, ?_⟩
        by_cases hi : ∃ a, ix = .initPool a
        · obtain ⟨a, rfl⟩ := hi
          obtain ⟨-, h2, ⟨c, w, -, -, -, -, hw⟩, -⟩ := initPool_new ha.inv hx
          obtain ⟨pb, hp⟩ := view_pool hw
          rw [(d1 a.pool).2 h2] at hp
          cases hp
        · rw [emitted_silent (fun a e => hi ⟨a, e⟩) (by cases ix <;> first | rfl | cases hno)]
          rfl
      · have hP : a.pool ≠ P := by
          rintro rfl
          obtain ⟨pa, hp⟩ := view_pool hv
          rw [hn] at hp
          cases hp
        refine ⟨by rw [← (ho P (Ne.symm hP)).1]; exact hn, ?_⟩
        have hem : s1.emitted K s2 (.initPool a) = w.initLog.map (a.pool, ·) := by
          unfold Chain.emitted
          simp only [hv]
        rw [hem]
        exact naming_other hP
    rw [ih.1 key.1, key.2]
    rfl

/-- C101: the log of the chain tells every pool's story. Whoever keeps the log, and picks out the events that name a pool, in
order, reads off them all that `Tells` lists about that pool: what traders paid and got, the fees, the claims and withdrawals, the
lamports, the price, the reserve, the creator and whether the curve is complete. Instructions on other pools, and whatever
outsiders do, do not disturb it. A pool that does not exist is not named. -/
theorem C101_log_tells {K : Keys} {admins : List Nat} {s : Chain} {es : List (Nat × Event)}
    (h : ChainLog K (Chain.empty admins) es s) (P : Nat) :
    (∀ w, Shows s P w → Tells (naming P es) w) ∧ (s.pools P = none → naming P es = []) := by
  refine ⟨fun w hw => ?_, (chainLog_both h P).1⟩
  obtain ⟨l, r⟩ := log_run h
  obtain ⟨pa, hp, k1, -, k3, k4, -⟩ := hw.acc
  obtain ⟨w0, hv⟩ := view_some (Arises.inv ⟨admins, l, r⟩) hp
  obtain ⟨pb, hp', m1, -, m3, m4, -⟩ := (view_shows hv).acc
  rw [hp] at hp'
  cases hp'
  rw [k4] at m4
  exact Tells.of_same ((chainLog_both h P).2 w0 hv) (Option.some.inj m4) (k1.trans m1.symm) (k3.trans m3.symm)

/-- C101: every history has a log. -/
theorem C101_log_exists {K : Keys} {s s' : Chain} {ixs : List Instr} (h : ChainRun K s ixs s') : ∃ es, ChainLog K s es s' := by
  induction h with
  | nil => exact ⟨_, .nil _⟩
  | snoc _ ht hx ih =>
    obtain ⟨es, r⟩ := ih
    exact ⟨_, .snoc r ht hx⟩

/-- C101, one swap: it writes one swap event, under its pool, and the amounts the event gives are the tokens that moved: from the
account named as input to the pool's vault, from the pool's other vault to the account named as output, and to the account named
as referral. The price it gives is the pool's price afterwards. -/
theorem C101_swap {K : Keys} {s s' : Chain} {a : SwapIx} (h : Arises K s) (hx : s.exec K (.swap a) = .ok s') :
    ∃ pa pa' e rest, s.pools a.pool = some pa ∧ s'.pools a.pool = some pa' ∧
      s.emitted K s' (.swap a) = (a.pool, .swap e) :: rest ∧ (∀ x ∈ rest, x.1 = a.pool ∧ ∀ f, x.2 ≠ .swap f) ∧
      (∃ mint, IsAccount s a.input mint a.payer ∧ (e.dir = .baseToQuote ↔ mint = pa.baseMint)) ∧
      (∃ c, s.configs pa.config = some c ∧
        Moved s s' [⟨some a.input, some (vaultAt pa (inToken e.dir)), e.amountIn⟩,
          ⟨some (vaultAt pa (outToken e.dir)), some a.output, e.out⟩,
          ⟨some (vaultAt pa (feeTokenOf c e.dir)), a.referral, e.referral⟩]) ∧
      e.next = pa'.state.sqrtPrice ∧ e.hasReferral = a.referral.isSome ∧ e.time = a.clk.time := by
  have i := h.inv
  obtain ⟨pa, w, w1, dir, x, tin, hp, hv, hst, hob, htin, hto, -, hdir, -, hmv⟩ := swap_moved i (fun _ _ => h.reach) hx
  obtain ⟨x1, pa1, ob1, hpa1, hst1, -⟩ := swap_leaves h hp hv hst htin hdir hx
  obtain ⟨e, e2, hl, d, -⟩ := C70_swap_event hst
  have mb : a.baseMint = pa.baseMint := by
    obtain ⟨lb, _, _, _, _, _, _, _, _, _, hpb, _, _, _, mb, _⟩ := swap_parts i hx
    rw [hp] at hpb
    rw [← mb, ← Option.some.inj hpb]
  have hdr : swapDir tin.mint a.baseMint = dir := by
    rw [mb]
    unfold swapDir
    cases dir
    · exact if_pos (hdir.1 rfl)
    · exact if_neg (fun e => nomatch hdir.2 e)
  have hask : s.asked (.swap a) =
      some (a.pool, .swap ⟨a.mode, a.amount0, a.amount1, dir, a.referral.isSome, a.clk, a.tx⟩) := by
    show (getTok s.tokens a.input).map _ = _
    rw [htin, ← hdr]
    rfl
  have hem := emitted_of (s' := s') hask hv hl
  obtain ⟨pb, hp', -, -, -, hc, -⟩ := (view_shows hv).acc
  rw [hp] at hp'
  cases hp'
  have hd : e.dir = dir := d.dir
  refine ⟨pa, pa1, e, _, hp, hpa1, hem, ?_, ⟨tin.mint, ⟨tin, htin, rfl, hto⟩, by rw [hd]; exact hdir⟩, ⟨w.cfg, hc, ?_⟩,
    by rw [hst1]; exact d.price, d.referred, d.time⟩
  · intro y hy
    obtain ⟨f, hf, rfl⟩ := List.mem_map.1 hy
    refine ⟨rfl, fun g hg => ?_⟩
    rcases List.mem_cons.1 hf with rfl | hf
    · cases hg
    · split at hf
      · rw [List.mem_singleton.1 (show f ∈ [_] from hf)] at hg
        cases hg
      · cases hf
  · rw [hd]
    have e1 : x.paid = e.amountIn := by
      have k1 := hob.paid (inToken dir)
      have k2 := d.paid (inToken dir)
      simp only [inTok, if_true] at k1 k2
      omega
    have e2 : x.got = e.out := by
      have k1 := hob.got (outToken dir)
      have k2 := d.got (outToken dir)
      simp only [inTok, if_true] at k1 k2
      omega
    have e3 : ∀ t, inTok x.feeToken t x.referral = inTok (feeTokenOf w.cfg dir) t e.referral := fun t => by
      have k1 := hob.referral t
      have k2 := d.referral t
      dsimp only at k2
      omega
    rw [e1, e2] at hmv
    by_cases hf : x.feeToken = feeTokenOf w.cfg dir
    · have k := e3 x.feeToken
      rw [hf] at k hmv
      simp only [inTok, if_true] at k
      rw [k] at hmv
      exact hmv
    · have k1 := e3 x.feeToken
      have k2 := e3 (feeTokenOf w.cfg dir)
      simp only [inTok, if_true, if_neg hf, if_neg (Ne.symm hf)] at k1 k2
      rw [k1] at hmv
      rw [← k2]
      refine ⟨hmv.none, fun y t ht => ?_⟩
      obtain ⟨t', g1, g2, g3, g4⟩ := hmv.some y t ht
      refine ⟨t', g1, g2, g3, ?_⟩
      simp only [outOf, into, here, ite_self] at g4 ⊢
      exact g4

theorem Moved.idle {s s' : Chain} {l : List Move} {x y : Option Nat} (h : Moved s s' l) : Moved s s' (⟨x, y, 0⟩ :: l) := by
  refine ⟨h.none, fun z t ht => ?_⟩
  obtain ⟨t', g1, g2, g3, g4⟩ := h.some z t ht
  refine ⟨t', g1, g2, g3, ?_⟩
  simp only [outOf, into, here, ite_self, Nat.zero_add]
  exact g4

theorem Moved.idle' {s s' : Chain} {m : Move} {x y : Option Nat} (h : Moved s s' [m]) : Moved s s' [m, ⟨x, y, 0⟩] := by
  refine ⟨h.none, fun z t ht => ?_⟩
  obtain ⟨t', g1, g2, g3, g4⟩ := h.some z t ht
  refine ⟨t', g1, g2, g3, ?_⟩
  simp only [outOf, into, here, ite_self, Nat.add_zero] at g4 ⊢
  exact g4

theorem reported_left {K : Keys} {s s' : Chain} {ix : Instr} {P Q : Nat} {op : Op} {w w1 : World} {e : Event}
    (ha : s.asked ix = some (Q, op)) (hv : s.view K Q = some w) (hs : w.step op = .ok w1) (he : (P, e) ∈ s.emitted K s' ix) :
    P = Q ∧ ∃ es, w.log op = .ok es ∧ e ∈ es ∧ ∀ t x, Spec.reported t e = some x → vault w t - vault w1 t = x := by
  obtain ⟨es, hl, -⟩ := step_log hs
  rw [emitted_of ha hv hl] at he
  obtain ⟨f, hf, e1⟩ := List.mem_map.1 he
  cases e1
  refine ⟨rfl, es, hl, hf, fun t x hx => ?_⟩
  have := C70_payment_event hs hl hf hx
  omega

/-- C101, one payment: an event that reports a payment out of a pool reports, under that pool, the tokens that left the pool's
own vaults, and nothing else moved. -/
theorem C101_payment {K : Keys} {s s' : Chain} {ix : Instr} {P b q : Nat} {e : Event} (h : Arises K s) (ht : ix.Typed)
    (hx : s.exec K ix = .ok s') (he : (P, e) ∈ s.emitted K s' ix) (hb : Spec.reported .base e = some b)
    (hq : Spec.reported .quote e = some q) :
    ∃ pa toBase toQuote, s.pools P = some pa ∧
      Moved s s' [⟨some pa.baseVault, some toBase, b⟩, ⟨some pa.quoteVault, some toQuote, q⟩] := by
  have i := h.inv
  by_cases hi : ∃ a, ix = .initPool a
  · obtain ⟨a, rfl⟩ := hi
    obtain ⟨-, h2, ⟨c, w, -, -, -, -, hw⟩, -⟩ := initPool_new i hx
    unfold Chain.emitted at he
    simp only [hw] at he
    obtain ⟨f, hf, e1⟩ := List.mem_map.1 he
    cases e1
    rw [List.mem_singleton.1 hf] at hb
    cases hb
  have none_left : s.asked ix ≠ none := fun hn => by
    rw [emitted_silent (fun a e => hi ⟨a, e⟩) hn] at he
    cases he
  cases ix
  case swap a =>
    obtain ⟨_, _, f, rest, _, _, hem, hre, _⟩ := C101_swap h hx
    obtain ⟨m, -, ⟨-, ⟨w, w1, w', f1, f2, f3, f4⟩, -⟩, hm⟩ := swap_did i hx
    have hask : s.asked (.swap a) = some (a.pool, .swap (a.args m)) := by
      show (getTok s.tokens a.input).map _ = _
      cases hg : getTok s.tokens a.input with
      | none => rw [hg] at hm; cases hm
      | some t => rw [hg] at hm; cases hm; rfl
    obtain ⟨rfl, es, hl, hf, -⟩ := reported_left hask f1 f2 he
    obtain ⟨e1, e2, hl', -⟩ := C70_swap_event f2
    rw [hl', ok_inj] at hl
    subst hl
    simp only [List.cons_append, List.nil_append, List.mem_cons] at hf
    rcases hf with rfl | rfl | hf
    · cases hb
    · cases hb
    · split at hf
      · rw [List.mem_singleton] at hf
        subst hf
        cases hb
      · cases hf
  case claimProtocolFee a g mb mq =>
    obtain ⟨pa, c, w, w1, h1, -, h3, h4, h5, -⟩ := claimProtocolFee_moved i hx
    obtain ⟨rfl, es, -, -, hr⟩ := reported_left rfl h3 h4 he
    have kb := hr _ _ hb
    have kq := hr _ _ hq
    dsimp only [vault] at kb kq
    rw [kb, kq] at h5
    exact ⟨pa, _, _, h1, h5⟩
  case claimPartnerFee a g mb mq =>
    obtain ⟨pa, c, w, w1, h1, -, h3, h4, h5⟩ := claimPartnerFee_moved i hx
    obtain ⟨rfl, es, -, -, hr⟩ := reported_left rfl h3 h4 he
    have kb := hr _ _ hb
    have kq := hr _ _ hq
    dsimp only [vault] at kb kq
    rw [kb, kq] at h5
    exact ⟨pa, _, _, h1, h5⟩
  case claimCreatorFee a g mb mq =>
    obtain ⟨pa, c, w, w1, h1, -, h3, h4, h5⟩ := claimCreatorFee_moved i hx
    obtain ⟨rfl, es, -, -, hr⟩ := reported_left rfl h3 h4 he
    have kb := hr _ _ hb
    have kq := hr _ _ hq
    dsimp only [vault] at kb kq
    rw [kb, kq] at h5
    exact ⟨pa, _, _, h1, h5⟩
  case partnerWithdrawSurplus a g =>
    obtain ⟨pa, c, w, w1, h1, -, h3, h4, h5⟩ := quoteOut_moved (op := .partnerWithdrawSurplus g) (fun _ => rfl) trivial trivial i hx
    obtain ⟨rfl, es, hl, hm, hr⟩ := reported_left rfl h3 h4 he
    have kb := hr _ _ hb
    have kq := hr _ _ hq
    dsimp only [vault] at kb kq
    rw [NoBase.same h4 trivial, Nat.sub_self] at kb
    subst kb
    rw [kq] at h5
    exact ⟨pa, 0, _, h1, Moved.idle h5⟩
  case creatorWithdrawSurplus a g =>
    obtain ⟨pa, c, w, w1, h1, -, h3, h4, h5⟩ := quoteOut_moved (op := .creatorWithdrawSurplus g) (fun _ => rfl) trivial trivial i hx
    obtain ⟨rfl, es, hl, hm, hr⟩ := reported_left rfl h3 h4 he
    have kb := hr _ _ hb
    have kq := hr _ _ hq
    dsimp only [vault] at kb kq
    rw [NoBase.same h4 trivial, Nat.sub_self] at kb
    subst kb
    rw [kq] at h5
    exact ⟨pa, 0, _, h1, Moved.idle h5⟩
  case withdrawMigrationFee a g f =>
    obtain ⟨pa, c, w, w1, h1, -, h3, h4, h5⟩ := quoteOut_moved (op := .withdrawMigrationFee g f) (fun _ => rfl) trivial trivial i hx
    obtain ⟨rfl, es, hl, hm, hr⟩ := reported_left rfl h3 h4 he
    have kb := hr _ _ hb
    have kq := hr _ _ hq
    dsimp only [vault] at kb kq
    rw [NoBase.same h4 trivial, Nat.sub_self] at kb
    subst kb
    rw [kq] at h5
    exact ⟨pa, 0, _, h1, Moved.idle h5⟩
  case withdrawLeftover p ck v m r d =>
    obtain ⟨pa, c, w, w1, h1, -, h3, h4, h5, -⟩ := withdrawLeftover_moved i hx
    obtain ⟨rfl, es, hl, hm, hr⟩ := reported_left rfl h3 h4 he
    have kb := hr _ _ hb
    have kq := hr _ _ hq
    obtain ⟨_, _, _, _, f, y, e1, e2, e3⟩ := withdrawLeftover_ok h4
    have e4 : w1.quoteVault = w.quoteVault := by rw [e3]
    dsimp only [vault] at kb kq
    rw [e4, Nat.sub_self] at kq
    subst kq
    rw [kb] at h5
    exact ⟨pa, _, 0, h1, Moved.idle' h5⟩
  case claimPartnerCreationFee p ck r g =>
    obtain ⟨op, ⟨-, ⟨w, w1, w', f1, f2, -⟩, -⟩, hask⟩ := asked_did i ht hx rfl
    rcases hask with hask | ⟨hask, -⟩
    · cases hask
      obtain ⟨rfl, es, hl, hm, -⟩ := reported_left rfl f1 f2 he
      simp only [World.log, World.partnerCreationFeeLog, bind_ok, ok_inj, Prod.exists] at hl
      obtain ⟨_, _, _, rfl⟩ := hl
      rw [List.mem_singleton.1 hm] at hb
      cases hb
    · cases hask
  case claimProtocolCreationFee p ck r g =>
    obtain ⟨op, ⟨-, ⟨w, w1, w', f1, f2, -⟩, -⟩, hask⟩ := asked_did i ht hx rfl
    rcases hask with hask | ⟨hask, -⟩
    · cases hask
      obtain ⟨rfl, es, hl, hm, -⟩ := reported_left rfl f1 f2 he
      simp only [World.log, World.protocolCreationFeeLog, bind_ok, ok_inj, Prod.exists] at hl
      obtain ⟨_, _, _, rfl⟩ := hl
      rw [List.mem_singleton.1 hm] at hb
      cases hb
    · cases hask
  case createMeta p ck m =>
    obtain ⟨op, ⟨-, ⟨w, w1, w', f1, f2, -⟩, -⟩, hask⟩ := asked_did i ht hx rfl
    rcases hask with hask | ⟨hask, -⟩
    · cases hask
      obtain ⟨rfl, es, hl, hm, -⟩ := reported_left rfl f1 f2 he
      cases hl
      rw [List.mem_singleton.1 hm] at hb
      cases hb
    · cases hask
  case transferCreator p ck m g n =>
    obtain ⟨op, ⟨-, ⟨w, w1, w', f1, f2, -⟩, -⟩, hask⟩ := asked_did i ht hx rfl
    rcases hask with hask | ⟨hask, -⟩
    · cases hask
      obtain ⟨rfl, es, hl, hm, -⟩ := reported_left rfl f1 f2 he
      cases hl
      rw [List.mem_singleton.1 hm] at hb
      cases hb
    · cases hask
  all_goals exact False.elim (none_left rfl)

/-! ### A concrete log -/

/-- Run a list of instructions and keep the log. -/
def playLog (s : Chain) (es : List (Nat × Event)) : List Instr → Res (List (Nat × Event) × Chain)
  | [] => .ok (es, s)
  | ix :: r => do
    let s1 ← s.exec Ex.keys ix
    playLog s1 (es ++ s.emitted Ex.keys s1 ix) r

theorem playLog_log {s0 s s' : Chain} {es es' : List (Nat × Event)} {ixs : List Instr} (r : ChainLog Ex.keys s0 es s)
    (h : playLog s es ixs = .ok (es', s')) (ht : ∀ ix ∈ ixs, ix.Typed) : ChainLog Ex.keys s0 es' s' := by
  induction ixs generalizing s es with
  | nil => cases h; exact r
  | cons ix ixs ih =>
    simp only [playLog, bind_ok] at h
    obtain ⟨s1, h1, h⟩ := h
    exact ih (.snoc r (ht ix (List.mem_cons_self ..)) h1) h (fun y hy => ht y (List.mem_cons_of_mem _ hy))

/-- The log of the example history, and the state it ends in (empty if some instruction is refused). -/
def wholeLog : List (Nat × Event) × Chain :=
  match playLog (Chain.empty [40]) [] history with
  | .ok x => x
  | .error _ => ([], Chain.empty [40])

theorem wholeLog_log : ChainLog Ex.keys (Chain.empty [40]) wholeLog.1 wholeLog.2 := by
  have h : (playLog (Chain.empty [40]) [] history).isOk = true := by decide +kernel
  unfold wholeLog
  cases hp : playLog (Chain.empty [40]) [] history with
  | error e => rw [hp] at h; cases h
  | ok x => exact playLog_log (.nil _) hp typed_all

/-- The theorems apply to the history with two pools: 27 events, 22 naming the first pool and 5 the second. A sale with a referral
writes two events; a partner's claim writes one, and it reports 1000 base and 2000 quote tokens. -/
theorem C101_example : ChainLog Ex.keys (Chain.empty [40]) wholeLog.1 wholeLog.2 ∧
    (wholeLog.2.view Ex.keys 200300).isSome = true ∧ (wholeLog.2.view Ex.keys 200301).isSome = true ∧
    (naming 200300 wholeLog.1).length = 22 ∧ (naming 200301 wholeLog.1).length = 5 ∧
    logPaid .quote (naming 200300 wholeLog.1) = 10049423750050 ∧ logPaid .quote (naming 200301 wholeLog.1) = 1000000000 ∧
    logCreator 0 (naming 200300 wholeLog.1) = 22 ∧ logCreator 0 (naming 200301 wholeLog.1) = 21 ∧
    logCompletions (naming 200300 wholeLog.1) = 1 ∧ logCompletions (naming 200301 wholeLog.1) = 0 ∧
    (Arises Ex.keys (stateAt 23) ∧ (stateAt 23).exec Ex.keys oddSale = .ok (stepTo (stateAt 23) oddSale) ∧
      ((stateAt 23).emitted Ex.keys (stepTo (stateAt 23) oddSale) oddSale).length = 2) ∧
    (Arises Ex.keys (stateAt 34) ∧
      ((stateAt 34).exec Ex.keys (.claimPartnerFee (Ex.ownClaim 77 76) 11 1000 2000)).isOk = true ∧
      (200300, Event.claimTradingFee 1000 2000) ∈ (stateAt 34).emitted Ex.keys
        (stepTo (stateAt 34) (.claimPartnerFee (Ex.ownClaim 77 76) 11 1000 2000)) (.claimPartnerFee (Ex.ownClaim 77 76) 11 1000 2000)) := by
  refine ⟨wholeLog_log, ?_, ?_, ?_, ?_, ?_, ?_, ?_, ?_, ?_, ?_,
    ⟨arises_at 23 (by decide +kernel), exec_isOk (by decide +kernel), ?_⟩, ⟨arises_at 34 (by decide +kernel), ?_, ?_⟩⟩ <;>
    decide +kernel

end Props

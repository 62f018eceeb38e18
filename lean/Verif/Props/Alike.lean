import Verif.Props.ChainGo

/-!
# C97: everybody trades on the same terms
-/

namespace Props
open Dbc Spec

theorem swap_config {K : Keys} {s s' : Chain} {a : SwapIx} {pa : PoolAcc} (h : s.swap K a = .ok s')
    (hp : s.pools a.pool = some pa) : pa.config = a.config := by
  simp only [Chain.swap, bind_ok, req_ok, need_ok, Prod.exists] at h
  obtain ⟨l, hl, tin, htin, _, ⟨e1, e2, e3⟩, -⟩ := h
  obtain ⟨bm, hp', -⟩ := load_ok hl
  rw [hp] at hp'
  cases hp'
  exact e3

theorem into_fee {pa : PoolAcc} {t t' : Token} {r r' : Nat} (h : ∀ k, inTok t k r = inTok t' k r') (x : Nat) :
    here (some (vaultAt pa t)) x r = here (some (vaultAt pa t')) x r' := by
  have hr : t = t' ∧ r = r' ∨ r = 0 ∧ r' = 0 := by
    have a := h .base
    have b := h .quote
    cases t <;> cases t' <;> simp only [inTok_self, inTok_bq, inTok_qb] at a b <;>
      first | exact .inl ⟨rfl, a⟩ | exact .inl ⟨rfl, b⟩ | exact .inr (by omega)
  rcases hr with ⟨rfl, rfl⟩ | ⟨rfl, rfl⟩
  · rfl
  · unfold here
    simp

/-- What a swap that goes through leaves behind, when it is known what the pool makes of the request. -/
theorem swap_leaves {K : Keys} {s s2 : Chain} {b : SwapIx} {pa : PoolAcc} {w w1 : World} {dir : TradeDirection} {t : TokenAcc}
    (h : Arises K s) (hp : s.pools b.pool = some pa) (hv : s.view K b.pool = some w)
    (hst : w.step (.swap ⟨b.mode, b.amount0, b.amount1, dir, b.referral.isSome, b.clk, b.tx⟩) = .ok w1)
    (ht : getTok s.tokens b.input = some t) (htd : dir = .baseToQuote ↔ t.mint = pa.baseMint)
    (hxb : s.exec K (.swap b) = .ok s2) :
    ∃ x pa2, Observed w w1 dir x ∧ s2.pools b.pool = some pa2 ∧ pa2.state = w1.pool ∧
      Moved s s2 [⟨some b.input, some (vaultAt pa (inToken dir)), x.paid⟩,
        ⟨some (vaultAt pa (outToken dir)), some b.output, x.got⟩,
        ⟨some (vaultAt pa x.feeToken), b.referral, x.referral⟩] := by
  have i := h.inv
  obtain ⟨pb, wb, wb1, db, xb, tb, q1, q2, q3, q4, q5, -, -, q6, -, q7⟩ := swap_moved i (fun _ _ => h.reach) hxb
  rw [hp] at q1
  cases q1
  rw [hv] at q2
  cases q2
  rw [ht] at q5
  cases q5
  have ed : db = dir := by
    cases db <;> cases dir
    · rfl
    · exact (nomatch htd.2 (q6.1 rfl))
    · exact (nomatch q6.2 (htd.1 rfl))
    · rfl
  subst ed
  rw [hst, ok_inj] at q3
  subst q3
  obtain ⟨m, -, ⟨-, ⟨w0, w2, w', f1, f2, f3, f4⟩, -⟩, hm⟩ := swap_did i hxb
  rw [hv] at f1
  cases f1
  rw [ht] at hm
  have hm : t.mint = m := by simpa using hm
  have mb : b.baseMint = pa.baseMint := by
    obtain ⟨lb, _, _, _, _, _, _, _, _, _, hpb, _, _, _, mb, _⟩ := swap_parts i hxb
    rw [hp] at hpb
    rw [← mb, ← Option.some.inj hpb]
  have hdr : (b.args m).dir = db := by
    show swapDir m b.baseMint = db
    rw [← hm, mb]
    unfold swapDir
    cases db
    · exact if_pos (htd.1 rfl)
    · exact if_neg (fun e => nomatch htd.2 e)
  have ea : b.args m = ⟨b.mode, b.amount0, b.amount1, db, b.referral.isSome, b.clk, b.tx⟩ := by
    rw [← hdr]
    rfl
  rw [ea, hst, ok_inj] at f2
  subst f2
  obtain ⟨pa2, g1, g2, -⟩ := (view_shows f4).acc
  exact ⟨xb, pa2, q4, g1, by rw [← g2]; exact (fed_frame f3).1, q7⟩

/-- Two observations of the same referral fee move the same tokens. -/
theorem referral_same {w w1 : World} {dir : TradeDirection} {x y : Trade} (hx : Observed w w1 dir x)
    (hy : Observed w w1 dir y) :
    y.referral = x.referral ∧ ∀ (pa : PoolAcc) (k : Nat), here (some (vaultAt pa y.feeToken)) k y.referral =
      here (some (vaultAt pa x.feeToken)) k x.referral := by
  have hr : ∀ k, inTok y.feeToken k y.referral = inTok x.feeToken k x.referral := fun k => by
    have a1 := hx.referral k
    have a2 := hy.referral k
    omega
  refine ⟨?_, fun pa k => into_fee hr k⟩
  have a := hr .base
  have b := hr .quote
  cases ht : x.feeToken <;> cases ht' : y.feeToken <;> rw [ht, ht'] at a b <;> simp [inTok] at a b <;> omega

/-- C97: whoever trades gets the same terms. If one party's swap goes through, then in the same state the same request by
anybody else goes through too, as long as they hold what it costs and name accounts of the right tokens; the same amounts are
paid, received and passed to the referrer, and the pool is left in the same state. Only whether a referrer is named counts, not
who. The addresses derived for metadata accounts are assumed different for different pools. -/
theorem C97_same_terms {K : Keys} {s s1 : Chain} {a : SwapIx} (h : Arises K s)
    (hK : ∀ P Q, K.metaPda P = K.metaPda Q → P = Q) (hx : s.exec K (.swap a) = .ok s1) :
    ∃ pa pa1 c dir mint paid got feeToken referral, s.pools a.pool = some pa ∧ s.configs pa.config = some c ∧
      IsAccount s a.input mint a.payer ∧ (dir = .baseToQuote ↔ mint = pa.baseMint) ∧
      Moved s s1 [⟨some a.input, some (vaultAt pa (inToken dir)), paid⟩, ⟨some (vaultAt pa (outToken dir)), some a.output, got⟩,
        ⟨some (vaultAt pa feeToken), a.referral, referral⟩] ∧ s1.pools a.pool = some pa1 ∧
      ∀ payer src dst n ref, payer ≠ K.authority → IsAccount s src (mintOf pa c (inToken dir)) payer →
        balance s src = some n → paid ≤ n → Takes s dst (mintOf pa c (outToken dir)) → ref.isSome = a.referral.isSome →
        (∀ k, ref = some k → Takes s k (mintOf pa c (feeIn c dir))) →
        ∃ s2 pa2, s.exec K (.swap { a with payer := payer, input := src, output := dst, referral := ref }) = .ok s2 ∧
          Moved s s2 [⟨some src, some (vaultAt pa (inToken dir)), paid⟩, ⟨some (vaultAt pa (outToken dir)), some dst, got⟩,
            ⟨some (vaultAt pa feeToken), ref, referral⟩] ∧
          s2.pools a.pool = some pa2 ∧ pa2.state = pa1.state := by
  have i := h.inv
  obtain ⟨pa, w, w1, dir, x, tin, hp, hv, hst, hob, htin, hto, -, hdir, -, hmv⟩ := swap_moved i (fun _ _ => h.reach) hx
  obtain ⟨l', tin', bm', r', fm', w1', sa, sb, hl', htin', hp', wi', e1, e2, m1, m2, hv', -⟩ := swap_parts i hx
  rw [hp] at hp'
  cases hp'
  rw [hv] at hv'
  cases hv'
  have e0 := swap_config hx hp
  obtain ⟨l, bm, o⟩ := own_of i hp hv
  have hd : l'.pa.baseMint ≠ l'.w.cfg.quoteMint := by rw [← o.cfg]; exact o.wired.diff
  have hcf : l'.w.cfg = l'.c := by
    obtain ⟨_, _, _, _, _, _, hlw⟩ := load_ok hl'
    rw [hlw]; rfl
  obtain ⟨pa0, hp0, -, -, -, hc0, -⟩ := (view_shows hv).acc
  rw [hp] at hp0
  cases hp0
  obtain ⟨x1, pa1, ob1, hpa1, hst1, -⟩ := swap_leaves h hp hv hst htin hdir hx
  refine ⟨l'.pa, pa1, l'.w.cfg, dir, tin.mint, x.paid, x.got, x.feeToken, x.referral, hp, hc0, ⟨tin, htin, rfl, hto⟩, hdir, hmv, hpa1,
    fun payer src dst n ref k1 k2 k3 k4 k5 k6 k7 => ?_⟩
  have hen : traderIn w1 (inToken dir) ≤ traderIn l'.w (inToken dir) + n := by
    have := hob.paid (inToken dir)
    rw [inTok_self] at this
    omega
  have hcor := Correct.swap (K := K) (P := a.pool) (w := l'.w) (w1 := w1)
    ⟨a.mode, a.amount0, a.amount1, dir, a.referral.isSome, a.clk, a.tx⟩ src dst payer n ref k1 k2 k3 hen k5 k6.symm k7
  obtain ⟨s2, hx2⟩ := exec_goes h hK hp (view_shows hv) (view_showsMeta i hv) hst hcor
  have hq : l'.w.cfg.quoteMint = a.quoteMint := by rw [hcf]; exact m2
  dsimp only at hx2
  rw [e0, e1, e2, m1, hq] at hx2
  obtain ⟨t, ht, htm, -⟩ := k2
  have htd : dir = .baseToQuote ↔ t.mint = l'.pa.baseMint := by
    rw [htm]
    cases dir
    · exact ⟨fun _ => rfl, fun _ => rfl⟩
    · exact ⟨fun e => (nomatch e), fun e => absurd (Eq.symm e) hd⟩
  obtain ⟨x2, pa2, ob2, hpa2, hst2, mv2⟩ := swap_leaves (w := l'.w) (w1 := w1) (dir := dir) h
    (b := { a with payer := payer, input := src, output := dst, referral := ref }) hp hv (by dsimp only; rw [k6]; exact hst) ht htd hx2
  obtain ⟨p1, p2⟩ := observed_same hob ob2
  obtain ⟨r1, r2⟩ := referral_same hob ob2
  refine ⟨s2, pa2, hx2, mv2.congr (fun y => ?_), hpa2, by rw [hst2, hst1]⟩
  simp only [outOf, into]
  rw [r2, r1, p1, p2]

/-- After 23 instructions of the history holder 21 passes 100000000000000 of their base tokens to holder 11. -/
def halved : Chain := stepTo (stateAt 23) (.transfer 21 300 73 77 100000000000000)

/-- The sale of holder 21, with the account of a third party as referral account. -/
def sale21 : SwapIx := ⟨200300, 80, 200300300, 200300007, 300, 7, 73, 71, some 75, 21, 0, 10000000000000, 1, ⟨170, 1000070⟩,
  Ex.txOf 200300⟩

/-- The same sale made by holder 11, who names an account of their own as referral account. -/
def sale11 : SwapIx := { sale21 with payer := 11, input := 77, output := 76, referral := some 76 }

/-- Both holders can make the same sale, and the amounts are the same. -/
theorem C97_example : Arises Ex.keys halved ∧ (∀ P Q, Ex.keys.metaPda P = Ex.keys.metaPda Q → P = Q) ∧
    halved.exec Ex.keys (.swap sale21) = .ok (stepTo halved (.swap sale21)) ∧
    (11 ≠ Ex.keys.authority ∧ IsAccount halved 77 300 11 ∧ balance halved 77 = some 100000000000000 ∧ Takes halved 76 7) ∧
    balance halved 71 = some 998999000000000 ∧ balance (stepTo halved (.swap sale21)) 71 = some 999046051463621 ∧
    balance halved 75 = some 0 ∧ balance (stepTo halved (.swap sale21)) 75 = some 94891457 ∧
    balance halved 76 = some 0 ∧ balance (stepTo halved (.swap sale11)) 76 = some (999046051463621 - 998999000000000 + 94891457) := by
  have hx := exec_isOk (s := stateAt 23) (ix := .transfer 21 300 73 77 100000000000000) (by decide +kernel)
  refine ⟨Arises.step (ix := .transfer 21 300 73 77 100000000000000) (arises_at 23 (by decide +kernel)) trivial hx, metaPda_inj, exec_isOk (by decide +kernel),
    ⟨by decide, isAccount_of (by decide +kernel), by decide +kernel, 11, isAccount_of (by decide +kernel)⟩, ?_⟩
  refine ⟨?_, ?_, ?_, ?_, ?_, ?_⟩ <;> decide +kernel

end Props

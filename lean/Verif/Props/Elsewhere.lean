import Verif.Props.Alike
import Verif.Props.Steady

/-!
# C98: what goes on elsewhere does not touch a trade
-/

namespace Props
open Dbc Spec

theorem outside_noSwap {o : Op} (h : Outside o) (b : SwapArgs) : o ≠ .swap b := by
  rintro rfl
  exact h

theorem Run.append' {w w1 w2 : World} {l m : List Op} (h : Run w l w1) (h' : Run w1 m w2) : Run w (l ++ m) w2 := by
  induction h with
  | nil => exact h'
  | cons hs _ ih => exact .cons hs (ih h')

/-- A run of instructions without a swap in the pool at `P` is a run of the pool without swaps. -/
theorem quiet_chain {K : Keys} {s s1 : Chain} {ixs : List Instr} {P : Nat} {w : World} (h : Arises K s)
    (hr : ChainRun K s ixs s1) (hno : ∀ b, Instr.swap b ∈ ixs → b.pool ≠ P) (hv : s.view K P = some w) :
    Arises K s1 ∧ Fixed s s1 ∧ ∃ ops w1, Run w ops w1 ∧ (∀ b, Op.swap b ∉ ops) ∧ s1.view K P = some w1 := by
  induction hr with
  | nil => exact ⟨h, Fixed.of rfl rfl, [], w, .nil w, fun b hb => (nomatch hb), hv⟩
  | @snoc sm s2 ixs ix r ht hx ih =>
    obtain ⟨ha, hf, ops, w1, hrun, hns, hv1⟩ := ih (fun b hb => hno b (List.mem_append_left _ hb))
    have fx := exec_fixed hx
    refine ⟨Arises.step ha ht hx, ⟨fun k c hk => fx.configs k c (hf.configs k c hk), fun Q pa hq => ?_⟩, ?_⟩
    · obtain ⟨pb, hb, b1, b2, b3, b4⟩ := hf.pools Q pa hq
      obtain ⟨pc, hc, c1, c2, c3, c4⟩ := fx.pools Q pb hb
      exact ⟨pc, hc, c1.trans b1, c2.trans b2, c3.trans b3, c4.trans b4⟩
    have more : ∀ {l : List Op} {w2 : World}, Run w1 l w2 → (∀ b, Op.swap b ∉ l) → s2.view K P = some w2 →
        ∃ ops w1, Run w ops w1 ∧ (∀ b, Op.swap b ∉ ops) ∧ s2.view K P = some w1 := fun r1 r2 r3 =>
      ⟨_, _, Run.append' hrun r1, fun b hb => (List.mem_append.1 hb).elim (hns b) (r2 b), r3⟩
    rcases (exec_step ha.inv ht hx).2 with ⟨Q, op, hq, has, -, ⟨u, u1, u', e1, e2, ⟨gs, g, gr⟩, e4⟩, d3⟩ | ⟨-, -, d2⟩ | ⟨a, e, hn, -, ho⟩
    · by_cases hQ : P = Q
      · subst hQ
        rw [hv1] at e1
        cases e1
        refine more (.cons e2 gr) (fun b hb => ?_) e4
        rcases List.mem_cons.1 hb with rfl | hb
        · cases has with
          | swap a x =>
            cases hq
            exact hno a (List.mem_append_right _ (List.mem_singleton.2 rfl)) rfl
        · exact outside_noSwap (Gift.outside (g _ hb)) b rfl
      · obtain ⟨w2, ⟨gs, g, gr⟩, e⟩ := d3 P w1 hQ hv1
        exact more gr (fun b hb => outside_noSwap (Gift.outside (g _ hb)) b rfl) e
    · obtain ⟨l, w2, g, gr, e⟩ := d2 P w1 hv1
      exact more gr (fun b hb => outside_noSwap (g _ hb) b rfl) e
    · have hP : P ≠ a.pool := fun e => by
        obtain ⟨pa, hp⟩ := view_pool hv1
        rw [e, hn] at hp
        cases hp
      exact ⟨ops, w1, hrun, hns, by rw [(ho P hP).2]; exact hv1⟩

/-- C98: what a trade gets is settled by the trades in its own pool. If a swap goes through, then after any further
instructions on chain, by anybody and with any accounts, other than swaps in this pool, the same request at the same clock still
goes through, by the same party or any other who then holds what it costs and names accounts of the right tokens. The amounts
paid, received and passed to the referrer are the same, and so are the price and the reserves left. The addresses derived for
metadata accounts are assumed different for different pools. -/
theorem C98_elsewhere {K : Keys} {s s1 s' : Chain} {ixs : List Instr} {a : SwapIx} (h : Arises K s)
    (hK : ∀ P Q, K.metaPda P = K.metaPda Q → P = Q) (hx : s.exec K (.swap a) = .ok s') (hr : ChainRun K s ixs s1)
    (hno : ∀ b, Instr.swap b ∈ ixs → b.pool ≠ a.pool) :
    ∃ pa pa' c dir mint paid got feeToken referral, s.pools a.pool = some pa ∧ s.configs pa.config = some c ∧
      IsAccount s a.input mint a.payer ∧ (dir = .baseToQuote ↔ mint = pa.baseMint) ∧
      Moved s s' [⟨some a.input, some (vaultAt pa (inToken dir)), paid⟩, ⟨some (vaultAt pa (outToken dir)), some a.output, got⟩,
        ⟨some (vaultAt pa feeToken), a.referral, referral⟩] ∧ s'.pools a.pool = some pa' ∧
      ∀ payer src dst n ref, payer ≠ K.authority → IsAccount s1 src (mintOf pa c (inToken dir)) payer →
        balance s1 src = some n → paid ≤ n → Takes s1 dst (mintOf pa c (outToken dir)) → ref.isSome = a.referral.isSome →
        (∀ k, ref = some k → Takes s1 k (mintOf pa c (feeIn c dir))) →
        ∃ s2 pa2, s1.exec K (.swap { a with payer := payer, input := src, output := dst, referral := ref }) = .ok s2 ∧
          Moved s1 s2 [⟨some src, some (vaultAt pa (inToken dir)), paid⟩, ⟨some (vaultAt pa (outToken dir)), some dst, got⟩,
            ⟨some (vaultAt pa feeToken), ref, referral⟩] ∧
          s2.pools a.pool = some pa2 ∧ pa2.state.sqrtPrice = pa'.state.sqrtPrice ∧
          pa2.state.baseReserve = pa'.state.baseReserve ∧ pa2.state.quoteReserve = pa'.state.quoteReserve := by
  have i := h.inv
  obtain ⟨pa, w, w1, dir, x, tin, hp, hv, hst, hob, htin, hto, -, hdir, -, hmv⟩ := swap_moved i (fun _ _ => h.reach) hx
  obtain ⟨l', tin', bm', r', fm', w1', sa, sb, hl', htin', hp', wi', e1, e2, m1, m2, hv', -⟩ := swap_parts i hx
  rw [hp] at hp'
  cases hp'
  rw [hv] at hv'
  cases hv'
  have e0 := swap_config hx hp
  have hcf : l'.w.cfg = l'.c := by
    obtain ⟨_, _, _, _, _, _, hlw⟩ := load_ok hl'
    rw [hlw]; rfl
  obtain ⟨pa0, hp0, -, -, -, hc0, -⟩ := (view_shows hv).acc
  rw [hp] at hp0
  cases hp0
  obtain ⟨x1, pa1, ob1, hpa1, hst1, -⟩ := swap_leaves h hp hv hst htin hdir hx
  obtain ⟨ha, hf, ops, v, hrun, hns, hv1⟩ := quiet_chain h hr hno hv
  obtain ⟨q, hq, q1, q2, q3, q4⟩ := hf.pools _ _ hp
  have hcv : v.cfg = l'.w.cfg := (quiet_run hrun hns).cfg
  have vat : ∀ t, vaultAt q t = vaultAt l'.pa t := by
    intro t
    cases t
    · exact q3
    · exact q4
  have mof : ∀ t, mintOf q v.cfg t = mintOf l'.pa l'.w.cfg t := by
    intro t
    cases t
    · exact q2
    · exact congrArg PoolConfig.quoteMint hcv
  obtain ⟨l, bm, o⟩ := own_of ha.inv hq hv1
  have hd : q.baseMint ≠ v.cfg.quoteMint := by rw [← o.cfg]; exact o.wired.diff
  refine ⟨l'.pa, pa1, l'.w.cfg, dir, tin.mint, x.paid, x.got, x.feeToken, x.referral, hp, hc0, ⟨tin, htin, rfl, hto⟩, hdir, hmv, hpa1,
    fun payer src dst n ref k1 k2 k3 k4 k5 k6 k7 => ?_⟩
  rw [← mof] at k2 k5
  have k7 : ∀ k, ref = some k → Takes s1 k (mintOf q v.cfg (feeIn v.cfg dir)) := by
    intro k hk
    rw [mof, hcv]
    exact k7 k hk
  have room := holder_room ha hq (view_shows hv1) k1 k2 k3
  have own : Exists v ⟨a.mode, a.amount0, a.amount1, dir, a.referral.isSome, a.clk, a.tx⟩ x.paid := by
    unfold Exists
    cases dir
    · exact le_trans (Nat.add_le_add_left k4 _) room
    · exact le_trans (Nat.add_le_add_left k4 _) room
  obtain ⟨w3, h3, ob3, pr3, re3⟩ := C78_same_trade (h.reach hv) hrun hns hst hob own
  have hen : traderIn w3 (inToken dir) ≤ traderIn v (inToken dir) + n := by
    have := ob3.paid (inToken dir)
    rw [inTok_self] at this
    omega
  have hcor := Correct.swap (K := K) (P := a.pool) (w := v) (w1 := w3)
    ⟨a.mode, a.amount0, a.amount1, dir, a.referral.isSome, a.clk, a.tx⟩ src dst payer n ref k1 k2 k3 hen k5 k6.symm k7
  obtain ⟨s2, hx2⟩ := exec_goes ha hK hq (view_shows hv1) (view_showsMeta ha.inv hv1) h3 hcor
  have hqm : v.cfg.quoteMint = a.quoteMint := by rw [hcv, hcf]; exact m2
  dsimp only at hx2
  rw [q1, q2, q3, q4, e0, e1, e2, m1, hqm] at hx2
  obtain ⟨t, ht, htm, -⟩ := k2
  have htd : dir = .baseToQuote ↔ t.mint = q.baseMint := by
    rw [htm]
    cases dir
    · exact ⟨fun _ => rfl, fun _ => rfl⟩
    · exact ⟨fun e => (nomatch e), fun e => absurd (Eq.symm e) hd⟩
  obtain ⟨x2, pa2, ob2, hpa2, hst2, mv2⟩ := swap_leaves (w := v) (w1 := w3) (dir := dir) ha
    (b := { a with payer := payer, input := src, output := dst, referral := ref }) hq hv1 (by dsimp only; rw [k6]; exact h3) ht htd hx2
  obtain ⟨p1, p2⟩ := observed_same ob3 ob2
  obtain ⟨r1, r2⟩ := referral_same ob3 ob2
  refine ⟨s2, pa2, hx2, mv2.congr (fun y => ?_), hpa2, ?_, ?_, ?_⟩
  · simp only [outOf, into, vat] at r2 ⊢
    have := r2 l'.pa y
    rw [this, r1, p1, p2]
  · rw [hst2, hst1]; exact pr3
  · rw [hst2, hst1]; exact re3 .base
  · rw [hst2, hst1]; exact re3 .quote

/-- Between two moments: a sale in the second pool, the partner's fee claim in the first, tokens passed on to holder 11, and a
gift to the first pool's quote vault. -/
def meanwhile : List Instr :=
  [Ex.trade 301 74 71 (some 75) 0 100000000000 1 80, .claimPartnerFee (Ex.ownClaim 77 76) 11 1000 2000,
   .transfer 21 300 73 77 100000000000000, .transfer 21 7 71 200300007 5000]

def step1 : Chain := stepTo (stateAt 23) (Ex.trade 301 74 71 (some 75) 0 100000000000 1 80)
def step2 : Chain := stepTo step1 (.claimPartnerFee (Ex.ownClaim 77 76) 11 1000 2000)
def step3 : Chain := stepTo step2 (.transfer 21 300 73 77 100000000000000)
def afterwards : Chain := stepTo step3 (.transfer 21 7 71 200300007 5000)

theorem meanwhile_run : ChainRun Ex.keys (stateAt 23) meanwhile afterwards := by
  have r1 := ChainRun.snoc (.nil (stateAt 23)) (ix := Ex.trade 301 74 71 (some 75) 0 100000000000 1 80) trivial
    (exec_isOk (by decide +kernel))
  have r2 := ChainRun.snoc r1 (ix := .claimPartnerFee (Ex.ownClaim 77 76) 11 1000 2000) trivial (exec_isOk (by decide +kernel))
  have r3 := ChainRun.snoc r2 (ix := .transfer 21 300 73 77 100000000000000) trivial (exec_isOk (by decide +kernel))
  exact ChainRun.snoc r3 (ix := .transfer 21 7 71 200300007 5000) trivial (exec_isOk (by decide +kernel))

/-- The sale of holder 21 at the first moment and the same sale of holder 11 at the second pay the same. -/
theorem C98_example : Arises Ex.keys (stateAt 23) ∧ (∀ P Q, Ex.keys.metaPda P = Ex.keys.metaPda Q → P = Q) ∧
    (stateAt 23).exec Ex.keys (.swap sale21) = .ok (stepTo (stateAt 23) (.swap sale21)) ∧
    ChainRun Ex.keys (stateAt 23) meanwhile afterwards ∧ (∀ b, Instr.swap b ∈ meanwhile → b.pool ≠ sale21.pool) ∧
    (11 ≠ Ex.keys.authority ∧ IsAccount afterwards 77 300 11 ∧ Takes afterwards 76 7) ∧
    balance (stateAt 23) 71 = some 998999000000000 ∧ balance (stepTo (stateAt 23) (.swap sale21)) 71 = some 999046051463621 ∧
    balance (stepTo (stateAt 23) (.swap sale21)) 75 = some 94891457 ∧ balance afterwards 77 = some (100000000000000 + 1000) ∧ balance afterwards 76 = some 0 ∧
    balance (stepTo afterwards (.swap sale11)) 76 = some ((999046051463621 - 998999000000000) + 94891457) := by
  refine ⟨arises_at 23 (by decide +kernel), metaPda_inj, exec_isOk (by decide +kernel), meanwhile_run, ?_,
    ⟨by decide, isAccount_of (by decide +kernel), 11, isAccount_of (by decide +kernel)⟩, ?_⟩
  · intro b hb
    simp only [meanwhile, Ex.trade, List.mem_cons, List.not_mem_nil, or_false, Instr.swap.injEq, reduceCtorEq] at hb
    subst hb
    decide
  · refine ⟨?_, ?_, ?_, ?_, ?_, ?_⟩ <;> decide +kernel

end Props

import Verif.Spec.Life
import Verif.Props.Go
import Verif.Props.Serve

/-!
# Why a trade is refused: C91
-/

namespace Props
open Dbc Spec

/-- The same trade as a partial fill without minimum. -/
def unbound (a : SwapArgs) : SwapArgs := { a with mode := 1, amount1 := 0 }

/-- Computation of a trade up to its result and the check of the minimum. -/
theorem swap_upto {w : World} {a : SwapArgs} {cur : Nat} {v1 : VolTracker} {fm : FeeMode} {e : Err}
    (hm : a.mode ≤ 2) (hpos : 0 < a.amount0) (hcur : currentPoint w.cfg.activationType a.clk = .ok cur)
    (hlim : w.checkLimiter a cur = .ok ()) (hinc : w.pool.quoteReserve < w.cfg.migrationQuoteThreshold)
    (hpre : w.pool.updatePreSwap w.cfg a.clk.time = .ok { w.pool with vol := v1 })
    (hfm : getFeeMode w.cfg.collectFeeMode a.dir a.referral = .ok fm)
    (hproc : processSwap w.cfg { w.pool with vol := v1 } a fm cur (w.firstMin a) = .error e) :
    w.step (.swap a) = .error e := by
  change w.swap a = .error e
  unfold World.swap
  have h4 : ¬ w.pool.complete w.cfg.migrationQuoteThreshold := by
    unfold Pool.complete; omega
  rw [(req_ok (u := ())).2 hm, ok_bind, (req_ok (u := ())).2 hpos, ok_bind, hcur, ok_bind, hlim, ok_bind,
    (req_ok (u := ())).2 h4, ok_bind, hpre, ok_bind, hfm, ok_bind, hproc]
  rfl

/-- A trade without minimum that goes through: with a minimum it goes through just the same, or is refused because it yields
less. -/
theorem swap_min {w w' : World} {a : SwapArgs} (hm : a.mode ≤ 1) (h : w.step (.swap { a with amount1 := 0 }) = .ok w') :
    (w.step (.swap a) = .ok w' ∧ traderOut w (outToken a.dir) + a.amount1 ≤ traderOut w' (outToken a.dir)) ∨
    (w.step (.swap a) = .error .exceededSlippage ∧
      traderOut w' (outToken a.dir) < traderOut w (outToken a.dir) + a.amount1) := by
  have hw := h
  obtain ⟨cur, fm, r, v1, v2, s⟩ := swap_ok h
  have g := (SwapStep.observed s).got (outToken a.dir)
  unfold tradeOf at g
  dsimp only at g
  rw [inTok_self] at g
  have hinc := s.incomplete
  have hpart : ∀ y, processSwap w.cfg { w.pool with vol := v1 } { a with amount1 := y } fm cur (w.firstMin a) =
      if y ≤ r.out then .ok r else .error .exceededSlippage := by
    intro y
    have k := s.proc
    have e : w.firstMin { a with amount1 := 0 } = w.firstMin a := rfl
    rw [e] at k
    unfold processSwap at k ⊢
    dsimp only at k ⊢
    rcases (by omega : a.mode = 0 ∨ a.mode = 1) with e0 | e0 <;> rw [e0] at k ⊢ <;> (try dsimp only at k ⊢) <;>
      simp only [bind_ok, req_ok, ok_inj] at k <;> obtain ⟨r', k1, _, -, rfl⟩ := k <;> rw [k1, ok_bind] <;> unfold req <;>
      by_cases hy : y ≤ r'.out <;> simp only [hy, if_true, if_false] <;> rfl
  by_cases hy : a.amount1 ≤ r.out
  · refine .inl ⟨?_, by omega⟩
    have k := hpart a.amount1
    rw [if_pos hy] at k
    change w.swap _ = _ at h
    change w.swap a = .ok w'
    unfold World.swap at h ⊢
    simp only [bind_ok, req_ok] at h ⊢
    obtain ⟨_, h1, _, h2, cur', hcur, _, h3, _, h4, p1, hpre, fm', hfm, r', hproc, rest⟩ := h
    refine ⟨(), h1, (), h2, cur', hcur, (), h3, (), h4, p1, hpre, fm', hfm, r', ?_, rest⟩
    have q1 := s.hcur
    have q2 := s.hfm
    have q3 := s.pre
    rw [hcur, ok_inj] at q1
    rw [hfm, ok_inj] at q2
    rw [hpre, ok_inj] at q3
    subst q1 q2 q3
    have q4 := s.proc
    rw [hproc, ok_inj] at q4
    subst q4
    exact k
  · refine .inr ⟨?_, by omega⟩
    have k := hpart a.amount1
    rw [if_neg hy] at k
    exact swap_upto (a := a) (by omega) s.pos s.hcur s.lim s.incomplete s.pre s.hfm k

/-- C91: an ordinary exact-input swap or partial fill of tokens that exist either goes through or is refused for one of four
reasons, and the error code names the reason: the amount is zero; the curve is complete; an exact input is more than the
curve can take, so that a partial fill ends where the curve does; the trade would yield less than the stated minimum. -/
theorem C91_refusals {w : World} {a : SwapArgs} (h : Reachable w) (hm : a.mode ≤ 1) (ho : Ordinary w a) {x X : Nat}
    (hfit : CountersFit w x) (hX : Covers w a X) (hxm : a.dir = .quoteToBase → X ≤ x) (he : Exists w a X) :
    (∃ w', w.step (.swap a) = .ok w' ∧ traderOut w (outToken a.dir) + a.amount1 ≤ traderOut w' (outToken a.dir)) ∨
    (w.step (.swap a) = .error .amountIsZero ∧ a.amount0 = 0) ∨
    (w.step (.swap a) = .error .poolIsCompleted ∧ Completed w) ∨
    (w.step (.swap a) = .error .insufficientLiquidity ∧ a.mode = 0 ∧ ∃ w', w.step (.swap (unbound a)) = .ok w' ∧
      w'.pool.sqrtPrice = (match a.dir with
        | .quoteToBase => w.cfg.migrationSqrtPrice
        | .baseToQuote => w.cfg.sqrtStartPrice)) ∨
    (w.step (.swap a) = .error .exceededSlippage ∧ ∃ w', w.step (.swap { a with amount1 := 0 }) = .ok w' ∧
      traderOut w' (outToken a.dir) < traderOut w (outToken a.dir) + a.amount1) := by
  obtain ⟨cur, hcur, hact⟩ := ho.active
  have hlim := ho.limiter h hcur
  have hm2 : a.mode ≤ 2 := by omega
  by_cases hz : a.amount0 = 0
  · refine .inr (.inl ⟨?_, hz⟩)
    change w.swap a = _
    unfold World.swap
    rw [(req_ok (u := ())).2 hm2, ok_bind]
    unfold req
    rw [if_neg (by omega)]
    rfl
  have hpos : 0 < a.amount0 := by omega
  by_cases hinc : w.pool.quoteReserve < w.cfg.migrationQuoteThreshold
  swap
  · refine .inr (.inr (.inl ⟨?_, by unfold Completed; omega⟩))
    change w.swap a = _
    unfold World.swap
    rw [(req_ok (u := ())).2 hm2, ok_bind, (req_ok (u := ())).2 hpos, ok_bind, hcur, ok_bind, hlim, ok_bind]
    unfold req Pool.complete
    rw [if_neg (by omega)]
    rfl
  -- the partial fill without minimum
  have go : ∀ m, m ≤ 1 → ∃ v1 fm r, 
      partialIn w.cfg { w.pool with vol := v1 } a.amount0 fm a.dir cur (w.firstMin a) = .ok r ∧
      getFeeMode w.cfg.collectFeeMode a.dir a.referral = .ok fm ∧
      w.pool.updatePreSwap w.cfg a.clk.time = .ok { w.pool with vol := v1 } ∧
      (m = 1 ∨ m = 0 ∧ r.left = 0 → ∃ w', w.step (.swap { a with mode := m, amount1 := 0 }) = .ok w') := by
    intro m hm'
    obtain ⟨cur', v1, fm, r, e1, e2, -, -, -, e3, e4, -, e5⟩ :=
      partial_goes (a := { a with mode := m, amount1 := 0 }) h hinc hpos rfl ⟨ho.active, ho.clock, fun hl => ho.alone ⟨hl.1, hl.2, hl.3, hl.4⟩⟩
        hfit ⟨hX.offer, fun hl => hX.2 ⟨hl.1, hl.2, hl.3, hl.4⟩⟩ hxm he
    dsimp only at e1
    rw [hcur, ok_inj] at e1
    subst e1
    exact ⟨v1, fm, r, e2, e3, e4, fun k => (e5 k).imp fun _ k => k.1⟩
  obtain ⟨v1, fm, r, hr, hfm, hpre, hone⟩ := go 1 le_rfl
  obtain ⟨w1, hw1⟩ := hone (.inl rfl)
  by_cases hm1 : a.mode = 1
  · have e : unbound a = { a with amount1 := 0 } := by unfold unbound; rw [← hm1]
    have hw1' : w.step (.swap { a with amount1 := 0 }) = .ok w1 := by rw [← e]; exact hw1
    rcases swap_min hm hw1' with ⟨k1, k2⟩ | ⟨k1, k2⟩
    · exact .inl ⟨w1, k1, k2⟩
    · exact .inr (.inr (.inr (.inr ⟨k1, w1, hw1', k2⟩)))
  have hm0 : a.mode = 0 := by omega
  by_cases hl : r.left = 0
  · obtain ⟨v1', fm', r', hr', hfm', hpre', hzero⟩ := go 0 (by decide)
    rw [hfm, ok_inj] at hfm'
    rw [hpre, ok_inj] at hpre'
    rw [← hpre', ← hfm', hr, ok_inj] at hr'
    subst hr'
    obtain ⟨w', hw'⟩ := hzero (.inr ⟨rfl, hl⟩)
    have e : ({ a with mode := 0, amount1 := 0 } : SwapArgs) = { a with amount1 := 0 } := by rw [← hm0]
    rw [e] at hw'
    rcases swap_min hm hw' with ⟨k1, k2⟩ | ⟨k1, k2⟩
    · exact .inl ⟨w', k1, k2⟩
    · exact .inr (.inr (.inr (.inr ⟨k1, w', hw', k2⟩)))
  · have hproc : ∀ y, processSwap w.cfg { w.pool with vol := v1 } { a with mode := 0, amount1 := y } fm cur (w.firstMin a) =
        .error .insufficientLiquidity := by
      intro y
      unfold processSwap
      dsimp only
      rw [exactIn_refused hr hl]
      rfl
    have e : ({ a with mode := 0, amount1 := a.amount1 } : SwapArgs) = a := by rw [← hm0]
    have k := hproc a.amount1
    rw [e] at k
    refine .inr (.inr (.inr (.inl ⟨swap_upto hm2 hpos hcur hlim hinc hpre hfm k, hm0, w1, hw1, ?_⟩)))
    rcases C76_exact_or_exhausted h (a := unbound a) rfl hw1 with k1 | ⟨-, k2, k3⟩
    · have k0 : w.step (.swap { a with mode := 0, amount1 := 0 }) = .error .insufficientLiquidity :=
        swap_upto (a := { a with mode := 0, amount1 := 0 }) (Nat.zero_le 2) hpos hcur hlim hinc hpre hfm (hproc 0)
      have : w.step (.swap { a with mode := 0, amount1 := 0 }) = .ok w1 := k1
      rw [k0] at this
      cases this
    · cases hd : a.dir with
      | quoteToBase => exact k2 hd
      | baseToQuote => exact k3 hd

/-- C91, exact output: where such a swap is refused although the fee rate does not depend on size, no trade by input made at
the same moment yields more than was asked for without paying more than was allowed. -/
theorem C91_out_refused {w w1 : World} {a a' : SwapArgs} {x : Trade} {e : Err} (h : Reachable w) (hm : a'.mode = 2)
    (hpos : 0 < a'.amount0) (hfail : w.step (.swap a') = .error e) (hm' : a.mode ≤ 1) (hfree : SizeFree w a)
    (hsame : a' = { a with mode := a'.mode, amount0 := a'.amount0, amount1 := a'.amount1 })
    (h1 : w.step (.swap a) = .ok w1) (o1 : Observed w w1 a.dir x) : x.got ≤ a'.amount0 ∨ a'.amount1 < x.paid := by
  by_contra hc
  rw [not_or] at hc
  obtain ⟨w2, -, hw2, -⟩ := C76_out_serves h hm' hm hfree hsame h1 o1 hpos (by omega) (by omega)
  rw [hfail] at hw2
  cases hw2

/-- The hypotheses hold in reachable pools, and each of the five cases occurs: a buy that goes through, one of nothing, one
after completion, one larger than the curve can take, one that asks for too much; and an exact-output buy is refused. -/
theorem C91_example : Reachable (Ex.after Ex.paramsA Ex.trading) ∧ Reachable (Ex.after Ex.paramsA Ex.completing) ∧
    (∀ n, Ordinary (Ex.after Ex.paramsA Ex.trading) (exIn n)) ∧
    (∀ n, n ≤ 71181044300000 → Covers (Ex.after Ex.paramsA Ex.trading) (exIn n) 71181044300000) ∧
    CountersFit (Ex.after Ex.paramsA Ex.trading) 71181044300000 ∧
    (∀ n, Exists (Ex.after Ex.paramsA Ex.trading) (exIn n) 71181044300000) ∧
    (∃ w', (Ex.after Ex.paramsA Ex.trading).step (.swap { exIn 711810443 with amount1 := 123456789118 }) = .ok w') ∧
    (Ex.after Ex.paramsA Ex.trading).step (.swap (exIn 0)) = .error .amountIsZero ∧
    (Ex.after Ex.paramsA Ex.completing).step (.swap (exIn 711810443)) = .error .poolIsCompleted ∧
    (Ex.after Ex.paramsA Ex.trading).step (.swap (exIn 71181044300000)) = .error .insufficientLiquidity ∧
    (Ex.after Ex.paramsA Ex.trading).step (.swap { exIn 711810443 with amount1 := 123456789119 }) =
      .error .exceededSlippage ∧
    (Ex.after Ex.paramsA Ex.trading).step (.swap { exOut 123456789118 with amount1 := 711810442 }) =
      .error .exceededSlippage := by
  have nl : ∀ n, ¬ LimitedBuy (Ex.after Ex.paramsA Ex.trading) (exIn n) := fun n h => absurd h.1 (by decide +kernel)
  have ec : currentPoint (Ex.after Ex.paramsA Ex.trading).cfg.activationType ⟨500, 1000400⟩ = .ok 1000400 := by
    decide +kernel
  refine ⟨Ex.reachTradingA, Ex.reachCompleteA,
    fun n => ⟨⟨1000400, ec, by decide +kernel⟩, .inl (by decide +kernel), fun h => absurd h (nl n)⟩,
    fun n hn => ⟨hn, fun h => absurd h (nl n)⟩, ⟨by decide +kernel, by decide +kernel⟩, fun n => ?_,
    ⟨((Ex.after Ex.paramsA Ex.trading).step (.swap { exIn 711810443 with amount1 := 123456789118 })).toOption.getD
      (Ex.worldOf Ex.paramsA), by decide +kernel⟩, by decide +kernel, by decide +kernel, by decide +kernel,
    by decide +kernel, by decide +kernel⟩
  change (Ex.after Ex.paramsA Ex.trading).quoteVault + 71181044300000 ≤ u64Max
  decide +kernel

end Props

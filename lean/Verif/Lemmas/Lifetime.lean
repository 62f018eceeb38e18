import Verif.Props.Trip
import Verif.Props.Owed

/-!
# The reserves, from the lifetime totals
-/

namespace Dbc

open Spec Props

/-- All trading fees ever accrued in a token. -/
def accruedSum (w : World) (t : Token) : Nat := (accrued w t).1 + (accrued w t).2.1 + (accrued w t).2.2

theorem reserve_swap {w w' : World} {a : SwapArgs} (hs : w.step (.swap a) = .ok w') (t : Token) :
    reserve w' t + traderOut w' t + referrals w' t + accruedSum w' t + traderIn w t =
      reserve w t + traderOut w t + referrals w t + accruedSum w t + traderIn w' t := by
  obtain ⟨cur, fm, r, v1, v2, s⟩ := swap_ok hs
  have o := SwapStep.observed s
  have h1 := SwapStep.reserves s t
  have h2 := o.paid t
  have h3 := o.got t
  have h4 := o.referral t
  have h5 := congrArg (inTok (feeTok fm) t) (tradeOf_fee s)
  obtain ⟨r1, r2, r3, r4, r5, r6⟩ := recordSwap_acc w.led w.cfg r fm a.dir (w.firstMin a)
  have el : w'.led = w.led.recordSwap w.cfg r fm a.dir (w.firstMin a) := by rw [s.frame]
  rw [← el] at r1 r2 r3 r4 r5 r6
  simp only [Trade.fee, inTok_add] at h5
  have h6 : accruedSum w' t = accruedSum w t + (inTok (feeTok fm) t (paPart w.cfg r) + inTok (feeTok fm) t (crPart w.cfg r) +
      inTok (feeTok fm) t r.fee.protocol) := by
    unfold accruedSum
    cases t
    · rw [onlyIf_base] at r1 r3 r5
      simp only [accrued]; omega
    · rw [onlyIf_quote] at r2 r4 r6
      simp only [accrued]; omega
  simp only [tradeOf] at h2 h3 h4 h5
  omega

/-- The reserves are what traders paid minus what they and all fees took. -/
structure Lifetime (w : World) : Prop where
  base : ∀ s, w.cfg.initialBaseSupply = .ok s →
    reserve w .base + traderOut w .base + referrals w .base + accruedSum w .base = s + traderIn w .base
  quote : reserve w .quote + traderOut w .quote + referrals w .quote + accruedSum w .quote = traderIn w .quote

theorem Lifetime.step {w w' : World} {op : Op} (k : Lifetime w) (hs : w.step op = .ok w') : Lifetime w' := by
  by_cases hop : ∃ a, op = .swap a
  · obtain ⟨a, rfl⟩ := hop
    have hb := reserve_swap hs .base
    have hq := reserve_swap hs .quote
    have := k.quote
    refine ⟨fun s h => ?_, by omega⟩
    rw [step_cfg hs] at h
    have := k.base s h
    omega
  · rcases step_cases hs with ⟨a, e, _⟩ | ⟨hc, _, _, e1, e2, _, _, _, _, _, _, _, e3, e4, e5, e6, e7, e8, _, f1, f2, f3, f4, f5, f6, _⟩
    · exact absurd ⟨a, e⟩ hop
    · obtain ⟨hb, hq⟩ := k
      simp only [reserve, traderOut, traderIn, referrals, accruedSum, accrued] at hb hq
      constructor
      · intro s h
        rw [hc] at h
        have := hb s h
        simp only [reserve, traderOut, traderIn, referrals, accruedSum, accrued]
        omega
      · simp only [reserve, traderOut, traderIn, referrals, accruedSum, accrued]
        omega

theorem Reachable.lifetime {w : World} (h : Reachable w) : Lifetime w := by
  refine Reachable.induct (P := Lifetime) ?_ (fun _ _ _ _ ih hs => ih.step hs) h
  rintro w ⟨p, env, a, c, ht, hc, hi⟩
  obtain ⟨supply, mint, upd, act, b, h1, h2, h3, h4, h5, h6, h7, h8, rfl⟩ := initPool_ok hi
  constructor
  · intro s hs
    have e : s = supply := by
      rw [h4] at hs
      exact ((ok_inj).1 hs).symm
    subst e
    rfl
  · rfl

end Dbc

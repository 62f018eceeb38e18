import Verif.Spec.Damm

/-!
# How the pools of a configuration open
-/

namespace Spec
open Dbc

/-- Two new pools open alike: DAMM v1 is given the same amounts; DAMM v2 pools have the same price and liquidity, and if the
configuration sets their fees, everything else is the same as well. The DAMM configuration account may be another one. -/
def SameOpening : NewPool → NewPool → Prop
  | .v1 _ b q, .v1 _ b' q' => b' = b ∧ q' = q
  | .fixed _ s l, .fixed _ s' l' => s' = s ∧ l' = l
  | .custom f m a lo hi s l, .custom f' m' a' lo' hi' s' l' =>
    f' = f ∧ m' = m ∧ a' = a ∧ lo' = lo ∧ hi' = hi ∧ s' = s ∧ l' = l
  | _, _ => False

/-- Quote put into the new pool, after the migration fee and the protocol's share. -/
def quoteForPool (w : World) : Nat := migrationQuote w - protocolCut (migrationQuote w)

/-- `liq` is the most concentrated liquidity that the quote tokens alone pay for at price `p`. -/
def QuoteLiquidity (p quote liq : Nat) : Prop :=
  (concentratedNeeds p liq).2 ≤ quote ∧ ∀ l, liq < l → quote < (concentratedNeeds p l).2

end Spec

import Verif.Model.Config
import Mathlib.Data.Rat.Cast.Order
import Mathlib.Algebra.BigOperators.Group.List.Basic

/-!
# Specification of the bonding curve, independent of the program's arithmetic

A curve is a list of points `(price, liquidity)`: the liquidity of a point applies between the previous point's
price (or the start price) and its own price. Prices are square-root prices in Q64.64, as in the API.
-/

namespace Spec

open Dbc (Point)

/-- A piece of the curve with constant liquidity. -/
structure Seg where
  lo : Nat
  hi : Nat
  L : Nat
  deriving DecidableEq, Repr

/-- The pieces of a curve that starts at price `lo`. -/
def segs : Nat → List Point → List Seg
  | _, [] => []
  | lo, p :: ps => ⟨lo, p.price, p.liq⟩ :: segs p.price ps

/-- A proper curve: strictly increasing positive prices, positive liquidity. -/
def Proper : Nat → List Point → Prop
  | lo, [] => 0 < lo
  | lo, p :: ps => 0 < lo ∧ lo < p.price ∧ 0 < p.liq ∧ Proper p.price ps

/-- The part of price `P` that falls in the piece `s`. -/
def clamp (s : Seg) (P : Nat) : Nat := max s.lo (min s.hi P)

/-- A quantity accumulated over the pieces up to price `P`. -/
def total {α : Type} [AddCommMonoid α] (f : Seg → Nat → α) (ss : List Seg) (P : Nat) : α :=
  (ss.map fun s => f s (clamp s P)).sum

/-- Exact quote amount of one piece up to price `x`: `L * (x - lo) / 2^128`. -/
def quoteSeg (s : Seg) (x : Nat) : ℚ := (s.L : ℚ) * ((x : ℚ) - s.lo) / 2 ^ 128

/-- Exact base amount of one piece up to price `x`: `L * (1/lo - 1/x)`. -/
def baseSeg (s : Seg) (x : Nat) : ℚ := (s.L : ℚ) * (1 / (s.lo : ℚ) - 1 / (x : ℚ))

/-- Exact quote amount needed to move the curve from its start to price `P` (integral of the curve). -/
def quoteTo (ss : List Seg) (P : Nat) : ℚ := total quoteSeg ss P

/-- Exact base amount released by the curve between its start and price `P`. -/
def baseTo (ss : List Seg) (P : Nat) : ℚ := total baseSeg ss P

/-- Quote amount of one piece, rounded up to whole units. -/
def quoteSegUp (s : Seg) (x : Nat) : Nat := (s.L * (x - s.lo) + (2 ^ 128 - 1)) / 2 ^ 128

/-- Quote needed to move the curve from its start to `P`, rounded up piece by piece. -/
def quoteToUp (ss : List Seg) (P : Nat) : Nat := total quoteSegUp ss P

/-- Base amount of one piece, rounded down to whole units. -/
def baseSegDown (s : Seg) (x : Nat) : Nat := s.L * (x - s.lo) / (s.lo * x)

/-- Base released between the start and `P`, rounded down piece by piece. -/
def baseToDown (ss : List Seg) (P : Nat) : Nat := total baseSegDown ss P

/-- The highest price of the curve. -/
def topPrice : Nat → List Point → Nat
  | lo, [] => lo
  | _, p :: ps => topPrice p.price ps

/-- The points a reader of the stored fixed-size array sees: those before the first one with price 0. -/
def stored (a : List Point) : List Point := a.takeWhile fun q => q.price != 0

/-- The pieces of the curve stored in a configuration account. -/
def curve (c : Dbc.PoolConfig) : List Seg := segs c.sqrtStartPrice (stored c.curve)

end Spec

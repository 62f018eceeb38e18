import Verif.Spec.Life

/-!
# Tokens needed for liquidity in the pool migrated to

Prices are square-root prices in Q64.64. Everything is rounded up, against the depositor.
-/

namespace Spec

open Dbc

/-- The pool migrated to is a constant-product one: DAMM v1, or DAMM v2 with compounding fees. -/
def Compounds (c : PoolConfig) : Prop := c.migrationOption = 0 ∨ c.migratedFee.collectFeeMode = 2

instance (c : PoolConfig) : Decidable (Compounds c) := inferInstanceAs (Decidable (_ ∨ _))

/-- The protocol's share of an amount put into migration: 0.2%, rounded down. -/
def protocolCut (x : Nat) : Nat := x * 20 / 10000

/-- Base and quote for `liq` units of concentrated liquidity on the full price range, at price `p`. -/
def concentratedNeeds (p liq : Nat) : Nat × Nat :=
  (ceilDiv (liq * (MAX_SQRT_PRICE - p)) (p * MAX_SQRT_PRICE), ceilDiv (liq * (p - MIN_SQRT_PRICE)) (2 ^ 128))

/-- Base and quote for creating a constant-product pool with `liq` units of liquidity at price `s`: `liq / s` and `liq * s`. -/
def compoundingNeeds (s liq : Nat) : Nat × Nat := (ceilDiv liq s, ceilDiv (liq * s) (2 ^ 128))

/-- Base and quote for adding `liq` units to a constant-product pool, in proportion to what it holds. -/
def proRataNeeds (poolBase poolQuote poolLiq liq : Nat) : Nat × Nat :=
  (ceilDiv (liq * poolBase) poolLiq, ceilDiv (liq * poolQuote) poolLiq)

/-- Both amounts are covered. -/
def Fits (needs : Nat × Nat) (base quote : Nat) : Prop := needs.1 ≤ base ∧ needs.2 ≤ quote

/-- `liq` is the largest amount of liquidity whose needs are covered. -/
def Largest (needs : Nat → Nat × Nat) (base quote liq : Nat) : Prop :=
  Fits (needs liq) base quote ∧ ∀ l, liq < l → ¬Fits (needs l) base quote

/-- DAMM v2 creates the pool with `liq` units of liquidity at price `s`, takes the tokens that needs, and the new pool reports
what it then holds. -/
def CreatesPool (c : PoolConfig) (s liq : Nat) (a : V2Args) : Prop :=
  if Compounds c then (a.base1, a.quote1) = compoundingNeeds s liq ∧ a.poolBase = a.base1 ∧ a.poolQuote = a.quote1 ∧
    a.poolLiq = liq
  else (a.base1, a.quote1) = concentratedNeeds s liq

/-- DAMM v2 adds `liq` units of liquidity and takes at most the tokens that needs. -/
def AddsLiquidity (c : PoolConfig) (s liq : Nat) (a : V2Args) : Prop :=
  Fits (a.base2, a.quote2)
    (if Compounds c then proRataNeeds a.poolBase a.poolQuote a.poolLiq liq else concentratedNeeds s liq).1
    (if Compounds c then proRataNeeds a.poolBase a.poolQuote a.poolLiq liq else concentratedNeeds s liq).2

end Spec

import Verif.Model.Math

/-!
# `curve.rs`
-/

namespace Dbc

/-- `get_delta_amount_base_unsigned_256` / `_unchecked` (curve.rs 46-77): `L * (upper - lower) / (lower * upper)`.
`upper - lower` is a plain `u128` subtraction (panics), `assert!(denominator > 0)` panics. -/
def deltaBase256 (lower upper liq : Nat) (r : Rounding) : Res Nat := do
  let diff ← subPanic upper lower
  let den ← safeMul u256Max lower upper
  let _ ← req (0 < den) .panic
  mulDivU256 liq diff den r .mathOverflow

/-- `get_delta_amount_base_unsigned` (curve.rs 34-44). -/
def deltaBase (lower upper liq : Nat) (r : Rounding) : Res Nat := do
  let result ← deltaBase256 lower upper liq r
  let _ ← req (result ≤ u64Max) .mathOverflow
  castTo u64Max result

/-- `get_delta_amount_quote_unsigned_256` / `_unchecked` (curve.rs 93-130): `L * (upper - lower) / 2^128`. -/
def deltaQuote256 (lower upper liq : Nat) (r : Rounding) : Res Nat := do
  let diff ← subPanic upper lower
  let prod ← safeMul u256Max liq diff
  .ok (divRound r prod (2 ^ 128))

/-- `get_delta_amount_quote_unsigned` (curve.rs 81-91). -/
def deltaQuote (lower upper liq : Nat) (r : Rounding) : Res Nat := do
  let result ← deltaQuote256 lower upper liq r
  let _ ← req (result ≤ u64Max) .mathOverflow
  castTo u64Max result

/-- `get_next_sqrt_price_from_quote_amount_out_rounding_down` (curve.rs 168-182). -/
def nextPriceQuoteOut (p liq amount : Nat) : Res Nat := do
  let q ← safeShl256 amount 128
  let result ← safeSub p (divCeil q liq)
  castTo u128Max result

/-- `get_next_sqrt_price_from_base_amount_out_rounding_up` (curve.rs 185-204). -/
def nextPriceBaseOut (p liq amount : Nat) : Res Nat :=
  if amount = 0 then .ok p
  else do
    let product ← safeMul u256Max amount p
    let den ← safeSub liq product
    let result ← mulDivU256 liq p den .up .typeCastFailed
    castTo u128Max result

/-- `get_next_sqrt_price_from_base_amount_in_rounding_up` (curve.rs 234-250). -/
def nextPriceBaseIn (p liq amount : Nat) : Res Nat :=
  if amount = 0 then .ok p
  else do
    let product ← safeMul u256Max amount p
    let den ← safeAdd u256Max liq product
    let result ← mulDivU256 liq p den .up .mathOverflow
    castTo u128Max result

/-- `get_next_sqrt_price_from_quote_amount_in_rounding_down` (curve.rs 266-277). -/
def nextPriceQuoteIn (p liq amount : Nat) : Res Nat := do
  let q ← safeShl256 amount 128
  let quotient ← safeDiv q liq
  let result ← safeAdd u256Max p quotient
  castTo u128Max result

/-- `get_next_sqrt_price_from_input` (curve.rs 134-149). -/
def nextPriceFromInput (p liq amount : Nat) (baseForQuote : Bool) : Res Nat := do
  let _ ← req (0 < p) .panic
  let _ ← req (0 < liq) .panic
  if baseForQuote then nextPriceBaseIn p liq amount else nextPriceQuoteIn p liq amount

/-- `get_next_sqrt_price_from_output` (curve.rs 151-165). -/
def nextPriceFromOutput (p liq amount : Nat) (baseForQuote : Bool) : Res Nat := do
  let _ ← req (0 < p) .panic
  let _ ← req (0 < liq) .panic
  if baseForQuote then nextPriceQuoteOut p liq amount else nextPriceBaseOut p liq amount

/-- `get_initialize_amounts` (curve.rs 13-26). -/
def getInitializeAmounts (pmin pmax p liq : Nat) : Res (Nat × Nat) := do
  let b ← deltaBase p pmax liq .up
  let q ← deltaQuote pmin p liq .up
  .ok (b, q)

end Dbc

import Verif.Model.World

/-!
# Quotes of the Rust SDK (`/repo/dynamic-bonding-curve-sdk/src`)

The SDK runs the program's own swap computation on the account data, without the program's update of the volatility
references. `anyhow` error messages become the program's corresponding error values.
-/

namespace Dbc

/-- The part shared by the three quote functions (quote_exact_in.rs 18-37, quote_partial_fill.rs 18-37,
quote_exact_out.rs 17-37): the checks, the current point and the fee mode. -/
def quoteSetup (p : Pool) (c : PoolConfig) (dir : TradeDirection) (now slot amount : Nat) (hasReferral : Bool) :
    Res (Nat × FeeMode) := do
  let _ ← req (¬ p.complete c.migrationQuoteThreshold) .poolIsCompleted
  let _ ← req (0 < amount) .amountIsZero
  let cur ← (match ActivationType.tryFrom c.activationType with
    | none => .error .invalidActivationType
    | some .slot => .ok slot
    | some .timestamp => .ok now)
  let fm ← getFeeMode c.collectFeeMode dir hasReferral
  .ok (cur, fm)

/-- `quote_exact_in` (quote_exact_in.rs 8-49). -/
def quoteExactIn (p : Pool) (c : PoolConfig) (dir : TradeDirection) (now slot amount : Nat) (hasReferral eligible : Bool) :
    Res SwapResult := do
  let (cur, fm) ← quoteSetup p c dir now slot amount hasReferral
  exactIn c p amount fm dir cur eligible

/-- `quote_partial_fill` (quote_partial_fill.rs 8-49). -/
def quotePartialFill (p : Pool) (c : PoolConfig) (dir : TradeDirection) (now slot amount : Nat)
    (hasReferral eligible : Bool) : Res SwapResult := do
  let (cur, fm) ← quoteSetup p c dir now slot amount hasReferral
  partialIn c p amount fm dir cur eligible

/-- `quote_exact_out` (quote_exact_out.rs 8-49): no referral argument. -/
def quoteExactOut (p : Pool) (c : PoolConfig) (dir : TradeDirection) (now slot amount : Nat) (eligible : Bool) :
    Res SwapResult := do
  let (cur, fm) ← quoteSetup p c dir now slot amount false
  exactOut c p amount fm dir cur eligible

end Dbc

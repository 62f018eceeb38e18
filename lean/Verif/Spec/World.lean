import Verif.Model.World

/-!
# What an observer of a pool sees

Readings of the two vaults and of the pool account, by token, and the lifetime totals of what moved.
-/

namespace Spec

open Dbc

/-- The two tokens of a pool. -/
inductive Token
  | base
  | quote
  deriving DecidableEq, Repr

/-- The token the trader pays. -/
def inToken : TradeDirection → Token
  | .baseToQuote => .base
  | .quoteToBase => .quote

/-- The token the trader receives. -/
def outToken : TradeDirection → Token
  | .baseToQuote => .quote
  | .quoteToBase => .base

/-- Balance of a vault. -/
def vault (w : World) : Token → Nat
  | .base => w.baseVault
  | .quote => w.quoteVault

/-- Reserve booked for the curve. -/
def reserve (w : World) : Token → Nat
  | .base => w.pool.baseReserve
  | .quote => w.pool.quoteReserve

/-- Unclaimed trading fees of the partner. -/
def partnerFee (w : World) : Token → Nat
  | .base => w.pool.partnerBaseFee
  | .quote => w.pool.partnerQuoteFee

/-- Unclaimed trading fees of the creator. -/
def creatorFee (w : World) : Token → Nat
  | .base => w.pool.creatorBaseFee
  | .quote => w.pool.creatorQuoteFee

/-- Unclaimed trading fees of the protocol. -/
def protocolFee (w : World) : Token → Nat
  | .base => w.pool.protocolBaseFee
  | .quote => w.pool.protocolQuoteFee

/-- All unclaimed trading fees. -/
def fees (w : World) (t : Token) : Nat := partnerFee w t + creatorFee w t + protocolFee w t

/-- Total ever paid by traders into the pool. -/
def traderIn (w : World) : Token → Nat
  | .base => w.led.tradeBaseIn
  | .quote => w.led.tradeQuoteIn

/-- Total ever received by traders from the pool. -/
def traderOut (w : World) : Token → Nat
  | .base => w.led.tradeBaseOut
  | .quote => w.led.tradeQuoteOut

/-- Total ever paid to referral accounts. -/
def referrals (w : World) : Token → Nat
  | .base => w.led.refBase
  | .quote => w.led.refQuote

/-- Everything a successful swap did, as an observer sees it: the trader paid `paid` and received `got`, and the fee `fee`
was taken in token `feeToken` and divided among partner, creator, protocol and referral account. -/
structure Trade where
  paid : Nat
  got : Nat
  feeToken : Token
  partner : Nat
  creator : Nat
  protocol : Nat
  referral : Nat

/-- The whole fee. -/
def Trade.fee (x : Trade) : Nat := x.partner + x.creator + x.protocol + x.referral

/-- An amount in one token only. -/
def inTok (t t' : Token) (x : Nat) : Nat := if t = t' then x else 0

/-- `x` describes the step from `w` to `w'` in direction `dir`: the lifetime totals and the unclaimed balances grew by
exactly these amounts, in the right tokens. -/
structure Observed (w w' : World) (dir : TradeDirection) (x : Trade) : Prop where
  paid : ∀ t, traderIn w' t = traderIn w t + inTok (inToken dir) t x.paid
  got : ∀ t, traderOut w' t = traderOut w t + inTok (outToken dir) t x.got
  partner : ∀ t, partnerFee w' t = partnerFee w t + inTok x.feeToken t x.partner
  creator : ∀ t, creatorFee w' t = creatorFee w t + inTok x.feeToken t x.creator
  protocol : ∀ t, protocolFee w' t = protocolFee w t + inTok x.feeToken t x.protocol
  referral : ∀ t, referrals w' t = referrals w t + inTok x.feeToken t x.referral

/-- The amount the fee is taken from: what the trader pays when the fee is taken in the token paid, what leaves the curve
when it is taken in the token received. -/
def Trade.bearing (x : Trade) (dir : TradeDirection) : Nat :=
  if x.feeToken = inToken dir then x.paid else x.got + x.fee

end Spec

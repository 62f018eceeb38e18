import Verif.Model.Event
import Verif.Spec.World
import Verif.Spec.Life

/-!
# Reading a pool's log

What somebody who keeps only the events of a pool, in order, and knows the pool's configuration, computes from them. None of
these functions looks at any account.
-/

namespace Spec

open Dbc

/-- The sum of `f` over a log. -/
def sumLog (f : Event → Nat) (es : List Event) : Nat := (es.map f).sum

/-- The token a swap's fee is taken in: quote, or what the trader receives, according to the configured collection mode. -/
def feeTokenOf (c : PoolConfig) (dir : TradeDirection) : Token := if c.collectFeeMode = 0 then .quote else outToken dir

/-- What traders paid in token `t`, according to the log. -/
def logPaid (t : Token) : List Event → Nat :=
  sumLog fun | .swap e => inTok (inToken e.dir) t e.amountIn | _ => 0

/-- What traders received in token `t`. -/
def logGot (t : Token) : List Event → Nat :=
  sumLog fun | .swap e => inTok (outToken e.dir) t e.out | _ => 0

/-- Trading fees (of partner and creator together) taken in token `t`. -/
def logTrading (c : PoolConfig) (t : Token) : List Event → Nat :=
  sumLog fun | .swap e => inTok (feeTokenOf c e.dir) t e.trading | _ => 0

/-- Protocol fees taken in token `t`. -/
def logProtocol (c : PoolConfig) (t : Token) : List Event → Nat :=
  sumLog fun | .swap e => inTok (feeTokenOf c e.dir) t e.protocol | _ => 0

/-- Referral fees paid in token `t`. -/
def logReferral (c : PoolConfig) (t : Token) : List Event → Nat :=
  sumLog fun | .swap e => inTok (feeTokenOf c e.dir) t e.referral | _ => 0

/-- An amount of one of two, by token. -/
def pick (t : Token) (b q : Nat) : Nat := match t with | .base => b | .quote => q

/-- Trading fees claimed by the partner in token `t`. -/
def logPartnerClaims (t : Token) : List Event → Nat := sumLog fun | .claimTradingFee b q => pick t b q | _ => 0
/-- Trading fees claimed by the creator in token `t`. -/
def logCreatorClaims (t : Token) : List Event → Nat := sumLog fun | .claimCreatorTradingFee b q => pick t b q | _ => 0
/-- What the protocol claimed in token `t`. -/
def logProtocolClaims (t : Token) : List Event → Nat := sumLog fun | .claimProtocolFee b q => pick t b q | _ => 0
/-- Surplus withdrawn by the partner. -/
def logPartnerSurplus : List Event → Nat := sumLog fun | .partnerWithdrawSurplus x => x | _ => 0
/-- Surplus withdrawn by the creator. -/
def logCreatorSurplus : List Event → Nat := sumLog fun | .creatorWithdrawSurplus x => x | _ => 0
/-- Migration fee withdrawn with flag `f`: 0 the partner's, 1 the creator's. -/
def logMigrationFee (f : Nat) : List Event → Nat := sumLog fun | .withdrawMigrationFee x g => if g = f then x else 0 | _ => 0
/-- Leftover base tokens withdrawn. -/
def logLeftover : List Event → Nat := sumLog fun | .withdrawLeftover _ x => x | _ => 0
/-- Lamports of the creation fee paid to the partner. -/
def logPartnerLamports : List Event → Nat := sumLog fun | .partnerClaimPoolCreationFee _ x => x | _ => 0
/-- Lamports of the creation fee paid to the protocol. -/
def logProtocolLamports : List Event → Nat := sumLog fun | .claimPoolCreationFee x => x | _ => 0
/-- How often the completion of the curve was announced. -/
def logCompletions : List Event → Nat := sumLog fun | .curveComplete _ _ => 1 | _ => 0

/-- The value left after reading a log in order, where some events overwrite it. -/
def latest {α : Type} (f : Event → Option α) (start : α) (es : List Event) : α :=
  es.foldl (fun x e => (f e).getD x) start

/-- The price according to the log: that of the last swap. -/
def logPrice (start : Nat) : List Event → Nat := latest (fun | .swap e => some e.next | _ => none) start
/-- The quote reserve according to the log: that of the last swap. -/
def logReserve (start : Nat) : List Event → Nat := latest (fun | .swap2 e => some e.quoteReserve | _ => none) start
/-- The creator according to the log: named at creation and by each change. -/
def logCreator (start : Nat) : List Event → Nat :=
  latest (fun | .initializePool c _ _ => some c | .updatePoolCreator _ n => some n | _ => none) start

/-- Events that report a payment out of the vaults, and the amount they report in token `t`. -/
def reported (t : Token) : Event → Option Nat
  | .claimProtocolFee b q => some (pick t b q)
  | .claimTradingFee b q => some (pick t b q)
  | .claimCreatorTradingFee b q => some (pick t b q)
  | .partnerWithdrawSurplus x => some (pick t 0 x)
  | .creatorWithdrawSurplus x => some (pick t 0 x)
  | .withdrawMigrationFee x _ => some (pick t 0 x)
  | .withdrawLeftover _ x => some (pick t x 0)
  | _ => none

/-- Claims on trading fees paid so far. -/
def partnerPaid (w : World) (t : Token) : Nat := pick t w.led.paidPartnerBase w.led.paidPartnerQuote
def creatorPaid (w : World) (t : Token) : Nat := pick t w.led.paidCreatorBase w.led.paidCreatorQuote
def protocolPaid (w : World) (t : Token) : Nat := pick t w.led.paidProtocolBase w.led.paidProtocolQuote
/-- The pool's own lifetime counters of trading and protocol fees. -/
def tradingCounter (w : World) (t : Token) : Nat := pick t w.pool.metrics.tradingBase w.pool.metrics.tradingQuote
def protocolCounter (w : World) (t : Token) : Nat := pick t w.pool.metrics.protocolBase w.pool.metrics.protocolQuote

/-- A log tells everything about `w` that this structure lists. -/
structure Tells (es : List Event) (w : World) : Prop where
  paid : ∀ t, logPaid t es = traderIn w t
  got : ∀ t, logGot t es = traderOut w t
  referral : ∀ t, logReferral w.cfg t es = referrals w t
  trading : ∀ t, logTrading w.cfg t es = tradingCounter w t
  protocol : ∀ t, logProtocol w.cfg t es = protocolCounter w t
  partner : ∀ t, logPartnerClaims t es = partnerPaid w t
  creator : ∀ t, logCreatorClaims t es = creatorPaid w t
  partnerSurplus : logPartnerSurplus es = w.led.partnerSurplus
  creatorSurplus : logCreatorSurplus es = w.led.creatorSurplus
  partnerMig : logMigrationFee 0 es = w.led.partnerMig
  creatorMig : logMigrationFee 1 es = w.led.creatorMig
  leftover : logLeftover es = w.led.leftover
  partnerLamports : logPartnerLamports es = w.led.lamportsPartner
  protocolLamports : logProtocolLamports es = w.led.lamportsProtocol
  price : logPrice w.cfg.sqrtStartPrice es = w.pool.sqrtPrice
  reserve : logReserve 0 es = w.pool.quoteReserve
  owner : logCreator 0 es = w.pool.creator
  completions : logCompletions es = if Completed w then 1 else 0

/-- The swap event `e` describes the step from `w` to `w'`. -/
structure Describes (w w' : World) (a : SwapArgs) (e : EvtSwap) : Prop where
  dir : e.dir = a.dir
  referred : e.hasReferral = a.referral
  time : e.time = a.clk.time
  price : e.next = w'.pool.sqrtPrice
  paid : ∀ t, traderIn w' t = traderIn w t + inTok (inToken a.dir) t e.amountIn
  got : ∀ t, traderOut w' t = traderOut w t + inTok (outToken a.dir) t e.out
  trading : ∀ t, partnerFee w' t + creatorFee w' t =
    partnerFee w t + creatorFee w t + inTok (feeTokenOf w.cfg a.dir) t e.trading
  protocol : ∀ t, protocolFee w' t = protocolFee w t + inTok (feeTokenOf w.cfg a.dir) t e.protocol
  referral : ∀ t, referrals w' t = referrals w t + inTok (feeTokenOf w.cfg a.dir) t e.referral
  /-- what reached the curve: the payment without the fee when the fee is taken from it -/
  actual : e.actualIn + inTok (feeTokenOf w.cfg a.dir) (inToken a.dir) (e.trading + e.protocol + e.referral) = e.amountIn

end Spec

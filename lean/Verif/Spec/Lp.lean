import Verif.Spec.World

/-!
# LP tokens of a pool migrated to DAMM v1
-/

namespace Spec
open Dbc

/-- LP tokens handed out to an owner: locked for them (`true`) or paid to them (`false`). -/
def given (log : List LpEvent) (owner : Nat) (lock : Bool) : Nat :=
  ((log.filter fun e => e.owner = owner ∧ e.lock = lock).map LpEvent.amount).sum

/-- All LP tokens handed out. -/
def handedOut (log : List LpEvent) : Nat := (log.map LpEvent.amount).sum

/-- The four shares of the LP tokens minted at migration. -/
structure LpShares where
  partner : Bool → Nat
  creator : Bool → Nat

/-- The shares the configuration promises: partner locked, partner liquid and creator locked by percentage rounded down,
creator liquid the remainder. -/
def lpShares (cfg : PoolConfig) (minted : Nat) : LpShares where
  partner lock := if lock then minted * cfg.partnerPermLockedPct / 100 else minted * cfg.partnerLiqPct / 100
  creator lock := if lock then minted * cfg.creatorPermLockedPct / 100
    else minted - minted * cfg.partnerPermLockedPct / 100 - minted * cfg.partnerLiqPct / 100 -
      minted * cfg.creatorPermLockedPct / 100

/-- What an owner is entitled to, given who was partner and who was creator at migration. -/
def LpShares.owed (s : LpShares) (partner creator owner : Nat) (lock : Bool) : Nat :=
  (if owner = partner then s.partner lock else 0) + (if owner = creator then s.creator lock else 0)

end Spec

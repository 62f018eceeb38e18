import Verif.Model.Board

/-!
# Reading a published description

Written from the account layout as a reader off chain would use it, without the program's serialisation functions.
-/

namespace Spec
open Dbc

/-- The number with these little-endian digits. -/
def number : List Nat → Nat
  | [] => 0
  | b :: r => b + 256 * number r

/-- A length-prefixed string and what follows it. -/
def readString (d : List Nat) : Option (List Nat × List Nat) :=
  let n := number (d.take 4)
  if 4 + n ≤ d.length then some ((d.drop 4).take n, d.drop (4 + n)) else none

/-- The key and the three strings of a description: the key is in bytes 8 to 39, the strings start at byte 136 and there is
nothing after them. -/
def readNotice (d : List Nat) : Option (Nat × Notice) := do
  let (n, r) ← readString (d.drop 136)
  let (w, r) ← readString r
  let (l, r) ← readString r
  if r = [] then some (number ((d.drop 8).take 32), ⟨n, w, l⟩) else none

/-- The strings are short enough to be stored (any string that fits into a transaction is). -/
def Short (t : Notice) : Prop := t.name.length < 2 ^ 32 ∧ t.website.length < 2 ^ 32 ∧ t.logo.length < 2 ^ 32

/-- The instructions of a history that the account layer of `Verif.Model.Chain` knows. -/
def chainPart : List (Site × SiteInstr) → List Instr
  | [] => []
  | (_, .chain ix) :: r => ix :: chainPart r
  | _ :: r => chainPart r

end Spec

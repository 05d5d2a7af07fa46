import Verif.Basic
import Mathlib.Logic.Function.Iterate

/-
The delay encoding in plain arithmetic: undoing a step is one squaring, a step is the search for
the residue that the squaring leads back.
-/

namespace PoS

/-- Undoing one step: an odd residue comes from the square of its successor, an even one from the
negated square of its predecessor. -/
def unstep (p z : Nat) : Nat := if z % 2 = 1 then (z + 1) ^ 2 % p else p - (z - 1) ^ 2 % p

/-- One step: the first non-zero residue that `unstep` takes to `x`. -/
def slothStep (p x : Nat) : Nat := ((List.range p).find? (fun z => decide (0 < z ∧ unstep p z = x))).getD 0

/-- `t` steps. Zero is not a residue the steps apply to: one step turns it into one, two steps
into two, and from there on it is encoded like two. -/
def encode (p t x : Nat) : Nat :=
  if x = 0 then (if t = 0 then 0 else if t = 1 then 1 else (slothStep p)^[t - 2] 2) else (slothStep p)^[t] x

end PoS

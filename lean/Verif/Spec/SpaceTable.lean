import Verif.Basic

/-
What a table of the proof of space is meant to hold, written without the model.
-/

namespace PoS

/-- The last of the inputs `0, ..., k - 1` that belongs to cell `y`. -/
def lastInput (slot : Nat → Nat) (y : Nat) : Nat → Option Nat
  | 0 => none
  | k + 1 => if slot k = y then some k else lastInput slot y k

/-- Bit `i` of a table with cells of `n + 1` bits in which the inputs below `k` have been entered, the
bits having been `old` before: the cell of an input holds the last input that belongs to it and, in its
top bit, the flag; the other cells, and what follows the table, are as before. -/
def tableBit (slot : Nat → Nat) (n k : Nat) (old : Nat → Bool) (i : Nat) : Bool :=
  match lastInput slot (i / (n + 1)) k with
  | some x => (x + 2 ^ n).testBit (i % (n + 1))
  | none => old i

end PoS

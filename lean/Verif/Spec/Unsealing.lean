import Verif.Spec.Sealing
import Verif.Spec.Sloth

/-
A mathematical description of unsealing, of whole files and of single blocks, whatever the bytes
handed in: no files, no panics, no loops over mutable state.
-/

namespace PoS

/-- Undoing one delay step on any number, residue or not: an odd number is increased, an even one
decreased by one, the result reduced, squared, and the square negated if the result was odd. -/
def undelay (p y : Nat) : Nat :=
  let x := if y % 2 = 1 then (y + 1) % p else (y + p - 1) % p
  if x % 2 = 1 then p - x ^ 2 % p else x ^ 2 % p

namespace Sealing

/-- Unsealing unit `j` with the decoder `dec`: decode, then subtract the mask modulo `p`. -/
def unstepUnit (S : Sealing) (dec : Nat → Nat) (deps : List (List Bytes)) (chain : Bytes) (b : List Bytes) (j : Nat) :
    List Bytes :=
  b.set j (leBytes S.unitPl
    ((dec (leNat (b.getD j [])) + S.p - leNat (S.H (S.maskInput deps chain b j))) % S.p))

/-- Unsealing a block: `rounds` times, the units from the last to the first. -/
def unsealOne (S : Sealing) (dec : Nat → Nat) (deps : List (List Bytes)) (chain : Bytes) (b : List Bytes) : List Bytes :=
  (fun b => (List.range S.c).reverse.foldl (S.unstepUnit dec deps chain) b)^[S.rounds] b

/-- The state of a block while it is unsealed: after `r` complete rounds and `i` units of the next. -/
def unsealState (S : Sealing) (dec : Nat → Nat) (deps : List (List Bytes)) (chain : Bytes) (b : List Bytes) (r i : Nat) :
    List Bytes :=
  ((List.range S.c).reverse.take i).foldl (S.unstepUnit dec deps chain)
    ((fun b => (List.range S.c).reverse.foldl (S.unstepUnit dec deps chain) b)^[r] b)

/-- While a block is unsealed, enough of the five numbers drawn for each unit differ from its position. -/
def EnoughUnsealing (S : Sealing) (cnt : Nat) (dec : Nat → Nat) (deps : List (List Bytes)) (chain : Bytes)
    (b : List Bytes) : Prop :=
  ∀ r < S.rounds, ∀ j < S.c,
    EnoughDrawn S.H S.c cnt (if j = 0 then [] else (S.unsealState dec deps chain b r (S.c - 1 - j)).getD (j - 1) []) j

/-- No unit is zero at the moment it is decoded. -/
def NoZeroDecoded (S : Sealing) (dec : Nat → Nat) (deps : List (List Bytes)) (chain : Bytes) (b : List Bytes) : Prop :=
  ∀ r < S.rounds, ∀ i < S.c, leNat ((S.unsealState dec deps chain b r i).getD (S.c - 1 - i) []) ≠ 0

/-- No masked unit is zero at the moment it is encoded. -/
def NoZeroEncoded (S : Sealing) (deps : List (List Bytes)) (chain : Bytes) (b : List Bytes) : Prop :=
  ∀ v ∈ S.encoderInputs deps chain b, v ≠ 0

/-- A block of `c` units of the right length, each a residue. -/
def Canonical (S : Sealing) (b : List Bytes) : Prop :=
  b.length = S.c ∧ ∀ u ∈ b, u.length = S.unitPl ∧ leNat u < S.p

/-- Block `k` of the unsealed file, when `blocks` are the blocks of the sealed one.  Only block `k`,
the block before it and the blocks it refers to are used. -/
def unsealedBlock (S : Sealing) (dec : Nat → Nat) (blocks : Nat → List Bytes) (k : Nat) : List Bytes :=
  let id := S.H (blocks (k - 1)).flatten
  S.unsealOne dec ((S.long id k).map blocks) (if k = 0 then S.iv else id) (blocks k)

end Sealing

end PoS

import Verif.Basic

/-
Specification vocabulary for the hash-chosen dependency lists: the byte stream that is
obtained by hashing again and again, and the numbers read from it.
-/

namespace PoS

/-- The chain of hash prefixes: the first 16 bytes of the hash of `data`, then of the hash of
those 16 bytes, and so on. -/
def prefixChain (H : Bytes → Bytes) (data : Bytes) : Nat → Bytes
  | 0 => (H data).take 16
  | j + 1 => (H (prefixChain H data j)).take 16

/-- Byte `i` of the concatenated chain. -/
def streamByte (H : Bytes → Bytes) (data : Bytes) (i : Nat) : Nat :=
  ((prefixChain H data (i / 16)).getD (i % 16) 0).toNat

/-- The `i`-th number read from the stream for a choice among `num` positions: one byte up to
256 positions, 256 plus the sum of two bytes up to 65536, otherwise 768 plus the sum of three bytes. -/
def drawn (H : Bytes → Bytes) (data : Bytes) (num i : Nat) : Nat :=
  if num ≤ 256 then streamByte H data i
  else if num ≤ 65536 then 256 + streamByte H data (2 * i) + streamByte H data (2 * i + 1)
  else 768 + streamByte H data (3 * i) + streamByte H data (3 * i + 1) + streamByte H data (3 * i + 2)

/-- How many numbers are read at most when `count` dependencies are requested.  Above 65536 positions
only the five numbers that lie inside the first 16 bytes can be read. -/
def available (num count : Nat) : Nat :=
  if num ≤ 256 then 16 * max 1 (count / 8)
  else if num ≤ 65536 then 8 * max 1 (count / 16)
  else 5

end PoS

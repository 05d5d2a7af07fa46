import Verif.Model.Space

/-
`mark_space` of /repo/proof_of_space/src/proof_of_space/prover.rs with all contents its file has on
the way.  Every write of `mark_space` is a `write_all` of one byte, so a run that is stopped from
outside (the process is killed) leaves one of these contents.

Simplification: writes reach the file in the order in which they are made (a power failure that
reorders them is not modelled).
-/

namespace PoS

/-- The bit-writing loop of `mark_space` with the contents written so far, prover.rs 95-117; the only
write of an iteration is the one in line 104. -/
def markStepSeen (b : Bool) (s : MarkState × List Bytes) : R (MarkState × List Bytes) := do
  let s' ← markStep b s.1
  if s.1.j + 1 = 8 then pure (s', s.2 ++ [s'.file]) else pure (s', s.2)

/-- Writing the bits `xBits` at bit position `bitIdx`, prover.rs 70-73 and 81-126, with the contents
the file has after each write. -/
def markBitsSeen (file : Bytes) (bitIdx : Nat) (xBits : List Bool) : R (Bytes × List Bytes) := do
  let byteIdx := bitIdx / 8
  let left := bitIdx % 8
  let buf := readInto file byteIdx [0]
  let s ← forEach xBits markStepSeen
    ({ file := file, byteIdx := byteIdx, buf := buf, bufBits := bytesToBits buf, j := left }, [])
  if s.1.j ≠ 0 then do
    let buf ← bitsToBytes s.1.bufBits
    let file := writeAt s.1.file s.1.byteIdx buf
    pure (file, s.2 ++ [file])
  else pure (s.1.file, s.2)

/-- All contents of the file during `mark_space`, prover.rs 44-131, in order, the one found at the
start included.  A run that is stopped leaves one of them. -/
def markSpaceSeen {q : Nat} (file : Bytes) (key m : ZMod q) (dfConstants : List (ZMod q)) (n : Nat) :
    R (List Bytes) := do
  let count ← pow2! n
  let s ← forUp count (fun x (s : Bytes × List Bytes) => do
    let y ← slotOf key m dfConstants n x
    let xBits ← usizeToBits x n
    let xBits := xBits ++ [true]
    let r ← markBitsSeen s.1 ((n + 1) * y) xBits
    pure (r.1, s.2 ++ r.2)) (file, [file])
  pure s.2

end PoS

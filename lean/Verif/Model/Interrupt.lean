import Verif.Model.Prover

/-
Runs of `seal` and `unseal` that are stopped from outside (the process is killed), for
/repo/proof_of_storage/src/proof_of_storage/prover.rs.  Both functions rewrite the file in place, one
`write_all` per block, and keep no record of their progress.  The file seen after the stop is the
file after the last complete block, with the first bytes of the next block possibly written.

Simplifications: writes reach the file in the order in which the bytes are handed over (a power
failure that reorders them is not modelled), and a stop in the middle of a block before its `write_all`
leaves the file as it was, because everything else happens in memory.
-/

namespace PoS

/-- The first `m` iterations of the block loop of `unseal`, prover.rs 268-472. -/
def unsealPart (H : Bytes → Bytes) (params : PosPara) (file : Bytes) (key : Int) (iv : Bytes)
    (m : Nat) : R Bytes := do
  let blockCnt ← div! params.dataL params.blockL
  let idxsL ← idxsLOf params blockCnt
  let idxsS ← idxsSOf params blockCnt
  forUp m (fun i file => do
    let a ← sub! blockCnt 1
    let idx2 ← sub! a i
    unsealBlock H params key iv blockCnt idxsL idxsS idx2 file) file

/-- A file write from `before` to `after` that is stopped when everything in front of position `upTo`
has been written (prover.rs 239-240 and 466-467; bytes in front of the written block are the same in
both). -/
def tornFile (before after : Bytes) (upTo : Nat) : Bytes := after.take upTo ++ before.drop upTo

/-- The file left by a `seal` that is stopped after `k` blocks and `w` bytes of the next one,
prover.rs 50-242. -/
def sealStopped (H : Bytes → Bytes) (params : PosPara) (file : Bytes) (key : Int) (iv : Bytes)
    (k w : Nat) : R Bytes := do
  let s ← sealPrefix H params file key iv k
  let t ← sealPrefix H params file key iv (k + 1)
  pure (tornFile s.file t.file (k * params.blockPl + w))

/-- The file left by an `unseal` that is stopped after `m` blocks (the last ones of the file) and `w`
bytes of the next one, prover.rs 268-472. -/
def unsealStopped (H : Bytes → Bytes) (params : PosPara) (file : Bytes) (key : Int) (iv : Bytes)
    (m w : Nat) : R Bytes := do
  let blockCnt ← div! params.dataL params.blockL
  let s ← unsealPart H params file key iv m
  let t ← unsealPart H params file key iv (m + 1)
  pure (tornFile s t ((blockCnt - 1 - m) * params.blockPl + w))

end PoS

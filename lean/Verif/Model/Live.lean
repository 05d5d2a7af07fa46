import Verif.Model.Postorage
import Verif.Model.Interrupt

/-
Answering from a file that another process is rewriting at the same time: `single_unseal_prepare` and
`batch_unseal_prepare` of /repo/proof_of_storage/src/proof_of_storage/verifier.rs and the prover's side of a
round in `test_pipeline`, /repo/proof_of_storage/src/proof_of_storage/postorage.rs, while `seal` or `unseal`
runs on the same file.  No lock is taken.  Every call of `read_file` may find a different content of the file;
the content that each call finds is a parameter.  Everything else is as in the model with a file that does
not change.

Simplification: one call of `read_file` finds one content.  The contents considered in the theorems are
those in which a block may be half written, so a read that overlaps a write is included.
-/

namespace PoS

/-- Reading the blocks `idxs`, verifier.rs 89-97; the `m`-th of them is read from the content `dep m`. -/
def readBlocksLive (dep : Nat → Bytes) (params : PosPara) (idxs : List Nat) : R (List (List Bytes)) :=
  forUp idxs.length (fun m res => do
    let i ← at! idxs m
    let buf := readFile (dep m) (i * params.blockPl) params.blockPl
    let ans ← toUnits buf params.unitPl
    pure (res ++ [ans])) []

/-- `single_unseal_prepare`, verifier.rs 47-116; the block is read from the content `own`, the block before it
from `before` and the `m`-th dependency from `dep m`. -/
def singleUnsealPrepareLive (own before : Bytes) (dep : Nat → Bytes) (H : Bytes → Bytes) (params : PosPara)
    (blockIdx : Nat) : R Prepared := do
  let buf := readFile own (blockIdx * params.blockPl) params.blockPl
  let block ← toUnits buf params.unitPl
  let blockCnt ← div! params.dataL params.blockL
  let idxsL ← idxsLOf params blockCnt
  let beforeId :=
    if blockIdx ≠ 0 then H (readFile before ((blockIdx - 1) * params.blockPl) params.blockPl)
    else []
  let dependBlocks ←
   (if params.modeL = 0 then do
      let cur ←
       (if blockIdx = 0 then pure []
        else
          if params.cntL = 0 then longModeRandom H blockCnt beforeId blockIdx (blockIdx / 10 + 1)
          else longModeRandom H blockCnt beforeId blockIdx params.cntL : R (List Nat))
      readBlocksLive dep params cur
    else do
      let cur ← at! idxsL blockIdx
      readBlocksLive dep params cur : R (List (List Bytes)))
  pure { block := block, beforeId := beforeId, dependBlocks := dependBlocks }

/-- The prover's side of a round, postorage.rs 345-376; for challenged block `k` the contents found are `own k`,
`before k` and `dep k m`. -/
def proverRespondLive (own before : Nat → Bytes) (dep : Nat → Nat → Bytes) (H : Bytes → Bytes) (params : PosPara)
    (tree : MerkleTree) (r : UInt8) (indices : List Nat) : R Response := do
  let c ← forEach indices (fun idx2 (s : Bytes × List (List Bytes) × List Bytes × List (List (List Bytes))) => do
    let pr ← singleUnsealPrepareLive (own idx2) (before idx2) (dep idx2) H params idx2
    pure (s.1 ++ pr.block.flatten, s.2.1 ++ [pr.block], s.2.2.1 ++ [pr.beforeId], s.2.2.2 ++ [pr.dependBlocks]))
    ([r], [], [], [])
  let proof ← generateMerkleProof indices tree
  pure { hash := H c.1, blocks := c.2.1, beforeIds := c.2.2.1, dependBlocks := c.2.2.2, proof := proof }

/-- `batch_unseal_prepare`, verifier.rs 118-208; for block `k` of the range the contents found are `own k`,
`before k` and `dep k m`. -/
def batchUnsealPrepareLive (own before : Nat → Bytes) (dep : Nat → Nat → Bytes) (H : Bytes → Bytes) (params : PosPara)
    (idxBegin idxEnd : Nat) : R BatchPrepared := do
  let blocksIdx ← blocksIdxOf params.blockPl idxBegin idxEnd
  let blocks ← forEach blocksIdx (fun idx2 res => do
    let buf := readFile (own idx2) (idx2 * params.blockPl) params.blockPl
    let ans ← toUnits buf params.unitPl
    pure (res ++ [ans])) []
  let blockCnt ← div! params.dataL params.blockL
  let idxsL ← idxsLOf params blockCnt
  let r ← forEach blocksIdx (fun idx2 (s : List Bytes × List (List (List Bytes))) => do
    let beforeId :=
      if idx2 ≠ 0 then H (readFile (before idx2) ((idx2 - 1) * params.blockPl) params.blockPl) else []
    let single ←
     (if params.modeL = 0 then do
        let cur ←
         (if idx2 = 0 then pure []
          else
            if params.cntL = 0 then longModeRandom H blockCnt beforeId idx2 (idx2 / 10 + 1)
            else longModeRandom H blockCnt beforeId idx2 params.cntL : R (List Nat))
        readBlocksLive (dep idx2) params cur
      else do
        let cur ← at! idxsL idx2
        readBlocksLive (dep idx2) params cur : R (List (List Bytes)))
    pure (s.1 ++ [beforeId], s.2 ++ [single])) ([], [])
  pure { blocksIdx := blocksIdx, blocks := blocks, beforeIds := r.1, dependBlocks := r.2 }

end PoS

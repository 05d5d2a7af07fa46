import Verif.Model.ShortRead
import Verif.Model.Postorage

/-
The remaining functions of proof_of_storage that read files, with reads that may return fewer bytes
than the file holds (see Model/ShortRead.lean): `copy_and_compress`, `single_unseal_prepare`, the two
sides of a challenge round in `test_pipeline`, `generate_merkle_tree_from_file`.  The number of bytes
that each call returns is a parameter; everything else is as in the model with complete reads.
-/

namespace PoS

/-- `copy_and_compress`, prover.rs 247-266; `got cnt` bytes are returned for padded unit `cnt`. -/
def copyAndCompressShort (got : Nat → Nat) (origin : Bytes) (dataL unitL unitPl : Nat) : R Bytes := do
  let blockCnt ← div! dataL unitL
  forUp blockCnt (fun cnt new => do
    let buf := readFileShort (got cnt) origin (cnt * unitPl) unitPl
    let part ← slice! buf 0 unitL
    pure (new ++ part)) []

/-- `single_unseal_prepare`, verifier.rs 47-116; `own` bytes of the block are returned, `before` bytes of
the block before it and `dep m` bytes of its `m`-th dependency. -/
def singleUnsealPrepareShort (own before : Nat) (dep : Nat → Nat) (H : Bytes → Bytes) (params : PosPara)
    (sealed : Bytes) (blockIdx : Nat) : R Prepared := do
  let buf := readFileShort own sealed (blockIdx * params.blockPl) params.blockPl
  let block ← toUnits buf params.unitPl
  let blockCnt ← div! params.dataL params.blockL
  let idxsL ← idxsLOf params blockCnt
  let beforeId :=
    if blockIdx ≠ 0 then H (readFileShort before sealed ((blockIdx - 1) * params.blockPl) params.blockPl)
    else []
  let dependBlocks ←
   (if params.modeL = 0 then do
      let cur ←
       (if blockIdx = 0 then pure []
        else
          if params.cntL = 0 then longModeRandom H blockCnt beforeId blockIdx (blockIdx / 10 + 1)
          else longModeRandom H blockCnt beforeId blockIdx params.cntL : R (List Nat))
      readBlocksShort dep params sealed cur
    else do
      let cur ← at! idxsL blockIdx
      readBlocksShort dep params sealed cur : R (List (List Bytes)))
  pure { block := block, beforeId := beforeId, dependBlocks := dependBlocks }

/-- The prover's side of a round, postorage.rs 345-376; `own k`, `before k` and `dep k m` bytes are
returned for challenged block `k`. -/
def proverRespondShort (own before : Nat → Nat) (dep : Nat → Nat → Nat) (H : Bytes → Bytes) (params : PosPara)
    (sealed : Bytes) (tree : MerkleTree) (r : UInt8) (indices : List Nat) : R Response := do
  let c ← forEach indices (fun idx2 (s : Bytes × List (List Bytes) × List Bytes × List (List (List Bytes))) => do
    let pr ← singleUnsealPrepareShort (own idx2) (before idx2) (dep idx2) H params sealed idx2
    pure (s.1 ++ pr.block.flatten, s.2.1 ++ [pr.block], s.2.2.1 ++ [pr.beforeId], s.2.2.2 ++ [pr.dependBlocks]))
    ([r], [], [], [])
  let proof ← generateMerkleProof indices tree
  pure { hash := H c.1, blocks := c.2.1, beforeIds := c.2.2.1, dependBlocks := c.2.2.2, proof := proof }

/-- The verifier's side of a round, postorage.rs 379-418; `got k` bytes are returned of block `k` of the
origin file. -/
def verifierCheckShort (got : Nat → Nat) (H Hs : Bytes → Bytes) (params : PosPara) (origin pubdata : Bytes)
    (leaves : List Bytes) (root : Bytes) (r : UInt8) (indices : List Nat) (resp : Response) (parallelNum : Nat)
    (sched : List Nat) : R (Option Unit) := do
  let hashV := H (responseBytes r resp.blocks)
  if resp.hash ≠ hashV then .error .assertion
  else do
    verifyMerkleProof Hs resp.proof root indices leaves
    let kv ← loadData pubdata
    let unsealed ←
     (if parallelNum = 0 then do
        let out ← batchUnseal H params indices resp.blocks resp.beforeIds resp.dependBlocks kv.1 kv.2
        pure (some out)
      else batchUnsealParallel H params indices resp.blocks resp.beforeIds resp.dependBlocks kv.1 kv.2
        parallelNum sched : R (Option (List (List Bytes))))
    match unsealed with
    | none => pure none
    | some out => do
      forUp indices.length (fun i _ => do
        let k ← at! indices i
        let b ← at! out i
        batchVerifyShort (got k) origin k b params.blockL params.unitL) ()
      pure (some ())

/-- `generate_merkle_tree_from_file`, merkle_tree.rs 9-24; `got i` bytes are returned by the read for
offset `i`. -/
def generateMerkleTreeFromFileShort (got : Nat → Nat) (H : Bytes → Bytes) (file : Bytes) (dataLen leafLen : Nat) :
    R (List Bytes × MerkleTree × Bytes) :=
  if leafLen = 0 then .error .zero
  else
    let values := (stepBy dataLen 0 dataLen leafLen).map (fun i => readFileShort (got i) file (i + leafLen) leafLen)
    let leaves := values.map H
    let tree := merkleFromLeaves H leaves
    match tree.root with
    | some root => .ok (leaves, tree, root)
    | none => .error .unwrap

end PoS

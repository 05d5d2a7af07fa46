import Verif.Model.ShortRound
import Verif.Model.Workflow

/-
The rest of proof_of_storage that reads files, with reads that may return fewer bytes than the file
holds (see Model/ShortRead.lean): `batch_unseal_prepare`, `batch_unseal_and_verify`,
`test_unseal_single_and_verify`, `merkle_tree_proof` and the whole run `test_postorage`.
-/

namespace PoS

/-- `batch_unseal_prepare`, verifier.rs 118-208; for block `k` of the range `own k` bytes of it are returned,
`before k` bytes of the block before it and `dep k m` bytes of its `m`-th dependency. -/
def batchUnsealPrepareShort (own before : Nat → Nat) (dep : Nat → Nat → Nat) (H : Bytes → Bytes) (params : PosPara)
    (sealed : Bytes) (idxBegin idxEnd : Nat) : R BatchPrepared := do
  let blocksIdx ← blocksIdxOf params.blockPl idxBegin idxEnd
  let blocks ← forEach blocksIdx (fun idx2 res => do
    let buf := readFileShort (own idx2) sealed (idx2 * params.blockPl) params.blockPl
    let ans ← toUnits buf params.unitPl
    pure (res ++ [ans])) []
  let blockCnt ← div! params.dataL params.blockL
  let idxsL ← idxsLOf params blockCnt
  let r ← forEach blocksIdx (fun idx2 (s : List Bytes × List (List (List Bytes))) => do
    let beforeId :=
      if idx2 ≠ 0 then H (readFileShort (before idx2) sealed ((idx2 - 1) * params.blockPl) params.blockPl) else []
    let single ←
     (if params.modeL = 0 then do
        let cur ←
         (if idx2 = 0 then pure []
          else
            if params.cntL = 0 then longModeRandom H blockCnt beforeId idx2 (idx2 / 10 + 1)
            else longModeRandom H blockCnt beforeId idx2 params.cntL : R (List Nat))
        readBlocksShort (dep idx2) params sealed cur
      else do
        let cur ← at! idxsL idx2
        readBlocksShort (dep idx2) params sealed cur : R (List (List Bytes)))
    pure (s.1 ++ [beforeId], s.2 ++ [single])) ([], [])
  pure { blocksIdx := blocksIdx, blocks := blocks, beforeIds := r.1, dependBlocks := r.2 }

/-- `batch_unseal_and_verify`, verifier.rs 210-306; `got k` bytes are returned of block `k` of the
origin file.  Unseal each block and compare it with
the original; returns normally or panics.  The short table is built for
`data_l / block_l` positions. -/
def batchUnsealAndVerifyShort (got : Nat → Nat) (H : Bytes → Bytes) (params : PosPara) (origin : Bytes)
    (blocksIdx : List Nat) (blocks : List (List Bytes)) (beforeIds : List Bytes)
    (dependBlocks : List (List (List Bytes))) (key : Int) (iv : Bytes) : R Unit := do
  let idxsS ←
   (if params.modeS ≠ 0 then do
      let n ← div! params.dataL params.blockL
      createShortDepend n params.cntS params.modeS
    else pure [] : R (List (List Nat)))
  forUp blocks.length (fun i _ => do
    let idx2 ← at! blocksIdx i
    let curBlock ← at! blocks i
    let unitCnt := curBlock.length
    let cur ← forUp params.sealRounds (fun _ s =>
      forUp unitCnt (fun j s => do
        let a ← sub! unitCnt 1
        let idx1 ← sub! a j
        let dependData ← buvDependData H params idxsS dependBlocks s unitCnt i idx1
        let dependData ←
         (if idx1 = 0 then
            if idx2 = 0 then pure (dependData ++ iv)
            else do
              let before ← at! beforeIds i
              pure (dependData ++ before)
          else pure dependData : R Bytes)
        let hash := H dependData
        let curUnit ← at! s idx1
        let vdeInvRes := Rug.vdeInv curUnit key params.vdeRounds params.vdeMode params.unitPl
        let newUnit ← modsub vdeInvRes hash key
        put! s idx1 newUnit) s) curBlock
    let buf := readFileShort (got idx2) origin (idx2 * params.blockL) params.blockL
    let originBlock ← toUnits buf params.unitL
    forUp originBlock.length (fun j _ => do
      let o ← at! originBlock j
      if 0 < o.length then do
        let c ← at! cur j
        verifyUnitLoop o c params.unitL o.length 0 0 0
      else pure ()) ()) ()

/-- `test_unseal_single_and_verify`, postorage.rs 157-177: the first ten blocks.  The reads of the
sealed file return `own`, `before` and `dep` bytes, those of the origin file `got`.  `none`: the
schedule of the thread pool is not complete. -/
def unsealSingleAndVerifyShort (own before got : Nat → Nat) (dep : Nat → Nat → Nat) (H : Bytes → Bytes)
    (params : PosPara) (d : Disk) (parallelNum : Nat) (sched : List Nat) :
    R (Option Unit) := do
  let pub ← openFile d.pubdata
  let kv ← loadData pub
  let sealed ← openFile d.sealed
  let bp ← batchUnsealPrepareShort own before dep H params sealed (0 * params.blockPl) (10 * params.blockPl)
  let unsealed ←
   (if parallelNum = 0 then do
      let out ← batchUnseal H params bp.blocksIdx bp.blocks bp.beforeIds bp.dependBlocks kv.1 kv.2
      pure (some out)
    else batchUnsealParallel H params bp.blocksIdx bp.blocks bp.beforeIds bp.dependBlocks kv.1 kv.2
      parallelNum sched : R (Option (List (List Bytes))))
  match unsealed with
  | none => pure none
  | some out => do
    forUp bp.blocksIdx.length (fun i _ => do
      let k ← at! bp.blocksIdx i
      let b ← at! out i
      let origin ← openFile d.origin
      batchVerifyShort (got k) origin k b params.blockL params.unitL) ()
    pure (some ())

/-- `merkle_tree_proof`, postorage.rs 179-185; `gotO i` and `gotU i` bytes are returned by the reads for
offset `i` of the origin file and of the unsealed file.  `none`: the challenge draw is not finished. -/
def merkleTreeProofShort (gotO gotU : Nat → Nat) (Hs : Bytes → Bytes) (origin unsealed : Bytes)
    (dataL blockL leavesCount : Nat)
    (draw : Nat → Nat) (fuel : Nat) : R (Option Unit) := do
  let o ← generateMerkleTreeFromFileShort gotO Hs origin dataL blockL
  let u ← generateMerkleTreeFromFileShort gotU Hs unsealed dataL blockL
  let n ← div! dataL blockL
  let chosen ← createChallenges draw leavesCount 0 n fuel
  match chosen with
  | none => pure none
  | some indices => do
    let proof ← generateMerkleProof indices u.2.1
    verifyMerkleProof Hs proof o.2.2 indices u.1
    pure (some ())

/-- How many bytes the reads of a run of `test_postorage` return: for the units of the origin file
(`copy_and_pad`), for the blocks and dependencies of `seal`, for the blocks, previous blocks and
dependencies of `unseal`, for the padded units (`copy_and_compress`), for those of
`batch_unseal_prepare`, for the blocks of the origin file (`batch_verify`), and for the leaves of the two
trees of `merkle_tree_proof`. -/
structure RunReads where
  pad : Nat → Nat
  sealOwn : Nat → Nat
  sealDep : Nat → Nat → Nat
  unsealOwn : Nat → Nat
  unsealBefore : Nat → Nat
  unsealDep : Nat → Nat → Nat
  compress : Nat → Nat
  singleOwn : Nat → Nat
  singleBefore : Nat → Nat
  singleDep : Nat → Nat → Nat
  singleOrigin : Nat → Nat
  treeOrigin : Nat → Nat
  treeUnsealed : Nat → Nat

/-- `seal_and_unseal`, postorage.rs 118-155.  Sealing and unsealing work in place on the sealed
file; the public data file is created or overwritten from the start. -/
def sealAndUnsealShort (rd : RunReads) (H : Bytes → Bytes) (params : PosPara) (d : Disk) 
   (rng : Nat → UInt8) (shouldUnseal : Bool) :
    R Disk := do
  let origin ← openFile d.origin
  let padded ← copyAndPadShort rd.pad origin params.dataL params.unitL
  let kv := prepareParams params.unitPl rng
  let st ← sealFileShort rd.sealOwn rd.sealDep H params padded kv.1 kv.2
  let pub := saveData (d.pubdata.getD []) kv.1 kv.2
  if shouldUnseal then do
    let plain ← unsealFileShort rd.unsealOwn rd.unsealBefore rd.unsealDep H params st.file kv.1 kv.2
    let out ← copyAndCompressShort rd.compress plain params.dataL params.unitL params.unitPl
    pure { d with sealed := some plain, unsealed := some out, pubdata := some pub }
  else pure { d with sealed := some st.file, pubdata := some pub }

/-- `test_postorage`, postorage.rs 187-249 (`SAMPLES` is 1).  `none`: a schedule or a draw is not
complete. -/
def testPostorageShort (rd : RunReads) (H Hs : Bytes → Bytes) (params : PosPara) (flags : Flags)
    (parallelNum : Nat) (ch : RunChoices)
    (d : Disk) : R (Option Disk) := do
  let d ←
   (if flags.shouldSeal then
      sealAndUnsealShort rd H params { d with origin := some (createRandomFile ch.originRng params.dataL) } ch.ivRng
        flags.shouldUnseal
    else pure d : R Disk)
  let single ←
   (if flags.shouldUnsealSingle then unsealSingleAndVerifyShort rd.singleOwn rd.singleBefore rd.singleOrigin
      rd.singleDep H params d parallelNum ch.sched
    else pure (some ()) : R (Option Unit))
  match single with
  | none => pure none
  | some () =>
    if flags.shouldChallengeLeaves then do
      let origin ← openFile d.origin
      let unsealed ← openFile d.unsealed
      let a ← merkleTreeProofShort rd.treeOrigin rd.treeUnsealed Hs origin unsealed
        params.dataL params.blockL params.leavesToProveCount ch.draw ch.fuel
      match a with
      | none => pure none
      | some () => pure (some d)
    else pure (some d)

end PoS

import Verif.Model.ShortBatch

/-
The functions of proof_of_storage that compute file positions, with the limits of a 64-bit machine: a
`usize` product or sum of 2^64 or more panics (debug profile), `vec![0; len]` panics for 2^63 bytes or
more ("capacity overflow"), and `seek` fails, hence `unwrap` panics, for a position of 2^63 or more (file
positions are signed 64-bit numbers).  Everything else is as in Model/Prover.lean, Model/Verifier.lean,
Model/Merkle.lean, Model/Postorage.lean and Model/Workflow.lean, where positions are unlimited.
-/

namespace PoS

/-- `a * b` on `usize`. -/
def mul! (a b : Nat) : R Nat := if a * b < 2 ^ 64 then .ok (a * b) else .error .overflow

/-- `a + b` on `usize`. -/
def add! (a b : Nat) : R Nat := if a + b < 2 ^ 64 then .ok (a + b) else .error .overflow

/-- `file.seek(SeekFrom::Start(..)).unwrap()`, common.rs 81, prover.rs 239 and 466. -/
def seek! (pos : Nat) : R Unit := if pos < 2 ^ 63 then .ok () else .error .unwrap

/-- `vec![0; len]`, common.rs 80. -/
def alloc! (len : Nat) : R Unit := if len < 2 ^ 63 then .ok () else .error .overflow

/-- `read_file`, common.rs 78-84. -/
def readFileU (file : Bytes) (begin_ len : Nat) : R Bytes := do
  alloc! len
  seek! begin_
  pure (readFile file begin_ len)

/-- The loop of `to_units`, common.rs 89-91, with `i + len` checked; the iterator itself does not overflow. -/
def toUnitsAuxU : Nat → Bytes → Nat → Nat → R (List Bytes)
  | 0, _, _, _ => .ok []
  | fuel + 1, data, len, i =>
    if i < data.length then do
      let e ← add! i len
      let u ← slice! data i e
      let us ← toUnitsAuxU fuel data len (i + len)
      pure (u :: us)
    else .ok []

/-- `to_units`, common.rs 86-93. -/
def toUnitsU (data : Bytes) (len : Nat) : R (List Bytes) :=
  if len = 0 then .error .zero else toUnitsAuxU data.length data len 0

/-- `copy_and_pad`, prover.rs 27-48. -/
def copyAndPadU (origin : Bytes) (dataL unitL : Nat) : R Bytes := do
  let blockCnt ← div! dataL unitL
  forUp blockCnt (fun cnt new => do
    let pos ← mul! cnt unitL
    let buf ← readFileU origin pos unitL
    pure (new ++ (buf ++ [0]))) []

/-- `copy_and_compress`, prover.rs 247-266. -/
def copyAndCompressU (origin : Bytes) (dataL unitL unitPl : Nat) : R Bytes := do
  let blockCnt ← div! dataL unitL
  forUp blockCnt (fun cnt new => do
    let pos ← mul! cnt unitPl
    let buf ← readFileU origin pos unitPl
    let part ← slice! buf 0 unitL
    pure (new ++ part)) []

/-- Reading block `idx` of the padded file as units: prover.rs 91-92, 138-139, 151-152, 324-325, 370-371,
383-384, verifier.rs 56-57, 100-101, 107-108, 139-140, 189-190, 196-197. -/
def readUnitsU (params : PosPara) (file : Bytes) (idx : Nat) : R (List Bytes) := do
  let pos ← mul! idx params.blockPl
  let buf ← readFileU file pos params.blockPl
  toUnitsU buf params.unitPl

/-- Reading the long-dependency blocks, prover.rs 136-146, 149-159, 366-392, verifier.rs 98-110 and 187-199. -/
def readBlocksU (params : PosPara) (file : Bytes) (idxs : List Nat) : R (List (List Bytes)) :=
  forEach idxs (fun i res => do
    let ans ← readUnitsU params file i
    pure (res ++ [ans])) []

/-- The hash of the block before `idx`, prover.rs 307-320, verifier.rs 72-80 and 161-171. -/
def beforeIdU (H : Bytes → Bytes) (params : PosPara) (file : Bytes) (idx : Nat) : R Bytes :=
  if idx ≠ 0 then do
    let pos ← mul! (idx - 1) params.blockPl
    let buf ← readFileU file pos params.blockPl
    pure (H buf)
  else pure []

/-- Sealing block `idx2` of the file, prover.rs 88-242. -/
def sealBlockU (H : Bytes → Bytes) (params : PosPara) (key : Int) (iv : Bytes)
    (blockCnt : Nat) (idxsL idxsS : List (List Nat)) (idx2 : Nat) (s : SealState) :
    R SealState := do
  let curBlock ← readUnitsU params s.file idx2
  let unitCnt := curBlock.length
  let cur ← sealLongIdxs H params blockCnt idxsL s.ids idx2
  let dependBlocks ← readBlocksU params s.file cur
  let r ← sealRoundsLoop H params key iv idxsS s.ids dependBlocks unitCnt idx2 (curBlock, s.log)
  let out ← comUnits r.1
  let ids ← put! s.ids idx2 (H out)
  let pos ← mul! idx2 params.blockPl
  seek! pos
  pure { file := writeAt s.file pos out, ids := ids, log := r.2 }

/-- `seal`, prover.rs 50-245. -/
def sealFileU (H : Bytes → Bytes) (params : PosPara) (file : Bytes) (key : Int) (iv : Bytes) : R SealState := do
  let blockCnt ← div! params.dataL params.blockL
  let idxsL ← idxsLOf params blockCnt
  let idxsS ← idxsSOf params blockCnt
  forUp blockCnt (fun idx2 s => sealBlockU H params key iv blockCnt idxsL idxsS idx2 s)
    { file := file, ids := List.replicate blockCnt [], log := [] }

/-- Unsealing block `idx2` of the file, prover.rs 305-469. -/
def unsealBlockU (H : Bytes → Bytes) (params : PosPara) (key : Int) (iv : Bytes)
    (blockCnt : Nat) (idxsL idxsS : List (List Nat)) (idx2 : Nat) (file : Bytes) : R Bytes := do
  let beforeId ← beforeIdU H params file idx2
  let curBlock ← readUnitsU params file idx2
  let unitCnt := curBlock.length
  let cur ← unsealLongIdxs H params blockCnt idxsL beforeId idx2
  let dependBlocks ← readBlocksU params file cur
  let r ← unsealRoundsLoop H params key iv idxsS beforeId dependBlocks unitCnt idx2 curBlock
  let out ← comUnits r
  let pos ← mul! idx2 params.blockPl
  seek! pos
  pure (writeAt file pos out)

/-- `unseal`, prover.rs 268-472. -/
def unsealFileU (H : Bytes → Bytes) (params : PosPara) (file : Bytes) (key : Int) (iv : Bytes) : R Bytes := do
  let blockCnt ← div! params.dataL params.blockL
  let idxsL ← idxsLOf params blockCnt
  let idxsS ← idxsSOf params blockCnt
  forUp blockCnt (fun i file => do
    let a ← sub! blockCnt 1
    let idx2 ← sub! a i
    unsealBlockU H params key iv blockCnt idxsL idxsS idx2 file) file

/-- The long dependencies that a prover reads for block `idx`, verifier.rs 82-110 and 172-199. -/
def prepareDependU (H : Bytes → Bytes) (params : PosPara) (sealed : Bytes) (blockCnt : Nat)
    (idxsL : List (List Nat)) (beforeId : Bytes) (idx : Nat) : R (List (List Bytes)) := do
  let cur ←
   (if params.modeL = 0 then
      if idx = 0 then pure []
      else
        if params.cntL = 0 then longModeRandom H blockCnt beforeId idx (idx / 10 + 1)
        else longModeRandom H blockCnt beforeId idx params.cntL
    else at! idxsL idx : R (List Nat))
  readBlocksU params sealed cur

/-- `single_unseal_prepare`, verifier.rs 47-116. -/
def singleUnsealPrepareU (H : Bytes → Bytes) (params : PosPara) (sealed : Bytes) (blockIdx : Nat) :
    R Prepared := do
  let block ← readUnitsU params sealed blockIdx
  let blockCnt ← div! params.dataL params.blockL
  let idxsL ← idxsLOf params blockCnt
  let beforeId ← beforeIdU H params sealed blockIdx
  let dependBlocks ← prepareDependU H params sealed blockCnt idxsL beforeId blockIdx
  pure { block := block, beforeId := beforeId, dependBlocks := dependBlocks }

/-- `blocks_idx` in `batch_unseal_prepare`, verifier.rs 125-133; fuel as in `blocksIdxLoop`. -/
def blocksIdxLoopU (blockPl begin_ end_ : Nat) : Nat → Nat → List Nat → R (List Nat)
  | 0, _, acc => .ok acc
  | fuel + 1, i, acc => do
    let a ← mul! i blockPl
    let b ← add! a begin_
    if b < end_ then do
      let q ← div! begin_ blockPl
      let k ← add! i q
      blocksIdxLoopU blockPl begin_ end_ fuel (i + 1) (acc ++ [k])
    else .ok acc

/-- `blocks_idx`, verifier.rs 125-133. -/
def blocksIdxOfU (blockPl begin_ end_ : Nat) : R (List Nat) :=
  blocksIdxLoopU blockPl begin_ end_ (end_ - begin_ + 1) 0 []

/-- `batch_unseal_prepare`, verifier.rs 118-208. -/
def batchUnsealPrepareU (H : Bytes → Bytes) (params : PosPara) (sealed : Bytes)
    (idxBegin idxEnd : Nat) : R BatchPrepared := do
  let blocksIdx ← blocksIdxOfU params.blockPl idxBegin idxEnd
  let blocks ← forEach blocksIdx (fun idx2 res => do
    let ans ← readUnitsU params sealed idx2
    pure (res ++ [ans])) []
  let blockCnt ← div! params.dataL params.blockL
  let idxsL ← idxsLOf params blockCnt
  let r ← forEach blocksIdx (fun idx2 (s : List Bytes × List (List (List Bytes))) => do
    let beforeId ← beforeIdU H params sealed idx2
    let single ← prepareDependU H params sealed blockCnt idxsL beforeId idx2
    pure (s.1 ++ [beforeId], s.2 ++ [single])) ([], [])
  pure { blocksIdx := blocksIdx, blocks := blocks, beforeIds := r.1, dependBlocks := r.2 }

/-- `batch_verify`, verifier.rs 474-504. -/
def batchVerifyU (origin : Bytes) (idx2 : Nat) (unsealBlock : List Bytes) (blockL unitL : Nat) :
    R Unit := do
  let pos ← mul! idx2 blockL
  let buf ← readFileU origin pos blockL
  let originBlock ← toUnitsU buf unitL
  forUp originBlock.length (fun j _ => do
    let o ← at! originBlock j
    if 0 < o.length then do
      let c ← at! unsealBlock j
      verifyUnitLoop o c unitL o.length 0 0 0
    else pure ()) ()

/-- The loop of `generate_merkle_tree_from_file` over the offsets, merkle_tree.rs 15-19. -/
def merkleValuesU (file : Bytes) (leafLen : Nat) : List Nat → R (List Bytes)
  | [] => .ok []
  | i :: is => do
    let pos ← add! i leafLen
    let v ← readFileU file pos leafLen
    let vs ← merkleValuesU file leafLen is
    pure (v :: vs)

/-- `generate_merkle_tree_from_file`, merkle_tree.rs 9-24. -/
def generateMerkleTreeFromFileU (H : Bytes → Bytes) (file : Bytes) (dataLen leafLen : Nat) :
    R (List Bytes × MerkleTree × Bytes) :=
  if leafLen = 0 then .error .zero
  else do
    let values ← merkleValuesU file leafLen (stepBy dataLen 0 dataLen leafLen)
    let leaves := values.map H
    let tree := merkleFromLeaves H leaves
    match tree.root with
    | some root => .ok (leaves, tree, root)
    | none => .error .unwrap

/-- `prepare_params`, postorage.rs 88-116, with `unit_pl * 8` checked (lines 91, 94 and 97). -/
def prepareParamsU (unitPl : Nat) (rng : Nat → UInt8) : R (Int × Bytes) := do
  let _ ← mul! unitPl 8
  pure (prepareParams unitPl rng)

/-- `batch_unseal_and_verify`, verifier.rs 210-306. -/
def batchUnsealAndVerifyU (H : Bytes → Bytes) (params : PosPara) (origin : Bytes)
    (blocksIdx : List Nat) (blocks : List (List Bytes)) (beforeIds : List Bytes)
    (dependBlocks : List (List (List Bytes))) (key : Int) (iv : Bytes) : R Unit := do
  let idxsS ←
   (if params.modeS ≠ 0 then do
      let n ← div! params.dataL params.blockL
      createShortDepend n params.cntS params.modeS
    else pure [] : R (List (List Nat)))
  forUp blocks.length (fun i _ => do
    let idx2 ← at! blocksIdx i
    let curBlock ← at! blocks i
    let unitCnt := curBlock.length
    let cur ← forUp params.sealRounds (fun _ s =>
      forUp unitCnt (fun j s => do
        let a ← sub! unitCnt 1
        let idx1 ← sub! a j
        let dependData ← buvDependData H params idxsS dependBlocks s unitCnt i idx1
        let dependData ←
         (if idx1 = 0 then
            if idx2 = 0 then pure (dependData ++ iv)
            else do
              let before ← at! beforeIds i
              pure (dependData ++ before)
          else pure dependData : R Bytes)
        let hash := H dependData
        let curUnit ← at! s idx1
        let vdeInvRes := Rug.vdeInv curUnit key params.vdeRounds params.vdeMode params.unitPl
        let newUnit ← modsub vdeInvRes hash key
        put! s idx1 newUnit) s) curBlock
    let pos ← mul! idx2 params.blockL
    let buf ← readFileU origin pos params.blockL
    let originBlock ← toUnitsU buf params.unitL
    forUp originBlock.length (fun j _ => do
      let o ← at! originBlock j
      if 0 < o.length then do
        let c ← at! cur j
        verifyUnitLoop o c params.unitL o.length 0 0 0
      else pure ()) ()) ()

/-- `merkle_tree_proof`, postorage.rs 179-185. -/
def merkleTreeProofU (Hs : Bytes → Bytes) (origin unsealed : Bytes) (dataL blockL leavesCount : Nat)
    (draw : Nat → Nat) (fuel : Nat) : R (Option Unit) := do
  let o ← generateMerkleTreeFromFileU Hs origin dataL blockL
  let u ← generateMerkleTreeFromFileU Hs unsealed dataL blockL
  let n ← div! dataL blockL
  let chosen ← createChallenges draw leavesCount 0 n fuel
  match chosen with
  | none => pure none
  | some indices => do
    let proof ← generateMerkleProof indices u.2.1
    verifyMerkleProof Hs proof o.2.2 indices u.1
    pure (some ())

/-- The prover's side of a round, postorage.rs 345-376. -/
def proverRespondU (H : Bytes → Bytes) (params : PosPara) (sealed : Bytes) (tree : MerkleTree) (r : UInt8)
    (indices : List Nat) : R Response := do
  let c ← forEach indices (fun idx2 (s : Bytes × List (List Bytes) × List Bytes × List (List (List Bytes))) => do
    let pr ← singleUnsealPrepareU H params sealed idx2
    pure (s.1 ++ pr.block.flatten, s.2.1 ++ [pr.block], s.2.2.1 ++ [pr.beforeId], s.2.2.2 ++ [pr.dependBlocks]))
    ([r], [], [], [])
  let proof ← generateMerkleProof indices tree
  pure { hash := H c.1, blocks := c.2.1, beforeIds := c.2.2.1, dependBlocks := c.2.2.2, proof := proof }

/-- The verifier's side of a round, postorage.rs 379-418. -/
def verifierCheckU (H Hs : Bytes → Bytes) (params : PosPara) (origin pubdata : Bytes) (leaves : List Bytes)
    (root : Bytes) (r : UInt8) (indices : List Nat) (resp : Response) (parallelNum : Nat) (sched : List Nat) :
    R (Option Unit) := do
  let hashV := H (responseBytes r resp.blocks)
  if resp.hash ≠ hashV then .error .assertion
  else do
    verifyMerkleProof Hs resp.proof root indices leaves
    let kv ← loadData pubdata
    let unsealed ←
     (if parallelNum = 0 then do
        let out ← batchUnseal H params indices resp.blocks resp.beforeIds resp.dependBlocks kv.1 kv.2
        pure (some out)
      else batchUnsealParallel H params indices resp.blocks resp.beforeIds resp.dependBlocks kv.1 kv.2
        parallelNum sched : R (Option (List (List Bytes))))
    match unsealed with
    | none => pure none
    | some out => do
      forUp indices.length (fun i _ => do
        let k ← at! indices i
        let b ← at! out i
        batchVerifyU origin k b params.blockL params.unitL) ()
      pure (some ())

/-- One iteration of the challenge loop of `test_pipeline`, postorage.rs 341-419. -/
def challengeRoundU (H Hs : Bytes → Bytes) (params : PosPara) (origin sealed pubdata : Bytes)
    (leaves : List Bytes) (tree : MerkleTree) (root : Bytes) (count parallelNum : Nat) (ch : RoundChoices) :
    R (Option Unit) := do
  let n ← div! params.dataL params.blockL
  let chosen ← createChallenges ch.draw count 0 n ch.fuel
  match chosen with
  | none => pure none
  | some indices => do
    let resp ← proverRespondU H params sealed tree ch.r indices
    verifierCheckU H Hs params origin pubdata leaves root ch.r indices resp parallelNum ch.sched

/-- `test_pipeline`, postorage.rs 275-429; see `pipeline`. -/
def pipelineU (H Hs : Bytes → Bytes) (params : PosPara) (origin old : Bytes) (rng : Nat → UInt8)
    (count parallelNum : Nat) (choices : List RoundChoices) : R (Option Unit) := do
  let o ← generateMerkleTreeFromFileU Hs origin params.dataL params.blockL
  let padded ← copyAndPadU origin params.dataL params.unitL
  let kv ← prepareParamsU params.unitPl rng
  let st ← sealFileU H params padded kv.1 kv.2
  let pubdata := saveData old kv.1 kv.2
  let t ← generateMerkleTreeFromData Hs st.ids
  let a ← runRounds (challengeRoundU H Hs params origin st.file pubdata t.1 t.2.1 t.2.2 count parallelNum) choices
  match a with
  | none => pure none
  | some () => do
    let plain ← unsealFileU H params st.file kv.1 kv.2
    let unsealed ← copyAndCompressU plain params.dataL params.unitL params.unitPl
    let u ← generateMerkleTreeFromFileU Hs unsealed params.dataL params.blockL
    if o.2.2 = u.2.2 then pure (some ()) else .error .assertion

/-- `seal_and_unseal`, postorage.rs 118-155. -/
def sealAndUnsealU (H : Bytes → Bytes) (params : PosPara) (d : Disk) (rng : Nat → UInt8) (shouldUnseal : Bool) :
    R Disk := do
  let origin ← openFile d.origin
  let padded ← copyAndPadU origin params.dataL params.unitL
  let kv ← prepareParamsU params.unitPl rng
  let st ← sealFileU H params padded kv.1 kv.2
  let pub := saveData (d.pubdata.getD []) kv.1 kv.2
  if shouldUnseal then do
    let plain ← unsealFileU H params st.file kv.1 kv.2
    let out ← copyAndCompressU plain params.dataL params.unitL params.unitPl
    pure { d with sealed := some plain, unsealed := some out, pubdata := some pub }
  else pure { d with sealed := some st.file, pubdata := some pub }

/-- `test_unseal_single_and_verify`, postorage.rs 157-177. -/
def unsealSingleAndVerifyU (H : Bytes → Bytes) (params : PosPara) (d : Disk) (parallelNum : Nat) (sched : List Nat) :
    R (Option Unit) := do
  let pub ← openFile d.pubdata
  let kv ← loadData pub
  let sealed ← openFile d.sealed
  let lo ← mul! 0 params.blockPl
  let hi ← mul! 10 params.blockPl
  let bp ← batchUnsealPrepareU H params sealed lo hi
  let unsealed ←
   (if parallelNum = 0 then do
      let out ← batchUnseal H params bp.blocksIdx bp.blocks bp.beforeIds bp.dependBlocks kv.1 kv.2
      pure (some out)
    else batchUnsealParallel H params bp.blocksIdx bp.blocks bp.beforeIds bp.dependBlocks kv.1 kv.2
      parallelNum sched : R (Option (List (List Bytes))))
  match unsealed with
  | none => pure none
  | some out => do
    forUp bp.blocksIdx.length (fun i _ => do
      let k ← at! bp.blocksIdx i
      let b ← at! out i
      let origin ← openFile d.origin
      batchVerifyU origin k b params.blockL params.unitL) ()
    pure (some ())

/-- `test_postorage`, postorage.rs 187-249. -/
def testPostorageU (H Hs : Bytes → Bytes) (params : PosPara) (flags : Flags) (parallelNum : Nat) (ch : RunChoices)
    (d : Disk) : R (Option Disk) := do
  let d ←
   (if flags.shouldSeal then
      sealAndUnsealU H params { d with origin := some (createRandomFile ch.originRng params.dataL) } ch.ivRng
        flags.shouldUnseal
    else pure d : R Disk)
  let single ←
   (if flags.shouldUnsealSingle then unsealSingleAndVerifyU H params d parallelNum ch.sched
    else pure (some ()) : R (Option Unit))
  match single with
  | none => pure none
  | some () =>
    if flags.shouldChallengeLeaves then do
      let origin ← openFile d.origin
      let unsealed ← openFile d.unsealed
      let a ← merkleTreeProofU Hs origin unsealed params.dataL params.blockL params.leavesToProveCount ch.draw ch.fuel
      match a with
      | none => pure none
      | some () => pure (some d)
    else pure (some d)

end PoS

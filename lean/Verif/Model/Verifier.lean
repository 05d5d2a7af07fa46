import Verif.Model.Prover

/-
Model of /repo/proof_of_storage/src/proof_of_storage/verifier.rs (except the
thread pool version, see `Model/Parallel.lean`).
-/

namespace PoS

/-- `create_random_file`, verifier.rs 16-32: the first `dataLen` bytes drawn. -/
def createRandomFile (rng : Nat → UInt8) (dataLen : Nat) : Bytes :=
  (List.range dataLen).map rng

/-- `BTreeSet::insert` on the sorted list of the set's elements. -/
def setInsert (x : Nat) : List Nat → List Nat
  | [] => [x]
  | y :: ys => if x < y then x :: y :: ys else if x = y then y :: ys else y :: setInsert x ys

/-- The loop of `create_challenges`, verifier.rs 39-42, on a stream of draws of
`gen_range`; fuel is the number of loop iterations we are willing to run, `none`
means that the loop is still running. -/
def createChallengesLoop (draw : Nat → Nat) (n : Nat) : Nat → Nat → List Nat → Option (List Nat)
  | fuel, i, set =>
    if set.length < n then
      match fuel with
      | 0 => none
      | fuel + 1 => createChallengesLoop draw n fuel (i + 1) (setInsert (draw i) set)
    else some set

/-- `create_challenges`, verifier.rs 34-45.  `draw i` is the `i`-th random number;
`gen_range` panics on an empty range (only reached when `n > 0`).  The result `none` means
"not finished after `fuel` iterations". -/
def createChallenges (draw : Nat → Nat) (n lo hi fuel : Nat) : R (Option (List Nat)) :=
  if 0 < n ∧ hi ≤ lo then .error .assertion
  else .ok (createChallengesLoop (fun i => genRange (draw i) lo hi) n fuel 0 [])

/-- A triple returned by `single_unseal_prepare`: block, previous id, dependency blocks. -/
structure Prepared where
  block : List Bytes
  beforeId : Bytes
  dependBlocks : List (List Bytes)
  deriving DecidableEq, Repr

/-- `single_unseal_prepare`, verifier.rs 47-116. -/
def singleUnsealPrepare (H : Bytes → Bytes) (params : PosPara) (sealed : Bytes) (blockIdx : Nat) :
    R Prepared := do
  let buf := readFile sealed (blockIdx * params.blockPl) params.blockPl
  let block ← toUnits buf params.unitPl
  let blockCnt ← div! params.dataL params.blockL
  let idxsL ← idxsLOf params blockCnt
  let beforeId :=
    if blockIdx ≠ 0 then H (readFile sealed ((blockIdx - 1) * params.blockPl) params.blockPl)
    else []
  let dependBlocks ←
   (if params.modeL = 0 then do
      let cur ←
       (if blockIdx = 0 then pure []
        else
          if params.cntL = 0 then longModeRandom H blockCnt beforeId blockIdx (blockIdx / 10 + 1)
          else longModeRandom H blockCnt beforeId blockIdx params.cntL : R (List Nat))
      readBlocks params sealed cur
    else do
      let cur ← at! idxsL blockIdx
      readBlocks params sealed cur : R (List (List Bytes)))
  pure { block := block, beforeId := beforeId, dependBlocks := dependBlocks }

/-- `blocks_idx` in `batch_unseal_prepare`, verifier.rs 125-133:
`while i * block_pl + begin < end { push(i + begin / block_pl); i += 1 }`.
Fuel: `end - begin` iterations suffice when `block_pl > 0`; for `block_pl = 0` the
division panics when `begin < end`. -/
def blocksIdxLoop (blockPl begin_ end_ : Nat) : Nat → Nat → List Nat → R (List Nat)
  | 0, _, acc => .ok acc
  | fuel + 1, i, acc =>
    if i * blockPl + begin_ < end_ then do
      let q ← div! begin_ blockPl
      blocksIdxLoop blockPl begin_ end_ fuel (i + 1) (acc ++ [i + q])
    else .ok acc

/-- `blocks_idx`, verifier.rs 125-133. -/
def blocksIdxOf (blockPl begin_ end_ : Nat) : R (List Nat) :=
  blocksIdxLoop blockPl begin_ end_ (end_ - begin_ + 1) 0 []

/-- Result of `batch_unseal_prepare`. -/
structure BatchPrepared where
  blocksIdx : List Nat
  blocks : List (List Bytes)
  beforeIds : List Bytes
  dependBlocks : List (List (List Bytes))
  deriving DecidableEq, Repr

/-- `batch_unseal_prepare`, verifier.rs 118-208. -/
def batchUnsealPrepare (H : Bytes → Bytes) (params : PosPara) (sealed : Bytes)
    (idxBegin idxEnd : Nat) : R BatchPrepared := do
  let blocksIdx ← blocksIdxOf params.blockPl idxBegin idxEnd
  let blocks ← forEach blocksIdx (fun idx2 res => do
    let buf := readFile sealed (idx2 * params.blockPl) params.blockPl
    let ans ← toUnits buf params.unitPl
    pure (res ++ [ans])) []
  let blockCnt ← div! params.dataL params.blockL
  let idxsL ← idxsLOf params blockCnt
  let r ← forEach blocksIdx (fun idx2 (s : List Bytes × List (List (List Bytes))) => do
    let beforeId :=
      if idx2 ≠ 0 then H (readFile sealed ((idx2 - 1) * params.blockPl) params.blockPl) else []
    let single ←
     (if params.modeL = 0 then do
        let cur ←
         (if idx2 = 0 then pure []
          else
            if params.cntL = 0 then longModeRandom H blockCnt beforeId idx2 (idx2 / 10 + 1)
            else longModeRandom H blockCnt beforeId idx2 params.cntL : R (List Nat))
        readBlocks params sealed cur
      else do
        let cur ← at! idxsL idx2
        readBlocks params sealed cur : R (List (List Bytes)))
    pure (s.1 ++ [beforeId], s.2 ++ [single])) ([], [])
  pure { blocksIdx := blocksIdx, blocks := blocks, beforeIds := r.1, dependBlocks := r.2 }

/-- `depend_data` in `batch_unseal`, verifier.rs 331-356. -/
def batchDependData (H : Bytes → Bytes) (params : PosPara) (idxsS : List (List Nat))
    (dependBlocks : List (List (List Bytes))) (curBlock : List Bytes) (unitCnt i idx1 : Nat) :
    R Bytes := do
  let deps ← at! dependBlocks i
  let res ← forUp deps.length (fun k res => do
    let b ← at! deps k
    let u ← at! b idx1
    pure (res ++ u)) []
  if params.modeS ≠ 0 then do
    let l ← at! idxsS idx1
    forEach l (fun idx res => do
      let u ← at! curBlock idx
      pure (res ++ u)) res
  else do
    let ans ←
     (if idx1 = 0 then shortDependRandom H unitCnt [] idx1 params.cntS
      else do
        let before ← at! curBlock (idx1 - 1)
        shortDependRandom H unitCnt before idx1 params.cntS : R (List Nat))
    forEach ans (fun idx res => do
      let u ← at! curBlock idx
      pure (res ++ u)) res

/-- One unit in `batch_unseal`, verifier.rs 329-372. -/
def batchUnit (H : Bytes → Bytes) (params : PosPara) (key : Int) (iv : Bytes)
    (idxsS : List (List Nat)) (beforeIds : List Bytes) (dependBlocks : List (List (List Bytes)))
    (unitCnt i idx2 idx1 : Nat) (curBlock : List Bytes) : R (List Bytes) := do
  let dependData ← batchDependData H params idxsS dependBlocks curBlock unitCnt i idx1
  let dependData ←
   (if idx1 = 0 then
      if idx2 = 0 then pure (dependData ++ iv)
      else do
        let before ← at! beforeIds i
        pure (dependData ++ before)
    else pure dependData : R Bytes)
  let hash := H dependData
  let curUnit ← at! curBlock idx1
  let vdeInvRes := Rug.vdeInv curUnit key params.vdeRounds params.vdeMode params.unitPl
  let newUnit ← modsub vdeInvRes hash key
  put! curBlock idx1 newUnit

/-- The `i`-th block in `batch_unseal`: its new content, verifier.rs 321-373. -/
def batchBlock (H : Bytes → Bytes) (params : PosPara) (key : Int) (iv : Bytes)
    (idxsS : List (List Nat)) (blocksIdx : List Nat) (beforeIds : List Bytes)
    (dependBlocks : List (List (List Bytes))) (i : Nat) (blocks : List (List Bytes)) :
    R (List Bytes) := do
  let idx2 ← at! blocksIdx i
  let curBlock ← at! blocks i
  let unitCnt := curBlock.length
  forUp params.sealRounds (fun _ s =>
    forUp unitCnt (fun j s => do
      let a ← sub! unitCnt 1
      let idx1 ← sub! a j
      batchUnit H params key iv idxsS beforeIds dependBlocks unitCnt i idx2 idx1 s) s) curBlock

/-- The short dependency table of `batch_unseal`, verifier.rs 310-317: built for
`block_l / unit_l` positions. -/
def batchIdxsS (params : PosPara) : R (List (List Nat)) :=
  if params.modeS ≠ 0 then do
    let n ← div! params.blockL params.unitL
    createShortDepend n params.cntS params.modeS
  else pure []

/-- `batch_unseal`, verifier.rs 308-377. -/
def batchUnseal (H : Bytes → Bytes) (params : PosPara) (blocksIdx : List Nat)
    (blocks : List (List Bytes)) (beforeIds : List Bytes)
    (dependBlocks : List (List (List Bytes))) (key : Int) (iv : Bytes) :
    R (List (List Bytes)) := do
  let idxsS ← batchIdxsS params
  forUp blocks.length (fun i bs => do
    let new ← batchBlock H params key iv idxsS blocksIdx beforeIds dependBlocks i bs
    put! bs i new) blocks

/-- The inner `while` of `batch_verify`, verifier.rs 483-502, for unit `j`: state
`k_ori`, `k_cur`, `k`.  Fuel: `origin.len() - k_ori` iterations remain. -/
def verifyUnitLoop (origin cur : Bytes) (unitL : Nat) : Nat → Nat → Nat → Nat → R Unit
  | 0, _, _, _ => .ok ()
  | fuel + 1, kOri, kCur, k =>
    if kOri < origin.length then do
      let a ← at! origin kOri
      let b ← at! cur kCur
      if a ≠ b then .error .assertion
      else
        let kOri := kOri + 1
        let kCur := kCur + 1
        let k := k + 1
        if k = unitL then verifyUnitLoop origin cur unitL fuel kOri (kCur + 1) 0
        else verifyUnitLoop origin cur unitL fuel kOri kCur k
    else .ok ()

/-- `batch_verify`, verifier.rs 474-504: returns normally (accepts) or panics. -/
def batchVerify (origin : Bytes) (idx2 : Nat) (unsealBlock : List Bytes) (blockL unitL : Nat) :
    R Unit := do
  let buf := readFile origin (idx2 * blockL) blockL
  let originBlock ← toUnits buf unitL
  forUp originBlock.length (fun j _ => do
    let o ← at! originBlock j
    if 0 < o.length then do
      let c ← at! unsealBlock j
      verifyUnitLoop o c unitL o.length 0 0 0
    else pure ()) ()

/-- `depend_data` in `batch_unseal_and_verify`, verifier.rs 232-257. -/
def buvDependData (H : Bytes → Bytes) (params : PosPara) (idxsS : List (List Nat))
    (dependBlocks : List (List (List Bytes))) (curBlock : List Bytes) (unitCnt i idx1 : Nat) :
    R Bytes := do
  let deps ← at! dependBlocks i
  let res ← forUp deps.length (fun k res => do
    let b ← at! deps k
    let u ← at! b idx1
    pure (res ++ u)) []
  if params.modeS ≠ 0 then do
    let l ← at! idxsS idx1
    forEach l (fun idx res => do
      let u ← at! curBlock idx
      pure (res ++ u)) res
  else do
    let ans ←
     (if idx1 = 0 then shortDependRandom H unitCnt [] idx1 params.cntS
      else do
        let before ← at! curBlock (idx1 - 1)
        shortDependRandom H unitCnt before idx1 params.cntS : R (List Nat))
    forEach ans (fun idx res => do
      let u ← at! curBlock idx
      pure (res ++ u)) res

/-- `batch_unseal_and_verify`, verifier.rs 210-306: unseal each block and compare it
with the original; returns normally or panics.  The short table is built for
`data_l / block_l` positions. -/
def batchUnsealAndVerify (H : Bytes → Bytes) (params : PosPara) (origin : Bytes)
    (blocksIdx : List Nat) (blocks : List (List Bytes)) (beforeIds : List Bytes)
    (dependBlocks : List (List (List Bytes))) (key : Int) (iv : Bytes) : R Unit := do
  let idxsS ←
   (if params.modeS ≠ 0 then do
      let n ← div! params.dataL params.blockL
      createShortDepend n params.cntS params.modeS
    else pure [] : R (List (List Nat)))
  forUp blocks.length (fun i _ => do
    let idx2 ← at! blocksIdx i
    let curBlock ← at! blocks i
    let unitCnt := curBlock.length
    let cur ← forUp params.sealRounds (fun _ s =>
      forUp unitCnt (fun j s => do
        let a ← sub! unitCnt 1
        let idx1 ← sub! a j
        let dependData ← buvDependData H params idxsS dependBlocks s unitCnt i idx1
        let dependData ←
         (if idx1 = 0 then
            if idx2 = 0 then pure (dependData ++ iv)
            else do
              let before ← at! beforeIds i
              pure (dependData ++ before)
          else pure dependData : R Bytes)
        let hash := H dependData
        let curUnit ← at! s idx1
        let vdeInvRes := Rug.vdeInv curUnit key params.vdeRounds params.vdeMode params.unitPl
        let newUnit ← modsub vdeInvRes hash key
        put! s idx1 newUnit) s) curBlock
    let buf := readFile origin (idx2 * params.blockL) params.blockL
    let originBlock ← toUnits buf params.unitL
    forUp originBlock.length (fun j _ => do
      let o ← at! originBlock j
      if 0 < o.length then do
        let c ← at! cur j
        verifyUnitLoop o c params.unitL o.length 0 0 0
      else pure ()) ()) ()

end PoS

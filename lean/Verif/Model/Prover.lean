import Verif.Model.Common
import Verif.Model.Depend
import Verif.Model.Vde

/-
Model of /repo/proof_of_storage/src/proof_of_storage/prover.rs.

`H` is `blake3_hash` (common.rs 19-24).  Files are byte lists.  Timing is dropped.
`seal` carries a ghost `log`: the values handed to the delay encoder, in order; it
never influences the other components.
-/

namespace PoS

/-- `copy_and_pad`, prover.rs 27-48 (the target is created or truncated, so the old
content of the target is irrelevant). -/
def copyAndPad (origin : Bytes) (dataL unitL : Nat) : R Bytes := do
  let blockCnt ← div! dataL unitL
  forUp blockCnt (fun cnt new =>
    let buf := readFile origin (cnt * unitL) unitL ++ [0]
    pure (new ++ buf)) []

/-- `copy_and_compress`, prover.rs 247-266. -/
def copyAndCompress (origin : Bytes) (dataL unitL unitPl : Nat) : R Bytes := do
  let blockCnt ← div! dataL unitL
  forUp blockCnt (fun cnt new => do
    let buf := readFile origin (cnt * unitPl) unitPl
    let part ← slice! buf 0 unitL
    pure (new ++ part)) []

/-- The state of the sealing loop over blocks: file, `blocks_id`, ghost log. -/
structure SealState where
  file : Bytes
  ids : List Bytes
  log : List Nat
  deriving DecidableEq, Repr

/-- Reading the long-dependency blocks of a list of indices, prover.rs 136-146 and
149-159 (`for &i in &idxs { read_file; to_units; push }`). -/
def readBlocks (params : PosPara) (file : Bytes) (idxs : List Nat) : R (List (List Bytes)) :=
  forEach idxs (fun i res => do
    let buf := readFile file (i * params.blockPl) params.blockPl
    let ans ← toUnits buf params.unitPl
    pure (res ++ [ans])) []

/-- `depend_blocks` in `seal`, prover.rs 103-162. -/
def sealDependBlocks (H : Bytes → Bytes) (params : PosPara) (blockCnt : Nat)
    (idxsL : List (List Nat)) (file : Bytes) (ids : List Bytes) (idx2 : Nat) :
    R (List (List Bytes)) := do
  if params.modeL = 0 then do
    let cur ←
     (if idx2 = 0 then pure []
      else do
        let before ← at! ids (idx2 - 1)
        if params.cntL = 0 then longModeRandom H blockCnt before idx2 (idx2 / 10 + 1)
        else longModeRandom H blockCnt before idx2 params.cntL : R (List Nat))
    readBlocks params file cur
  else do
    let cur ← at! idxsL idx2
    readBlocks params file cur

/-- `depend_data` in `seal`, prover.rs 168-196, before the chaining value is appended. -/
def sealDependData (H : Bytes → Bytes) (params : PosPara) (idxsS : List (List Nat))
    (dependBlocks : List (List Bytes)) (curBlock : List Bytes) (unitCnt idx1 : Nat) :
    R Bytes := do
  let res ← forUp dependBlocks.length (fun i res => do
    let b ← at! dependBlocks i
    let u ← at! b idx1
    pure (res ++ u)) []
  if params.modeS ≠ 0 then do
    let l ← at! idxsS idx1
    forEach l (fun idx res => do
      let u ← at! curBlock idx
      pure (res ++ u)) res
  else do
    let ans ←
     (if idx1 = 0 then shortDependRandom H unitCnt [] idx1 params.cntS
      else do
        let before ← at! curBlock (idx1 - 1)
        shortDependRandom H unitCnt before idx1 params.cntS : R (List Nat))
    forEach ans (fun idx res => do
      let u ← at! curBlock idx
      pure (res ++ u)) res

/-- Sealing one unit, prover.rs 167-227.  State: (current block, ghost log). -/
def sealUnit (H : Bytes → Bytes) (params : PosPara) (key : Int) (iv : Bytes)
    (idxsS : List (List Nat)) (ids : List Bytes) (dependBlocks : List (List Bytes))
    (unitCnt idx2 idx1 : Nat) (s : List Bytes × List Nat) : R (List Bytes × List Nat) := do
  let curBlock := s.1
  let dependData ← sealDependData H params idxsS dependBlocks curBlock unitCnt idx1
  let dependData ←
   (if idx1 = 0 then
      if idx2 = 0 then pure (dependData ++ iv)
      else do
        let before ← at! ids (idx2 - 1)
        pure (dependData ++ before)
    else pure dependData : R Bytes)
  let hash := H dependData
  let curUnit ← at! curBlock idx1
  let unitModadd ← modadd curUnit hash key
  let newUnit := Rug.vde unitModadd key params.vdeRounds params.vdeMode params.unitPl
  let curBlock ← put! curBlock idx1 newUnit
  pure (curBlock, s.2 ++ [leNat unitModadd])

/-- Sealing one block in memory: all rounds over all units, prover.rs 164-228. -/
def sealRoundsLoop (H : Bytes → Bytes) (params : PosPara) (key : Int) (iv : Bytes)
    (idxsS : List (List Nat)) (ids : List Bytes) (dependBlocks : List (List Bytes))
    (unitCnt idx2 : Nat) (s : List Bytes × List Nat) : R (List Bytes × List Nat) :=
  forUp params.sealRounds (fun _ s =>
    forUp unitCnt (fun idx1 s =>
      sealUnit H params key iv idxsS ids dependBlocks unitCnt idx2 idx1 s) s) s

/-- Sealing block `idx2` of the file, prover.rs 88-242. -/
def sealBlock (H : Bytes → Bytes) (params : PosPara) (key : Int) (iv : Bytes)
    (blockCnt : Nat) (idxsL idxsS : List (List Nat)) (idx2 : Nat) (s : SealState) :
    R SealState := do
  let buf := readFile s.file (idx2 * params.blockPl) params.blockPl
  let curBlock ← toUnits buf params.unitPl
  let unitCnt := curBlock.length
  let dependBlocks ← sealDependBlocks H params blockCnt idxsL s.file s.ids idx2
  let r ← sealRoundsLoop H params key iv idxsS s.ids dependBlocks unitCnt idx2 (curBlock, s.log)
  let out ← comUnits r.1
  let ids ← put! s.ids idx2 (H out)
  pure { file := writeAt s.file (idx2 * params.blockPl) out, ids := ids, log := r.2 }

/-- The static long dependency table, prover.rs 69-76 and 286-293, verifier.rs
63-70 and 148-155. -/
def idxsLOf (params : PosPara) (blockCnt : Nat) : R (List (List Nat)) :=
  if params.modeL ≠ 0 then createLongDepend blockCnt params.cntL params.modeL else pure []

/-- The static short dependency table of `seal` and `unseal`, prover.rs 77-84 and
294-301: built for `block_cnt` positions although it is indexed by units. -/
def idxsSOf (params : PosPara) (blockCnt : Nat) : R (List (List Nat)) :=
  if params.modeS ≠ 0 then createShortDepend blockCnt params.cntS params.modeS else pure []

/-- The first `k` iterations of the block loop of `seal`, prover.rs 50-245. -/
def sealPrefix (H : Bytes → Bytes) (params : PosPara) (file : Bytes) (key : Int) (iv : Bytes)
    (k : Nat) : R SealState := do
  let blockCnt ← div! params.dataL params.blockL
  let idxsL ← idxsLOf params blockCnt
  let idxsS ← idxsSOf params blockCnt
  forUp k (fun idx2 s => sealBlock H params key iv blockCnt idxsL idxsS idx2 s)
    { file := file, ids := List.replicate blockCnt [], log := [] }

/-- `seal`, prover.rs 50-245: result is the new file content, `blocks_id`, and the
ghost log. -/
def sealFile (H : Bytes → Bytes) (params : PosPara) (file : Bytes) (key : Int) (iv : Bytes) :
    R SealState := do
  let blockCnt ← div! params.dataL params.blockL
  sealPrefix H params file key iv blockCnt

/-- `before_block_id` in `unseal`, prover.rs 307-320. -/
def unsealBeforeId (H : Bytes → Bytes) (params : PosPara) (file : Bytes) (idx2 : Nat) : Bytes :=
  if idx2 ≠ 0 then H (readFile file ((idx2 - 1) * params.blockPl) params.blockPl) else []

/-- `depend_blocks` in `unseal`, prover.rs 335-394.  In the static branch the code
reads block `i` (the loop counter), not `idxs_l[idx2][i]` (line 383). -/
def unsealDependBlocks (H : Bytes → Bytes) (params : PosPara) (blockCnt : Nat)
    (idxsL : List (List Nat)) (file : Bytes) (beforeId : Bytes) (idx2 : Nat) :
    R (List (List Bytes)) := do
  if params.modeL = 0 then do
    let cur ←
     (if idx2 = 0 then pure []
      else
        if params.cntL = 0 then longModeRandom H blockCnt beforeId idx2 (idx2 / 10 + 1)
        else longModeRandom H blockCnt beforeId idx2 params.cntL : R (List Nat))
    forUp cur.length (fun i res => do
      let c ← at! cur i
      let buf := readFile file (c * params.blockPl) params.blockPl
      let ans ← toUnits buf params.unitPl
      pure (res ++ [ans])) []
  else do
    let cur ← at! idxsL idx2
    forUp cur.length (fun i res => do
      let buf := readFile file (i * params.blockPl) params.blockPl
      let ans ← toUnits buf params.unitPl
      pure (res ++ [ans])) []

/-- `depend_data` in `unseal`, prover.rs 401-428. -/
def unsealDependData (H : Bytes → Bytes) (params : PosPara) (idxsS : List (List Nat))
    (dependBlocks : List (List Bytes)) (curBlock : List Bytes) (unitCnt idx1 : Nat) :
    R Bytes := do
  let res ← forUp dependBlocks.length (fun i res => do
    let b ← at! dependBlocks i
    let u ← at! b idx1
    pure (res ++ u)) []
  if params.modeS ≠ 0 then do
    let l ← at! idxsS idx1
    forEach l (fun idx res => do
      let u ← at! curBlock idx
      pure (res ++ u)) res
  else do
    let ans ←
     (if idx1 = 0 then shortDependRandom H unitCnt [] idx1 params.cntS
      else do
        let before ← at! curBlock (idx1 - 1)
        shortDependRandom H unitCnt before idx1 params.cntS : R (List Nat))
    forEach ans (fun idx res => do
      let u ← at! curBlock idx
      pure (res ++ u)) res

/-- Unsealing one unit, prover.rs 399-454. -/
def unsealUnit (H : Bytes → Bytes) (params : PosPara) (key : Int) (iv : Bytes)
    (idxsS : List (List Nat)) (beforeId : Bytes) (dependBlocks : List (List Bytes))
    (unitCnt idx2 idx1 : Nat) (curBlock : List Bytes) : R (List Bytes) := do
  let dependData ← unsealDependData H params idxsS dependBlocks curBlock unitCnt idx1
  let dependData :=
    if idx1 = 0 then
      if idx2 = 0 then dependData ++ iv else dependData ++ beforeId
    else dependData
  let hash := H dependData
  let curUnit ← at! curBlock idx1
  let vdeInvRes := Rug.vdeInv curUnit key params.vdeRounds params.vdeMode params.unitPl
  let newUnit ← modsub vdeInvRes hash key
  put! curBlock idx1 newUnit

/-- All rounds over all units, in reverse unit order, prover.rs 396-455. -/
def unsealRoundsLoop (H : Bytes → Bytes) (params : PosPara) (key : Int) (iv : Bytes)
    (idxsS : List (List Nat)) (beforeId : Bytes) (dependBlocks : List (List Bytes))
    (unitCnt idx2 : Nat) (curBlock : List Bytes) : R (List Bytes) :=
  forUp params.sealRounds (fun _ s =>
    forUp unitCnt (fun j s => do
      let a ← sub! unitCnt 1
      let idx1 ← sub! a j
      unsealUnit H params key iv idxsS beforeId dependBlocks unitCnt idx2 idx1 s) s) curBlock

/-- Unsealing block `idx2` of the file, prover.rs 305-469. -/
def unsealBlock (H : Bytes → Bytes) (params : PosPara) (key : Int) (iv : Bytes)
    (blockCnt : Nat) (idxsL idxsS : List (List Nat)) (idx2 : Nat) (file : Bytes) :
    R Bytes := do
  let beforeId := unsealBeforeId H params file idx2
  let buf := readFile file (idx2 * params.blockPl) params.blockPl
  let curBlock ← toUnits buf params.unitPl
  let unitCnt := curBlock.length
  let dependBlocks ← unsealDependBlocks H params blockCnt idxsL file beforeId idx2
  let r ← unsealRoundsLoop H params key iv idxsS beforeId dependBlocks unitCnt idx2 curBlock
  let out ← comUnits r
  pure (writeAt file (idx2 * params.blockPl) out)

/-- The unsealing loop started at block `k - 1` going down to 0 (for `k` equal to
the number of blocks this is `unseal`), prover.rs 268-469. -/
def unsealFrom (H : Bytes → Bytes) (params : PosPara) (file : Bytes) (key : Int) (iv : Bytes)
    (k : Nat) : R Bytes := do
  let blockCnt ← div! params.dataL params.blockL
  let idxsL ← idxsLOf params blockCnt
  let idxsS ← idxsSOf params blockCnt
  forUp k (fun i file => do
    let a ← sub! k 1
    let idx2 ← sub! a i
    unsealBlock H params key iv blockCnt idxsL idxsS idx2 file) file

/-- `unseal`, prover.rs 268-472. -/
def unsealFile (H : Bytes → Bytes) (params : PosPara) (file : Bytes) (key : Int) (iv : Bytes) :
    R Bytes := do
  let blockCnt ← div! params.dataL params.blockL
  unsealFrom H params file key iv blockCnt

end PoS

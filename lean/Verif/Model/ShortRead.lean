import Verif.Model.Verifier

/-
The functions of prover.rs and verifier.rs that read files, with reads that may return fewer
bytes than the file holds.  `read_file` (common.rs 78-84) calls `file.read(&mut buf)` once and
ignores the number of bytes it returns; the operating system may return any number of them up to
the number available.  How many bytes each call returns is a parameter (`own`, `dep`, `before`,
`got`), so that the statements hold for whatever the operating system does.  Everything else is as
in Model/Prover.lean and Model/Verifier.lean.
-/

namespace PoS

/-- `read_file`, common.rs 78-84, when the `read` call returns at most `got` bytes: the rest of the
zero-filled buffer stays zero. -/
def readFileShort (got : Nat) (file : Bytes) (begin_ len : Nat) : Bytes :=
  let returned := (file.drop begin_).take (min got len)
  returned ++ zeros (len - returned.length)

/-- `copy_and_pad`, prover.rs 27-48; `got cnt` bytes are returned for unit `cnt`. -/
def copyAndPadShort (got : Nat → Nat) (origin : Bytes) (dataL unitL : Nat) : R Bytes := do
  let blockCnt ← div! dataL unitL
  forUp blockCnt (fun cnt new =>
    let buf := readFileShort (got cnt) origin (cnt * unitL) unitL ++ [0]
    pure (new ++ buf)) []

/-- Reading the long-dependency blocks, prover.rs 136-146, 149-159 and 366-392; `got m` bytes are
returned for the `m`-th block of the list. -/
def readBlocksShort (got : Nat → Nat) (params : PosPara) (file : Bytes) (idxs : List Nat) :
    R (List (List Bytes)) :=
  forUp idxs.length (fun m res => do
    let i ← at! idxs m
    let buf := readFileShort (got m) file (i * params.blockPl) params.blockPl
    let ans ← toUnits buf params.unitPl
    pure (res ++ [ans])) []

/-- Which blocks `seal` reads as long dependencies of block `idx2`, prover.rs 119-134 and 149. -/
def sealLongIdxs (H : Bytes → Bytes) (params : PosPara) (blockCnt : Nat) (idxsL : List (List Nat))
    (ids : List Bytes) (idx2 : Nat) : R (List Nat) :=
  if params.modeL = 0 then
    if idx2 = 0 then pure []
    else do
      let before ← at! ids (idx2 - 1)
      if params.cntL = 0 then longModeRandom H blockCnt before idx2 (idx2 / 10 + 1)
      else longModeRandom H blockCnt before idx2 params.cntL
  else at! idxsL idx2

/-- Sealing block `idx2` of the file, prover.rs 88-242; `own` bytes of the block are returned and
`dep m` bytes of its `m`-th dependency. -/
def sealBlockShort (own : Nat) (dep : Nat → Nat) (H : Bytes → Bytes) (params : PosPara) (key : Int)
    (iv : Bytes) (blockCnt : Nat) (idxsL idxsS : List (List Nat)) (idx2 : Nat) (s : SealState) :
    R SealState := do
  let buf := readFileShort own s.file (idx2 * params.blockPl) params.blockPl
  let curBlock ← toUnits buf params.unitPl
  let unitCnt := curBlock.length
  let cur ← sealLongIdxs H params blockCnt idxsL s.ids idx2
  let dependBlocks ← readBlocksShort dep params s.file cur
  let r ← sealRoundsLoop H params key iv idxsS s.ids dependBlocks unitCnt idx2 (curBlock, s.log)
  let out ← comUnits r.1
  let ids ← put! s.ids idx2 (H out)
  pure { file := writeAt s.file (idx2 * params.blockPl) out, ids := ids, log := r.2 }

/-- `seal`, prover.rs 50-245; while block `k` is sealed, `own k` bytes of it are returned and
`dep k m` bytes of its `m`-th dependency. -/
def sealFileShort (own : Nat → Nat) (dep : Nat → Nat → Nat) (H : Bytes → Bytes) (params : PosPara)
    (file : Bytes) (key : Int) (iv : Bytes) : R SealState := do
  let blockCnt ← div! params.dataL params.blockL
  let idxsL ← idxsLOf params blockCnt
  let idxsS ← idxsSOf params blockCnt
  forUp blockCnt (fun idx2 s => sealBlockShort (own idx2) (dep idx2) H params key iv blockCnt idxsL idxsS idx2 s)
    { file := file, ids := List.replicate blockCnt [], log := [] }

/-- Which blocks `unseal` reads as long dependencies of block `idx2`, prover.rs 338-365 and 380-383:
with static dependencies it reads the blocks 0, 1, ... instead of those of the list. -/
def unsealLongIdxs (H : Bytes → Bytes) (params : PosPara) (blockCnt : Nat) (idxsL : List (List Nat))
    (beforeId : Bytes) (idx2 : Nat) : R (List Nat) :=
  if params.modeL = 0 then
    if idx2 = 0 then pure []
    else if params.cntL = 0 then longModeRandom H blockCnt beforeId idx2 (idx2 / 10 + 1)
    else longModeRandom H blockCnt beforeId idx2 params.cntL
  else do
    let cur ← at! idxsL idx2
    pure (List.range cur.length)

/-- Unsealing block `idx2` of the file, prover.rs 305-469; `own` bytes of the block are returned,
`before` bytes of the block before it and `dep m` bytes of its `m`-th dependency. -/
def unsealBlockShort (own before : Nat) (dep : Nat → Nat) (H : Bytes → Bytes) (params : PosPara) (key : Int)
    (iv : Bytes) (blockCnt : Nat) (idxsL idxsS : List (List Nat)) (idx2 : Nat) (file : Bytes) : R Bytes := do
  let beforeId :=
    if idx2 ≠ 0 then H (readFileShort before file ((idx2 - 1) * params.blockPl) params.blockPl) else []
  let buf := readFileShort own file (idx2 * params.blockPl) params.blockPl
  let curBlock ← toUnits buf params.unitPl
  let unitCnt := curBlock.length
  let cur ← unsealLongIdxs H params blockCnt idxsL beforeId idx2
  let dependBlocks ← readBlocksShort dep params file cur
  let r ← unsealRoundsLoop H params key iv idxsS beforeId dependBlocks unitCnt idx2 curBlock
  let out ← comUnits r
  pure (writeAt file (idx2 * params.blockPl) out)

/-- `unseal`, prover.rs 268-472. -/
def unsealFileShort (own before : Nat → Nat) (dep : Nat → Nat → Nat) (H : Bytes → Bytes) (params : PosPara)
    (file : Bytes) (key : Int) (iv : Bytes) : R Bytes := do
  let blockCnt ← div! params.dataL params.blockL
  let idxsL ← idxsLOf params blockCnt
  let idxsS ← idxsSOf params blockCnt
  forUp blockCnt (fun i file => do
    let a ← sub! blockCnt 1
    let idx2 ← sub! a i
    unsealBlockShort (own idx2) (before idx2) (dep idx2) H params key iv blockCnt idxsL idxsS idx2 file) file

/-- `batch_verify`, verifier.rs 474-495, when `got` bytes of the origin block are returned. -/
def batchVerifyShort (got : Nat) (origin : Bytes) (idx2 : Nat) (unsealBlock : List Bytes) (blockL unitL : Nat) :
    R Unit := do
  let buf := readFileShort got origin (idx2 * blockL) blockL
  let originBlock ← toUnits buf unitL
  forUp originBlock.length (fun j _ => do
    let o ← at! originBlock j
    if 0 < o.length then do
      let c ← at! unsealBlock j
      verifyUnitLoop o c unitL o.length 0 0 0
    else pure ()) ()

end PoS

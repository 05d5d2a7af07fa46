import Verif.Model.Verifier

/-
The parts of /repo/proof_of_storage/src/proof_of_storage/{depend,prover,verifier}.rs whose behaviour
differs when the crate is built with `--release`: there `usize` arithmetic wraps around instead of
panicking (the crate's Cargo.toml sets no profile).  Index checks, `unwrap` and division by zero
panic in both profiles.

Only functions that perform an overflowing operation on some reachable input, and the functions
calling them, are repeated here; everything else (`sealBlock`, `unsealBlock`, `batchBlock`, …) is
shared with the debug model.
-/

namespace PoS

/-- `a - b` on `usize`, release profile (64 bits). -/
def wsub (a b : Nat) : Nat := (a + 2 ^ 64 - b) % 2 ^ 64

/-- `usize::pow(2, i.try_into().unwrap())`, release profile: the power wraps, the conversion of the
exponent to `u32` still panics. -/
def wpow2 (i : Nat) : R Nat := if i < 2 ^ 32 then .ok (2 ^ i % 2 ^ 64) else .error .unwrap

/-- `long_mode_2` in a release build, depend.rs 19-33. -/
def longMode2R (index count : Nat) : R (List Nat) :=
  forUp count (fun i acc => do
    let pw ← wpow2 i
    let dis := (1 + pw) % 2 ^ 64
    if index ≥ dis then pure (acc ++ [index - dis]) else pure acc) []

/-- `long_mode_3` in a release build, depend.rs 35-48. -/
def longMode3R (index : Nat) : R (List Nat) :=
  let count := index / 10
  forUp count (fun i acc => do
    let pw ← wpow2 i
    let dis := (1 + pw) % 2 ^ 64
    if index ≥ dis then pure (acc ++ [index - dis]) else pure acc) []

/-- `long_depend` in a release build, depend.rs 122-144. -/
def longDependR (index count mode : Nat) : R (List Nat) :=
  if mode = 1 then longMode1 index count
  else if mode = 2 then longMode2R index count
  else if mode = 3 then longMode3R index
  else .ok []

/-- `short_mode_2` in a release build, depend.rs 192-219: `dis1` (line 200) and both differences
(lines 203, 206) wrap.  Loop state: (`short_index`, `flag`, `break` taken). -/
def shortMode2R (num index count : Nat) : R (List Nat) := do
  let s ← forUp count (fun i (s : List Nat × Bool × Bool) =>
    if s.2.2 then pure s
    else do
      let pw1 ← wpow2 i
      let dis1 := wsub 1 pw1
      let pw2 ← wpow2 i
      let dis2 := (1 + pw2) % 2 ^ 64
      let idx := if s.2.1 = true then wsub index dis1 else wsub index dis2
      if idx ≥ num then pure (s.1, !s.2.1, true)
      else pure (s.1 ++ [idx], !s.2.1, false)) ([], false, false)
  pure s.1

/-- `short_depend` in a release build, depend.rs 293-312. -/
def shortDependR (num index count mode : Nat) : R (List Nat) :=
  if mode = 1 then shortMode1 num index count
  else if mode = 2 then shortMode2R num index count
  else .ok []

/-- `create_long_depend` in a release build, prover.rs 9-16. -/
def createLongDependR (num count mode : Nat) : R (List (List Nat)) :=
  forUp num (fun idx acc => do
    let cur ← longDependR idx count mode
    pure (acc ++ [cur])) []

/-- `create_short_depend` in a release build, prover.rs 18-25. -/
def createShortDependR (num count mode : Nat) : R (List (List Nat)) :=
  forUp num (fun idx acc => do
    let cur ← shortDependR num idx count mode
    pure (acc ++ [cur])) []

/-- The static long dependency table in a release build, prover.rs 68-75 and 285-292. -/
def idxsLOfR (params : PosPara) (blockCnt : Nat) : R (List (List Nat)) :=
  if params.modeL ≠ 0 then createLongDependR blockCnt params.cntL params.modeL else pure []

/-- The static short dependency table in a release build, prover.rs 77-84 and 294-301. -/
def idxsSOfR (params : PosPara) (blockCnt : Nat) : R (List (List Nat)) :=
  if params.modeS ≠ 0 then createShortDependR blockCnt params.cntS params.modeS else pure []

/-- `seal` in a release build, prover.rs 50-245. -/
def sealFileR (H : Bytes → Bytes) (params : PosPara) (file : Bytes) (key : Int) (iv : Bytes) :
    R SealState := do
  let blockCnt ← div! params.dataL params.blockL
  let idxsL ← idxsLOfR params blockCnt
  let idxsS ← idxsSOfR params blockCnt
  forUp blockCnt (fun idx2 s => sealBlock H params key iv blockCnt idxsL idxsS idx2 s)
    { file := file, ids := List.replicate blockCnt [], log := [] }

/-- `unseal` in a release build, prover.rs 268-472. -/
def unsealFileR (H : Bytes → Bytes) (params : PosPara) (file : Bytes) (key : Int) (iv : Bytes) :
    R Bytes := do
  let blockCnt ← div! params.dataL params.blockL
  let idxsL ← idxsLOfR params blockCnt
  let idxsS ← idxsSOfR params blockCnt
  forUp blockCnt (fun i file => do
    let a ← sub! blockCnt 1
    let idx2 ← sub! a i
    unsealBlock H params key iv blockCnt idxsL idxsS idx2 file) file

/-- `single_unseal_prepare` in a release build, verifier.rs 47-116. -/
def singleUnsealPrepareR (H : Bytes → Bytes) (params : PosPara) (sealed : Bytes) (blockIdx : Nat) :
    R Prepared := do
  let buf := readFile sealed (blockIdx * params.blockPl) params.blockPl
  let block ← toUnits buf params.unitPl
  let blockCnt ← div! params.dataL params.blockL
  let idxsL ← idxsLOfR params blockCnt
  let beforeId :=
    if blockIdx ≠ 0 then H (readFile sealed ((blockIdx - 1) * params.blockPl) params.blockPl)
    else []
  let dependBlocks ←
   (if params.modeL = 0 then do
      let cur ←
       (if blockIdx = 0 then pure []
        else
          if params.cntL = 0 then longModeRandom H blockCnt beforeId blockIdx (blockIdx / 10 + 1)
          else longModeRandom H blockCnt beforeId blockIdx params.cntL : R (List Nat))
      readBlocks params sealed cur
    else do
      let cur ← at! idxsL blockIdx
      readBlocks params sealed cur : R (List (List Bytes)))
  pure { block := block, beforeId := beforeId, dependBlocks := dependBlocks }

/-- The short dependency table of `batch_unseal` in a release build, verifier.rs 310-317. -/
def batchIdxsSR (params : PosPara) : R (List (List Nat)) :=
  if params.modeS ≠ 0 then do
    let n ← div! params.blockL params.unitL
    createShortDependR n params.cntS params.modeS
  else pure []

/-- `batch_unseal` in a release build, verifier.rs 308-377. -/
def batchUnsealR (H : Bytes → Bytes) (params : PosPara) (blocksIdx : List Nat)
    (blocks : List (List Bytes)) (beforeIds : List Bytes)
    (dependBlocks : List (List (List Bytes))) (key : Int) (iv : Bytes) :
    R (List (List Bytes)) := do
  let idxsS ← batchIdxsSR params
  forUp blocks.length (fun i bs => do
    let new ← batchBlock H params key iv idxsS blocksIdx beforeIds dependBlocks i bs
    put! bs i new) blocks

end PoS

import Verif.Model.Release
import Verif.Model.Parallel

/-
The remaining verifier functions in a release build (no overflow checks in the dependency rules):
/repo/proof_of_storage/src/proof_of_storage/verifier.rs.  As in Model/Release only the dependency
tables differ from the debug build.
-/

namespace PoS

/-- `batch_unseal_prepare` in a release build, verifier.rs 118-208. -/
def batchUnsealPrepareR (H : Bytes → Bytes) (params : PosPara) (sealed : Bytes)
    (idxBegin idxEnd : Nat) : R BatchPrepared := do
  let blocksIdx ← blocksIdxOf params.blockPl idxBegin idxEnd
  let blocks ← forEach blocksIdx (fun idx2 res => do
    let buf := readFile sealed (idx2 * params.blockPl) params.blockPl
    let ans ← toUnits buf params.unitPl
    pure (res ++ [ans])) []
  let blockCnt ← div! params.dataL params.blockL
  let idxsL ← idxsLOfR params blockCnt
  let r ← forEach blocksIdx (fun idx2 (s : List Bytes × List (List (List Bytes))) => do
    let beforeId :=
      if idx2 ≠ 0 then H (readFile sealed ((idx2 - 1) * params.blockPl) params.blockPl) else []
    let single ←
     (if params.modeL = 0 then do
        let cur ←
         (if idx2 = 0 then pure []
          else
            if params.cntL = 0 then longModeRandom H blockCnt beforeId idx2 (idx2 / 10 + 1)
            else longModeRandom H blockCnt beforeId idx2 params.cntL : R (List Nat))
        readBlocks params sealed cur
      else do
        let cur ← at! idxsL idx2
        readBlocks params sealed cur : R (List (List Bytes)))
    pure (s.1 ++ [beforeId], s.2 ++ [single])) ([], [])
  pure { blocksIdx := blocksIdx, blocks := blocks, beforeIds := r.1, dependBlocks := r.2 }

/-- The short dependency table of `batch_unseal_and_verify` and `batch_unseal_parallel` in a release
build, verifier.rs 213-220 and 380-387. -/
def parIdxsSR (params : PosPara) : R (List (List Nat)) :=
  if params.modeS ≠ 0 then do
    let n ← div! params.dataL params.blockL
    createShortDependR n params.cntS params.modeS
  else pure []

/-- `batch_unseal_and_verify` in a release build, verifier.rs 210-306. -/
def batchUnsealAndVerifyR (H : Bytes → Bytes) (params : PosPara) (origin : Bytes)
    (blocksIdx : List Nat) (blocks : List (List Bytes)) (beforeIds : List Bytes)
    (dependBlocks : List (List (List Bytes))) (key : Int) (iv : Bytes) : R Unit := do
  let idxsS ← parIdxsSR params
  forUp blocks.length (fun i _ => do
    let idx2 ← at! blocksIdx i
    let curBlock ← at! blocks i
    let unitCnt := curBlock.length
    let cur ← forUp params.sealRounds (fun _ s =>
      forUp unitCnt (fun j s => do
        let a ← sub! unitCnt 1
        let idx1 ← sub! a j
        let dependData ← buvDependData H params idxsS dependBlocks s unitCnt i idx1
        let dependData ←
         (if idx1 = 0 then
            if idx2 = 0 then pure (dependData ++ iv)
            else do
              let before ← at! beforeIds i
              pure (dependData ++ before)
          else pure dependData : R Bytes)
        let hash := H dependData
        let curUnit ← at! s idx1
        let vdeInvRes := Rug.vdeInv curUnit key params.vdeRounds params.vdeMode params.unitPl
        let newUnit ← modsub vdeInvRes hash key
        put! s idx1 newUnit) s) curBlock
    let buf := readFile origin (idx2 * params.blockL) params.blockL
    let originBlock ← toUnits buf params.unitL
    forUp originBlock.length (fun j _ => do
      let o ← at! originBlock j
      if 0 < o.length then do
        let c ← at! cur j
        verifyUnitLoop o c params.unitL o.length 0 0 0
      else pure ()) ()) ()

/-- `batch_unseal_parallel` in a release build, verifier.rs 379-472; see `batchUnsealParallel`. -/
def batchUnsealParallelR (H : Bytes → Bytes) (params : PosPara) (blocksIdx : List Nat)
    (blocks : List (List Bytes)) (beforeIds : List Bytes)
    (dependBlocks : List (List (List Bytes))) (key : Int) (iv : Bytes) (workers : Nat)
    (sched : List Nat) : R (Option (List (List Bytes))) := do
  let idxsS ← parIdxsSR params
  if workers = 0 then .error .assertion
  else
    match parRun ⟨H, params, key, iv, idxsS, blocksIdx, beforeIds, dependBlocks⟩ workers sched
        ⟨blocks, List.replicate blocks.length .waiting⟩ with
    | some st => if st.phase.all Phase.finished then pure (some st.blocks) else pure none
    | none => pure none

end PoS

import Verif.Model.Postorage

/-
Model of the workflow functions of /repo/proof_of_storage/src/proof_of_storage/postorage.rs:
`seal_and_unseal` (118-155), `test_unseal_single_and_verify` (157-177), `test_postorage`
(187-249).

The four data files are the state; a file may be missing.  The files with run times
(`run_data_file`, `stat_data_file`) and the printed output are dropped.  A panic ends the run; the
state at the panic is not modelled here (see Model/PanicRun.lean).
-/

namespace PoS

/-- The files named by `ORIGIN_DATA_DIR`, `SEALED_DATA_DIR`, `UNSEALED_DATA_DIR` and `TARGET_DIR`,
postorage.rs 19-25; `none` when the file does not exist. -/
structure Disk where
  origin : Option Bytes
  sealed : Option Bytes
  unsealed : Option Bytes
  pubdata : Option Bytes
  deriving DecidableEq, Repr

/-- `OpenOptions::new().read(true).open(path).unwrap()`. -/
def openFile : Option Bytes → R Bytes
  | some b => .ok b
  | none => .error .unwrap

/-- `seal_and_unseal`, postorage.rs 118-155.  Sealing and unsealing work in place on the sealed
file; the public data file is created or overwritten from the start. -/
def sealAndUnseal (H : Bytes → Bytes) (params : PosPara) (d : Disk) (rng : Nat → UInt8) (shouldUnseal : Bool) :
    R Disk := do
  let origin ← openFile d.origin
  let padded ← copyAndPad origin params.dataL params.unitL
  let kv := prepareParams params.unitPl rng
  let st ← sealFile H params padded kv.1 kv.2
  let pub := saveData (d.pubdata.getD []) kv.1 kv.2
  if shouldUnseal then do
    let plain ← unsealFile H params st.file kv.1 kv.2
    let out ← copyAndCompress plain params.dataL params.unitL params.unitPl
    pure { d with sealed := some plain, unsealed := some out, pubdata := some pub }
  else pure { d with sealed := some st.file, pubdata := some pub }

/-- `test_unseal_single_and_verify`, postorage.rs 157-177: the first ten blocks.  `none`: the
schedule of the thread pool is not complete. -/
def unsealSingleAndVerify (H : Bytes → Bytes) (params : PosPara) (d : Disk) (parallelNum : Nat) (sched : List Nat) :
    R (Option Unit) := do
  let pub ← openFile d.pubdata
  let kv ← loadData pub
  let sealed ← openFile d.sealed
  let bp ← batchUnsealPrepare H params sealed (0 * params.blockPl) (10 * params.blockPl)
  let unsealed ←
   (if parallelNum = 0 then do
      let out ← batchUnseal H params bp.blocksIdx bp.blocks bp.beforeIds bp.dependBlocks kv.1 kv.2
      pure (some out)
    else batchUnsealParallel H params bp.blocksIdx bp.blocks bp.beforeIds bp.dependBlocks kv.1 kv.2
      parallelNum sched : R (Option (List (List Bytes))))
  match unsealed with
  | none => pure none
  | some out => do
    forUp bp.blocksIdx.length (fun i _ => do
      let k ← at! bp.blocksIdx i
      let b ← at! out i
      let origin ← openFile d.origin
      batchVerify origin k b params.blockL params.unitL) ()
    pure (some ())

/-- The switches of `test_postorage`. -/
structure Flags where
  shouldSeal : Bool
  shouldUnseal : Bool
  shouldChallengeLeaves : Bool
  shouldUnsealSingle : Bool

/-- The random choices of a run of `test_postorage`: bytes of the new origin file, bytes of the iv,
schedule of the thread pool, challenge draws. -/
structure RunChoices where
  originRng : Nat → UInt8
  ivRng : Nat → UInt8
  sched : List Nat
  draw : Nat → Nat
  fuel : Nat

/-- `test_postorage`, postorage.rs 187-249 (`SAMPLES` is 1).  `none`: a schedule or a draw is not
complete. -/
def testPostorage (H Hs : Bytes → Bytes) (params : PosPara) (flags : Flags) (parallelNum : Nat) (ch : RunChoices)
    (d : Disk) : R (Option Disk) := do
  let d ←
   (if flags.shouldSeal then
      sealAndUnseal H params { d with origin := some (createRandomFile ch.originRng params.dataL) } ch.ivRng
        flags.shouldUnseal
    else pure d : R Disk)
  let single ←
   (if flags.shouldUnsealSingle then unsealSingleAndVerify H params d parallelNum ch.sched
    else pure (some ()) : R (Option Unit))
  match single with
  | none => pure none
  | some () =>
    if flags.shouldChallengeLeaves then do
      let origin ← openFile d.origin
      let unsealed ← openFile d.unsealed
      let a ← merkleTreeProof Hs origin unsealed params.dataL params.blockL params.leavesToProveCount ch.draw ch.fuel
      match a with
      | none => pure none
      | some () => pure (some d)
    else pure (some d)

end PoS

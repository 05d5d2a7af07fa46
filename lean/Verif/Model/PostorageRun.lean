import Verif.Model.PanicRun

/-
`test_postorage` (/repo/proof_of_storage/src/proof_of_storage/postorage.rs 187-249) with the files it leaves however it
ends: normally or in a panic.

Simplifications: as in Model/Workflow.lean and Model/PanicRun.lean.
-/

namespace PoS

/-- The part of `test_postorage` that writes the data files, postorage.rs 236-239: the files when it ends, and the panic
if there was one. -/
def sealStageRun (H : Bytes → Bytes) (params : PosPara) (flags : Flags) (ch : RunChoices) (d : Disk) :
    Disk × Option Panic :=
  if flags.shouldSeal then
    let d := { d with origin := some (createRandomFile ch.originRng params.dataL) }
    sealAndUnsealRun H params d ch.ivRng flags.shouldUnseal
  else (d, none)

/-- `test_postorage`, postorage.rs 187-249 (`SAMPLES` is 1): the files when the function returns or panics, and the way it
ended.  The check of the first ten blocks (241-243) writes no file, as does the challenge of the leaves
(245-247).  `.ok none`: a schedule or a draw is not complete. -/
def testPostorageRun (H Hs : Bytes → Bytes) (params : PosPara) (flags : Flags) (parallelNum : Nat) (ch : RunChoices)
    (d : Disk) : Disk × R (Option Unit) :=
  match sealStageRun H params flags ch d with
  | (d, some e) => (d, .error e)
  | (d, none) =>
    let single : R (Option Unit) :=
      if flags.shouldUnsealSingle then unsealSingleAndVerify H params d parallelNum ch.sched else .ok (some ())
    match single with
    | .error e => (d, .error e)
    | .ok none => (d, .ok none)
    | .ok (some ()) =>
      if flags.shouldChallengeLeaves then
        match openFile d.origin, openFile d.unsealed with
        | .error e, _ => (d, .error e)
        | _, .error e => (d, .error e)
        | .ok origin, .ok unsealed =>
          (d, merkleTreeProof Hs origin unsealed params.dataL params.blockL params.leavesToProveCount ch.draw ch.fuel)
      else (d, .ok (some ()))

end PoS

import Verif.Model.Workflow

/-
`test_pipeline` (/repo/proof_of_storage/src/proof_of_storage/postorage.rs 275-429) as a change of the four data
files, which it shares with `test` (postorage.rs 251-273).

Simplifications: as in Model/Workflow.lean.  The parameters, the number of rounds (the length of `choices`), the number
of challenges in a round and the number of workers, which are fixed at postorage.rs 314-317, are arguments.
-/

namespace PoS

/-- `test_pipeline`, postorage.rs 275-429, with the creation of the origin file (320) and the files it leaves.  The
prover reads the sealed file and the verifier the origin and the public data file in each round (341-419); at the end the
sealed file is unsealed in place (421) and compressed to the unsealed file (423).  `none`: a schedule or a draw is not
complete. -/
def pipelineDisk (H Hs : Bytes → Bytes) (params : PosPara) (originRng ivRng : Nat → UInt8) (count parallelNum : Nat)
    (choices : List RoundChoices) (d : Disk) : R (Option Disk) := do
  let origin := createRandomFile originRng params.dataL
  let o ← generateMerkleTreeFromFile Hs origin params.dataL params.blockL
  let padded ← copyAndPad origin params.dataL params.unitL
  let kv := prepareParams params.unitPl ivRng
  let st ← sealFile H params padded kv.1 kv.2
  let pubdata := saveData (d.pubdata.getD []) kv.1 kv.2
  let t ← generateMerkleTreeFromData Hs st.ids
  let a ← runRounds (challengeRound H Hs params origin st.file pubdata t.1 t.2.1 t.2.2 count parallelNum) choices
  match a with
  | none => pure none
  | some () => do
    let plain ← unsealFile H params st.file kv.1 kv.2
    let unsealed ← copyAndCompress plain params.dataL params.unitL params.unitPl
    let u ← generateMerkleTreeFromFile Hs unsealed params.dataL params.blockL
    if o.2.2 = u.2.2 then
      pure (some { origin := some origin, sealed := some plain, unsealed := some unsealed, pubdata := some pubdata })
    else .error .assertion

/-- `test`, postorage.rs 251-273, for any parameter set: only the switch for the check of the first ten blocks is on
(`gen_posdata(1)` and `parallel_num = 0` in the code). -/
def singleTest (H Hs : Bytes → Bytes) (params : PosPara) (ch : RunChoices) (d : Disk) : R (Option Disk) :=
  testPostorage H Hs params ⟨false, false, false, true⟩ 0 ch d

end PoS

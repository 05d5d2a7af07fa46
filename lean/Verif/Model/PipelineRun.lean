import Verif.Model.PipelineDisk
import Verif.Model.PanicRun

/-
`test_pipeline` (/repo/proof_of_storage/src/proof_of_storage/postorage.rs 275-429) with the files it leaves however it
ends: normally or in a panic.

Simplifications: as in Model/PipelineDisk.lean and Model/PanicRun.lean.
-/

namespace PoS

/-- `test_pipeline`, postorage.rs 275-429: the files when the function returns or panics, and the way it ended.  The
origin file is created at 320 and its tree built at 324; padding 328, sealing 331, public data 333, tree of the block
identifiers 337, challenge rounds 341-419, unsealing in place 421, compression 423, comparison of the roots at the end.
`.ok none`: a schedule or a draw is not complete. -/
def pipelineRun (H Hs : Bytes → Bytes) (params : PosPara) (originRng ivRng : Nat → UInt8) (count parallelNum : Nat)
    (choices : List RoundChoices) (d : Disk) : Disk × R (Option Unit) :=
  let origin := createRandomFile originRng params.dataL
  let d := { d with origin := some origin }
  match generateMerkleTreeFromFile Hs origin params.dataL params.blockL with
  | .error e => (d, .error e)
  | .ok o =>
    match padRun origin params.dataL params.unitL with
    | (f, some e) => ({ d with sealed := some f }, .error e)
    | (padded, none) =>
      let kv := prepareParams params.unitPl ivRng
      match sealFile H params padded kv.1 kv.2 with
      | .error e => ({ d with sealed := some (sealRun H params padded kv.1 kv.2).1 }, .error e)
      | .ok st =>
        let pubdata := saveData (d.pubdata.getD []) kv.1 kv.2
        let d := { d with sealed := some st.file, pubdata := some pubdata }
        match generateMerkleTreeFromData Hs st.ids with
        | .error e => (d, .error e)
        | .ok t =>
          match runRounds (challengeRound H Hs params origin st.file pubdata t.1 t.2.1 t.2.2 count parallelNum) choices with
          | .error e => (d, .error e)
          | .ok none => (d, .ok none)
          | .ok (some ()) =>
            match unsealRun H params st.file kv.1 kv.2 with
            | (g, some e) => ({ d with sealed := some g }, .error e)
            | (g, none) =>
              match compressRun g params.dataL params.unitL params.unitPl with
              | (f, some e) => ({ d with sealed := some g, unsealed := some f }, .error e)
              | (f, none) =>
                let d := { d with sealed := some g, unsealed := some f }
                match generateMerkleTreeFromFile Hs f params.dataL params.blockL with
                | .error e => (d, .error e)
                | .ok u => if o.2.2 = u.2.2 then (d, .ok (some ())) else (d, .error .assertion)

end PoS

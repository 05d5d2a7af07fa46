import Verif.Cases.PipelineRun
import Verif.Properties.PostorageRun

/-
The C132 theorems applied to runs of `test_postorage` on ten blocks of one unit.
-/

namespace PoS.World

def tch : RunChoices := ⟨trng, tiv, [], id, 5⟩
/-- The files of a run that sealed and did not unseal; the unsealed file is that of an earlier run. -/
def tleft : Disk := ⟨some torig, some tsealed.file, some [2], some (saveData [] (wq : Int) ((List.range 128).map tiv))⟩

theorem tleft_eq : sealAndUnsealRun toyHash tp { told with origin := some (createRandomFile tch.originRng tp.dataL) }
    tch.ivRng false = (tleft, none) := by decide +kernel

example := C132_outcome toyHash toyHash tp ⟨true, false, true, true⟩ 0 tch told
example := ((C132_files toyHash toyHash tp ⟨true, false, true, true⟩ 0 tch told).2 rfl tleft none tleft_eq).1
example := C132_repeat toyHash toyHash tp ⟨true, false, true, true⟩ 0 tch told tleft rfl tleft_eq true

/-- The check of the first ten blocks passes, the challenge of the old unsealed file does not, and the files stay. -/
example : testPostorageRun toyHash toyHash tp ⟨true, false, false, true⟩ 0 tch told = (tleft, .ok (some ())) ∧
    testPostorageRun toyHash toyHash tp ⟨true, false, true, true⟩ 0 tch told = (tleft, .error .assertion) := by
  decide +kernel

def tutree : List Bytes × MerkleTree × Bytes :=
  (generateMerkleTreeFromFile toyHash [2] tp.dataL tp.blockL).toOption.getD tnone

example := (C132_stale toyHash toyHash (by w) tp 0 tch told tleft tleft_eq).2 [2] 10
  ((createChallenges tch.draw tp.leavesToProveCount 0 10 tch.fuel).toOption.getD none |>.getD []) totree tutree rfl (by w) (by w) (by w)
  (by decide +kernel) totree_eq (ok_of_isSome (by decide +kernel))

end PoS.World

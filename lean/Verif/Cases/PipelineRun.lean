import Verif.Cases.TestRuns
import Verif.Properties.PipelineRun

/-
The C131 theorems applied to runs of `test_pipeline` on ten blocks of one unit: one that completes, one with a round
without a challenge, which panics, and one whose sealing panics.
-/

namespace PoS.World

def told : Disk := ⟨none, some [1], some [2], none⟩
def torig : Bytes := createRandomFile trng tp.dataL
def tnone : List Bytes × MerkleTree × Bytes := ([], ⟨[]⟩, [])
def totree : List Bytes × MerkleTree × Bytes :=
  (generateMerkleTreeFromFile toyHash torig tp.dataL tp.blockL).toOption.getD tnone
def tstree : List Bytes × MerkleTree × Bytes := (generateMerkleTreeFromData toyHash tsealed.ids).toOption.getD tnone

theorem totree_eq : generateMerkleTreeFromFile toyHash torig tp.dataL tp.blockL = .ok totree :=
  ok_of_isSome (by decide +kernel)
theorem tstree_eq : generateMerkleTreeFromData toyHash tsealed.ids = .ok tstree := ok_of_isSome (by decide +kernel)
theorem tsealed_eq : sealFile toyHash tp tpad (wq : Int) ((List.range 128).map tiv) = .ok tsealed :=
  ok_of_isSome (by decide +kernel)

/-- A round without a challenge panics. -/
theorem tround : runRounds (challengeRound toyHash toyHash tp torig tsealed.file
    (saveData (told.pubdata.getD []) (wq : Int) ((List.range 128).map tiv)) tstree.1 tstree.2.1 tstree.2.2 0 0) trounds =
    .error .assertion := by decide +kernel

example := C131_outcome toyHash toyHash tp trng tiv 2 0 trounds told
example := C131_recovery toyHash toyHash (by w) tp wq 10 1 tcfg (by w) told trng tiv _ tkey 0 0 trounds tpad tsealed tpad_eq
  tsealed_eq tnz totree tstree totree_eq tstree_eq .assertion tround
example := C131_round_fails toyHash toyHash tp told trng tiv 0 0 trounds tpad tsealed tpad_eq
  (by rw [tkey]; exact tsealed_eq) totree tstree totree_eq tstree_eq .assertion (by rw [tkey]; exact tround)

/-- Rounds with two challenges pass, and the roots agree. -/
example := C131_root_check toyHash toyHash tp trng tiv 2 0 trounds told tpad tpad torig tsealed tpad_eq
  (by rw [tkey]; exact tsealed_eq) totree tstree totree totree_eq tstree_eq (by decide +kernel) (by decide +kernel)
  (by decide +kernel) totree_eq

/-- Static short dependencies on blocks of one unit make sealing panic. -/
example : ∃ x, sealFile toyHash { tp with modeS := 1 } tpad (prepareParams tp.unitPl tiv).1 (prepareParams tp.unitPl tiv).2 =
    .error x := ⟨.index, by decide +kernel⟩
example := C131_seal_fails toyHash toyHash { tp with modeS := 1 } trng tiv 2 0 trounds told

example := ((C131_files toyHash toyHash tp trng tiv 2 0 trounds told _ rfl).2 totree totree_eq).2 tpad tsealed _ tpad_eq
  (by rw [tkey]; exact tsealed_eq) (by decide +kernel : sealAndUnsealRun toyHash tp { told with origin := some torig } tiv false =
    (⟨some torig, some tsealed.file, some [2], some (saveData [] (wq : Int) ((List.range 128).map tiv))⟩, none))

end PoS.World

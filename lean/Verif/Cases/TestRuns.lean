import Verif.Cases.Protocol
import Verif.Properties.TestRuns

/-
The C129 theorems applied to a completed run of `test_pipeline` on ten blocks of one unit.
-/

namespace PoS.World

def trng : Nat → UInt8 := fun i => UInt8.ofNat (i * i + 7)
def tiv : Nat → UInt8 := fun i => UInt8.ofNat i
def tchoice : RunChoices := ⟨fun _ => 0, fun _ => 0, [], id, 5⟩
def tpad : Bytes := (copyAndPad (createRandomFile trng tp.dataL) tp.dataL tp.unitL).toOption.getD []
def tsealed : SealState := (sealFile toyHash tp tpad (wq : Int) ((List.range 128).map tiv)).toOption.getD ⟨[], [], []⟩
def trounds : List RoundChoices := [⟨7, fun i => 2 * i % 10, 4, []⟩]
def tdisk : Disk := (match pipelineDisk toyHash toyHash tp trng tiv 2 0 trounds ⟨none, some [1], none, none⟩ with
  | .ok (some e) => e
  | _ => ⟨none, none, none, none⟩)

theorem tdisk_eq : pipelineDisk toyHash toyHash tp trng tiv 2 0 trounds ⟨none, some [1], none, none⟩ =
    .ok (some tdisk) := by decide +kernel

theorem tpad_eq : copyAndPad (createRandomFile trng tp.dataL) tp.dataL tp.unitL = .ok tpad :=
  ok_of_isSome (by decide +kernel)

theorem tkey : prepareParams tp.unitPl tiv = ((wq : Int), (List.range 128).map tiv) := by decide +kernel

theorem tnz : NoZeroInput toyHash tp tpad (wq : Int) ((List.range 128).map tiv) := by
  intro st h
  have h2 : sealFile toyHash tp tpad (wq : Int) ((List.range 128).map tiv) = .ok tsealed :=
    ok_of_isSome (by decide +kernel)
  rw [h2] at h
  rw [← Except.ok.inj h]
  decide +kernel

theorem tS : ShortModeOk tp 10 1 :=
  (hashModes_ok (n := 10) (c := 1) rfl rfl (Or.inl (by norm_num)) (Or.inl (by norm_num))).2

example := C129_check_any_file toyHash (by w) tp wq 10 1 tcfg (by w) tS (Or.inl (by norm_num)) (by w) to_ wpub wiv (by w) none
  tf (by w)
example := C129_old_files_ignored toyHash toyHash tp trng tiv 2 0 trounds ⟨none, some [1], none, none⟩ tdisk
example := C129_pipeline_files toyHash toyHash (by w) tp wq 10 1 tcfg (by w) _ tdisk trng tiv _ tkey 2 0 trounds tpad tpad_eq
  tnz tdisk_eq
example := C129_test_after_pipeline toyHash toyHash (by w) tp tp wq 10 1 10 1 tcfg (by w) tcfg (by w) tS
  (Or.inl (by norm_num)) (by w) rfl (by w) _ tdisk trng tiv _ tkey 2 0 trounds tpad tpad_eq tnz tdisk_eq tchoice

/-- In this run the later `test` panics. -/
example : singleTest toyHash toyHash tp tchoice tdisk = .error .assertion := by decide +kernel

end PoS.World

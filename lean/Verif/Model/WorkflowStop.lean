import Verif.Model.Workflow
import Verif.Model.Interrupt

/-
Runs of `seal_and_unseal` (/repo/proof_of_storage/src/proof_of_storage/postorage.rs 118-155) that are
stopped from outside, at every moment at which one of the four data files changes.

Simplifications: as in Model/Interrupt.lean, writes reach the files in the order in which the bytes are
handed over; the files with run times are dropped.
-/

namespace PoS

/-- The moment at which a run of `seal_and_unseal` is stopped. -/
inductive StopPoint where
  /-- in `copy_and_pad` (postorage.rs 119), after `w` bytes of the new sealed file -/
  | padding (w : Nat)
  /-- in `seal` (postorage.rs 126), after `k` blocks and `w` bytes of the next one -/
  | sealing (k w : Nat)
  /-- in `save_data` (postorage.rs 129), the file being opened, after `w` bytes of the record -/
  | saving (w : Nat)
  /-- in `unseal` (postorage.rs 134), after `m` blocks and `w` bytes of the next one -/
  | unsealing (m w : Nat)
  /-- in `copy_and_compress` (postorage.rs 137), after `w` bytes of the new unsealed file -/
  | compressing (w : Nat)

/-- The files left by a run of `seal_and_unseal` that is stopped, postorage.rs 118-137.
`copy_and_pad` (prover.rs 27-48) and `copy_and_compress` (prover.rs 247-266) truncate the file they write
and then append; `save_data` (postorage.rs 64-75) does not truncate, and its record is written piece by
piece. -/
def stoppedDisk (H : Bytes → Bytes) (params : PosPara) (d : Disk) (rng : Nat → UInt8) : StopPoint → R Disk
  | .padding w => do
    let origin ← openFile d.origin
    let padded ← copyAndPad origin params.dataL params.unitL
    pure { d with sealed := some (padded.take w) }
  | .sealing k w => do
    let origin ← openFile d.origin
    let padded ← copyAndPad origin params.dataL params.unitL
    let kv := prepareParams params.unitPl rng
    let mid ← sealStopped H params padded kv.1 kv.2 k w
    pure { d with sealed := some mid }
  | .saving w => do
    let origin ← openFile d.origin
    let padded ← copyAndPad origin params.dataL params.unitL
    let kv := prepareParams params.unitPl rng
    let st ← sealFile H params padded kv.1 kv.2
    pure { d with
      sealed := some st.file
      pubdata := some (writeAt (d.pubdata.getD []) 0 ((pubDataBytes kv.1 kv.2).take w)) }
  | .unsealing m w => do
    let origin ← openFile d.origin
    let padded ← copyAndPad origin params.dataL params.unitL
    let kv := prepareParams params.unitPl rng
    let st ← sealFile H params padded kv.1 kv.2
    let mid ← unsealStopped H params st.file kv.1 kv.2 m w
    pure { d with sealed := some mid, pubdata := some (saveData (d.pubdata.getD []) kv.1 kv.2) }
  | .compressing w => do
    let origin ← openFile d.origin
    let padded ← copyAndPad origin params.dataL params.unitL
    let kv := prepareParams params.unitPl rng
    let st ← sealFile H params padded kv.1 kv.2
    let plain ← unsealFile H params st.file kv.1 kv.2
    let out ← copyAndCompress plain params.dataL params.unitL params.unitPl
    pure { d with
      sealed := some plain
      unsealed := some (out.take w)
      pubdata := some (saveData (d.pubdata.getD []) kv.1 kv.2) }

end PoS

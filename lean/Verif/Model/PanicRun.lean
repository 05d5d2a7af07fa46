import Verif.Model.Workflow

/-
Runs that end in a panic: what is left on disk.  Model of the same functions as Model/Prover.lean and
Model/Workflow.lean (/repo/proof_of_storage/src/proof_of_storage/prover.rs 27-48, 50-245, 247-266, 268-472
and postorage.rs 118-155), returning the files together with the way the run ended.

A panic unwinds the main thread; what has been handed to `write_all` before stays in the file.  The
panics of reading, decoding and selecting happen while a block is in memory, before its `write_all`.

Simplification: errors of the file system itself are not modelled, as elsewhere.
-/

namespace PoS

/-- `for i in 0..n { f(i) }` on a state that survives a panic: the state when the loop ended, and the panic
if there was one. -/
def runUp {σ : Type} (n : Nat) (f : Nat → σ → R σ) (s : σ) : σ × Option Panic :=
  match n with
  | 0 => (s, none)
  | n + 1 =>
    match runUp n f s with
    | (t, some e) => (t, some e)
    | (t, none) =>
      match f n t with
      | .ok u => (u, none)
      | .error e => (t, some e)

/-- `copy_and_pad`, prover.rs 27-48: the new file is truncated (34-40) before the units are counted (42). -/
def padRun (origin : Bytes) (dataL unitL : Nat) : Bytes × Option Panic :=
  match div! dataL unitL with
  | .error e => ([], some e)
  | .ok blockCnt =>
    runUp blockCnt (fun cnt new =>
      let buf := readFile origin (cnt * unitL) unitL ++ [0]
      .ok (new ++ buf)) []

/-- `seal`, prover.rs 50-245: the file when the function returns or panics. -/
def sealRun (H : Bytes → Bytes) (params : PosPara) (file : Bytes) (key : Int) (iv : Bytes) : Bytes × Option Panic :=
  let tables : R (Nat × List (List Nat) × List (List Nat)) := do
    let blockCnt ← div! params.dataL params.blockL
    let idxsL ← idxsLOf params blockCnt
    let idxsS ← idxsSOf params blockCnt
    pure (blockCnt, idxsL, idxsS)
  match tables with
  | .error e => (file, some e)
  | .ok (blockCnt, idxsL, idxsS) =>
    let r := runUp blockCnt (fun idx2 s => sealBlock H params key iv blockCnt idxsL idxsS idx2 s)
      { file := file, ids := List.replicate blockCnt [], log := [] }
    (r.1.file, r.2)

/-- `unseal`, prover.rs 268-472: the file when the function returns or panics. -/
def unsealRun (H : Bytes → Bytes) (params : PosPara) (file : Bytes) (key : Int) (iv : Bytes) : Bytes × Option Panic :=
  let tables : R (Nat × List (List Nat) × List (List Nat)) := do
    let blockCnt ← div! params.dataL params.blockL
    let idxsL ← idxsLOf params blockCnt
    let idxsS ← idxsSOf params blockCnt
    pure (blockCnt, idxsL, idxsS)
  match tables with
  | .error e => (file, some e)
  | .ok (blockCnt, idxsL, idxsS) =>
    runUp blockCnt (fun i file => do
      let a ← sub! blockCnt 1
      let idx2 ← sub! a i
      unsealBlock H params key iv blockCnt idxsL idxsS idx2 file) file

/-- `copy_and_compress`, prover.rs 247-266: the new file is truncated (253-259) before the units are
counted (261). -/
def compressRun (origin : Bytes) (dataL unitL unitPl : Nat) : Bytes × Option Panic :=
  match div! dataL unitL with
  | .error e => ([], some e)
  | .ok blockCnt =>
    runUp blockCnt (fun cnt new => do
      let buf := readFile origin (cnt * unitPl) unitPl
      let part ← slice! buf 0 unitL
      pure (new ++ part)) []

/-- `seal_and_unseal`, postorage.rs 118-155: the files when the function returns or panics. -/
def sealAndUnsealRun (H : Bytes → Bytes) (params : PosPara) (d : Disk) (rng : Nat → UInt8) (shouldUnseal : Bool) :
    Disk × Option Panic :=
  match openFile d.origin with
  | .error e => (d, some e)
  | .ok origin =>
    match padRun origin params.dataL params.unitL with
    | (f, some e) => ({ d with sealed := some f }, some e)
    | (padded, none) =>
      let kv := prepareParams params.unitPl rng
      match sealRun H params padded kv.1 kv.2 with
      | (f, some e) => ({ d with sealed := some f }, some e)
      | (f, none) =>
        let d := { d with sealed := some f, pubdata := some (saveData (d.pubdata.getD []) kv.1 kv.2) }
        if shouldUnseal then
          match unsealRun H params f kv.1 kv.2 with
          | (g, some e) => ({ d with sealed := some g }, some e)
          | (g, none) =>
            let out := compressRun g params.dataL params.unitL params.unitPl
            ({ d with sealed := some g, unsealed := some out.1 }, out.2)
        else (d, none)

end PoS

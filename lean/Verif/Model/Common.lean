import Verif.Basic

/-
Model of /repo/proof_of_storage/src/proof_of_storage/common.rs and of the data
structures of postorage.rs lines 27-62.
-/

namespace PoS

/-- `PosPara`, postorage.rs 28-55.  `vde_mode` is kept as a string; the path
fields of the Rust program are not part of the struct. -/
structure PosPara where
  dataL : Nat
  blockL : Nat
  blockPl : Nat
  unitL : Nat
  unitPl : Nat
  bigBlockL : Nat
  bigBlockPl : Nat
  sealRounds : Nat
  vdeRounds : Nat
  vdeMode : String
  modeL : Nat
  modeS : Nat
  cntL : Nat
  cntS : Nat
  leavesToProveCount : Nat
  deriving DecidableEq, Repr

/-- `read_file`, common.rs 78-84: a zero-filled buffer of `len` bytes of which the
bytes that exist in the file from `begin` on are overwritten.  Simplification: one
`read` call returns all available bytes (no short reads before end of file). -/
def readFile (file : Bytes) (begin_ len : Nat) : Bytes :=
  let avail := (file.drop begin_).take len
  avail ++ zeros (len - avail.length)

/-- `to_units`, common.rs 86-93: `for i in (0..data.len()).step_by(len)` pushing
`data[i .. i + len]`.  `fuel` is the number of remaining iterations. -/
def toUnitsAux : Nat → Bytes → Nat → Nat → R (List Bytes)
  | 0, _, _, _ => .ok []
  | fuel + 1, data, len, i =>
    if i < data.length then do
      let u ← slice! data i (i + len)
      let us ← toUnitsAux fuel data len (i + len)
      pure (u :: us)
    else .ok []

/-- `to_units`, common.rs 86-93 (`step_by(0)` panics; the number of iterations is
at most `data.len()`). -/
def toUnits (data : Bytes) (len : Nat) : R (List Bytes) :=
  if len = 0 then .error .zero else toUnitsAux data.length data len 0

/-- `com_units`, common.rs 95-102: `for i in 0..data.len() { res.append(data[i]) }`. -/
def comUnits (data : List Bytes) : R Bytes :=
  forUp data.length (fun i res => do
    let u ← at! data i
    pure (res ++ u)) []

/-- `vecu8_xor`, common.rs 104-127. -/
def vecu8Xor (left right : Bytes) : R Bytes :=
  if left.length > right.length then do
    let res ← forUp right.length (fun i res => do
      let a ← at! left i
      let b ← at! right i
      pure (res ++ [a ^^^ b])) []
    forUp (left.length - right.length) (fun j res => do
      let a ← at! left (right.length + j)
      pure (res ++ [a])) res
  else do
    let res ← forUp left.length (fun i res => do
      let a ← at! left i
      let b ← at! right i
      pure (res ++ [a ^^^ b])) []
    forUp (right.length - left.length) (fun j res => do
      let a ← at! right (left.length + j)
      pure (res ++ [a])) res

/-- `modadd`, common.rs 129-136.  `%` on `rug::Integer` truncates and panics for
modulus zero; `to_digits` drops the sign; `left.len() - res.len()` is checked. -/
def modadd (left right : Bytes) (p : Int) : R Bytes := if p = 0 then .error .zero else do
  let resInt := ((leNat left : Int) + (leNat right : Int)).tmod p
  let res := toLE resInt.natAbs
  let k ← sub! left.length res.length
  pure (res ++ zeros k)

/-- `modsub`, common.rs 138-145. -/
def modsub (left right : Bytes) (p : Int) : R Bytes := if p = 0 then .error .zero else do
  let resInt := ((leNat left : Int) + p - (leNat right : Int)).tmod p
  let res := toLE resInt.natAbs
  let k ← sub! left.length res.length
  pure (res ++ zeros k)

/-- `gen_posdata`, common.rs 147-251. -/
def genPosdata (l : Nat) : PosPara :=
  if l = 1 then
    { dataL := 63 * 16 * 1024 * 1
      unitL := 63, blockL := 63 * 64, bigBlockL := 63 * 128 * 128
      unitPl := 64, blockPl := 64 * 64, bigBlockPl := 64 * 128 * 128
      sealRounds := 2, vdeRounds := 10, vdeMode := "sloth"
      modeL := 0, modeS := 0, cntL := 0, cntS := 10
      leavesToProveCount := 3 }
  else if l = 4 then
    { dataL := 63 * 16 * 1024 * 4
      unitL := 63, blockL := 63 * 256, bigBlockL := 63 * 128 * 128
      unitPl := 64, blockPl := 64 * 256, bigBlockPl := 64 * 128 * 128
      sealRounds := 2, vdeRounds := 10, vdeMode := "sloth"
      modeL := 0, modeS := 0, cntL := 0, cntS := 10
      leavesToProveCount := 3 }
  else if l = 16 then
    { dataL := 63 * 16 * 1024 * 16
      unitL := 63, blockL := 63 * 1024, bigBlockL := 63 * 128 * 128
      unitPl := 64, blockPl := 64 * 1024, bigBlockPl := 64 * 128 * 128
      sealRounds := 2, vdeRounds := 10, vdeMode := "sloth"
      modeL := 0, modeS := 0, cntL := 0, cntS := 10
      leavesToProveCount := 3 }
  else
    { dataL := 63 * 16 * 1024 * 64
      unitL := 63, blockL := 63 * 4 * 1024, bigBlockL := 63 * 128 * 128
      unitPl := 64, blockPl := 64 * 4 * 1024, bigBlockPl := 64 * 128 * 128
      sealRounds := 2, vdeRounds := 10, vdeMode := "sloth"
      modeL := 0, modeS := 0, cntL := 0, cntS := 10
      leavesToProveCount := 3 }

end PoS

import Verif.Model.Convert
import Verif.Model.Mimc
import Mathlib.Data.ZMod.Basic

/-
Model of /repo/proof_of_space/src/proof_of_space/prover.rs, verifier.rs and pospace.rs.
`Fr` is `ZMod q`; the shipped `q` is the BLS12-381 scalar field order.
-/

namespace PoS

/-- `RESPONSE_COUNT`, pospace.rs 19. -/
def RESPONSE_COUNT : Nat := 50
/-- `CHALLENGE_COUNT`, pospace.rs 17. -/
def CHALLENGE_COUNT : Nat := 100

/-- `prepare_space`, prover.rs 24-42: content of the truncated file.  Simplification: the
product `(n + 1) * 2^n` is not checked against 2^64 (such a file does not fit on a disk). -/
def prepareSpace (n : Nat) : R Bytes := do
  let count ← pow2! n
  pure (zeros ((n + 1) * count / 8))

/-- `file.seek(pos); file.read(&mut buf)`: at most `buf.len()` bytes are replaced, at the end of
the file fewer or none.  Simplification: a read returns as many bytes as there are. -/
def readInto (file : Bytes) (pos : Nat) (buf : Bytes) : Bytes :=
  let d := (file.drop pos).take buf.length
  d ++ buf.drop d.length

/-- State of the bit-writing loop of `mark_space`: file, `yn_byte_idx`, `buf`, `buf_bits`, `j`. -/
structure MarkState where
  file : Bytes
  byteIdx : Nat
  buf : Bytes
  bufBits : List Bool
  j : Nat

/-- One iteration of that loop, prover.rs 95-117. -/
def markStep (b : Bool) (s : MarkState) : R MarkState := do
  let bufBits ← put! s.bufBits s.j b
  let j := s.j + 1
  if j = 8 then do
    let buf ← bitsToBytes bufBits
    let file := writeAt s.file s.byteIdx buf
    let byteIdx := s.byteIdx + 1
    let buf := readInto file byteIdx buf
    pure { file := file, byteIdx := byteIdx, buf := buf, bufBits := bytesToBits buf, j := 0 }
  else pure { s with bufBits := bufBits, j := j }

/-- Writing the bits `xBits` at bit position `bitIdx`, prover.rs 70-73 and 81-126. -/
def markBits (file : Bytes) (bitIdx : Nat) (xBits : List Bool) : R Bytes := do
  let byteIdx := bitIdx / 8
  let left := bitIdx % 8
  let buf := readInto file byteIdx [0]
  let s ← forEach xBits markStep
    { file := file, byteIdx := byteIdx, buf := buf, bufBits := bytesToBits buf, j := left }
  if s.j ≠ 0 then do
    let buf ← bitsToBytes s.bufBits
    pure (writeAt s.file s.byteIdx buf)
  else pure s.file

/-- The slot of `x`, prover.rs 60-68: the low `n` bits of the map of `x + key`.
`Fr::from_str(&x.to_string())` is the cast; `to_bits_le` of a `BigInteger256` has 256 bits. -/
def slotOf {q : Nat} (key m : ZMod q) (dfConstants : List (ZMod q)) (n x : Nat) : R Nat := do
  let y ← mimc5Df ((x : ZMod q) + key) m dfConstants
  let ynBits ← slice! (bitsOf 256 y.val) 0 n
  bitsToUsize ynBits

/-- `mark_space`, prover.rs 44-131. -/
def markSpace {q : Nat} (file : Bytes) (key m : ZMod q) (dfConstants : List (ZMod q)) (n : Nat) : R Bytes := do
  let count ← pow2! n
  forUp count (fun x file => do
    let y ← slotOf key m dfConstants n x
    let xBits ← usizeToBits x n
    let xBits := xBits ++ [true]
    markBits file ((n + 1) * y) xBits) file

/-- State of the bit-reading loop of `response_1`: `yn_byte_idx`, `buf`, `buf_bits`, `k`, `x_bits`. -/
structure ReadState where
  byteIdx : Nat
  buf : Bytes
  bufBits : List Bool
  k : Nat
  xBits : List Bool

/-- One iteration of that loop, prover.rs 169-182. -/
def readStep (file : Bytes) (j : Nat) (s : ReadState) : R ReadState := do
  let b ← at! s.bufBits s.k
  let xBits ← put! s.xBits j b
  let k := s.k + 1
  if k = 8 then
    let byteIdx := s.byteIdx + 1
    let buf := readInto file byteIdx s.buf
    pure { byteIdx := byteIdx, buf := buf, bufBits := bytesToBits buf, k := 0, xBits := xBits }
  else pure { s with xBits := xBits, k := k }

/-- Reading the `n + 1` bits of the slot `yn`, prover.rs 150-182. -/
def readSlot (file : Bytes) (n yn : Nat) : R (List Bool) := do
  let bitIdx := (n + 1) * yn
  let byteIdx := bitIdx / 8
  let left := bitIdx % 8
  let buf := readInto file byteIdx [0]
  let s ← forUp (n + 1) (readStep file)
    { byteIdx := byteIdx, buf := buf, bufBits := bytesToBits buf, k := left, xBits := List.replicate (n + 1) false }
  pure s.xBits

/-- State of the challenge loop of `response_1`: `x_response`, `idx_response`, `count`. -/
structure RespState (q : Nat) where
  xs : List (ZMod q)
  idxs : List Nat
  count : Nat

/-- The loop of `response_1` over the challenges from position `i` on, prover.rs 147-197, with
`want` in place of `RESPONSE_COUNT`. -/
def respLoop {q : Nat} (file : Bytes) (n want : Nat) : List Nat → Nat → RespState q → R (RespState q)
  | [], _, s => pure s
  | yn :: rest, i, s => do
    let xBits ← readSlot file n yn
    let flag ← at! xBits n
    let s ← (if flag = true then do
        let bits ← slice! xBits 0 n
        let x ← bitsToUsize bits
        pure { xs := s.xs ++ [(x : ZMod q)], idxs := s.idxs ++ [i], count := s.count + 1 }
      else pure s : R (RespState q))
    if s.count = want then pure s else respLoop file n want rest (i + 1) s

/-- `response_1`, prover.rs 133-201: `(x_response, idx_response, x_hash_response)`. -/
def response1 {q : Nat} (file : Bytes) (challenges : List Nat) (key : ZMod q) (hashConstants : List (ZMod q))
    (n want : Nat) : R (List (ZMod q) × List Nat × ZMod q) := do
  let s ← respLoop file n want challenges 0 { xs := [], idxs := [], count := 0 }
  let h ← multiMimc5Hash s.xs key hashConstants
  pure (s.xs, s.idxs, h)

/-- `create_challenges`, verifier.rs 12-28; `draw i` is the `i`-th random number. -/
def spaceChallenges (draw : Nat → Nat) (n bits : Nat) : R (List Nat) :=
  forUp n (fun i challenges => do
    let challenge ← forUp bits (fun k c => do
      let b ← at! [false, true] (genRange (draw (i * bits + k)) 0 2)
      pure (c ++ [b])) []
    let v ← bitsToUsize challenge
    pure (challenges ++ [v])) []

/-- Library function `ark_groth16::verify_proof` (0.3): an error when the number of inputs does
not fit the key, an error when the final exponentiation fails (`pairing = none`), and otherwise
`Ok` of the outcome of the pairing check. -/
def verifyProof {q : Nat} (gammaLen : Nat) (pairing : List (ZMod q) → Option Bool) (inputs : List (ZMod q)) :
    Except Unit Bool :=
  if inputs.length + 1 ≠ gammaLen then .error ()
  else match pairing inputs with
    | none => .error ()
    | some b => .ok b

/-- The public inputs assembled by `verify`, verifier.rs 32-41. -/
def verifyInputs {q : Nat} (key m : ZMod q) (challenges idxs : List Nat) (xHash : ZMod q) : R (List (ZMod q)) := do
  let ys ← forEach idxs (fun i acc => do
    let yn ← at! challenges i
    pure (acc ++ [(yn : ZMod q)])) [key, m]
  pure (ys ++ [xHash])

/-- `verify`, verifier.rs 30-44: `assert!(verify_proof(..).is_ok())`. -/
def spaceVerify {q : Nat} (gammaLen : Nat) (pairing : List (ZMod q) → Option Bool) (key m : ZMod q)
    (challenges idxs : List Nat) (xHash : ZMod q) : R Unit := do
  let inputs ← verifyInputs key m challenges idxs xHash
  match verifyProof gammaLen pairing inputs with
  | .ok _ => pure ()
  | .error _ => .error .assertion

end PoS

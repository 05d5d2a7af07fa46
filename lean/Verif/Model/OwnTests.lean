import Verif.Model.Vde
import Verif.Model.Merkle
import Verif.Model.Verifier
import Verif.Model.SpaceRun

/-
Model of the `#[test]` functions of /repo that assert something (those of postorage.rs and
pospace.rs are in Model/Postorage.lean, Model/Workflow.lean and Model/SpaceRun.lean).  A failing
assertion is the panic `assertion`.  Random numbers are parameters.  Simplifications: printing, time
measurements and the statistics files are left out.
-/

namespace PoS

/-- `assert!` and `assert_eq!`. -/
def check! (b : Bool) : R Unit := if b = true then .ok () else .error .assertion

/-- `test_sloth`, rug_sloth.rs 123-196 (`T`, `P_BITS`, `SAMPLES` are 10, 1024, 10000); `draw s i` is
byte `i` of sample `s`. -/
def rugSlothTest (draw : Nat → Nat → UInt8) : R Unit :=
  forUp 10000 (fun s _ =>
    let x : Int := (leNat ((List.range (1024 / 8 - 1)).map (draw s)) : Int)
    let y := Rug.sloth x P_1024 10
    let z := Rug.slothInv y P_1024 10
    check! (decide (x = z))) ()

/-- `test_sloth`, sloth.rs 122-195 (`T`, `P_BITS`, `SAMPLES` are 10, 128, 1000). -/
def numSlothTest (draw : Nat → Nat → UInt8) : R Unit :=
  forUp 1000 (fun s _ =>
    let x : Int := (leNat ((List.range (128 / 8 - 1)).map (draw s)) : Int)
    let y := Num.sloth x P_128 10
    let z := Num.slothInv y P_128 10
    check! (decide (x = z))) ()

/-- `test_vde`, rug_vde.rs 39-66: the numbers are compared, not the bytes. -/
def rugVdeTest : R Unit :=
  forUp 10 (fun _ _ =>
    let x : Bytes := List.replicate 120 1
    let y := Rug.vde x P_1024 3 "sloth" (1024 / 8)
    let z := Rug.vdeInv y P_1024 3 "sloth" (1024 / 8)
    check! (decide (leNat x = leNat z))) ()

/-- `test_vde`, numbig_vde.rs 70-98. -/
def numVdeTest : R Unit :=
  forUp 10 (fun _ _ => do
    let x : Bytes := List.replicate (128 * 10) 1
    let y ← Num.vde x P_512 3 "sloth" 64
    let z ← Num.vdeInv y P_512 3 "sloth" 64
    check! (decide (x = z))) ()

/-- `assert_eq!(indexs[i], res[i])` for all positions of `indexs`. -/
def checkIndices (indexs res : List Nat) : R Unit :=
  forUp indexs.length (fun i _ => do
    let a ← at! indexs i
    let b ← at! res i
    check! (decide (a = b))) ()

/-- `test_long_mode_1`, depend.rs 319-326. -/
def longMode1Test : R Unit := do checkIndices [5, 3, 1] (← longMode1 6 3)

/-- `test_long_mode_2`, depend.rs 328-335. -/
def longMode2Test : R Unit := do checkIndices [5, 4, 2] (← longMode2 7 3)

/-- `test_short_mode_1`, depend.rs 337-345. -/
def shortMode1Test : R Unit := do checkIndices [2, 4, 0, 6] (← shortMode1 7 3 4)

/-- `test_short_mode_2`, depend.rs 347-356: commented out, with the remark "test failed". -/
def shortMode2Test : R Unit := do checkIndices [3, 6, 0, 12] (← shortMode2 13 5 4)

/-- `test_bytes_bits_convert`, convert.rs 93-100. -/
def bytesBitsTest : R Unit := do
  let y ← bitsToBytes [false, true]
  let xx := bytesToBits y
  let yy ← bitsToBytes xx
  check! (decide (y = yy))

/-- `test_bits_usize_convert`, convert.rs 102-106. -/
def bitsUsizeTest : R Unit := do
  let y ← bitsToUsize [false, true]
  check! (decide (y = 2))

/-- `test`, merkle_tree.rs 62-110: `rng` fills the random file of 1 GiB (leaves of 1 MiB), `draw s` are
the random numbers of the challenges of sample `s`; the result `none` means that some
`create_challenges` is still drawing after `fuel` numbers. -/
def merkleTest (H : Bytes → Bytes) (rng : Nat → UInt8) (draw : Nat → Nat → Nat) (fuel : Nat) : R (Option Unit) :=
  let file := createRandomFile rng (1024 * 1024 * 1024)
  forUp 10 (fun s (st : Option Unit) =>
    match st with
    | none => pure none
    | some () => do
      let t ← generateMerkleTreeFromFile H file (1024 * 1024 * 1024) (1024 * 1024)
      let c ← createChallenges (draw s) 10 0 t.1.length fuel
      match c with
      | none => pure none
      | some indices => do
        let proof ← generateMerkleProof indices t.2.1
        verifyMerkleProof H proof t.2.2 indices t.1
        pure (some ())) (some ())

section
variable {q : Nat}

/-- One proof of a circuit test: `create_random_proof(c, &params, ..).unwrap()` followed by
`verify_proof(&pvk, &proof, inputs)`.  As in `pospaceRun`, the debug build asserts that the assignment
satisfies the circuit, and the proof itself is opaque. -/
def proofSample (pk : CS (ZMod q)) (c : Syn (ZMod q) Unit)
    (prove : CS (ZMod q) → CS (ZMod q) → List (ZMod q) → Option Bool) (inputs : List (ZMod q)) : R (Except Unit Bool) := do
  let s ← c (CS.init (ZMod q) false)
  if Satisfies s.2.cons (s.2.inst, s.2.wit) then pure (verifyProof (pk.nInst + 1) (prove pk s.2) inputs)
  else .error .assertion

/-- `assert!(verify_proof(..).unwrap())`. -/
def assertVerdict (v : Except Unit Bool) : R Unit :=
  match v with
  | .ok b => check! b
  | .error _ => .error .unwrap

/-- `assert!(verify_proof(..).is_ok())`. -/
def assertIsOk (v : Except Unit Bool) : R Unit :=
  match v with
  | .ok _ => check! true
  | .error _ => check! false

/-- `test_mimc3_df`, mimc3_df_circuit.rs 91-183; `draw k` is the `k`-th field element drawn by the test itself,
constants first, then two per sample. -/
def mimc3DfTest (prove : CS (ZMod q) → CS (ZMod q) → List (ZMod q) → Option Bool) (draw : Nat → ZMod q) : R Unit := do
  let constants := (List.range MIMC3_DF_ROUNDS).map draw
  let pk ← mimc3DfCircuit none none constants (CS.init (ZMod q) true)
  forUp 50 (fun i _ => do
    let xl := draw (MIMC3_DF_ROUNDS + 2 * i)
    let xr := draw (MIMC3_DF_ROUNDS + 2 * i + 1)
    let image ← mimc3Df xl xr constants
    let v ← proofSample pk.2 (mimc3DfCircuit (some xl) (some xr) constants) prove [image]
    assertVerdict v) ()

/-- `test_mimc5_df`, mimc5_df_circuit.rs 104-196: the same with one sample. -/
def mimc5DfTest (prove : CS (ZMod q) → CS (ZMod q) → List (ZMod q) → Option Bool) (draw : Nat → ZMod q) : R Unit := do
  let constants := (List.range MIMC5_DF_ROUNDS).map draw
  let pk ← mimc5DfCircuit none none constants (CS.init (ZMod q) true)
  forUp 1 (fun i _ => do
    let xl := draw (MIMC5_DF_ROUNDS + 2 * i)
    let xr := draw (MIMC5_DF_ROUNDS + 2 * i + 1)
    let image ← mimc5Df xl xr constants
    let v ← proofSample pk.2 (mimc5DfCircuit (some xl) (some xr) constants) prove [image]
    assertVerdict v) ()

/-- `test_mimc5_hash`, mimc5_hash_circuit.rs 153-246: three inputs, the key, then the constants are
drawn; key generation gets the values as well; every sample proves the same. -/
def mimc5HashTest (prove : CS (ZMod q) → CS (ZMod q) → List (ZMod q) → Option Bool) (draw : Nat → ZMod q) : R Unit := do
  let xs := (List.range 3).map draw
  let key := draw 3
  let constants := (List.range MIMC5_HASH_ROUNDS).map (fun i => draw (4 + i))
  let xHash ← multiMimc5Hash xs key constants
  let pk ← mimc5HashCircuit (xs.map some) (some key) constants (CS.init (ZMod q) true)
  forUp 50 (fun _ _ => do
    let v ← proofSample pk.2 (mimc5HashCircuit (xs.map some) (some key) constants) prove [xHash]
    assertVerdict v) ()

/-- `test_mimc7_hash`, mimc7_hash_circuit.rs 165-258. -/
def mimc7HashTest (prove : CS (ZMod q) → CS (ZMod q) → List (ZMod q) → Option Bool) (draw : Nat → ZMod q) : R Unit := do
  let xs := (List.range 3).map draw
  let key := draw 3
  let constants := (List.range MIMC7_HASH_ROUNDS).map (fun i => draw (4 + i))
  let xHash ← multiMimc7Hash xs key constants
  let pk ← mimc7HashCircuit (xs.map some) (some key) constants (CS.init (ZMod q) true)
  forUp 50 (fun _ _ => do
    let v ← proofSample pk.2 (mimc7HashCircuit (xs.map some) (some key) constants) prove [xHash]
    assertVerdict v) ()

/-- `x_bit[i] = Some(1)` or `Some(0)` for the first `size` bits of a number of 256 bits,
pow_circuit.rs 170-177 and equal_circuit.rs 177-184. -/
def testBits (size x : Nat) : R (List (Option Nat)) :=
  forUp size (fun i acc => do
    let b ← at! (bitsOf 256 x) i
    pure (acc ++ [some (if b = true then 1 else 0)])) []

/-- `test_pow`, pow_circuit.rs 126-211: the exponent is 2, the verdict of the proof is not looked at. -/
def powTest (prove : CS (ZMod q) → CS (ZMod q) → List (ZMod q) → Option Bool) (draw : Nat → ZMod q) : R Unit := do
  let pk ← powCircuit none (List.replicate POW_INPUT_SIZE none) (CS.init (ZMod q) true)
  forUp 50 (fun i _ => do
    let g := draw i
    let y := g ^ 2
    let bits ← testBits POW_INPUT_SIZE 2
    let v ← proofSample pk.2 (powCircuit (some g) bits) prove [y]
    assertIsOk v) ()

/-- `test_equal`, equal_circuit.rs 123-220: `x1` are the 8 low bits of `x2`, the verdict of the proof is
not looked at. -/
def equalTest (prove : CS (ZMod q) → CS (ZMod q) → List (ZMod q) → Option Bool) (draw : Nat → ZMod q) : R Unit := do
  let pk ← equalCircuit none none (List.replicate EQUAL_INPUT_SIZE none) 8 (CS.init (ZMod q) true)
  forUp 50 (fun i _ => do
    let x2 := draw i
    let x1Bits ← slice! (bitsOf 256 x2.val) 0 8
    let x1 : ZMod q := ((x1Bits.foldr (fun b n => (if b = true then 1 else 0) + 2 * n) 0 : Nat) : ZMod q)
    let bits ← testBits EQUAL_INPUT_SIZE x2.val
    let v ← proofSample pk.2 (equalCircuit (some x1) (some x2) bits 8) prove [x1, x2]
    assertIsOk v) ()

end

end PoS

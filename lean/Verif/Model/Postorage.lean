import Verif.Model.Parallel
import Verif.Model.Merkle

/-
Model of /repo/proof_of_storage/src/proof_of_storage/postorage.rs: the public data file,
the choice of parameters, and the challenge protocol of `test_pipeline`.
-/

namespace PoS

/-! ### public data file -/

/-- Decimal digits, least significant first; `fuel` bounds their number. -/
def decLE : Nat → Nat → Bytes
  | 0, _ => []
  | fuel + 1, n => UInt8.ofNat (48 + n % 10) :: (if n / 10 = 0 then [] else decLE fuel (n / 10))

/-- `Integer::to_string` (rug): decimal, minus sign for negative numbers, as bytes. -/
def intToString (z : Int) : Bytes :=
  (if z < 0 then [45] else []) ++ (decLE (z.natAbs + 1) z.natAbs).reverse

/-- One byte of the string in `Integer::from_str`.  The state is the sign read so far (`true`
for a minus) and the value of the digits read so far, `none` before the first digit. -/
def intStep (st : Option Bool × Option Nat) (b : UInt8) : Option (Option Bool × Option Nat) :=
  if b = 43 ∧ st.1 = none ∧ st.2 = none then some (some false, none)
  else if b = 45 ∧ st.1 = none ∧ st.2 = none then some (some true, none)
  else if b = 95 ∧ st.2 ≠ none then some st
  else if b = 32 ∨ (9 ≤ b.toNat ∧ b.toNat ≤ 13) then some st
  else if 48 ≤ b.toNat ∧ b.toNat ≤ 57 then
    some (st.1, some (st.2.getD 0 * 10 + (b.toNat - 48)))
  else none

/-- `Integer::from_str` (rug 1.19, `Integer::parse` with radix 10), as called at postorage.rs
84, 92-101: at most one sign before the first digit, white space ignored everywhere, `_`
ignored after the first digit, at least one digit. -/
def intFromStr (b : Bytes) : Option Int :=
  match b.foldlM intStep (none, none) with
  | some (sign, some n) => some (if sign = some true then -(n : Int) else n)
  | _ => none

/-- `u64` in little-endian, 8 bytes (bincode 1.3 length prefix). -/
def u64LE (n : Nat) : Bytes := (List.range 8).map (fun i => UInt8.ofNat (n / 256 ^ i % 256))

/-- `serialize_into` of `PubData`, postorage.rs 58-62 with bincode 1.3: each of the two fields
as its length and its bytes. -/
def pubDataBytes (key : Int) (iv : Bytes) : Bytes :=
  let s := intToString key
  u64LE s.length ++ s ++ (u64LE iv.length ++ iv)

/-- `save_data`, postorage.rs 64-75: the file is opened without truncation and written from
the start. -/
def saveData (old : Bytes) (key : Int) (iv : Bytes) : Bytes := writeAt old 0 (pubDataBytes key iv)

/-- One length-prefixed field read by `deserialize_from` (bincode 1.3); the rest stays in the
reader. -/
def readField (b : Bytes) : Option (Bytes × Bytes) :=
  if b.length < 8 then none
  else
    let len := leNat (b.take 8)
    let rest := b.drop 8
    if rest.length < len then none else some (rest.take len, rest.drop len)

/-- `load_data`, postorage.rs 77-86.  Simplification: a key field that is not UTF-8 fails in
`from_str` here, in `deserialize_from` there; both panic. -/
def loadData (file : Bytes) : R (Int × Bytes) :=
  match readField file with
  | none => .error .unwrap
  | some (s, rest) =>
    match readField rest with
    | none => .error .unwrap
    | some (iv, _) =>
      match intFromStr s with
      | none => .error .unwrap
      | some key => .ok (key, iv)

/-! ### parameters -/

/-- The modulus chosen by `prepare_params`, postorage.rs 88-103. -/
def prepareKey (unitPl : Nat) : Int :=
  if unitPl * 8 = 512 then P_512
  else if unitPl * 8 = 1024 then P_1024
  else if unitPl * 8 = 2048 then P_2048
  else P_1024

/-- `prepare_params`, postorage.rs 88-116: modulus and 128 random bytes. -/
def prepareParams (unitPl : Nat) (rng : Nat → UInt8) : Int × Bytes :=
  (prepareKey unitPl, (List.range 128).map rng)

/-! ### protocol -/

/-- `merkle_tree_proof`, postorage.rs 179-185.  `none`: the challenge draw is not finished. -/
def merkleTreeProof (Hs : Bytes → Bytes) (origin unsealed : Bytes) (dataL blockL leavesCount : Nat)
    (draw : Nat → Nat) (fuel : Nat) : R (Option Unit) := do
  let o ← generateMerkleTreeFromFile Hs origin dataL blockL
  let u ← generateMerkleTreeFromFile Hs unsealed dataL blockL
  let n ← div! dataL blockL
  let chosen ← createChallenges draw leavesCount 0 n fuel
  match chosen with
  | none => pure none
  | some indices => do
    let proof ← generateMerkleProof indices u.2.1
    verifyMerkleProof Hs proof o.2.2 indices u.1
    pure (some ())

/-- The bytes hashed in the first response, postorage.rs 351-369 and again 382-390. -/
def responseBytes (r : UInt8) (blocks : List (List Bytes)) : Bytes :=
  [r] ++ (blocks.map List.flatten).flatten

/-- What the prover sends for a challenge, postorage.rs 345-376. -/
structure Response where
  hash : Bytes
  blocks : List (List Bytes)
  beforeIds : List Bytes
  dependBlocks : List (List (List Bytes))
  proof : List Bytes

/-- The prover's side of a round, postorage.rs 345-376. -/
def proverRespond (H : Bytes → Bytes) (params : PosPara) (sealed : Bytes) (tree : MerkleTree) (r : UInt8)
    (indices : List Nat) : R Response := do
  let c ← forEach indices (fun idx2 (s : Bytes × List (List Bytes) × List Bytes × List (List (List Bytes))) => do
    let pr ← singleUnsealPrepare H params sealed idx2
    pure (s.1 ++ pr.block.flatten, s.2.1 ++ [pr.block], s.2.2.1 ++ [pr.beforeId], s.2.2.2 ++ [pr.dependBlocks]))
    ([r], [], [], [])
  let proof ← generateMerkleProof indices tree
  pure { hash := H c.1, blocks := c.2.1, beforeIds := c.2.2.1, dependBlocks := c.2.2.2, proof := proof }

/-- The verifier's side of a round, postorage.rs 379-418: returns normally (accepts) or panics;
`none` when the schedule of the thread pool is not complete. -/
def verifierCheck (H Hs : Bytes → Bytes) (params : PosPara) (origin pubdata : Bytes) (leaves : List Bytes)
    (root : Bytes) (r : UInt8) (indices : List Nat) (resp : Response) (parallelNum : Nat) (sched : List Nat) :
    R (Option Unit) := do
  let hashV := H (responseBytes r resp.blocks)
  if resp.hash ≠ hashV then .error .assertion
  else do
    verifyMerkleProof Hs resp.proof root indices leaves
    let kv ← loadData pubdata
    let unsealed ←
     (if parallelNum = 0 then do
        let out ← batchUnseal H params indices resp.blocks resp.beforeIds resp.dependBlocks kv.1 kv.2
        pure (some out)
      else batchUnsealParallel H params indices resp.blocks resp.beforeIds resp.dependBlocks kv.1 kv.2
        parallelNum sched : R (Option (List (List Bytes))))
    match unsealed with
    | none => pure none
    | some out => do
      forUp indices.length (fun i _ => do
        let k ← at! indices i
        let b ← at! out i
        batchVerify origin k b params.blockL params.unitL) ()
      pure (some ())

/-- The random choices of one round: the byte `r`, the challenge draws and the schedule. -/
structure RoundChoices where
  r : UInt8
  draw : Nat → Nat
  fuel : Nat
  sched : List Nat

/-- One iteration of the challenge loop of `test_pipeline`, postorage.rs 341-419. -/
def challengeRound (H Hs : Bytes → Bytes) (params : PosPara) (origin sealed pubdata : Bytes)
    (leaves : List Bytes) (tree : MerkleTree) (root : Bytes) (count parallelNum : Nat) (ch : RoundChoices) :
    R (Option Unit) := do
  let n ← div! params.dataL params.blockL
  let chosen ← createChallenges ch.draw count 0 n ch.fuel
  match chosen with
  | none => pure none
  | some indices => do
    let resp ← proverRespond H params sealed tree ch.r indices
    verifierCheck H Hs params origin pubdata leaves root ch.r indices resp parallelNum ch.sched

/-- Run the rounds one after the other. -/
def runRounds (round : RoundChoices → R (Option Unit)) : List RoundChoices → R (Option Unit)
  | [] => pure (some ())
  | ch :: chs => do
    let a ← round ch
    match a with
    | none => pure none
    | some () => runRounds round chs

/-- `test_pipeline`, postorage.rs 275-429, from the origin file on; `rng` yields the iv, `old`
is the previous content of the public data file.  Returns normally (everything accepted) or
panics. -/
def pipeline (H Hs : Bytes → Bytes) (params : PosPara) (origin old : Bytes) (rng : Nat → UInt8)
    (count parallelNum : Nat) (choices : List RoundChoices) : R (Option Unit) := do
  let o ← generateMerkleTreeFromFile Hs origin params.dataL params.blockL
  let padded ← copyAndPad origin params.dataL params.unitL
  let kv := prepareParams params.unitPl rng
  let st ← sealFile H params padded kv.1 kv.2
  let pubdata := saveData old kv.1 kv.2
  let t ← generateMerkleTreeFromData Hs st.ids
  let a ← runRounds (challengeRound H Hs params origin st.file pubdata t.1 t.2.1 t.2.2 count parallelNum) choices
  match a with
  | none => pure none
  | some () => do
    let plain ← unsealFile H params st.file kv.1 kv.2
    let unsealed ← copyAndCompress plain params.dataL params.unitL params.unitPl
    let u ← generateMerkleTreeFromFile Hs unsealed params.dataL params.blockL
    if o.2.2 = u.2.2 then pure (some ()) else .error .assertion

end PoS

import Verif.Model.Merkle

/-
/repo/proof_of_storage/src/proof_of_storage/merkle_tree.rs over an rs_merkle whose
`utils::indices::tree_depth` may round differently.  The crate (1.2, not in /repo) computes the
base-2 logarithm of the number of leaves in single precision, in some versions with an approximation
that is slightly too large at powers of two, and rounds up.  `depth n` stands for whatever it returns
for `n` leaves.  Everything else is as in `Model/Merkle.lean`.
-/

namespace PoS

/-- `MerkleTree::from_leaves` of rs_merkle with the depth `depth`. -/
def merkleFromLeavesAt (depth : Nat → Nat) (H : Bytes → Bytes) (leaves : List Bytes) : MerkleTree :=
  if leaves = [] then ⟨[]⟩
  else ⟨(buildTree H (depth leaves.length) [] [enumNodes leaves]).getD []⟩

/-- `MerkleProof::root` of rs_merkle with the depth `depth`. -/
def proofRootAt (depth : Nat → Nat) (H : Bytes → Bytes) (proof : List Bytes) (indices : List Nat)
    (hashes : List Bytes) (total : Nat) : Option Bytes :=
  if indices.length ≠ hashes.length then none
  else do
    let leaves := sortNodes (indices.zip hashes)
    let sorted := leaves.map (·.1)
    let layers ← groupHashes (proofIndicesByLayers (depth total) total sorted) proof
    let layers :=
      match layers with
      | first :: rest => sortNodes (first ++ leaves) :: rest
      | [] => [leaves]
    let tree ← buildTree H (depth total) [] layers
    rootOfLayers tree

/-- `MerkleProof::verify` of rs_merkle with the depth `depth`. -/
def proofVerifyAt (depth : Nat → Nat) (H : Bytes → Bytes) (proof : List Bytes) (root : Bytes) (indices : List Nat)
    (hashes : List Bytes) (total : Nat) : Bool :=
  match proofRootAt depth H proof indices hashes total with
  | some r => r == root
  | none => false

/-- `generate_merkle_tree_from_file`, merkle_tree.rs 9-24. -/
def generateMerkleTreeFromFileAt (depth : Nat → Nat) (H : Bytes → Bytes) (file : Bytes) (dataLen leafLen : Nat) :
    R (List Bytes × MerkleTree × Bytes) :=
  if leafLen = 0 then .error .zero
  else
    let values := (stepBy dataLen 0 dataLen leafLen).map (fun i => readFile file (i + leafLen) leafLen)
    let leaves := values.map H
    let tree := merkleFromLeavesAt depth H leaves
    match tree.root with
    | some root => .ok (leaves, tree, root)
    | none => .error .unwrap

/-- `generate_merkle_tree_from_data`, merkle_tree.rs 26-31. -/
def generateMerkleTreeFromDataAt (depth : Nat → Nat) (H : Bytes → Bytes) (values : List Bytes) :
    R (List Bytes × MerkleTree × Bytes) :=
  let leaves := values.map H
  let tree := merkleFromLeavesAt depth H leaves
  match tree.root with
  | some root => .ok (leaves, tree, root)
  | none => .error .unwrap

/-- `verify_merkle_proof`, merkle_tree.rs 40-47. -/
def verifyMerkleProofAt (depth : Nat → Nat) (H : Bytes → Bytes) (proof : List Bytes) (root : Bytes)
    (indices : List Nat) (leaves : List Bytes) : R Unit := do
  let toProve ← leavesToProve indices leaves
  if proofVerifyAt depth H proof root indices toProve leaves.length then pure () else .error .assertion

end PoS

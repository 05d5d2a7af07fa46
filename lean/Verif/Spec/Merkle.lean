import Verif.Model.Merkle

/-
The strings that are hashed while a Merkle tree is built or a Merkle proof is checked.  The binding
theorems name a collision among these strings: that *some* collision exists is true of every hash
with 32-byte results and says nothing.
-/

namespace PoS

/-- Two different strings, one of each list, with the same hash. -/
def Collides (H : Bytes → Bytes) (xs ys : List Bytes) : Prop :=
  ∃ x ∈ xs, ∃ y ∈ ys, x ≠ y ∧ H x = H y

instance (H : Bytes → Bytes) (xs ys : List Bytes) : Decidable (Collides H xs ys) := by
  unfold Collides; infer_instance

/-- The strings hashed to get from a layer to its parents: each node of even index joined with the
node next to it. -/
def siblingPairs (layer : List Node) : List Bytes :=
  layer.flatMap fun a => layer.filterMap fun b =>
    if a.1 % 2 = 0 ∧ b.1 = a.1 + 1 then some (a.2 ++ b.2) else none

/-- The strings hashed between the leaves and the root of a tree given by its layers. -/
def innerStrings (layers : List (List Node)) : List Bytes := layers.flatMap siblingPairs

/-- The partial tree that `MerkleProof::root` of rs_merkle rebuilds from a proof. -/
def proofLayers (H : Bytes → Bytes) (proof : List Bytes) (indices : List Nat) (hashes : List Bytes)
    (total : Nat) : Option (List (List Node)) :=
  if indices.length ≠ hashes.length then none
  else do
    let leaves := sortNodes (indices.zip hashes)
    let layers ← groupHashes (proofIndicesByLayers (treeDepth total) total (leaves.map (·.1))) proof
    let layers :=
      match layers with
      | first :: rest => sortNodes (first ++ leaves) :: rest
      | [] => [leaves]
    buildTree H (treeDepth total) [] layers

/-- The contents of the leaves of the tree over a file, `len` bytes each. -/
def leafContents (file : Bytes) (dataLen len : Nat) : List Bytes :=
  (List.range ((dataLen + len - 1) / len)).map fun i => readFile file ((i + 1) * len) len

end PoS

import Verif.Model.Common
import Mathlib.Data.Nat.Log

/-
Model of /repo/proof_of_storage/src/proof_of_storage/merkle_tree.rs and of the part of
the crate `rs_merkle` 1.2 it calls (the crate is not in /repo; its algorithm is modelled
from its published source: `MerkleTree::{from_leaves, root, proof}`, `MerkleProof::{verify,
to_bytes, try_from}`, `PartialTree::build_tree`, `utils::indices`).  A hash value
`[u8; 32]` is a byte list; the hash (`Sha256`) is the parameter `H`.
-/

namespace PoS

/-- A node of a (partial) layer: its index in the layer and its hash. -/
abbrev Node := Nat × Bytes

/-- `Hasher::concat_and_hash` of rs_merkle: a missing right node promotes the left one. -/
def concatAndHash (H : Bytes → Bytes) (left : Bytes) : Option Bytes → Bytes
  | some right => H (left ++ right)
  | none => left

/-- `utils::indices::get_sibling_index` of rs_merkle. -/
def siblingIndex (i : Nat) : Nat := if i % 2 = 0 then i + 1 else i - 1

/-- `Vec::dedup`: drop consecutive repetitions. -/
def dedupAdj : List Nat → List Nat
  | [] => []
  | [x] => [x]
  | x :: y :: l => if x = y then dedupAdj (y :: l) else x :: dedupAdj (y :: l)

/-- `utils::indices::parent_indices` of rs_merkle. -/
def parentIndices (ks : List Nat) : List Nat := dedupAdj (ks.map (· / 2))

/-- `utils::collections::difference` of rs_merkle. -/
def difference (a b : List Nat) : List Nat := a.filter (fun x => decide (x ∉ b))

/-- `utils::indices::tree_depth` of rs_merkle: 1 for one leaf, else the base-2 logarithm
rounded up.  Simplification: the library computes the logarithm in `f32`, in some versions with an
approximation that is too large at powers of two; C111 shows that any result that is not too small
leads to the same roots, proofs and verdicts. -/
def treeDepth (n : Nat) : Nat := if n = 1 then 1 else Nat.clog 2 n

/-- Insert a node into a list sorted by index, behind equal indices. -/
def insertNode (x : Node) : List Node → List Node
  | [] => [x]
  | y :: ys => if x.1 < y.1 then x :: y :: ys else y :: insertNode x ys

/-- `sort_by(|(a, _), (b, _)| a.cmp(b))`: stable sort by index. -/
def sortNodes (l : List Node) : List Node := l.foldl (fun acc x => insertNode x acc) []

/-- The parents of a layer, inner loop of `PartialTree::build_tree`: the `i`-th parent
index is paired with nodes `2i` and `2i + 1`; `none` for `NotEnoughHelperNodes`. -/
def parentLayer (H : Bytes → Bytes) (layer : List Node) : Option (List Node) :=
  let nodes := layer.map (·.2)
  let parents := parentIndices (layer.map (·.1))
  (parents.zipIdx).mapM (fun q =>
    match nodes[q.2 * 2]? with
    | some left => some (q.1, concatAndHash H left nodes[q.2 * 2 + 1]?)
    | none => none)

/-- `PartialTree::build_tree` of rs_merkle: `depth` times, take in the helper nodes of the
layer, sort, and compute the parents.  Result: all layers, leaves first. -/
def buildTree (H : Bytes → Bytes) : Nat → List Node → List (List Node) → Option (List (List Node))
  | 0, current, _ => some [current]
  | depth + 1, current, layers => do
    let current := sortNodes (current ++ layers.headD [])
    let next ← parentLayer H current
    let rest ← buildTree H depth next layers.tail
    some (current :: rest)

/-- `PartialTree::root`: first node of the last layer. -/
def rootOfLayers (layers : List (List Node)) : Option Bytes := do
  let last ← layers.getLast?
  let node ← last.head?
  some node.2

/-- A built tree: its layers (`layer_tuples`). -/
structure MerkleTree where
  layers : List (List Node)
  deriving DecidableEq, Repr

/-- Leaves with their positions. -/
def enumNodes (leaves : List Bytes) : List Node := leaves.zipIdx.map (fun p => (p.2, p.1))

/-- `MerkleTree::from_leaves` of rs_merkle (append, then commit): nothing is committed
when there are no leaves. -/
def merkleFromLeaves (H : Bytes → Bytes) (leaves : List Bytes) : MerkleTree :=
  if leaves = [] then ⟨[]⟩
  else ⟨(buildTree H (treeDepth leaves.length) [] [enumNodes leaves]).getD []⟩

/-- `MerkleTree::root` of rs_merkle. -/
def MerkleTree.root (t : MerkleTree) : Option Bytes := rootOfLayers t.layers

/-- `MerkleTree::helper_node_tuples` of rs_merkle: per layer, the present nodes among the
siblings that are not themselves in the index list. -/
def helperNodes : List (List Node) → List Nat → List (List Node)
  | [], _ => []
  | layer :: layers, ks =>
    ((difference (ks.map siblingIndex) ks).filterMap (fun i => layer[i]?)) ::
      helperNodes layers (parentIndices ks)

/-- `MerkleTree::proof` of rs_merkle: the hashes of all helper nodes. -/
def MerkleTree.proof (t : MerkleTree) (ks : List Nat) : List Bytes :=
  (helperNodes t.layers ks).flatten.map (·.2)

/-- `MerkleProof::to_bytes` of rs_merkle. -/
def proofToBytes (proof : List Bytes) : Bytes := proof.flatten

/-- Cut into chunks of 32 bytes. -/
def chunks32 : Nat → Bytes → List Bytes
  | 0, _ => []
  | fuel + 1, b => if b = [] then [] else b.take 32 :: chunks32 fuel (b.drop 32)

/-- `MerkleProof::try_from(Vec<u8>)` of rs_merkle: an error unless the length is a multiple
of the hash size. -/
def proofFromBytes (b : Bytes) : Option (List Bytes) :=
  if b.length % 32 = 0 then some (chunks32 b.length b) else none

/-- One layer of `utils::indices::proof_indices_by_layers` of rs_merkle: the siblings that are
not known; in a layer with an odd number `count` of nodes the last node has no sibling. -/
def helperIndices (count : Nat) (ks : List Nat) : List Nat :=
  let sibs := ks.map siblingIndex
  let sibs :=
    if count % 2 ≠ 0 then
      match ks.getLast? with
      | some last => if last = count - 1 then sibs.dropLast else sibs
      | none => sibs
    else sibs
  difference sibs ks

/-- `utils::indices::proof_indices_by_layers` of rs_merkle, `depth` layers from a layer of
`count` nodes on. -/
def proofIndicesByLayers : Nat → Nat → List Nat → List (List Nat)
  | 0, _, _ => []
  | depth + 1, count, ks =>
    helperIndices count ks :: proofIndicesByLayers depth ((count + 1) / 2) (parentIndices ks)

/-- The grouping of the proof hashes in `MerkleProof::root` of rs_merkle: each layer takes as
many hashes as it has indices from the front; `none` when there are too few (`splice` panics;
later versions of the crate return an error).  Left-over hashes are ignored. -/
def groupHashes : List (List Nat) → List Bytes → Option (List (List Node))
  | [], _ => some []
  | is :: rest, proof =>
    if is.length ≤ proof.length then do
      let more ← groupHashes rest (proof.drop is.length)
      some (is.zip (proof.take is.length) :: more)
    else none

/-- `MerkleProof::root` of rs_merkle; `none` stands for the errors and the panic. -/
def proofRoot (H : Bytes → Bytes) (proof : List Bytes) (indices : List Nat) (hashes : List Bytes)
    (total : Nat) : Option Bytes :=
  if indices.length ≠ hashes.length then none
  else do
    let leaves := sortNodes (indices.zip hashes)
    let sorted := leaves.map (·.1)
    let layers ← groupHashes (proofIndicesByLayers (treeDepth total) total sorted) proof
    let layers :=
      match layers with
      | first :: rest => sortNodes (first ++ leaves) :: rest
      | [] => [leaves]
    let tree ← buildTree H (treeDepth total) [] layers
    rootOfLayers tree

/-- `MerkleProof::verify` of rs_merkle. -/
def proofVerify (H : Bytes → Bytes) (proof : List Bytes) (root : Bytes) (indices : List Nat)
    (hashes : List Bytes) (total : Nat) : Bool :=
  match proofRoot H proof indices hashes total with
  | some r => r == root
  | none => false

/-- Offsets `(0..data_len).step_by(leaf_len)`; `fuel` bounds their number. -/
def stepBy : Nat → Nat → Nat → Nat → List Nat
  | 0, _, _, _ => []
  | fuel + 1, i, len, step => if i < len then i :: stepBy fuel (i + step) len step else []

/-- `generate_merkle_tree_from_file`, merkle_tree.rs 9-24: reads at `i + leaf_len`. -/
def generateMerkleTreeFromFile (H : Bytes → Bytes) (file : Bytes) (dataLen leafLen : Nat) :
    R (List Bytes × MerkleTree × Bytes) :=
  if leafLen = 0 then .error .zero
  else
    let values := (stepBy dataLen 0 dataLen leafLen).map (fun i => readFile file (i + leafLen) leafLen)
    let leaves := values.map H
    let tree := merkleFromLeaves H leaves
    match tree.root with
    | some root => .ok (leaves, tree, root)
    | none => .error .unwrap

/-- `generate_merkle_tree_from_data`, merkle_tree.rs 26-31. -/
def generateMerkleTreeFromData (H : Bytes → Bytes) (values : List Bytes) :
    R (List Bytes × MerkleTree × Bytes) :=
  let leaves := values.map H
  let tree := merkleFromLeaves H leaves
  match tree.root with
  | some root => .ok (leaves, tree, root)
  | none => .error .unwrap

/-- `generate_merkle_proof`, merkle_tree.rs 33-38. -/
def generateMerkleProof (indices : List Nat) (tree : MerkleTree) : R (List Bytes) :=
  match proofFromBytes (proofToBytes (tree.proof indices)) with
  | some proof => .ok proof
  | none => .error .unwrap

/-- `leaves_to_prove` in `verify_merkle_proof`, merkle_tree.rs 41-45. -/
def leavesToProve (indices : List Nat) (leaves : List Bytes) : R (List Bytes) :=
  forUp indices.length (fun i res => do
    let k ← at! indices i
    let leaf ← (leaves[k]?).elim (.error .unwrap) .ok
    pure (res ++ [leaf])) []

/-- `verify_merkle_proof`, merkle_tree.rs 40-47: returns normally or panics. -/
def verifyMerkleProof (H : Bytes → Bytes) (proof : List Bytes) (root : Bytes) (indices : List Nat)
    (leaves : List Bytes) : R Unit := do
  let toProve ← leavesToProve indices leaves
  if proofVerify H proof root indices toProve leaves.length then pure () else .error .assertion

end PoS

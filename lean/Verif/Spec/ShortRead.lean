import Verif.Spec.Unsealing

/-
What is seen of a block when only its first bytes are returned by a read.
-/

namespace PoS

/-- The first `g` bytes of a string, the others replaced by zeros. -/
def cut (g : Nat) (b : Bytes) : Bytes := b.mapIdx (fun t x => if t < g then x else 0)

/-- The first `g` bytes of a sequence of units of `l` bytes, the others replaced by zeros. -/
def cutUnits (g l : Nat) (us : List Bytes) : List Bytes := us.mapIdx (fun j u => cut (g - j * l) u)

namespace Sealing

/-- The blocks that block `k` refers to, as far as they are seen: `dep m` bytes of the `m`-th. -/
def cutDependencies (S : Sealing) (dep : Nat → Nat) (done : List (List Bytes)) (k : Nat) : List (List Bytes) :=
  (S.dependencies done k).mapIdx (fun m b => cutUnits (dep m) S.unitPl b)

/-- The first `k` sealed blocks when `own k` bytes are seen of block `k` and `dep k m` bytes of its
`m`-th dependency. -/
def cutSealedBlocks (S : Sealing) (own : Nat → Nat) (dep : Nat → Nat → Nat) (plain : Nat → List Bytes) :
    Nat → List (List Bytes)
  | 0 => []
  | k + 1 =>
    let done := cutSealedBlocks S own dep plain k
    done ++ [S.sealOne (S.cutDependencies (dep k) done k) (S.chaining done k) (cutUnits (own k) S.unitPl (plain k))]

/-- Block `k` of the unsealed file, when `blocks` are the blocks of the sealed one and `own` bytes of
block `k`, `before` bytes of the block before it and `dep m` bytes of the `m`-th dependency are seen. -/
def cutUnsealedBlock (S : Sealing) (dec : Nat → Nat) (own before : Nat) (dep : Nat → Nat)
    (blocks : Nat → List Bytes) (k : Nat) : List Bytes :=
  let id := S.H (cut before (blocks (k - 1)).flatten)
  S.unsealOne dec (((S.long id k).map blocks).mapIdx (fun m b => cutUnits (dep m) S.unitPl b))
    (if k = 0 then S.iv else id) (cutUnits own S.unitPl (blocks k))

end Sealing

end PoS

import Verif.Spec.Sealing

/-
Which strings are hashed while a file is sealed with hash-chosen dependencies, and hash functions that are
free on a finite set of strings.
-/

namespace PoS

/-- How many 16-byte pieces of the hash chain are read when `count` of `num` positions are chosen. -/
def pieces (num count : Nat) : Nat :=
  if num ≤ 256 then max 1 (count / 8) else if num ≤ 65536 then max 1 (count / 16) else 1

/-- The strings hashed in order to choose `count` of `num` positions from `data`. -/
def selectionStrings (H : Bytes → Bytes) (data : Bytes) (num count : Nat) : List Bytes :=
  data :: (List.range (pieces num count - 1)).map (prefixChain H data)

namespace Sealing

/-- The same sealing with another hash function and with dependencies chosen by it: `cntL` long ones among `n` blocks,
`cntS` short ones. -/
def withHash (S : Sealing) (n cntL cntS : Nat) (H : Bytes → Bytes) : Sealing :=
  { S with H := H, long := hashLong H n cntL, short := hashShort H S.c cntS }

/-- The strings hashed to choose the short dependencies of unit `j`. -/
def shortStrings (S : Sealing) (cntS : Nat) (b : List Bytes) (j : Nat) : List Bytes :=
  selectionStrings S.H (if j = 0 then [] else b.getD (j - 1) []) S.c cntS

/-- The strings hashed while unit `j` is sealed. -/
def unitStrings (S : Sealing) (cntS : Nat) (deps : List (List Bytes)) (chain : Bytes) (b : List Bytes) (j : Nat) :
    List Bytes :=
  S.shortStrings cntS b j ++ [S.maskInput deps chain b j]

/-- The strings hashed while a block is sealed, up to unit `i` of round `r`. -/
def blockStrings (S : Sealing) (cntS : Nat) (deps : List (List Bytes)) (chain : Bytes) (b : List Bytes) (r i : Nat) :
    List Bytes :=
  (List.range r).flatMap (fun r => (List.range S.c).flatMap (fun i =>
    S.unitStrings cntS deps chain (S.sealState deps chain b r i) i)) ++
  (List.range i).flatMap (fun i => S.unitStrings cntS deps chain (S.sealState deps chain b r i) i)

/-- The strings hashed to choose the long dependencies of block `k`. -/
def longStrings (S : Sealing) (n cntL : Nat) (done : List (List Bytes)) (k : Nat) : List Bytes :=
  if k = 0 then [] else
    selectionStrings S.H (S.H (done.getD (k - 1) []).flatten) n (if cntL = 0 then k / 10 + 1 else cntL)

/-- The strings hashed while the first `k` blocks are sealed. -/
def fileStrings (S : Sealing) (n cntL cntS : Nat) (plain : Nat → List Bytes) : Nat → List Bytes
  | 0 => []
  | k + 1 =>
    let done := S.sealedBlocks plain k
    fileStrings S n cntL cntS plain k ++ S.longStrings n cntL done k ++
      S.blockStrings cntS (S.dependencies done k) (S.chaining done k) (plain k) S.rounds 0 ++
      [(S.sealOne (S.dependencies done k) (S.chaining done k) (plain k)).flatten]

/-- The strings hashed before the mask of unit `i` in round `r` of block `k`. -/
def stringsBefore (S : Sealing) (n cntL cntS : Nat) (plain : Nat → List Bytes) (k r i : Nat) : List Bytes :=
  let done := S.sealedBlocks plain k
  S.fileStrings n cntL cntS plain k ++ S.longStrings n cntL done k ++
    S.blockStrings cntS (S.dependencies done k) (S.chaining done k) (plain k) r i ++
    S.shortStrings cntS (S.sealState (S.dependencies done k) (S.chaining done k) (plain k) r i) i

/-- What is hashed into the mask of unit `i` in round `r` of block `k`. -/
def maskAt (S : Sealing) (plain : Nat → List Bytes) (k r i : Nat) : Bytes :=
  let done := S.sealedBlocks plain k
  S.maskInput (S.dependencies done k) (S.chaining done k)
    (S.sealState (S.dependencies done k) (S.chaining done k) (plain k) r i) i

/-- What is handed to the encoder for unit `i` in round `r` of block `k`. -/
def inputAt (S : Sealing) (plain : Nat → List Bytes) (k r i : Nat) : Nat :=
  let done := S.sealedBlocks plain k
  S.encoderInput (S.dependencies done k) (S.chaining done k)
    (S.sealState (S.dependencies done k) (S.chaining done k) (plain k) r i) i

end Sealing

/-- A hash function given by a table of 32-byte values on the strings in `Q`, and by `H₀` elsewhere. -/
def oracle (H₀ : Bytes → Bytes) (Q : Finset Bytes) (f : Q → Fin (256 ^ 32)) (x : Bytes) : Bytes :=
  if h : x ∈ Q then leBytes 32 (f ⟨x, h⟩) else H₀ x

end PoS

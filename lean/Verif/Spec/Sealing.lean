import Verif.Spec.Select
import Mathlib.Data.Finset.Sort

/-
A mathematical description of a sealed file: no files, no panics, no loops over mutable state;
blocks are lists of units, units are byte strings.
-/

namespace PoS

/-- What a sealing is made of: the hash, the delay encoder on residues, the modulus, the length of
a padded unit, the number of units per block, the number of rounds, the initial vector, and the
choice of dependencies: `long id k` are the earlier blocks that block `k` refers to when the block
before it has identifier `id`; `short seed j` are the other units of the block that unit `j` refers
to when the unit before it holds `seed`. -/
structure Sealing where
  H : Bytes → Bytes
  enc : Nat → Nat
  p : Nat
  unitPl : Nat
  c : Nat
  rounds : Nat
  iv : Bytes
  long : Bytes → Nat → List Nat
  short : Bytes → Nat → List Nat

/-- The `len` low bytes of `v`, little-endian. -/
def leBytes (len v : Nat) : Bytes := (List.range len).map (fun i => UInt8.ofNat (v / 256 ^ i % 256))

/-- Long dependencies chosen by a hash, among `n` blocks, `cntL` requested (0: one per ten blocks). -/
def hashLong (H : Bytes → Bytes) (n cntL : Nat) (id : Bytes) (k : Nat) : List Nat :=
  if k = 0 then [] else
  let count := if cntL = 0 then k / 10 + 1 else cntL
  (((List.range (available n count)).map (fun i => drawn H id n i % k)).take count).toFinset.sort (· ≤ ·)

/-- Short dependencies chosen by a hash, among `c` units, `cntS` requested. -/
def hashShort (H : Bytes → Bytes) (c cntS : Nat) (seed : Bytes) (j : Nat) : List Nat :=
  ((((List.range (available c cntS)).map (fun i => drawn H seed c i % c)).filter
    (fun d => decide (d ≠ j))).take cntS).toFinset.sort (· ≤ ·)

/-- With `n` blocks and `cntL` requested (0: one per ten blocks) hash-chosen long dependencies exist:
above 65536 blocks at most five can be drawn. -/
abbrev LongCountOk (n cntL : Nat) : Prop := n ≤ 65536 ∨ (0 < cntL ∧ cntL ≤ 5)

/-- With `c` units and `cntS` requested hash-chosen short dependencies exist whatever the hash values. -/
abbrev ShortCountOk (c cntS : Nat) : Prop := c ≤ 65536 ∨ cntS = 0

/-- At least `cnt` of the five numbers drawn from `seed` are not the position `j` itself. -/
def EnoughDrawn (H : Bytes → Bytes) (c cnt : Nat) (seed : Bytes) (j : Nat) : Prop :=
  cnt ≤ ((List.range 5).filter (fun i => decide (drawn H seed c i ≠ j))).length

/-- The static long dependencies of block `k`: in mode 1 the first `cnt` blocks at the distances
1, 3, 5, ...; in mode 2 those at the distances 2, 3, 5, 9, 17, ...; in mode 3 the same with one
candidate per ten blocks. -/
def staticLong (mode cnt k : Nat) : List Nat :=
  if mode = 1 then ((List.range cnt).filter (fun i => decide (2 * i < k))).map (fun i => k - 1 - 2 * i)
  else if mode = 2 then ((List.range cnt).filter (fun i => decide (2 ^ i < k))).map (fun i => k - 1 - 2 ^ i)
  else if mode = 3 then ((List.range (k / 10)).filter (fun i => decide (2 ^ i < k))).map (fun i => k - 1 - 2 ^ i)
  else []

/-- The static short dependencies of unit `j` among `n` positions (mode 1): the first `cnt` of the
positions at the distances 1, 3, 5, ..., at each distance first the smaller one. -/
def staticShort (n cnt j : Nat) : List Nat :=
  ((List.range (n + j + 1)).flatMap (fun e =>
    (if 1 + 2 * e ≤ j then [j - (1 + 2 * e)] else []) ++
    (if j + (1 + 2 * e) < n then [j + (1 + 2 * e)] else []))).take cnt

namespace Sealing

/-- Everything that is hashed into the mask of unit `j`: the same unit of the earlier blocks, the
chosen units of the block in their present state, and for the first unit the chaining value. -/
def maskInput (S : Sealing) (deps : List (List Bytes)) (chain : Bytes) (b : List Bytes) (j : Nat) : Bytes :=
  (deps.map (fun d => d.getD j [])).flatten ++
  ((S.short (if j = 0 then [] else b.getD (j - 1) []) j).map (fun i => b.getD i [])).flatten ++
  (if j = 0 then chain else [])

/-- Sealing unit `j`: add the mask modulo `p`, then encode. -/
def stepUnit (S : Sealing) (deps : List (List Bytes)) (chain : Bytes) (b : List Bytes) (j : Nat) : List Bytes :=
  b.set j (leBytes S.unitPl
    (S.enc ((leNat (b.getD j []) + leNat (S.H (S.maskInput deps chain b j))) % S.p)))

/-- Sealing a block: `rounds` times, the units in order. -/
def sealOne (S : Sealing) (deps : List (List Bytes)) (chain : Bytes) (b : List Bytes) : List Bytes :=
  (fun b => (List.range S.c).foldl (S.stepUnit deps chain) b)^[S.rounds] b

/-- What is handed to the encoder when unit `j` is sealed. -/
def encoderInput (S : Sealing) (deps : List (List Bytes)) (chain : Bytes) (b : List Bytes) (j : Nat) : Nat :=
  (leNat (b.getD j []) + leNat (S.H (S.maskInput deps chain b j))) % S.p

/-- The state of a block while it is sealed: after `r` complete rounds and `i` units of the next. -/
def sealState (S : Sealing) (deps : List (List Bytes)) (chain : Bytes) (b : List Bytes) (r i : Nat) : List Bytes :=
  (List.range i).foldl (S.stepUnit deps chain)
    ((fun b => (List.range S.c).foldl (S.stepUnit deps chain) b)^[r] b)

/-- Everything that is handed to the encoder while a block is sealed, in order. -/
def encoderInputs (S : Sealing) (deps : List (List Bytes)) (chain : Bytes) (b : List Bytes) : List Nat :=
  (List.range S.rounds).flatMap (fun r => (List.range S.c).map (fun i =>
    S.encoderInput deps chain (S.sealState deps chain b r i) i))

/-- While a block is sealed, enough of the five numbers drawn for each unit differ from its position. -/
def EnoughSealing (S : Sealing) (cnt : Nat) (deps : List (List Bytes)) (chain : Bytes) (b : List Bytes) : Prop :=
  ∀ r < S.rounds, ∀ j < S.c,
    EnoughDrawn S.H S.c cnt (if j = 0 then [] else (S.sealState deps chain b r j).getD (j - 1) []) j

/-- The blocks that block `k` refers to, when `done` are the sealed blocks before it. -/
def dependencies (S : Sealing) (done : List (List Bytes)) (k : Nat) : List (List Bytes) :=
  (S.long (S.H (done.getD (k - 1) []).flatten) k).map (fun i => done.getD i [])

/-- The chaining value of block `k`: the initial vector or the identifier of the block before it. -/
def chaining (S : Sealing) (done : List (List Bytes)) (k : Nat) : Bytes :=
  if k = 0 then S.iv else S.H (done.getD (k - 1) []).flatten

/-- The first `k` sealed blocks of the plain blocks `plain 0, plain 1, ...`. -/
def sealedBlocks (S : Sealing) (plain : Nat → List Bytes) : Nat → List (List Bytes)
  | 0 => []
  | k + 1 =>
    let done := sealedBlocks S plain k
    done ++ [S.sealOne (S.dependencies done k) (S.chaining done k) (plain k)]

/-- Everything that is handed to the encoder while the first `k` blocks are sealed, in order. -/
def allEncoderInputs (S : Sealing) (plain : Nat → List Bytes) (k : Nat) : List Nat :=
  (List.range k).flatMap (fun i =>
    S.encoderInputs (S.dependencies (S.sealedBlocks plain i) i) (S.chaining (S.sealedBlocks plain i) i) (plain i))

end Sealing

end PoS

import Verif.Basic
import Mathlib.Data.List.Dedup
import Mathlib.Data.List.Sort

/-
Model of /repo/proof_of_storage/src/proof_of_storage/depend.rs and of
`create_long_depend` / `create_short_depend` (prover.rs 9-25).
-/

namespace PoS

/-- `long_mode_1`, depend.rs 5-17. -/
def longMode1 (index count : Nat) : R (List Nat) :=
  forUp count (fun i acc =>
    let dis := 1 + 2 * i
    if index ≥ dis then pure (acc ++ [index - dis]) else pure acc) []

/-- `long_mode_2`, depend.rs 19-33 (`usize::pow` overflows for `i >= 64`). -/
def longMode2 (index count : Nat) : R (List Nat) :=
  forUp count (fun i acc => do
    let pw ← pow2! i
    let dis := 1 + pw
    if index ≥ dis then pure (acc ++ [index - dis]) else pure acc) []

/-- `long_mode_3`, depend.rs 35-48. -/
def longMode3 (index : Nat) : R (List Nat) :=
  let count := index / 10
  forUp count (fun i acc => do
    let pw ← pow2! i
    let dis := 1 + pw
    if index ≥ dis then pure (acc ++ [index - dis]) else pure acc) []

/-- Number of hash bytes per index, depend.rs 58-68 and 225-235. -/
def stepOf (num : Nat) : Nat :=
  if num ≤ 2 ^ 8 then 1 else if num ≤ 2 ^ 16 then 2 else 3

/-- The values of `(0..16).step_by(step)`, depend.rs 75, 97, 242, 266. -/
def positions (step : Nat) : List Nat :=
  (List.range ((16 + step - 1) / step)).map (· * step)

/-- `blake3(..).as_bytes().as_slice()[..16].try_into().unwrap()`, depend.rs 74, 95, 241, 264. -/
def hash16 (H : Bytes → Bytes) (data : Bytes) : R Bytes := slice! (H data) 0 16

/-- `data_idx`, depend.rs 77-80 (and 99-102, 244-247, 268-271):
`for j in 0..step { data_idx += j * 256 + data_hash[i + j] }`. -/
def dataIdx (hash : Bytes) (step i : Nat) : R Nat :=
  forUp step (fun j acc => do
    let b ← at! hash (i + j)
    pure (acc + (j * 2 ^ 8 + b.toNat))) 0

/-- One pass over the hash bytes in `long_mode_random`, depend.rs 75-88 and 97-110:
state is (`long_index`, `c`); the `else` branch breaks. -/
def longScan (hash : Bytes) (step index count : Nat) :
    List Nat → List Nat × Nat → R (List Nat × Nat)
  | [], s => .ok s
  | i :: is, (acc, c) =>
    if c < count then do
      let d ← dataIdx hash step i
      let dep ← mod! d index
      longScan hash step index count is (acc ++ [dep], c + 1)
    else .ok (acc, c)

/-- The re-hashing loop of `long_mode_random`, depend.rs 90-115:
`for _ in 1..count/(8*step)`, leaving early when `c >= count`.  First argument:
remaining iterations. -/
def longRehash (H : Bytes → Bytes) (step index count : Nat) :
    Nat → Bytes → List Nat × Nat → R (List Nat × Nat)
  | 0, _, s => .ok s
  | r + 1, hash, s => do
    let hash ← hash16 H hash
    let s ← longScan hash step index count (positions step) s
    if s.2 ≥ count then pure s else longRehash H step index count r hash s

/-- Collecting into a `HashSet`, then into a `Vec`, then `sort()`,
depend.rs 116-117 and 287-288. -/
def sortDedup (l : List Nat) : List Nat := l.dedup.insertionSort (· ≤ ·)

/-- `long_mode_random`, depend.rs 50-120. -/
def longModeRandom (H : Bytes → Bytes) (num : Nat) (data : Bytes) (index count : Nat) :
    R (List Nat) :=
  if index = 0 then .ok []
  else do
    let step := stepOf num
    let hash ← hash16 H data
    let s ← longScan hash step index count (positions step) ([], 0)
    let s ← longRehash H step index count (count / (8 * step) - 1) hash s
    pure (sortDedup s.1)

/-- `long_depend`, depend.rs 122-144. -/
def longDepend (index count mode : Nat) : R (List Nat) :=
  if mode = 1 then longMode1 index count
  else if mode = 2 then longMode2 index count
  else if mode = 3 then longMode3 index
  else .ok []

/-- The `loop` of `short_mode_1`, depend.rs 153-182.  The loop leaves as soon as
both directions are out of range, so it makes at most `num + index + 1`
iterations, which is the fuel given below. -/
def shortMode1Loop (num index count : Nat) : Nat → Nat → List Nat → List Nat
  | 0, _, acc => acc
  | fuel + 1, epoch, acc =>
    if acc.length ≥ count then acc
    else
      let dis := 1 + 2 * epoch
      if index < dis ∧ index + dis ≥ num then acc
      else
        let acc := if index ≥ dis then acc ++ [index - dis] else acc
        if acc.length ≥ count then acc
        else
          let acc := if index + dis < num then acc ++ [index + dis] else acc
          shortMode1Loop num index count fuel (epoch + 1) acc

/-- `short_mode_1`, depend.rs 146-190 (the final loop only prints). -/
def shortMode1 (num index count : Nat) : R (List Nat) :=
  .ok (shortMode1Loop num index count (num + index + 1) 0 [])

/-- `short_mode_2`, depend.rs 192-219.  Loop state: (`short_index`, `flag`); the
`Bool` third component records the `break`. -/
def shortMode2 (num index count : Nat) : R (List Nat) := do
  let s ← forUp count (fun i (s : List Nat × Bool × Bool) =>
    if s.2.2 then pure s
    else do
      let pw1 ← pow2! i
      let dis1 ← sub! 1 pw1
      let pw2 ← pow2! i
      let dis2 := 1 + pw2
      let idx ← (if s.2.1 = true then sub! index dis1 else sub! index dis2 : R Nat)
      if idx ≥ num then pure (s.1, !s.2.1, true)
      else pure (s.1 ++ [idx], !s.2.1, false)) ([], false, false)
  pure s.1

/-- One pass over the hash bytes in `short_depend_random`, depend.rs 242-257 and
266-281. -/
def shortScan (hash : Bytes) (step num index count : Nat) :
    List Nat → List Nat × Nat → R (List Nat × Nat)
  | [], s => .ok s
  | i :: is, (acc, c) =>
    if c < count then do
      let d ← dataIdx hash step i
      let dep ← mod! d num
      if dep ≠ index then
        shortScan hash step num index count is (acc ++ [dep], c + 1)
      else
        shortScan hash step num index count is (acc, c)
    else .ok (acc, c)

/-- The re-hashing loop of `short_depend_random`, depend.rs 259-286. -/
def shortRehash (H : Bytes → Bytes) (step num index count : Nat) :
    Nat → Bytes → List Nat × Nat → R (List Nat × Nat)
  | 0, _, s => .ok s
  | r + 1, hash, s => do
    let hash ← hash16 H hash
    let s ← shortScan hash step num index count (positions step) s
    if s.2 ≥ count then pure s else shortRehash H step num index count r hash s

/-- `short_depend_random`, depend.rs 221-290. -/
def shortDependRandom (H : Bytes → Bytes) (num : Nat) (data : Bytes) (index count : Nat) :
    R (List Nat) := do
  let step := stepOf num
  let hash ← hash16 H data
  let s ← shortScan hash step num index count (positions step) ([], 0)
  let s ← shortRehash H step num index count (count / (8 * step) - 1) hash s
  pure (sortDedup s.1)

/-- `short_depend`, depend.rs 293-312. -/
def shortDepend (num index count mode : Nat) : R (List Nat) :=
  if mode = 1 then shortMode1 num index count
  else if mode = 2 then shortMode2 num index count
  else .ok []

/-- `create_long_depend`, prover.rs 9-16. -/
def createLongDepend (num count mode : Nat) : R (List (List Nat)) :=
  forUp num (fun idx acc => do
    let cur ← longDepend idx count mode
    pure (acc ++ [cur])) []

/-- `create_short_depend`, prover.rs 18-25. -/
def createShortDepend (num count mode : Nat) : R (List (List Nat)) :=
  forUp num (fun idx acc => do
    let cur ← shortDepend num idx count mode
    pure (acc ++ [cur])) []

end PoS

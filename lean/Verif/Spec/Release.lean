import Verif.Model.Release

/-
The dependency lists of a release build, described without loops and without wrap-around.
-/

namespace PoS

/-- Position number `i` of the rule announced by the comment of `short_mode_2` (depend.rs 193-195):
`-1-2^0, -1+2^1, -1-2^2, -1+2^3, …` relative to `index`. -/
def alternating (index i : Nat) : Int := (index : Int) - 1 + (if i % 2 = 0 then -2 ^ i else 2 ^ i)

/-- The positions of that rule up to the first one outside `0 .. num`. -/
def alternatingList (num index count : Nat) : List Nat :=
  (((List.range count).map (alternating index)).takeWhile (fun x => decide (0 ≤ x ∧ x < (num : Int)))).map Int.toNat

/-- `-1-2^i` for the first `count` values of `i` as far as there are such positions; from `i = 64` on
the power is zero and the previous position is listed again. -/
def wrappedPowers (index count : Nat) : List Nat :=
  ((List.range (min count 64)).filter (fun i => decide (2 ^ i < index))).map (fun i => index - 1 - 2 ^ i) ++
    (if index = 0 then [] else List.replicate (count - 64) (index - 1))

/-- The whole life of a stored file in a release build. -/
def storeAndRetrieveR (H : Bytes → Bytes) (params : PosPara) (origin : Bytes) (key : Int) (iv : Bytes) :
    R Bytes := do
  let padded ← copyAndPad origin params.dataL params.unitL
  let st ← sealFileR H params padded key iv
  let plain ← unsealFileR H params st.file key iv
  copyAndCompress plain params.dataL params.unitL params.unitPl

end PoS

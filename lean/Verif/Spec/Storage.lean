import Verif.Model.Verifier
import Mathlib.Data.Nat.Prime.Defs

/-
Specification vocabulary for the storage properties: what a consistent
configuration is, stated on the public parameters only.
-/

namespace PoS

/-- A consistent configuration: `n` blocks of `c` units, one padding byte per unit,
and a prime modulus that is 3 mod 4, exceeds every plaintext unit and every 32-byte
digest, and fits into a padded unit. -/
structure Config (params : PosPara) (p n c : Nat) : Prop where
  unit_pos : 0 < params.unitL
  unit_pl : params.unitPl = params.unitL + 1
  c_pos : 0 < c
  block : params.blockL = c * params.unitL
  block_pl : params.blockPl = c * params.unitPl
  data : params.dataL = n * params.blockL
  prime : p.Prime
  mod4 : p % 4 = 3
  above_units : 256 ^ params.unitL ≤ p
  above_hash : 256 ^ 32 ≤ p
  fits : p ≤ 256 ^ params.unitPl

/-- Every unit stored in the first `n` blocks of the file is a residue. -/
def UnitsBelow (params : PosPara) (p n c : Nat) (file : Bytes) : Prop :=
  ∀ j < n * c, leNat (readFile file (j * params.unitPl) params.unitPl) < p

/-- The whole life of a stored file: pad, seal, unseal, strip the padding. -/
def storeAndRetrieve (H : Bytes → Bytes) (params : PosPara) (origin : Bytes) (key : Int) (iv : Bytes) :
    R Bytes := do
  let padded ← copyAndPad origin params.dataL params.unitL
  let st ← sealFile H params padded key iv
  let plain ← unsealFile H params st.file key iv
  copyAndCompress plain params.dataL params.unitL params.unitPl

/-- No value handed to the delay encoder while sealing `file` was the residue zero. -/
def NoZeroInput (H : Bytes → Bytes) (params : PosPara) (file : Bytes) (key : Int) (iv : Bytes) : Prop :=
  ∀ st, sealFile H params file key iv = .ok st → ∀ v ∈ st.log, v ≠ 0

end PoS

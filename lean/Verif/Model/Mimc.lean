import Verif.Basic
import Mathlib.Algebra.Ring.Defs

/-
Model of /repo/proof_of_space/src/mimc/mimc_df.rs and mimc_hash.rs, over any commutative ring
(the code is generic over `F: Field`; only ring operations are used).
-/

namespace PoS

variable {F : Type} [CommRing F]

/-- `MIMC3_DF_ROUNDS`, mimc_df.rs 3. -/
def MIMC3_DF_ROUNDS : Nat := 322
/-- `MIMC5_DF_ROUNDS`, mimc_df.rs 4. -/
def MIMC5_DF_ROUNDS : Nat := 10
/-- `MIMC5_HASH_ROUNDS`, mimc_hash.rs 6. -/
def MIMC5_HASH_ROUNDS : Nat := 10
/-- `MIMC7_HASH_ROUNDS`, mimc_hash.rs 8. -/
def MIMC7_HASH_ROUNDS : Nat := 91

/-- One round of `mimc3_df`, mimc_df.rs 12-19; state `(xl, xr)`. -/
def mimc3Round (c : F) (s : F × F) : F × F :=
  let tmp1 := s.1 + c
  let tmp2 := tmp1 * tmp1
  let tmp2 := tmp2 * tmp1
  let tmp2 := tmp2 + s.2
  (tmp2, s.1)

/-- `mimc3_df`, mimc_df.rs 8-23. -/
def mimc3Df (xl xr : F) (constants : List F) : R F := do
  if constants.length ≠ MIMC3_DF_ROUNDS then .error .assertion
  else do
    let s ← forUp MIMC3_DF_ROUNDS (fun i s => do
      let c ← at! constants i
      pure (mimc3Round c s)) (xl, xr)
    pure s.1

/-- One round of `mimc5_df`, mimc_df.rs 29-38; state `(xl, xr)`. -/
def mimc5Round (c : F) (s : F × F) : F × F :=
  let tmp1 := s.1 + c
  let tmp2 := tmp1 * tmp1
  let tmp5 := tmp2 * tmp2
  let tmp5 := tmp5 * tmp1
  let tmp5 := tmp5 + s.2
  (tmp5, s.1)

/-- `mimc5_df`, mimc_df.rs 25-42. -/
def mimc5Df (xl xr : F) (constants : List F) : R F := do
  if constants.length ≠ MIMC5_DF_ROUNDS then .error .assertion
  else do
    let s ← forUp MIMC5_DF_ROUNDS (fun i s => do
      let c ← at! constants i
      pure (mimc5Round c s)) (xl, xr)
    pure s.1

/-- `mimc7_hash`, mimc_hash.rs 10-32. -/
def mimc7Hash (xIn key : F) (constants : List F) : R F := do
  let h ← forUp MIMC7_HASH_ROUNDS (fun i h => do
    let t ← (if i = 0 then pure (xIn + key)
      else do
        let c ← at! constants i
        pure (h + key + c) : R F)
    let t2 := t * t
    let t7 := t2 * t2
    let t7 := t7 * t2
    let t7 := t7 * t
    pure t7) 0
  pure (h + key)

/-- `multi_mimc7_hash`, mimc_hash.rs 34-42. -/
def multiMimc7Hash (xs : List F) (key : F) (constants : List F) : R F :=
  forEach xs (fun x r => do
    let h ← mimc7Hash x r constants
    pure (r + x + h)) key

/-- `mimc5_hash`, mimc_hash.rs 44-65. -/
def mimc5Hash (xIn key : F) (constants : List F) : R F := do
  let h ← forUp MIMC5_HASH_ROUNDS (fun i h => do
    let t ← (if i = 0 then pure (xIn + key)
      else do
        let c ← at! constants i
        pure (h + key + c) : R F)
    let t2 := t * t
    let t5 := t2 * t2
    let t5 := t5 * t
    pure t5) 0
  pure (h + key)

/-- `multi_mimc5_hash`, mimc_hash.rs 67-75. -/
def multiMimc5Hash (xs : List F) (key : F) (constants : List F) : R F :=
  forEach xs (fun x r => do
    let h ← mimc5Hash x r constants
    pure (r + x + h)) key

end PoS

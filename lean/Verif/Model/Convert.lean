import Verif.Basic

/-
Model of /repo/proof_of_space/src/proof_of_space/convert.rs.
-/

namespace PoS

/-- The inner loop of `bytes_to_bits`, convert.rs 8-16: `k` times the lowest bit, then halve. -/
def bitsOf : Nat → Nat → List Bool
  | 0, _ => []
  | k + 1, x => (if x % 2 = 1 then true else false) :: bitsOf k (x / 2)

/-- `bytes_to_bits`, convert.rs 1-20. -/
def bytesToBits (x : Bytes) : List Bool :=
  (x.map (fun xi => bitsOf 8 xi.toNat)).flatten

/-- State of `bits_to_bytes`: `res`, `j`, `tmp`, `base` (the last two are `u8`). -/
structure PackState where
  res : Bytes
  j : Nat
  tmp : Nat
  base : Nat

/-- Checked `u8` result of an addition or multiplication. -/
def u8! (n : Nat) : R Nat := if n < 256 then .ok n else .error .overflow

/-- One iteration of `bits_to_bytes`, convert.rs 29-47. -/
def packStep (b : Bool) (s : PackState) : R PackState := do
  let prod ← u8! (s.base * (if b = false then 0 else 1))
  let tmp ← u8! (s.tmp + prod)
  let j := s.j + 1
  if j = 8 then pure { res := s.res ++ [UInt8.ofNat tmp], j := 0, tmp := 0, base := 1 }
  else do
    let base ← u8! (s.base * 2)
    pure { res := s.res, j := j, tmp := tmp, base := base }

/-- `bits_to_bytes`, convert.rs 22-54. -/
def bitsToBytes (x : List Bool) : R Bytes := do
  let s ← forEach x packStep { res := [], j := 0, tmp := 0, base := 1 }
  if s.j ≠ 0 then pure (s.res ++ [UInt8.ofNat s.tmp]) else pure s.res

/-- Checked `usize` (64-bit) result. -/
def usize! (n : Nat) : R Nat := if n < 2 ^ 64 then .ok n else .error .overflow

/-- `bits_to_usize`, convert.rs 56-72; state `(res, base)`. -/
def bitsToUsize (x : List Bool) : R Nat := do
  let s ← forEach x (fun b (s : Nat × Nat) => do
    let prod ← usize! (s.2 * (if b = false then 0 else 1))
    let res ← usize! (s.1 + prod)
    let base ← usize! (s.2 * 2)
    pure (res, base)) (0, 1)
  pure s.1

/-- The loop of `usize_to_bits`, convert.rs 79-89; fuel bounds the iterations by `x`. -/
def usizeToBitsLoop (n : Nat) : Nat → Nat → Nat → List Bool → R (List Bool)
  | 0, _, _, res => pure res
  | fuel + 1, x, i, res =>
    if x > 0 then do
      let res ← (if x % 2 = 1 then put! res i true else pure res : R (List Bool))
      let x := x / 2
      let i := i + 1
      if i ≥ n then pure res else usizeToBitsLoop n fuel x i res
    else pure res

/-- `usize_to_bits`, convert.rs 74-91. -/
def usizeToBits (x n : Nat) : R (List Bool) := usizeToBitsLoop n x x 0 (List.replicate n false)

end PoS

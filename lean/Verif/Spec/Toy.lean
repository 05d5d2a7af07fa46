import Verif.Spec.Storage

/-
A small concrete instance used by the non-vacuity examples: a toy 32-byte hash and a
configuration with few, full-size units.
-/

namespace PoS

/-- A toy hash with 32 output bytes that depends on every input byte. -/
def toyHash (x : Bytes) : Bytes :=
  let s := x.foldl (fun a b => a * 31 + b + 7) (11 : UInt8)
  [s, s * s + 3, s * 5 + 1, s ^^^ 90, s * 77, s + 41, s * s * s, s ^^^ 165,
   s * 3, s + 1, s + 2, s + 3, s + 4, s + 5, s + 6, s + 7] ++ zeros 16

/-- `n` blocks of `c` units of 63 bytes. -/
def toyParams (n c : Nat) (modeL modeS cntL cntS rounds : Nat) : PosPara :=
  { dataL := n * (c * 63), unitL := 63, blockL := c * 63, bigBlockL := c * 63
    unitPl := 64, blockPl := c * 64, bigBlockPl := c * 64
    sealRounds := rounds, vdeRounds := 1, vdeMode := "sloth"
    modeL := modeL, modeS := modeS, cntL := cntL, cntS := cntS, leavesToProveCount := 1 }

/-- A file with varying content. -/
def toyFile (len : Nat) : Bytes := (List.range len).map (fun i => UInt8.ofNat (i * i + 3 * i + 1))

end PoS

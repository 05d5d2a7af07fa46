import Verif.Model.Sloth
import Verif.Model.Common

/-
Model of /repo/proof_of_storage/src/vde/rug_vde.rs (namespace `Rug`) and
/repo/proof_of_storage/src/vde/numbig_vde.rs (namespace `Num`).
-/

namespace PoS

namespace Rug

/-- `vde`, rug_vde.rs 4-19: both branches of the `mode` test call `sloth`. -/
def vde (x : Bytes) (p : Int) (t : Nat) (mode : String) (l : Nat) : Bytes :=
  let curX : Int := (leNat x : Int)
  let y := if mode = "sloth" then sloth curX p t else sloth curX p t
  let yBytes := toLE y.natAbs
  if yBytes.length < l then yBytes ++ zeros (l - yBytes.length) else yBytes

/-- `vde_inv`, rug_vde.rs 21-37. -/
def vdeInv (y : Bytes) (p : Int) (t : Nat) (mode : String) (l : Nat) : Bytes :=
  let curY : Int := (leNat y : Int)
  let x := if mode = "sloth" then slothInv curY p t else slothInv curY p t
  let xBytes := toLE x.natAbs
  if xBytes.length < l then xBytes ++ zeros (l - xBytes.length) else xBytes

end Rug

namespace Num

/-- `single_vde`, numbig_vde.rs 4-11. -/
def singleVde (x p : Int) (t : Nat) (mode : String) : Int :=
  if mode = "sloth" then sloth x p t else sloth x p t

/-- `single_vde_inv`, numbig_vde.rs 13-20. -/
def singleVdeInv (y p : Int) (t : Nat) (mode : String) : Int :=
  if mode = "sloth" then slothInv y p t else slothInv y p t

/-- `BigInt::to_bytes_le().1`: minimal little-endian digits of the absolute value,
`[0]` for zero. -/
def toBytesLe (x : Int) : Bytes := if x = 0 then [0] else toLE x.natAbs

/-- `vde`, numbig_vde.rs 34-50: `for i in (0..x.len()).step_by(l)` over chunks
`x[i .. i + l]`; the chunks are those of `toUnits` (same loop and same panics). -/
def vde (x : Bytes) (p : Int) (t : Nat) (mode : String) (l : Nat) : R Bytes := do
  let chunks ← toUnits x l
  forEach chunks (fun buf res =>
    let y := singleVde (leNat buf : Int) p t mode
    let yBytes := toBytesLe y
    let yBytes := if yBytes.length < l then yBytes ++ zeros (l - yBytes.length) else yBytes
    pure (res ++ yBytes)) []

/-- `vde_inv`, numbig_vde.rs 52-68. -/
def vdeInv (y : Bytes) (p : Int) (t : Nat) (mode : String) (l : Nat) : R Bytes := do
  let chunks ← toUnits y l
  forEach chunks (fun buf res =>
    let x := singleVdeInv (leNat buf : Int) p t mode
    let xBytes := toBytesLe x
    let xBytes := if xBytes.length < l then xBytes ++ zeros (l - xBytes.length) else xBytes
    pure (res ++ xBytes)) []

end Num

end PoS
